import Verif.Py.Basic
import Verif.Model.PostCorr

/-!
# Model: bulk objects as references to arrays and headers

`CorrBulk.data` is a numpy array, which may be a view of the memory of another array; `CorrBulk.stats` is a
reference to a header. Here an array is a view (rows and columns) of a buffer and the memory is a list of buffers and
a list of headers. What the methods compute is a parameter of a call; what is modelled is where they
write it.
-/

namespace SeisMIC

/-- an array: the rows `rows` and the columns `cols` of buffer `buf` -/
structure View where
  buf : Nat
  rows : List Nat
  cols : List Nat
  deriving DecidableEq

/-- a header: the history `processing_bulk` and the other fields -/
structure Hdr (σ : Type) where
  rest : σ
  history : List Str

/-- the memory -/
structure Mem (α σ : Type) where
  bufs : List (List (List α))
  hdrs : List (Hdr σ)

/-- a `CorrBulk`: references to an array and to a header -/
structure BulkRef where
  view : View
  hdr : Nat
  deriving DecidableEq

variable {α σ : Type} [Inhabited α] [Inhabited σ]

/-- one element of a buffer -/
def cell (buf : List (List α)) (r c : Nat) : α := (buf.getD r []).getD c default

/-- the values of an array -/
def Mem.read (m : Mem α σ) (v : View) : List (List α) := v.rows.map fun r => v.cols.map fun c => cell (m.bufs.getD v.buf []) r c

/-- the header of a bulk -/
def Mem.header (m : Mem α σ) (i : Nat) : Hdr σ := m.hdrs.getD i ⟨default, []⟩

/-- an assignment to all elements of an array (`data[...] = x`, `data /= x`) -/
def Mem.write (m : Mem α σ) (v : View) (x : List (List α)) : Mem α σ :=
  { m with bufs := m.bufs.modify v.buf fun buf => buf.mapIdx fun r row => row.mapIdx fun c old =>
      if r ∈ v.rows ∧ c ∈ v.cols then (x.getD (v.rows.idxOf r) []).getD (v.cols.idxOf c) default else old }

/-- a new array -/
def Mem.alloc (m : Mem α σ) (x : List (List α)) : Mem α σ × View :=
  ({ m with bufs := m.bufs ++ [x] }, ⟨m.bufs.length, List.range x.length, List.range ((x.headD []).length)⟩)

/-- a new header -/
def Mem.allocHdr (m : Mem α σ) (h : Hdr σ) : Mem α σ × Nat := ({ m with hdrs := m.hdrs ++ [h] }, m.hdrs.length)

/-- an assignment to fields of a header -/
def Mem.setHdr (m : Mem α σ) (i : Nat) (h : Hdr σ) : Mem α σ := { m with hdrs := m.hdrs.set i h }

/-- the methods of `CorrBulk` that change the data (stream.py:104-750) -/
inductive Meth where
  | normalize | clip | correctDecay | correctStretch | correctShift | envelope | filter | mirror | resample
  | resampleTimeAxis | smooth | taper | taperCenter | trim
  deriving DecidableEq, Repr

/-- how a method treats the array: it writes into it, makes a new one or takes a view -/
inductive DataKind where
  | inplace | fresh | view
  deriving DecidableEq, Repr

/-- * `data /= ...` in `corr_mat_normalize` (post_corr_process.py:445) and `corr_mat_correct_decay` (350), `data *= ...` in
  `corr_mat_taper` (528) and `corr_mat_taper_center` (586), `data[ii, :] = ...` in `apply_shift` (1224) and
  `apply_stretch` (1253), `data[i] = ...`, `data[:, i] = ...` in `corr_mat_smooth` (163, 168)
* new arrays from `np.clip` (52-55), `hilbert` and `np.absolute` (370-373), `lfilter` (220-221, 679-681), `np.zeros` in
  `corr_mat_mirror` (483), `resample` (641), and in `corr_mat_resample` (283)
* a view in `corr_mat_trim` (trim.py:58-63) -/
def Meth.dataKind : Meth → DataKind
  | .normalize | .correctDecay | .correctStretch | .correctShift | .smooth | .taper | .taperCenter => .inplace
  | .clip | .envelope | .filter | .mirror | .resample | .resampleTimeAxis => .fresh
  | .trim => .view

/-- only `corr_mat_mirror` returns a new header (`stats.copy()`, post_corr_process.py:493); all others return the header
they were given -/
def Meth.newHeader : Meth → Bool
  | .mirror => true
  | _ => false

/-- a call of a method: what it computes from data and header. `early` tells whether the function returns its
arguments as they are (a width of zero, a window outside the trace, nothing to mirror). `cols` are the first
column and the number of columns that a trimming keeps. `entry` is the text for the history. -/
structure Call (α σ : Type) where
  meth : Meth
  early : List (List α) → σ → Bool
  data : List (List α) → σ → List (List α)
  rest : List (List α) → σ → σ
  cols : σ → Nat × Nat
  entry : Str

/-- a call of a method on a bulk (stream.py:104-750): `self.data, self.stats = ...` and
`self.stats.processing_bulk += [...]` -/
def Mem.call (m : Mem α σ) (b : BulkRef) (c : Call α σ) : Mem α σ × BulkRef :=
  let x := m.read b.view
  let h := m.header b.hdr
  if c.early x h.rest then (m.setHdr b.hdr { h with history := h.history ++ [c.entry] }, b)
  else
    let (m1, v) := match c.meth.dataKind with
      | .inplace => (m.write b.view (c.data x h.rest), b.view)
      | .fresh => m.alloc (c.data x h.rest)
      | .view => (m, { b.view with cols := (b.view.cols.drop (c.cols h.rest).1).take (c.cols h.rest).2 })
    let new : Hdr σ := ⟨c.rest x h.rest, h.history ++ [c.entry]⟩
    if c.meth.newHeader then
      let (m2, i) := m1.allocHdr new
      (m2, ⟨v, i⟩)
    else (m1.setHdr b.hdr new, ⟨v, b.hdr⟩)

/-- several calls on one bulk -/
def Mem.calls (m : Mem α σ) (b : BulkRef) : List (Call α σ) → Mem α σ × BulkRef
  | [] => (m, b)
  | c :: cs => (m.call b c).1.calls (m.call b c).2 cs

/-- `CorrBulk.copy` (stream.py:161-167): a deep copy -/
def Mem.copy (m : Mem α σ) (b : BulkRef) : Mem α σ × BulkRef :=
  let a := m.alloc (m.read b.view)
  let h := a.1.allocHdr (m.header b.hdr)
  (h.1, ⟨a.2, h.2⟩)

/-- `CorrBulk.slice` (stream.py:653-681): selection of rows with a boolean array, which makes a new array, and a copy
of the header. The constructor resets the history (stream.py:69). `rest` are the other fields of the header for
the selected rows. -/
def Mem.slice (m : Mem α σ) (b : BulkRef) (sel : List Bool) (rest : σ → σ) : Mem α σ × BulkRef :=
  let a := m.alloc (((m.read b.view).zip sel).filterMap fun p => if p.2 then some p.1 else none)
  let h := a.1.allocHdr ⟨rest (m.header b.hdr).rest, []⟩
  (h.1, ⟨a.2, h.2⟩)

/-- `CorrBulk.__getitem__` with a slice of rows (stream.py:72-91): a view of the array, a copy of the header, whose
history the constructor resets -/
def Mem.getRows (m : Mem α σ) (b : BulkRef) (first n : Nat) (rest : σ → σ) : Mem α σ × BulkRef :=
  let h := m.allocHdr ⟨rest (m.header b.hdr).rest, []⟩
  (h.1, ⟨{ b.view with rows := (b.view.rows.drop first).take n }, h.2⟩)

/-- the traces of `CorrBulk.create_corr_stream` (stream.py:228-261): each trace is a view of one row with a copy of
the header -/
def Mem.traces (m : Mem α σ) (b : BulkRef) (rest : Nat → σ → σ) : Mem α σ × List BulkRef :=
  ({ m with hdrs := m.hdrs ++ (List.range b.view.rows.length).map fun i => ⟨rest i (m.header b.hdr).rest, (m.header b.hdr).history⟩ },
    (List.range b.view.rows.length).map fun i => ⟨{ b.view with rows := [b.view.rows.getD i 0] }, m.hdrs.length + i⟩)

/-- the trimming in `corr_mat_stretch` (post_corr_process.py:871-883; `CorrBulk.stretch`, stream.py:588-625): the part
of the data that is compared and the header. The data are copied before, but the header is the one of the bulk,
whose fields `corr_mat_trim` assigns (trim.py:60-66), and it is the header of the result (line 898). -/
def stretchTrim {α : Type} (data : List (List α)) (s : LagStats) (sides : Str) : List (List α) × LagStats :=
  if sides = c!"single" then corrMatTrim data s 0 s.endLag
  else corrMatTrim data s (-(min (-s.startLag) s.endLag)) (min (-s.startLag) s.endLag)

/-- the same in `corr_mat_shift` (post_corr_process.py:973-1019; `CorrBulk.find_clock_shift`, stream.py:400-437) without
a reference trace: the exception for other sides comes after the trimming -/
def shiftTrim {α : Type} (data : List (List α)) (s : LagStats) (sides : Str) : Except PyErr (List (List α)) × LagStats :=
  let t := if sides = c!"single" ∨ sides = c!"right" then corrMatTrim data s 0 s.endLag
    else corrMatTrim data s (-(min (-s.startLag) s.endLag)) (min (-s.startLag) s.endLag)
  (if sides = c!"both" ∨ sides = c!"right" ∨ sides = c!"single" then .ok t.1 else .error .valueError, t.2)

end SeisMIC
