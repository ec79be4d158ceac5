import Verif.Model.Combis
import Verif.Model.Partition

/-!
# A correlation run: loop, writing, windows, restart

src/seismic/correlate/correlate.py:316-642, 1394-1435.
-/

namespace SeisMIC

/-! ### The loop of `pxcorr` -/

/-- the loop over the windows: what was yielded and `write_flag` -/
def genStep {α : Type} (acc : List (α × Bool) × Bool) (w : Option α) : List (α × Bool) × Bool :=
  match w with
  | none => acc
  | some x => (acc.1 ++ [(x, acc.2)], false)

/-- What `_generate_data` yields for one read increment (correlate.py:496-642).
A window is `none` if the loop is left by `continue`. The first window that is
yielded carries the write flag (497, 641-642). An increment whose preprocessing
fails (`continue` in 526, 544) is the empty list. -/
def genIncrement {α : Type} (wins : List (Option α)) : List (α × Bool) := (wins.foldl genStep ([], true)).1

/-- `_generate_data`: all read increments in order -/
def generateData {α : Type} (incs : List (List (Option α))) : List (α × Bool) :=
  incs.flatMap genIncrement

/-- The body of the loop of `pxcorr` (correlate.py:341-351): the streams handed
to `_write` so far and the correlations kept in memory. -/
def pxcorrStep {κ : Type} (s : List (List κ) × List κ) (y : List κ × Bool) : List (List κ) × List κ :=
  let cst := s.2 ++ y.1
  if y.2 then
    if cst ≠ [] then (s.1 ++ [cst], []) else (s.1, cst)
  else (s.1, cst)

/-- `pxcorr` (correlate.py:341-356): the streams that are handed to `_write`. The
correlations of the windows are given (`_pxcorr_inner`). -/
def pxcorrWrites {κ : Type} (ys : List (List κ × Bool)) : List (List κ) :=
  let s := ys.foldl pxcorrStep ([], [])
  if s.2 ≠ [] then s.1 ++ [s.2] else s.1

/-! ### Collective calls -/

/-- `int(np.ceil(a / b))` for `b > 0` -/
def ceilDiv (a b : Int) : Nat := (-((-a) / b)).toNat

/-- first and last sample time of a trace (nanoseconds) -/
structure Span where
  start : Int
  stop : Int
  deriving DecidableEq

/-- Number of windows that `generate_corr_inc` yields (correlate.py:1394-1435).
For a non-empty stream these are the windows of obspy's `Stream.slide`: they
start at the first sample and are repeated until the last sample of the stream;
windows without any data are left out. Simplification: a window has data iff a
trace overlaps it (gaps inside traces are masked samples). A process without
data yields `ceil(read_len / corr_inc)` empty windows. -/
def numWindows (st : List Span) (corrLen corrInc delta readLen : Int) : Nat :=
  match st with
  | [] => ceilDiv readLen corrInc
  | tr :: rest =>
    let t0 := rest.foldl (fun m s => min m s.start) tr.start
    let t1 := rest.foldl (fun m s => max m s.stop) tr.stop
    ((List.range (ceilDiv (t1 - t0) corrInc)).filter fun k : Nat =>
      (tr :: rest).any fun s =>
        decide (s.start ≤ t0 + k * corrInc + (corrLen - delta)) && decide (t0 + k * corrInc ≤ s.stop)).length

/-- Number of calls of `allgather` of one process in one read increment
(correlate.py:519-556): none if resampling or preprocessing raises `ValueError`. -/
def gatherCalls (failed : Bool) (st : List Span) (corrLen corrInc delta readLen : Int) : Nat :=
  if failed then 0 else numWindows st corrLen corrInc delta readLen

/-! ### Writing -/

/-- a correlation with its place in the database -/
structure Out (δ : Type) where
  path : HPath
  val : δ
  deriving DecidableEq

variable {δ : Type}

/-- `f'{network}.{station}'`, with `.{channel}` if components are saved separately
(correlate.py:411-418) -/
def Out.code (sep : Bool) (o : Out δ) : Str :=
  if sep then o.path.net ++ c!"." ++ o.path.sta ++ c!"." ++ o.path.cha
  else o.path.net ++ c!"." ++ o.path.sta

/-- `codelist = list(set(...)); codelist.sort()` (correlate.py:411-420) -/
def codelist (sep : Bool) (cst : List (Out δ)) : List Str :=
  isort strLe (cst.map (Out.code sep)).eraseDups

/-- `str.upper` (ASCII) -/
def upper (s : Str) : Str := s.map Char.toUpper

/-- comparison in obspy's `Stream.select`: patterns, case is ignored -/
def obsMatch (s pat : Str) : Bool := fnmatch (upper s) (upper pat)

/-- `_write` on one process (correlate.py:400-449): file names and the
correlations added to these files. Only the single correlations (tag
`subdivision`, `delete_subdivision = False`) are modelled. -/
def writeRank (sep : Bool) (psize rank : Nat) (cst : List (Out δ)) : Except PyErr (List (Str × List (Out δ))) :=
  (ownItems (codelist sep cst) psize rank).mapM fun code =>
    if sep then
      match splitOn '.' code with
      | [net, stat, cha] => .ok (net ++ c!"." ++ stat ++ c!"." ++ cha ++ c!".h5",
          cst.filter fun o => obsMatch o.path.net net && obsMatch o.path.sta stat && obsMatch o.path.cha cha)
      | _ => .error .valueError
    else
      match splitOn '.' code with
      | [net, stat] => .ok (net ++ c!"." ++ stat ++ c!".h5",
          cst.filter fun o => obsMatch o.path.net net && obsMatch o.path.sta stat)
      | _ => .error .valueError

/-! ### Windows of a run and restart -/

/-- The pairs of traces that are correlated in one window (correlate.py:557-601,
without preprocessing of the window): combinations, removal of the traces that
are not used, combinations of the remaining traces. -/
def windowPairs (fiss : Int → Str) (ex : ExDict) (method : Str) (rcombis : Option (List Str))
    (win : List TrHead) : Except PyErr (List (TrHead × TrHead)) := do
  let win := isort trLe win
  let combis ← calcCrossCombis fiss win ex method rcombis
  let get (w : List TrHead) (p : Nat × Nat) : TrHead × TrHead :=
    (w.getD p.1 ⟨[], [], [], [], 0⟩, w.getD p.2 ⟨[], [], [], [], 0⟩)
  if combis = [] then pure []
  else
    let popindices := (List.range win.length).filter fun i => !(combis.any fun p => p.1 == i || p.2 == i)
    let win' := ((List.range win.length).filter fun i => !(popindices.contains i)).map
      fun i => win.getD i ⟨[], [], [], [], 0⟩
    if popindices ≠ [] then
      let combis' ← calcCrossCombis fiss win' ex method rcombis
      pure (combis'.map (get win'))
    else pure (combis.map (get win'))

/-- What is fixed in a run: options and data. `cet` is the formatted end of the
correlated window and `val` the correlation of two traces. Simplification: the
result for a pair depends on these two traces only. -/
structure RunCfg (δ : Type) where
  fiss : Int → Str
  method : Str
  rcombis : Option (List Str)
  cet : TrHead → TrHead → Str
  val : TrHead → TrHead → δ

/-- the correlation of a pair and its place in the database
(corr_hdf5.py:117-131) -/
def RunCfg.out (c : RunCfg δ) (p : TrHead × TrHead) : Out δ :=
  let (n, s, ch) := corrCodes p.1 p.2
  ⟨⟨c!"subdivision", n, s, ch, c.fiss (max p.1.start p.2.start), c.cet p.1 p.2⟩, c.val p.1 p.2⟩

/-- all correlations of a run in the order in which they are computed -/
def RunCfg.run (c : RunCfg δ) (ex : ExDict) (wins : List (List TrHead)) : Except PyErr (List (Out δ)) := do
  let ps ← wins.mapM (windowPairs c.fiss ex c.method c.rcombis)
  pure (ps.flatten.map c.out)

/-- name of the file of a correlation -/
def Out.file (o : Out δ) : Str := corrFileName o.path.net o.path.sta

/-- adding one correlation to a file of the directory; a missing file is
created -/
def CorrDir.addOne (dir : CorrDir δ) (file : Str) (o : Out δ) : CorrDir δ :=
  match dir with
  | [] => [(file, (⟨true, []⟩ : H5 δ).addOne o.path o.val)]
  | (f, h) :: dir => if f = file then (f, h.addOne o.path o.val) :: dir else (f, h) :: CorrDir.addOne dir file o

/-- adding correlations, each to its file -/
def CorrDir.addAll (dir : CorrDir δ) (l : List (Out δ)) : CorrDir δ :=
  l.foldl (fun d o => d.addOne o.file o) dir

/-- the correlation stored in a file -/
def CorrDir.get (dir : CorrDir δ) (file : Str) (p : HPath) : Option δ := do
  let h ← dir.lookup file
  h.lookup p

end SeisMIC
