import Verif.Model.Reference
import Verif.Model.PostCorr

/-!
# Model: the reference trace that a `CorrBulk` remembers

`extract_trace` and `extract_multi_trace` store their result in the attribute `ref_trc`, which
`stretch` and `find_clock_shift` use if no reference is given. Several bulks are modelled, each with
its own data; that bulks can share memory is the subject of Model/Heap.lean.
-/

namespace SeisMIC

noncomputable section

/-- data and the part of the header that is used here -/
structure RData where
  lag : LagStats
  starts : List Int
  ends : List Int
  data : List (List (Option ℝ))

/-- a reference: one trace or several -/
inductive RefTrc where
  | one (l : List (Option ℝ))
  | many (l : List (List (Option ℝ)))

/-- a `CorrBulk` with its attribute `ref_trc` (stream.py:61-70) -/
structure RBulk where
  cur : RData
  ref : Option RefTrc

/-- a call of a method. `X` is the type of the measurements. -/
inductive RCall (X : Type) where
  /-- a method that changes data and header (stream.py:104-226, 263-300, 489-586, 683-750), also if it fails -/
  | process (f : RData → RData × Option PyErr)
  /-- `extract_trace(method, percentile)` -/
  | extract (method : Str) (percentile : ℝ)
  /-- `extract_multi_trace(win_inc, method, percentile)` -/
  | extractMulti (winInc : List Int ⊕ Int) (method : Str) (percentile : ℝ)
  /-- `stretch(ref_trc, ...)` or `find_clock_shift(ref_trc, ...)`, which also change the header; `f` is the
  measurement for data and reference, without reference it computes one itself -/
  | measure (given : Option RefTrc) (f : RData → Option RefTrc → Except PyErr X × RData)
  /-- `measure_shift(ref_trc, ...)` -/
  | shift (given : Option RefTrc) (f : RData → Option RefTrc → Except PyErr X)
  /-- `copy()` -/
  | copy
  /-- `slice(...)`, `bulk[a:b]`, `select_corr_time(...)`: a new bulk -/
  | part (f : RData → Except PyErr RData)

/-- the result of a call -/
inductive ROut (X : Type) where
  | done
  | failed (e : PyErr)
  | ref (r : RefTrc)
  | value (x : X)

/-- `extract_trace` (stream.py:302-334): an exception comes before the assignment -/
def RBulk.extract (b : RBulk) (method : Str) (percentile : ℝ) : Except PyErr RefTrc :=
  (extractTrace b.cur.lag.npts b.cur.data method percentile).map .one

/-- `extract_multi_trace` (stream.py:336-398): for `win_inc=0` it is `extract_trace` -/
def RBulk.extractMulti (b : RBulk) (winInc : List Int ⊕ Int) (method : Str) (percentile : ℝ) : Except PyErr RefTrc :=
  match winInc with
  | .inr 0 => b.extract method percentile
  | w => (SeisMIC.extractMulti b.cur.lag.npts b.cur.starts b.cur.ends b.cur.data w method percentile).map .many

/-- store a reference that was extracted (stream.py:333, 397) -/
def RBulk.store {X : Type} (b : RBulk) : Except PyErr RefTrc → RBulk × ROut X
  | .error e => (b, .failed e)
  | .ok r => ({ b with ref := some r }, .ref r)

/-- the result of a measurement -/
def measured {X : Type} : Except PyErr X → ROut X
  | .error e => .failed e
  | .ok x => .value x

/-- one call on a bulk: the bulk afterwards, a new bulk, and the result.
* `stretch` and `find_clock_shift` take `self.ref_trc` if no reference is given (stream.py:430-431, 618-619)
* `measure_shift` does not (stream.py:483-486)
* `copy` is a deep copy (stream.py:161-167)
* the constructor has no reference (stream.py:70) -/
def RBulk.call {X : Type} (b : RBulk) : RCall X → RBulk × Option RBulk × ROut X
  | .process f => ({ b with cur := (f b.cur).1 }, none, match (f b.cur).2 with | none => .done | some e => .failed e)
  | .extract m p => let r := b.store (b.extract m p); (r.1, none, r.2)
  | .extractMulti w m p => let r := b.store (b.extractMulti w m p); (r.1, none, r.2)
  | .measure given f => let r := f b.cur (given.or b.ref); ({ b with cur := r.2 }, none, measured r.1)
  | .shift given f => (b, none, measured (f b.cur given))
  | .copy => (b, some b, .done)
  | .part f => match f b.cur with
    | .error e => (b, none, .failed e)
    | .ok d => (b, some ⟨d, none⟩, .done)

/-- a call on bulk number `i` of a session; new bulks get the next number. There is nothing to call for
another number. -/
def sessionCall {X : Type} (st : List RBulk) (i : Nat) (c : RCall X) : List RBulk × ROut X :=
  match st[i]? with
  | none => (st, .failed .indexError)
  | some b =>
    let r := b.call c
    (st.set i r.1 ++ r.2.1.toList, r.2.2)

/-- several calls, exceptions are caught: the results and the bulks afterwards -/
def session {X : Type} : List RBulk → List (Nat × RCall X) → List (ROut X) × List RBulk
  | st, [] => ([], st)
  | st, (i, c) :: cs =>
    let r := sessionCall st i c
    let rest := session r.1 cs
    (r.2 :: rest.1, rest.2)

end

end SeisMIC
