import Verif.Model.Stream

/-!
# Model: correlation traces as objects whose data can be deleted

`CorrStream.create_corr_bulk` deletes the data of the traces by default (stream.py:940-941). Streams
share their traces: a stream is a list of references to trace objects.
-/

namespace SeisMIC

variable {V : Type}

/-- a `CorrTrace` object; `none`: the attribute `data` has been deleted (stream.py:941) -/
structure OTr (V : Type) where
  stats : CorrStats V
  data : Option (List F)

/-- the trace objects that exist, by their reference -/
abbrev Objs (V : Type) := Nat → OTr V

/-- `del tr.data` (stream.py:941) -/
def Objs.del (h : Objs V) (r : Nat) : Objs V := fun i => if i = r then { h i with data := none } else h i

/-- `st.select_corr_time(times[0], times[1])` (stream.py:1064-1073) for references; the header decides -/
def selectRefs (h : Objs V) (refs : List Nat) (starttime endtime : Int) : List Nat :=
  (isort (fun a b => decide ((h a).stats.corrStart ≤ (h b).stats.corrStart)) refs).filter fun r =>
    (decide ((h r).stats.corrEnd > starttime) && decide ((h r).stats.corrEnd < endtime)) || decide ((h r).stats.corrEnd = endtime)

/-- the loop over the traces (stream.py:934-942): rows and headers, and the objects afterwards, also
after an exception. A trace without the attribute `data` is an AttributeError. As in `createBulk`,
a row of wrong length is a ValueError. -/
def bulkLoop (sr : Rat) (npts : Int) (inplace : Bool) : Objs V → List Nat → Except PyErr (List (List F × CorrStats V)) × Objs V
  | h, [] => (.ok [], h)
  | h, r :: rs =>
    if (h r).stats.samplingRate ≠ sr then bulkLoop sr npts inplace h rs
    else match (h r).data with
      | none => (.error .attributeError, h)
      | some d =>
        if (d.length : Int) ≠ npts then (.error .valueError, h)
        else
          let h' := if inplace then h.del r else h
          let res := bulkLoop sr npts inplace h' rs
          (res.1.map fun l => (d, (h r).stats) :: l, res.2)

/-- the header of the bulk (stream.py:946-951) -/
def bulkOf (varyingChannel : Bool) (rows : List (List F × CorrStats V)) : Except PyErr (Bulk V) :=
  (convertStatlist (rows.map Prod.snd) varyingChannel).map fun s => ⟨rows.map Prod.fst, s⟩

/-- a call of `create_corr_bulk`: `pick` is the selection of codes, which looks at the header only -/
structure BulkArgs (V : Type) where
  pick : CorrStats V → Bool
  times : Option (Int × Int)
  varyingChannel : Bool
  inplace : Bool

/-- the traces that the call selects (stream.py:922-924) -/
def BulkArgs.selected (a : BulkArgs V) (h : Objs V) (refs : List Nat) : List Nat :=
  let st := refs.filter fun r => a.pick (h r).stats
  match a.times with
  | some (t0, t1) => selectRefs h st t0 t1
  | none => st

/-- `CorrStream.create_corr_bulk` (stream.py:892-951) on the stream `refs`: the result and the
objects afterwards -/
def createBulkObj (h : Objs V) (refs : List Nat) (a : BulkArgs V) : Except PyErr (Bulk V) × Objs V :=
  match a.selected h refs with
  | [] => (.error (if a.times.isSome then .valueError else .typeError), h)
  | r :: rs =>
    let res := bulkLoop (h r).stats.samplingRate (h r).stats.npts a.inplace h (r :: rs)
    (res.1 >>= bulkOf a.varyingChannel, res.2)

/-- several calls on streams one after the other, exceptions are caught: the results and the objects afterwards -/
def bulkCalls : Objs V → List (List Nat × BulkArgs V) → List (Except PyErr (Bulk V)) × Objs V
  | h, [] => ([], h)
  | h, (refs, a) :: cs =>
    let r := createBulkObj h refs a
    let rest := bulkCalls r.2 cs
    (r.1 :: rest.1, rest.2)

end SeisMIC
