import Verif.Model.TraceUtils
import Verif.Model.Taper

/-!
# Model: traces with gaps (preprocessing_stream.py:112-209, miic_utils.py:453-485)

A trace is the number of its first sample and its samples; `none` is a masked sample. Sample `k`
of all traces belongs to the same time. Samples of any type `α`.
-/

namespace SeisMIC

variable {α : Type}

/-- a trace: number of the first sample and samples -/
abbrev GapTr (α : Type) := Int × List (Option α)

/-- a contiguous part of a trace -/
abbrev Part (α : Type) := Int × List α

/-- the value at a time; `none` if it is masked or outside of the trace -/
def GapTr.at (tr : GapTr α) (k : Int) : Option α := if k < tr.1 then none else (tr.2[(k - tr.1).toNat]?).join

/-- obspy's `Trace.split`: the contiguous parts, each with its own start -/
def splitParts : Int → List (Option α) → List (Part α)
  | _, [] => []
  | s, none :: l => splitParts (s + 1) l
  | s, some a :: l =>
    match splitParts (s + 1) l with
    | [] => [(s, [a])]
    | (s', d) :: rest => if s' = s + 1 then (s, a :: d) :: rest else (s, [a]) :: (s', d) :: rest

/-- obspy's `Stream.merge` of parts of one trace in order of time without overlap: one trace with
masked samples in the gaps, no trace if there is no part -/
def mergeParts : List (Part α) → Option (GapTr α)
  | [] => none
  | (s, d) :: rest =>
    match mergeParts rest with
    | none => some (s, d.map some)
    | some (s', d') => some (s, d.map some ++ List.replicate (s' - s - d.length).toNat none ++ d')

/-- the body of the loop in `detrend_st` (preprocessing_stream.py:129-132); `op` is the
detrending of one part. The start of the trace is not changed. `[0]` is an IndexError if there
is no part. -/
def detrendTrace (op : List α → List α) (tr : GapTr α) : Except PyErr (GapTr α) :=
  match mergeParts ((splitParts tr.1 tr.2).map fun p => (p.1, op p.2)) with
  | some m => .ok (tr.1, m.2)
  | none => .error .indexError

/-- `detrend_st` (preprocessing_stream.py:112-133) -/
def detrendSt (op : List α → List α) (st : List (GapTr α)) : Except PyErr (List (GapTr α)) := st.mapM (detrendTrace op)

/-- the body of the loop in `stream_filter` (preprocessing_stream.py:200-204); `op` is the filter
applied to one part -/
def filterTrace (op : List α → List α) (tr : GapTr α) : Option (GapTr α) :=
  mergeParts ((splitParts tr.1 tr.2).map fun p => (p.1, op p.2))

/-- `stream_filter` (preprocessing_stream.py:136-209) -/
def streamFilter (op : List α → List α) (st : List (GapTr α)) : List (GapTr α) := st.filterMap (filterTrace op)

/-- `gap_handler` (miic_utils.py:453-485) for a stream with one trace per id that is not made of
overlapping pieces (`merge(method=-1)` changes nothing). `discard_short_traces` removes the short
parts (C70), `cos_taper_st` leaves a part that is too short for the taper as it is. -/
noncomputable def gapHandler (isInt : Bool) (sr : Rat) (maxLen : Nat) (retainLen taperLen : Rat) (tr : Int × List F) :
    Except PyErr (Option (GapTr ℝ)) := do
  let data ← interpolateGaps tr.2 (some maxLen)
  let parts := splitParts tr.1 (data.map fun x => x.map fun q : Rat => (q : ℝ))
  let parts := parts.filter fun p => decide (retainLen < (p.2.length : Rat) / sr)
  let parts := parts.map fun p =>
    (p.1, (orSame (p.2.map some) (cosTaper isInt sr taperLen (p.2.map some))).filterMap id)
  pure (mergeParts parts)

/-- `correct_polarity` (miic_utils.py:413-431) of the traces of a stream, given as channel code and
samples: `dip` is the dip of the trace in the inventory, a failing lookup ends the loop (it is
caught in correlate.py:1368-1372, so earlier traces stay corrected). -/
def correctPolarity (dip : Nat → Except PyErr Rat) (st : List (Str × List F)) : List (Str × List F) × Option PyErr :=
  go 0 st
where
  go (k : Nat) : List (Str × List F) → List (Str × List F) × Option PyErr
    | [] => ([], none)
    | (cha, d) :: rest =>
      if cha.getLast? = some 'Z' then
        match dip k with
        | .error e => ((cha, d) :: rest, some e)
        | .ok x =>
          let r := go (k + 1) rest
          ((cha, if x > 0 then d.map fun v => v.map fun q => -q else d) :: r.1, r.2)
      else
        let r := go (k + 1) rest
        ((cha, d) :: r.1, r.2)

end SeisMIC
