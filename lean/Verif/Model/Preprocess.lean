import Verif.Model.Segments
import Verif.Py.Sort
import Verif.Py.Strings

/-!
# Model: `preprocess_stream` (correlate.py:1303-1391)

A channel is the number of its station and its own number, both in alphabetical order of the codes.
Samples of any type `α`; detrending, gap handling and the deconvolution of the response are parameters.
-/

namespace SeisMIC

variable {α : Type}

/-- station and channel -/
abbrev Chan := Nat × Nat

/-- a stream: traces with their channels -/
abbrev ChanStream (α : Type) := List (Chan × GapTr α)

/-- the parts of the store client that are used: the channels whose responses are in
`store_client.inventory`, and the inventories that were written to disk -/
structure RespStore where
  inv : List Chan
  written : List (List Chan)
deriving DecidableEq

/-- obspy's `Stream.remove_response`: each trace in turn, in place; a missing response is a ValueError
(`false`), the traces before it keep their new data -/
def removeResponse (dec : List α → List α) (inv : List Chan) : List (Chan × Part α) → List (Chan × Part α) × Bool
  | [] => ([], true)
  | (c, p) :: rest =>
    if c ∈ inv then
      let r := removeResponse dec inv rest
      ((c, (p.1, dec p.2)) :: r.1, r.2)
    else ((c, p) :: rest, false)

/-- removal of the response with a second try (correlate.py:1354-1365), for a stream with at least one
trace. `remote` is `get_stations` for a station. `_write_inventory` (waveform.py:380-390) adds the new
inventory to the client's inventory, and so does `inv += ninv` to the same object. -/
def responseStep (dec : List α → List α) (remote : Nat → Except PyErr (List Chan)) (s : RespStore) (st : List (Chan × Part α)) :
    Except PyErr (List (Chan × Part α)) × RespStore :=
  let r := removeResponse dec s.inv st
  if r.2 then (.ok r.1, s)
  else
    match r.1 with
    | [] => (.error .indexError, s)
    | t :: _ =>
      match remote t.1.1 with
      | .error e => (.error e, s)
      | .ok ninv =>
        let r' := removeResponse dec ninv r.1
        if r'.2 then (.ok r'.1, { inv := s.inv ++ ninv ++ ninv, written := s.written ++ [ninv] })
        else (.error .valueError, s)

/-- a preprocessing step of the parameter file: name and function with its arguments -/
structure PrepStep (α : Type) where
  name : Str
  run : ChanStream α → Except PyErr (ChanStream α)

/-- steps that are skipped with a warning (correlate.py:1378-1384) -/
def stepIgnored (name : Str) : Bool := isSub c!"detrend_st" name || isSub c!"cos_taper_st" name

/-- the loop over the steps (correlate.py:1376-1386) -/
def runSteps : List (PrepStep α) → ChanStream α → Except PyErr (ChanStream α)
  | [], st => .ok st
  | step :: steps, st =>
    if stepIgnored step.name then runSteps steps st
    else do runSteps steps (← step.run st)

/-- obspy's `Stream.merge` of traces of one channel in order of time without overlap -/
def mergeGaps : List (GapTr α) → Option (GapTr α)
  | [] => none
  | (s, d) :: rest =>
    match mergeGaps rest with
    | none => some (s, d)
    | some (s', d') => some (s, d ++ List.replicate (s' - s - d.length).toNat none ++ d')

/-- order of channels -/
def chanLe (a b : Chan) : Bool := decide (a.1 < b.1 ∨ a.1 = b.1 ∧ a.2 ≤ b.2)

/-- obspy's `Stream.merge`: one trace for each channel, in order of the channels -/
def mergeSt (st : ChanStream α) : ChanStream α :=
  (isort chanLe (st.map (·.1)).eraseDups).filterMap fun c =>
    (mergeGaps (isort (fun a b => decide (a.1 ≤ b.1)) ((st.filter fun x => x.1 == c).map (·.2)))).map fun t => (c, t)

/-- `trim(startt, endt, pad=True)` with the first and last sample by number -/
def trimGap (a b : Int) (tr : GapTr α) : GapTr α := (a, (List.range (b - a + 1).toNat).map fun k : Nat => tr.at (a + k))

/-- the constants of a run: sampling rate, `corr_len`, whether the response is removed -/
structure PrepConf where
  sr : Rat
  corrLen : Rat
  removeResp : Bool

/-- `discard_short_traces(st, corr_len/20)` (correlate.py:1374, 1390; miic_utils.py:348-363) -/
def longEnough (cf : PrepConf) (n : Nat) : Bool := decide (cf.corrLen / 20 < (n : Rat) / cf.sr)

/-- `preprocess_stream` (correlate.py:1303-1391). `gap` is `gap_handler`, `pol` is `correct_polarity`, called
if the inventory is not empty. -/
def preprocessStream (cf : PrepConf) (detrend dec : List α → List α) (gap : GapTr α → Except PyErr (Option (GapTr α)))
    (pol : List Chan → List (Chan × Part α) → List (Chan × Part α)) (remote : Nat → Except PyErr (List Chan))
    (steps : List (PrepStep α)) (a b : Int) (s : RespStore) (st : ChanStream α) : Except PyErr (ChanStream α) × RespStore :=
  if st = [] then (.ok [], s)
  else
    match st.mapM (fun x => (detrendTrace detrend x.2).map fun t => (x.1, t)) with
    | .error e => (.error e, s)
    | .ok st =>
      match st.mapM (fun x => (gap x.2).map fun t => t.map fun t => (x.1, t)) with
      | .error e => (.error e, s)
      | .ok l =>
        let st := l.filterMap id
        if st = [] then (.ok [], s)
        else
          let ps := isort (fun x y => decide (x.2.1 ≤ y.2.1)) (st.flatMap fun x => (splitParts x.2.1 x.2.2).map fun p => (x.1, p))
          let r := if cf.removeResp then responseStep dec remote s ps else (.ok ps, s)
          match r.1 with
          | .error e => (.error e, r.2)
          | .ok ps =>
            let ps := if r.2.inv = [] then ps else pol r.2.inv ps
            let ps := ps.filter fun x => longEnough cf x.2.2.length
            match runSteps steps (ps.map fun x => (x.1, (x.2.1, x.2.2.map some))) with
            | .error e => (.error e, r.2)
            | .ok st =>
              let st := (mergeSt st).map fun x => (x.1, trimGap a b x.2)
              (.ok (st.filter fun x => longEnough cf x.2.2.length), r.2)

end SeisMIC
