import Verif.Model.Header
import Verif.Model.Wfc

/-!
# Model: files of waveform coherences (monitor/wfc.py:68-77, 134-170)

A file is a dictionary of arrays, `none` is NaN.
-/

namespace SeisMIC

/-- a `WFC` object (wfc.py:24-54) with its header; `mean` is `none` until it is computed (an empty array) -/
structure WfcObj where
  header : List (Str × HVal)
  panel : List (Str × List (List F))
  av : List (Str × F)
  mean : Option F
  proc : List (Str × Rat)

/-- arrays in a file of coherences -/
inductive WArr where
  | np (a : NpArr)
  | panel (m : List (List F))
  /-- an array without dimension -/
  | value (x : F)
  | empty
  deriving DecidableEq

/-- the array of the mean: a value, or an empty array if it was not computed (wfc.py:53) -/
def meanArr : Option F → WArr
  | some x => .value x
  | none => .empty

/-- `WFC.save` (wfc.py:68-77). Arguments with the same name, also the name of the first parameter of `np.savez_compressed`, are a `TypeError`. -/
def saveWfc (rt : Int → Int) (w : WfcObj) : Except PyErr (List (Str × WArr)) := do
  let a ← saveHeader rt w.header
  let kwargs := dictSetAll (a.map fun kv => (kv.1, WArr.np kv.2)) (w.proc.map fun kv => (kv.1, WArr.value (some kv.2)))
  let all := (c!"mean", meanArr w.mean) ::
    (w.av.map fun kv => (kv.1, WArr.value kv.2)) ++ (w.panel.map fun kv => (kv.1, WArr.panel kv.2)) ++ kwargs
  if (all.map Prod.fst).Nodup ∧ c!"file" ∉ all.map Prod.fst then pure all else throw .typeError

/-- where `read_wfc` puts an array (wfc.py:150-158) -/
inductive WfcPart where
  | av
  | mean
  | panel
  | stats
  deriving DecidableEq

/-- the choice by name (wfc.py:151-158) -/
def wfcPart (k : Str) : WfcPart :=
  if c!"_av".isSuffixOf k then .av
  else if k = c!"mean" then .mean
  else if c!"reftr" <:+: k then .panel
  else .stats

/-- an array of the header; arrays without dimension have no first element -/
def WArr.toNp : WArr → NpArr
  | .np a => a
  | .panel m => .mat m
  | .value x => .scalar (x.getD 0)
  | .empty => .nums []

/-- a coherence that was read -/
structure WfcLoaded where
  header : List (Str × HVal)
  panel : List (Str × WArr)
  av : List (Str × WArr)
  mean : WArr
  twStart : WArr
  twLen : WArr
  freqMin : WArr
  freqMax : WArr
  deriving DecidableEq

/-- `stats[key]` -/
def statsItem (stats : List (Str × WArr)) (k : Str) : Except PyErr WArr :=
  match stats.lookup k with
  | some a => .ok a
  | none => .error .keyError

/-- `read_wfc` of one file (wfc.py:146-170). All arrays are read; those of objects can't be (`allow_pickle=False`). -/
def readWfc (file : List (Str × WArr)) : Except PyErr WfcLoaded := do
  if file.any fun kv => decide (kv.2 = .np .objs) then throw .valueError
  let stats := file.filter fun kv => wfcPart kv.1 = .stats
  let ts ← statsItem stats c!"tw_start"
  let tl ← statsItem stats c!"tw_len"
  let f0 ← statsItem stats c!"freq_min"
  let f1 ← statsItem stats c!"freq_max"
  let h ← loadHeader (stats.map fun kv => (kv.1, kv.2.toNp))
  match (file.filter fun kv => wfcPart kv.1 = .mean).getLast? with
  | none => throw .unboundLocalError
  | some m => pure ⟨h, file.filter fun kv => wfcPart kv.1 = .panel, file.filter fun kv => wfcPart kv.1 = .av, m.2, ts, tl, f0, f1⟩

/-- what `read_wfc` returns: an object, or a list for a path with a `*` -/
inductive WfcRead where
  | one (w : WfcLoaded)
  | many (l : List WfcRead)

/-- `read_wfc` (wfc.py:134-170). `glob` are the paths that match a pattern (`glob.glob(path, recursive=True)`), `load` is the content of a file. `none`: no
result within `fuel` nested calls. -/
def readWfcPath (glob : Str → List Str) (load : Str → Except PyErr (List (Str × WArr))) : Nat → Str → Option (Except PyErr WfcRead)
  | 0, _ => none
  | fuel + 1, path =>
    if '*' ∈ path then go fuel (glob path) |>.map fun r => r.map .many
    else some ((load path).bind readWfc |>.map .one)
where
  go (fuel : Nat) : List Str → Option (Except PyErr (List WfcRead))
    | [] => some (.ok [])
    | p :: ps =>
      match readWfcPath glob load fuel p with
      | none => none
      | some (.error e) => some (.error e)
      | some (.ok w) => (go fuel ps).map fun r => r.map (w :: ·)

end SeisMIC
