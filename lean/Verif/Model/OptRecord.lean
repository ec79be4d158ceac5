import Verif.Py.Basic

/-!
# Model: the record of the options written by `Correlator` and `Monitor`
-/

namespace SeisMIC

/-- a value in the dictionary of options -/
inductive Opt where
  | null
  | bool (b : Bool)
  | num (q : Rat)
  | str (s : Str)
  /-- a `UTCDateTime` (alone or in an array); other objects unknown to `json` behave in the same way -/
  | time (t : Int)
  | list (l : List Opt)
  | dict (l : List (Str × Opt))

/-- `d[key]` -/
def Opt.get (key : Str) : Opt → Except PyErr Opt
  | .dict l => match l.lookup key with
    | some v => .ok v
    | none => .error .keyError
  | _ => .error .typeError

/-- the value of the first entry with the key `key` is replaced -/
def setKey (key : Str) (v : Opt) : List (Str × Opt) → List (Str × Opt)
  | [] => []
  | (k, x) :: l => if key = k then (k, v) :: l else (k, x) :: setKey key v l

/-- `d[key] = v` for a key that exists -/
def Opt.set (o : Opt) (key : Str) (v : Opt) : Opt :=
  match o with
  | .dict l => .dict (setKey key v l)
  | o => o

/-- `t.format_fissures()`: a string instead of a time has no such method -/
def formatTime (fmt : Int → Str) : Opt → Except PyErr Opt
  | .time t => .ok (.str (fmt t))
  | _ => .error .attributeError

/-- `[t.format_fissures() for t in o]` (correlate.py:111-112, 115-116). Simplification: an
empty string or dictionary is an error here. -/
def formatTimes (fmt : Int → Str) : Opt → Except PyErr Opt
  | .list l => (l.mapM (formatTime fmt)).map Opt.list
  | .str _ => .error .attributeError
  | .dict _ => .error .attributeError
  | _ => .error .typeError

/-- `sub in s` -/
def hasSub (sub : Str) : Str → Bool
  | [] => sub.isEmpty
  | c :: l => sub.isPrefixOf (c :: l) || hasSub sub l

/-- one step of the preprocessing (correlate.py:109-118, monitor.py:109-118) -/
def dumpStep (fmt : Int → Str) (step : Opt) : Except PyErr Opt := do
  match ← step.get c!"function" with
  | .str f =>
    if hasSub c!"stream_mask_at_utc" f then
      let args ← step.get c!"args"
      let starts ← formatTimes fmt (← args.get c!"starts")
      let args := args.set c!"starts" starts
      match args.get c!"ends" with
      | .ok e =>
        let ends ← formatTimes fmt e
        pure (step.set c!"args" (args.set c!"ends" ends))
      | .error _ => pure (step.set c!"args" args)
    else pure step
  | _ => .error .typeError

/-- the copy of the options that is written (correlate.py:107-118, monitor.py:107-118).
Simplification: an empty string or dictionary for `preProcessing` is an error here. -/
def dumpOptions (fmt : Int → Str) (options : Opt) : Except PyErr Opt := do
  let co ← options.get c!"co"
  match ← co.get c!"preProcessing" with
  | .list steps =>
    let steps ← steps.mapM (dumpStep fmt)
    pure (options.set c!"co" (co.set c!"preProcessing" (.list steps)))
  | _ => .error .typeError

mutual
/-- can `json.dumps` write the value? -/
def Opt.plain : Opt → Bool
  | .time _ => false
  | .list l => plainList l
  | .dict l => plainDict l
  | _ => true
def plainList : List Opt → Bool
  | [] => true
  | a :: l => a.plain && plainList l
def plainDict : List (Str × Opt) → Bool
  | [] => true
  | (_, a) :: l => a.plain && plainDict l
end

/-- files of the directory of the logs: name and content. Simplification: the content is the
written value instead of its text. -/
abbrev LogDir := List (Str × Opt)

/-- open a file with mode `'w'` and write -/
def overwriteFile (fs : LogDir) (name : Str) (v : Opt) : LogDir := (name, v) :: fs.filter fun x => x.1 ≠ name

/-- the record of the options in `__init__` of `Correlator` and `Monitor` (correlate.py:105-121,
monitor.py:105-121). The file is opened before the text is made: if that fails, an empty file
remains. `tstr` is the time of the start in minutes. -/
def recordOptions (fmt : Int → Str) (fs : LogDir) (tstr : Str) (options : Opt) : LogDir × Option PyErr :=
  match dumpOptions fmt options with
  | .error e => (fs, some e)
  | .ok o =>
    if o.plain then (overwriteFile fs (c!"params" ++ tstr ++ c!".txt") o, none)
    else (overwriteFile fs (c!"params" ++ tstr ++ c!".txt") (.str []), some .typeError)

end SeisMIC
