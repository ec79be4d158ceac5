import Verif.Py.Datetime
import Verif.Py.Strings

/-!
# Model: reading from a described file structure (trace_data/waveform.py)

A descriptor is a list of levels, a level is a list of elements; an element that is not in
a list is a list of one element (waveform.py:685-686, 739-740). `strftime t s` is
`t.strftime(s)`.
-/

namespace SeisMIC

/-- `IDformat` (waveform.py:502) -/
def idFormat : List Str := [c!"%NET", c!"%net", c!"%STA", c!"%sta", c!"%LOC", c!"%loc", c!"%CHA", c!"%cha"]

/-- `re.search('(.*?)', s).group(0)`: the parentheses form a group, they do not occur in the
text; the shortest match of `.*?` at the first position is empty -/
def searchLazy (_s : Str) : Str := []

/-- `s.replace(old, new)` for an `old` that is not empty -/
def replaceAll (old new : Str) : Nat → Str → Str
  | 0, s => s
  | _, [] => []
  | fuel + 1, c :: s =>
    if old.isPrefixOf (c :: s) then new ++ replaceAll old new fuel ((c :: s).drop old.length)
    else c :: replaceAll old new fuel s

/-- `s.replace(old, new)`; a call with an empty `old` (which inserts `new` everywhere) is left
out: it is not reached -/
def pyReplace (old new s : Str) : Str := replaceAll old new s.length s

/-- `_fs_translate` (waveform.py:748-777) -/
def fsTranslate (strftime : Civil → Str → Str) (part id : Str) (t : Civil) : Except PyErr Str := do
  let idList := splitOn '.' id
  let trans : Option Str := if '(' ∈ part ∧ ')' ∈ part then some (searchLazy part) else none
  let has := trans.isSome && trans ≠ some []
  let part := if has then pyReplace (trans.getD []) [] part else part
  let res ←
    if part ∈ idFormat then
      let idx := idFormat.idxOf part
      match idList[idx / 2]? with
      | none => throw .indexError
      | some x => pure (if idx % 2 ≠ 0 then x.map Char.toLower else x)
    else pure (strftime t part)
  if has then
    let transl := splitOn ',' (((trans.getD []).drop 1).dropLast)
    match transl with
    | [a, b] => pure (pyReplace (a.filter (· ≠ '\'')) (b.filter (· ≠ '\'')) res)
    | _ => throw .assertionError
  else pure res

/-- `os.path.join(a, b)` -/
def pathJoin (a b : Str) : Str :=
  if b.head? = some '/' then b
  else if a = [] ∨ a.getLast? = some '/' then a ++ b
  else a ++ '/' :: b

/-- one level: the loop in `_current_filepattern` (waveform.py:741-743) -/
def levelName (strftime : Civil → Str → Str) (id : Str) (t : Civil) : List Str → Except PyErr Str
  | [] => .ok []
  | p :: l => do
    let a ← fsTranslate strftime p id t
    let b ← levelName strftime id t l
    pure (a ++ b)

/-- the loop over the levels (waveform.py:738-744) -/
def patternFrom (strftime : Civil → Str → Str) (id : Str) (t : Civil) : Str → List (List Str) → Except PyErr Str
  | fname, [] => .ok fname
  | fname, p :: l => do
    let a ← levelName strftime id t p
    patternFrom strftime id t (pathJoin fname a) l

/-- `_current_filepattern` (waveform.py:732-745) -/
def currentPattern (strftime : Civil → Str → Str) (id : Str) (t : Civil) (fs : List (List Str)) : Except PyErr Str :=
  patternFrom strftime id t [] fs

/-- the structure that is used if the descriptor is one string (waveform.py:591-594) -/
def sdsStructure (base : Str) : List (List Str) :=
  [[base], [c!"%Y"], [c!"%NET"], [c!"%STA"], [c!"%CHA", c!".D"],
    [c!"%NET", c!".", c!"%STA", c!".", c!"%LOC", c!".", c!"%CHA", c!".D.", c!"%Y", c!".", c!"%j"]]

/-- the condition for an element that describes the time (waveform.py:686-688) -/
def isTimePart (p : Str) : Bool :=
  !((decide ('(' ∈ p) && decide (')' ∈ p)) || decide (p ∈ idFormat)) && decide ('%' ∈ p)

/-- the last one of them (waveform.py:682-689) -/
def lastTimePart (fs : List (List Str)) : Option Str := fs.flatten.reverse.find? isTimePart

/-- the change of the time (waveform.py:690-727) -/
def shiftTime (t : Civil) (inc : Int) (p : Str) : Except PyErr Civil :=
  if p ∈ [c!"%H", c!"%I"] then t.add (inc * hourUs)
  else if p = c!"%p" then t.add (inc * (12 * hourUs))
  else if p ∈ [c!"%a", c!"%A", c!"%w", c!"%d", c!"%j", c!"%-j"] then t.add (inc * dayUs)
  else if p ∈ [c!"%U", c!"%W"] then t.add (inc * (7 * dayUs))
  else if p ∈ [c!"%b", c!"%B", c!"%m"] then
    if (t.month : Int) + inc = 0 then mkCivil (t.year - 1) 12 t.day t.us
    else if (t.month : Int) + inc = 13 then mkCivil (t.year + 1) 1 t.day t.us
    else mkCivil t.year ((t.month : Int) + inc).toNat t.day t.us
  else if p ∈ [c!"%y", c!"%Y"] then mkCivil (t.year - inc) t.month t.day t.us
  else .error .unboundLocalError

/-- the time in `_adjacent_filepattern` (waveform.py:668-728) -/
def adjacentTime (t : Civil) (inc : Int) (fs : List (List Str)) : Except PyErr Civil :=
  if inc ≠ 1 ∧ inc ≠ -1 then .error .assertionError
  else match lastTimePart fs with
    | none => .error .unboundLocalError
    | some p => shiftTime t inc p

/-- the loop of `read_from_filesystem` (waveform.py:611-621) at the time `this`; `seen`: the
times whose files have been read. `short seen`: the data in these files end before the end of
the request, or there are none. Returns the times whose files are read; `none`: more than
`fuel` passes. -/
def readLoop (fs : List (List Str)) (short : List Civil → Bool) (start stop : Civil) :
    Nat → List Civil → Civil → Except PyErr (Option (List Civil))
  | fuel, seen, this =>
    if short seen = true ∧ this.abs < stop.abs then
      match fuel with
      | 0 => .ok none
      | fuel + 1 => do
        let t ← adjacentTime this 1 fs
        if t = start then pure (some seen)
        else readLoop fs short start stop fuel (seen ++ [t]) t
    else .ok (some seen)

/-- `read_from_filesystem` (waveform.py:584-621): the times whose files are read. `late`: the
first trace in the file of the start starts too late, or there is none. Not modelled: the
content of the files, merging, trimming. -/
def readTimes (fs : List (List Str)) (late : Bool) (short : List Civil → Bool) (start stop : Civil) (fuel : Nat) :
    Except PyErr (Option (List Civil)) := do
  let seen ←
    if late = true then do
      let p ← adjacentTime start (-1) fs
      pure [start, p]
    else pure [start]
  readLoop fs short start stop fuel seen start

end SeisMIC
