import Verif.Model.Header
import Verif.Py.Fnmatch

/-!
# Model: reading velocity changes with wildcards (monitor/dv.py)
-/

namespace SeisMIC

/-- what `np.load` finds in a file: an archive of arrays, or an exception -/
inductive NpzFile where
  | arrays (file : List (Str × NpArr))
  /-- `zipfile.BadZipFile` -/
  | badZip
  /-- any other damage or content, e.g. an empty file -/
  | other (e : PyErr)

/-- exceptions of `read_dv` -/
inductive DvErr where
  | badZip
  | py (e : PyErr)
  deriving DecidableEq

/-- `read_dv` of a path without wildcards (dv.py:245-269): no such file, damage, or the content -/
def readDvFile (dir : List (Str × NpzFile)) (path : Str) : Except DvErr DvLoaded :=
  match dir.lookup path with
  | none => .error (.py .fileNotFoundError)
  | some .badZip => .error .badZip
  | some (.other e) => .error (.py e)
  | some (.arrays f) => match readDv f with
    | .ok r => .ok r
    | .error e => .error (.py e)

/-- what `read_dv` returns: an object, or a list for a path with wildcards -/
inductive DvRead where
  | one (r : DvLoaded)
  | many (l : List DvRead)

/-- has the path wildcards (dv.py:234)? -/
def hasWildcard (path : Str) : Bool := path.contains '*' || path.contains '?'

/-- `glob.glob(path)` in one directory, in the order of the directory. Hidden files are only found by patterns that start with a dot. -/
def globDir (dir : List (Str × NpzFile)) (path : Str) : List Str :=
  (dir.map Prod.fst).filter fun name => fnmatch name path && (name.head? != some '.' || path.head? == some '.')

/-- `read_dv` (dv.py:225-269). `none`: no result within `fuel` nested calls. -/
def readDvPath (dir : List (Str × NpzFile)) : Nat → Str → Option (Except DvErr DvRead)
  | 0, _ => none
  | fuel + 1, path =>
    if hasWildcard path then
      match go fuel (globDir dir path) with
      | none => none
      | some (.error e) => some (.error e)
      | some (.ok l) => if l.isEmpty then some (.error (.py .fileNotFoundError)) else some (.ok (.many l))
    else some ((readDvFile dir path).map .one)
where
  /-- the loop over the files (dv.py:236-240) -/
  go (fuel : Nat) : List Str → Option (Except DvErr (List DvRead))
    | [] => some (.ok [])
    | p :: ps =>
      match readDvPath dir fuel p with
      | none => none
      | some (.error .badZip) => go fuel ps
      | some (.error e) => some (.error e)
      | some (.ok r) => (go fuel ps).map fun x => x.map (r :: ·)

end SeisMIC
