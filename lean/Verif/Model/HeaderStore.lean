import Verif.Py.Datetime
import Verif.Py.Strings

/-!
# Model: headers in the database (db/corr_hdf5.py:455-511)

Times are nanoseconds since the beginning of year 1.
-/

namespace SeisMIC

/-- a decimal digit -/
def digitChar (d : Nat) : Char := Char.ofNat ('0'.toNat + d)

/-- `'%0wd' % n` for numbers of at most `w` digits -/
def fixedDigits : Nat → Nat → Str
  | 0, _ => []
  | w + 1, n => fixedDigits w (n / 10) ++ [digitChar (n % 10)]

/-- day of the year of day number `n` in year `y` -/
def julday (y n : Int) : Int := n - daysBeforeYear y + 1

/-- obspy's `UTCDateTime.format_fissures`, used in corr_hdf5.py:470 and for the paths
(corr_hdf5.py:132-133, 177, 257, 261): `'%04d%03dT%02d%02d%02d.%04dZ'`. Years 1 to 9999. The microseconds
are the nanoseconds rounded down, as in obspy. -/
def fissures (t : Int) : Str :=
  let us := t / 1000
  let c := civilOf us
  let s := c.us / 1000000
  fixedDigits 4 c.year.toNat ++ fixedDigits 3 (julday c.year (us / dayUs)).toNat ++ c!"T" ++
    fixedDigits 2 (s / 3600) ++ fixedDigits 2 (s / 60 % 60) ++ fixedDigits 2 (s % 60) ++ c!"." ++
    fixedDigits 4 (c.us % 1000000 / 100) ++ c!"Z"

/-- `UTCDateTime(string)` for strings in this format; others are a ValueError (simplified: obspy
knows more formats). With `old` it is the version that fails for day 360 (corr_hdf5.py:497-500). -/
def parseFissures (old : Bool) (s : Str) : Except PyErr Int := do
  let y ← pyInt (s.take 4)
  let j ← pyInt ((s.drop 4).take 3)
  let h ← pyInt ((s.drop 8).take 2)
  let m ← pyInt ((s.drop 10).take 2)
  let sec ← pyInt ((s.drop 12).take 2)
  let f ← pyInt ((s.drop 15).take 4)
  if (s.drop 7).take 1 ≠ c!"T" ∨ (s.drop 14).take 1 ≠ c!"." ∨ s.drop 19 ≠ c!"Z" then throw .valueError
  if y = 0 ∨ j = 0 ∨ yearLength y < j ∨ 24 ≤ h ∨ 60 ≤ m ∨ 60 ≤ sec then throw .valueError
  if old ∧ j = 360 then throw .valueError
  pure ((((daysBeforeYear y + j - 1) * 86400 + (h * 3600 + m * 60 + sec : Nat)) * 10000 + f) * 100000)

/-- the reading of a time (corr_hdf5.py:493-505) -/
def readTime (old : Bool) (s : Str) : Except PyErr Int :=
  match parseFissures old s with
  | .error .valueError =>
    if (s.drop 4).take 4 = c!"360T" then (parseFissures old (s.set 6 '1')).map (· - 86400000000000)
    else .error .valueError
  | r => r

/-- a value of a header -/
inductive StoredVal where
  | time (t : Int)
  | str (s : Str)
  | num (x : Rat)
  | strs (l : List Str)
  /-- `None` and all other objects without a representation in HDF5 -/
  | other
  deriving DecidableEq

/-- a value of an attribute of a dataset; reading a list yields an array (no difference here) -/
inductive StoredAttr where
  | str (s : Str)
  | num (x : Rat)
  | strs (l : List Str)
  deriving DecidableEq

/-- the body of the loop in `convert_header_to_hdf5` (corr_hdf5.py:466-477): `none` for a
TypeError -/
def toAttr : StoredVal → Option StoredAttr
  | .time t => some (.str (fissures t))
  | .str s => some (.str s)
  | .num x => some (.num x)
  | .strs l => some (.strs l)
  | .other => none

/-- `convert_header_to_hdf5` (corr_hdf5.py:455-477) -/
def writeHeader (h : List (Str × StoredVal)) : List (Str × StoredAttr) := h.filterMap fun e => (toAttr e.2).map (e.1, ·)

/-- `time_keys` (corr_hdf5.py:490) -/
def storedTimeKeys : List Str := [c!"starttime", c!"endtime", c!"corr_start", c!"corr_end"]

/-- the body of the loop in `read_hdf5_header` (corr_hdf5.py:492-509). A time that is not a string
is a time stamp in seconds since 1970 or a TypeError (here always the latter). `processing`
becomes a list; a string would become the list of its characters. -/
def fromAttr (old : Bool) (k : Str) (a : StoredAttr) : Except PyErr StoredVal :=
  if k ∈ storedTimeKeys then
    match a with
    | .str s => (readTime old s).map .time
    | _ => .error .typeError
  else if k = c!"processing" then
    match a with
    | .str s => .ok (.strs (s.map fun c => [c]))
    | .num _ => .error .typeError
    | .strs l => .ok (.strs l)
  else
    match a with
    | .str s => .ok (.str s)
    | .num x => .ok (.num x)
    | .strs l => .ok (.strs l)

/-- `read_hdf5_header` (corr_hdf5.py:480-511): the dictionary that is passed to `Stats` -/
def readHeader (old : Bool) (h : List (Str × StoredAttr)) : Except PyErr (List (Str × StoredVal)) :=
  h.mapM fun e => (fromAttr old e.1 e.2).map (e.1, ·)

end SeisMIC
