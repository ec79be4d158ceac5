import Verif.Model.Combis

/-!
# Model: which stations are used (correlate.py:133-235, waveform.py:141-170, 231-255)

The archive is the list of its channel directories
`{year}/{network}/{station}/{channel}.{type}`. Simplifications: a directory exists iff it
contains a channel directory; names of years are integers without leading zero (so that
`eval` returns an integer); no name begins with a dot.
-/

namespace SeisMIC

/-- a channel directory of the archive -/
structure SdsDir where
  year : Str
  net : Str
  sta : Str
  chan : Str
  typ : Str
  deriving DecidableEq, Repr

/-- network, station and channel of available data -/
abbrev RawChan := Str × Str × Str

/-- name of the channel directory -/
def SdsDir.name (d : SdsDir) : Str := d.chan ++ c!"." ++ d.typ

/-- `_translate_wildcards` (waveform.py:231-255) -/
def translateWildcards (arch : List SdsDir) (network station component : Str) : List RawChan :=
  (arch.filter fun d => fnmatch d.net network && fnmatch d.sta station &&
    fnmatch d.name (c!"??" ++ component ++ c!".?")).map fun d =>
      (d.net, d.sta, (splitOn '.' d.name).headD [])

/-- `get_available_stations` (waveform.py:141-169) -/
def getAvailableStations (arch : List SdsDir) (network : Str) : Except PyErr (List (Str × Str)) :=
  let network := if network = [] then c!"*" else network
  let l := ((arch.filter fun d => d.year.length = 4 && fnmatch d.net network).map fun d => (d.net, d.sta)).eraseDups
  if l = [] then .error .fileNotFoundError else .ok l

/-- `options['net']['network']` -/
inductive NetArg where
  | one (n : Str)
  | many (l : List Str)
  deriving DecidableEq, Repr

/-- an entry of a list of stations: a code, or what the assignment
`station[ii] = [network, stat]` (correlate.py:177) has left in the list -/
inductive StaElem where
  | code (s : Str)
  | pair (n : Str) (e : StaElem)
  deriving DecidableEq, Repr

/-- `options['net']['station']` -/
inductive StaArg where
  | one (s : Str)
  | many (l : List StaElem)
  deriving DecidableEq, Repr

/-- correlate.py:143-144 -/
def NetArg.shrink : NetArg → NetArg
  | .many [n] => .one n
  | a => a

/-- correlate.py:141-142 -/
def StaArg.shrink : StaArg → StaArg
  | .many [.code s] => .one s
  | .many [.pair n e] => .many [.code n, e]
  | a => a

/-- the list of pairs of network and station (correlate.py:141-184) -/
def requestPairs (arch : List SdsDir) (network : NetArg) (station : StaArg) :
    Except PyErr (List (Str × StaElem)) :=
  match network.shrink, station.shrink with
  | .one n, .one s => if n = c!"*" ∧ '*' ∉ s then .error .valueError else .ok [(n, .code s)]
  | .many ns, .one s =>
    if s = c!"*" then do
      let l ← ns.mapM (getAvailableStations arch)
      pure (l.flatten.map fun p => (p.1, .code p.2))
    else .error .valueError
  | .many ns, .many ss => if ns.length ≠ ss.length then .error .valueError else .ok (ns.zip ss)
  | .one n, .many ss => .ok (ss.map fun s => (n, s))

/-- value of `options['net']['station']` after the constructor: the list is modified in
place (correlate.py:176-177) unless it was replaced by its only entry -/
def stationOptionAfter (network : NetArg) (station : StaArg) : StaArg :=
  match network.shrink, station with
  | .one n, .many ss => if ss.length = 1 then .many ss else .many (ss.map fun s => .pair n s)
  | _, s => s

/-- order of the rows in `np.unique(..., axis=0)` -/
def rawLe (a b : RawChan) : Bool :=
  if a.1 ≠ b.1 then strLe a.1 b.1
  else if a.2.1 ≠ b.2.1 then strLe a.2.1 b.2.1
  else strLe a.2.2 b.2.2

/-- the same for pairs -/
def pairLe (a b : Str × Str) : Bool := if a.1 ≠ b.1 then strLe a.1 b.1 else strLe a.2 b.2

/-- `np.unique(l, axis=0).tolist()` -/
def npUnique {α : Type} [BEq α] (le : α → α → Bool) (l : List α) : List α := isort le l.eraseDups

/-- `self.avail_raw_data` and `self.station` (correlate.py:185-204) before
`_filter_by_rcombis`. A station that is a list is a `TypeError` in `os.path.join`. -/
def availableData (arch : List SdsDir) (network : NetArg) (station : StaArg) (component : Str) :
    Except PyErr (List RawChan × List (Str × Str)) := do
  let pairs ← requestPairs arch network station
  let l ← pairs.mapM fun p => match p.2 with
    | .code s => Except.ok (translateWildcards arch p.1 s component)
    | .pair _ _ => .error .typeError
  let raw := npUnique rawLe l.flatten
  pure (raw, npUnique pairLe (raw.map fun d => (d.1, d.2.1)))

end SeisMIC
