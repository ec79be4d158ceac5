import Verif.Model.Stream
import Verif.Py.Fnmatch

/-!
# Model: the matrix of a stream (correlate/stream.py)
-/

namespace SeisMIC

variable {V : Type}

/-- the codes to select by, `none` for any -/
structure Codes where
  network : Option Str
  station : Option Str
  channel : Option Str
  location : Option Str

/-- one criterion of obspy's `Stream.select`: wildcards are allowed and case is ignored -/
def codeMatches (pat : Option Str) (code : Str) : Bool :=
  match pat with
  | none => true
  | some p => fnmatch (code.map Char.toUpper) (p.map Char.toUpper)

/-- `self.select(network, station, location, channel)` (stream.py:1256) -/
def selectCodes (st : List (CTr V)) (c : Codes) : List (CTr V) :=
  st.filter fun tr => codeMatches c.network tr.stats.network && codeMatches c.station tr.stats.station &&
    codeMatches c.location tr.stats.location && codeMatches c.channel tr.stats.channel

/-- `A[ii] = tr.data` (stream.py:1264) for a row of `n` samples: numpy repeats a single sample, other lengths are a `ValueError` -/
def assignMatrixRow (n : Nat) (d : List F) : Except PyErr (List F) :=
  if d.length = n then .ok d
  else match d with
    | [x] => .ok (List.replicate n x)
    | _ => .error .valueError

/-- `CorrStream._to_matrix` (stream.py:1241-1266): the matrix and the headers. `npts` of a header is not negative. -/
def toMatrix (st : List (CTr V)) (c : Codes) (times : Option (Int × Int)) : Except PyErr (List (List F) × List (CorrStats V)) := do
  let st := selectCodes st c
  let st := match times with
    | some (a, b) => selectCorrTime st a b true
    | none => st
  let st := isort startLe st
  match st with
  | [] => throw .indexError
  | first :: _ =>
    let rows ← st.mapM fun tr => assignMatrixRow first.stats.npts.toNat tr.data
    pure (rows, st.map fun tr => tr.stats)

end SeisMIC
