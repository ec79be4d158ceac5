import Verif.Py.Basic
import Verif.Py.Strings

/-!
# Model: functions by their names, traces by their codes

src/seismic/utils/fetch_func_from_str.py and `compare_tr_id` (correlate/stream.py:1562-1585).
-/

namespace SeisMIC

/-- the modules that can be imported, with their attributes; the keys are full names -/
abbrev Modules (φ : Type) := Str → Option (Str → Option φ)

/-- `func_from_str` (fetch_func_from_str.py:18-36) of a text: the part after the last dot is an attribute of the module before it. An empty name of a module
is a `ValueError` of `__import__`; a module that does not exist an `ImportError` (here `notImplementedError`, a placeholder). -/
def funcFromStr {φ : Type} (modules : Modules φ) (string : Str) : Except PyErr φ :=
  let splitl := splitOn '.' string
  let funcname := splitl.getLastD []
  let modname := joinWith ['.'] splitl.dropLast
  if modname = [] then .error .valueError
  else match modules modname with
    | none => .error .notImplementedError
    | some m =>
      match m funcname with
      | none => .error .attributeError
      | some f => .ok f

/-- codes of a trace -/
structure TrCodes where
  net : Str
  sta : Str
  cha : Str
  loc : Str
  deriving DecidableEq, Repr

/-- `compare_tr_id` (stream.py:1562-1585) -/
def compareTrId (tr0 tr1 : TrCodes) (regardLoc : Bool) : Bool :=
  if regardLoc then
    decide (tr0.net ++ c!"." ++ tr0.sta ++ c!"." ++ tr0.cha ++ c!"." ++ tr0.loc = tr1.net ++ c!"." ++ tr1.sta ++ c!"." ++ tr1.cha ++ c!"." ++ tr1.loc)
  else
    decide (tr0.net ++ c!"." ++ tr0.sta ++ c!"." ++ tr0.cha = tr1.net ++ c!"." ++ tr1.sta ++ c!"." ++ tr1.cha)

end SeisMIC
