/-!
# Python basics shared by all modules of the model

Exceptions are values (`Except PyErr`), strings are lists of code points.
-/

namespace SeisMIC

/-- Python exception classes that the modelled code raises or catches. The
message is not modelled. -/
inductive PyErr where
  | valueError
  | typeError
  | keyError
  | indexError
  | fileNotFoundError
  | permissionError
  | notImplementedError
  | assertionError
  | attributeError
  | unboundLocalError
  | notADirectoryError
  | obsPyError
  | osError
  | overflowError
  deriving DecidableEq, Repr

deriving instance DecidableEq for Except

/-- A Python `str` is a sequence of code points. `List Char` with the
lexicographic order of core Lean has exactly Python's `str` comparison. -/
abbrev Str := List Char

/-- `c!"abc"` is the literal `['a','b','c'] : Str`. -/
syntax:max (name := charLit) "c!" str : term

open Lean in
macro_rules
  | `(c! $s:str) => do
    let cs := s.getString.toList
    let elems : Array (TSyntax `term) := (cs.map fun c => Syntax.mkCharLit c).toArray
    `(([$elems,*] : List Char))

end SeisMIC
