import Verif.Py.Basic

/-!
# Python's `fnmatch` / `glob` patterns

`fnmatch.fnmatch(name, pat)` on POSIX: `*`, `?`, `[seq]`, `[!seq]`, everything
else literal. Used in correlate.py:229-235, 839; corr_hdf5.py:205, 314, 447;
monitor.py (`corr_find_filter`).
-/

namespace SeisMIC

/-- one element of a pattern -/
inductive Tok where
  | star
  | any
  | lit (c : Char)
  | set (neg : Bool) (items : List (Char × Char))
  deriving DecidableEq, Repr

/-- ranges of the body of `[...]`. Simplification: hyphens are read from left to
right, which agrees with CPython for every body in which no two ranges share an
end point. -/
def setItems : Str → List (Char × Char)
  | a :: '-' :: b :: rest => (a, b) :: setItems rest
  | a :: rest => (a, a) :: setItems rest
  | [] => []

/-- split at the first `]` -/
def splitBracket : Str → Option (Str × Str)
  | [] => none
  | ']' :: rest => some ([], rest)
  | c :: rest => (splitBracket rest).map fun (b, r) => (c :: b, r)

/-- body (without `!`), negation flag and rest of a pattern after `[`; a `]`
directly after `[` or `[!` belongs to the body; `none` without closing `]`. -/
def parseSet : Str → Option (Bool × Str × Str)
  | '!' :: ']' :: rest => (splitBracket rest).map fun (b, r) => (true, ']' :: b, r)
  | '!' :: rest => (splitBracket rest).map fun (b, r) => (true, b, r)
  | ']' :: rest => (splitBracket rest).map fun (b, r) => (false, ']' :: b, r)
  | rest => (splitBracket rest).map fun (b, r) => (false, b, r)

/-- tokens of a pattern; the first argument bounds the number of tokens -/
def toksAux : Nat → Str → List Tok
  | 0, _ => []
  | _, [] => []
  | n+1, '*' :: s => .star :: toksAux n s
  | n+1, '?' :: s => .any :: toksAux n s
  | n+1, '[' :: s =>
    match parseSet s with
    | none => .lit '[' :: toksAux n s
    | some (neg, body, rest) => .set neg (setItems body) :: toksAux n rest
  | n+1, c :: s => .lit c :: toksAux n s

/-- tokens of a pattern (every token consumes at least one character) -/
def toks (pat : Str) : List Tok := toksAux pat.length pat

/-- all suffixes of a string, the string itself included -/
def suffixes : Str → List Str
  | [] => [[]]
  | c :: s => (c :: s) :: suffixes s

def setMatches (neg : Bool) (items : List (Char × Char)) (c : Char) : Bool :=
  (items.any fun ab => ab.1 ≤ c && c ≤ ab.2) != neg

/-- matching of a token list against a whole string -/
def tmatch : List Tok → Str → Bool
  | [], s => s.isEmpty
  | .star :: ts, s => (suffixes s).any (tmatch ts)
  | .any :: ts, s => match s with
    | [] => false
    | _ :: s => tmatch ts s
  | .lit c :: ts, s => match s with
    | [] => false
    | d :: s => c == d && tmatch ts s
  | .set neg items :: ts, s => match s with
    | [] => false
    | d :: s => setMatches neg items d && tmatch ts s

/-- `fnmatch.fnmatch(name, pat)` (POSIX, so without case folding) -/
def fnmatch (name pat : Str) : Bool := tmatch (toks pat) name

end SeisMIC
