import Verif.Py.Sort
import Verif.Py.Fnmatch

/-!
# Python string operations
-/

namespace SeisMIC

/-- `s.split(c)` for a one-character separator: always at least one part. -/
def splitOn (c : Char) : Str → List Str
  | [] => [[]]
  | d :: s =>
    if d = c then [] :: splitOn c s
    else match splitOn c s with
      | [] => [[d]]
      | x :: xs => (d :: x) :: xs

/-- `sep.join(parts)` -/
def joinWith (sep : Str) : List Str → Str
  | [] => []
  | [x] => x
  | x :: y :: l => x ++ sep ++ joinWith sep (y :: l)

/-- `a in b` for strings -/
def isSub (a b : Str) : Bool := (suffixes b).any fun t => a.isPrefixOf t

/-- `s.replace('/*', '*')` -/
def replaceSlashStar : Str → Str
  | '/' :: '*' :: s => '*' :: replaceSlashStar s
  | c :: s => c :: replaceSlashStar s
  | [] => []

/-- `s.replace('?', '*')` -/
def replaceQuestion (s : Str) : Str := s.map fun c => if c = '?' then '*' else c

/-- `while s[-2:] == '/*': s = s[:-2]` on the reversed string -/
def stripSlashStarRev : Str → Str
  | '*' :: '/' :: s => stripSlashStarRev s
  | s => s

/-- `while s[-2:] == '/*': s = s[:-2]` -/
def stripSlashStar (s : Str) : Str := (stripSlashStarRev s.reverse).reverse

/-- comparison of strings by code points -/
def strLe (a b : Str) : Bool := decide (a ≤ b)

end SeisMIC
