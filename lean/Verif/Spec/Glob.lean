import Verif.Py.Fnmatch

/-!
# Specification of shell patterns

What a user means by a pattern made of `*`, `?` and plain characters, as an
inductive relation that does not mention tokens or suffix lists.
-/

namespace SeisMIC

/-- `Glob pat s`: the string `s` matches the pattern `pat` (`*` any string, `?`
any one character, any other character itself). Defined for patterns without
bracket expressions. -/
inductive Glob : Str → Str → Prop
  | nil : Glob [] []
  | star (u : Str) {p s : Str} : Glob p s → Glob ('*' :: p) (u ++ s)
  | any (c : Char) {p s : Str} : Glob p s → Glob ('?' :: p) (c :: s)
  | lit {c : Char} {p s : Str} : c ≠ '*' → c ≠ '?' → c ≠ '[' → Glob p s → Glob (c :: p) (c :: s)

/-- A code without any pattern character. -/
def Plain (s : Str) : Prop := ∀ c ∈ s, c ≠ '*' ∧ c ≠ '?' ∧ c ≠ '['

instance (s : Str) : Decidable (Plain s) := by unfold Plain; infer_instance

end SeisMIC
