import Verif.Spec.Glob

namespace SeisMIC

theorem mem_suffixes {s t : Str} : t ∈ suffixes s ↔ ∃ u, s = u ++ t := by
  induction s with
  | nil => simp [suffixes]
  | cons c s ih =>
    simp only [suffixes, List.mem_cons, ih]
    constructor
    · rintro (rfl | ⟨u, rfl⟩)
      · exact ⟨[], rfl⟩
      · exact ⟨c :: u, rfl⟩
    · rintro ⟨u, hu⟩
      cases u with
      | nil => left; simpa using hu.symm
      | cons d u => right; simp at hu; exact ⟨u, hu.2⟩

theorem tmatch_nil (s : Str) : tmatch [] s = true ↔ s = [] := by
  simp [tmatch]

theorem tmatch_star (ts : List Tok) (s : Str) :
    tmatch (.star :: ts) s = true ↔ ∃ u v, s = u ++ v ∧ tmatch ts v = true := by
  simp only [tmatch, List.any_eq_true, mem_suffixes]
  constructor
  · rintro ⟨v, ⟨u, rfl⟩, h⟩; exact ⟨u, v, rfl, h⟩
  · rintro ⟨u, v, rfl, h⟩; exact ⟨v, ⟨u, rfl⟩, h⟩

theorem tmatch_lit (c : Char) (ts : List Tok) (s : Str) :
    tmatch (.lit c :: ts) s = true ↔ ∃ v, s = c :: v ∧ tmatch ts v = true := by
  cases s with
  | nil => simp [tmatch]
  | cons d s => simp [tmatch]; grind

theorem tmatch_any (ts : List Tok) (s : Str) :
    tmatch (.any :: ts) s = true ↔ ∃ c v, s = c :: v ∧ tmatch ts v = true := by
  cases s with
  | nil => simp [tmatch]
  | cons d s => simp [tmatch]; grind

theorem tmatch_lits (l : Str) (ts : List Tok) (s : Str) :
    tmatch (l.map .lit ++ ts) s = true ↔ ∃ v, s = l ++ v ∧ tmatch ts v = true := by
  induction l generalizing s with
  | nil => simp
  | cons c l ih =>
    simp only [List.map_cons, List.cons_append, tmatch_lit, ih]
    grind

theorem toks_nil : toks [] = [] := rfl

theorem toks_star (s : Str) : toks ('*' :: s) = .star :: toks s := by
  simp [toks, toksAux]

theorem toks_any (s : Str) : toks ('?' :: s) = .any :: toks s := by
  simp [toks, toksAux]

theorem toks_lit (c : Char) (s : Str) (h : c ≠ '*' ∧ c ≠ '?' ∧ c ≠ '[') :
    toks (c :: s) = .lit c :: toks s := by
  unfold toks
  simp only [List.length_cons]
  rw [toksAux]
  · intro h'; exact h.1 h'
  · intro h'; exact h.2.1 h'
  · intro h'; exact h.2.2 h'

theorem toks_plain_append (l s : Str) (h : Plain l) : toks (l ++ s) = l.map .lit ++ toks s := by
  induction l with
  | nil => simp
  | cons c l ih =>
    have h1 := h c (by simp)
    have h2 : Plain l := fun d hd => h d (by simp [hd])
    simp [toks_lit c (l ++ s) h1, ih h2]

theorem toks_plain (l : Str) (h : Plain l) : toks l = l.map .lit := by
  have := toks_plain_append l [] h
  simpa [toks_nil] using this

theorem fnmatch_plain (s l : Str) (h : Plain l) : fnmatch s l = true ↔ s = l := by
  unfold fnmatch
  rw [toks_plain l h]
  have := tmatch_lits l [] s
  simp only [List.append_nil] at this
  rw [this]
  simp [tmatch_nil]

theorem fnmatch_nil (s : Str) : fnmatch s [] = true ↔ s = [] := by
  simp [fnmatch, toks_nil, tmatch_nil]

theorem fnmatch_star (s p : Str) :
    fnmatch s ('*' :: p) = true ↔ ∃ u v, s = u ++ v ∧ fnmatch v p = true := by
  unfold fnmatch; rw [toks_star, tmatch_star]

theorem fnmatch_star_only (s : Str) : fnmatch s ['*'] = true := by
  rw [fnmatch_star]; exact ⟨s, [], by simp, by rw [fnmatch_nil]⟩

theorem fnmatch_plain_append (s l p : Str) (h : Plain l) :
    fnmatch s (l ++ p) = true ↔ ∃ v, s = l ++ v ∧ fnmatch v p = true := by
  unfold fnmatch; rw [toks_plain_append l p h, tmatch_lits]

theorem fnmatch_cons (s : Str) (c : Char) (p : Str) (h : c ≠ '*' ∧ c ≠ '?' ∧ c ≠ '[') :
    fnmatch s (c :: p) = true ↔ ∃ v, s = c :: v ∧ fnmatch v p = true := by
  unfold fnmatch; rw [toks_lit c p h, tmatch_lit]

theorem fnmatch_any (s : Str) (p : Str) :
    fnmatch s ('?' :: p) = true ↔ ∃ c v, s = c :: v ∧ fnmatch v p = true := by
  unfold fnmatch; rw [toks_any, tmatch_any]

theorem fnmatch_prefix (s l : Str) (h : Plain l) :
    fnmatch s (l ++ ['*']) = true ↔ ∃ v, s = l ++ v := by
  rw [fnmatch_plain_append s l _ h]
  simp [fnmatch_star_only]

/-- The model of fnmatch agrees with the declarative relation on patterns
without bracket expressions. -/
theorem fnmatch_iff_glob (p s : Str) (hp : '[' ∉ p) : fnmatch s p = true ↔ Glob p s := by
  induction p generalizing s with
  | nil =>
    rw [fnmatch_nil]
    constructor
    · rintro rfl; exact .nil
    · intro h; cases h; rfl
  | cons c p ih =>
    have hp' : '[' ∉ p := fun h => hp (by simp [h])
    have hc : c ≠ '[' := fun h => hp (by simp [h])
    by_cases h1 : c = '*'
    · subst h1
      rw [fnmatch_star]
      constructor
      · rintro ⟨u, v, rfl, h⟩; exact .star u ((ih v hp').1 h)
      · intro h
        generalize hq : '*' :: p = q at h
        cases h with
        | nil => simp at hq
        | star u h => simp at hq; subst hq; exact ⟨u, _, rfl, (ih _ hp').2 h⟩
        | any c h => simp at hq
        | lit a _ _ _ => simp at hq; exact absurd hq.1.symm a
    · by_cases h2 : c = '?'
      · subst h2
        rw [fnmatch_any]
        constructor
        · rintro ⟨u, v, rfl, h⟩; exact .any u ((ih v hp').1 h)
        · intro h
          generalize hq : '?' :: p = q at h
          cases h with
          | nil => simp at hq
          | star u h => simp at hq
          | any c h => simp at hq; subst hq; exact ⟨c, _, rfl, (ih _ hp').2 h⟩
          | lit _ b _ _ => simp at hq; exact absurd hq.1.symm b
      · rw [fnmatch_cons s c p ⟨h1, h2, hc⟩]
        constructor
        · rintro ⟨v, rfl, h⟩; exact .lit h1 h2 hc ((ih v hp').1 h)
        · intro h
          cases h with
          | star u h => exact absurd rfl h1
          | any c h => exact absurd rfl h2
          | lit _ _ _ h => exact ⟨_, rfl, (ih _ hp').2 h⟩

example : fnmatch c!"NET-NET.A-B.HHZ-HHE" c!"NET-NET.?-B*" = true := by decide
example : fnmatch c!"abc" c!"a[!a-b]c" = false := by decide

end SeisMIC
