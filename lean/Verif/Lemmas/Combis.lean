import Verif.Spec.Combis
import Verif.Lemmas.Strings
import Verif.Lemmas.ListAux

namespace SeisMIC

theorem isort_pair_eq_iff (a b : Str) : isort strLe [a, b] = [a, b] ↔ a ≤ b := by
  rw [isort_pair]
  by_cases h : strLe a b = true
  · simp [h, strLe_iff.1 h]
  · rw [if_neg h]
    have h' : ¬ a ≤ b := fun e => h (strLe_iff.2 e)
    constructor
    · intro e
      simp at e
      exact absurd (e.1 ▸ List.le_refl _) h'
    · intro e; exact absurd e h'

theorem sortComb_eq (n1 s1 n2 s2 c1 c2 : Str) :
    sortComb n1 s1 n2 s2 c1 c2 =
      if n1 ++ s1 ++ c1 ≤ n2 ++ s2 ++ c2 then ((n1, n2), (s1, s2), (c1, c2))
      else ((n2, n1), (s2, s1), (c2, c1)) := by
  unfold sortComb
  simp only [isort_pair_eq_iff]

theorem corrCodes_eq (a b : TrHead) :
    corrCodes a b =
      if a.net ++ a.sta ++ a.cha ≤ b.net ++ b.sta ++ b.cha then
        (dash (a.net, b.net), dash (a.sta, b.sta), dash (a.cha, b.cha))
      else (dash (b.net, a.net), dash (b.sta, a.sta), dash (b.cha, a.cha)) := by
  unfold corrCodes
  simp only [isort_pair_eq_iff]

theorem compareExisting_iff (fiss : Int → Str) (ex : ExDict) (a b : TrHead) :
    compareExisting fiss ex a b = true ↔ Recorded fiss ex a b := by
  unfold compareExisting Recorded
  simp only [sortComb_eq]
  by_cases h : a.net ++ a.sta ++ a.cha ≤ b.net ++ b.sta ++ b.cha
  · simp only [h, if_true, ne_eq, not_true_eq_false, if_false, true_iff]
    constructor
    · intro hc
      refine ⟨a, b, .inl ⟨rfl, rfl⟩, ⟨rfl, rfl⟩, ?_⟩
      split at hc
      · simp at hc
      · rename_i l hl
        refine ⟨l, ?_, by simpa using hc⟩
        simpa [dotted, dash] using hl
    · rintro ⟨f, s, _, ⟨rfl, rfl⟩, l, hl, hm⟩
      have : ex.get (dotted f.net f.sta) (dotted s.net s.sta) (dash (f.cha, s.cha)) = some l := by
        simpa [dotted, dash] using hl
      rw [this]; simpa using hm
  · have hne : ((a.net, b.net), (a.sta, b.sta), (a.cha, b.cha)) ≠
        ((b.net, a.net), (b.sta, a.sta), (b.cha, a.cha)) := by
      intro e
      simp only [Prod.mk.injEq] at e
      apply h
      rw [e.1.1, e.2.1.1, e.2.2.1]
      exact List.le_refl _
    simp only [h, if_false, hne, ne_eq, not_false_eq_true, if_true, false_iff]
    constructor
    · intro hc
      refine ⟨b, a, .inr ⟨rfl, rfl⟩, ?_, ?_⟩
      · rintro ⟨rfl, -⟩; exact h (List.le_refl _)
      split at hc
      · simp at hc
      · rename_i l hl
        refine ⟨l, ?_, by simpa using hc⟩
        simpa [dotted, dash] using hl
    · rintro ⟨f, s, ho, hn, l, hl, hm⟩
      rcases ho with ho | ⟨rfl, rfl⟩
      · exact absurd ho hn
      have : ex.get (dotted f.net f.sta) (dotted s.net s.sta) (dash (f.cha, s.cha)) = some l := by
        simpa [dotted, dash] using hl
      rw [this]; simpa using hm

theorem isInXcombis_iff (a b : TrHead) (r : List Str) :
    isInXcombis a b r = true ↔ Requested (some r) a b := by
  unfold isInXcombis Requested
  simp [combiName, dash]

theorem mem_pairsFrom {n : Nat} {f : Nat → Nat} {i j : Nat} :
    (i, j) ∈ pairsFrom n f ↔ i < n ∧ f i ≤ j ∧ j < n := by
  simp only [pairsFrom, List.mem_flatMap, List.mem_range, List.mem_map, List.mem_range'_1,
    Prod.mk.injEq]
  constructor
  · rintro ⟨i', hi, j', hj, rfl, rfl⟩; omega
  · rintro ⟨hi, h1, h2⟩; exact ⟨i, hi, j, by omega, rfl, rfl⟩

theorem nodup_pairsFrom (n : Nat) (f : Nat → Nat) : (pairsFrom n f).Nodup := by
  unfold pairsFrom
  unfold List.Nodup
  rw [List.pairwise_flatMap]
  refine ⟨?_, ?_⟩
  · intro i _
    rw [List.pairwise_map]
    refine List.Pairwise.imp ?_ (List.nodup_range' (s := f i) (n := n - f i))
    intro a b h e; simp at e; exact h e
  · refine List.Pairwise.imp ?_ (List.nodup_range (n := n))
    intro a b h x hx y hy e
    simp at hx hy
    obtain ⟨_, _, rfl⟩ := hx
    obtain ⟨_, _, rfl⟩ := hy
    simp at e; exact h e.1

/-- a loop with `continue`/`append` is a filter -/
theorem foldlM_filter {α : Type} (step : List α → α → Except PyErr (List α)) (p : α → Bool)
    (l : List α) (acc : List α)
    (h : ∀ x ∈ l, ∀ acc, step acc x = .ok (if p x then acc ++ [x] else acc)) :
    l.foldlM step acc = .ok (acc ++ l.filter p) := by
  induction l generalizing acc with
  | nil => simp [pure, Except.pure]
  | cons x l ih =>
    rw [List.foldlM_cons, h x (by simp)]
    simp only [bind, Except.bind]
    rw [ih _ (fun y hy => h y (by simp [hy]))]
    by_cases hp : p x = true
    · simp [hp]
    · simp [hp]

theorem trLe_total (a b : TrHead) (h : trLe a b = false) : trLe b a = true := by
  unfold trLe at *
  by_cases h1 : a.net = b.net
  · by_cases h2 : a.sta = b.sta
    · simp [h1, h2] at h ⊢; exact strLe_total _ _ h
    · simp [h1, h2, Ne.symm h2] at h ⊢; simp [strLe_total _ _ h]
  · simp [h1, Ne.symm h1] at h ⊢; simp [strLe_total _ _ h]

theorem trLe_trans (a b c : TrHead) (h1 : trLe a b = true) (h2 : trLe b c = true) :
    trLe a c = true := by
  unfold trLe at *
  have t1 := strLe_trans a.net b.net c.net
  have t2 := strLe_trans a.sta b.sta c.sta
  have t3 := strLe_trans a.cha b.cha c.cha
  have a1 := strLe_antisymm a.net b.net
  have a2 := strLe_antisymm a.sta b.sta
  grind

end SeisMIC
