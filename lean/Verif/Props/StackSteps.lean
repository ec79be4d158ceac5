import Mathlib.Data.List.GetD
import Verif.Props.Stack

/-!
# C210: stacking in steps
-/

namespace SeisMIC

variable {V : Type}

/-- the correlations follow each other without gap or overlap, from time `a` to time `b` -/
def Consecutive : List (CTr V) → Int → Int → Prop
  | [], a, b => a = b
  | tr :: l, a, b => tr.stats.corrStart = a ∧ a < tr.stats.corrEnd ∧ Consecutive l tr.stats.corrEnd b

/-- all correlations have `n` samples, none of which is `nan` -/
def FullRows (n : Nat) (st : List (CTr V)) : Prop :=
  ∀ tr ∈ st, tr.stats.npts = n ∧ tr.data.length = n ∧ none ∉ tr.data

/-- sample `j` of a correlation -/
def sampleOf (j : Nat) (tr : CTr V) : Rat := (tr.data.getD j none).getD 0

/-- the header of a stack: that of the first correlation with the end of the last one -/
def stackHead (s : CorrStats V) (e : Int) (n : Nat) : CorrStats V := { s with corrEnd := e, npts := n }.refresh

theorem stackHead_again (s : CorrStats V) (e e' : Int) (n : Nat) : stackHead (stackHead s e n) e' n = stackHead s e' n := rfl

theorem stackSt_in_order (w : Weight) (n : Nat) (f l : CTr V) (st : List (CTr V)) (hf : st.head? = some f) (hl : st.getLast? = some l)
    (hs : st.Pairwise fun x y => x.stats.corrStart ≤ y.stats.corrStart) (hn : FullRows n st) (d : List F) (hlen : d.length = n)
    (hd : stackData w n (st.map fun tr => tr.data)
      (st.map fun tr => ((tr.stats.corrEnd - tr.stats.corrStart : Int) : Rat) / 1000000000) = some d) :
    stackSt st w false = .ok ⟨stackHead f.stats l.stats.corrEnd n, d⟩ := by
  have h1 : isort startLe st = st := isort_eq_self _ _ (hs.imp fun h => by simpa [startLe] using h)
  have h2 : isort nptsLe st = st := isort_eq_self _ _ (List.Pairwise.imp_of_mem (fun {x y} hx hy _ => by
    simp [nptsLe, (hn x hx).1, (hn y hy).1]) hs)
  have hfm : f ∈ st := List.mem_of_mem_head? hf
  have h3 : (st.getLastD f).stats.npts = n := by
    rw [List.getLastD_eq_getLast?, hl]
    exact (hn l (List.mem_of_mem_getLast? hl)).1
  have h4 : (st.filter fun tr => decide (tr.stats.npts = (n : Int))) = st :=
    List.filter_eq_self.2 fun tr ht => by simpa using (hn tr ht).1
  unfold stackSt
  simp only [h1, hf, hl, h2, h3, h4, Int.toNat_natCast, hd, Bool.false_eq_true, if_false, hlen]
  rfl

theorem consecutive_sorted : ∀ (st : List (CTr V)) (a b : Int), Consecutive st a b →
    a ≤ b ∧ (∀ tr ∈ st, a ≤ tr.stats.corrStart) ∧ st.Pairwise fun x y => x.stats.corrStart ≤ y.stats.corrStart
  | [], a, b, h => ⟨le_of_eq h, by simp, .nil⟩
  | tr :: l, a, b, ⟨h1, h2, h3⟩ => by
    obtain ⟨g1, g2, g3⟩ := consecutive_sorted l _ _ h3
    refine ⟨by omega, ?_, List.pairwise_cons.2 ⟨fun t ht => ?_, g3⟩⟩
    · intro t ht
      rcases List.mem_cons.1 ht with rfl | ht
      · omega
      · have := g2 t ht; omega
    · have := g2 t ht; omega

theorem consecutive_last (st : List (CTr V)) (b : Int) (l : CTr V) (hl : st.getLast? = some l) :
    ∀ a : Int, Consecutive st a b → l.stats.corrEnd = b := by
  induction st with
  | nil => cases hl
  | cons tr st ih =>
    intro a h
    cases st with
    | nil => simp at hl; subst hl; exact h.2.2
    | cons t st => exact ih (by rwa [List.getLast?_cons_cons] at hl) _ h.2.2

theorem consecutive_durations : ∀ (st : List (CTr V)) (a b : Int), Consecutive st a b →
    (st.map fun tr => ((tr.stats.corrEnd - tr.stats.corrStart : Int) : Rat) / 1000000000).sum = ((b - a : Int) : Rat) / 1000000000
  | [], a, b, h => by obtain rfl : a = b := h; simp
  | tr :: l, a, b, ⟨h1, h2, h3⟩ => by
    rw [List.map_cons, List.sum_cons, consecutive_durations l _ _ h3, h1]
    push_cast
    ring

theorem consecutive_append : ∀ (st st' : List (CTr V)) (a b : Int), Consecutive (st ++ st') a b →
    ∃ c, Consecutive st a c ∧ Consecutive st' c b
  | [], st', a, b, h => ⟨a, rfl, h⟩
  | tr :: l, st', a, b, ⟨h1, h2, h3⟩ => by
    obtain ⟨c, g1, g2⟩ := consecutive_append l st' _ _ h3
    exact ⟨c, ⟨h1, h2, g1⟩, g2⟩

/-- samples times durations (in nanoseconds), added up -/
def weightedSum (j : Nat) (st : List (CTr V)) : Rat :=
  (st.map fun tr => sampleOf j tr * ((tr.stats.corrEnd - tr.stats.corrStart : Int) : Rat)).sum

theorem sampleAt_some (n j : Nat) (hj : j < n) (st : List (CTr V)) (hn : FullRows n st) (tr : CTr V) (ht : tr ∈ st) :
    tr.data.getD j none = some (sampleOf j tr) := by
  obtain ⟨_, h2, h3⟩ := hn tr ht
  unfold sampleOf
  rw [List.getD_eq_getElem _ _ (by omega)]
  cases hx : tr.data[j]'(by omega) with
  | none => exact absurd (hx ▸ List.getElem_mem _) h3
  | some x => rfl

theorem nansum_weighted (n j : Nat) (hj : j < n) : ∀ (st : List (CTr V)), FullRows n st →
    nansum (List.zipWith (fun a d => F.mul a (some d)) (column (st.map fun tr => tr.data) j)
      (st.map fun tr => ((tr.stats.corrEnd - tr.stats.corrStart : Int) : Rat) / 1000000000)) = weightedSum j st / 1000000000
  | [], _ => by simp [nansum, notNan, column, weightedSum]
  | tr :: l, hn => by
    have ih := nansum_weighted n j hj l fun t ht => hn t (List.mem_cons_of_mem _ ht)
    have hs := sampleAt_some n j hj _ hn tr List.mem_cons_self
    unfold nansum notNan column at ih ⊢
    simp only [List.map_cons, List.zipWith_cons_cons, hs, F.mul, bind, Option.bind, pure] at ih ⊢
    rw [List.filterMap_cons_some (by rfl), List.sum_cons, ih]
    unfold weightedSum
    rw [List.map_cons, List.sum_cons]
    simp
    ring

/-- a stack by length of consecutive correlations: header and samples -/
theorem stackSt_consecutive (n : Nat) (a b : Int) (f : CTr V) (st : List (CTr V)) (hf : st.head? = some f)
    (hc : Consecutive st a b) (hn : FullRows n st) :
    stackSt st .byLength false = .ok ⟨stackHead f.stats b n,
      (List.range n).map fun j => some (weightedSum j st / ((b - a : Int) : Rat))⟩ := by
  obtain ⟨hab, _, hs⟩ := consecutive_sorted st a b hc
  obtain ⟨l, hl⟩ : ∃ l, st.getLast? = some l := by
    cases st with
    | nil => cases hf
    | cons x y => exact ⟨_, List.getLast?_eq_some_getLast (by simp)⟩
  have hlt : a < b := by
    cases st with
    | nil => cases hf
    | cons x y => have := (consecutive_sorted _ _ _ hc.2.2).1; have := hc.2.1; omega
  rw [← consecutive_last st b l hl a hc]
  refine stackSt_in_order .byLength n f l st hf hl hs hn _ (by simp) ?_
  rw [consecutive_last st b l hl a hc]
  simp only [stackData, Option.some.injEq]
  refine List.map_congr_left fun j hj => ?_
  rw [nansum_weighted n j (List.mem_range.1 hj) st hn, consecutive_durations st a b hc]
  have : ((b - a : Int) : Rat) ≠ 0 := by exact_mod_cast (by omega : b - a ≠ 0)
  simp only [F.div, bind, Option.bind]
  rw [if_neg (by simpa using this)]
  congr 1
  field_simp

theorem weightedSum_append (j : Nat) (s t : List (CTr V)) : weightedSum j (s ++ t) = weightedSum j s + weightedSum j t := by
  simp [weightedSum]

theorem weightedSum_cons (j : Nat) (t : CTr V) (l : List (CTr V)) :
    weightedSum j (t :: l) = sampleOf j t * ((t.stats.corrEnd - t.stats.corrStart : Int) : Rat) + weightedSum j l := by
  simp [weightedSum]

/-- the stacks of consecutive groups follow each other, too, and have the same sums -/
theorem stack_groups (n : Nat) : ∀ (gs : List (List (CTr V))) (a b : Int), (∀ g ∈ gs, g ≠ []) → Consecutive gs.flatten a b → FullRows n gs.flatten →
    ∃ os, gs.mapM (fun g => stackSt g .byLength false) = .ok os ∧ Consecutive os a b ∧ FullRows n os ∧
      (∀ j < n, weightedSum j os = weightedSum j gs.flatten) ∧
      ∀ f, gs.flatten.head? = some f → ∃ o, os.head? = some o ∧ ∀ e : Int,
        stackHead o.stats e n = stackHead f.stats e n
  | [], a, b, _, hc, _ => ⟨[], rfl, hc, by simp [FullRows], by simp [weightedSum], by simp⟩
  | g :: gs, a, b, hne, hc, hn => by
    rw [List.flatten_cons] at hc hn
    obtain ⟨c, h1, h2⟩ := consecutive_append _ _ _ _ hc
    obtain ⟨os, g1, g2, g3, g4, _⟩ := stack_groups n gs c b (fun x hx => hne x (List.mem_cons_of_mem _ hx)) h2
      (fun t ht => hn t (List.mem_append_right _ ht))
    have hgn : FullRows n g := fun t ht => hn t (List.mem_append_left _ ht)
    obtain ⟨f, hf⟩ : ∃ f, g.head? = some f := by
      cases g with
      | nil => exact absurd rfl (hne [] List.mem_cons_self)
      | cons x y => exact ⟨x, rfl⟩
    have hst := stackSt_consecutive n a c f g hf h1 hgn
    have hlt : a < c := by
      cases g with
      | nil => cases hf
      | cons x y => have := (consecutive_sorted _ _ _ h1.2.2).1; have := h1.2.1; omega
    have hfa : f.stats.corrStart = a := by
      cases g with
      | nil => cases hf
      | cons x y => cases hf; exact h1.1
    refine ⟨⟨stackHead f.stats c n, (List.range n).map fun j => some (weightedSum j g / ((c - a : Int) : Rat))⟩ :: os, ?_, ⟨hfa, ?_, g2⟩, ?_, ?_, ?_⟩
    · rw [List.mapM_cons, hst, g1]; rfl
    · exact hlt
    · intro t ht
      rcases List.mem_cons.1 ht with rfl | ht
      · exact ⟨rfl, by simp, by simp⟩
      · exact g3 t ht
    · intro j hj
      rw [List.flatten_cons, weightedSum_append, ← g4 j hj, weightedSum_cons]
      congr 1
      have hne0 : ((c - a : Int) : Rat) ≠ 0 := by exact_mod_cast (by omega : c - a ≠ 0)
      have hs : sampleOf j (⟨stackHead f.stats c n,
          (List.range n).map fun j => some (weightedSum j g / ((c - a : Int) : Rat))⟩ : CTr V) = weightedSum j g / ((c - a : Int) : Rat) := by
        unfold sampleOf
        rw [List.getD_eq_getElem _ _ (by simpa using hj)]
        simp
      rw [hs]
      show weightedSum j g / ((c - a : Int) : Rat) * ((c - f.stats.corrStart : Int) : Rat) = weightedSum j g
      rw [hfa, div_mul_cancel₀ _ hne0]
    · intro f' hf'
      have : f' = f := by
        rw [List.flatten_cons, List.head?_append, hf] at hf'
        simpa using hf'.symm
      subst this
      exact ⟨_, rfl, fun e => rfl⟩

/-- **C210** (weighted by length) Consecutive correlations are divided into groups of any sizes. The stack of the stacks of the groups is the
stack of all correlations, header and samples, if the stacks are weighted by length and not normalised. Missing: normalised stacks, which
`CorrStream.stack` makes (`c210_norm_violated`), gaps (`c210_gap_violated`) and missing samples. -/
theorem c210_length_partial (gs : List (List (CTr V))) (hgs : gs ≠ []) (hne : ∀ g ∈ gs, g ≠ []) (a b : Int) (hc : Consecutive gs.flatten a b)
    (n : Nat) (hn : FullRows n gs.flatten) :
    ∃ os o, gs.mapM (fun g => stackSt g .byLength false) = .ok os ∧ stackSt os .byLength false = .ok o ∧
      stackSt gs.flatten .byLength false = .ok o := by
  obtain ⟨os, h1, h2, h3, h4, h5⟩ := stack_groups n gs a b hne hc hn
  obtain ⟨f, hf⟩ : ∃ f, gs.flatten.head? = some f := by
    match gs, hgs, hne with
    | [] :: _, _, hne => exact absurd rfl (hne [] List.mem_cons_self)
    | (x :: y) :: gs, _, _ => exact ⟨x, rfl⟩
  obtain ⟨o, ho, hoe⟩ := h5 f hf
  refine ⟨os, _, h1, stackSt_consecutive n a b o os ho h2 h3, ?_⟩
  rw [stackSt_consecutive n a b f gs.flatten hf hc hn, hoe b]
  congr 2
  exact List.map_congr_left fun j hj => by rw [h4 j (List.mem_range.1 hj)]

/-- the hypotheses of `c210_length_partial` are met: three correlations in two groups -/
example : Consecutive [exTr c!"A-A" 0 10 [some 1, some 2], exTr c!"A-A" 10 40 [some 5, some 6], exTr c!"A-A" 40 45 [some 0, some 3]] 0 45 ∧
    FullRows 2 [exTr c!"A-A" 0 10 [some 1, some 2], exTr c!"A-A" 10 40 [some 5, some 6], exTr c!"A-A" 40 45 [some 0, some 3]] := by
  unfold FullRows
  refine ⟨⟨rfl, by decide, rfl, by decide, rfl, by decide, rfl⟩, by decide +kernel⟩

/-! ### means -/

theorem nanmean_full (n j : Nat) (hj : j < n) (st : List (CTr V)) (hne : st ≠ []) (hn : FullRows n st) :
    nanmean (column (st.map fun tr => tr.data) j) = some ((st.map (sampleOf j)).sum / st.length) := by
  have h : column (st.map fun tr => tr.data) j = (st.map (sampleOf j)).map some := by
    unfold column
    rw [List.map_map, List.map_map]
    exact List.map_congr_left fun tr ht => sampleAt_some n j hj st hn tr ht
  have h2 : notNan ((st.map (sampleOf j)).map some) = st.map (sampleOf j) := by
    unfold notNan
    simp [List.filterMap_map]
  unfold nanmean
  rw [h, h2]
  cases st with
  | nil => exact absurd rfl hne
  | cons x y => simp

theorem stackSt_mean (n : Nat) (f l : CTr V) (st : List (CTr V)) (hf : st.head? = some f) (hl : st.getLast? = some l)
    (hs : st.Pairwise fun x y => x.stats.corrStart ≤ y.stats.corrStart) (hn : FullRows n st) :
    stackSt st .mean false = .ok ⟨stackHead f.stats l.stats.corrEnd n,
      (List.range n).map fun j => some ((st.map (sampleOf j)).sum / st.length)⟩ := by
  refine stackSt_in_order .mean n f l st hf hl hs hn _ (by simp) ?_
  simp only [stackData, Option.some.injEq]
  refine List.map_congr_left fun j hj => nanmean_full n j (List.mem_range.1 hj) st ?_ hn
  rintro rfl
  cases hf

theorem mean_groups (n k : Nat) (hk : 0 < k) : ∀ (gs : List (List (CTr V))), (∀ g ∈ gs, g.length = k) →
    (gs.flatten.Pairwise fun x y => x.stats.corrStart ≤ y.stats.corrStart) → FullRows n gs.flatten →
    ∃ os, gs.mapM (fun g => stackSt g .mean false) = .ok os ∧ os.length = gs.length ∧ FullRows n os ∧
      (os.Pairwise fun x y => x.stats.corrStart ≤ y.stats.corrStart) ∧
      (∀ o ∈ os, ∃ f ∈ gs.flatten, o.stats.corrStart = f.stats.corrStart) ∧
      (∀ j < n, (os.map (sampleOf j)).sum * k = (gs.flatten.map (sampleOf j)).sum) ∧
      (∀ f, gs.flatten.head? = some f → ∃ o, os.head? = some o ∧ ∀ e : Int,
        stackHead o.stats e n = stackHead f.stats e n) ∧
      ∀ l, gs.flatten.getLast? = some l → ∃ o, os.getLast? = some o ∧ o.stats.corrEnd = l.stats.corrEnd
  | [], _, _, _ => ⟨[], rfl, rfl, by simp [FullRows], .nil, by simp, by simp, by simp, by simp⟩
  | g :: gs, hlen, hs, hn => by
    rw [List.flatten_cons] at hs hn
    obtain ⟨s1, s2, s3⟩ := List.pairwise_append.1 hs
    obtain ⟨os, g1, g2, g3, g4, g5, g6, g7, g8⟩ := mean_groups n k hk gs (fun x hx => hlen x (List.mem_cons_of_mem _ hx)) s2
      (fun t ht => hn t (List.mem_append_right _ ht))
    have hgk := hlen g List.mem_cons_self
    have hgn : FullRows n g := fun t ht => hn t (List.mem_append_left _ ht)
    have hgne : g ≠ [] := by rintro rfl; simp at hgk; omega
    obtain ⟨f, hf⟩ : ∃ f, g.head? = some f := by
      cases g with
      | nil => exact absurd rfl hgne
      | cons x y => exact ⟨x, rfl⟩
    obtain ⟨l, hl⟩ : ∃ l, g.getLast? = some l := ⟨_, List.getLast?_eq_some_getLast hgne⟩
    have hst := stackSt_mean n f l g hf hl s1 hgn
    have hfm : f ∈ g := List.mem_of_mem_head? hf
    refine ⟨⟨stackHead f.stats l.stats.corrEnd n, (List.range n).map fun j => some ((g.map (sampleOf j)).sum / g.length)⟩ :: os, ?_, by simp [g2], ?_, ?_, ?_, ?_, ?_, ?_⟩
    · rw [List.mapM_cons, hst, g1]; rfl
    · intro t ht
      rcases List.mem_cons.1 ht with rfl | ht
      · exact ⟨rfl, by simp, by simp⟩
      · exact g3 t ht
    · refine List.pairwise_cons.2 ⟨fun t ht => ?_, g4⟩
      obtain ⟨f', hf', e⟩ := g5 t ht
      rw [e]
      exact s3 f hfm f' hf'
    · intro o ho
      rcases List.mem_cons.1 ho with rfl | ho
      · exact ⟨f, by rw [List.flatten_cons]; exact List.mem_append_left _ hfm, rfl⟩
      · obtain ⟨f', hf', e⟩ := g5 o ho
        exact ⟨f', by rw [List.flatten_cons]; exact List.mem_append_right _ hf', e⟩
    · intro j hj
      rw [List.flatten_cons, List.map_append, List.sum_append, ← g6 j hj, List.map_cons, List.sum_cons, add_mul]
      congr 1
      have hs : sampleOf j (⟨stackHead f.stats l.stats.corrEnd n,
          (List.range n).map fun j => some ((g.map (sampleOf j)).sum / g.length)⟩ : CTr V) = (g.map (sampleOf j)).sum / g.length := by
        unfold sampleOf
        rw [List.getD_eq_getElem _ _ (by simpa using hj)]
        simp
      rw [hs, hgk, div_mul_cancel₀]
      exact_mod_cast (by omega : k ≠ 0)
    · intro f' hf'
      have : f' = f := by
        rw [List.flatten_cons, List.head?_append, hf] at hf'
        simpa using hf'.symm
      subst this
      exact ⟨_, rfl, fun e => rfl⟩
    · intro l' hl'
      rw [List.flatten_cons, List.getLast?_append] at hl'
      cases hgl : gs.flatten.getLast? with
      | none =>
        rw [hgl, hl] at hl'
        have hl' : l = l' := by simpa using hl'
        subst hl'
        have hgs : gs = [] := by
          cases gs with
          | nil => rfl
          | cons x y =>
            have hx := hlen x (by simp)
            rw [List.getLast?_eq_none_iff, List.flatten_cons, List.append_eq_nil_iff] at hgl
            rw [hgl.1] at hx
            simp at hx
            omega
        subst hgs
        have : os = [] := List.length_eq_zero_iff.1 g2
        subst this
        exact ⟨_, rfl, rfl⟩
      | some l2 =>
        rw [hgl] at hl'
        have hl' : l2 = l' := by simpa using hl'
        subst hl'
        obtain ⟨o, ho, e⟩ := g8 l2 hgl
        refine ⟨o, ?_, e⟩
        rw [List.getLast?_cons, ho]
        rfl

/-- **C210** (means) Correlations in the order of their start are divided into groups of equal size. The mean of the means of the groups is
the mean of all correlations, header and samples, if the stacks are not normalised. Missing: normalised stacks (`c210_norm_violated`),
groups of different sizes (`c210_sizes_violated`) and missing samples. -/
theorem c210_mean_partial (gs : List (List (CTr V))) (k : Nat) (hk : 0 < k) (hgs : gs ≠ []) (hlen : ∀ g ∈ gs, g.length = k)
    (hs : gs.flatten.Pairwise fun x y => x.stats.corrStart ≤ y.stats.corrStart) (n : Nat) (hn : FullRows n gs.flatten) :
    ∃ os o, gs.mapM (fun g => stackSt g .mean false) = .ok os ∧ stackSt os .mean false = .ok o ∧ stackSt gs.flatten .mean false = .ok o := by
  obtain ⟨os, h1, h2, h3, h4, _, h6, h7, h8⟩ := mean_groups n k hk gs hlen hs hn
  have hfl : gs.flatten ≠ [] := by
    cases gs with
    | nil => exact absurd rfl hgs
    | cons g gs =>
      have := hlen g List.mem_cons_self
      intro h
      rw [List.flatten_cons, List.append_eq_nil_iff] at h
      rw [h.1] at this
      simp at this
      omega
  obtain ⟨f, hf⟩ : ∃ f, gs.flatten.head? = some f := ⟨_, List.head?_eq_some_head hfl⟩
  obtain ⟨l, hl⟩ : ∃ l, gs.flatten.getLast? = some l := ⟨_, List.getLast?_eq_some_getLast hfl⟩
  obtain ⟨o, ho, hoe⟩ := h7 f hf
  obtain ⟨o', ho', hoe'⟩ := h8 l hl
  refine ⟨os, _, h1, stackSt_mean n o o' os ho ho' h4 h3, ?_⟩
  rw [stackSt_mean n f l gs.flatten hf hl hs hn, hoe, hoe']
  congr 2
  refine List.map_congr_left fun j hj => ?_
  rw [← h6 j (List.mem_range.1 hj), h2]
  have hlf : gs.flatten.length = gs.length * k := by
    rw [List.length_flatten, List.map_congr_left (g := fun _ => k) hlen]
    simp
  rw [hlf]
  have hk0 : (k : Rat) ≠ 0 := by exact_mod_cast (by omega : k ≠ 0)
  push_cast
  rw [mul_div_mul_right _ _ hk0]

/-- the hypotheses of `c210_mean_partial` are met: four correlations in two groups, with gaps -/
example : let gs := [[exTr c!"A-A" 0 10 [some 1], exTr c!"A-A" 20 30 [some 5]], [exTr c!"A-A" 30 40 [some 0], exTr c!"A-A" 90 99 [some 7]]]
    (∀ g ∈ gs, g.length = 2) ∧ (gs.flatten.Pairwise fun x y => x.stats.corrStart ≤ y.stats.corrStart) ∧ FullRows 1 gs.flatten := by
  unfold FullRows
  decide +kernel

/-- **C210 is violated** by `CorrStream.stack`, which normalises each stack: stacks of windows of 20 that are stacked again differ from the
stack of all correlations, even in the proportions of the samples. -/
theorem c210_norm_violated :
    let st := [exTr c!"A-A" 0 10 [some 0, some 1], exTr c!"A-A" 10 20 [some 0, some 1], exTr c!"A-A" 20 30 [some 4, some 2], exTr c!"A-A" 30 40 [some 4, some 2]]
    ∃ days twice once, stack st .byLength none none (.len 20) true = .ok days ∧ stack days .byLength none none .all true = .ok [twice] ∧
      stack st .byLength none none .all true = .ok [once] ∧ twice.data = [some (2 / 3), some 1] ∧ once.data = [some 1, some (3 / 4)] := by
  refine ⟨[exTr c!"A-A" 0 20 [some 0, some 1], exTr c!"A-A" 20 40 [some 1, some (1 / 2)]], exTr c!"A-A" 0 40 [some (2 / 3), some 1],
    exTr c!"A-A" 0 40 [some 1, some (3 / 4)], ?_⟩
  decide +kernel

/-- **C210 is violated** by gaps: a stack counts with the time from its first to its last correlation, so a stack of few correlations with a
long gap gets a large weight. -/
theorem c210_gap_violated :
    let g := [exTr c!"A-A" 0 10 [some 0], exTr c!"A-A" 90 100 [some 0]]
    let g' := [exTr c!"A-A" 100 120 [some 1]]
    ∃ o o' twice once, stackSt g .byLength false = .ok o ∧ stackSt g' .byLength false = .ok o' ∧ stackSt [o, o'] .byLength false = .ok twice ∧
      stackSt (g ++ g') .byLength false = .ok once ∧ twice.data = [some (1 / 6)] ∧ once.data = [some (1 / 2)] := by
  refine ⟨exTr c!"A-A" 0 100 [some 0], exTr c!"A-A" 100 120 [some 1], exTr c!"A-A" 0 120 [some (1 / 6)], exTr c!"A-A" 0 120 [some (1 / 2)], ?_⟩
  decide +kernel

/-- **C210 is violated** by means of groups of different sizes. -/
theorem c210_sizes_violated :
    let g := [exTr c!"A-A" 0 10 [some 0], exTr c!"A-A" 10 20 [some 0]]
    let g' := [exTr c!"A-A" 20 30 [some 1]]
    ∃ o o' twice once, stackSt g .mean false = .ok o ∧ stackSt g' .mean false = .ok o' ∧ stackSt [o, o'] .mean false = .ok twice ∧
      stackSt (g ++ g') .mean false = .ok once ∧ twice.data = [some (1 / 2)] ∧ once.data = [some (1 / 3)] := by
  refine ⟨exTr c!"A-A" 0 20 [some 0], exTr c!"A-A" 20 30 [some 1], exTr c!"A-A" 0 30 [some (1 / 2)], exTr c!"A-A" 0 30 [some (1 / 3)], ?_⟩
  decide +kernel

/-- **C210** (normalisation before stacking) is violated: `norm` is documented to normalise the correlations before they are stacked, so that
all of them count alike. The stack is normalised instead: a correlation a hundred times as large as another one outweighs it. -/
theorem c210_prior_violated :
    let st := [exTr c!"A-A" 0 10 [some 1, some 0], exTr c!"A-A" 10 20 [some 0, some 100]]
    ∃ o, stackSt st .mean true = .ok o ∧ o.data = [some (1 / 100), some 1] ∧
      ∃ o', stackSt (st.map fun tr => { tr with data := normMax tr.data }) .mean true = .ok o' ∧ o'.data = [some 1, some 1] := by
  refine ⟨exTr c!"A-A" 0 20 [some (1 / 100), some 1], ?_, ?_, exTr c!"A-A" 0 20 [some 1, some 1], ?_⟩ <;> decide +kernel

end SeisMIC
