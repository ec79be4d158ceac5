import Verif.Props.StreamSelect
import Mathlib.Algebra.Order.Field.Basic

/-!
# C29: stacks
-/

namespace SeisMIC

variable {V : Type}

/-- the samples at index `j` of the traces with the largest number of samples -/
def StackedAt (st : List (CTr V)) (j : Nat) (x : F) : Prop :=
  ∃ tr ∈ st, (∀ t ∈ st, t.stats.npts ≤ tr.stats.npts) ∧ tr.data.getD j none = x

theorem column_mem (st : List (CTr V)) (first : CTr V) (j : Nat) (x : F)
    (h : x ∈ column ((stackSel st first).map fun tr => tr.data) j) : StackedAt st j x := by
  unfold column at h
  rw [List.map_map] at h
  obtain ⟨tr, ht, rfl⟩ := List.mem_map.1 h
  obtain ⟨h1, h2⟩ := (stackSel_mem st first tr).1 ht
  exact ⟨tr, h1, h2, rfl⟩

/-- **C29** Each sample of the (not normalised) mean stack lies between the
smallest and the largest of the stacked samples that are not `nan`. It is `nan`
iff all of them are. -/
theorem c29_mean_bounded (st : List (CTr V)) (o : CTr V) (h : stackSt st .mean false = .ok o) (j : Nat)
    (hj : j < o.data.length) :
    (∀ y lo hi : Rat, o.data[j] = some y → (∀ x, StackedAt st j (some x) → lo ≤ x ∧ x ≤ hi) → lo ≤ y ∧ y ≤ hi) ∧
    (o.data[j] = none ↔ ∀ x, StackedAt st j x → x = none) := by
  obtain ⟨f, l, d, hf, hl, hd, ho, -⟩ := stackSt_spec st _ _ o h
  simp only [stackData, Option.some.injEq] at hd
  simp only [Bool.false_eq_true, ↓reduceIte] at ho
  have hval : o.data[j] = nanmean (column ((stackSel st f).map fun tr => tr.data) j) := by
    have : o.data[j]? = some (nanmean (column ((stackSel st f).map fun tr => tr.data) j)) := by
      rw [ho, ← hd]
      rw [List.getElem?_map, List.getElem?_range]
      · rfl
      · rw [ho, ← hd] at hj
        simpa using hj
    rw [List.getElem?_eq_getElem hj] at this
    simpa using this
  rw [hval]
  refine ⟨fun y lo hi hy hb => nanmean_bounds _ lo hi y (fun x hx => hb x (column_mem st f j _ hx)) hy, ?_⟩
  rw [nanmean_none]
  constructor
  · rintro hx x ⟨tr, h1, h2, h3⟩
    apply hx
    unfold column
    rw [List.map_map]
    exact List.mem_map.2 ⟨tr, (stackSel_mem st f tr).2 ⟨h1, h2⟩, h3⟩
  · intro hx x hm
    exact hx x (column_mem st f j x hm)

/-- **C29** The same holds for stacks weighted by length if the durations are
positive and the data contain no `nan`.
Missing for the full property: `c29_weighted_nan_violated`, `c29_copies_weighted_violated`, `c29_covers_violated`. -/
theorem c29_weighted_bounded_partial (st : List (CTr V)) (o : CTr V) (h : stackSt st .byLength false = .ok o) (j : Nat)
    (hj : j < o.data.length) (hpos : ∀ tr ∈ st, tr.stats.corrStart < tr.stats.corrEnd)
    (hn : ∀ x, StackedAt st j x → x ≠ none) :
    ∃ y, o.data[j] = some y ∧ ∀ lo hi : Rat, (∀ x, StackedAt st j (some x) → lo ≤ x ∧ x ≤ hi) → lo ≤ y ∧ y ≤ hi := by
  obtain ⟨f, l, d, hf, hl, hd, ho, -⟩ := stackSt_spec st _ _ o h
  have hne : st ≠ [] := by rintro rfl; simp [isort] at hf
  obtain ⟨t0, ht0, -⟩ := stackSel_npts st f hne
  simp only [stackData, Option.some.injEq] at hd
  simp only [Bool.false_eq_true, ↓reduceIte] at ho
  set A := (stackSel st f).map fun tr => tr.data with hA
  set dur := (stackSel st f).map fun tr => ((tr.stats.corrEnd - tr.stats.corrStart : Int) : Rat) / 1000000000 with hdur
  have hval : o.data[j] = F.div (some (nansum (List.zipWith (fun a d => F.mul a (some d)) (column A j) dur))) (some dur.sum) := by
    have : o.data[j]? = some (F.div (some (nansum (List.zipWith (fun a d => F.mul a (some d)) (column A j) dur))) (some dur.sum)) := by
      rw [ho, ← hd]
      rw [List.getElem?_map, List.getElem?_range]
      · rfl
      · rw [ho, ← hd] at hj
        simpa using hj
    rw [List.getElem?_eq_getElem hj] at this
    simpa using this
  have hdpos : ∀ d ∈ dur, 0 < d := by
    intro d hd
    obtain ⟨tr, ht, rfl⟩ := List.mem_map.1 hd
    have := hpos tr ((stackSel_mem st f tr).1 ht).1
    have : (0 : Rat) < ((tr.stats.corrEnd - tr.stats.corrStart : Int) : Rat) := by
      exact_mod_cast (by omega : 0 < tr.stats.corrEnd - tr.stats.corrStart)
    exact div_pos this (by norm_num)
  have hsum : 0 < dur.sum := by
    have hmem : ((t0.stats.corrEnd - t0.stats.corrStart : Int) : Rat) / 1000000000 ∈ dur :=
      List.mem_map.2 ⟨t0, ht0, rfl⟩
    revert hdpos hmem
    generalize ((t0.stats.corrEnd - t0.stats.corrStart : Int) : Rat) / 1000000000 = d0
    clear_value dur
    clear hd hval hdur ho h hj hpos
    intro hdpos hmem
    have hall : ∀ l : List Rat, (∀ d ∈ l, 0 < d) → 0 ≤ l.sum := by
      intro l hl
      induction l with
      | nil => simp
      | cons a l ih =>
        have := ih (fun d hd => hl d (by simp [hd]))
        have := hl a (by simp)
        simp only [List.sum_cons]; linarith
    cases dur with
    | nil => simp at hmem
    | cons a l =>
      have h1 := hdpos a (by simp)
      have h2 := hall l (fun d hd => hdpos d (by simp [hd]))
      simp only [List.sum_cons]; linarith
  obtain ⟨xs, hxs⟩ := list_map_some (column A j) (fun x hx => hn x (column_mem st f j x hx))
  have hlen : xs.length = dur.length := by
    have : (column A j).length = dur.length := by simp [column, hA, hdur]
    rw [hxs] at this
    simpa using this
  rw [hval, hxs, nansum_zipWith]
  refine ⟨_, by simp only [F.div, bind, Option.bind]; rw [if_neg (ne_of_gt hsum)], ?_⟩
  intro lo hi hb
  have := weighted_bounds xs dur lo hi hlen (fun x hx => hb x (column_mem st f j _ (by rw [hxs]; simpa using hx)))
    (fun d hd => le_of_lt (hdpos d hd))
  exact ⟨(le_div_iff₀ hsum).2 this.1, (div_le_iff₀ hsum).2 this.2⟩

example : ∃ o, stackSt [exTr c!"A-A" 0 10 [some 1, some 2], exTr c!"A-A" 10 40 [some 5, some 6]] .byLength false = .ok o ∧
    o.data = [some 4, some 5] := ⟨_, rfl, by decide +kernel⟩

/-- **C29** With `nan`, a stack weighted by length leaves the range of the
samples: the stack of 1 and `nan` is 1/2. -/
theorem c29_weighted_nan_violated : ∃ (st : List (CTr Nat)) (o : CTr Nat), stackSt st .byLength false = .ok o ∧
    (∀ x, StackedAt st 0 (some x) → 1 ≤ x ∧ x ≤ 1) ∧ o.data = [some (1/2)] := by
  refine ⟨[exTr c!"A-A" 0 10 [some 1], exTr c!"A-A" 10 20 [none]], _, rfl, ?_, by decide +kernel⟩
  rintro x ⟨tr, h1, -, h3⟩
  simp only [List.mem_cons, List.not_mem_nil, or_false] at h1
  rcases h1 with rfl | rfl
  · simp only [exTr, List.getD_cons_zero, Option.some.injEq] at h3
    subst h3
    exact ⟨le_refl _, le_refl _⟩
  · simp [exTr] at h3

/-- **C29** Normalisation (the default when stacking a stream) divides the stack
by its absolute maximum: samples are at most one in absolute value, one of them
is exactly one, and all are in the proportion of the stack that is not
normalised. -/
theorem c29_normalised (st : List (CTr V)) (weight : Weight) (o u : CTr V)
    (ho : stackSt st weight true = .ok o) (hu : stackSt st weight false = .ok u)
    (hnz : ∃ x : Rat, some x ∈ u.data ∧ x ≠ 0) :
    ∃ m : Rat, 0 < m ∧ o.data = u.data.map (Option.map (· / m)) ∧ (∀ x, some x ∈ o.data → |x| ≤ 1) ∧
      ∃ x, some x ∈ o.data ∧ |x| = 1 := by
  obtain ⟨f, l, d, hf, hl, hd, hod, -⟩ := stackSt_spec st _ _ o ho
  obtain ⟨f', l', d', hf', hl', hd', hud, -⟩ := stackSt_spec st _ _ u hu
  rw [hf] at hf'
  cases hf'
  rw [hd] at hd'
  cases hd'
  simp only [Bool.false_eq_true, ↓reduceIte] at hud hod
  obtain ⟨x0, hx0, hx0'⟩ := hnz
  rw [hud] at hx0
  cases hm : nanmax (d.map F.abs) with
  | none => exact absurd (nanmax_abs_none d hm _ hx0) (by simp)
  | some m =>
    obtain ⟨⟨z, hz, hzm⟩, hle⟩ := nanmax_abs d m hm
    have hmpos : 0 < m := lt_of_lt_of_le (abs_pos.2 hx0') (hle x0 hx0)
    have hdata : o.data = u.data.map (Option.map (· / m)) := by
      rw [hod, hud]
      unfold normMax
      simp only [hm]
      apply List.map_congr_left
      intro x _
      cases x with
      | none => rfl
      | some x => simp [F.div, bind, Option.bind, ne_of_gt hmpos]
    refine ⟨m, hmpos, hdata, ?_, z / m, ?_, ?_⟩
    · intro x hx
      rw [hdata, hud] at hx
      obtain ⟨w, hw, hwx⟩ := List.mem_map.1 hx
      cases w with
      | none => simp at hwx
      | some w =>
        simp only [Option.map_some, Option.some.injEq] at hwx
        rw [← hwx, abs_div, abs_of_pos hmpos, div_le_one hmpos]
        exact hle w hw
    · rw [hdata, hud]
      exact List.mem_map.2 ⟨some z, hz, rfl⟩
    · rw [abs_div, abs_of_pos hmpos, hzm, div_self (ne_of_gt hmpos)]

theorem stackSt_replicate (tr : CTr V) (n : Nat) (hw : tr.Wf) (weight : Weight) (o : CTr V)
    (h : stackSt (List.replicate (n + 1) tr) weight false = .ok o) :
    o.data.length = tr.data.length ∧ (o.data = tr.data → o = tr) := by
  have hp : ∀ le : CTr V → CTr V → Bool, le tr tr = true →
      isort le (List.replicate (n + 1) tr) = List.replicate (n + 1) tr := by
    intro le hle
    apply isort_eq_self
    rw [List.pairwise_replicate]
    exact Or.inr hle
  have e1 := hp startLe (by simp [startLe])
  have e2 := hp nptsLe (by simp [nptsLe])
  obtain ⟨f, l, d, hf, hl, hd, ho, hs⟩ := stackSt_spec _ _ _ o h
  rw [e1] at hf hl
  rw [e1, e2] at hd
  simp only [List.replicate_succ, List.head?_cons, Option.some.injEq] at hf
  subst hf
  have hlm := List.mem_of_getLast? hl
  rw [List.mem_replicate] at hlm
  have hl' := hlm.2
  subst hl'
  simp only [Bool.false_eq_true, ↓reduceIte] at ho
  have hlast : (List.replicate (n + 1) l).getLastD l = l := by
    rw [List.getLastD_eq_getLast?, hl]
    rfl
  rw [hlast, hw.1] at hd
  have hlen : o.data.length = l.data.length := by
    rw [ho]
    cases weight with
    | mean => simp only [stackData, Option.some.injEq] at hd; rw [← hd]; simp
    | byLength => simp only [stackData, Option.some.injEq] at hd; rw [← hd]; simp
    | other => simp [stackData] at hd
  refine ⟨hlen, fun hdata => ?_⟩
  have hstats : o.stats = l.stats := by
    rw [hs, hlen, ← hw.1]
    exact (congrArg CorrStats.refresh hw.2).trans hw.2
  cases o; cases l
  simp_all

/-- **C29** Stacking copies of one trace gives this trace. -/
theorem c29_copies (tr : CTr V) (n : Nat) (hw : tr.Wf) :
    stackSt (List.replicate (n + 1) tr) .mean false = .ok tr := by
  obtain ⟨o, ho⟩ := stackSt_ok (List.replicate (n + 1) tr) .mean false (by simp) (by decide)
  obtain ⟨hlen, heq⟩ := stackSt_replicate tr n hw _ o ho
  rw [ho, heq]
  have hat : ∀ j x, StackedAt (List.replicate (n + 1) tr) j x → tr.data.getD j none = x := by
    rintro j x ⟨t, ht, -, hx⟩
    rw [(List.mem_replicate.1 ht).2] at hx
    exact hx
  apply List.ext_getElem hlen
  intro j h1 h2
  obtain ⟨hb, hnan⟩ := c29_mean_bounded _ o ho j h1
  have hd : tr.data.getD j none = tr.data[j] := by simp [h2]
  cases hx : tr.data[j] with
  | none =>
    rw [hnan]
    intro x hxs
    rw [← hat j x hxs, hd, hx]
  | some x =>
    cases hy : o.data[j] with
    | none =>
      have := hnan.1 hy (some x) ⟨tr, by simp, by
        intro t ht
        rw [(List.mem_replicate.1 ht).2], by rw [hd, hx]⟩
      simp at this
    | some y =>
      have := hb y x x hy (by
        intro x' hx'
        have := hat j _ hx'
        rw [hd, hx] at this
        cases this
        exact ⟨le_refl _, le_refl _⟩)
      rw [le_antisymm this.2 this.1]

/-- **C29** The same for stacks weighted by length, if there is no `nan`.
Missing for the full property: `c29_weighted_nan_violated`, `c29_copies_weighted_violated`, `c29_covers_violated`. -/
theorem c29_copies_weighted_partial (tr : CTr V) (n : Nat) (hw : tr.Wf) (hn : NoNan tr)
    (hpos : tr.stats.corrStart < tr.stats.corrEnd) :
    stackSt (List.replicate (n + 1) tr) .byLength false = .ok tr := by
  obtain ⟨o, ho⟩ := stackSt_ok (List.replicate (n + 1) tr) .byLength false (by simp) (by decide)
  obtain ⟨hlen, heq⟩ := stackSt_replicate tr n hw _ o ho
  rw [ho, heq]
  have hat : ∀ j x, StackedAt (List.replicate (n + 1) tr) j x → tr.data.getD j none = x := by
    rintro j x ⟨t, ht, -, hx⟩
    rw [(List.mem_replicate.1 ht).2] at hx
    exact hx
  apply List.ext_getElem hlen
  intro j h1 h2
  have hd : tr.data.getD j none = tr.data[j] := by simp [h2]
  have hnn : tr.data[j] ≠ none := hn _ (List.getElem_mem h2)
  obtain ⟨y, hy, hb⟩ := c29_weighted_bounded_partial _ o ho j h1
    (fun t ht => by rw [(List.mem_replicate.1 ht).2]; exact hpos)
    (fun x hx => by rw [← hat j x hx, hd]; exact hnn)
  cases hx : tr.data[j] with
  | none => exact absurd hx hnn
  | some x =>
    have := hb x x (by
        intro x' hx'
        have := hat j _ hx'
        rw [hd, hx] at this
        cases this
        exact ⟨le_refl _, le_refl _⟩)
    rw [hy, le_antisymm this.2 this.1]

example : (exTr c!"A-A" 0 10 [some 1, some 2]).Wf ∧ NoNan (exTr c!"A-A" 0 10 [some 1, some 2]) := by
  unfold NoNan; decide +kernel

/-- **C29** Copies of `nan` weighted by length give 0. -/
theorem c29_copies_weighted_violated : ∃ (tr o : CTr Nat), tr.Wf ∧
    stackSt [tr, tr] .byLength false = .ok o ∧ tr.data = [none] ∧ o.data = [some 0] :=
  ⟨exTr c!"A-A" 0 10 [none], _, by decide +kernel, rfl, rfl, by decide +kernel⟩

/-- **C29** The header of the stack starts with the earliest member. -/
theorem c29_start (st : List (CTr V)) (weight : Weight) (norm : Bool) (o : CTr V)
    (h : stackSt st weight norm = .ok o) :
    (∃ tr ∈ st, o.stats.corrStart = tr.stats.corrStart) ∧ ∀ tr ∈ st, o.stats.corrStart ≤ tr.stats.corrStart := by
  obtain ⟨f, l, d, hf, hl, -, -, hs⟩ := stackSt_spec _ _ _ o h
  have e : o.stats.corrStart = f.stats.corrStart := by rw [hs]; rfl
  refine ⟨⟨f, mem_isort.1 (List.mem_of_head? hf), e⟩, fun tr ht => ?_⟩
  rw [e]
  have hsort := isort_startLe_sorted st
  have ht := (mem_isort (le := startLe)).2 ht
  cases hi : isort startLe st with
  | nil => rw [hi] at hf; simp at hf
  | cons f' l' =>
    rw [hi] at hf ht hsort
    simp only [List.head?_cons, Option.some.injEq] at hf
    subst hf
    rcases List.mem_cons.1 ht with rfl | ht
    · exact le_refl _
    · exact (List.pairwise_cons.1 hsort).1 tr ht

/-- **C29** It covers the windows of all members if correlations that start
later do not end earlier.
Missing for the full property: `c29_weighted_nan_violated`, `c29_copies_weighted_violated`, `c29_covers_violated`. -/
theorem c29_covers_partial (st : List (CTr V)) (weight : Weight) (norm : Bool) (o : CTr V)
    (h : stackSt st weight norm = .ok o)
    (hend : ∀ a ∈ st, ∀ b ∈ st, a.stats.corrStart ≤ b.stats.corrStart → a.stats.corrEnd ≤ b.stats.corrEnd) :
    ∀ tr ∈ st, o.stats.corrStart ≤ tr.stats.corrStart ∧ tr.stats.corrEnd ≤ o.stats.corrEnd := by
  intro tr ht
  refine ⟨(c29_start st weight norm o h).2 tr ht, ?_⟩
  obtain ⟨f, l, d, hf, hl, -, -, hs⟩ := stackSt_spec _ _ _ o h
  have e : o.stats.corrEnd = l.stats.corrEnd := by rw [hs]; rfl
  have hsort := isort_startLe_sorted st
  have ht' := (mem_isort (le := startLe)).2 ht
  have hlm : l ∈ st := mem_isort.1 (List.mem_of_getLast? hl)
  obtain ⟨ys, hys⟩ := List.getLast?_eq_some_iff.1 hl
  rw [hys] at ht' hsort
  rw [e]
  apply hend tr ht l hlm
  rcases List.mem_append.1 ht' with ht' | ht'
  · exact (List.pairwise_append.1 hsort).2.2 tr ht' l (by simp)
  · simp only [List.mem_singleton] at ht'
    rw [ht']

/-- **C29** Otherwise it need not: the stack of [0, 100] and [10, 20] ends at 20. -/
theorem c29_covers_violated : ∃ (st : List (CTr Nat)) (o tr : CTr Nat), stackSt st .mean true = .ok o ∧ tr ∈ st ∧
    o.stats.corrEnd < tr.stats.corrEnd :=
  ⟨[exTr c!"A-A" 0 100 [some 1], exTr c!"A-A" 10 20 [some 1]], _, exTr c!"A-A" 0 100 [some 1], rfl,
    by decide +kernel, by decide +kernel⟩

/-- **C29** The header of a stack is consistent and belongs to its data. -/
theorem c29_header (st : List (CTr V)) (weight : Weight) (norm : Bool) (o : CTr V)
    (h : stackSt st weight norm = .ok o) : o.Wf := by
  obtain ⟨f, l, d, hf, hl, -, -, hs⟩ := stackSt_spec _ _ _ o h
  constructor
  · rw [hs]; rfl
  · rw [hs]; rfl

end SeisMIC
