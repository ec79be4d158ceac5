import Verif.Lemmas.Stack

/-!
# C23–C28: selecting and grouping correlations of a stream
-/

namespace SeisMIC

variable {V : Type}

/-- a small correlation for the examples -/
def exTr (sta : Str) (a b : Int) (d : List F) : CTr Nat :=
  ⟨{ (CorrStats.default : CorrStats Nat) with
      network := c!"N-N", station := sta, channel := c!"HHZ-HHZ", corrStart := a, corrEnd := b
      npts := d.length }.refresh, d⟩

/-- **C23** `select_corr_time` returns exactly the correlations in the requested
window (each as often as it is in the stream), in order of their start;
correlations with the same start keep their order. -/
theorem c23_select_exact (st : List (CTr V)) (a b : Int) (partly : Bool) (h : partly = true → a < b) :
    (selectCorrTime st a b partly).Perm (st.filter fun tr => decide (InWindow a b partly tr)) ∧
    (selectCorrTime st a b partly).Pairwise (fun x y => x.stats.corrStart ≤ y.stats.corrStart) ∧
    ∀ t, (selectCorrTime st a b partly).filter (fun tr => tr.stats.corrStart = t) =
      st.filter fun tr => decide (InWindow a b partly tr ∧ tr.stats.corrStart = t) := by
  rw [selectCorrTime_eq st a b partly h]
  refine ⟨(isort_perm _ _).filter _, (isort_startLe_sorted st).filter _, ?_⟩
  intro t
  rw [List.filter_filter, List.filter_congr (q := fun tr => decide (InWindow a b partly tr ∧ tr.stats.corrStart = t)),
    isort_filter]
  · intro x y hx hy
    simp only [decide_eq_true_eq] at hx hy
    simp [startLe, hx.2, hy.2]
  · intro x _
    rw [Bool.eq_iff_iff]
    simp [and_comm]

example : (selectCorrTime [exTr c!"A-A" 20 30 [], exTr c!"A-A" 0 10 [], exTr c!"A-A" 5 15 [], exTr c!"A-A" 10 20 []]
      7 25 true).map (fun t => t.stats.corrStart) = [0, 5, 10] ∧
    (selectCorrTime [exTr c!"A-A" 20 30 [], exTr c!"A-A" 0 10 [], exTr c!"A-A" 5 15 [], exTr c!"A-A" 10 20 []]
      7 25 false).map (fun t => t.stats.corrStart) = [10] := by decide

/-- **C24** `pop_at_utcs` removes exactly the correlations whose window strictly
contains one of the times and keeps the order of the others. -/
theorem c24_pop_exact (st : List (CTr V)) (utcs : List Int) :
    popAtUtcs st utcs = st.filter fun tr => decide (¬ ∃ u ∈ utcs, Contains tr u) := by
  unfold popAtUtcs
  apply List.filter_congr
  intro x _
  rw [Bool.eq_iff_iff]
  simp [Contains]

example : (popAtUtcs [exTr c!"A-A" 0 10 [], exTr c!"A-A" 10 20 [], exTr c!"A-A" 15 30 []] [10, 16]).map
    (fun t => t.stats.corrStart) = [0] := by decide

/-- **C25** After `remove_duplicates` every correlation that was present is
present exactly once, and the order is that of the stream, if the data contain
no `nan`.
Missing for the full property: `c25_nan_violated`. -/
theorem c25_duplicates_partial [DecidableEq V] (st : List (CTr V)) (h : ∀ tr ∈ st, NoNan tr) :
    (removeDuplicates st).Nodup ∧ (∀ tr, tr ∈ removeDuplicates st ↔ tr ∈ st) ∧
      (removeDuplicates st).Sublist st := by
  obtain ⟨l, h1, h2, h3, _, h5⟩ := removeDuplicates_inv st []
  have hl : removeDuplicates st = l := by
    unfold removeDuplicates
    rw [h1, List.nil_append]
  rw [hl]
  refine ⟨?_, ?_, h2⟩
  · refine (List.Pairwise.and_mem.1 h5).imp ?_
    rintro a b ⟨ha, _, hab⟩ rfl
    have := (pyEq_iff a a (h a (h2.subset ha))).2 rfl
    simp [this] at hab
  · intro tr
    refine ⟨fun ht => h2.subset ht, fun ht => ?_⟩
    obtain ⟨x, hx, hxe⟩ := h3 tr ht
    rw [List.nil_append] at hx
    rcases hxe with rfl | hxe
    · exact hx
    · rw [pyEq_iff x tr (h x (h2.subset hx))] at hxe
      exact hxe ▸ hx

example : ∀ tr ∈ [exTr c!"A-A" 0 10 [some 1], exTr c!"A-A" 0 10 [some 1]], NoNan tr := by
  unfold NoNan; decide

/-- **C25** Two equal correlations with a `nan` both stay. -/
theorem c25_nan_violated : ∃ tr : CTr Nat, removeDuplicates [tr, tr] = [tr, tr] :=
  ⟨exTr c!"A-A" 0 10 [none], by decide +kernel⟩

/-- **C25** In any case nothing new appears, the order is kept, and no two of the
remaining correlations compare equal (`==`). -/
theorem c25_sublist [DecidableEq V] (st : List (CTr V)) :
    (removeDuplicates st).Sublist st ∧ (removeDuplicates st).Pairwise (fun a b => a.pyEq b = false) ∧
      ∀ tr ∈ st, ∃ x ∈ removeDuplicates st, x = tr ∨ x.pyEq tr = true := by
  obtain ⟨l, h1, h2, h3, _, h5⟩ := removeDuplicates_inv st []
  have hl : removeDuplicates st = l := by
    unfold removeDuplicates
    rw [h1, List.nil_append]
  rw [hl]
  exact ⟨h2, h5, by simpa using h3⟩

/-- **C26** With and without `exclude`, `select_time` partitions the stream: every
correlation is in exactly one of the results. -/
theorem c26_partition (st : List (CTr V)) (start stop : Int) :
    (selectTime st start stop false ++ selectTime st start stop true).Perm st ∧
    (∀ tr ∈ selectTime st start stop false, tr ∉ selectTime st start stop true) ∧
    ∀ ex, (selectTime st start stop ex).Sublist st := by
  refine ⟨?_, ?_, fun ex => List.filter_sublist⟩
  · have := List.filter_append_perm (fun tr : CTr V =>
      decide (timeOfDay tr.stats.corrStart ≥ start) && decide (timeOfDay tr.stats.corrEnd ≤ stop)) st
    refine List.Perm.trans (List.Perm.of_eq ?_) this
    unfold selectTime
    congr 1 <;>
    · apply List.filter_congr
      intro x _
      generalize (decide (timeOfDay x.stats.corrStart ≥ start) && decide (timeOfDay x.stats.corrEnd ≤ stop)) = B
      cases B <;> rfl
  · intro tr h1 h2
    unfold selectTime at h1 h2
    have h1 := (List.mem_filter.1 h1).2
    have h2 := (List.mem_filter.1 h2).2
    split at h1 <;> simp_all

/-- **C26** A correlation within one day is selected iff its window lies in the
daily interval.
Missing for the full property: `c26_midnight_violated`. -/
theorem c26_same_day_partial (st : List (CTr V)) (start stop : Int) (h0 : 0 ≤ start) (h1 : stop < dayNs)
    (hd : ∀ tr ∈ st, tr.stats.corrStart ≤ tr.stats.corrEnd ∧
      tr.stats.corrStart / dayNs = tr.stats.corrEnd / dayNs) (tr : CTr V) :
    (tr ∈ selectTime st start stop false ↔ tr ∈ st ∧ InDaily start stop tr) ∧
    (tr ∈ selectTime st start stop true ↔ tr ∈ st ∧ ¬ InDaily start stop tr) := by
  have key : tr ∈ st → (InDaily start stop tr ↔
      timeOfDay tr.stats.corrStart ≥ start ∧ timeOfDay tr.stats.corrEnd ≤ stop) := by
    intro ht
    obtain ⟨ho, hday⟩ := hd tr ht
    have e1 := Int.emod_add_ediv_mul tr.stats.corrStart dayNs
    have e2 := Int.emod_add_ediv_mul tr.stats.corrEnd dayNs
    have b1 := Int.emod_nonneg tr.stats.corrStart (b := dayNs) (by decide)
    have b2 := Int.emod_lt_of_pos tr.stats.corrStart (b := dayNs) (by decide)
    have b3 := Int.emod_nonneg tr.stats.corrEnd (b := dayNs) (by decide)
    have b4 := Int.emod_lt_of_pos tr.stats.corrEnd (b := dayNs) (by decide)
    unfold timeOfDay InDaily
    constructor
    · rintro ⟨day, d1, d2, d3⟩
      have : day = tr.stats.corrStart / dayNs := by
        have p : (0 : Int) < dayNs := by decide
        have l1 : day * dayNs < (tr.stats.corrStart / dayNs + 1) * dayNs := by linarith
        have l2 : tr.stats.corrEnd / dayNs * dayNs < (day + 1) * dayNs := by linarith
        have l1 := lt_of_mul_lt_mul_right l1 (le_of_lt p)
        have l2 := lt_of_mul_lt_mul_right l2 (le_of_lt p)
        omega
      subst this
      rw [← hday] at e2
      constructor <;> linarith
    · rintro ⟨d1, d2⟩
      refine ⟨tr.stats.corrStart / dayNs, by linarith, ho, ?_⟩
      rw [← hday] at e2
      linarith
  unfold selectTime
  constructor
  · rw [List.mem_filter]
    refine and_congr_right fun ht => ?_
    rw [key ht]
    split <;> simp_all
  · rw [List.mem_filter]
    refine and_congr_right fun ht => ?_
    rw [key ht]
    split <;> simp_all

example : ∀ tr ∈ [exTr c!"A-A" (dayNs + 5) (dayNs + 10) []],
    tr.stats.corrStart ≤ tr.stats.corrEnd ∧ tr.stats.corrStart / dayNs = tr.stats.corrEnd / dayNs := by decide

/-- **C26** A window from 20:00 to 05:00 of the next day counts as lying between
04:00 and 06:00. -/
theorem c26_midnight_violated : ∃ (tr : CTr Nat) (start stop : Int),
    tr ∈ selectTime [tr] start stop false ∧ ¬ InDaily start stop tr := by
  refine ⟨exTr c!"A-A" 72000000000000 104400000000000 [], 14400000000000, 21600000000000, by decide +kernel, ?_⟩
  rintro ⟨day, h1, h2, h3⟩
  have e1 : (exTr c!"A-A" 72000000000000 104400000000000 []).stats.corrStart = 72000000000000 := rfl
  have e2 : (exTr c!"A-A" 72000000000000 104400000000000 []).stats.corrEnd = 104400000000000 := rfl
  rw [e1] at h1
  rw [e2] at h3
  unfold dayNs at *
  omega

/-- **C27** The windows in which a stream is stacked are disjoint: together
they hold every correlation that ends after `starttime` exactly once (as often
as it is in the stream), provided no correlation ends after `endtime`. Every
window is an interval of length `len` and is not empty. -/
theorem c27_windows_partition (st : List (CTr V)) (starttime endtime len : Int)
    (hne : st ≠ []) (hlen : 0 < len) (hl : ∀ tr ∈ st, tr.stats.corrEnd - tr.stats.corrStart ≤ len)
    (hend : ∀ tr ∈ st, tr.stats.corrEnd ≤ endtime) :
    ∃ ws, stackWindows st (some starttime) (some endtime) (.len len) = .ok ws ∧
    ws.flatten.Perm (st.filter fun tr => decide (starttime < tr.stats.corrEnd)) ∧
    (∀ w ∈ ws, w ≠ [] ∧ ∃ k : Nat, ∀ tr, tr ∈ w ↔
      tr ∈ st ∧ starttime + k * len < tr.stats.corrEnd ∧ tr.stats.corrEnd ≤ starttime + (k + 1) * len) := by
  have hm : ∀ tr : CTr V, tr ∈ isort startLe st ↔ tr ∈ st := fun tr => mem_isort
  have hne' : isort startLe st ≠ [] := by
    intro h
    exact hne (List.length_eq_zero_iff.1 (by rw [← length_isort startLe, h]; rfl))
  obtain ⟨ws, hws⟩ := slide_ok (isort startLe st) starttime endtime len hne' hlen
    (fun tr ht => hl tr ((hm tr).1 ht))
  obtain ⟨h1, h2⟩ := slide_partition (isort startLe st) starttime endtime len ws
    (fun tr ht => hend tr ((hm tr).1 ht)) hws
  refine ⟨ws, ?_, h1.trans ((isort_perm _ _).filter _), ?_⟩
  · unfold stackWindows
    simp only [bind, Except.bind, reduceCtorEq, ↓reduceIte]
    exact hws
  · simpa only [hm] using h2

/-- **C27** `slide` yields, for all starts `starttime + k * step` before `endtime`, the
correlations in the window of length `windowLength` from this start, and skips the windows
without a correlation. -/
theorem c27_slide (st : List (CTr V)) (windowLength step starttime endtime : Int) (partly : Bool)
    (hne : st ≠ []) (hw : 0 < windowLength) (hstep : 0 < step)
    (hl : ∀ tr ∈ st, tr.stats.corrEnd - tr.stats.corrStart ≤ windowLength) :
    ∃ ws, slide st windowLength step partly (some starttime) (some endtime) = .ok ws ∧
    (∀ w ∈ ws, w ≠ [] ∧ ∃ k : Nat, starttime + k * step < endtime ∧ w.Perm (st.filter fun tr =>
      decide (InWindow (starttime + k * step) (starttime + k * step + windowLength) partly tr))) ∧
    (∀ k : Nat, starttime + k * step < endtime →
      ∀ tr ∈ st, InWindow (starttime + k * step) (starttime + k * step + windowLength) partly tr →
      ∃ w ∈ ws, w.Perm (st.filter fun tr =>
        decide (InWindow (starttime + k * step) (starttime + k * step + windowLength) partly tr))) := by
  obtain ⟨m, hk, hkl⟩ := pyMax_le (st.map fun tr => tr.stats.corrEnd - tr.stats.corrStart) windowLength
    (by simpa using hne) (by
      intro x hx
      obtain ⟨tr, ht, rfl⟩ := List.mem_map.1 hx
      exact hl tr ht)
  have h1 : ¬ windowLength < m := by omega
  have h2 : ¬ step ≤ 0 := by omega
  have hcnt : ∀ k : Nat, k < (-((starttime - endtime) / step)).toNat ↔ starttime + k * step < endtime := by
    intro k
    have e : (k : Int) < -((starttime - endtime) / step) ↔ starttime + k * step < endtime := by
      have := Int.ediv_lt_iff_lt_mul (a := starttime - endtime) (b := -(k : Int)) hstep
      rw [Int.neg_mul] at this
      constructor <;> intro h
      · have := this.1 (by omega); omega
      · have := this.2 (by omega); omega
    rw [← e]
    omega
  have hsel := fun a => (c23_select_exact st a (a + windowLength) partly (by omega)).1
  unfold slide
  simp only [bind, Except.bind, pure, Except.pure, hk, h1, h2, ↓reduceIte]
  refine ⟨_, rfl, ?_, ?_⟩
  · intro w hmem
    obtain ⟨hmem, hemp⟩ := List.mem_filter.1 hmem
    obtain ⟨a, ha, rfl⟩ := List.mem_map.1 hmem
    unfold arange at ha
    obtain ⟨k, hkr, rfl⟩ := List.mem_map.1 ha
    exact ⟨by intro h; simp [h] at hemp, k, (hcnt k).1 (List.mem_range.1 hkr), hsel _⟩
  · intro k hk tr ht hin
    refine ⟨_, List.mem_filter.2 ⟨List.mem_map.2 ⟨starttime + k * step, ?_, rfl⟩, ?_⟩, hsel _⟩
    · exact List.mem_map.2 ⟨k, List.mem_range.2 ((hcnt k).2 hk), rfl⟩
    · have : tr ∈ selectCorrTime st (starttime + k * step) (starttime + k * step + windowLength) partly :=
        (hsel _).mem_iff.2 (List.mem_filter.2 ⟨ht, by simpa using hin⟩)
      cases hs : selectCorrTime st (starttime + k * step) (starttime + k * step + windowLength) partly with
      | nil => rw [hs] at this; cases this
      | cons => rfl

/-- windows of length 20 in steps of 10 over two correlations of length 10 -/
example : (slide [exTr c!"A-A" 0 10 [], exTr c!"A-A" 10 20 []] 20 10 false (some 0) (some 30)).map
    (fun ws => ws.map fun w => w.map fun t => t.stats.corrStart) = .ok [[0, 10], [10]] := by decide +kernel

/-- **C27** Daily stacks: every window holds the correlations that end in one
calendar day (midnight belongs to the day before). -/
theorem c27_daily (st : List (CTr V)) (starttime endtime : Int)
    (hne : st ≠ []) (hl : ∀ tr ∈ st, tr.stats.corrEnd - tr.stats.corrStart ≤ dayNs)
    (hend : ∀ tr ∈ st, tr.stats.corrEnd ≤ endtime) :
    ∃ ws, stackWindows st (some starttime) (some endtime) .daily = .ok ws ∧
    ws.flatten.Perm (st.filter fun tr => decide (starttime / dayNs * dayNs < tr.stats.corrEnd)) ∧
    (∀ w ∈ ws, w ≠ [] ∧ ∃ day : Int, ∀ tr, tr ∈ w ↔
      tr ∈ st ∧ day * dayNs < tr.stats.corrEnd ∧ tr.stats.corrEnd ≤ (day + 1) * dayNs) := by
  obtain ⟨ws, h1, h2, h3⟩ := c27_windows_partition st (starttime / dayNs * dayNs) endtime dayNs hne
    (by decide) hl hend
  refine ⟨ws, ?_, h2, ?_⟩
  · unfold stackWindows at h1 ⊢
    simp only [bind, Except.bind, reduceCtorEq, ↓reduceIte] at h1 ⊢
    have : starttime - timeOfDay starttime = starttime / dayNs * dayNs := by
      have := Int.emod_add_ediv_mul starttime dayNs
      unfold timeOfDay
      linarith
    rw [this]
    exact h1
  · intro w hw
    obtain ⟨hn, k, hk⟩ := h3 w hw
    refine ⟨hn, starttime / dayNs + k, fun tr => ?_⟩
    rw [hk tr, show starttime / dayNs * dayNs + (k : Int) * dayNs = (starttime / dayNs + k) * dayNs by ring,
      show starttime / dayNs * dayNs + ((k : Int) + 1) * dayNs = (starttime / dayNs + k + 1) * dayNs by ring]

/-- **C27** With the default times every correlation (of positive duration) is
in exactly one window, provided that no correlation ends after the one that
starts last.
Missing for the full property: `c27_default_violated`. -/
theorem c27_default_partial (st : List (CTr V)) (len : Int)
    (hne : st ≠ []) (hlen : 0 < len) (hl : ∀ tr ∈ st, tr.stats.corrEnd - tr.stats.corrStart ≤ len)
    (hpos : ∀ tr ∈ st, tr.stats.corrStart < tr.stats.corrEnd)
    (hend : ∀ a ∈ st, ∀ b ∈ st, a.stats.corrStart ≤ b.stats.corrStart → a.stats.corrEnd ≤ b.stats.corrEnd) :
    ∃ ws, stackWindows st none none (.len len) = .ok ws ∧ ws.flatten.Perm st ∧ ∀ w ∈ ws, w ≠ [] := by
  have hm : ∀ tr : CTr V, tr ∈ isort startLe st ↔ tr ∈ st := fun tr => mem_isort
  have hne' : isort startLe st ≠ [] := by
    intro h
    exact hne (List.length_eq_zero_iff.1 (by rw [← length_isort startLe, h]; rfl))
  have hsort := isort_startLe_sorted st
  obtain ⟨f, hf⟩ : ∃ f, (isort startLe st).head? = some f := by
    cases h : isort startLe st with
    | nil => exact absurd h hne'
    | cons f l => exact ⟨f, rfl⟩
  obtain ⟨l, hla⟩ : ∃ l, (isort startLe st).getLast? = some l := by
    rw [List.getLast?_eq_some_getLast hne']; exact ⟨_, rfl⟩
  have hf1 : ∀ tr ∈ st, f.stats.corrStart ≤ tr.stats.corrStart := by
    intro tr ht
    have ht := (hm tr).2 ht
    cases h : isort startLe st with
    | nil => exact absurd h hne'
    | cons f' l' =>
      rw [h] at hf ht hsort
      simp only [List.head?_cons, Option.some.injEq] at hf
      subst hf
      rcases List.mem_cons.1 ht with rfl | ht
      · exact le_refl _
      · exact (List.pairwise_cons.1 hsort).1 tr ht
  have hl1 : ∀ tr ∈ st, tr.stats.corrStart ≤ l.stats.corrStart := by
    intro tr ht
    have ht := (hm tr).2 ht
    obtain ⟨ys, hys⟩ := List.getLast?_eq_some_iff.1 hla
    rw [hys] at ht hsort
    rcases List.mem_append.1 ht with ht | ht
    · exact (List.pairwise_append.1 hsort).2.2 tr ht l (by simp)
    · simp only [List.mem_singleton] at ht
      rw [ht]
  have hlm : l ∈ st := (hm l).1 (List.mem_of_getLast? hla)
  obtain ⟨ws, h1, h2, h3⟩ := c27_windows_partition st f.stats.corrStart l.stats.corrEnd len hne hlen hl
    (fun tr ht => hend tr ht l hlm (hl1 tr ht))
  refine ⟨ws, ?_, h2.trans (List.Perm.of_eq ?_), fun w hw => (h3 w hw).1⟩
  · unfold stackWindows at h1 ⊢
    simp only [bind, Except.bind, reduceCtorEq, ↓reduceIte, hf, hla] at h1 ⊢
    exact h1
  · rw [List.filter_eq_self]
    intro a ha
    have := hf1 a ha
    have := hpos a ha
    simp only [decide_eq_true_eq]
    omega

example : (∀ tr ∈ [exTr c!"A-A" 0 10 [], exTr c!"A-A" 5 15 [], exTr c!"A-A" 40 50 []],
      tr.stats.corrEnd - tr.stats.corrStart ≤ 10 ∧ tr.stats.corrStart < tr.stats.corrEnd) ∧
    (∀ a ∈ [exTr c!"A-A" 0 10 [], exTr c!"A-A" 5 15 [], exTr c!"A-A" 40 50 []],
      ∀ b ∈ [exTr c!"A-A" 0 10 [], exTr c!"A-A" 5 15 [], exTr c!"A-A" 40 50 []],
      a.stats.corrStart ≤ b.stats.corrStart → a.stats.corrEnd ≤ b.stats.corrEnd) := by decide +kernel

/-- **C27** Otherwise a correlation may be in no window: of the correlations
[0, 5], [5, 105] and [10, 15] the second one is lost with windows of length
100. -/
theorem c27_default_violated : ∃ (st : List (CTr Nat)) (tr : CTr Nat) (ws : List (List (CTr Nat))),
    stackWindows st none none (.len 100) = .ok ws ∧ tr ∈ st ∧ tr.stats.corrStart < tr.stats.corrEnd ∧
      ∀ w ∈ ws, tr ∉ w := by
  refine ⟨[exTr c!"A-A" 0 5 [], exTr c!"A-A" 5 105 [], exTr c!"A-A" 10 15 []], exTr c!"A-A" 5 105 [],
    [[exTr c!"A-A" 0 5 [], exTr c!"A-A" 10 15 []]], by decide +kernel, by decide +kernel, by decide +kernel,
    by decide +kernel⟩

/-- **C28** The stacks belong to a partition of the stream: each part holds all
correlations with the same codes in the order of the stream, different parts
have different codes, and there is one stack per part, with these codes. -/
theorem c28_groups (st : List (CTr V)) (regardLoc : Bool) (weight : Weight) (out : List (CTr V))
    (hc : ∀ tr ∈ st, CodesOk tr) (h : stackByGroup st regardLoc weight = .ok out) :
    ∃ parts : List (List (CTr V)), parts.flatten.Perm st ∧
      (∀ p ∈ parts, p ≠ [] ∧ ∀ tr ∈ p, p = st.filter fun x => decide (SameCodes regardLoc x tr)) ∧
      parts.Pairwise (fun p q => ∀ a ∈ p, ∀ b ∈ q, ¬ SameCodes regardLoc a b) ∧
      List.Forall₂ (fun p o => stackSt p weight true = .ok o ∧ ∀ tr ∈ p, SameCodes regardLoc o tr) parts out := by
  obtain ⟨h1, h2, h3, h4⟩ := groups_spec regardLoc st
  have hpart : ∀ k l, (k, l) ∈ groups regardLoc st → l ≠ [] ∧ (∀ tr ∈ l, tr ∈ st ∧ groupKey regardLoc tr.stats = k) := by
    intro k l hkl
    have hl := h4 k l hkl
    constructor
    · obtain ⟨tr, ht, hk⟩ := (h3 k).1 (List.mem_map.2 ⟨_, hkl, rfl⟩)
      intro hn
      have : tr ∈ l := by rw [hl, List.mem_filter]; exact ⟨ht, by simpa using hk⟩
      rw [hn] at this
      simp at this
    · intro tr ht
      rw [hl, List.mem_filter] at ht
      exact ⟨ht.1, by simpa using ht.2⟩
  refine ⟨(groups regardLoc st).map Prod.snd, ?_, ?_, ?_, ?_⟩
  · rw [← List.flatMap_def]; exact h2
  · intro p hp
    obtain ⟨⟨k, l⟩, hkl, rfl⟩ := List.mem_map.1 hp
    obtain ⟨hn, hm⟩ := hpart k l hkl
    refine ⟨hn, fun tr ht => ?_⟩
    obtain ⟨hs, hk⟩ := hm tr ht
    rw [show (k, l).2 = l from rfl, h4 k l hkl]
    apply List.filter_congr
    intro x hx
    rw [Bool.eq_iff_iff]
    simp only [decide_eq_true_eq]
    rw [← groupKey_eq_iff regardLoc x tr (hc x hx) (hc tr hs), hk]
  · rw [List.pairwise_map]
    have hp : (groups regardLoc st).Pairwise fun a b => a.1 ≠ b.1 := List.pairwise_map.1 h1
    refine (List.Pairwise.and_mem.1 hp).imp ?_
    rintro ⟨k, l⟩ ⟨k', l'⟩ ⟨hm, hm', hne⟩ a ha b hb hs
    obtain ⟨ha1, ha2⟩ := (hpart k l hm).2 a ha
    obtain ⟨hb1, hb2⟩ := (hpart k' l' hm').2 b hb
    rw [← groupKey_eq_iff regardLoc a b (hc a ha1) (hc b hb1), ha2, hb2] at hs
    exact hne hs
  · have hall := hpart
    have hk : ∀ (k : Str) (l : List (CTr V)), (k, l) ∈ groups regardLoc st → ∀ a ∈ l, ∀ b ∈ l,
        SameCodes regardLoc a b := by
      intro k l hkl a ha b hb
      obtain ⟨ha1, ha2⟩ := (hpart k l hkl).2 a ha
      obtain ⟨hb1, hb2⟩ := (hpart k l hkl).2 b hb
      rw [← groupKey_eq_iff regardLoc a b (hc a ha1) (hc b hb1), ha2, hb2]
    unfold stackByGroup at h
    generalize groups regardLoc st = gs at h hk
    clear h1 h2 h3 h4 hpart hall hc
    induction gs generalizing out with
    | nil =>
      simp only [List.mapM_nil, pure, Except.pure, Except.ok.injEq] at h
      subst h
      exact .nil
    | cons g gs ih =>
      obtain ⟨k, l⟩ := g
      rw [List.mapM_cons] at h
      simp only [bind, Except.bind, pure, Except.pure] at h
      cases hg : stackSt l weight true with
      | error e => rw [hg] at h; simp at h
      | ok o =>
        rw [hg] at h
        simp only at h
        cases hr : gs.mapM fun g => stackSt g.2 weight true with
        | error e => rw [hr] at h; simp at h
        | ok os =>
          rw [hr] at h
          simp only [Except.ok.injEq] at h
          subst h
          refine .cons ⟨hg, ?_⟩ (ih os hr (fun k l hkl => hk k l (by simp [hkl])))
          obtain ⟨f, hf, e1, e2, e3, e4⟩ := stackSt_codes l weight true o hg
          intro tr ht
          obtain ⟨s1, s2, s3, s4⟩ := hk k l (by simp) f hf tr ht
          exact ⟨e1.trans s1, e2.trans s2, e3.trans s3, fun hr => e4.trans (s4 hr)⟩

/-- **C28** A stream without data sets has no stacks; otherwise the only error is
an unknown weight. -/
theorem c28_total (st : List (CTr V)) (regardLoc : Bool) (weight : Weight) (hw : weight ≠ .other) :
    ∃ out, stackByGroup st regardLoc weight = .ok out := by
  have hpart : ∀ g ∈ groups regardLoc st, g.2 ≠ [] := by
    obtain ⟨h1, h2, h3, h4⟩ := groups_spec regardLoc st
    rintro ⟨k, l⟩ hkl hn
    obtain ⟨tr, ht, hk⟩ := (h3 k).1 (List.mem_map.2 ⟨_, hkl, rfl⟩)
    have : tr ∈ l := by rw [h4 k l hkl, List.mem_filter]; exact ⟨ht, by simpa using hk⟩
    rw [show l = [] from hn] at this
    simp at this
  unfold stackByGroup
  generalize groups regardLoc st = gs at hpart
  induction gs with
  | nil => exact ⟨[], rfl⟩
  | cons g gs ih =>
    obtain ⟨os, hos⟩ := ih (fun g hg => hpart g (by simp [hg]))
    obtain ⟨o, ho⟩ := stackSt_ok g.2 weight true (hpart g (by simp)) hw
    exact ⟨o :: os, by rw [List.mapM_cons, ho, hos]; rfl⟩

example : ∃ out, stackByGroup [exTr c!"A-A" 0 10 [some 1, some 2], exTr c!"A-B" 0 10 [some 3, some 4],
      exTr c!"A-A" 10 20 [some 3, some 2]] true .mean = .ok out ∧
    out.map (fun o => (o.stats.station, o.data)) =
      [(c!"A-A", [some 1, some 1]), (c!"A-B", [some (3/4), some 1])] ∧
    ∀ tr ∈ [exTr c!"A-A" 0 10 [some 1, some 2], exTr c!"A-B" 0 10 [some 3, some 4]], CodesOk tr :=
  ⟨_, rfl, by decide +kernel, by decide +kernel⟩

end SeisMIC
