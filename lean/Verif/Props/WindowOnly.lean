import Verif.Props.StretchMeasure
import Verif.Props.MonitorDv

/-!
# C221: only the lags of the time window of a trace matter
-/

namespace SeisMIC

/-! ### Specification -/

/-- lag `l` (in samples) belongs to the time window `w` on the requested side or sides -/
def InTimeWindow (sides : Str) (w : List Int) (l : Int) : Prop :=
  if sides = c!"both" then |l| ∈ w else if sides = c!"left" then -l ∈ w else l ∈ w

/-! ### Lemmas -/

theorem mem_lagSet_iff (sides : Str) (m : Int) (w : List Int) (hw : ∀ k ∈ w, 0 ≤ k ∧ k ≤ m) (l : Int) :
    l ∈ lagSet sides (-m) m w ↔ InTimeWindow sides w l := by
  unfold lagSet InTimeWindow
  rw [Finset.mem_filter, Finset.mem_Icc]
  refine ⟨fun h => h.2, fun h => ⟨?_, h⟩⟩
  by_cases h1 : sides = c!"both"
  · rw [if_pos h1] at h
    have := hw _ h
    exact abs_le.1 this.2
  · rw [if_neg h1] at h
    by_cases h2 : sides = c!"left"
    · rw [if_pos h2] at h
      have := hw _ h
      omega
    · rw [if_neg h2] at h
      have := hw _ h
      omega

theorem coeffAt_congr_trace (L : Finset Int) (f g r : Int → ℝ) (h : ∀ l ∈ L, f l = g l) : coeffAt L f r = coeffAt L g r := by
  unfold coeffAt
  rw [Finset.sum_congr rfl fun l hl => by rw [h l hl], Finset.sum_congr rfl fun l hl => show f l * r l = g l * r l by rw [h l hl]]

theorem isBest_same (tested : List ℝ) (sims : List (Option ℝ)) (c v c' v' : Option ℝ) (h : Spec.IsBest tested sims c v)
    (h' : Spec.IsBest tested sims c' v') : c = c' ∧ v = v' := by
  by_cases hn : none ∈ sims
  · obtain ⟨e1, e2⟩ := h.1 hn
    obtain ⟨e3, e4⟩ := h'.1 hn
    exact ⟨e1.trans e3.symm, e2.trans e4.symm⟩
  · obtain ⟨k, x, y, a1, a2, a3, a4, a5, a6⟩ := h.2 hn
    obtain ⟨k', x', y', b1, b2, b3, b4, b5, b6⟩ := h'.2 hn
    have hk : k = k' := by
      rcases lt_trichotomy k k' with hlt | he | hlt
      · have := b6 k x hlt a1
        have := a5 k' x' b1
        linarith
      · exact he
      · have := a6 k' x' hlt b1
        have := b5 k x a1
        linarith
    subst hk
    rw [a1] at b1
    rw [a2] at b2
    simp only [Option.some.injEq] at b1 b2
    subst b1 b2
    exact ⟨a3.trans b3.symm, a4.trans b4.symm⟩

/-! ### C221 -/

/-- **C221** (stretch). Two sets of traces, the first with lags from `-a` to `b`, the second with lags from `-a'` to `b'`, that agree at the
lags of the time window, are given the same stretches and the same correlations with a reference. What the traces are at other lags, and
how far they reach, does not matter. -/
theorem c221_stretch (spline : List ℝ → List ℝ → ℝ → ℝ) (sr : Rat) (hsr : 0 < sr) (a b a' b' E : Int) (ha : 0 ≤ a) (hb : 0 ≤ b)
    (ha' : 0 ≤ a') (hb' : 0 ≤ b') (hmE : min a b ≤ E) (hmE' : min a' b' ≤ E)
    (data data' : List (List ℝ)) (hd : ∀ row ∈ data, row.length = (b + 1 - -a).toNat) (hd' : ∀ row ∈ data', row.length = (b' + 1 - -a').toNat)
    (hne : data ≠ []) (hlen : data.length = data'.length) (ref : List ℝ) (href : ref.length = (E + 1 - -E).toNat)
    (w : List Int) (hw : w ≠ []) (hwm : ∀ k ∈ w, 0 ≤ k ∧ k ≤ min a b ∧ k ≤ min a' b') (range : ℝ) (steps : Nat) (hst : 0 < steps) (sides : Str)
    (hs : sides = c!"both" ∨ sides = c!"left" ∨ sides = c!"right")
    (hag : ∀ (i : Nat) (row row' : List ℝ), data[i]? = some row → data'[i]? = some row' → ∀ l, InTimeWindow sides w l →
      atLag (-a) row l = atLag (-a') row' l) :
    ∃ res, corrMatStretch spline data (lagsFromTo (-a) b sr) (some ref) (some [w]) range steps sides (some (lagsFromTo (-E) E sr)) = .ok [res] ∧
      corrMatStretch spline data' (lagsFromTo (-a') b' sr) (some ref) (some [w]) range steps sides (some (lagsFromTo (-E) E sr)) = .ok [res] ∧
      res.length = data.length := by
  have hne' : data' ≠ [] := by
    intro h
    rw [h] at hlen
    exact hne (List.length_eq_zero_iff.1 hlen)
  have w1 : ∀ k ∈ w, 0 ≤ k ∧ k ≤ min a b := fun k hk => ⟨(hwm k hk).1, (hwm k hk).2.1⟩
  have w2 : ∀ k ∈ w, 0 ≤ k ∧ k ≤ min a' b' := fun k hk => ⟨(hwm k hk).1, (hwm k hk).2.2⟩
  obtain ⟨res, h1, h2, h3⟩ := c116_best spline sr hsr a b E ha hb hmE data hd hne ref href w hw w1 range steps hst sides hs
  obtain ⟨res', g1, g2, g3⟩ := c116_best spline sr hsr a' b' E ha' hb' hmE' data' hd' hne' ref href w hw w2 range steps hst sides hs
  have hset : lagSet sides (-min a b) (min a b) w = lagSet sides (-min a' b') (min a' b') w := by
    ext l
    rw [mem_lagSet_iff _ _ _ w1, mem_lagSet_iff _ _ _ w2]
  refine ⟨res, h1, ?_, h2⟩
  rw [g1]
  congr 2
  refine List.ext_getElem? fun i => ?_
  by_cases hi : i < data.length
  · have e1 : data[i]? = some data[i] := List.getElem?_eq_getElem hi
    have e2 : data'[i]? = some (data'[i]'(hlen ▸ hi)) := List.getElem?_eq_getElem _
    obtain ⟨c, v, p1, p2⟩ := h3 i _ e1
    obtain ⟨c', v', q1, q2⟩ := g3 i _ e2
    rw [p1, q1]
    rw [← hset] at q2
    have : ((testedStretches range steps).map fun u => coeffAt (lagSet sides (-min a b) (min a b) w) (atLag (-a') (data'[i]'(hlen ▸ hi)))
        (stretchedAt spline (-E) E ref u)) = (testedStretches range steps).map fun u => coeffAt (lagSet sides (-min a b) (min a b) w)
        (atLag (-a) data[i]) (stretchedAt spline (-E) E ref u) := by
      refine List.map_congr_left fun u _ => coeffAt_congr_trace _ _ _ _ fun l hl => ?_
      exact (hag i _ _ e1 e2 l ((mem_lagSet_iff _ _ _ w1 l).1 hl)).symm
    rw [this] at q2
    obtain ⟨r1, r2⟩ := isBest_same _ _ _ _ _ _ p2 q2
    rw [r1, r2]
  · rw [List.getElem?_eq_none (by omega), List.getElem?_eq_none (by omega)]

/-- **C221** (trimming). Trimming the traces to lags from `-a'` to `b'` before measuring with a given reference does not change the
result, as long as the time window is kept.
Missing: a reference that is trimmed too, see `c221_reference_violated`. -/
theorem c221_trim_partial (spline : List ℝ → List ℝ → ℝ → ℝ) (sr : Rat) (hsr : 0 < sr) (a b a' b' E : Int) (ha' : 0 ≤ a') (hb' : 0 ≤ b')
    (haa : a' ≤ a) (hbb : b' ≤ b) (hmE : min a b ≤ E)
    (data : List (List ℝ)) (hd : ∀ row ∈ data, row.length = (b + 1 - -a).toNat) (hne : data ≠ []) (ref : List ℝ) (href : ref.length = (E + 1 - -E).toNat)
    (w : List Int) (hw : w ≠ []) (hwm : ∀ k ∈ w, 0 ≤ k ∧ k ≤ min a' b') (range : ℝ) (steps : Nat) (hst : 0 < steps) (sides : Str)
    (hs : sides = c!"both" ∨ sides = c!"left" ∨ sides = c!"right") :
    ∃ res, corrMatStretch spline data (lagsFromTo (-a) b sr) (some ref) (some [w]) range steps sides (some (lagsFromTo (-E) E sr)) = .ok [res] ∧
      corrMatStretch spline (corrMatTrim data (lagsFromTo (-a) b sr) (((-a' : Int) : Rat) / sr) ((b' : Rat) / sr)).1
        (corrMatTrim data (lagsFromTo (-a) b sr) (((-a' : Int) : Rat) / sr) ((b' : Rat) / sr)).2 (some ref) (some [w]) range steps sides
        (some (lagsFromTo (-E) E sr)) = .ok [res] ∧ res.length = data.length := by
  rw [trim_lags (-a) b (-a') b' sr hsr data hd hne (by omega) (by omega) hbb]
  refine c221_stretch spline sr hsr a b a' b' E (by omega) (by omega) ha' hb' hmE (by omega) data _ hd ?_ hne (by simp) ref href w hw
    (fun k hk => ?_) range steps hst sides hs ?_
  · intro row hrow
    obtain ⟨r, -, rfl⟩ := List.mem_map.1 hrow
    unfold rowAt
    rw [List.length_map, length_intsFrom]
  · have := hwm k hk
    omega
  · intro i row row' h1 h2 l hl
    rw [List.getElem?_map, h1] at h2
    simp only [Option.map_some, Option.some.injEq] at h2
    subst h2
    have hl' := (mem_lagSet_iff sides (min a' b') w hwm l).2 hl
    unfold lagSet at hl'
    rw [Finset.mem_filter, Finset.mem_Icc] at hl'
    rw [atLag_rowAt _ _ _ _ _ (by omega) (by omega)]

/-- traces from -3 to 4 and from -2 to 2 seconds that agree on the window from one to two seconds -/
example (spline : List ℝ → List ℝ → ℝ → ℝ) (ref : List ℝ) (h : ref.length = 21) :
    ∃ res, corrMatStretch spline [[9, 2, 3, 0, 4, 5, 8, 7]] (lagsFromTo (-3) 4 1) (some ref) (some [[1, 2]]) 1 3 c!"both" (some (lagsFromTo (-10) 10 1)) =
        .ok [res] ∧
      corrMatStretch spline [[2, 3, 6, 4, 5]] (lagsFromTo (-2) 2 1) (some ref) (some [[1, 2]]) 1 3 c!"both" (some (lagsFromTo (-10) 10 1)) = .ok [res] ∧
      res.length = 1 := by
  refine c221_stretch spline 1 one_pos 3 4 2 2 10 (by decide) (by decide) (by decide) (by decide) (by decide) (by decide) [[9, 2, 3, 0, 4, 5, 8, 7]]
    [[2, 3, 6, 4, 5]] (by simp) (by simp) (by simp) rfl ref (by rw [h]; rfl) [1, 2] (by simp) (by simp) 1 3 (by decide) _ (.inl rfl) ?_
  intro i row row' h1 h2 l hl
  cases i with
  | zero =>
    simp only [List.getElem?_cons_zero, Option.some.injEq] at h1 h2
    subst h1 h2
    unfold InTimeWindow at hl
    rw [if_pos rfl] at hl
    simp only [List.mem_cons, List.not_mem_nil, or_false] at hl
    have : l = -2 ∨ l = -1 ∨ l = 1 ∨ l = 2 := by
      rcases hl with hl | hl <;> rcases abs_choice l with e | e <;> rw [e] at hl <;> omega
    rcases this with rfl | rfl | rfl | rfl <;> rfl
  | succ i => simp at h1

/-- the trimming of the first one -/
example : corrMatTrim [[9, 2, 3, 0, 4, 5, 8, 7]] (lagsFromTo (-3) 4 1) (((-2 : Int) : Rat) / 1) (((2 : Int) : Rat) / 1) =
    ([[2, 3, 0, 4, 5]], lagsFromTo (-2) 2 1) := by decide +kernel

/-- **C221** (not satisfied: references that are trimmed). If the reference is trimmed like the traces, as it is if it is extracted
afterwards, the result changes although the time window is kept: where the trimmed reference is compressed, there is nothing to compare
with. A trace that equals the reference, one at all lags, is compared at a lag of two samples with the stretches -1, 0 and 1. The
similarity is one, but `nan` after trimming to lags from -2 to 2. -/
theorem c221_reference_violated (spline : List ℝ → List ℝ → ℝ → ℝ) (hsp : Reproduces spline Cubics) :
    corrMatStretch spline [List.replicate 21 1] (lagsFromTo (-10) 10 1) (some (List.replicate 21 1)) (some [[2]]) 1 3 c!"right"
        (some (lagsFromTo (-10) 10 1)) = .ok [[(some 1, some (-1))]] ∧
      corrMatStretch spline [List.replicate 5 1] (lagsFromTo (-2) 2 1) (some (List.replicate 5 1)) (some [[2]]) 1 3 c!"right"
        (some (lagsFromTo (-2) 2 1)) = .ok [[(none, none)]] := by
  have hset : ∀ m : Int, 2 ≤ m → lagSet c!"right" (-min m m) (min m m) [2] = {2} := by
    intro m hm
    ext l
    rw [min_self, mem_lagSet_iff _ _ _ (by simpa using hm)]
    unfold InTimeWindow
    rw [if_neg (by decide), if_neg (by decide)]
    simp
  have e2 : 1 < Real.exp 1 := by
    have := Real.add_one_lt_exp (x := 1) (by norm_num)
    linarith
  have e3 : Real.exp 1 < 5 := by
    have h := Real.add_one_le_exp (-(1 / 2 : ℝ))
    have h2 : Real.exp 1 * (Real.exp (-(1 / 2 : ℝ)) * Real.exp (-(1 / 2 : ℝ))) = 1 := by
      rw [← Real.exp_add, ← Real.exp_add]
      norm_num
    have h3 : (1 : ℝ) / 4 ≤ Real.exp (-(1 / 2 : ℝ)) * Real.exp (-(1 / 2 : ℝ)) := by nlinarith
    nlinarith [Real.exp_pos 1]
  have htest : ∀ u, u ∈ testedStretches 1 3 ↔ u = -1 ∨ u = 0 ∨ u = 1 := by
    intro u
    unfold testedStretches testedShifts
    simp [List.range_succ]
    norm_num
  constructor
  · obtain ⟨res, h1, h2, h3⟩ := c116_best spline 1 one_pos 10 10 10 (by decide) (by decide) (by decide) [List.replicate 21 1] (by simp) (by simp)
      (List.replicate 21 1) (by simp) [2] (by simp) (by simp) 1 3 (by decide) c!"right" (.inr (.inr rfl))
    obtain ⟨c, v, p1, p2⟩ := h3 0 _ rfl
    rw [hset 10 (by decide)] at p2
    have hc := isBest_const _ _ 1 (fun u hu => ?_) (-1) (tested_first 1 3 (by decide)) c v p2
    · rw [h1]
      obtain ⟨rfl, rfl⟩ := hc
      match res, h2, p1 with
      | [x], _, p1 => simpa using p1
    · have hr : (List.replicate 21 1 : List ℝ) = (intsFrom (-10) (10 + 1)).map fun k : Int => (fun _ : ℝ => (1 : ℝ)) k := by
        simp [intsFrom, List.range_succ, List.replicate]
      have hx : (2 : ℝ) * Real.exp (-u) ≤ 10 := by
        rcases (htest u).1 hu with rfl | rfl | rfl
        · rw [neg_neg]; linarith
        · norm_num
        · have : Real.exp (-1) ≤ Real.exp 0 := Real.exp_le_exp.2 (by norm_num)
          rw [Real.exp_zero] at this
          linarith
      have hg : stretchedAt spline (-10) 10 (List.replicate 21 1) u 2 = 1 := by
        rw [hr, stretchedAt_reproduces spline Cubics hsp (fun _ : ℝ => (1 : ℝ)) ⟨1, 0, 0, 0, fun x => by ring⟩ (-10) 10 (by decide), if_pos]
        have := Real.exp_pos (-u)
        push_cast
        exact ⟨by linarith, hx⟩
      unfold coeffAt
      simp only [Finset.sum_singleton, hg]
      rw [show atLag (-10) (List.replicate 21 (1 : ℝ)) 2 = 1 by simp [atLag, List.replicate]]
      norm_num
  · obtain ⟨res, h1, h2, h3⟩ := c116_best spline 1 one_pos 2 2 2 (by decide) (by decide) (by decide) [List.replicate 5 1] (by simp) (by simp)
      (List.replicate 5 1) (by simp) [2] (by simp) (by simp) 1 3 (by decide) c!"right" (.inr (.inr rfl))
    obtain ⟨c, v, p1, p2⟩ := h3 0 _ rfl
    rw [hset 2 (by decide)] at p2
    have hc := p2.1 (List.mem_map.2 ⟨-1, (htest _).2 (.inl rfl), ?_⟩)
    · rw [h1]
      obtain ⟨rfl, rfl⟩ := hc
      match res, h2, p1 with
      | [x], _, p1 => simpa using p1
    · have hg : stretchedAt spline (-2) 2 (List.replicate 5 1) (-1) 2 = 0 := by
        unfold stretchedAt
        rw [if_neg]
        rw [neg_neg]
        push_cast
        intro h
        linarith [h.2]
      unfold coeffAt
      simp only [Finset.sum_singleton, hg]
      norm_num

end SeisMIC
