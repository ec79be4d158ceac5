import Verif.Props.StretchMeasure
import Mathlib.Tactic.IntervalCases

/-! # What is measured if nothing has changed (C220) -/

namespace SeisMIC

open Spec

/-! ### tested values -/

/-- three or any other larger odd number of values between `-range` and `range` include zero -/
theorem zero_tested (range : ℝ) (k : Nat) : (0 : ℝ) ∈ testedShifts range (2 * k + 3) := by
  unfold testedShifts
  refine List.mem_map.2 ⟨k + 1, List.mem_range.2 (by omega), ?_⟩
  have hk : (0 : ℝ) ≤ k := Nat.cast_nonneg k
  have e : ((2 * k + 3 : Nat) : ℝ) - 1 = 2 * ((k : ℝ) + 1) := by push_cast; ring
  have hne : (k : ℝ) + 1 ≠ 0 := by linarith
  rw [e]
  push_cast
  field_simp
  ring

/-- an even number of values does not include zero -/
theorem zero_not_tested (range : ℝ) (hr : range ≠ 0) (k : Nat) : (0 : ℝ) ∉ testedShifts range (2 * k) := by
  unfold testedShifts
  intro h
  obtain ⟨j, hj, e⟩ := List.mem_map.1 h
  have hj := List.mem_range.1 hj
  have hne : ((2 * k : Nat) : ℝ) - 1 ≠ 0 := by
    intro h0
    have : ((2 * k : Nat) : ℝ) = ((1 : Nat) : ℝ) := by push_cast at h0 ⊢; linarith
    have := Nat.cast_injective this
    omega
  have e' : range * (2 * (j : ℝ) - (((2 * k : Nat) : ℝ) - 1)) = 0 := by
    field_simp at e
    linarith
  rcases mul_eq_zero.1 e' with h0 | h0
  · exact hr h0
  · have : ((2 * j + 1 : Nat) : ℝ) = ((2 * k : Nat) : ℝ) := by push_cast at h0 ⊢; linarith
    have := Nat.cast_injective this
    omega

/-- a single value is not zero but the lower end of the range -/
theorem one_tested (range : ℝ) : testedShifts range 1 = [-range] := by simp [testedShifts]

/-- a stretch of zero leaves the reference as it is -/
theorem stretchedAt_zero (spline : List ℝ → List ℝ → ℝ → ℝ) (hsp : Interpolates spline) (lo hi : Int) (ref : List ℝ)
    (href : ref.length = (hi + 1 - lo).toNat) (l : Int) (h1 : lo ≤ l) (h2 : l ≤ hi) : stretchedAt spline lo hi ref 0 l = atLag lo ref l := by
  unfold stretchedAt
  rw [neg_zero, Real.exp_zero, mul_one, if_pos ⟨by exact_mod_cast h1, by exact_mod_cast h2⟩]
  have hlt : (l - lo).toNat < ref.length := by omega
  have hli : (l - lo).toNat < (intsFrom lo (hi + 1)).length := by rw [length_intsFrom]; omega
  refine hsp _ _ (l - lo).toNat _ _ (pairwise_ints lo (hi + 1)) (by rw [List.length_map, length_intsFrom, href]) ?_ ?_
  · rw [List.getElem?_map, List.getElem?_eq_getElem hli, getElem_intsFrom, Option.map_some]
    congr 2
    omega
  · unfold atLag
    rw [List.getD_eq_getElem?_getD, List.getElem?_eq_getElem hlt]
    rfl

/-! ### C220 -/

/-- **C220** (stretch). A trace agrees with a multiple of the reference on the lags of the time window. If three or any larger odd number of stretches is tested,
the correlation is one, and the reported stretch is one that gives a multiple of the trace; so it is zero unless the reference can be stretched without effect.
Partial: for other numbers of stretches see `c220_even_violated` and `c220_one_violated`. No stretched reference may vanish on the window. -/
theorem c220_stretch_partial (spline : List ℝ → List ℝ → ℝ → ℝ) (hsp : Interpolates spline) (sr : Rat) (hsr : 0 < sr) (a b E : Int) (ha : 0 ≤ a) (hb : 0 ≤ b)
    (hmE : min a b ≤ E) (data : List (List ℝ)) (hd : ∀ row ∈ data, row.length = (b + 1 - -a).toNat) (hne : data ≠ []) (ref : List ℝ)
    (href : ref.length = (E + 1 - -E).toNat) (w : List Int) (hw : w ≠ []) (hwm : ∀ k ∈ w, 0 ≤ k ∧ k ≤ min a b) (range : ℝ) (k : Nat) (sides : Str)
    (hs : sides = c!"both" ∨ sides = c!"left" ∨ sides = c!"right")
    (i : Nat) (row : List ℝ) (hi : data[i]? = some row) (c : ℝ) (hc : 0 < c)
    (hrow : ∀ l ∈ lagSet sides (-min a b) (min a b) w, atLag (-a) row l = c * atLag (-E) ref l)
    (hrz : ∀ u ∈ testedStretches range (2 * k + 3), ∃ l ∈ lagSet sides (-min a b) (min a b) w, stretchedAt spline (-E) E ref u l ≠ 0) :
    ∃ res u, corrMatStretch spline data (lagsFromTo (-a) b sr) (some ref) (some [w]) range (2 * k + 3) sides (some (lagsFromTo (-E) E sr)) = .ok [res] ∧
      res[i]? = some (some 1, some u) ∧ u ∈ testedStretches range (2 * k + 3) ∧
      (∃ d > 0, ∀ l ∈ lagSet sides (-min a b) (min a b) w, atLag (-a) row l = d * stretchedAt spline (-E) E ref u l) ∧
      ((∀ v ∈ testedStretches range (2 * k + 3), v ≠ 0 →
        ¬ ∃ d > 0, ∀ l ∈ lagSet sides (-min a b) (min a b) w, atLag (-a) row l = d * stretchedAt spline (-E) E ref v l) → u = 0) := by
  obtain ⟨res, h1, h2, h3⟩ := c116_best spline sr hsr a b E ha hb hmE data hd hne ref href w hw hwm range (2 * k + 3) (by omega) sides hs
  obtain ⟨corr, value, g1, g2⟩ := h3 i row hi
  have hin : ∀ l ∈ lagSet sides (-min a b) (min a b) w, -E ≤ l ∧ l ≤ E := by
    intro l hl
    have := Finset.mem_Icc.1 (Finset.mem_filter.1 hl).1
    omega
  have h0 : ∀ l ∈ lagSet sides (-min a b) (min a b) w, atLag (-a) row l = c * stretchedAt spline (-E) E ref 0 l := by
    intro l hl
    rw [hrow l hl, stretchedAt_zero spline hsp (-E) E ref href l (hin l hl).1 (hin l hl).2]
  have hnz : ∃ l ∈ lagSet sides (-min a b) (min a b) w, atLag (-a) row l ≠ 0 := by
    obtain ⟨l, hl, hz⟩ := hrz 0 (zero_tested range k)
    exact ⟨l, hl, by rw [h0 l hl]; exact mul_ne_zero hc.ne' hz⟩
  obtain ⟨e1, u, hu, e2, e3⟩ := isBest_one _ (fun v => coeffAt (lagSet sides (-min a b) (min a b) w) (atLag (-a) row)
      (stretchedAt spline (-E) E ref v)) 0 (zero_tested range k)
    ((coeffAt_one _ _ _ hnz (hrz 0 (zero_tested range k))).2.2 ⟨c, hc, h0⟩)
    (fun u hu => by
      obtain ⟨c', hc'⟩ := (coeffAt_one _ _ _ hnz (hrz u hu)).1
      exact ⟨c', hc', coeffAt_le _ _ _ _ hc'⟩) corr value g2
  have hmul := (coeffAt_one _ _ _ hnz (hrz u hu)).2.1 e3
  refine ⟨res, u, h1, by rw [g1, e1, e2], hu, hmul, fun huniq => ?_⟩
  by_contra hne0
  exact huniq u hu hne0 hmul

/-- **C220** (shift). `measure_shift` refuses even numbers of shifts. If a trace agrees with a multiple of the reference on the lags of all windows and a shift is
reported, its correlation is one. -/
theorem c220_shift (spline : List ℝ → List ℝ → ℝ → ℝ) (hsp : Interpolates spline) (sr : Rat) (hsr : 0 < sr) (a : Int) (n : Nat)
    (data : List (List ℝ)) (ref : List ℝ) (wins : List (Int × Int)) (ρ : Int) (hρ : 0 ≤ ρ) (k : Nat) (sides : Str)
    (out : List (Option ℝ × Option ℝ)) (hd : ∀ row ∈ data, row.length = n) (hn : 0 < n)
    (h : measureShift spline data ⟨(a : Rat) / sr, n, sr⟩ (some ref) (some (winsSec sr wins)) ((ρ : Rat) / sr) (2 * k + 3 : Nat) sides = .ok out)
    (b : Nat) (row : List ℝ) (hb : data[b]? = some row) (scale : ℝ) (hsc : 0 < scale)
    (hrow : ∀ w ∈ wins, ∀ l ∈ windowLags sides w.1 w.2, atLag a row l = scale * atLag a ref l) (c v : ℝ)
    (ho : out[b]? = some (some c, some v)) : c = 1 := by
  refine c110_recover spline hsp sr hsr a n data ref wins ρ hρ _ sides out hd hn h b row hb 0 ⟨by omega, hρ⟩ ?_ scale hsc ?_ c v ho
  · rw [Int.toNat_natCast, Int.cast_zero, zero_div]
    exact zero_tested ((ρ : ℝ) / (sr : ℝ)) k
  · intro w hw l hl
    rw [add_zero]
    exact hrow w hw l hl

/-- every reported stretch is a tested one -/
theorem stretch_tested (spline : List ℝ → List ℝ → ℝ → ℝ) (sr : Rat) (hsr : 0 < sr) (a b E : Int) (ha : 0 ≤ a) (hb : 0 ≤ b) (hmE : min a b ≤ E)
    (data : List (List ℝ)) (hd : ∀ row ∈ data, row.length = (b + 1 - -a).toNat) (hne : data ≠ []) (ref : List ℝ) (href : ref.length = (E + 1 - -E).toNat)
    (w : List Int) (hw : w ≠ []) (hwm : ∀ k ∈ w, 0 ≤ k ∧ k ≤ min a b) (range : ℝ) (steps : Nat) (hst : 0 < steps) (sides : Str)
    (hs : sides = c!"both" ∨ sides = c!"left" ∨ sides = c!"right") :
    ∃ res, corrMatStretch spline data (lagsFromTo (-a) b sr) (some ref) (some [w]) range steps sides (some (lagsFromTo (-E) E sr)) = .ok [res] ∧
      res.length = data.length ∧ ∀ (i : Nat) (corr : Option ℝ) (v : ℝ), res[i]? = some (corr, some v) → v ∈ testedShifts range steps := by
  obtain ⟨res, h1, h2, h3⟩ := c116_best spline sr hsr a b E ha hb hmE data hd hne ref href w hw hwm range steps hst sides hs
  refine ⟨res, h1, h2, ?_⟩
  intro i corr v hi
  have hil : i < data.length := by rw [← h2]; exact (List.getElem?_eq_some_iff.1 hi).1
  obtain ⟨corr', value', g1, g2, g3⟩ := h3 i data[i] (List.getElem?_eq_getElem hil)
  rw [hi] at g1
  obtain ⟨rfl, rfl⟩ := Prod.mk.inj (Option.some.inj g1)
  by_cases hN : none ∈ (testedStretches range steps).map fun v =>
      coeffAt (lagSet sides (-min a b) (min a b) w) (atLag (-a) data[i]) (stretchedAt spline (-E) E ref v)
  · cases (g2 hN).2
  · obtain ⟨j, c', v', -, e1, -, e2, -⟩ := g3 hN
    obtain rfl := Option.some.inj e2
    exact List.mem_of_getElem? e1

/-- **C220** violated: with an even number of stretches (the default of `time_stretch_estimate` and `multi_ref_vchange_and_align` is 100) a change of zero is
never reported, whatever the traces are. -/
theorem c220_even_violated (spline : List ℝ → List ℝ → ℝ → ℝ) (sr : Rat) (hsr : 0 < sr) (a b E : Int) (ha : 0 ≤ a) (hb : 0 ≤ b) (hmE : min a b ≤ E)
    (data : List (List ℝ)) (hd : ∀ row ∈ data, row.length = (b + 1 - -a).toNat) (hne : data ≠ []) (ref : List ℝ) (href : ref.length = (E + 1 - -E).toNat)
    (w : List Int) (hw : w ≠ []) (hwm : ∀ k ∈ w, 0 ≤ k ∧ k ≤ min a b) (range : ℝ) (hr : range ≠ 0) (k : Nat) (hk : 0 < k) (sides : Str)
    (hs : sides = c!"both" ∨ sides = c!"left" ∨ sides = c!"right") :
    ∃ res, corrMatStretch spline data (lagsFromTo (-a) b sr) (some ref) (some [w]) range (2 * k) sides (some (lagsFromTo (-E) E sr)) = .ok [res] ∧
      res.length = data.length ∧ ∀ (i : Nat) (corr value : Option ℝ), res[i]? = some (corr, value) → value ≠ some 0 := by
  obtain ⟨res, h1, h2, h3⟩ := stretch_tested spline sr hsr a b E ha hb hmE data hd hne ref href w hw hwm range (2 * k) (by omega) sides hs
  refine ⟨res, h1, h2, ?_⟩
  rintro i corr _ hi rfl
  exact zero_not_tested range hr k (h3 i corr 0 hi)

/-- **C220** violated: if a single stretch is tested, it is not zero but the lower end of the range, and reported for each trace that is compared -/
theorem c220_one_violated (spline : List ℝ → List ℝ → ℝ → ℝ) (sr : Rat) (hsr : 0 < sr) (a b E : Int) (ha : 0 ≤ a) (hb : 0 ≤ b) (hmE : min a b ≤ E)
    (data : List (List ℝ)) (hd : ∀ row ∈ data, row.length = (b + 1 - -a).toNat) (hne : data ≠ []) (ref : List ℝ) (href : ref.length = (E + 1 - -E).toNat)
    (w : List Int) (hw : w ≠ []) (hwm : ∀ k ∈ w, 0 ≤ k ∧ k ≤ min a b) (range : ℝ) (sides : Str)
    (hs : sides = c!"both" ∨ sides = c!"left" ∨ sides = c!"right") :
    ∃ res, corrMatStretch spline data (lagsFromTo (-a) b sr) (some ref) (some [w]) range 1 sides (some (lagsFromTo (-E) E sr)) = .ok [res] ∧
      res.length = data.length ∧ ∀ (i : Nat) (corr value : Option ℝ), res[i]? = some (corr, value) → value = none ∨ value = some (-range) := by
  obtain ⟨res, h1, h2, h3⟩ := stretch_tested spline sr hsr a b E ha hb hmE data hd hne ref href w hw hwm range 1 (by omega) sides hs
  refine ⟨res, h1, h2, ?_⟩
  intro i corr value hi
  cases value with
  | none => exact .inl rfl
  | some v =>
    have := h3 i corr v hi
    rw [one_tested, List.mem_singleton] at this
    exact .inr (by rw [this])

open Classical in
/-- A method of interpolation, a trace of five lags that is twice the reference, a window, and tested stretches that satisfy the hypotheses: the reference
has no zeros, so its sample at zero lag does not vanish for any stretch. -/
example : ∃ spline, Interpolates spline ∧
    (∀ u ∈ testedStretches (1 / 10 : ℝ) (2 * 0 + 3), ∃ l ∈ lagSet c!"both" (-min 2 2) (min 2 2) [0, 1], stretchedAt spline (-2) 2 [1, 2, 3, 4, 5] u l ≠ 0) ∧
    ∀ l ∈ lagSet c!"both" (-min 2 2) (min 2 2) [0, 1], atLag (-2) [2, 4, 6, 8, 10] l = 2 * atLag (-2) [1, 2, 3, 4, 5] l := by
  refine ⟨fun times values x => if h : ∃ i : Nat, times[i]? = some x then values.getD h.choose 0 else 0, ?_, ?_, ?_⟩
  · intro times values i t v hp hl hi hv
    have h : ∃ i : Nat, times[i]? = some t := ⟨i, hi⟩
    simp only [dif_pos h]
    have hc := h.choose_spec
    have hic : h.choose = i := by
      obtain ⟨a1, b1⟩ := List.getElem?_eq_some_iff.1 hc
      obtain ⟨a2, b2⟩ := List.getElem?_eq_some_iff.1 hi
      rcases lt_trichotomy h.choose i with hlt | heq | hgt
      · have := List.pairwise_iff_getElem.1 hp _ _ a1 a2 hlt
        rw [b1, b2] at this
        exact absurd this (lt_irrefl _)
      · exact heq
      · have := List.pairwise_iff_getElem.1 hp _ _ a2 a1 hgt
        rw [b1, b2] at this
        exact absurd this (lt_irrefl _)
    rw [hic, List.getD_eq_getElem?_getD, hv]
    rfl
  · intro u _
    refine ⟨0, ?_, ?_⟩
    · simp [lagSet]
    · unfold stretchedAt
      rw [if_pos (by norm_num)]
      have h : ∃ i : Nat, ((intsFrom (-2) (2 + 1)).map fun k : Int => (k : ℝ))[i]? = some (((0 : Int) : ℝ) * Real.exp (-u)) :=
        ⟨2, by simp [intsFrom, List.range_succ]⟩
      simp only [dif_pos h]
      have hc : h.choose < 5 := by
        have := (List.getElem?_eq_some_iff.1 h.choose_spec).1
        simpa [intsFrom] using this
      generalize h.choose = j at hc
      interval_cases j <;> norm_num
  · intro l hl
    have hl := Finset.mem_Icc.1 (Finset.mem_filter.1 hl).1
    have h1 : -2 ≤ l ∧ l ≤ 2 := by simpa using hl
    obtain ⟨h1, h2⟩ := h1
    interval_cases l <;> norm_num [atLag, show Int.toNat 2 = 2 from rfl, show Int.toNat 3 = 3 from rfl, show Int.toNat 4 = 4 from rfl]

end SeisMIC
