import Mathlib.Analysis.SpecialFunctions.Log.Basic
import Verif.Props.ClockShift
import Verif.Props.StretchMeasure
import Verif.Props.Measure

/-!
# C209: testing more stretches or shifts never gives a worse match
-/

namespace SeisMIC
namespace Xcorr
open Spec

/-- if the similarity of a tested value does not depend on the other ones, more tested values do not give a smaller maximum -/
theorem isBest_mono (R : ℝ → Option ℝ → Prop) (hR : ∀ v c c', R v c → R v c' → c = c') (T T' : List ℝ) (hsub : ∀ v ∈ T, v ∈ T')
    (S S' : List (Option ℝ)) (hS : List.Forall₂ R T S) (hS' : List.Forall₂ R T' S') (corr value corr' value' : Option ℝ)
    (hb : IsBest T S corr value) (hb' : IsBest T' S' corr' value') (x' : ℝ) (hx : corr' = some x') :
    ∃ x, corr = some x ∧ x ≤ x' := by
  have hfind : ∀ (k : Nat) (c : Option ℝ), S[k]? = some c → ∃ j : Nat, S'[j]? = some c := by
    intro k c hk
    obtain ⟨hlen, hget⟩ := List.forall₂_iff_get.1 hS
    obtain ⟨hlen', hget'⟩ := List.forall₂_iff_get.1 hS'
    obtain ⟨hk1, hk2⟩ := List.getElem?_eq_some_iff.1 hk
    obtain ⟨j, hj, hjv⟩ := List.getElem_of_mem (hsub _ (List.getElem_mem (show k < T.length by omega)))
    have h1 := hget k (by omega) hk1
    have h2 := hget' j hj (by omega)
    simp only [List.get_eq_getElem] at h1 h2
    rw [hk2] at h1
    rw [hjv] at h2
    exact ⟨j, by rw [List.getElem?_eq_getElem (by omega), hR _ _ _ h1 h2]⟩
  have hn' : none ∉ S' := by
    intro hm
    rw [(hb'.1 hm).1] at hx
    cases hx
  have hn : none ∉ S := by
    intro hm
    obtain ⟨k, hk, hkv⟩ := List.getElem_of_mem hm
    obtain ⟨j, hj⟩ := hfind k none (by rw [List.getElem?_eq_getElem hk, hkv])
    exact hn' (List.mem_of_getElem? hj)
  obtain ⟨k, c, v, e1, _, e3, _, _, _⟩ := hb.2 hn
  obtain ⟨k', c', v', _, _, f3, _, f5, _⟩ := hb'.2 hn'
  obtain ⟨j, hj⟩ := hfind k _ e1
  rw [f3] at hx
  cases hx
  exact ⟨c, e3, f5 j c hj⟩

/-- with `m` steps instead of each one, all values that were tested are tested -/
theorem tested_refined (range : ℝ) (n m : Nat) (hn : 2 ≤ n) (hm : 1 ≤ m) :
    ∀ v ∈ testedShifts range n, v ∈ testedShifts range (m * (n - 1) + 1) := by
  intro v hv
  unfold testedShifts at hv ⊢
  obtain ⟨k, hk, rfl⟩ := List.mem_map.1 hv
  refine List.mem_map.2 ⟨m * k, List.mem_range.2 ?_, ?_⟩
  · have := Nat.mul_le_mul_left m (show k ≤ n - 1 by have := List.mem_range.1 hk; omega)
    omega
  · obtain ⟨q, rfl⟩ : ∃ q, n = q + 2 := ⟨n - 2, by omega⟩
    have h1 : (m : ℝ) ≠ 0 := by positivity
    have h2 : (q : ℝ) + 1 ≠ 0 := by positivity
    push_cast [show q + 2 - 1 = q + 1 by omega]
    rw [show (q : ℝ) + 2 - 1 = q + 1 by ring, add_sub_cancel_right]
    field_simp

/-- with `2 * m + 1` times the range and the same distance of the tested values, all values that were tested are tested -/
theorem tested_wider (range : ℝ) (n m : Nat) (hn : 2 ≤ n) :
    ∀ v ∈ testedShifts range n, v ∈ testedShifts ((2 * m + 1) * range) ((2 * m + 1) * (n - 1) + 1) := by
  intro v hv
  unfold testedShifts at hv ⊢
  obtain ⟨k, hk, rfl⟩ := List.mem_map.1 hv
  obtain ⟨q, rfl⟩ : ∃ q, n = q + 2 := ⟨n - 2, by omega⟩
  have hk := List.mem_range.1 hk
  refine List.mem_map.2 ⟨m * (q + 1) + k, List.mem_range.2 ?_, ?_⟩
  · rw [show q + 2 - 1 = q + 1 by omega]
    nlinarith
  · have h2 : (q : ℝ) + 1 ≠ 0 := by positivity
    have h3 : (2 : ℝ) * m + 1 ≠ 0 := by positivity
    push_cast [show q + 2 - 1 = q + 1 by omega]
    rw [show (q : ℝ) + 2 - 1 = q + 1 by ring, add_sub_cancel_right]
    field_simp
    ring

theorem forall₂_map_eq (f : ℝ → Option ℝ) (T : List ℝ) : List.Forall₂ (fun v c => f v = c) T (T.map f) := by
  rw [List.forall₂_map_right_iff, List.forall₂_same]
  exact fun _ _ => rfl

/-- **C209** (stretches). The same traces are compared with the same reference twice, on the same window and sides: once with `n` tested
stretches from `-range` to `range`, and once with more of them that contain the first ones: `m` steps instead of each one, or the same steps
in a range that is an odd number of times as wide. If the second comparison gives a correlation for a trace, the first one does, too, and it
is not larger. -/
theorem c209_stretch (spline : List ℝ → List ℝ → ℝ → ℝ) (sr : Rat) (hsr : 0 < sr) (a b E : Int) (ha : 0 ≤ a) (hb : 0 ≤ b) (hmE : min a b ≤ E)
    (data : List (List ℝ)) (hd : ∀ row ∈ data, row.length = (b + 1 - -a).toNat) (hne : data ≠ []) (ref : List ℝ) (href : ref.length = (E + 1 - -E).toNat)
    (w : List Int) (hw : w ≠ []) (hwm : ∀ k ∈ w, 0 ≤ k ∧ k ≤ min a b) (range : ℝ) (n : Nat) (hn : 2 ≤ n) (sides : Str)
    (hs : sides = c!"both" ∨ sides = c!"left" ∨ sides = c!"right") (range' : ℝ) (n' : Nat)
    (hmore : (∃ m : Nat, 1 ≤ m ∧ range' = range ∧ n' = m * (n - 1) + 1) ∨ ∃ m : Nat, range' = (2 * m + 1) * range ∧ n' = (2 * m + 1) * (n - 1) + 1) :
    ∃ res res',
      corrMatStretch spline data (lagsFromTo (-a) b sr) (some ref) (some [w]) range n sides (some (lagsFromTo (-E) E sr)) = .ok [res] ∧
      corrMatStretch spline data (lagsFromTo (-a) b sr) (some ref) (some [w]) range' n' sides (some (lagsFromTo (-E) E sr)) = .ok [res'] ∧
      res.length = data.length ∧ res'.length = data.length ∧
      ∀ (i : Nat) (corr' : ℝ) (value' : Option ℝ), res'[i]? = some (some corr', value') →
        ∃ corr value, res[i]? = some (some corr, value) ∧ corr ≤ corr' := by
  have hsub : ∀ v ∈ testedShifts range n, v ∈ testedShifts range' n' := by
    rcases hmore with ⟨m, hm, rfl, rfl⟩ | ⟨m, rfl, rfl⟩
    · exact tested_refined _ n m hn hm
    · exact tested_wider _ n m hn
  have hn' : 0 < n' := by rcases hmore with ⟨m, _, _, rfl⟩ | ⟨m, _, rfl⟩ <;> omega
  obtain ⟨res, h1, h2, h3⟩ := c116_best spline sr hsr a b E ha hb hmE data hd hne ref href w hw hwm range n (by omega) sides hs
  obtain ⟨res', g1, g2, g3⟩ := c116_best spline sr hsr a b E ha hb hmE data hd hne ref href w hw hwm range' n' hn' sides hs
  refine ⟨res, res', h1, g1, h2, g2, fun i corr' value' hi => ?_⟩
  have hlt : i < data.length := by rw [← g2]; exact (List.getElem?_eq_some_iff.1 hi).1
  obtain ⟨c, v, e1, e2⟩ := h3 i _ (List.getElem?_eq_getElem hlt)
  obtain ⟨c', v', f1, f2⟩ := g3 i _ (List.getElem?_eq_getElem hlt)
  rw [hi] at f1
  cases f1
  obtain ⟨x, hx, hle⟩ := isBest_mono _ (fun v c c' h h' => h.symm.trans h') _ _ hsub _ _ (forall₂_map_eq _ _) (forall₂_map_eq _ _) _ _ _ _ e2 f2 corr' rfl
  exact ⟨x, v, by rw [e1, hx], hle⟩

/-- **C209** (clock shifts). The same for the delays that are tested for clock shifts. -/
theorem c209_clock_shift (spline : List ℝ → List ℝ → ℝ → ℝ) (hsp : NoOrigin spline) (sr : Rat) (hsr : 0 < sr) (a b : Int) (ha : 0 ≤ a) (hb : 0 ≤ b) (sides : Str)
    (lo hi : Int) (hk : ComparedLags sides a b lo hi) (data : List (List ℝ)) (hd : ∀ row ∈ data, row.length = (b + 1 - -a).toNat) (ref : List ℝ)
    (href : ref.length = (b + 1 - -a).toNat) (w : List Int) (hw : w ≠ []) (hwm : ∀ k ∈ w, 0 ≤ k ∧ k ≤ hi) (range : ℝ) (n : Nat) (hn : 2 ≤ n)
    (range' : ℝ) (n' : Nat)
    (hmore : (∃ m : Nat, 1 ≤ m ∧ range' = range ∧ n' = m * (n - 1) + 1) ∨ ∃ m : Nat, range' = (2 * m + 1) * range ∧ n' = (2 * m + 1) * (n - 1) + 1) :
    ∃ res res',
      corrMatShift spline data (lagsFromTo (-a) b sr) (some ref) (some [w]) range n sides = .ok [res] ∧
      corrMatShift spline data (lagsFromTo (-a) b sr) (some ref) (some [w]) range' n' sides = .ok [res'] ∧
      res.length = data.length ∧ res'.length = data.length ∧
      ∀ (i : Nat) (corr' : ℝ) (value' : Option ℝ), res'[i]? = some (some corr', value') →
        ∃ corr value, res[i]? = some (some corr, value) ∧ corr ≤ corr' := by
  have hsub : ∀ v ∈ testedShifts range n, v ∈ testedShifts range' n' := by
    rcases hmore with ⟨m, hm, rfl, rfl⟩ | ⟨m, rfl, rfl⟩
    · exact tested_refined _ n m hn hm
    · exact tested_wider _ n m hn
  have hn' : 0 < n' := by rcases hmore with ⟨m, _, _, rfl⟩ | ⟨m, _, rfl⟩ <;> omega
  obtain ⟨res, h1, h2, h3⟩ := c131_best spline hsp sr hsr a b ha hb sides lo hi hk data hd ref href w hw hwm range n (by omega)
  obtain ⟨res', g1, g2, g3⟩ := c131_best spline hsp sr hsr a b ha hb sides lo hi hk data hd ref href w hw hwm range' n' hn'
  refine ⟨res, res', h1, g1, h2, g2, fun i corr' value' hi => ?_⟩
  have hlt : i < data.length := by rw [← g2]; exact (List.getElem?_eq_some_iff.1 hi).1
  obtain ⟨c, v, e1, e2⟩ := h3 i _ (List.getElem?_eq_getElem hlt)
  obtain ⟨c', v', f1, f2⟩ := g3 i _ (List.getElem?_eq_getElem hlt)
  rw [hi] at f1
  cases f1
  obtain ⟨x, hx, hle⟩ := isBest_mono _ (fun v c c' h h' => h.symm.trans h') _ _ hsub _ _ (forall₂_map_eq _ _) (forall₂_map_eq _ _) _ _ _ _ e2 f2 corr' rfl
  exact ⟨x, v, by rw [e1, hx], hle⟩

theorem isMeanOpt_unique (l : List ℝ) (c c' : Option ℝ) (h : IsMean l c) (h' : IsMean l c') : c = c' := by
  by_cases hl : l = []
  · rw [h.1 hl, h'.1 hl]
  · obtain ⟨y, rfl, hy⟩ := h.2 hl
    obtain ⟨y', rfl, hy'⟩ := h'.2 hl
    have : (l.length : ℝ) ≠ 0 := by
      have := List.length_pos_iff.2 hl
      positivity
    rw [mul_right_cancel₀ this (hy.trans hy'.symm)]

/-- **C209** (`measure_shift`, finer steps). Two measurements with the same windows and the same largest shift, the second with `m` steps
instead of each one: the correlation of no trace becomes smaller. Missing: larger ranges of shifts, because the part of the reference that
is interpolated depends on the range. -/
theorem c209_measure_partial (spline : List ℝ → List ℝ → ℝ → ℝ) (sr : Rat) (hsr : 0 < sr) (a : Int) (len : Nat)
    (data : List (List ℝ)) (ref : List ℝ) (wins : List (Int × Int)) (ρ : Int) (hρ : 0 ≤ ρ) (n m : Nat) (hn : 2 ≤ n) (hm : 1 ≤ m) (sides : Str)
    (out out' : List (Option ℝ × Option ℝ)) (hd : ∀ row ∈ data, row.length = len) (hlen : 0 < len)
    (h : measureShift spline data ⟨(a : Rat) / sr, len, sr⟩ (some ref) (some (winsSec sr wins)) ((ρ : Rat) / sr) n sides = .ok out)
    (h' : measureShift spline data ⟨(a : Rat) / sr, len, sr⟩ (some ref) (some (winsSec sr wins)) ((ρ : Rat) / sr) ((m * (n - 1) + 1 : Nat) : Int) sides =
      .ok out') :
    out.length = data.length ∧ out'.length = data.length ∧
    ∀ (i : Nat) (corr' : ℝ) (value' : Option ℝ), out'[i]? = some (some corr', value') →
      ∃ corr value, out[i]? = some (some corr, value) ∧ corr ≤ corr' := by
  obtain ⟨lo, hi₀, _, _, h3, _, h5, h6⟩ := c110_best spline sr hsr a len data ref wins ρ hρ _ sides out hd hlen h
  obtain ⟨lo', hi', _, _, g3, _, g5, g6⟩ := c110_best spline sr hsr a len data ref wins ρ hρ _ sides out' hd hlen h'
  obtain ⟨rfl, rfl⟩ := isExtent_unique _ _ _ _ _ _ _ h3 g3
  refine ⟨h5, g5, fun i corr' value' hi => ?_⟩
  have hlt : i < data.length := by rw [← g5]; exact (List.getElem?_eq_some_iff.1 hi).1
  obtain ⟨c, v, S, e1, e2, e3⟩ := h6 i _ (List.getElem?_eq_getElem hlt)
  obtain ⟨c', v', S', f1, f2, f3⟩ := g6 i _ (List.getElem?_eq_getElem hlt)
  rw [hi] at f1
  cases f1
  obtain ⟨x, hx, hle⟩ := isBest_mono (fun v c => IsMean (wins.filterMap fun w : Int × Int => lagCoeff (windowLags sides w.1 w.2) (atLag a data[i])
    (shiftedRef spline sr a ref lo hi₀ v)) c) (fun v c c' h h' => isMeanOpt_unique _ c c' h h') _ _ (by
    simp only [Int.toNat_natCast]
    exact tested_refined _ n m hn hm) _ _ e3 f3 _ _ _ _ e2 f2 corr' rfl
  exact ⟨x, v, by rw [e1, hx], hle⟩

/-- **C209 is violated** by wider ranges of stretches: if the reference compressed most does not reach the window, the result that the
narrower range gives is lost for every trace, although all stretches of the narrower range are tested, too. Here a trace is compared with
itself on one lag: with the stretches from `-r` to `r` its correlation is one, with those from `-3 r` to `3 r` there is none. -/
theorem c209_wider_violated (spline : List ℝ → List ℝ → ℝ → ℝ) (hone : ∀ x t, spline x (List.replicate 7 1) t = 1) (r : ℝ) (h1 : Real.exp r * 2 ≤ 3)
    (h2 : 3 < 2 * Real.exp (3 * r)) (hr : 0 < r) :
    corrMatStretch spline [List.replicate 7 1] (lagsFromTo (-3) 3 1) (some (List.replicate 7 1)) (some [[2]]) r 3 c!"both" (some (lagsFromTo (-3) 3 1)) =
      .ok [[(some 1, some (-r))]] ∧
    corrMatStretch spline [List.replicate 7 1] (lagsFromTo (-3) 3 1) (some (List.replicate 7 1)) (some [[2]]) (3 * r) 7 c!"both" (some (lagsFromTo (-3) 3 1)) =
      .ok [[(none, none)]] := by
  constructor
  · obtain ⟨res, e1, e2, e3⟩ := c116_best spline 1 (by norm_num) 3 3 3 (by norm_num) (by norm_num) (by norm_num) [List.replicate 7 1] (by simp) (by simp)
      (List.replicate 7 1) (by simp) [2] (by simp) (by simp) r 3 (by norm_num) c!"both" (.inl rfl)
    obtain ⟨corr, value, f1, f2⟩ := e3 0 _ rfl
    have hs : ∀ v ∈ testedShifts r 3, coeffAt (lagSet c!"both" (-min 3 3) (min 3 3) [2]) (atLag (-3) (List.replicate 7 1))
        (stretchedAt spline (-3) 3 (List.replicate 7 1) v) = some 1 := by
      intro v hv
      have hv' : -r ≤ v ∧ v ≤ r := by
        unfold testedShifts at hv
        obtain ⟨k, hk, rfl⟩ := List.mem_map.1 hv
        have hk := List.mem_range.1 hk
        have h3 : (k : ℝ) ≤ 2 := by exact_mod_cast (show k ≤ 2 by omega)
        have h4 : (0 : ℝ) ≤ k := Nat.cast_nonneg _
        norm_num
        constructor <;> nlinarith
      have hL : lagSet c!"both" (-min 3 3) (min 3 3) [2] = {-2, 2} := by
        decide
      have he : Real.exp (-v) * 2 ≤ 3 := le_trans (by gcongr; linarith) h1
      have hp : 0 < Real.exp (-v) := Real.exp_pos _
      have hst : ∀ l ∈ ({-2, 2} : Finset Int), stretchedAt spline (-3) 3 (List.replicate 7 1) v l = 1 := by
        intro l hl
        unfold stretchedAt
        rw [if_pos, hone]
        simp at hl
        rcases hl with rfl | rfl <;> push_cast <;> constructor <;> nlinarith
      have hat : ∀ l ∈ ({-2, 2} : Finset Int), atLag (-3) (List.replicate 7 (1 : ℝ)) l = 1 := by
        intro l hl
        simp at hl
        rcases hl with rfl | rfl <;> simp [atLag]
      unfold coeffAt
      rw [hL]
      have s1 : ∑ l ∈ ({-2, 2} : Finset Int), atLag (-3) (List.replicate 7 (1 : ℝ)) l ^ 2 = 2 := by
        rw [Finset.sum_congr (g := fun _ => (1 : ℝ)) rfl (fun l hl => by rw [hat l hl]; norm_num)]; simp
      have s2 : ∑ l ∈ ({-2, 2} : Finset Int), stretchedAt spline (-3) 3 (List.replicate 7 1) v l ^ 2 = 2 := by
        rw [Finset.sum_congr (g := fun _ => (1 : ℝ)) rfl (fun l hl => by rw [hst l hl]; norm_num)]; simp
      have s3 : ∑ l ∈ ({-2, 2} : Finset Int), atLag (-3) (List.replicate 7 (1 : ℝ)) l * stretchedAt spline (-3) 3 (List.replicate 7 1) v l = 2 := by
        rw [Finset.sum_congr (g := fun _ => (1 : ℝ)) rfl (fun l hl => by rw [hat l hl, hst l hl]; norm_num)]; simp
      rw [s1, s2, s3, if_neg (by norm_num), Real.sqrt_mul_self (by norm_num)]
      norm_num
    have hmap : ∀ (j : Nat) (c : Option ℝ), ((testedStretches r 3).map fun v => coeffAt (lagSet c!"both" (-min 3 3) (min 3 3) [2])
        (atLag (-3) (List.replicate 7 1)) (stretchedAt spline (-3) 3 (List.replicate 7 1) v))[j]? = some c → c = some 1 := by
      intro j c hj
      obtain ⟨v, hv, rfl⟩ := List.mem_map.1 (List.mem_of_getElem? hj)
      exact hs v hv
    obtain ⟨k, c, v, g1, g2, g3, g4, _, g6⟩ := f2.2 (by
      intro hm
      obtain ⟨j, hj, hjv⟩ := List.getElem_of_mem hm
      have := hmap j none (by rw [List.getElem?_eq_getElem hj, hjv])
      cases this)
    have hc := hmap k _ g1
    cases hc
    have hk : k = 0 := by
      by_contra hk
      have h0 : ((testedStretches r 3).map fun v => coeffAt (lagSet c!"both" (-min 3 3) (min 3 3) [2])
        (atLag (-3) (List.replicate 7 1)) (stretchedAt spline (-3) 3 (List.replicate 7 1) v))[0]? = some (some 1) := by
        rw [List.getElem?_map, tested_first r 3 (by norm_num), Option.map_some, hs _ (List.mem_of_getElem? (tested_first r 3 (by norm_num)))]
      have := g6 0 1 (by omega) h0
      exact lt_irrefl _ this
    subst hk
    rw [tested_first r 3 (by norm_num)] at g2
    cases g2
    rw [e1]
    match res, e2, f1 with
    | [p], _, f1 =>
      simp at f1
      rw [f1, g3, g4]
  · obtain ⟨res, e1, e2⟩ := c116_late_violated spline 1 (by norm_num) 3 3 3 (by norm_num) (by norm_num) (by norm_num) [List.replicate 7 1] (by simp) (by simp)
      (List.replicate 7 1) (by simp) [2] (by simp) (by simp) (3 * r) 7 (by norm_num) c!"both" (.inl rfl) (by simpa using h2)
    rw [e1, e2]
    rfl

/-- ranges as in `c209_wider_violated` -/
example : Real.exp (Real.log (4 / 3)) * 2 ≤ 3 ∧ 3 < 2 * Real.exp (3 * Real.log (4 / 3)) ∧ 0 < Real.log (4 / 3) := by
  have h : Real.exp (3 * Real.log (4 / 3)) = (4 / 3) ^ 3 := by
    rw [show (3 : ℝ) * Real.log (4 / 3) = ((3 : ℕ) : ℝ) * Real.log (4 / 3) by norm_num, Real.exp_nat_mul, Real.exp_log (by norm_num)]
  rw [h, Real.exp_log (by norm_num)]
  exact ⟨by norm_num, by norm_num, Real.log_pos (by norm_num)⟩

/-- the hypotheses of `c209_stretch` are met: 1001 instead of 101 stretches -/
example : ∃ m : Nat, 1 ≤ m ∧ (1001 : Nat) = m * (101 - 1) + 1 := ⟨10, by norm_num, by norm_num⟩

end Xcorr
end SeisMIC
