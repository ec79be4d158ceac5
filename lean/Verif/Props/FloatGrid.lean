import Verif.Model.FloatGrid
import Verif.Props.FloatTimes
import Verif.Lemmas.ListAux

/-!
# C213: grids of velocity changes and their kernels despite the rounding of floats
-/

namespace SeisMIC

/-- a grid axis or lapse times, all multiples of a binary fraction -/
theorem arangeF_multiples (p s k : Int) (hp : 0 ≤ p) (hs : 0 < s) (h : p + s < 2 ^ 51) :
    arangeF 0 (f64 (p * pow2 k + s * pow2 k)) (s * pow2 k) = (List.range (-(-(p + s) / s)).toNat).map fun i : Nat => (i : Rat) * (s * pow2 k) := by
  have e : (p : Rat) * pow2 k + s * pow2 k = ((p + s : Int) : Rat) * pow2 k := by push_cast; ring
  have hps : |p + s| < 2 ^ 51 := by rw [abs_of_nonneg (by omega)]; exact h
  have := c196_dyadic 0 (p + s) s k hs (by omega) (by norm_num) hps
  rw [Int.cast_zero, zero_mul] at this
  rw [e, f64_exact ⟨p + s, k, by omega, rfl⟩, this, arange, List.map_map]
  rw [show (0 : Int) - (p + s) = -(p + s) by ring]
  refine List.map_congr_left fun i _ => ?_
  simp only [Function.comp]
  push_cast
  ring

/-- number of points of an axis: the smallest number with which the extent is covered -/
theorem axis_count (p s : Int) (hp : 0 ≤ p) (hs : 0 < s) :
    let n := (-(-(p + s) / s)).toNat
    1 ≤ n ∧ p ≤ (n - 1) * s ∧ (n - 2) * s < p ∨ p = 0 ∧ n = 1 := by
  intro n
  have h1 := Int.emod_add_mul_ediv (-(p + s)) s
  have h2 := Int.emod_nonneg (-(p + s)) hs.ne'
  have h3 := Int.emod_lt_of_pos (-(p + s)) hs
  have hn : 1 ≤ -(-(p + s) / s) := by
    by_contra hc
    have : 0 ≤ -(p + s) / s := by omega
    have : 0 ≤ s * (-(p + s) / s) := mul_nonneg hs.le this
    omega
  have hnn : (n : Int) = -(-(p + s) / s) := Int.toNat_of_nonneg (by omega)
  have e : s * (-(p + s) / s) = -(n * s : Int) := by rw [hnn]; ring
  have e1 : ((n : Int) - 1) * s = n * s - s := by ring
  have e2 : ((n : Int) - 2) * s = n * s - 2 * s := by ring
  left
  refine ⟨by omega, by rw [e1]; omega, by rw [e2]; omega⟩

/-- **C213** (axes, part) If the resolution and the extent of a grid are multiples of a binary fraction (for example whole, half or quarter kilometres), the axis
consists of exact multiples of the resolution, which reach to the end of the extent and not a whole step farther.
Missing: other resolutions, see `c213_resolution_violated` and `c213_extent_violated`. -/
theorem c213_axis_partial (p s k : Int) (hp : 0 ≤ p) (hs : 0 < s) (h : p + s < 2 ^ 51) :
    ∃ n : Nat, gridAxisF (s * pow2 k) (p * pow2 k) = (List.range n).map (fun i : Nat => (i : Rat) * (s * pow2 k)) ∧
      1 ≤ n ∧ (p : Rat) * pow2 k ≤ ((n : Rat) - 1) * (s * pow2 k) ∧ ((n : Rat) - 2) * (s * pow2 k) < p * pow2 k := by
  refine ⟨_, arangeF_multiples p s k hp hs h, ?_⟩
  rcases axis_count p s hp hs with ⟨h1, h2, h3⟩ | ⟨rfl, h1⟩
  · generalize (-(-(p + s) / s)).toNat = n at *
    refine ⟨h1, ?_, ?_⟩
    · rw [← mul_assoc]
      exact mul_le_mul_of_nonneg_right (by exact_mod_cast h2) (pow2_pos k).le
    · rw [← mul_assoc]
      exact mul_lt_mul_of_pos_right (by exact_mod_cast h3) (pow2_pos k)
  · rw [h1]
    have : (0 : Rat) < s * pow2 k := mul_pos (by exact_mod_cast hs) (pow2_pos k)
    refine ⟨le_refl _, by norm_num, ?_⟩
    push_cast
    linarith

theorem evenlySpacedF_multiples (s k : Int) (n : Nat) :
    evenlySpacedF ((List.range n).map fun i : Nat => (i : Rat) * (s * pow2 k)) = true := by
  unfold evenlySpacedF
  rw [List.all_eq_true]
  intro d hd
  rw [List.mem_iff_getElem?] at hd
  obtain ⟨i, hi⟩ := hd
  rw [List.getElem?_zipWith, List.getElem?_tail, List.getElem?_map, List.getElem?_map] at hi
  by_cases hn : i + 1 < n
  · rw [List.getElem?_range (by omega), List.getElem?_range hn] at hi
    simp only [Option.map_some] at hi
    rw [beq_iff_eq, ← Option.some.inj hi]
    have e0 : ((List.range n).map fun i : Nat => (i : Rat) * (s * pow2 k)).getD 0 0 = 0 := by
      rw [List.getD_eq_getElem?_getD, List.getElem?_map, List.getElem?_range (by omega)]; simp
    have e1 : ((List.range n).map fun i : Nat => (i : Rat) * (s * pow2 k)).getD 1 0 = s * pow2 k := by
      rw [List.getD_eq_getElem?_getD, List.getElem?_map, List.getElem?_range (by omega)]; simp
    rw [e0, e1]
    congr 1
    push_cast
    ring
  · rw [List.getElem?_eq_none (l := List.range n) (i := i + 1) (by simp; omega)] at hi
    cases hx : (List.range n)[i]? <;> rw [hx] at hi <;> simp at hi

theorem timeLimitF_nonpos (dt vel : Rat) (hdt : 0 < dt) (hv : 0 < vel) : timeLimitF dt vel ≤ 0 := by
  have h1 : 0 ≤ f64 (vel * dt) := by
    have := f64_mono (mul_pos hv hdt).le
    rwa [f64_zero] at this
  have h2 : 0 ≤ f64 (f64 (vel * dt) / 2) := by
    have := f64_mono (div_nonneg h1 (by norm_num : (0 : Rat) ≤ 2))
    rwa [f64_zero] at this
  have h3 : -f64 (f64 (vel * dt) / 2) / vel ≤ 0 := div_nonpos_of_nonpos_of_nonneg (by linarith) hv.le
  have := f64_mono h3
  rwa [f64_zero] at this

/-- **C213** (kernels, part) Then the kernels of the grid can be computed for every pair of stations and all lapse times that are multiples of the interval of the
integration, if this is also a multiple of a binary fraction, with any velocity.
Missing: other resolutions and intervals, see `c213_resolution_violated` and `c213_interval_violated`. -/
theorem c213_kernels_partial (px py s k : Int) (hx : 0 < px) (hy : 0 < py) (hs : 0 < s) (hxs : px + s < 2 ^ 51) (hys : py + s < 2 ^ 51)
    (q : Nat) (r j : Int) (hr : 0 < r) (hq : q * r + r < 2 ^ 51) (vel : Rat) (hv : 0 < vel) (reached : Bool) :
    gridKernelErrorF (s * pow2 k) (px * pow2 k) (py * pow2 k) (q * (r * pow2 j)) (r * pow2 j) vel reached = none := by
  have hdt : 0 < (r : Rat) * pow2 j := mul_pos (by exact_mod_cast hr) (pow2_pos j)
  have axis : ∀ p : Int, 0 < p → p + s < 2 ^ 51 → ∃ n, 2 ≤ n ∧ gridAxisF (s * pow2 k) (p * pow2 k) = (List.range n).map fun i : Nat => (i : Rat) * (s * pow2 k) := by
    intro p hp h
    refine ⟨_, ?_, arangeF_multiples p s k hp.le hs h⟩
    rcases axis_count p s hp.le hs with ⟨h1, h2, h3⟩ | ⟨h1, -⟩
    · generalize (-(-(p + s) / s)).toNat = n at *
      by_contra hc
      have : n = 1 := by omega
      subst this
      norm_num at h2
      omega
    · omega
  obtain ⟨nx, hnx, ax⟩ := axis px hx hxs
  obtain ⟨ny, hny, ay⟩ := axis py hy hys
  have hlim := timeLimitF_nonpos _ vel hdt hv
  have ht : (0 : Rat) ≤ q * (r * pow2 j) := mul_nonneg (by positivity) hdt.le
  unfold gridKernelErrorF kernelErrorF
  rw [ax, ay, if_neg (not_le.2 hdt), if_neg (by simp; omega), evenlySpacedF_multiples s k nx, if_neg (by simp), if_neg (by simp; omega),
    evenlySpacedF_multiples s k ny, if_neg (by simp), if_neg (by linarith)]
  cases reached with
  | false => rfl
  | true =>
    rw [if_neg (by simp), if_neg]
    have e : (q : Rat) * (r * pow2 j) = ((q * r : Int) : Rat) * pow2 j := by push_cast; ring
    have hqr : 0 ≤ (q : Int) * r := mul_nonneg (by positivity) hr.le
    unfold lapseTimesF
    rw [e, arangeF_multiples (q * r) r j hqr hr hq]
    have hcount : (-(-((q : Int) * r + r) / r)).toNat = q + 1 := by
      rw [show -((q : Int) * r + r) = (-(q + 1 : Int)) * r by ring, Int.mul_ediv_cancel _ hr.ne']
      omega
    rw [hcount, Bool.not_eq_true, List.any_eq_false]
    intro tt htt
    obtain ⟨i, hi, rfl⟩ := List.mem_map.1 htt
    have hi' : i ≤ q := by have := List.mem_range.1 hi; omega
    have hle : (i : Rat) * (r * pow2 j) ≤ ((q * r : Int) : Rat) * pow2 j := by
      rw [← e]
      exact mul_le_mul_of_nonneg_right (by exact_mod_cast hi') hdt.le
    have h0 : (0 : Rat) ≤ i * (r * pow2 j) := mul_nonneg (by positivity) hdt.le
    have hsub : 0 ≤ f64 (((q * r : Int) : Rat) * pow2 j - i * (r * pow2 j)) := by
      have := f64_mono (sub_nonneg.2 hle)
      rwa [f64_zero] at this
    simp only [Bool.or_eq_true, decide_eq_true_eq, not_or, not_lt]
    exact ⟨by linarith, by linarith⟩

/-- a grid of 20 km by 10 km with a resolution of 500 m, lapse time 10 s in steps of 0.25 s -/
example : gridKernelErrorF (1 / 2) 20 10 10 (1 / 4) 3 true = none := by
  have := c213_kernels_partial 40 20 1 (-1) (by norm_num) (by norm_num) (by norm_num) (by norm_num) (by norm_num) 40 1 (-2) (by norm_num) (by norm_num) 3 (by norm_num) true
  rw [show pow2 (-1) = 1 / 2 by decide +kernel, show pow2 (-2) = 1 / 4 by decide +kernel] at this
  norm_num at this ⊢
  exact this

/-- **C213** (violated: resolution) A grid with a resolution of 0.1 km and an extent of 0.3 km or more cannot be used: each kernel, for whichever stations, lapse time
and velocity, is refused, because the differences of the values on the axis are not exactly the same. -/
theorem c213_resolution_violated (x y t dt vel : Rat) (hx : f64 (3 / 10) ≤ x) (reached : Bool) :
    gridKernelErrorF (f64 (1 / 10)) x y t dt vel reached = some .valueError := by
  have hlen : 4 ≤ (gridAxisF (f64 (1 / 10)) x).length := by
    have h1 : f64 (f64 (3 / 10) + f64 (1 / 10)) ≤ f64 (x + f64 (1 / 10)) := f64_mono (by linarith)
    have h2 : f64 (f64 (f64 (3 / 10) + f64 (1 / 10)) - 0) ≤ f64 (f64 (x + f64 (1 / 10)) - 0) := f64_mono (by linarith)
    have hp : 0 < f64 (1 / 10) := by decide +kernel
    have h3 : f64 (f64 (f64 (f64 (3 / 10) + f64 (1 / 10)) - 0) / f64 (1 / 10)) ≤ f64 (f64 (f64 (x + f64 (1 / 10)) - 0) / f64 (1 / 10)) :=
      f64_mono (div_le_div_of_nonneg_right h2 hp.le)
    have h4 : (3 : Rat) < f64 (f64 (f64 (f64 (3 / 10) + f64 (1 / 10)) - 0) / f64 (1 / 10)) := by decide +kernel
    have h5 : (3 : Int) < (f64 (f64 (f64 (x + f64 (1 / 10)) - 0) / f64 (1 / 10))).ceil := Rat.lt_ceil_iff.2 (by push_cast; linarith)
    simp only [gridAxisF, arangeF, List.length_map, List.length_range]
    omega
  have hun : evenlySpacedF (gridAxisF (f64 (1 / 10)) x) = false := by
    rw [Bool.eq_false_iff]
    intro he
    unfold evenlySpacedF at he
    rw [List.all_eq_true] at he
    have g : ∀ i : Nat, i < 4 → ∀ v, (if i = 0 then 0 else if i = 1 then f64 (0 + f64 (1 / 10)) else
        f64 (0 + f64 (i * f64 (f64 (0 + f64 (1 / 10)) - 0)))) = v → (gridAxisF (f64 (1 / 10)) x)[i]? = some v := by
      intro i hi v hv
      unfold gridAxisF arangeF
      simp only
      unfold gridAxisF arangeF at hlen
      simp only [List.length_map, List.length_range] at hlen
      rw [List.getElem?_map, List.getElem?_range (by omega)]
      simp only [Option.map_some, Option.some.injEq]
      exact hv
    have hm := he (f64 ((1351079888211149 / 4503599627370496 : Rat) - 3602879701896397 / 18014398509481984)) (by
      rw [List.mem_iff_getElem?]
      refine ⟨2, ?_⟩
      rw [List.getElem?_zipWith, List.getElem?_tail, g 2 (by norm_num) (3602879701896397 / 18014398509481984) (by decide +kernel),
        g 3 (by norm_num) (1351079888211149 / 4503599627370496) (by decide +kernel)])
    rw [List.getD_eq_getElem?_getD, List.getD_eq_getElem?_getD, g 0 (by norm_num) 0 (by decide +kernel),
      g 1 (by norm_num) (3602879701896397 / 36028797018963968) (by decide +kernel)] at hm
    revert hm
    decide +kernel
  unfold gridKernelErrorF kernelErrorF
  by_cases hd : dt ≤ 0
  · rw [if_pos hd]
  · rw [if_neg hd, if_neg (by omega), hun, if_pos (by rfl)]

/-- **C213** (violated: extent) A grid with a resolution of 0.1 km and an extent of 0.2 km has a column too many, beyond its end. -/
theorem c213_extent_violated : (gridAxisF (f64 (1 / 10)) (f64 (1 / 5))).length = 4 ∧
    (gridAxisF (f64 (1 / 10)) (f64 (1 / 5)))[2]? = some (f64 (1 / 5)) := by
  decide +kernel

/-- **C213** (violated: interval of integration) With an interval of 0.01 s there is no kernel for a lapse time of 16 s, although this is a multiple of the interval:
rounding adds a time after the lapse time. For 15 s there is one. -/
theorem c213_interval_violated :
    gridKernelErrorF (1 / 2) 1 1 16 (f64 (1 / 100)) 1 true = some .valueError ∧ gridKernelErrorF (1 / 2) 1 1 15 (f64 (1 / 100)) 1 true = none := by
  decide +kernel

end SeisMIC
