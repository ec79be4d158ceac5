import Verif.Props.Kernel
import Verif.Props.TimeUnit

/-!
# C216: sensitivity kernels, positions and units
-/

namespace SeisMIC

open Classical

noncomputable section

/-! ### Axes -/

theorem diffs_affine (a b : ℝ) (x : List ℝ) :
    List.zipWith (fun u v => v - u) (x.map fun t => a * t + b) (x.map fun t => a * t + b).tail =
      (List.zipWith (fun u v => v - u) x x.tail).map (a * ·) := by
  rw [← List.map_tail, List.zipWith_map, List.map_zipWith]
  congr 1
  funext u v
  ring

theorem evenlySpaced_affine {a : ℝ} (ha : a ≠ 0) (b : ℝ) (x : List ℝ) : evenlySpaced (x.map fun t => a * t + b) ↔ evenlySpaced x := by
  unfold evenlySpaced
  rw [diffs_affine]
  match x with
  | [] => simp
  | [u] => simp
  | u :: v :: l =>
    have h1 : ((u :: v :: l).map fun t => a * t + b).getD 1 0 - ((u :: v :: l).map fun t => a * t + b).getD 0 0 = a * (v - u) := by
      simp
      ring
    have h2 : (u :: v :: l).getD 1 0 - (u :: v :: l).getD 0 0 = v - u := by simp
    rw [h1, h2]
    constructor
    · intro h d hd
      exact mul_left_cancel₀ ha (h _ (List.mem_map_of_mem hd))
    · intro h d hd
      obtain ⟨e, he, rfl⟩ := List.mem_map.1 hd
      rw [h e he]

/-! ### Positions -/

theorem planeDist_moved (p q v : ℝ × ℝ) : planeDist (p + v) (q + v) = planeDist p q := by
  unfold planeDist
  simp

/-- **C216** (position) The kernel depends on the positions of stations and grid relative to each other only: it is the same wherever the origin of the coordinates
is. -/
theorem c216_moved (s1 s2 v : ℝ × ℝ) (x y : List ℝ) (t dt vel mf : ℝ) :
    sensitivityKernel (s1 + v) (s2 + v) (x.map (· + v.1)) (y.map (· + v.2)) t dt vel mf = sensitivityKernel s1 s2 x y t dt vel mf := by
  have he : ∀ (b : ℝ) (l : List ℝ), evenlySpaced (l.map (· + b)) ↔ evenlySpaced l := by
    intro b l
    have := evenlySpaced_affine one_ne_zero b l
    simpa only [one_mul] using this
  have hc : ∀ xx yy : ℝ, kernelCell (s1 + v) (s2 + v) (xx + v.1, yy + v.2) t dt vel mf (vel * dt / 2) = kernelCell s1 s2 (xx, yy) t dt vel mf (vel * dt / 2) := by
    intro xx yy
    have : ((xx + v.1, yy + v.2) : ℝ × ℝ) = (xx, yy) + v := rfl
    unfold kernelCell
    simp only [this, planeDist_moved]
  unfold sensitivityKernel
  simp only [List.length_map, he, planeDist_moved, List.mapM_map, List.map_map, Function.comp_def, hc]

theorem transposed_entry {α : Type} (x y : List ℝ) (f : ℝ → ℝ → α) (i j : Nat) :
    (((x.map fun yy => y.map fun xx => f xx yy)[i]?.bind (·[j]?)) : Option α) = (x[i]?.bind fun yy => y[j]?.map fun xx => f xx yy) := by
  rw [List.getElem?_map]
  cases x[i]? <;> simp

/-- **C216** (axes) Exchanging the two axes of the coordinate system exchanges rows and columns of the kernel, and nothing else. -/
theorem c216_axes {s1 s2 : ℝ × ℝ} {x y : List ℝ} {t dt vel mf : ℝ} (hi : KernelInput x y t dt vel mf)
    {K : List (List ℝ)} (hK : sensitivityKernel s1 s2 x y t dt vel mf = .ok K) :
    ∃ K', sensitivityKernel s1.swap s2.swap y x t dt vel mf = .ok K' ∧ ∀ i j : Nat, (K'[j]?.bind (·[i]?)) = (K[i]?.bind (·[j]?)) := by
  have hi' : KernelInput y x t dt vel mf := ⟨hi.dt_pos, hi.vel_pos, hi.mf_pos, hi.t_nonneg, hi.y_two, hi.x_two, hi.y_even, hi.x_even⟩
  have hd : ∀ p q : ℝ × ℝ, planeDist p.swap q.swap = planeDist p q := by
    intro p q
    unfold planeDist
    rw [Prod.fst_swap, Prod.snd_swap, Prod.fst_swap, Prod.snd_swap, add_comm]
  have ht : ∀ xx yy : ℝ, kernelTerms s1.swap s2.swap (yy, xx) t dt vel mf (vel * dt / 2) = kernelTerms s1 s2 (xx, yy) t dt vel mf (vel * dt / 2) := by
    intro xx yy
    have : ((yy, xx) : ℝ × ℝ) = (xx, yy).swap := rfl
    unfold kernelTerms
    simp only [this, hd]
  obtain ⟨rfl, hz⟩ := kernel_of_ok hi hK
  by_cases h0 : probValue (planeDist s1 s2) t vel mf (vel * dt / 2) = 0
  · refine ⟨_, by rw [kernel_unfold hi', if_pos (by rw [hd]; exact h0)], fun i j => ?_⟩
    simp only [h0, if_true]
    rw [transposed_entry x y (fun _ _ => (0 : ℝ)), transposed_entry y x (fun _ _ => (0 : ℝ))]
    cases x[j]? <;> cases y[i]? <;> rfl
  · refine ⟨_, kernel_value hi' (hz h0), fun i j => ?_⟩
    simp only [hd, ht]
    rw [transposed_entry x y, transposed_entry y x]
    cases x[j]? <;> cases y[i]? <;> rfl

/-! ### Unit of time -/

theorem probability_time {c : ℝ} (hc : 0 < c) (dist t vel mf atol : ℝ) : probability dist (c * t) (vel / c) mf atol = probability dist t vel mf atol := by
  have h1 : vel / c * (c * t) = vel * t := by field_simp
  have h2 : -(vel / c) * (c * t) = -vel * t := by field_simp
  have h3 : 2 * Real.pi * mf * (vel / c) * (c * t) = 2 * Real.pi * mf * vel * t := by field_simp
  have h4 : c * t < -atol / (vel / c) ↔ t < -atol / vel := by
    rw [div_div_eq_mul_div, mul_comm (-atol) c, mul_div_assoc]
    exact mul_lt_mul_iff_right₀ hc
  unfold probability probCoherent probCoda
  simp only [h1, h2, h3, h4]

theorem trapz_time (c dt : ℝ) : ∀ l : List ℝ, trapz (c * dt) l = c * trapz dt l
  | [] => by simp [trapz]
  | [_] => by simp [trapz]
  | a :: b :: l => by
    rw [trapz, trapz, trapz_time c dt (b :: l)]
    ring

theorem lapseTimes_time {c : ℝ} (hc : 0 < c) (t dt : ℝ) : lapseTimes (c * t) (c * dt) = (lapseTimes t dt).map (c * ·) := by
  unfold lapseTimes
  rw [← mul_add, mul_div_mul_left _ _ hc.ne', List.map_map]
  apply List.map_congr_left
  intro k _
  simp only [Function.comp]
  ring

theorem kernelCell_time {c : ℝ} (hc : 0 < c) (s1 s2 p : ℝ × ℝ) (t dt vel mf atol : ℝ) :
    kernelCell s1 s2 p (c * t) (c * dt) (vel / c) mf atol = (kernelCell s1 s2 p t dt vel mf atol).map (c * ·) := by
  unfold kernelCell
  rw [lapseTimes_time hc, List.mapM_map]
  simp only [Function.comp_def, ← mul_sub, probability_time hc]
  generalize ((lapseTimes t dt).mapM fun tt => do
    let a ← probability (planeDist p s1) tt vel mf atol
    let b ← probability (planeDist p s2) (t - tt) vel mf atol
    pure (a * b)) = r
  cases r with
  | error e => rfl
  | ok l => exact congrArg Except.ok (trapz_time c dt l)

/-- **C216** (time) In another unit of time (lapse time and sampling interval multiplied by `c`, the velocity divided by it), the kernel, which is a time per
area, is the same in this unit, and the same input is refused. -/
theorem c216_time {c : ℝ} (hc : 0 < c) (s1 s2 : ℝ × ℝ) (x y : List ℝ) (t dt vel mf : ℝ) :
    sensitivityKernel s1 s2 x y (c * t) (c * dt) (vel / c) mf = (sensitivityKernel s1 s2 x y t dt vel mf).map (List.map (List.map (c * ·))) := by
  have ha : vel / c * (c * dt) / 2 = vel * dt / 2 := by field_simp
  have hd : c * dt ≤ 0 ↔ dt ≤ 0 := by
    constructor
    · intro h
      by_contra h'
      have := mul_pos hc (not_le.1 h')
      linarith
    · intro h
      exact mul_nonpos_of_nonneg_of_nonpos hc.le h
  unfold sensitivityKernel
  simp only [ha, hd, probability_time hc, kernelCell_time hc]
  by_cases h1 : dt ≤ 0
  · simp only [h1, if_true]; rfl
  by_cases h2 : x.length < 2
  · simp only [h1, h2, if_true, if_false]; rfl
  by_cases h3 : evenlySpaced x
  swap
  · simp only [h1, h2, h3, if_true, if_false, not_false_eq_true]; rfl
  by_cases h4 : y.length < 2
  · simp only [h1, h2, h3, h4, if_true, if_false, not_true_eq_false]; rfl
  by_cases h5 : evenlySpaced y
  swap
  · simp only [h1, h2, h3, h4, h5, if_true, if_false, not_true_eq_false, not_false_eq_true]; rfl
  simp only [h1, h2, h3, h4, h5, if_false, not_true_eq_false]
  cases probability (planeDist s1 s2) t vel mf (vel * dt / 2) with
  | error e => rfl
  | ok d =>
    show (if d = 0 then (Except.ok _ : Except PyErr _) else _) = Except.map _ (if d = 0 then (Except.ok _ : Except PyErr _) else _)
    by_cases hz : d = 0
    · rw [if_pos hz, if_pos hz]
      simp [Except.map]
    · rw [if_neg hz, if_neg hz, ← mapM_except_map]
      congr 1
      funext yy
      rw [← mapM_except_map]
      congr 1
      funext xx
      cases kernelCell s1 s2 (xx, yy) t dt vel mf (vel * dt / 2) with
      | error e => rfl
      | ok n => exact congrArg Except.ok (mul_div_assoc c n d)

/-! ### Unit of length -/

theorem isClose_length {k : ℝ} (hk : 0 < k) (a b atol : ℝ) : isClose (k * a) (k * b) (k * atol) ↔ isClose a b atol := by
  unfold isClose
  rw [← mul_sub, abs_mul, abs_mul, abs_of_pos hk]
  have : k * atol + 1 / 100000 * (k * |b|) = k * (atol + 1 / 100000 * |b|) := by ring
  rw [this]
  exact mul_le_mul_iff_right₀ hk

theorem probCoherent_length {k : ℝ} (hk : 0 < k) {dist : ℝ} (hd : dist ≠ 0) (t vel mf atol : ℝ) :
    probCoherent (k * dist) t (k * vel) (k * mf) (k * atol) = probCoherent dist t vel mf atol / k := by
  have h1 : -(k * vel) * t / (k * mf) = -vel * t / mf := by
    rw [show -(k * vel) * t = k * (-vel * t) by ring, mul_div_mul_left _ _ hk.ne']
  have h2 : k * dist ≠ 0 := mul_ne_zero hk.ne' hd
  unfold probCoherent
  rw [h1, if_neg h2, if_neg hd, mul_assoc k vel t, isClose_length hk]
  have : 2 * Real.pi * (k * dist) = 2 * Real.pi * dist * k := by ring
  rw [this, ← div_div]
  ring

theorem probCoda_length {k : ℝ} (hk : 0 < k) (dist t vel mf atol : ℝ) :
    probCoda (k * dist) t (k * vel) (k * mf) (k * atol) = probCoda dist t vel mf atol / k ^ 2 := by
  have h1 : (k * dist) ^ 2 / (k * (vel * t)) ^ 2 = dist ^ 2 / (vel * t) ^ 2 := by
    rw [mul_pow, mul_pow, mul_div_mul_left _ _ (pow_ne_zero 2 hk.ne')]
  have h2 : Real.sqrt ((k * (vel * t)) ^ 2 - (k * dist) ^ 2) = k * Real.sqrt ((vel * t) ^ 2 - dist ^ 2) := by
    rw [mul_pow k (vel * t), mul_pow k dist, ← mul_sub, Real.sqrt_mul (sq_nonneg k), Real.sqrt_sq hk.le]
  have h3 : k * (vel * t) - k * dist - k * atol > 0 ↔ vel * t - dist - atol > 0 := by
    rw [show k * (vel * t) - k * dist - k * atol = k * (vel * t - dist - atol) by ring]
    exact mul_pos_iff_of_pos_left hk
  have h4 : (k * Real.sqrt ((vel * t) ^ 2 - dist ^ 2) - k * (vel * t)) / (k * mf) = (Real.sqrt ((vel * t) ^ 2 - dist ^ 2) - vel * t) / mf := by
    rw [← mul_sub, mul_div_mul_left _ _ hk.ne']
  unfold probCoda
  simp only [mul_assoc k vel t, h1, h2, h3, h4]
  have : 2 * Real.pi * (k * mf) * (k * vel) * t * Real.sqrt (1 - dist ^ 2 / (vel * t) ^ 2) =
      2 * Real.pi * mf * vel * t * Real.sqrt (1 - dist ^ 2 / (vel * t) ^ 2) * k ^ 2 := by ring
  rw [this, ← div_div]
  ring

theorem planeDist_length {k : ℝ} (hk : 0 < k) (p q : ℝ × ℝ) : planeDist (k * p.1, k * p.2) (k * q.1, k * q.2) = k * planeDist p q := by
  unfold planeDist
  simp only [← mul_sub, mul_pow, ← mul_add]
  rw [Real.sqrt_mul (sq_nonneg k), Real.sqrt_sq hk.le]

/-- intensities in two units of length vanish together -/
theorem probValue_length_zero {k dist t vel mf atol : ℝ} (hk : 0 < k) (hd : 0 ≤ dist) (hv : 0 < vel) (hm : 0 < mf) (ha : 0 ≤ atol) :
    probValue (k * dist) t (k * vel) (k * mf) (k * atol) = 0 ↔ probValue dist t vel mf atol = 0 := by
  have n1 := probCoherent_nonneg (t := t) (vel := vel) (mf := mf) (atol := atol) hd
  have n2 := probCoda_nonneg (t := t) hd hv hm ha
  have n3 := probCoherent_nonneg (t := t) (vel := k * vel) (mf := k * mf) (atol := k * atol) (mul_nonneg hk.le hd)
  have n4 := probCoda_nonneg (t := t) (mul_nonneg hk.le hd) (mul_pos hk hv) (mul_pos hk hm) (mul_nonneg hk.le ha)
  have e1 : probCoherent (k * dist) t (k * vel) (k * mf) (k * atol) = 0 ↔ probCoherent dist t vel mf atol = 0 := by
    by_cases h0 : dist = 0
    · subst h0
      unfold probCoherent
      have hi : isClose 0 (k * vel * t) (k * atol) ↔ isClose 0 (vel * t) atol := by
        have := isClose_length hk 0 (vel * t) atol
        rwa [mul_zero, ← mul_assoc] at this
      simp only [mul_zero, if_true, hi]
    · rw [probCoherent_length hk h0, div_eq_zero_iff]
      simp [hk.ne']
  have e2 : probCoda (k * dist) t (k * vel) (k * mf) (k * atol) = 0 ↔ probCoda dist t vel mf atol = 0 := by
    rw [probCoda_length hk, div_eq_zero_iff]
    simp [hk.ne']
  unfold probValue
  rw [add_eq_zero_iff_of_nonneg n3 n4, add_eq_zero_iff_of_nonneg n1 n2, e1, e2]

theorem trapz_eq_zero {dt : ℝ} (hd : 0 < dt) : ∀ l : List ℝ, (∀ a ∈ l, 0 ≤ a) → 2 ≤ l.length → (trapz dt l = 0 ↔ ∀ a ∈ l, a = 0)
  | [], _, h => by simp at h
  | [_], _, h => by simp at h
  | [a, b], hn, _ => by
    have ha := hn a (by simp)
    have hb := hn b (by simp)
    constructor
    · intro h
      have h0 : trapz dt [b] = 0 := rfl
      rw [trapz, h0] at h
      have h' : a + b = 0 := by
        by_contra hne
        have : 0 < a + b := lt_of_le_of_ne (by positivity) (Ne.symm hne)
        have : 0 < dt * (a + b) / 2 := by positivity
        linarith
      intro c hc
      simp at hc
      rcases hc with rfl | rfl <;> linarith
    · exact trapz_zero _
  | a :: b :: c :: l, hn, _ => by
    have ha := hn a (by simp)
    have hb := hn b (by simp)
    have hn' : ∀ d ∈ b :: c :: l, 0 ≤ d := fun d hd => hn d (List.mem_cons_of_mem _ hd)
    have ih := trapz_eq_zero hd (b :: c :: l) hn' (by simp)
    have hp := trapz_nonneg hd.le _ hn'
    constructor
    · intro h
      rw [trapz] at h
      have hq : 0 ≤ dt * (a + b) / 2 := by positivity
      have h1 : trapz dt (b :: c :: l) = 0 := by linarith
      have hall := ih.1 h1
      intro d hd'
      rcases List.mem_cons.1 hd' with rfl | hd'
      · have hb0 := hall b (by simp)
        have : dt * (d + b) / 2 = 0 := by linarith
        rw [hb0] at this
        have hd0 : dt * d = 0 := by linarith
        rcases mul_eq_zero.1 hd0 with h | h
        · exact absurd h hd.ne'
        · exact h
      · exact hall d hd'
    · exact trapz_zero _

/-- a call in another unit of length -/
theorem kernelInput_length {k : ℝ} (hk : 0 < k) {x y : List ℝ} {t dt vel mf : ℝ} (hi : KernelInput x y t dt vel mf) :
    KernelInput (x.map (k * ·)) (y.map (k * ·)) t dt (k * vel) (k * mf) := by
  have he : ∀ l : List ℝ, evenlySpaced (l.map (k * ·)) ↔ evenlySpaced l := by
    intro l
    have := evenlySpaced_affine hk.ne' 0 l
    simpa only [add_zero] using this
  exact ⟨hi.dt_pos, mul_pos hk hi.vel_pos, mul_pos hk hi.mf_pos, hi.t_nonneg, by simpa using hi.x_two, by simpa using hi.y_two, (he x).2 hi.x_even,
    (he y).2 hi.y_even⟩

/-- **C216** (length), partial: in another unit of length (positions, velocity and mean free path multiplied by `k`), the same input is accepted, and the kernel is
positive at the same grid points. Missing for the full property: the values, which should be those of the first unit divided by `k ^ 2`, see
`c216_length_violated`. -/
theorem c216_length_partial {k : ℝ} (hk : 0 < k) {s1 s2 : ℝ × ℝ} {x y : List ℝ} {t dt vel mf : ℝ} (hi : KernelInput x y t dt vel mf)
    {K : List (List ℝ)} (hK : sensitivityKernel s1 s2 x y t dt vel mf = .ok K) :
    ∃ K', sensitivityKernel (k * s1.1, k * s1.2) (k * s2.1, k * s2.2) (x.map (k * ·)) (y.map (k * ·)) t dt (k * vel) (k * mf) = .ok K' ∧
      ∀ i j : Nat, (K'[i]?.bind (·[j]?)).map (fun v => decide (0 < v)) = (K[i]?.bind (·[j]?)).map (fun v => decide (0 < v)) := by
  have hi' := kernelInput_length hk hi
  have hat : k * vel * dt / 2 = k * (vel * dt / 2) := by ring
  have ha : 0 ≤ vel * dt / 2 := by have := hi.vel_pos; have := hi.dt_pos; positivity
  have hpz : ∀ p q : ℝ × ℝ, ∀ tt, probValue (planeDist (k * p.1, k * p.2) (k * q.1, k * q.2)) tt (k * vel) (k * mf) (k * vel * dt / 2) = 0 ↔
      probValue (planeDist p q) tt vel mf (vel * dt / 2) = 0 := by
    intro p q tt
    rw [hat, planeDist_length hk]
    exact probValue_length_zero hk (planeDist_nonneg _ _) hi.vel_pos hi.mf_pos ha
  have hn : ∀ {v m a : ℝ}, 0 < v → 0 < m → 0 ≤ a → ∀ p q : ℝ × ℝ, ∀ tt, 0 ≤ probValue (planeDist p q) tt v m a :=
    fun hv hm ha p q tt => probValue_nonneg (planeDist_nonneg _ _) hv hm ha
  obtain ⟨rfl, hz⟩ := kernel_of_ok hi hK
  have ha' : 0 ≤ k * vel * dt / 2 := by rw [hat]; exact mul_nonneg hk.le ha
  have hlen : ∀ p : ℝ × ℝ, (trapz dt (kernelTerms (k * s1.1, k * s1.2) (k * s2.1, k * s2.2) (k * p.1, k * p.2) t dt (k * vel) (k * mf) (k * vel * dt / 2)) = 0 ↔
      trapz dt (kernelTerms s1 s2 p t dt vel mf (vel * dt / 2)) = 0) := by
    intro p
    by_cases h2 : 2 ≤ (lapseTimes t dt).length
    · rw [trapz_eq_zero hi.dt_pos, trapz_eq_zero hi.dt_pos]
      · simp only [kernelTerms, List.mem_map, forall_exists_index, and_imp, forall_apply_eq_imp_iff₂, mul_eq_zero, hpz]
      · intro a h
        obtain ⟨tt, _, rfl⟩ := List.mem_map.1 h
        exact mul_nonneg (hn hi.vel_pos hi.mf_pos ha _ _ _) (hn hi.vel_pos hi.mf_pos ha _ _ _)
      · simpa [kernelTerms] using h2
      · intro a h
        obtain ⟨tt, _, rfl⟩ := List.mem_map.1 h
        exact mul_nonneg (hn hi'.vel_pos hi'.mf_pos ha' _ _ _) (hn hi'.vel_pos hi'.mf_pos ha' _ _ _)
      · simpa [kernelTerms] using h2
    · have : ∀ l : List ℝ, ¬ 2 ≤ l.length → trapz dt l = 0 := by
        intro l hl
        match l with
        | [] => rfl
        | [_] => rfl
        | _ :: _ :: _ => simp at hl
      rw [this _ (by simpa [kernelTerms] using h2), this _ (by simpa [kernelTerms] using h2)]
  have hnn : ∀ {v m a : ℝ}, 0 < v → 0 < m → 0 ≤ a → ∀ p q r : ℝ × ℝ, 0 ≤ trapz dt (kernelTerms p q r t dt v m a) := by
    intro v m a hv hm ha p q r
    refine trapz_nonneg hi.dt_pos.le _ ?_
    intro b h
    obtain ⟨tt, _, rfl⟩ := List.mem_map.1 h
    exact mul_nonneg (hn hv hm ha _ _ _) (hn hv hm ha _ _ _)
  by_cases h0 : probValue (planeDist s1 s2) t vel mf (vel * dt / 2) = 0
  · refine ⟨_, by rw [kernel_unfold hi', if_pos ((hpz s1 s2 t).2 h0)], fun i j => ?_⟩
    simp only [h0, if_true, List.map_map, Function.comp_def]
  · have h0' : ¬ probValue (planeDist (k * s1.1, k * s1.2) (k * s2.1, k * s2.2)) t (k * vel) (k * mf) (k * vel * dt / 2) = 0 :=
      fun h => h0 ((hpz s1 s2 t).1 h)
    have hd : 0 < probValue (planeDist s1 s2) t vel mf (vel * dt / 2) := lt_of_le_of_ne (hn hi.vel_pos hi.mf_pos ha _ _ _) (Ne.symm h0)
    have hd' : 0 < probValue (planeDist (k * s1.1, k * s1.2) (k * s2.1, k * s2.2)) t (k * vel) (k * mf) (k * vel * dt / 2) :=
      lt_of_le_of_ne (hn hi'.vel_pos hi'.mf_pos ha' _ _ _) (Ne.symm h0')
    refine ⟨_, kernel_value hi' (hz h0), fun i j => ?_⟩
    simp only [h0, h0', if_false, List.map_map, Function.comp_def]
    rw [List.getElem?_map, List.getElem?_map]
    cases y[i]? with
    | none => rfl
    | some yy =>
      simp only [Option.map_some, Option.bind_some]
      rw [List.getElem?_map, List.getElem?_map]
      cases x[j]? with
      | none => rfl
      | some xx =>
        simp only [Option.map_some, Option.some.injEq, decide_eq_decide]
        rw [div_pos_iff_of_pos_right hd, div_pos_iff_of_pos_right hd']
        have e := hlen (xx, yy)
        have n1 := hnn hi.vel_pos hi.mf_pos ha s1 s2 (xx, yy)
        have n2 := hnn hi'.vel_pos hi'.mf_pos ha' (k * s1.1, k * s1.2) (k * s2.1, k * s2.2) (k * xx, k * yy)
        rw [n1.lt_iff_ne', n2.lt_iff_ne']
        exact not_congr e

theorem coherent_off {dist t vel mf atol : ℝ} (h : atol + 1 / 100000 * |vel * t| < |dist - vel * t|) : probCoherent dist t vel mf atol = 0 := by
  unfold probCoherent
  rw [if_neg (show ¬ isClose dist (vel * t) atol from not_le.2 h), mul_zero]

theorem coherent_on {dist t vel mf atol : ℝ} (hd : 0 < dist) (h : |dist - vel * t| ≤ atol + 1 / 100000 * |vel * t|) : 0 < probCoherent dist t vel mf atol := by
  unfold probCoherent
  rw [if_pos (show isClose dist (vel * t) atol from h), if_neg hd.ne', mul_one]
  positivity

theorem coda_off {dist t vel mf atol : ℝ} (h : vel * t - dist - atol ≤ 0) : probCoda dist t vel mf atol = 0 := by
  unfold probCoda
  simp only [if_neg (not_lt.2 h), mul_zero]

theorem coda_on {dist t vel mf atol : ℝ} (hd : 0 ≤ dist) (hv : 0 < vel) (hm : 0 < mf) (ht : 0 < t) (ha : 0 ≤ atol) (h : vel * t - dist - atol > 0) :
    0 < probCoda dist t vel mf atol := by
  unfold probCoda
  simp only [if_pos h, mul_one]
  have h1 : dist < vel * t := by linarith
  have h2 : dist ^ 2 / (vel * t) ^ 2 < 1 := by
    rw [div_lt_one (by positivity)]
    exact pow_lt_pow_left₀ h1 hd (by norm_num)
  have h3 : 0 < Real.sqrt (1 - dist ^ 2 / (vel * t) ^ 2) := Real.sqrt_pos.2 (by linarith)
  positivity

theorem probValue_length {k : ℝ} (hk : 0 < k) {dist : ℝ} (hd : dist ≠ 0) (t vel mf atol : ℝ) :
    probValue (k * dist) t (k * vel) (k * mf) (k * atol) = probCoherent dist t vel mf atol / k + probCoda dist t vel mf atol / k ^ 2 := by
  unfold probValue
  rw [probCoherent_length hk hd, probCoda_length hk]

/-- **C216** (length), violated: in metres instead of kilometres, the kernel has another shape. The arriving front is not spread over its width, so its intensity
is one per length, while that of the scattered waves is one per area. Stations at (0, 0) and (1, 0), 2 s after the excitation, `dt` of 1 s, for which there
is no warning on a grid with a spacing of 2. -/
theorem c216_length_violated : ∃ (k : ℝ) (s1 s2 : ℝ × ℝ) (x y : List ℝ) (t dt vel mf a b a' b' : ℝ) (r1 r2 r1' r2' : List ℝ), 0 < k ∧ KernelInput x y t dt vel mf ∧
    2 * vel * dt ≤ x.getD 1 0 - x.getD 0 0 ∧
    sensitivityKernel s1 s2 x y t dt vel mf = .ok [a :: r1, b :: r2] ∧
    sensitivityKernel (k * s1.1, k * s1.2) (k * s2.1, k * s2.2) (x.map (k * ·)) (y.map (k * ·)) t dt (k * vel) (k * mf) = .ok [a' :: r1', b' :: r2'] ∧
    0 < a ∧ 0 < b ∧ 0 < a' ∧ 0 < b' ∧ a' / b' ≠ a / b := by
  have hi : KernelInput [1 / 4, 9 / 4] [0, 1] 2 1 1 10 := by
    refine ⟨by norm_num, by norm_num, by norm_num, by norm_num, by simp, by simp, ?_, ?_⟩
    · intro d hd
      simp at hd
      rw [hd]
      norm_num
    · intro d hd
      simp at hd
      rw [hd]
      norm_num
  have hk : (0 : ℝ) < 1000 := by norm_num
  have hc : (⌈(2 : ℝ) / 1⌉ : ℝ) * 1 - 2 ≤ 1 / 2 := by
    have : ⌈(2 : ℝ) / 1⌉ = 2 := by
      rw [div_one]
      exact Int.ceil_ofNat 2
    rw [this]
    norm_num
  have hl : lapseTimes 2 1 = [0, 1, 2] := by
    unfold lapseTimes
    have : ⌈((2 : ℝ) + 1) / 1⌉.toNat = 3 := by
      rw [div_one, show (2 : ℝ) + 1 = ((3 : ℤ) : ℝ) by norm_num, Int.ceil_intCast]
      rfl
    rw [this]
    simp [List.range_succ]
  have d0 : planeDist (0, 0) (1, 0) = 1 := by unfold planeDist; norm_num
  have d1 : planeDist (1 / 4, 0) (0, 0) = 1 / 4 := by
    unfold planeDist
    rw [show ((1 / 4 : ℝ) - 0) ^ 2 + (0 - 0) ^ 2 = (1 / 4) ^ 2 by norm_num]
    exact Real.sqrt_sq (by norm_num)
  have d2 : planeDist (1 / 4, 0) (1, 0) = 3 / 4 := by
    unfold planeDist
    rw [show ((1 / 4 : ℝ) - 1) ^ 2 + (0 - 0) ^ 2 = (3 / 4) ^ 2 by norm_num]
    exact Real.sqrt_sq (by norm_num)
  have d4 : planeDist (1 / 4, 1) (1, 0) = 5 / 4 := by
    unfold planeDist
    rw [show ((1 / 4 : ℝ) - 1) ^ 2 + (1 - 0) ^ 2 = (5 / 4) ^ 2 by norm_num]
    exact Real.sqrt_sq (by norm_num)
  obtain ⟨r, hr⟩ : ∃ r, r = planeDist (1 / 4, 1) (0, 0) := ⟨_, rfl⟩
  have hr1 : 1 ≤ r := by
    rw [hr]
    unfold planeDist
    exact Real.le_sqrt_of_sq_le (by norm_num)
  have hr2 : r ≤ 5 / 4 := by
    rw [hr]
    unfold planeDist
    rw [Real.sqrt_le_left (by norm_num)]
    norm_num
  have hr0 : r ≠ 0 := by linarith
  have sc : ∀ p q : ℝ × ℝ, planeDist (1000 * p.1, 1000 * p.2) (1000 * q.1, 1000 * q.2) = 1000 * planeDist p q := planeDist_length hk
  have e0 := sc (0, 0) (1, 0)
  have e1 := sc (1 / 4, 0) (0, 0)
  have e2 := sc (1 / 4, 0) (1, 0)
  have e3 := sc (1 / 4, 1) (0, 0)
  have e4 := sc (1 / 4, 1) (1, 0)
  rw [d0] at e0
  rw [d1] at e1
  rw [d2] at e2
  rw [← hr] at e3
  rw [d4] at e4
  -- what vanishes
  have C02 : probCoherent 1 2 1 10 (1 * 1 / 2) = 0 := coherent_off (by norm_num [abs_of_nonneg, abs_of_neg])
  have D10 : probCoda (1 / 4) 0 1 10 (1 * 1 / 2) = 0 := coda_off (by norm_num)
  have C11 : probCoherent (1 / 4) 1 1 10 (1 * 1 / 2) = 0 := coherent_off (by norm_num [abs_of_nonneg, abs_of_neg])
  have C22 : probCoherent (3 / 4) 2 1 10 (1 * 1 / 2) = 0 := coherent_off (by norm_num [abs_of_nonneg, abs_of_neg])
  have D21 : probCoda (3 / 4) 1 1 10 (1 * 1 / 2) = 0 := coda_off (by norm_num)
  have C20 : probCoherent (3 / 4) 0 1 10 (1 * 1 / 2) = 0 := coherent_off (by norm_num [abs_of_nonneg])
  have D20 : probCoda (3 / 4) 0 1 10 (1 * 1 / 2) = 0 := coda_off (by norm_num)
  have C30 : probCoherent r 0 1 10 (1 * 1 / 2) = 0 := coherent_off (by
    rw [mul_zero, sub_zero, abs_of_pos (by linarith : (0 : ℝ) < r)]
    norm_num
    linarith)
  have D30 : probCoda r 0 1 10 (1 * 1 / 2) = 0 := coda_off (by linarith)
  have D31 : probCoda r 1 1 10 (1 * 1 / 2) = 0 := coda_off (by linarith)
  have D41 : probCoda (5 / 4) 1 1 10 (1 * 1 / 2) = 0 := coda_off (by norm_num)
  have C40 : probCoherent (5 / 4) 0 1 10 (1 * 1 / 2) = 0 := coherent_off (by norm_num [abs_of_nonneg])
  have D40 : probCoda (5 / 4) 0 1 10 (1 * 1 / 2) = 0 := coda_off (by norm_num)
  -- what does not
  have D02 : 0 < probCoda 1 2 1 10 (1 * 1 / 2) := coda_on (by norm_num) (by norm_num) (by norm_num) (by norm_num) (by norm_num) (by norm_num)
  have C10 : 0 < probCoherent (1 / 4) 0 1 10 (1 * 1 / 2) := coherent_on (by norm_num) (by norm_num [abs_of_nonneg])
  have D22 : 0 < probCoda (3 / 4) 2 1 10 (1 * 1 / 2) := coda_on (by norm_num) (by norm_num) (by norm_num) (by norm_num) (by norm_num) (by norm_num)
  have D11 : 0 < probCoda (1 / 4) 1 1 10 (1 * 1 / 2) := coda_on (by norm_num) (by norm_num) (by norm_num) (by norm_num) (by norm_num) (by norm_num)
  have C21 : 0 < probCoherent (3 / 4) 1 1 10 (1 * 1 / 2) := coherent_on (by norm_num) (by norm_num [abs_of_nonneg, abs_of_neg])
  have C31 : 0 < probCoherent r 1 1 10 (1 * 1 / 2) := coherent_on (by linarith) (by
    rw [mul_one, abs_of_nonneg (by linarith), abs_one]
    linarith)
  have C41 : 0 < probCoherent (5 / 4) 1 1 10 (1 * 1 / 2) := coherent_on (by norm_num) (by norm_num [abs_of_nonneg])
  have hat : (1000 : ℝ) * 1 * 1 / 2 = 1000 * (1 * 1 / 2) := by ring
  have s1 : (2 : ℝ) - 0 = 2 := by norm_num
  have s2 : (2 : ℝ) - 1 = 1 := by norm_num
  have s3 : (2 : ℝ) - 2 = 0 := by norm_num
  have q0 : (1 / 4 : ℝ) ≠ 0 := by norm_num
  have q1 : (3 / 4 : ℝ) ≠ 0 := by norm_num
  have q2 : (5 / 4 : ℝ) ≠ 0 := by norm_num
  have P0 : probValue (planeDist (0, 0) (1, 0)) 2 1 10 (1 * 1 / 2) = probCoda 1 2 1 10 (1 * 1 / 2) := by
    rw [d0]
    unfold probValue
    rw [C02, zero_add]
  have P0' : probValue (planeDist (1000 * 0, 1000 * 0) (1000 * 1, 1000 * 0)) 2 (1000 * 1) (1000 * 10) (1000 * 1 * 1 / 2) =
      probCoda 1 2 1 10 (1 * 1 / 2) / 1000 ^ 2 := by
    rw [hat, e0, probValue_length hk one_ne_zero, C02, zero_div, zero_add]
  have A : trapz 1 (kernelTerms (0, 0) (1, 0) (1 / 4, 0) 2 1 1 10 (1 * 1 / 2)) =
      probCoherent (1 / 4) 0 1 10 (1 * 1 / 2) * probCoda (3 / 4) 2 1 10 (1 * 1 / 2) / 2 +
        probCoda (1 / 4) 1 1 10 (1 * 1 / 2) * probCoherent (3 / 4) 1 1 10 (1 * 1 / 2) := by
    unfold kernelTerms
    rw [hl, d1, d2]
    simp only [List.map_cons, List.map_nil, trapz, s1, s2, s3, probValue, D10, C11, C22, D21, C20, D20]
    ring
  have A' : trapz 1 (kernelTerms (1000 * 0, 1000 * 0) (1000 * 1, 1000 * 0) (1000 * (1 / 4), 1000 * 0) 2 1 (1000 * 1) (1000 * 10) (1000 * 1 * 1 / 2)) =
      (probCoherent (1 / 4) 0 1 10 (1 * 1 / 2) * probCoda (3 / 4) 2 1 10 (1 * 1 / 2) / 2 +
        probCoda (1 / 4) 1 1 10 (1 * 1 / 2) * probCoherent (3 / 4) 1 1 10 (1 * 1 / 2)) / 1000 ^ 3 := by
    unfold kernelTerms
    rw [hl, e1, e2, hat]
    simp only [List.map_cons, List.map_nil, trapz, s1, s2, s3, probValue_length hk q0, probValue_length hk q1, D10, C11, C22, D21, C20, D20]
    ring
  have B : trapz 1 (kernelTerms (0, 0) (1, 0) (1 / 4, 1) 2 1 1 10 (1 * 1 / 2)) =
      probCoherent r 1 1 10 (1 * 1 / 2) * probCoherent (5 / 4) 1 1 10 (1 * 1 / 2) := by
    unfold kernelTerms
    rw [hl, ← hr, d4]
    simp only [List.map_cons, List.map_nil, trapz, s1, s2, s3, probValue, C30, D30, D31, D41, C40, D40]
    ring
  have B' : trapz 1 (kernelTerms (1000 * 0, 1000 * 0) (1000 * 1, 1000 * 0) (1000 * (1 / 4), 1000 * 1) 2 1 (1000 * 1) (1000 * 10) (1000 * 1 * 1 / 2)) =
      (probCoherent r 1 1 10 (1 * 1 / 2) * probCoherent (5 / 4) 1 1 10 (1 * 1 / 2)) / 1000 ^ 2 := by
    unfold kernelTerms
    rw [hl, e3, e4, hat]
    simp only [List.map_cons, List.map_nil, trapz, s1, s2, s3, probValue_length hk hr0, probValue_length hk q2, C30, D30, D31, D41, C40, D40]
    ring
  have v := kernel_value (s1 := (0, 0)) (s2 := (1, 0)) hi hc
  have v' := kernel_value (s1 := (1000 * 0, 1000 * 0)) (s2 := (1000 * 1, 1000 * 0)) (kernelInput_length hk hi) hc
  simp only [List.map_cons, List.map_nil] at v v'
  refine ⟨1000, (0, 0), (1, 0), [1 / 4, 9 / 4], [0, 1], 2, 1, 1, 10, _, _, _, _, _, _, _, _, hk, hi, by norm_num, v, v', ?_⟩
  rw [P0, P0', if_neg D02.ne', if_neg D02.ne', if_neg (by positivity), if_neg (by positivity), A, A', B, B']
  generalize probCoda 1 2 1 10 (1 * 1 / 2) = D at *
  have hA : 0 < probCoherent (1 / 4) 0 1 10 (1 * 1 / 2) * probCoda (3 / 4) 2 1 10 (1 * 1 / 2) / 2 +
      probCoda (1 / 4) 1 1 10 (1 * 1 / 2) * probCoherent (3 / 4) 1 1 10 (1 * 1 / 2) := by positivity
  have hB : 0 < probCoherent r 1 1 10 (1 * 1 / 2) * probCoherent (5 / 4) 1 1 10 (1 * 1 / 2) := by positivity
  generalize probCoherent (1 / 4) 0 1 10 (1 * 1 / 2) * probCoda (3 / 4) 2 1 10 (1 * 1 / 2) / 2 +
      probCoda (1 / 4) 1 1 10 (1 * 1 / 2) * probCoherent (3 / 4) 1 1 10 (1 * 1 / 2) = a at *
  generalize probCoherent r 1 1 10 (1 * 1 / 2) * probCoherent (5 / 4) 1 1 10 (1 * 1 / 2) = b at *
  refine ⟨by positivity, by positivity, by positivity, by positivity, ?_⟩
  have f1 : a / 1000 ^ 3 / (D / 1000 ^ 2) / (b / 1000 ^ 2 / (D / 1000 ^ 2)) = a / b / 1000 := by
    field_simp
    try norm_num
  have f2 : a / D / (b / D) = a / b := by field_simp
  rw [f1, f2]
  have : 0 < a / b := by positivity
  intro h
  linarith

/-- the hypotheses are met by the grid of `kernel_example_input` -/
example : KernelInput [0, 1, 2] [0, 1] 4 (1 / 4) 1 10 := kernel_example_input 4 (1 / 4) (by norm_num) (by norm_num)

end

end SeisMIC
