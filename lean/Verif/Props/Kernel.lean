import Verif.Model.Kernel
import Verif.Lemmas.ListAux
import Verif.Props.Spatial
import Mathlib.Tactic.Linarith
import Mathlib.Tactic.Positivity
import Mathlib.Tactic.FieldSimp
import Mathlib.Tactic.NormNum

/-!
# C95, C96: sensitivity kernels
-/

namespace SeisMIC

noncomputable section

/-- sum of both parts -/
def probValue (dist t vel mf atol : ℝ) : ℝ := probCoherent dist t vel mf atol + probCoda dist t vel mf atol

theorem probability_ok {dist t vel mf atol : ℝ} (hd : 0 ≤ dist) (ht : -atol / vel ≤ t) :
    probability dist t vel mf atol = .ok (probValue dist t vel mf atol) := by
  unfold probability
  rw [if_neg (not_lt.2 hd), if_neg (not_lt.2 ht)]; rfl

theorem probability_error {dist t vel mf atol : ℝ} (ht : t < -atol / vel) :
    probability dist t vel mf atol = .error .valueError := by
  unfold probability
  by_cases hd : dist < 0
  · rw [if_pos hd]
  · rw [if_neg hd, if_pos ht]

theorem probCoherent_nonneg {dist t vel mf atol : ℝ} (hd : 0 ≤ dist) : 0 ≤ probCoherent dist t vel mf atol := by
  unfold probCoherent
  refine mul_nonneg ?_ (by split <;> norm_num)
  split
  · norm_num
  · positivity

theorem probCoda_nonneg {dist t vel mf atol : ℝ} (hd : 0 ≤ dist) (hv : 0 < vel) (hm : 0 < mf) (ha : 0 ≤ atol) :
    0 ≤ probCoda dist t vel mf atol := by
  unfold probCoda
  simp only
  split
  · rename_i h
    have ht : 0 < t := by
      have : 0 < vel * t := by linarith
      exact (pos_iff_pos_of_mul_pos this).1 hv
    positivity
  · simp

theorem probValue_nonneg {dist t vel mf atol : ℝ} (hd : 0 ≤ dist) (hv : 0 < vel) (hm : 0 < mf) (ha : 0 ≤ atol) :
    0 ≤ probValue dist t vel mf atol := add_nonneg (probCoherent_nonneg hd) (probCoda_nonneg hd hv hm ha)

/-- nothing arrives at points farther than the wave has travelled -/
theorem probValue_far {dist t vel mf atol : ℝ} (ha : 0 ≤ atol) (h : vel * t + atol + 1 / 100000 * |vel * t| < dist) :
    probValue dist t vel mf atol = 0 := by
  have h1 : ¬ isClose dist (vel * t) atol := by
    unfold isClose
    have := le_abs_self (dist - vel * t)
    intro hc; linarith
  have h2 : ¬ vel * t - dist - atol > 0 := by
    have := abs_nonneg (vel * t)
    intro hc; linarith
  simp [probValue, probCoherent, probCoda, h1, h2]

/-- the diffuse part is positive well behind the front -/
theorem probValue_pos {dist t vel mf atol : ℝ} (hd : 0 ≤ dist) (hv : 0 < vel) (hm : 0 < mf) (ha : 0 ≤ atol)
    (h : dist + atol < vel * t) : 0 < probValue dist t vel mf atol := by
  refine add_pos_of_nonneg_of_pos (probCoherent_nonneg hd) ?_
  unfold probCoda
  simp only
  have h0 : 0 < vel * t := by linarith
  have ht : 0 < t := (pos_iff_pos_of_mul_pos h0).1 hv
  rw [if_pos (by linarith)]
  have hq : dist ^ 2 / (vel * t) ^ 2 < 1 := by
    rw [div_lt_one (by positivity)]
    exact pow_lt_pow_left₀ (by linarith) hd (by norm_num)
  have hs : 0 < Real.sqrt (1 - dist ^ 2 / (vel * t) ^ 2) := Real.sqrt_pos.2 (by linarith)
  positivity

theorem planeDist_nonneg (p q : ℝ × ℝ) : 0 ≤ planeDist p q := Real.sqrt_nonneg _

theorem planeDist_comm (p q : ℝ × ℝ) : planeDist p q = planeDist q p := by
  unfold planeDist; congr 1; ring

theorem ceil_times {t dt : ℝ} (hd : 0 < dt) : ⌈(t + dt) / dt⌉ = ⌈t / dt⌉ + 1 := by
  rw [add_div, div_self hd.ne']
  exact Int.ceil_add_one _

theorem mem_lapseTimes {t dt tt : ℝ} (hd : 0 < dt) (h : tt ∈ lapseTimes t dt) : 0 ≤ tt ∧ tt ≤ ⌈t / dt⌉ * dt := by
  unfold lapseTimes at h
  rw [List.mem_map] at h
  obtain ⟨k, hk, rfl⟩ := h
  rw [List.mem_range, ceil_times hd] at hk
  refine ⟨by positivity, ?_⟩
  have : (k : ℤ) ≤ ⌈t / dt⌉ := by omega
  have h' : (k : ℝ) ≤ (⌈t / dt⌉ : ℝ) := by exact_mod_cast this
  exact mul_le_mul_of_nonneg_right h' hd.le

theorem last_lapse {t dt : ℝ} (hd : 0 < dt) (ht : 0 ≤ t) : (⌈t / dt⌉ : ℝ) * dt ∈ lapseTimes t dt := by
  unfold lapseTimes
  rw [List.mem_map]
  have h0 : 0 ≤ ⌈t / dt⌉ := Int.ceil_nonneg (by positivity)
  refine ⟨⌈t / dt⌉.toNat, ?_, ?_⟩
  · rw [List.mem_range, ceil_times hd]; omega
  · have : ((⌈t / dt⌉.toNat : ℤ) : ℝ) = (⌈t / dt⌉ : ℝ) := by rw [Int.toNat_of_nonneg h0]
    rw [← this]; norm_cast

/-- the terms of the sum for a cell -/
def kernelTerms (s1 s2 p : ℝ × ℝ) (t dt vel mf atol : ℝ) : List ℝ :=
  (lapseTimes t dt).map fun tt => probValue (planeDist p s1) tt vel mf atol * probValue (planeDist p s2) (t - tt) vel mf atol

theorem kernelCell_ok {s1 s2 p : ℝ × ℝ} {t dt vel mf : ℝ} (hd : 0 < dt) (hv : 0 < vel)
    (h : ⌈t / dt⌉ * dt - t ≤ dt / 2) :
    kernelCell s1 s2 p t dt vel mf (vel * dt / 2) = .ok (trapz dt (kernelTerms s1 s2 p t dt vel mf (vel * dt / 2))) := by
  unfold kernelCell
  have ha : -(vel * dt / 2) / vel = -(dt / 2) := by field_simp
  rw [mapM_ok _ _ (fun tt => probValue (planeDist p s1) tt vel mf (vel * dt / 2) *
    probValue (planeDist p s2) (t - tt) vel mf (vel * dt / 2))]
  · rfl
  · intro tt htt
    obtain ⟨h0, h1⟩ := mem_lapseTimes hd htt
    rw [probability_ok (planeDist_nonneg _ _) (by rw [ha]; linarith),
      probability_ok (planeDist_nonneg _ _) (by rw [ha]; linarith)]
    rfl

/-- An exception in one of the elements -/
theorem mapM_error {α β : Type} (l : List α) (f : α → Except PyErr β) (e : PyErr) (he : ∀ a ∈ l, ∀ e', f a = .error e' → e' = e)
    (a : α) (ha : a ∈ l) (h : f a = .error e) : l.mapM f = .error e := by
  induction l with
  | nil => simp at ha
  | cons b l ih =>
    rw [List.mapM_cons]
    cases hb : f b with
    | error e' => rw [he b (by simp) e' hb]; rfl
    | ok y =>
      have : a ∈ l := by
        rcases List.mem_cons.1 ha with rfl | h'
        · rw [h] at hb; cases hb
        · exact h'
      have := ih (fun a ha => he a (by simp [ha])) this
      change (do let ys ← l.mapM f; pure (y :: ys) : Except PyErr _) = _
      rw [this]; rfl

theorem probability_err_value {dist t vel mf atol : ℝ} {e : PyErr} (h : probability dist t vel mf atol = .error e) :
    e = .valueError := by
  unfold probability at h
  split at h
  · injection h with h; exact h.symm
  · split at h
    · injection h with h; exact h.symm
    · cases h

theorem kernelCell_error {s1 s2 p : ℝ × ℝ} {t dt vel mf : ℝ} (hd : 0 < dt) (hv : 0 < vel) (ht : 0 ≤ t)
    (h : dt / 2 < ⌈t / dt⌉ * dt - t) : kernelCell s1 s2 p t dt vel mf (vel * dt / 2) = .error .valueError := by
  unfold kernelCell
  have ha : -(vel * dt / 2) / vel = -(dt / 2) := by field_simp
  rw [mapM_error _ _ .valueError ?_ _ (last_lapse hd ht) ?_]
  · rfl
  · intro tt _ e he
    cases h1 : probability (planeDist p s1) tt vel mf (vel * dt / 2) with
    | error e1 => rw [h1] at he; injection he with he; rw [← he]; exact probability_err_value h1
    | ok a =>
      cases h2 : probability (planeDist p s2) (t - tt) vel mf (vel * dt / 2) with
      | error e1 => rw [h1, h2] at he; injection he with he; rw [← he]; exact probability_err_value h2
      | ok b => rw [h1, h2] at he; cases he
  · rw [probability_ok (planeDist_nonneg _ _) (by
      rw [ha]
      have : 0 ≤ (⌈t / dt⌉ : ℝ) * dt := by linarith
      linarith), probability_error (by rw [ha]; linarith)]
    rfl

/-- a correct call: positive parameters, axes with at least two evenly spaced values -/
structure KernelInput (x y : List ℝ) (t dt vel mf : ℝ) : Prop where
  dt_pos : 0 < dt
  vel_pos : 0 < vel
  mf_pos : 0 < mf
  t_nonneg : 0 ≤ t
  x_two : 2 ≤ x.length
  y_two : 2 ≤ y.length
  x_even : evenlySpaced x
  y_even : evenlySpaced y

open Classical in
theorem kernel_unfold {s1 s2 : ℝ × ℝ} {x y : List ℝ} {t dt vel mf : ℝ} (hi : KernelInput x y t dt vel mf) :
    sensitivityKernel s1 s2 x y t dt vel mf =
      if probValue (planeDist s1 s2) t vel mf (vel * dt / 2) = 0 then .ok (y.map fun _ => x.map fun _ => 0)
      else y.mapM fun yy => x.mapM fun xx =>
        (kernelCell s1 s2 (xx, yy) t dt vel mf (vel * dt / 2) >>= fun nom =>
          pure (nom / probValue (planeDist s1 s2) t vel mf (vel * dt / 2))) := by
  unfold sensitivityKernel
  have h1 : ¬ dt ≤ 0 := not_le.2 hi.dt_pos
  have h2 : ¬ x.length < 2 := not_lt.2 hi.x_two
  have h3 : ¬ y.length < 2 := not_lt.2 hi.y_two
  have ha : -(vel * dt / 2) / vel = -(dt / 2) := by have := hi.vel_pos; field_simp
  have hp : probability (planeDist s1 s2) t vel mf (vel * dt / 2) = .ok (probValue (planeDist s1 s2) t vel mf (vel * dt / 2)) :=
    probability_ok (planeDist_nonneg _ _) (by rw [ha]; linarith [hi.dt_pos, hi.t_nonneg])
  simp only [h1, h2, h3, hi.x_even, hi.y_even, hp, if_false, not_true_eq_false]
  rfl

open Classical in
theorem kernel_value {s1 s2 : ℝ × ℝ} {x y : List ℝ} {t dt vel mf : ℝ} (hi : KernelInput x y t dt vel mf)
    (h : ⌈t / dt⌉ * dt - t ≤ dt / 2) :
    sensitivityKernel s1 s2 x y t dt vel mf = .ok (y.map fun yy => x.map fun xx =>
      if probValue (planeDist s1 s2) t vel mf (vel * dt / 2) = 0 then 0
      else trapz dt (kernelTerms s1 s2 (xx, yy) t dt vel mf (vel * dt / 2)) /
        probValue (planeDist s1 s2) t vel mf (vel * dt / 2)) := by
  rw [kernel_unfold hi]
  by_cases hz : probValue (planeDist s1 s2) t vel mf (vel * dt / 2) = 0
  · simp [hz]
  · simp only [hz, if_false]
    rw [mapM_ok _ _ (fun yy => x.map fun xx => trapz dt (kernelTerms s1 s2 (xx, yy) t dt vel mf (vel * dt / 2)) /
        probValue (planeDist s1 s2) t vel mf (vel * dt / 2))]
    intro yy _
    rw [mapM_ok _ _ (fun xx => trapz dt (kernelTerms s1 s2 (xx, yy) t dt vel mf (vel * dt / 2)) /
        probValue (planeDist s1 s2) t vel mf (vel * dt / 2))]
    intro xx _
    rw [kernelCell_ok hi.dt_pos hi.vel_pos h]; rfl

theorem trapz_nonneg {dt : ℝ} (hd : 0 ≤ dt) : ∀ l : List ℝ, (∀ a ∈ l, 0 ≤ a) → 0 ≤ trapz dt l
  | [], _ => le_refl _
  | [_], _ => le_refl _
  | a :: b :: l, h => by
    rw [trapz]
    have ha := h a (by simp); have hb := h b (by simp)
    have := trapz_nonneg hd (b :: l) fun c hc => h c (List.mem_cons_of_mem _ hc)
    positivity

theorem trapz_zero {dt : ℝ} : ∀ l : List ℝ, (∀ a ∈ l, a = 0) → trapz dt l = 0
  | [], _ => rfl
  | [_], _ => rfl
  | a :: b :: l, h => by
    rw [trapz, trapz_zero (b :: l) fun c hc => h c (List.mem_cons_of_mem _ hc), h a (by simp), h b (by simp)]
    simp

theorem trapz_append {dt a b : ℝ} : ∀ l : List ℝ, trapz dt (l ++ [a, b]) = trapz dt (l ++ [a]) + dt * (a + b) / 2
  | [] => by simp [trapz]
  | [c] => by simp [trapz]
  | c :: d :: l => by
    have := trapz_append (dt := dt) (a := a) (b := b) (d :: l)
    simp only [List.cons_append] at this ⊢
    rw [trapz, this, trapz]; ring

theorem trapz_reverse {dt : ℝ} : ∀ l : List ℝ, trapz dt l.reverse = trapz dt l
  | [] => rfl
  | [_] => rfl
  | a :: b :: l => by
    have := trapz_reverse (dt := dt) (b :: l)
    rw [List.reverse_cons] at this
    rw [List.reverse_cons, List.reverse_cons, List.append_assoc]
    change trapz dt (l.reverse ++ [b, a]) = _
    rw [trapz_append, this, trapz]; ring

theorem kernelCell_err_value {s1 s2 p : ℝ × ℝ} {t dt vel mf : ℝ} (hd : 0 < dt) (hv : 0 < vel) (ht : 0 ≤ t) {e : PyErr}
    (h : kernelCell s1 s2 p t dt vel mf (vel * dt / 2) = .error e) : e = .valueError := by
  by_cases hc : ⌈t / dt⌉ * dt - t ≤ dt / 2
  · rw [kernelCell_ok hd hv hc] at h; cases h
  · rw [kernelCell_error hd hv ht (not_le.1 hc)] at h; injection h with h; exact h.symm

theorem kernel_error {s1 s2 : ℝ × ℝ} {x y : List ℝ} {t dt vel mf : ℝ} (hi : KernelInput x y t dt vel mf)
    (h : dt / 2 < ⌈t / dt⌉ * dt - t) (hz : probValue (planeDist s1 s2) t vel mf (vel * dt / 2) ≠ 0) :
    sensitivityKernel s1 s2 x y t dt vel mf = .error .valueError := by
  classical
  rw [kernel_unfold hi, if_neg hz]
  obtain ⟨yy, hy⟩ := List.exists_mem_of_length_pos (lt_of_lt_of_le (by norm_num) hi.y_two)
  obtain ⟨xx, hx⟩ := List.exists_mem_of_length_pos (lt_of_lt_of_le (by norm_num) hi.x_two)
  have key : ∀ yy, (x.mapM fun xx =>
        (kernelCell s1 s2 (xx, yy) t dt vel mf (vel * dt / 2) >>= fun nom =>
          pure (nom / probValue (planeDist s1 s2) t vel mf (vel * dt / 2)))) = .error .valueError := by
    intro yy
    refine mapM_error _ _ _ ?_ xx hx ?_
    · intro xx _ e he
      rw [kernelCell_error hi.dt_pos hi.vel_pos hi.t_nonneg h] at he
      injection he with he; exact he.symm
    · rw [kernelCell_error hi.dt_pos hi.vel_pos hi.t_nonneg h]; rfl
  refine mapM_error _ _ _ ?_ yy hy (key yy)
  intro yy _ e he
  rw [key] at he; injection he with he; exact he.symm

open Classical in
/-- the value of every kernel that is returned -/
theorem kernel_of_ok {s1 s2 : ℝ × ℝ} {x y : List ℝ} {t dt vel mf : ℝ} (hi : KernelInput x y t dt vel mf)
    {K : List (List ℝ)} (hK : sensitivityKernel s1 s2 x y t dt vel mf = .ok K) :
    K = (y.map fun yy => x.map fun xx =>
      if probValue (planeDist s1 s2) t vel mf (vel * dt / 2) = 0 then 0
      else trapz dt (kernelTerms s1 s2 (xx, yy) t dt vel mf (vel * dt / 2)) /
        probValue (planeDist s1 s2) t vel mf (vel * dt / 2)) ∧
      (probValue (planeDist s1 s2) t vel mf (vel * dt / 2) ≠ 0 → ⌈t / dt⌉ * dt - t ≤ dt / 2) := by
  by_cases h : ⌈t / dt⌉ * dt - t ≤ dt / 2
  · rw [kernel_value hi h] at hK
    injection hK with hK
    exact ⟨hK.symm, fun _ => h⟩
  · by_cases hz : probValue (planeDist s1 s2) t vel mf (vel * dt / 2) = 0
    · rw [kernel_unfold hi, if_pos hz] at hK
      injection hK with hK
      refine ⟨?_, fun h => absurd hz h⟩
      rw [← hK]; simp [hz]
    · rw [kernel_error hi (not_le.1 h) hz] at hK; cases hK

/-! ### C95 -/

/-- C95 (shape): one row for every y-coordinate, one column for every x-coordinate. -/
theorem c95_shape {s1 s2 : ℝ × ℝ} {x y : List ℝ} {t dt vel mf : ℝ} (hi : KernelInput x y t dt vel mf)
    {K : List (List ℝ)} (hK : sensitivityKernel s1 s2 x y t dt vel mf = .ok K) :
    K.length = y.length ∧ ∀ row ∈ K, row.length = x.length := by
  rw [(kernel_of_ok hi hK).1]
  simp

/-- C95 (sign): no cell has a negative sensitivity. -/
theorem c95_nonneg {s1 s2 : ℝ × ℝ} {x y : List ℝ} {t dt vel mf : ℝ} (hi : KernelInput x y t dt vel mf)
    {K : List (List ℝ)} (hK : sensitivityKernel s1 s2 x y t dt vel mf = .ok K) :
    ∀ row ∈ K, ∀ k ∈ row, 0 ≤ k := by
  rw [(kernel_of_ok hi hK).1]
  intro row hr k hk
  rw [List.mem_map] at hr
  obtain ⟨yy, _, rfl⟩ := hr
  rw [List.mem_map] at hk
  obtain ⟨xx, _, rfl⟩ := hk
  have hv := hi.vel_pos; have hm := hi.mf_pos; have hd := hi.dt_pos
  have ha : 0 ≤ vel * dt / 2 := by positivity
  split
  · exact le_refl _
  · refine div_nonneg (trapz_nonneg hd.le _ ?_) (probValue_nonneg (planeDist_nonneg _ _) hv hm ha)
    intro a h
    unfold kernelTerms at h
    rw [List.mem_map] at h
    obtain ⟨tt, _, rfl⟩ := h
    exact mul_nonneg (probValue_nonneg (planeDist_nonneg _ _) hv hm ha) (probValue_nonneg (planeDist_nonneg _ _) hv hm ha)

/-- C95 (range): a cell that a wave could not have visited on its way between the stations has
no influence. The tolerance is half of the distance that a wave travels in `dt`, for both parts
of the way, and the relative tolerance of `np.isclose`. -/
theorem c95_range {s1 s2 : ℝ × ℝ} {x y : List ℝ} {t dt vel mf : ℝ} (hi : KernelInput x y t dt vel mf)
    {K : List (List ℝ)} (hK : sensitivityKernel s1 s2 x y t dt vel mf = .ok K) (i j : Nat) (xx yy : ℝ)
    (hx : x[j]? = some xx) (hy : y[i]? = some yy)
    (h : (vel * t + vel * dt) * (1 + 1 / 100000) < planeDist (xx, yy) s1 + planeDist (xx, yy) s2) :
    (K.getD i []).getD j 1 = 0 := by
  obtain ⟨hK, hc⟩ := kernel_of_ok hi hK
  have : (K.getD i []).getD j 1 = if probValue (planeDist s1 s2) t vel mf (vel * dt / 2) = 0 then 0
      else trapz dt (kernelTerms s1 s2 (xx, yy) t dt vel mf (vel * dt / 2)) /
        probValue (planeDist s1 s2) t vel mf (vel * dt / 2) := by
    rw [hK]
    simp [List.getD_eq_getElem?_getD, hx, hy]
  rw [this]
  split
  · rfl
  · rename_i hz
    have hc := hc hz
    have hv := hi.vel_pos; have hd := hi.dt_pos; have ht := hi.t_nonneg
    have ha : 0 ≤ vel * dt / 2 := by positivity
    rw [trapz_zero, zero_div]
    intro a h'
    unfold kernelTerms at h'
    rw [List.mem_map] at h'
    obtain ⟨tt, htt, rfl⟩ := h'
    obtain ⟨h0, h1⟩ := mem_lapseTimes hd htt
    by_cases h2 : vel * tt + vel * dt / 2 + 1 / 100000 * |vel * tt| < planeDist (xx, yy) s1
    · rw [probValue_far ha h2, zero_mul]
    · rw [probValue_far (dist := planeDist (xx, yy) s2) ha, mul_zero]
      have e1 : |vel * tt| = vel * tt := abs_of_nonneg (by positivity)
      rw [e1] at h2
      have hb : vel * tt ≤ vel * t + vel * dt / 2 := by
        have : tt ≤ t + dt / 2 := by linarith
        nlinarith
      have e2 : |vel * (t - tt)| ≤ vel * t + vel * dt - vel * tt := by
        rw [abs_le]
        constructor <;> nlinarith
      nlinarith

/-- C95 (reciprocity), partial: exchanging the stations does not change the kernel if the lapse
time is a multiple of `dt`. -/
theorem c95_reciprocal_partial {s1 s2 : ℝ × ℝ} {x y : List ℝ} {t dt vel mf : ℝ} (hi : KernelInput x y t dt vel mf)
    (n : Nat) (hn : t = n * dt) :
    sensitivityKernel s1 s2 x y t dt vel mf = sensitivityKernel s2 s1 x y t dt vel mf := by
  classical
  have hd := hi.dt_pos
  have hc : (⌈t / dt⌉ : ℤ) = n := by
    rw [hn, mul_div_cancel_right₀ _ hd.ne']; simp
  have h : (⌈t / dt⌉ : ℝ) * dt - t ≤ dt / 2 := by
    rw [hc, hn]; simp; positivity
  rw [kernel_value hi h, kernel_value hi h, planeDist_comm s1 s2]
  have : ∀ p : ℝ × ℝ, trapz dt (kernelTerms s1 s2 p t dt vel mf (vel * dt / 2)) =
      trapz dt (kernelTerms s2 s1 p t dt vel mf (vel * dt / 2)) := by
    intro p
    rw [← trapz_reverse (kernelTerms s2 s1 p t dt vel mf (vel * dt / 2))]
    congr 1
    have hl : ⌈(t + dt) / dt⌉.toNat = n + 1 := by
      rw [ceil_times hd, hc]; omega
    unfold kernelTerms lapseTimes
    rw [hl]
    apply List.ext_getElem
    · simp
    · intro i h1 h2
      simp only [List.length_map, List.length_range] at h1
      simp only [List.map_map, List.getElem_map, List.getElem_range, List.getElem_reverse, List.length_map,
        List.length_range, Function.comp]
      have e : ((n + 1 - 1 - i : Nat) : ℝ) * dt = t - i * dt := by
        rw [hn, Nat.add_sub_cancel, Nat.cast_sub (by omega)]; ring
      rw [e, mul_comm, sub_sub_cancel]
  simp only [this]

/-- a grid with a spacing of 1 -/
theorem kernel_example_input (t dt : ℝ) (ht : 0 ≤ t) (hd : 0 < dt) : KernelInput [0, 1, 2] [0, 1] t dt 1 10 where
  dt_pos := hd
  vel_pos := by norm_num
  mf_pos := by norm_num
  t_nonneg := ht
  x_two := by simp
  y_two := by simp
  x_even := by intro d hd; simp at hd; rcases hd with rfl | rfl <;> norm_num
  y_even := by intro d hd; simp at hd; rcases hd with rfl; norm_num

/-- C95 (reciprocity), violated: for a lapse time between two multiples of `dt` the last term
belongs to a negative time on one side only. Stations at (0, 0) and (4, 0), lapse time 3 and
`dt` 2. -/
theorem c95_reciprocal_violated :
    ∃ (s1 s2 : ℝ × ℝ) (x y : List ℝ) (t dt vel mf : ℝ) (K K' : List (List ℝ)), KernelInput x y t dt vel mf ∧
      sensitivityKernel s1 s2 x y t dt vel mf = .ok K ∧ sensitivityKernel s2 s1 x y t dt vel mf = .ok K' ∧ K ≠ K' := by
  classical
  have hi := kernel_example_input 3 2 (by norm_num) (by norm_num)
  have hc : ⌈(3 : ℝ) / 2⌉ = 2 := by rw [Int.ceil_eq_iff]; norm_num
  have h : (⌈(3 : ℝ) / 2⌉ : ℝ) * 2 - 3 ≤ 2 / 2 := by rw [hc]; norm_num
  refine ⟨(0, 0), (4, 0), _, _, 3, 2, 1, 10, _, _, hi, kernel_value hi h, kernel_value hi h, ?_⟩
  have hd : planeDist (0, 0) (4, 0) = 4 := by
    unfold planeDist
    rw [show ((0 : ℝ) - 4) ^ 2 + (0 - 0) ^ 2 = 4 ^ 2 by norm_num]
    exact Real.sqrt_sq (by norm_num)
  have hd0 : planeDist (0, 0) (0, 0) = 0 := by simp [planeDist]
  have ha : (1 : ℝ) * 2 / 2 = 1 := by norm_num
  have hl : lapseTimes 3 2 = [0, 2, 4] := by
    have : ⌈((3 : ℝ) + 2) / 2⌉ = 3 := by rw [Int.ceil_eq_iff]; norm_num
    simp [lapseTimes, this, List.range_succ]; norm_num
  have far : ∀ t : ℝ, t ≤ 2 → -2 ≤ t → probValue 4 t 1 10 1 = 0 := by
    intro t h1 h2
    refine probValue_far (by norm_num) ?_
    have : |1 * t| ≤ 2 := by rw [one_mul, abs_le]; exact ⟨h2, h1⟩
    linarith
  have near : ∀ t : ℝ, 3 ≤ t → t ≤ 5 → probValue 4 t 1 10 1 = Real.exp (-t / 10) / (8 * Real.pi) := by
    intro t h1 h2
    have hcl : isClose 4 t 1 := by
      unfold isClose
      have : |4 - t| ≤ 1 := by rw [abs_le]; constructor <;> linarith
      have := abs_nonneg t
      linarith
    have hn : ¬ (t - 4 - 1 > 0) := by linarith
    simp only [probValue, probCoherent, probCoda, one_mul, hcl, hn, if_true, if_false, neg_mul]
    norm_num
    ring
  have zero : ∀ t : ℝ, -1 ≤ t → t ≤ 0 → probValue 0 t 1 10 1 = 1 := by
    intro t h1 h2
    have hcl : isClose 0 t 1 := by
      unfold isClose
      have : |0 - t| ≤ 1 := by rw [abs_le]; constructor <;> linarith
      have := abs_nonneg t
      linarith
    have hn : ¬ (t - 0 - 1 > 0) := by linarith
    simp only [probValue, probCoherent, probCoda, one_mul, hcl, hn, if_true, if_false]
    norm_num
  have hz : probValue 4 3 1 10 1 ≠ 0 := by
    rw [near 3 (le_refl _) (by norm_num)]
    have := Real.pi_pos
    positivity
  intro hK
  have e := congrArg (fun K : List (List ℝ) => (K.getD 0 []).getD 0 1) hK
  simp only [List.map_cons, List.map_nil, List.getD_cons_zero, ha, hd, planeDist_comm (4, 0) (0, 0), hz, if_false] at e
  rw [div_left_inj' hz] at e
  simp only [kernelTerms, hl, hd, hd0, List.map_cons, List.map_nil, trapz] at e
  norm_num at e
  rw [far 1 (by norm_num) (by norm_num), far 0 (by norm_num) (by norm_num), far 2 (by norm_num) (by norm_num),
    far (-1) (by norm_num) (by norm_num), near 3 (by norm_num) (by norm_num), near 4 (by norm_num) (by norm_num),
    zero 0 (by norm_num) (by norm_num), zero (-1) (by norm_num) (by norm_num)] at e
  have hp := Real.pi_pos
  have : Real.exp (-3 / 10) = Real.exp (-4 / 10) := by
    field_simp at e
    linarith
  have := Real.exp_injective this
  norm_num at this

/-- C96 (lapse times), partial: a kernel is returned if the next multiple of `dt` after the lapse
time is at most half of `dt` away. -/
theorem c96_computed_partial {s1 s2 : ℝ × ℝ} {x y : List ℝ} {t dt vel mf : ℝ} (hi : KernelInput x y t dt vel mf)
    (h : ⌈t / dt⌉ * dt - t ≤ dt / 2) : ∃ K, sensitivityKernel s1 s2 x y t dt vel mf = .ok K :=
  ⟨_, by classical exact kernel_value hi h⟩

/-- C96 (lapse times), violated: if it is farther away, there is no kernel for any pair of
stations that is reached by the coda at this time. -/
theorem c96_lapse_violated {s1 s2 : ℝ × ℝ} {x y : List ℝ} {t dt vel mf : ℝ} (hi : KernelInput x y t dt vel mf)
    (h : dt / 2 < ⌈t / dt⌉ * dt - t) (hs : planeDist s1 s2 + vel * dt / 2 < vel * t) :
    sensitivityKernel s1 s2 x y t dt vel mf = .error .valueError := by
  have hv := hi.vel_pos; have hd := hi.dt_pos
  exact kernel_error hi h (probValue_pos (planeDist_nonneg _ _) hv hi.mf_pos (by positivity) hs).ne'

/-- the middle of the window from 7.5 to 12.5 s is a multiple of 0.25 s -/
example : KernelInput [0, 1, 2] [0, 1] 10 (1 / 4) 1 10 ∧ (10 : ℝ) = (40 : Nat) * (1 / 4) :=
  ⟨kernel_example_input _ _ (by norm_num) (by norm_num), by norm_num⟩

/-- but not a multiple of 0.3 s: the next one is 10.2 s -/
example : KernelInput [0, 1, 2] [0, 1] 10 (3 / 10) 1 10 ∧ (3 / 10 / 2 : ℝ) < ⌈(10 : ℝ) / (3 / 10)⌉ * (3 / 10) - 10 ∧
    planeDist (0, 0) (2, 1) + 1 * (3 / 10) / 2 < 1 * 10 := by
  refine ⟨kernel_example_input _ _ (by norm_num) (by norm_num), ?_, ?_⟩
  · have : ⌈(10 : ℝ) / (3 / 10)⌉ = 34 := by rw [Int.ceil_eq_iff]; norm_num
    rw [this]; norm_num
  · have : planeDist (0, 0) (2, 1) ≤ 3 := by
      unfold planeDist; rw [Real.sqrt_le_left (by norm_num)]; norm_num
    linarith

end

end SeisMIC
