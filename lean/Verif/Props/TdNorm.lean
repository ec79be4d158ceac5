import Mathlib.Tactic.Linarith
import Mathlib.Tactic.FieldSimp
import Mathlib.Tactic.Ring
import Mathlib.Tactic.NormNum
import Mathlib.Tactic.Positivity
import Mathlib.Data.List.GetD
import Mathlib.Algebra.Order.BigOperators.Group.Finset
import Mathlib.Analysis.Real.Sqrt
import Verif.Model.TdNorm
import Verif.Props.Muting
import Verif.Props.Detrend

/-!
# C124: amplitude dependent normalisation
-/

namespace SeisMIC

noncomputable section

/-! ### Specification -/

/-- the sample with number `k`, zero outside of the trace -/
def sampleZ (x : List ℝ) (k : Int) : ℝ := if 0 ≤ k then x.getD k.toNat 0 else 0

/-- the mean of the squares in the window of `n` samples that begins at sample `k` -/
def windowPower (n : Nat) (x : List ℝ) (k : Int) : ℝ := (∑ j ∈ Finset.range n, sampleZ x (k + j) ^ 2) / n

/-- the mean over all windows of `n` samples that contain sample `k` -/
def meanPower (n : Nat) (x : List ℝ) (k : Int) : ℝ := (∑ j ∈ Finset.range n, windowPower n x (k - j)) / n

/-! ### Lemmas -/

theorem td_sum_range (n : Nat) (g : Nat → ℝ) : ((List.range n).map g).sum = ∑ k ∈ Finset.range n, g k := by
  rw [trend_sum_map_range, Finset.sum_range]

theorem sampleZ_of_lt {x : List ℝ} {k : Int} (h0 : 0 ≤ k) (h : k < x.length) : sampleZ x k = x[k.toNat]'(by omega) := by
  unfold sampleZ
  rw [if_pos h0, List.getD_eq_getElem _ _ (by omega)]

theorem sampleZ_outside {x : List ℝ} {k : Int} (h : k < 0 ∨ (x.length : Int) ≤ k) : sampleZ x k = 0 := by
  unfold sampleZ
  split
  · rw [List.getD_eq_default]; omega
  · rfl

theorem sampleZ_reverse (x : List ℝ) (k : Int) : sampleZ x.reverse k = sampleZ x (x.length - 1 - k) := by
  by_cases h : 0 ≤ k ∧ k < x.length
  · rw [sampleZ_of_lt h.1 (by simpa using h.2), sampleZ_of_lt (by omega) (by omega), List.getElem_reverse]
    congr 1
    omega
  · rw [sampleZ_outside (by simp only [List.length_reverse]; omega), sampleZ_outside (by omega)]

theorem sampleZ_map_sq (x : List ℝ) (k : Int) : sampleZ (x.map (· ^ 2)) k = sampleZ x k ^ 2 := by
  by_cases h : 0 ≤ k ∧ k < x.length
  · rw [sampleZ_of_lt h.1 (by simpa using h.2), sampleZ_of_lt h.1 h.2, List.getElem_map]
  · rw [sampleZ_outside (by simp only [List.length_map]; omega), sampleZ_outside (by omega)]
    norm_num

/-- a moving average inside of the trace -/
theorem sampleZ_conv (a : List ℝ) (n : Nat) (k : Int) (h0 : 0 ≤ k) (h : k < a.length) :
    sampleZ (convSame a (List.replicate n (1 / (n : ℝ)))) k = (∑ j ∈ Finset.range n, sampleZ a (k + ((n - 1) / 2 : Nat) - j)) / n := by
  have hget := convSame_get a (List.replicate n (1 / (n : ℝ))) k.toNat (by omega)
  rw [List.getElem?_eq_getElem (by rw [convSame_length]; omega)] at hget
  rw [sampleZ_of_lt h0 (by rw [convSame_length]; exact h), Option.some.inj hget, List.length_replicate, td_sum_range, Finset.sum_div]
  refine Finset.sum_congr rfl fun j hj => ?_
  rw [Finset.mem_range] at hj
  rw [List.getD_eq_getElem _ _ (by simpa using hj), List.getElem_replicate]
  unfold sampleZ
  by_cases hle : j ≤ k.toNat + (n - 1) / 2
  · rw [if_pos hle, if_pos (by omega)]
    have : (k + ((n - 1) / 2 : Nat) - j).toNat = k.toNat + (n - 1) / 2 - j := by omega
    rw [this]
    ring
  · rw [if_neg hle, if_neg (by omega)]
    simp

theorem tdEnvelope_length (n : Nat) (x : List ℝ) : (tdEnvelope n x).length = x.length := by
  simp [tdEnvelope, convSame_length]

/-- the second moving average, in the other direction -/
theorem sampleZ_envelope (n : Nat) (x : List ℝ) (k : Int) (h0 : 0 ≤ k) (h : k < x.length) :
    sampleZ (tdEnvelope n x) k =
      (∑ j ∈ Finset.range n, sampleZ (convSame (x.map (· ^ 2)) (List.replicate n (1 / (n : ℝ)))) (k - ((n - 1) / 2 : Nat) + j)) / n := by
  unfold tdEnvelope
  simp only
  rw [sampleZ_reverse]
  simp only [convSame_length, List.length_reverse, List.length_map]
  rw [sampleZ_conv _ _ _ (by omega) (by simp [convSame_length]; omega)]
  congr 1
  refine Finset.sum_congr rfl fun j _ => ?_
  rw [sampleZ_reverse]
  congr 1
  simp only [convSame_length, List.length_map]
  ring

/-- inside of the trace the envelope is the mean over all windows that contain the sample -/
theorem envelope_inside (n : Nat) (x : List ℝ) (k : Int) (h0 : ((n - 1) / 2 : Nat) ≤ k) (h : k + n ≤ x.length + ((n - 1) / 2 : Nat)) (hn : 0 < n) :
    sampleZ (tdEnvelope n x) k = meanPower n x k := by
  rw [sampleZ_envelope n x k (by omega) (by omega)]
  unfold meanPower windowPower
  simp only [Finset.sum_div]
  have e : ∀ j ∈ Finset.range n, sampleZ (convSame (x.map (· ^ 2)) (List.replicate n (1 / (n : ℝ)))) (k - ((n - 1) / 2 : Nat) + j) / n =
      ∑ i ∈ Finset.range n, sampleZ x (k - i + j) ^ 2 / n / n := by
    intro j hj
    rw [Finset.mem_range] at hj
    rw [sampleZ_conv _ _ _ (by omega) (by simp only [List.length_map]; omega), Finset.sum_div, Finset.sum_div]
    refine Finset.sum_congr rfl fun i _ => ?_
    rw [sampleZ_map_sq]
    have : k - ((n - 1) / 2 : Nat) + (j : Int) + ((n - 1) / 2 : Nat) - i = k - i + j := by ring
    rw [this]
  rw [Finset.sum_congr rfl e, Finset.sum_comm]

theorem sampleZ_conv_nonneg (a : List ℝ) (ha : ∀ k, 0 ≤ sampleZ a k) (n : Nat) (k : Int) :
    0 ≤ sampleZ (convSame a (List.replicate n (1 / (n : ℝ)))) k := by
  by_cases h : 0 ≤ k ∧ k < a.length
  · rw [sampleZ_conv _ _ _ h.1 h.2]
    exact div_nonneg (Finset.sum_nonneg fun j _ => ha _) (Nat.cast_nonneg _)
  · rw [sampleZ_outside (by rw [convSame_length]; omega)]

/-- nowhere the envelope is smaller than the square divided by the square of the length of the window -/
theorem envelope_lower (n : Nat) (hn : 0 < n) (x : List ℝ) (k : Int) (h0 : 0 ≤ k) (h : k < x.length) :
    sampleZ x k ^ 2 / (n : ℝ) ^ 2 ≤ sampleZ (tdEnvelope n x) k := by
  have hsq : ∀ k, 0 ≤ sampleZ (x.map (· ^ 2)) k := fun k => by rw [sampleZ_map_sq]; exact sq_nonneg _
  have hn' : (0 : ℝ) < n := by exact_mod_cast hn
  have h1 : sampleZ x k ^ 2 / n ≤ sampleZ (convSame (x.map (· ^ 2)) (List.replicate n (1 / (n : ℝ)))) k := by
    rw [sampleZ_conv _ _ _ h0 (by simpa using h)]
    gcongr
    have := Finset.single_le_sum (f := fun j => sampleZ (x.map (· ^ 2)) (k + ((n - 1) / 2 : Nat) - (j : Nat))) (fun j _ => hsq _)
      (Finset.mem_range.mpr (show (n - 1) / 2 < n by omega))
    rw [show k + (((n - 1) / 2 : Nat) : Int) - (((n - 1) / 2 : Nat) : Int) = k by ring, sampleZ_map_sq] at this
    exact this
  rw [sampleZ_envelope n x k h0 h]
  have h2 := Finset.single_le_sum (f := fun j => sampleZ (convSame (x.map (· ^ 2)) (List.replicate n (1 / (n : ℝ)))) (k - ((n - 1) / 2 : Nat) + (j : Nat)))
    (fun j _ => sampleZ_conv_nonneg _ hsq n _) (Finset.mem_range.mpr (show (n - 1) / 2 < n by omega))
  rw [show k - (((n - 1) / 2 : Nat) : Int) + (((n - 1) / 2 : Nat) : Int) = k by ring] at h2
  calc sampleZ x k ^ 2 / (n : ℝ) ^ 2 = sampleZ x k ^ 2 / n / n := by field_simp
    _ ≤ _ := by gcongr; exact h1.trans h2

/-- the result for a trace without missing samples -/
theorem tdNormRow_valid (filt : List ℝ → List ℝ) (n : Nat) (X : List ℝ) :
    tdNormRow filt n (X.map some) = List.zipWith (fun x y =>
      if y + (maxR (tdEnvelope n (filt X)) |>.getD 0) * (1 / 1000000) = 0 then none else some (x / Real.sqrt (y + (maxR (tdEnvelope n (filt X)) |>.getD 0) * (1 / 1000000))))
      X (tdEnvelope n (filt X)) := by
  have h : (X.map some).filterMap id = X := by rw [List.filterMap_map]; simp
  unfold tdNormRow
  rw [if_neg (by simp)]
  simp only [h]

theorem envelope_mem_nonneg (n : Nat) (hn : 0 < n) (x : List ℝ) : ∀ e ∈ tdEnvelope n x, 0 ≤ e := by
  intro e he
  obtain ⟨k, hk, rfl⟩ := List.mem_iff_getElem.mp he
  rw [tdEnvelope_length] at hk
  have := envelope_lower n hn x k (by omega) (by omega)
  rw [sampleZ_of_lt (x := tdEnvelope n x) (by omega) (by rw [tdEnvelope_length]; omega)] at this
  exact (div_nonneg (sq_nonneg _) (sq_nonneg _)).trans this

theorem envelope_max (n : Nat) (hn : 0 < n) (x : List ℝ) (hx : ∃ y ∈ x, y ≠ 0) :
    ∃ m, maxR (tdEnvelope n x) = some m ∧ 0 < m ∧ m ∈ tdEnvelope n x ∧ ∀ e ∈ tdEnvelope n x, e ≤ m := by
  obtain ⟨y, hy, hy0⟩ := hx
  obtain ⟨k, hk, rfl⟩ := List.mem_iff_getElem.mp hy
  have hl := tdEnvelope_length n x
  cases hm : maxR (tdEnvelope n x) with
  | none =>
    cases he : tdEnvelope n x with
    | nil => rw [he] at hl; simp at hl; omega
    | cons a l => rw [he] at hm; simp [maxR] at hm
  | some m =>
    have hs := maxR_spec _ _ hm
    refine ⟨m, rfl, ?_, hs⟩
    have h1 := envelope_lower n hn x k (by omega) (by omega)
    rw [sampleZ_of_lt (x := tdEnvelope n x) (by omega) (by rw [hl]; omega), sampleZ_of_lt (by omega) (by omega)] at h1
    have h2 := hs.2 _ (List.getElem_mem (l := tdEnvelope n x) (n := (k : Int).toNat) (by rw [hl]; omega))
    have h3 : 0 < x[(k : Int).toNat] ^ 2 / (n : ℝ) ^ 2 := by
      have : x[(k : Int).toNat] ≠ 0 := by simpa using hy0
      have hn' : (0 : ℝ) < n := by exact_mod_cast hn
      positivity
    linarith

theorem ratLt_ceil {x : Rat} {k : Int} (h : (k : Rat) < x) : k < x.ceil := by
  by_contra hc
  have := Rat.ceil_le_iff.mp (not_lt.mp hc)
  exact absurd h (not_lt.mpr this)

theorem convSame_scale (c : ℝ) (a v : List ℝ) : convSame (a.map (c * ·)) v = (convSame a v).map (c * ·) := by
  unfold convSame
  rw [List.map_map, List.length_map]
  apply List.map_congr_left
  intro i _
  simp only [Function.comp]
  rw [← List.sum_map_mul_left]
  congr 1
  apply List.map_congr_left
  intro j _
  have : ∀ k, (a.map (c * ·)).getD k 0 = c * a.getD k 0 := fun k => by
    by_cases hk : k < a.length
    · rw [List.getD_eq_getElem _ _ (by simpa using hk), List.getD_eq_getElem _ _ hk, List.getElem_map]
    · rw [List.getD_eq_default _ _ (by simpa using hk), List.getD_eq_default _ _ (by simpa using hk), mul_zero]
  rw [this]
  split <;> ring

theorem tdEnvelope_scale (n : Nat) (c : ℝ) (x : List ℝ) : tdEnvelope n (x.map (c * ·)) = (tdEnvelope n x).map (c ^ 2 * ·) := by
  unfold tdEnvelope
  have : (x.map (c * ·)).map (· ^ 2) = (x.map (· ^ 2)).map (c ^ 2 * ·) := by
    rw [List.map_map, List.map_map]
    exact List.map_congr_left fun y _ => by simp only [Function.comp]; ring
  simp only
  rw [this, convSame_scale, ← List.map_reverse, convSame_scale, ← List.map_reverse]

theorem maxR_scale (d : ℝ) (hd : 0 ≤ d) (l : List ℝ) : maxR (l.map (d * ·)) = (maxR l).map (d * ·) := by
  cases l with
  | nil => rfl
  | cons a l =>
    simp only [List.map_cons, maxR, Option.map_some, Option.some.injEq]
    induction l generalizing a with
    | nil => rfl
    | cons b l ih =>
      rw [List.map_cons, List.foldl_cons, List.foldl_cons, ← ih, mul_max_of_nonneg _ _ hd]

theorem tdNormalization_ok {filt : List ℝ → List ℝ} {npts : Nat} {sr w : Rat} {A B : List (List (Option ℝ))}
    (h : tdNormalization filt npts sr w A = .ok B) : 0 < w ∧ B = A.map (tdNormRow filt (w * sr).ceil.toNat) := by
  unfold tdNormalization at h
  split at h
  · cases h
  · next hw =>
    simp only at h
    split at h
    · cases h
    · exact ⟨not_le.mp hw, (Except.ok.inj h).symm⟩

theorem valid_row (row : List (Option ℝ)) (h : none ∉ row) : (row.filterMap id).map some = row := by
  induction row with
  | nil => rfl
  | cons a l ih =>
    cases a with
    | none => simp at h
    | some x =>
      have := ih (fun hl => h (by simp [hl]))
      rw [show (some x :: l).filterMap id = x :: l.filterMap id from rfl, List.map_cons, this]

/-! ### Theorems -/

/-- `r` is the trace `x` divided by the root of the power `E` of the filtered trace `f`, which is increased by the millionth part of its maximum
`m`. Inside of the trace the power is the mean over all windows of `n` samples that contain the sample. -/
def Normalised (n : Nat) (x f : List ℝ) (r : List (Option ℝ)) : Prop :=
  ∃ (E : List ℝ) (m : ℝ), E.length = x.length ∧ m ∈ E ∧ (∀ e ∈ E, 0 ≤ e ∧ e ≤ m) ∧ 0 < m ∧
    (∀ k : Nat, (n - 1) / 2 ≤ k → k + n ≤ x.length + (n - 1) / 2 → E.getD k 0 = meanPower n f k) ∧
    r = List.zipWith (fun x e => some (x / Real.sqrt (e + m / 1000000))) x E

theorem tdNormRow_normalised (filt : List ℝ → List ℝ) (hf : ∀ x, (filt x).length = x.length) (n : Nat) (hn : 0 < n) (x : List ℝ)
    (hx : ∃ y ∈ filt x, y ≠ 0) : Normalised n x (filt x) (tdNormRow filt n (x.map some)) := by
  obtain ⟨m, hm, h0, hmem, hle⟩ := envelope_max n hn (filt x) hx
  have hnn := envelope_mem_nonneg n hn (filt x)
  refine ⟨tdEnvelope n (filt x), m, by rw [tdEnvelope_length, hf], hmem, fun e he => ⟨hnn e he, hle e he⟩, h0, ?_, ?_⟩
  · intro k h1 h2
    have := envelope_inside n (filt x) k (by omega) (by rw [hf]; omega) hn
    rw [← this, sampleZ, if_pos (by omega)]
    simp
  · rw [tdNormRow_valid, hm, Option.getD_some]
    apply List.ext_getElem
    · simp
    · intro i h1 h2
      simp only [List.getElem_zipWith]
      have : 0 ≤ (tdEnvelope n (filt x))[i]'(by simp at h1; omega) := hnn _ (List.getElem_mem _)
      rw [if_neg (by positivity)]
      congr 3
      ring

/-- C124: every trace without missing samples whose filtered version is not zero everywhere is divided by the root of its smoothed power.
Missing: silent traces, missing samples and long windows (`c124_silent_violated`, `c124_nan_violated`, `c124_long_violated`). -/
theorem c124_value_partial (filt : List ℝ → List ℝ) (hf : ∀ x, (filt x).length = x.length) (npts : Nat) (sr w : Rat) (hsr : 0 < sr) (hw : 0 < w)
    (hl : w * sr ≤ npts) (A : List (List ℝ)) (hA : ∀ x ∈ A, ∃ y ∈ filt x, y ≠ 0) :
    ∃ B, tdNormalization filt npts sr w (A.map fun x => x.map some) = .ok B ∧
      List.Forall₂ (fun x r => Normalised (w * sr).ceil.toNat x (filt x) r) A B := by
  have hpos : 0 < (w * sr).ceil := by
    exact ratLt_ceil (by exact_mod_cast mul_pos hw hsr)
  have hle : (w * sr).ceil ≤ npts := by
    rw [Rat.ceil_le_iff]; exact_mod_cast hl
  refine ⟨A.map fun x => tdNormRow filt (w * sr).ceil.toNat (x.map some), ?_, ?_⟩
  · unfold tdNormalization
    rw [if_neg (not_le.mpr hw), if_neg (fun h => by have := h.1; omega), List.map_map]
    rfl
  · rw [List.forall₂_map_right_iff, List.forall₂_same]
    exact fun x hx => tdNormRow_normalised filt hf _ (by omega) x (hA x hx)


/-- C124: the result does not depend on the amplitude of the traces: positive factors, one for each trace, have no effect -/
theorem c124_scale (filt : List ℝ → List ℝ) (hf : ∀ (c : ℝ) x, filt (x.map (c * ·)) = (filt x).map (c * ·)) (npts : Nat) (sr w : Rat)
    (A : List (List ℝ)) (c : List ℝ → ℝ) (hc : ∀ x, 0 < c x) :
    tdNormalization filt npts sr w (A.map fun x => (x.map (c x * ·)).map some) = tdNormalization filt npts sr w (A.map fun x => x.map some) := by
  have hrow : ∀ (n : Nat) (x : List ℝ) (c : ℝ), 0 < c → tdNormRow filt n ((x.map (c * ·)).map some) = tdNormRow filt n (x.map some) := by
    intro n x c hc
    rw [tdNormRow_valid, tdNormRow_valid, hf, tdEnvelope_scale, maxR_scale _ (sq_nonneg c)]
    have hm : ((maxR (tdEnvelope n (filt x))).map (c ^ 2 * ·)).getD 0 = c ^ 2 * (maxR (tdEnvelope n (filt x))).getD 0 := by
      cases maxR (tdEnvelope n (filt x)) <;> simp
    rw [hm]
    apply List.ext_getElem
    · simp
    · intro i h1 h2
      simp only [List.getElem_zipWith, List.getElem_map]
      generalize x[i]'(by simp at h2; omega) = y
      generalize (tdEnvelope n (filt x))[i]'(by simp at h2; omega) = e
      set m := (maxR (tdEnvelope n (filt x))).getD 0
      have he : c ^ 2 * e + c ^ 2 * m * (1 / 1000000) = c ^ 2 * (e + m * (1 / 1000000)) := by ring
      rw [he]
      by_cases h0 : e + m * (1 / 1000000) = 0
      · rw [if_pos (by rw [h0, mul_zero]), if_pos h0]
      · rw [if_neg (mul_ne_zero (by positivity) h0), if_neg h0, Real.sqrt_mul (sq_nonneg c), Real.sqrt_sq hc.le, mul_div_mul_left _ _ hc.ne']
  unfold tdNormalization
  have e : (A.map fun x => (x.map (c x * ·)).map some) ≠ [] ↔ (A.map fun x => x.map some) ≠ [] := by simp
  simp only [e]
  have : (A.map fun x => (x.map (c x * ·)).map some).map (tdNormRow filt (w * sr).ceil.toNat) =
      (A.map fun x => x.map some).map (tdNormRow filt (w * sr).ceil.toNat) := by
    rw [List.map_map, List.map_map]
    exact List.map_congr_left fun x _ => hrow _ x (c x) (hc x)
  rw [this]

/-- C124: every sample keeps its sign -/
theorem c124_sign (filt : List ℝ → List ℝ) (npts : Nat) (sr w : Rat) (A B : List (List (Option ℝ)))
    (h : tdNormalization filt npts sr w A = .ok B) :
    List.Forall₂ (fun a b => ∀ k y, b.getD k none = some y → ∃ x g : ℝ, a.getD k none = some x ∧ 0 ≤ g ∧ y = g * x) A B := by
  obtain ⟨_, rfl⟩ := tdNormalization_ok h
  rw [List.forall₂_map_right_iff, List.forall₂_same]
  intro a _ k y hy
  unfold tdNormRow at hy
  split at hy
  · by_cases hk : k < a.length
    · rw [List.getD_eq_getElem _ _ (by simpa using hk)] at hy; simp at hy
    · rw [List.getD_eq_default _ _ (by simpa using hk)] at hy; cases hy
  · next hn =>
    have ha := valid_row a hn
    simp only at hy
    generalize (maxR (tdEnvelope (w * sr).ceil.toNat (filt (a.filterMap id)))).getD 0 = m at hy
    generalize tdEnvelope (w * sr).ceil.toNat (filt (a.filterMap id)) = E at hy
    generalize a.filterMap id = x at ha hy
    subst ha
    by_cases hk : k < min x.length E.length
    · rw [List.getD_eq_getElem _ _ (by simpa using hk), List.getElem_zipWith] at hy
      split at hy
      · cases hy
      · refine ⟨x[k]'(by omega), 1 / Real.sqrt (E[k]'(by omega) + m * (1 / 1000000)), ?_, by positivity, ?_⟩
        · rw [List.getD_eq_getElem _ _ (by simp; omega), List.getElem_map]
        · rw [← Option.some.inj hy]; ring
    · rw [List.getD_eq_default _ _ (by simp; omega)] at hy; cases hy

/-- C124: without a filter no sample of the result is larger than the number of samples in the window -/
theorem c124_bounded (npts : Nat) (sr w : Rat) (hsr : 0 < sr) (A B : List (List (Option ℝ))) (h : tdNormalization id npts sr w A = .ok B) :
    ∀ b ∈ B, ∀ y, some y ∈ b → |y| ≤ ((w * sr).ceil : ℝ) := by
  obtain ⟨hw, rfl⟩ := tdNormalization_ok h
  have hpos : 0 < (w * sr).ceil := ratLt_ceil (by exact_mod_cast mul_pos hw hsr)
  have hn : (((w * sr).ceil.toNat : Nat) : ℝ) = ((w * sr).ceil : ℝ) := by
    have : (((w * sr).ceil.toNat : Nat) : Int) = (w * sr).ceil := by omega
    exact_mod_cast this
  rw [← hn]
  have hn0 : 0 < (w * sr).ceil.toNat := by omega
  generalize (w * sr).ceil.toNat = n at hn0
  intro b hb y hy
  obtain ⟨a, _, rfl⟩ := List.mem_map.mp hb
  by_cases hna : none ∈ a
  · unfold tdNormRow at hy
    rw [if_pos hna] at hy
    simp at hy
  · rw [← valid_row a hna, tdNormRow_valid] at hy
    generalize a.filterMap id = x at hy
    obtain ⟨i, hi, he⟩ := List.mem_iff_getElem.mp hy
    simp only [List.length_zipWith, tdEnvelope_length, id] at hi
    rw [List.getElem_zipWith] at he
    have hlow := envelope_lower n hn0 x i (by omega) (by omega)
    rw [sampleZ_of_lt (x := tdEnvelope n x) (by omega) (by rw [tdEnvelope_length]; omega), sampleZ_of_lt (by omega) (by omega)] at hlow
    simp only [Int.toNat_natCast] at hlow
    have hm : 0 ≤ (maxR (tdEnvelope n (id x))).getD 0 := by
      cases hm : maxR (tdEnvelope n (id x)) with
      | none => simp
      | some m => exact envelope_mem_nonneg n hn0 x m (maxR_spec _ _ hm).1
    split at he
    · cases he
    · next hne =>
      rw [← Option.some.inj he]
      have hn' : (0 : ℝ) < n := by exact_mod_cast hn0
      have hE : (x[i]'(by omega) / n) ^ 2 ≤ (tdEnvelope n (id x))[i]'(by rw [tdEnvelope_length]; simp; omega) + (maxR (tdEnvelope n (id x))).getD 0 * (1 / 1000000) := by
        rw [div_pow]
        have : (tdEnvelope n (id x))[i]'(by rw [tdEnvelope_length]; simp; omega) = (tdEnvelope n x)[i]'(by rw [tdEnvelope_length]; omega) := rfl
        rw [this]
        nlinarith
      have hs := Real.abs_le_sqrt hE
      rw [abs_div, abs_of_pos hn', div_le_iff₀ hn'] at hs
      have hp : 0 < (tdEnvelope n (id x))[i]'(by rw [tdEnvelope_length]; simp; omega) + (maxR (tdEnvelope n (id x))).getD 0 * (1 / 1000000) :=
        lt_of_le_of_ne ((sq_nonneg _).trans hE) (Ne.symm hne)
      rw [abs_div, abs_of_nonneg (Real.sqrt_nonneg _), div_le_iff₀ (Real.sqrt_pos.mpr hp)]
      linarith

/-- C124: windows without length are refused -/
theorem c124_refused (filt : List ℝ → List ℝ) (npts : Nat) (sr w : Rat) (A : List (List (Option ℝ))) (hw : w ≤ 0) :
    tdNormalization filt npts sr w A = .error .valueError := by
  unfold tdNormalization
  rw [if_pos hw]

/-- C124 is violated: a silent trace becomes NaN everywhere -/
theorem c124_silent_violated (npts : Nat) (sr w : Rat) (hsr : 0 < sr) (hw : 0 < w) (hl : w * sr ≤ npts) :
    tdNormalization id npts sr w [List.replicate npts (some 0)] = .ok [List.replicate npts none] := by
  have hpos : 0 < (w * sr).ceil := ratLt_ceil (by exact_mod_cast mul_pos hw hsr)
  have hle : (w * sr).ceil ≤ npts := by
    rw [Rat.ceil_le_iff]; exact_mod_cast hl
  unfold tdNormalization
  rw [if_neg (not_le.mpr hw)]
  simp only
  rw [if_neg (fun h => by have := h.1; omega)]
  have hrep : List.replicate npts (some (0 : ℝ)) = (List.replicate npts (0 : ℝ)).map some := by simp
  simp only [List.map_cons, List.map_nil, hrep]
  rw [tdNormRow_valid]
  have hE : tdEnvelope (w * sr).ceil.toNat (id (List.replicate npts (0 : ℝ))) = List.replicate npts 0 := by
    have h0 : List.replicate npts (0 : ℝ) = (List.replicate npts (0 : ℝ)).map ((0 : ℝ) * ·) := by simp
    rw [id, h0, tdEnvelope_scale]
    apply List.ext_getElem
    · simp [tdEnvelope_length]
    · intro i h1 h2; simp
  have hm : (maxR (List.replicate npts (0 : ℝ))).getD 0 = 0 := by
    cases hm : maxR (List.replicate npts (0 : ℝ)) with
    | none => rfl
    | some m => exact List.eq_of_mem_replicate (maxR_spec _ _ hm).1
  rw [hE, hm]
  congr 2
  apply List.ext_getElem
  · simp
  · intro i h1 h2; simp

/-- C124 is violated: a trace with a missing sample is lost -/
theorem c124_nan_violated (filt : List ℝ → List ℝ) (npts : Nat) (sr w : Rat) (A B : List (List (Option ℝ)))
    (h : tdNormalization filt npts sr w A = .ok B) :
    List.Forall₂ (fun a b => none ∈ a → b = a.map fun _ => none) A B := by
  obtain ⟨_, rfl⟩ := tdNormalization_ok h
  rw [List.forall₂_map_right_iff, List.forall₂_same]
  intro a _ ha
  unfold tdNormRow
  rw [if_pos ha]

/-- C124 is violated: with a window that is longer than the traces there is no result -/
theorem c124_long_violated (filt : List ℝ → List ℝ) (npts : Nat) (sr w : Rat) (A : List (List (Option ℝ))) (hA : A ≠ []) (hl : npts < w * sr) :
    tdNormalization filt npts sr w A = .error .valueError := by
  unfold tdNormalization
  split
  · rfl
  · simp only
    have : (npts : Int) < (w * sr).ceil := ratLt_ceil (by exact_mod_cast hl)
    rw [if_pos ⟨by omega, hA⟩]

/-- the hypotheses can be met: a trace that is not silent, with a window of two samples -/
example : ∃ B, tdNormalization id 4 2 1 [[1, -2, 3, 1].map some] = .ok B ∧
    List.Forall₂ (fun x r => Normalised (1 * 2 : Rat).ceil.toNat x x r) [[1, -2, 3, 1]] B :=
  c124_value_partial id (fun _ => rfl) 4 2 1 (by norm_num) (by norm_num) (by norm_num) [[1, -2, 3, 1]]
    (by intro x hx; obtain rfl := List.mem_singleton.mp hx; exact ⟨1, by simp, one_ne_zero⟩)

end

end SeisMIC
