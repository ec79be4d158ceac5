import Verif.Model.MuteFloat
import Verif.Lemmas.Amplitude
import Verif.Lemmas.Float
import Verif.Props.Subsample

/-!
# C208: what is quiet survives muting
-/

namespace SeisMIC
open Finset

theorem convSame_getElem? (a v : List ℝ) (k : Nat) (hk : k < a.length) :
    (convSame a v)[k]? = some (∑ j ∈ range v.length,
      v.getD j 0 * if j ≤ k + (v.length - 1) / 2 then a.getD (k + (v.length - 1) / 2 - j) 0 else 0) := by
  unfold convSame
  rw [List.getElem?_map, List.getElem?_range hk]
  rfl

theorem convSame_bounds (a v : List ℝ) (k : Nat) (hv : ∀ j, 0 ≤ v.getD j 0) (ha : ∀ l, 0 ≤ a.getD l 0 ∧ a.getD l 0 ≤ 1)
    (hs : ∑ j ∈ range v.length, v.getD j 0 ≤ 1) (w : ℝ) (hk : k < a.length) (hw : (convSame a v)[k]? = some w) :
    0 ≤ w ∧ w ≤ 1 := by
  rw [convSame_getElem? a v k hk] at hw
  cases hw
  have hb : ∀ j, 0 ≤ (if j ≤ k + (v.length - 1) / 2 then a.getD (k + (v.length - 1) / 2 - j) 0 else 0) ∧
      (if j ≤ k + (v.length - 1) / 2 then a.getD (k + (v.length - 1) / 2 - j) 0 else 0) ≤ 1 := by
    intro j
    split
    · exact ha _
    · exact ⟨le_rfl, zero_le_one⟩
  constructor
  · exact Finset.sum_nonneg fun j _ => mul_nonneg (hv j) (hb j).1
  · refine le_trans (Finset.sum_le_sum fun j _ => ?_) hs
    exact mul_le_of_le_one_right (hv j) (hb j).2

theorem convSame_ones (a v : List ℝ) (k : Nat) (hk : k < a.length) (hl : v.length ≤ k + (v.length - 1) / 2 + 1)
    (ha : ∀ l, k + (v.length - 1) / 2 < l + v.length → l ≤ k + (v.length - 1) / 2 → a.getD l 0 = 1) :
    (convSame a v)[k]? = some (∑ j ∈ range v.length, v.getD j 0) := by
  rw [convSame_getElem? a v k hk]
  congr 1
  refine Finset.sum_congr rfl fun j hj => ?_
  have hj := Finset.mem_range.1 hj
  rw [if_pos (by omega), ha _ (by omega) (by omega), mul_one]

theorem muteTap_getD (n j : Nat) : (muteTap n).getD j 0 = if j < n then (1 - Real.cos (2 * Real.pi * (1 : ℤ) * j / n)) / n else 0 := by
  unfold muteTap
  by_cases h : j < n
  · rw [if_pos h, List.getD_eq_getElem?_getD, List.getElem?_map, List.getElem?_range h]
    simp only [Option.map_some, Option.getD_some]
    rw [show (j : ℝ) / n * 2 * Real.pi = 2 * Real.pi * (1 : ℤ) * j / n by push_cast; ring]
    ring
  · rw [if_neg h, List.getD_eq_default _ _ (by simpa using h)]

theorem muteTap_length (n : Nat) : (muteTap n).length = n := by simp [muteTap]

theorem muteTap_nonneg (n j : Nat) : 0 ≤ (muteTap n).getD j 0 := by
  rw [muteTap_getD]
  split
  · have := Real.cos_le_one (2 * Real.pi * (1 : ℤ) * j / n)
    exact div_nonneg (by linarith) (Nat.cast_nonneg _)
  · exact le_rfl

theorem muteTap_sum (n : Nat) (h : 2 ≤ n) : ∑ j ∈ range (muteTap n).length, (muteTap n).getD j 0 = 1 := by
  rw [muteTap_length, Finset.sum_congr rfl (g := fun j : ℕ => (1 - Real.cos (2 * Real.pi * (1 : ℤ) * j / n)) / n)
    (fun j hj => by rw [muteTap_getD, if_pos (Finset.mem_range.1 hj)]), ← Finset.sum_div, Finset.sum_sub_distrib,
    Xcorr.sum_cos n (by omega) 1, if_neg (by intro hd; have := Int.le_of_dvd (by norm_num) hd; omega)]
  have : (n : ℝ) ≠ 0 := by positivity
  simp [this]

theorem muteTap_one : (muteTap 1) = [0] := by simp [muteTap]; norm_num

theorem muteTap_sum_le (n : Nat) (h : 1 ≤ n) : ∑ j ∈ range (muteTap n).length, (muteTap n).getD j 0 ≤ 1 := by
  rcases Nat.lt_or_ge n 2 with h2 | h2
  · obtain rfl : n = 1 := by omega
    rw [muteTap_one]; simp
  · exact (muteTap_sum n h2).le

theorem getD_map_bounds {α : Type} (l : List α) (p : α → Prop) [DecidablePred p] (k : Nat) :
    0 ≤ (l.map fun x => if p x then (0 : ℝ) else 1).getD k 0 ∧ (l.map fun x => if p x then (0 : ℝ) else 1).getD k 0 ≤ 1 := by
  rw [List.getD_eq_getElem?_getD, List.getElem?_map]
  cases l[k]? with
  | none => simp
  | some x => simp only [Option.map_some, Option.getD_some]; split <;> norm_num

/-- **C208** (exact arithmetic, a taper of two samples or more) Muting never enlarges an amplitude and never changes a sign, and a
sample survives unchanged if it is farther than the taper from both ends of the trace and the trace in which large amplitudes are
searched stays at or below the threshold within one taper length of the sample.
Missing: a taper of one sample (`c208_one_violated`), samples near the ends (`c208_ends_violated`) and rounding
(`c208_rounding_violated`). -/
theorem c208_quiet_partial (filt : List ℝ → List ℝ) (A out : List (List ℝ)) (npts ntap : Nat) (sr : Rat) (args : MuteArgs)
    (hrun : mute filt A npts sr args = .ok out) (hn : truncRat (args.taperLen * sr) = ntap) (h2 : 2 ≤ ntap) (hlong : ntap < npts)
    (hA : ∀ row ∈ A, row.length = npts) (hf : ∀ row, (filt row).length = row.length) :
    out.length = A.length ∧
    ∀ (i : Nat) (row : List ℝ), A[i]? = some row → ∃ row', out[i]? = some row' ∧ row'.length = npts ∧
      ∀ (k : Nat) (x : ℝ), row[k]? = some x → ∃ y, row'[k]? = some y ∧ |y| ≤ |x| ∧ 0 ≤ y * x ∧
        (ntap ≤ k → k + ntap < npts →
          (∀ (l : Nat) (z : ℝ), (filt row)[l]? = some z → k ≤ l + ntap → l ≤ k + ntap → |z| ≤ args.thres (filt row)) → y = x) := by
  unfold mute at hrun
  split at hrun
  · cases hrun
  simp only [hn] at hrun
  rw [if_neg (by omega), if_neg (by omega)] at hrun
  cases hrun
  refine ⟨by simp, fun i row hi => ?_⟩
  have hrow := hA row (List.mem_of_getElem? hi)
  have hfl : (filt row).length = npts := by rw [hf, hrow]
  have hwl : (muteWeights args ntap (filt row)).length = npts := by
    unfold muteWeights
    simp only
    split <;> simp [convSame, hfl]
  refine ⟨List.zipWith (· * ·) row (muteWeights args ntap (filt row)), by rw [List.getElem?_map, hi]; rfl, by simp [hrow, hwl], ?_⟩
  intro k x hx
  have hk : k < npts := by rw [← hrow]; exact (List.getElem?_eq_some_iff.1 hx).1
  obtain ⟨w, hw⟩ : ∃ w, (muteWeights args ntap (filt row))[k]? = some w := ⟨_, List.getElem?_eq_getElem (by omega)⟩
  have hw' := hw
  unfold muteWeights at hw
  simp only at hw
  generalize hmask : ((filt row).map fun x => if |x| > args.thres (filt row) then (0 : ℝ) else 1) = mask at hw
  have hml : mask.length = npts := by rw [← hmask]; simp [hfl]
  generalize hnm : (if args.extendGaps = true then
      (convSame mask (List.replicate ntap (1 / (ntap : ℝ)))).map fun x => if x < 1 then (0 : ℝ) else 1 else mask) = nmask at hw
  have hnl : nmask.length = npts := by rw [← hnm]; split <;> simp [convSame, hml]
  have hnb : ∀ l, 0 ≤ nmask.getD l 0 ∧ nmask.getD l 0 ≤ 1 := by
    intro l
    rw [← hnm]
    split
    · exact getD_map_bounds _ (fun x : ℝ => x < 1) l
    · rw [← hmask]; exact getD_map_bounds _ (fun x : ℝ => |x| > args.thres (filt row)) l
  obtain ⟨w0, w1⟩ := convSame_bounds nmask (muteTap ntap) k (muteTap_nonneg ntap) hnb (muteTap_sum_le ntap (by omega)) w (by omega) hw
  refine ⟨x * w, by rw [List.getElem?_zipWith, hx, hw'], ?_, ?_, ?_⟩
  · rw [abs_mul, abs_of_nonneg w0]
    exact mul_le_of_le_one_right (abs_nonneg _) w1
  · nlinarith [mul_self_nonneg x]
  · intro hlo hhi hq
    have hm1 : ∀ l, k ≤ l + ntap → l ≤ k + ntap → mask.getD l 0 = 1 := by
      intro l h1 h3
      have hl : l < (filt row).length := by omega
      have := hq l _ (List.getElem?_eq_getElem hl) h1 h3
      rw [← hmask, List.getD_eq_getElem?_getD, List.getElem?_map, List.getElem?_eq_getElem hl]
      simp only [Option.map_some, Option.getD_some]
      rw [if_neg (by linarith)]
    have hw2 := convSame_ones nmask (muteTap ntap) k (by omega) (by rw [muteTap_length]; omega) (by
      rw [muteTap_length]
      intro l h1 h3
      rw [← hnm]
      split
      · have hc := convSame_ones mask (List.replicate ntap (1 / (ntap : ℝ))) l (by omega) (by simp; omega) (by
          rw [List.length_replicate]
          intro l' h4 h5
          exact hm1 l' (by omega) (by omega))
        rw [List.getD_eq_getElem?_getD, List.getElem?_map, hc]
        simp only [Option.map_some, Option.getD_some]
        rw [if_neg]
        rw [List.length_replicate, Finset.sum_congr rfl (g := fun _ => 1 / (ntap : ℝ)) (fun j hj => by
          rw [List.getD_eq_getElem _ _ (by simpa using hj)]; simp)]
        have : (ntap : ℝ) ≠ 0 := by positivity
        simp [this]
      · exact hm1 l (by omega) (by omega))
    rw [hw2, muteTap_sum ntap h2] at hw
    cases hw
    exact mul_one x

/-- the hypotheses of `c208_quiet_partial` are met: one trace of five samples, a taper of two and the third sample -/
example : ∃ out, mute id [[0, 1, 1, 1, 0]] 5 2 ⟨1, some 3, none, true⟩ = .ok out ∧ truncRat ((1 : Rat) * 2) = (2 : Nat) ∧
    (∀ (l : Nat) (z : ℝ), ([0, 1, 1, 1, 0] : List ℝ)[l]? = some z → |z| ≤ 3) := by
  have hrun : ∃ out, mute id [[0, 1, 1, 1, 0]] 5 2 ⟨1, some 3, none, true⟩ = .ok out := by
    unfold mute
    rw [if_neg (show ¬(1 : Rat) = 0 by decide)]
    simp only [show truncRat ((1 : Rat) * 2) = 2 by decide +kernel]
    rw [if_neg (by decide), if_neg (by decide)]
    exact ⟨_, rfl⟩
  obtain ⟨out, ho⟩ := hrun
  refine ⟨out, ho, by decide +kernel, ?_⟩
  · intro l z hz
    have := List.mem_of_getElem? hz
    simp at this
    rcases this with rfl | rfl | rfl <;> norm_num

/-- **C208 is violated** by a taper of one sample: it consists of a zero, so every trace of two samples or more becomes zero everywhere,
whatever its amplitudes and the threshold. -/
theorem c208_one_violated (A : List (List ℝ)) (npts : Nat) (sr : Rat) (args : MuteArgs) (h1 : truncRat (args.taperLen * sr) = 1)
    (hlong : 1 < npts) (h0 : args.taperLen ≠ 0) :
    mute id A npts sr args = .ok (A.map fun row => row.map fun _ => 0) := by
  unfold mute
  rw [if_neg h0]
  simp only [h1]
  rw [if_neg (by omega), if_neg (by omega)]
  congr 1
  refine List.map_congr_left fun row _ => ?_
  simp only [Int.toNat_one, muteWeights, muteTap_one, id]
  generalize hnm : (if args.extendGaps = true then
      (convSame (row.map fun x => if |x| > args.thres row then (0 : ℝ) else 1) (List.replicate 1 (1 / ((1 : Nat) : ℝ)))).map
        fun x => if x < 1 then (0 : ℝ) else 1
      else row.map fun x => if |x| > args.thres row then (0 : ℝ) else 1) = nmask
  have hl : nmask.length = row.length := by rw [← hnm]; split <;> simp [convSame]
  apply List.ext_getElem?
  intro k
  rw [List.getElem?_zipWith, List.getElem?_map]
  by_cases hk : k < row.length
  · rw [convSame_getElem? _ _ _ (by omega), List.getElem?_eq_getElem hk]
    simp
  · rw [List.getElem?_eq_none (by omega)]; rfl

/-- a taper of 0.04 s at 25 Hz has one sample -/
example : truncRat ((1 / 25 : Rat) * 25) = 1 ∧ (1 / 25 : Rat) ≠ 0 := by decide +kernel

/-- **C208 is violated** at the ends of a trace: a constant trace that never exceeds the threshold is not returned as it is. Here four
ones with a taper of two samples come back as `0, 1, 1, 1`. -/
theorem c208_ends_violated : mute id [[1, 1, 1, 1]] 4 2 ⟨1, some 5, none, false⟩ = .ok [[0, 1, 1, 1]] := by
  have ht : muteTap 2 = [0, 1] := by
    simp [muteTap, List.range_succ]
    norm_num
  unfold mute
  rw [if_neg (by decide)]
  simp only [show truncRat ((1 : Rat) * 2) = 2 by decide +kernel]
  rw [if_neg (by decide), if_neg (by decide)]
  simp [muteWeights, MuteArgs.thres, ht, convSame, List.range_succ]

/-! ### rounding -/

theorem foldl_f64_mono : ∀ (l l' : List Rat) (s s' : Rat), s ≤ s' → List.Forall₂ (· ≤ ·) l l' →
    l.foldl (fun s x => f64 (s + x)) s ≤ l'.foldl (fun s x => f64 (s + x)) s'
  | [], _, s, s', h, hl => by cases hl; exact h
  | x :: l, _, s, s', h, hl => by
    cases hl with
    | cons hx hl => exact foldl_f64_mono l _ (f64 (s + x)) (f64 (s' + _)) (roundTo_mono 53 (by decide) (add_le_add h hx)) hl

/-- ten rounded tenths, added one after the other, stay below one -/
theorem ten_tenths : (List.replicate 10 (f64 (1 / 10))).foldl (fun s x => f64 (s + x)) 0 < 1 := by decide +kernel

theorem movingMeanF_ten (mask : List Rat) (h : ∀ x ∈ mask, x = 0 ∨ x = 1) : ∀ x ∈ movingMeanF mask 10, x < 1 := by
  intro x hx
  unfold movingMeanF at hx
  obtain ⟨i, _, rfl⟩ := List.mem_map.1 hx
  refine lt_of_le_of_lt (foldl_f64_mono _ (List.replicate 10 (f64 (1 / 10))) _ _ le_rfl ?_) ten_tenths
  rw [List.forall₂_iff_get]
  refine ⟨by simp, ?_⟩
  intro j h1 h2
  have h3 : (0 : Rat) ≤ f64 (1 / 10) := roundTo_nonneg 53 _ (by norm_num)
  simp only [List.get_eq_getElem, List.getElem_map, List.getElem_range, List.getElem_replicate]
  have hm : ∀ y : Rat, (y = 0 ∨ y = 1) → y * f64 (1 / ((10 : Nat) : Rat)) ≤ f64 (1 / 10) := by
    intro y hy
    push_cast
    rcases hy with rfl | rfl
    · simpa using h3
    · simp
  apply hm
  split
  · rw [List.getD_eq_getElem?_getD]
    cases hg : mask[i + (10 - 1) / 2 - (10 - 1 - j)]? with
    | none => left; rfl
    | some y => exact h y (List.mem_of_getElem? hg)
  · left; rfl

/-- **C208 is violated** by the rounding of the moving average when muted segments are to be extended: with a taper of ten samples (1 s
at 10 Hz) the rounded mean of ten ones is below one, so every sample counts as part of a muted segment and every trace longer than the
taper becomes zero everywhere, whatever its amplitudes and the threshold. -/
theorem c208_rounding_violated (A : List (List ℝ)) (npts : Nat) (hlong : 10 < npts) (threshold stdFactor : Option ℝ) :
    muteF id A npts 10 ⟨1, threshold, stdFactor, true⟩ = .ok (A.map fun row => row.map fun _ => 0) := by
  unfold muteF
  rw [if_neg (show ¬(1 : Rat) = 0 by decide)]
  simp only [show truncRat ((1 : Rat) * 10) = 10 by decide +kernel]
  rw [if_neg (by omega), if_neg (by omega)]
  congr 1
  refine List.map_congr_left fun row _ => ?_
  simp only [muteWeightsF, id, if_true, show (10 : Int).toNat = 10 from rfl]
  generalize hmask : (row.map fun x => if |x| > MuteArgs.thres ⟨1, threshold, stdFactor, true⟩ row then (0 : Rat) else 1) = mask
  have hml : mask.length = row.length := by rw [← hmask]; simp
  have h01 : ∀ x ∈ mask, x = 0 ∨ x = 1 := by
    intro x hx
    rw [← hmask] at hx
    obtain ⟨y, _, rfl⟩ := List.mem_map.1 hx
    split <;> simp
  have hz : ((movingMeanF mask 10).map fun x => if x < 1 then (0 : ℝ) else 1) = List.replicate row.length 0 := by
    rw [List.map_congr_left (g := fun _ => (0 : ℝ)) (fun x hx => if_pos (movingMeanF_ten mask h01 x hx))]
    rw [List.map_const', show (movingMeanF mask 10).length = row.length by simp [movingMeanF, hml]]
  rw [hz]
  apply List.ext_getElem?
  intro k
  rw [List.getElem?_zipWith, List.getElem?_map]
  by_cases hk : k < row.length
  · rw [convSame_getElem? _ _ _ (by simpa using hk), List.getElem?_eq_getElem hk]
    simp
  · rw [List.getElem?_eq_none (by omega)]; rfl

/-- **C208** (the call of `c208_rounding_violated` in exact arithmetic) It returns the middle of a quiet trace as it is. -/
theorem c208_rounding_exact_partial (row : List ℝ) (hl : row.length = 25) (t : ℝ) (ht : ∀ x ∈ row, |x| ≤ t) :
    ∃ row', mute id [row] 25 10 ⟨1, some t, none, true⟩ = .ok [row'] ∧ ∀ k : Nat, 10 ≤ k → k < 15 → row'[k]? = row[k]? := by
  have hrun : ∃ out, mute id [row] 25 10 ⟨1, some t, none, true⟩ = .ok out := by
    unfold mute
    rw [if_neg (show ¬(1 : Rat) = 0 by decide)]
    simp only [show truncRat ((1 : Rat) * 10) = 10 by decide +kernel]
    rw [if_neg (by decide), if_neg (by decide)]
    exact ⟨_, rfl⟩
  obtain ⟨out, ho⟩ := hrun
  obtain ⟨hlen, hq⟩ := c208_quiet_partial id [row] out 25 10 10 ⟨1, some t, none, true⟩ ho (show truncRat ((1 : Rat) * 10) = (10 : Nat) by decide +kernel) (by decide) (by decide)
    (by simpa using hl) (fun _ => rfl)
  obtain ⟨row', h1, _, h3⟩ := hq 0 row rfl
  refine ⟨row', ?_, ?_⟩
  · rw [ho]
    match out, hlen, h1 with
    | [r], _, h1 => simp at h1; rw [h1]
  · intro k hk1 hk2
    have hk : k < row.length := by omega
    obtain ⟨y, hy, _, _, hyx⟩ := h3 k _ (List.getElem?_eq_getElem hk)
    rw [hy, hyx hk1 (by omega) (fun l z hz _ _ => ht z (List.mem_of_getElem? hz)), List.getElem?_eq_getElem hk]

end SeisMIC
