import Mathlib.Data.List.GetD
import Verif.Lemmas.Amplitude
import Mathlib.Tactic.NormNum

/-!
# C77, C78, C88: whitening, muting, one-bit and standard-deviation normalisation
-/

namespace SeisMIC

/-! ### C77 -/

theorem getElem?_whitenAbs (B : List (List ℂ)) (i : Nat) :
    (whitenAbs false B)[i]? = (B[i]?).map fun row => row.map fun z => ‖z‖ := by
  simp [whitenAbs]

/-- **C77** (no zero amplitude in the block) If no sample of the block has amplitude
zero: after whitening without joint normalisation, every sample except those at
frequency zero has amplitude one and the phase of the old sample, and those at
frequency zero are zero.
Missing: blocks with a zero sample, see `c77_zero_violated`. -/
theorem c77_whitening_partial (B : List (List ℂ)) (hB : ∀ row ∈ B, ∀ z ∈ row, z ≠ 0) :
    ∃ out, spectralWhitening false B = .ok out ∧ out.length = B.length ∧
      ∀ (i : Nat) (row : List ℂ), B[i]? = some row → ∃ row', out[i]? = some row' ∧ row'.length = row.length ∧
        ∀ (j : Nat) (z : ℂ), row[j]? = some z → ∃ y, row'[j]? = some y ∧
          (j = 0 → y = 0) ∧ (j ≠ 0 → ‖y‖ = 1 ∧ y * ‖z‖ = z) := by
  have hno : ¬ ∃ row ∈ whitenAbs false B, (0 : ℝ) ∈ row := by
    rintro ⟨row, hr, h0⟩
    obtain ⟨i, hi⟩ := List.getElem?_of_mem hr
    rw [getElem?_whitenAbs] at hi
    obtain ⟨row0, h1, rfl⟩ := Option.map_eq_some_iff.1 hi
    obtain ⟨z, hz, hz0⟩ := List.mem_map.1 h0
    exact hB row0 (List.mem_of_getElem? h1) z hz (norm_eq_zero.1 hz0)
  refine ⟨(List.zipWith (List.zipWith fun (z : ℂ) (a : ℝ) => z / (a : ℂ)) B (whitenAbs false B)).map
    fun row => row.set 0 0, ?_, ?_, ?_⟩
  · unfold spectralWhitening
    rw [if_neg (by simp)]
    simp only
    rw [if_neg hno]
  · simp [whitenAbs]
  · intro i row hi
    refine ⟨(List.zipWith (fun (z : ℂ) (a : ℝ) => z / (a : ℂ)) row (row.map fun z => ‖z‖)).set 0 0, ?_, by simp, ?_⟩
    · rw [List.getElem?_map, List.getElem?_zipWith, getElem?_whitenAbs, hi]
      rfl
    · intro j z hj
      have hz0 : z ≠ 0 := hB row (List.mem_of_getElem? hi) z (List.mem_of_getElem? hj)
      have hn : (‖z‖ : ℂ) ≠ 0 := by exact_mod_cast (norm_ne_zero_iff.2 hz0)
      by_cases h0 : j = 0
      · subst h0
        refine ⟨0, ?_, fun _ => rfl, fun h => absurd rfl h⟩
        obtain ⟨hl, -⟩ := List.getElem?_eq_some_iff.1 hj
        rw [List.getElem?_set_self (by simpa using hl)]
      · refine ⟨z / (‖z‖ : ℂ), ?_, fun h => absurd h h0, fun _ => ⟨?_, ?_⟩⟩
        · rw [List.getElem?_set_ne (Ne.symm h0), List.getElem?_zipWith, List.getElem?_map, hj]
          rfl
        · rw [norm_div, Complex.norm_real, norm_norm, div_self (norm_ne_zero_iff.2 hz0)]
        · rw [div_mul_cancel₀ _ hn]

example : ∀ row ∈ [[(2 : ℂ), 3 * Complex.I]], ∀ z ∈ row, z ≠ 0 := by
  intro row hr z hz
  simp only [List.mem_singleton] at hr
  subst hr
  simp only [List.mem_cons, List.not_mem_nil, or_false] at hz
  rcases hz with rfl | rfl
  · norm_num
  · simp

/-- **C77** (what happens otherwise) If one sample of the block has amplitude zero,
no sample of any trace is whitened: only frequency zero is set to zero. -/
theorem c77_zero_sample (B : List (List ℂ)) (hB : ∃ row ∈ B, (0 : ℂ) ∈ row) :
    spectralWhitening false B = .ok (B.map fun row => row.set 0 0) := by
  unfold spectralWhitening
  rw [if_neg (by simp)]
  simp only
  rw [if_pos]
  obtain ⟨row, hr, h0⟩ := hB
  exact ⟨row.map fun z => ‖z‖, by simp [whitenAbs]; exact ⟨row, hr, rfl⟩, List.mem_map.2 ⟨0, h0, norm_zero⟩⟩

/-- **C77** is violated: a trace of zeros (a gap) prevents that the other trace of
the same process is whitened; the sample 5 keeps its amplitude. -/
theorem c77_zero_violated : spectralWhitening false [[1, 5], [0, 0]] = .ok [[0, 5], [0, 0]] := by
  rw [c77_zero_sample _ ⟨[0, 0], by simp, by simp⟩]
  simp

/-- **C77** (consequence for parallel runs) The result for a trace depends on the
other traces in the block of the process, hence on the number of processes: alone,
the first trace is whitened. -/
theorem c77_block_violated :
    spectralWhitening false [[1, 5]] = .ok [[0, 1]] ∧ spectralWhitening false [[1, 5], [0, 0]] = .ok [[0, 5], [0, 0]] := by
  refine ⟨?_, c77_zero_violated⟩
  unfold spectralWhitening
  rw [if_neg (by simp)]
  simp only
  rw [if_neg (by simp [whitenAbs])]
  have h5 : ‖(5 : ℂ)‖ = 5 := by simp
  simp [whitenAbs]

/-- **C77** (joint normalisation) The joint normalisation raises `AssertionError`
unless the number of traces in the block is a multiple of three. Together with the
distribution of traces over processes, the same data fail or not depending on the
number of processes. -/
theorem c77_joint_rejects (B : List (List ℂ)) (h : B.length % 3 ≠ 0) :
    spectralWhitening true B = .error .assertionError := by
  unfold spectralWhitening
  rw [if_pos ⟨rfl, h⟩]

/-- mean amplitude of the three spectra `3g`, `3g+1`, `3g+2` at frequency `j` -/
noncomputable def jointAmplitude (B : List (List ℂ)) (g j : Nat) : ℝ :=
  (‖(B.getD (3 * g) []).getD j 0‖ + ‖(B.getD (3 * g + 1) []).getD j 0‖ + ‖(B.getD (3 * g + 2) []).getD j 0‖) / 3

theorem whitenAbs_joint (B : List (List ℂ)) (m : Nat) (hB : ∀ row ∈ B, row.length = m) (h3 : B.length % 3 = 0) (i j : Nat)
    (hi : i < (whitenAbs true B).length) (hj : j < (whitenAbs true B)[i].length) :
    ((whitenAbs true B)[i])[j] = jointAmplitude B (i / 3) j := by
  have hi' : i < B.length := by simpa [whitenAbs] using hi
  have hrow : B[i].length = m := hB _ (List.getElem_mem _)
  have hj' : j < m := by
    have : j < B[i].length := by simpa [whitenAbs] using hj
    omega
  have hlen : ∀ k, k < 3 → i / 3 * 3 + k < B.length := by intro k hk; omega
  have hnorm : ∀ k (hk : k < B.length), ((B[k].map fun z => ‖z‖).getD j 0 : ℝ) = ‖(B.getD k []).getD j 0‖ := by
    intro k hk
    have hl : B[k].length = m := hB _ (List.getElem_mem _)
    rw [List.getD_eq_getElem _ _ (by simpa [hl] using hj'), List.getD_eq_getElem _ _ hk, List.getD_eq_getElem _ _ (by rw [hl]; exact hj')]
    simp
  have h0 := hlen 0 (by omega); have h1 := hlen 1 (by omega); have h2 := hlen 2 (by omega)
  have htake : ((B.map fun row => row.map fun z => ‖z‖).drop (i / 3 * 3)).take 3 =
      [B[i / 3 * 3].map (fun z => ‖z‖), B[i / 3 * 3 + 1].map (fun z => ‖z‖), B[i / 3 * 3 + 2].map (fun z => ‖z‖)] := by
    apply List.ext_getElem
    · simp; omega
    · intro k hk1 hk2
      have : k < 3 := by simpa using hk2
      rw [List.getElem_take, List.getElem_drop, List.getElem_map]
      match k, this with
      | 0, _ => rfl
      | 1, _ => rfl
      | 2, _ => rfl
  have : ((whitenAbs true B)[i])[j] = ((((B.map fun row => row.map fun z => ‖z‖).drop (i / 3 * 3)).take 3).map fun r => r.getD j 0).sum / 3 := by
    simp [whitenAbs]
  rw [this, htake]
  simp only [List.map_cons, List.map_nil, List.sum_cons, List.sum_nil, jointAmplitude]
  rw [hnorm _ _, hnorm _ h1, hnorm _ h2, Nat.mul_comm 3]
  ring

/-- **C77** (joint normalisation) The spectra of three components are divided by the mean of their three amplitudes, frequency by frequency, and
the zero frequency is set to zero.
Missing: if the three amplitudes are zero at some frequency, nothing is divided (as in `c77_zero_sample`). -/
theorem c77_joint_partial (B : List (List ℂ)) (m : Nat) (hB : ∀ row ∈ B, row.length = m) (h3 : B.length % 3 = 0)
    (hpos : ∀ i j, i < B.length → j < m → jointAmplitude B (i / 3) j ≠ 0) :
    ∃ out, spectralWhitening true B = .ok out ∧ out.length = B.length ∧ (∀ row ∈ out, row.length = m) ∧
      ∀ i j, i < B.length → j < m →
        (out.getD i []).getD j 1 = if j = 0 then 0 else (B.getD i []).getD j 0 / (jointAmplitude B (i / 3) j : ℂ) := by
  have hwl : (whitenAbs true B).length = B.length := by simp [whitenAbs]
  have hwr : ∀ i (hi : i < (whitenAbs true B).length) (hi' : i < B.length), (whitenAbs true B)[i].length = B[i].length := by
    intro i hi hi'
    simp [whitenAbs]
  have hno : ¬ ∃ row ∈ whitenAbs true B, (0 : ℝ) ∈ row := by
    rintro ⟨row, hr, h0⟩
    obtain ⟨i, hi, rfl⟩ := List.mem_iff_getElem.1 hr
    obtain ⟨j, hj, he⟩ := List.mem_iff_getElem.1 h0
    have hi' : i < B.length := by rw [← hwl]; exact hi
    rw [whitenAbs_joint B m hB h3 i j hi hj] at he
    refine hpos i j hi' ?_ he
    rw [hwr i hi hi', hB _ (List.getElem_mem _)] at hj
    exact hj
  refine ⟨(List.zipWith (List.zipWith fun z (a : ℝ) => z / (a : ℂ)) B (whitenAbs true B)).map (fun row => row.set 0 0),
    by unfold spectralWhitening; rw [if_neg (by simp [h3])]; simp only [if_neg hno], by simp [hwl], ?_, ?_⟩
  · intro row hr
    obtain ⟨r, hr', rfl⟩ := List.mem_map.1 hr
    obtain ⟨i, hi, rfl⟩ := List.mem_iff_getElem.1 hr'
    have hi' : i < B.length := by simp [hwl] at hi; exact hi
    rw [List.length_set, List.getElem_zipWith, List.length_zipWith, hwr i (by rw [hwl]; exact hi') hi', Nat.min_self]
    exact hB _ (List.getElem_mem _)
  intro i j hi hj
  have hrow : B[i].length = m := hB _ (List.getElem_mem _)
  rw [List.getD_eq_getElem _ ([] : List ℂ) (by simp [hwl, hi]), List.getElem_map, List.getElem_zipWith]
  have hw := hwr i (by rw [hwl]; exact hi) hi
  rw [List.getD_eq_getElem _ _ (by rw [List.length_set, List.length_zipWith, hw, hrow]; exact lt_min hj hj), List.getElem_set]
  by_cases h0 : j = 0
  · simp [h0]
  · rw [if_neg (Ne.symm h0), if_neg h0, List.getElem_zipWith, whitenAbs_joint B m hB h3]
    rw [List.getD_eq_getElem _ _ hi, List.getD_eq_getElem _ _ (by rw [hrow]; exact hj)]

/-- Hence the three amplitudes of a jointly normalised set have the mean one.
Missing for the full property: `c77_zero_violated`, `c77_block_violated`. -/
theorem c77_joint_mean_partial (B : List (List ℂ)) (m : Nat) (hB : ∀ row ∈ B, row.length = m) (h3 : B.length % 3 = 0)
    (hpos : ∀ i j, i < B.length → j < m → jointAmplitude B (i / 3) j ≠ 0) :
    ∃ out, spectralWhitening true B = .ok out ∧ ∀ g j, 3 * g < B.length → 0 < j → j < m → jointAmplitude out g j = 1 := by
  obtain ⟨out, h1, h2, h5, h4⟩ := c77_joint_partial B m hB h3 hpos
  refine ⟨out, h1, ?_⟩
  intro g j hg hj0 hj
  have hne : jointAmplitude B g j ≠ 0 := by
    have := hpos (3 * g) j hg hj
    rwa [Nat.mul_div_cancel_left _ (by omega)] at this
  have hnn : 0 ≤ jointAmplitude B g j := by unfold jointAmplitude; positivity
  have hval : ∀ k, k < 3 → ‖(out.getD (3 * g + k) []).getD j 0‖ = ‖(B.getD (3 * g + k) []).getD j 0‖ / jointAmplitude B g j := by
    intro k hk
    have hlt : 3 * g + k < B.length := by omega
    have hv := h4 (3 * g + k) j hlt hj
    rw [if_neg (by omega), show (3 * g + k) / 3 = g by omega] at hv
    have hin : j < (out.getD (3 * g + k) []).length := by
      rw [List.getD_eq_getElem _ _ (by rw [h2]; exact hlt), h5 _ (List.getElem_mem _)]
      exact hj
    rw [List.getD_eq_getElem _ _ hin] at hv ⊢
    rw [hv, norm_div, Complex.norm_real, Real.norm_of_nonneg hnn]
  have e0 := hval 0 (by omega); have e1 := hval 1 (by omega); have e2 := hval 2 (by omega)
  rw [Nat.add_zero] at e0
  have hdef : jointAmplitude out g j = (‖(B.getD (3 * g) []).getD j 0‖ / jointAmplitude B g j + ‖(B.getD (3 * g + 1) []).getD j 0‖ / jointAmplitude B g j
      + ‖(B.getD (3 * g + 2) []).getD j 0‖ / jointAmplitude B g j) / 3 := by
    rw [← e0, ← e1, ← e2]; rfl
  rw [hdef, ← add_div, ← add_div, div_right_comm]
  exact div_self hne

example : (∀ row ∈ [[(1 : ℂ), 3], [1, 4], [1, 5]], row.length = 2) ∧ [[(1 : ℂ), 3], [1, 4], [1, 5]].length % 3 = 0 ∧
    ∀ i j, i < [[(1 : ℂ), 3], [1, 4], [1, 5]].length → j < 2 → jointAmplitude [[(1 : ℂ), 3], [1, 4], [1, 5]] (i / 3) j ≠ 0 := by
  refine ⟨by simp, by simp, ?_⟩
  intro i j hi hj
  have : i / 3 = 0 := by simp at hi; omega
  rw [this]
  match j, hj with
  | 0, _ => simp [jointAmplitude]; norm_num
  | 1, _ => simp [jointAmplitude]; norm_num

/-! ### C78 -/

theorem convSame_get (a v : List ℝ) (i : Nat) (hi : i < a.length) :
    (convSame a v)[i]? = some (((List.range v.length).map fun j =>
      v.getD j 0 * if j ≤ i + (v.length - 1) / 2 then a.getD (i + (v.length - 1) / 2 - j) 0 else 0).sum) := by
  unfold convSame
  rw [List.getElem?_map, List.getElem?_range hi]
  rfl

theorem convSame_length (a v : List ℝ) : (convSame a v).length = a.length := by simp [convSame]

/-- moving average of a mask with values in [0,1]: less than one if a sample in the
window is zero -/
theorem conv_box_lt (mask : List ℝ) (hm : ∀ x ∈ mask, x ≤ 1) (n : Nat) (hn : 0 < n) (i k : Nat)
    (hk : mask[k]? = some 0) (h1 : k ≤ i + (n - 1) / 2) (h2 : i + (n - 1) / 2 < k + n) :
    (((List.range (List.replicate n (1 / (n : ℝ))).length).map fun j => (List.replicate n (1 / (n : ℝ))).getD j 0 *
      if j ≤ i + ((List.replicate n (1 / (n : ℝ))).length - 1) / 2 then
        mask.getD (i + ((List.replicate n (1 / (n : ℝ))).length - 1) / 2 - j) 0 else 0).sum) < 1 := by
  rw [List.length_replicate]
  have hn' : (0 : ℝ) < n := by exact_mod_cast hn
  have hle : ∀ j ∈ List.range n, (List.replicate n (1 / (n : ℝ))).getD j 0 *
      (if j ≤ i + (n - 1) / 2 then mask.getD (i + (n - 1) / 2 - j) 0 else 0) ≤ 1 / n := by
    intro j hj
    have hj' := List.mem_range.1 hj
    have : (List.replicate n (1 / (n : ℝ))).getD j 0 = 1 / n := by
      simp [List.getD, hj']
    rw [this]
    have hb : (if j ≤ i + (n - 1) / 2 then mask.getD (i + (n - 1) / 2 - j) 0 else 0) ≤ 1 := by
      split
      · rw [List.getD_eq_getElem?_getD]
        cases hx : mask[i + (n - 1) / 2 - j]? with
        | none => simp
        | some x => exact hm x (List.mem_of_getElem? hx)
      · norm_num
    calc 1 / (n : ℝ) * _ ≤ 1 / n * 1 := mul_le_mul_of_nonneg_left hb (by positivity)
      _ = 1 / n := mul_one _
  have hlt : ∃ j ∈ List.range n, (List.replicate n (1 / (n : ℝ))).getD j 0 *
      (if j ≤ i + (n - 1) / 2 then mask.getD (i + (n - 1) / 2 - j) 0 else 0) < 1 / n := by
    refine ⟨i + (n - 1) / 2 - k, List.mem_range.2 (by omega), ?_⟩
    rw [if_pos (by omega), show i + (n - 1) / 2 - (i + (n - 1) / 2 - k) = k by omega]
    have : mask.getD k 0 = 0 := by rw [List.getD_eq_getElem?_getD, hk]; rfl
    rw [this, mul_zero]
    positivity
  have hs : ((List.range n).map fun _ => 1 / (n : ℝ)).sum = 1 := by
    rw [List.map_const', List.sum_replicate, List.length_range]
    simp [hn'.ne']
  exact lt_of_lt_of_eq (List.sum_lt_sum _ _ hle hlt) hs

/-- **C78** (short traces, taper length) A taper length of zero raises `ValueError`;
traces that are not longer than the taper become zero. -/
theorem c78_short (filt : List ℝ → List ℝ) (A : List (List ℝ)) (npts : Nat) (sr : Rat) (args : MuteArgs) :
    (args.taperLen = 0 → mute filt A npts sr args = .error .valueError) ∧
    (args.taperLen ≠ 0 → (npts : Int) ≤ truncRat (args.taperLen * sr) →
      mute filt A npts sr args = .ok (A.map fun row => row.map fun _ => 0)) := by
  unfold mute
  refine ⟨fun h => if_pos h, fun h1 h2 => ?_⟩
  rw [if_neg h1]
  simp only
  rw [if_pos h2]

/-- **C78** (odd taper) If the taper has an odd number of samples and the gaps are
extended, every sample above the threshold is multiplied by zero.
Missing: tapers with an even number of samples, see `c78_even_violated`. -/
theorem c78_mute_partial (filt : List ℝ → List ℝ) (hfilt : ∀ l, (filt l).length = l.length) (A : List (List ℝ))
    (npts : Nat) (hA : ∀ row ∈ A, row.length = npts) (sr : Rat) (args : MuteArgs) (h : Nat)
    (htap : truncRat (args.taperLen * sr) = 2 * h + 1) (ht0 : args.taperLen ≠ 0) (hlen : 2 * h + 1 < npts)
    (hext : args.extendGaps = true) :
    ∃ out, mute filt A npts sr args = .ok out ∧ out.length = A.length ∧
      ∀ (r : Nat) (row : List ℝ), A[r]? = some row → ∃ row', out[r]? = some row' ∧ row'.length = npts ∧
        ∀ (i : Nat) (c : ℝ), (filt row)[i]? = some c → args.thres (filt row) < |c| → row'[i]? = some 0 := by
  have hwl : ∀ c, (muteWeights args (2 * h + 1) c).length = c.length := by
    intro c
    unfold muteWeights
    simp [convSame_length, hext]
  refine ⟨A.map fun row => List.zipWith (· * ·) row (muteWeights args (2 * h + 1) (filt row)), ?_, by simp, ?_⟩
  · unfold mute
    rw [if_neg ht0]
    simp only [htap]
    rw [if_neg (by omega), if_neg (by omega)]
    rfl
  · intro r row hr
    have hrl := hA row (List.mem_of_getElem? hr)
    refine ⟨List.zipWith (· * ·) row (muteWeights args (2 * h + 1) (filt row)), by simp [hr], ?_, ?_⟩
    · simp [hwl, hfilt, hrl]
    · intro i c hc hgt
      have hi : i < (filt row).length := (List.getElem?_eq_some_iff.1 hc).1
      have hw : (muteWeights args (2 * h + 1) (filt row))[i]? = some 0 := by
        unfold muteWeights
        simp only [hext, if_true]
        set mask : List ℝ := (filt row).map fun x => if |x| > args.thres (filt row) then (0 : ℝ) else 1 with hmask
        have hml : mask.length = (filt row).length := by simp [hmask]
        have hm1 : ∀ x ∈ mask, x ≤ 1 := by
          intro x hx
          obtain ⟨y, -, rfl⟩ := List.mem_map.1 hx
          split <;> norm_num
        have hmi : mask[i]? = some 0 := by
          rw [hmask, List.getElem?_map, hc, Option.map_some, if_pos hgt]
        set nmask : List ℝ := (convSame mask (List.replicate (2 * h + 1) (1 / ((2 * h + 1 : Nat) : ℝ)))).map
          fun x => if x < 1 then (0 : ℝ) else 1 with hnm
        have hnl : nmask.length = (filt row).length := by simp [hnm, convSame_length, hml]
        have hz : ∀ k, i ≤ k + h → k ≤ i + h → nmask.getD k 0 = 0 := by
          intro k hk1 hk2
          rw [List.getD_eq_getElem?_getD]
          by_cases hkl : k < mask.length
          · rw [hnm, List.getElem?_map, convSame_get _ _ _ hkl, Option.map_some, if_pos]
            · rfl
            · exact conv_box_lt mask hm1 (2 * h + 1) (by omega) k i hmi (by omega) (by omega)
          · rw [List.getElem?_eq_none (by omega)]
            rfl
        rw [convSame_get _ _ _ (by omega)]
        congr 1
        apply List.sum_eq_zero
        intro x hx
        obtain ⟨j, hj, rfl⟩ := List.mem_map.1 hx
        have hj' : j < 2 * h + 1 := by
          have := List.mem_range.1 hj
          simpa [muteTap] using this
        have hl : (muteTap (2 * h + 1)).length = 2 * h + 1 := by simp [muteTap]
        rw [hl]
        split
        · rw [hz _ (by omega) (by omega), mul_zero]
        · rw [mul_zero]
      have hri : row[i]? = some (row[i]'(by rw [← hfilt]; exact hi)) := List.getElem?_eq_getElem _
      rw [List.getElem?_zipWith, hw, hri]
      simp

example : truncRat (3 * 1) = 2 * 1 + 1 := by decide +kernel

theorem sum_range_two (f : Nat → ℝ) : ((List.range 2).map f).sum = f 0 + f 1 := by
  simp [List.range_succ]

/-- **C78** is violated for tapers with an even number of samples: with a taper of
two samples and the threshold 5, the sample 9 is above the threshold and is
multiplied by one. -/
theorem c78_even_violated :
    ∃ row', mute id [[1, 1, 1, 9, 1, 1, 1]] 7 1 ⟨2, some 5, none, true⟩ = .ok [row'] ∧ row'[3]? = some 9 := by
  have h2 : truncRat 2 = 2 := by decide +kernel
  have hm : mute id [[1, 1, 1, 9, 1, 1, 1]] 7 1 ⟨2, some 5, none, true⟩ =
      .ok [List.zipWith (· * ·) [1, 1, 1, 9, 1, 1, 1] (muteWeights ⟨2, some 5, none, true⟩ 2 [1, 1, 1, 9, 1, 1, 1])] := by
    unfold mute
    simp [h2]
  refine ⟨_, hm, ?_⟩
  have hmask : ([1, 1, 1, 9, 1, 1, 1] : List ℝ).map (fun x => if |x| > (5 : ℝ) then (0 : ℝ) else 1) =
      [1, 1, 1, 0, 1, 1, 1] := by
    simp only [List.map_cons, List.map_nil]
    norm_num
  have hbox : (convSame [1, 1, 1, 0, 1, 1, 1] (List.replicate 2 (1 / ((2 : Nat) : ℝ)))).map
      (fun x => if x < 1 then (0 : ℝ) else 1) = [0, 1, 1, 0, 0, 1, 1] := by
    have : List.range 7 = [0, 1, 2, 3, 4, 5, 6] := by decide
    simp only [convSame, List.length_cons, List.length_nil, List.length_replicate, Nat.zero_add, Nat.reduceAdd, this,
      List.map_cons, List.map_nil, sum_range_two]
    norm_num [List.getD, List.replicate]
  have htap : muteTap 2 = [0, 1] := by
    have : List.range 2 = [0, 1] := by decide
    simp only [muteTap, this, List.map_cons, List.map_nil]
    have : ((1 : Nat) : ℝ) / ((2 : Nat) : ℝ) * 2 * Real.pi = Real.pi := by push_cast; ring
    rw [this, Real.cos_pi]
    norm_num
  have hw : (muteWeights ⟨2, some 5, none, true⟩ 2 [1, 1, 1, 9, 1, 1, 1])[3]? = some 1 := by
    unfold muteWeights MuteArgs.thres
    simp only [if_true]
    rw [hmask, hbox, htap, convSame_get _ _ _ (by decide)]
    congr 1
    simp only [List.length_cons, List.length_nil, Nat.zero_add, Nat.reduceAdd, sum_range_two]
    norm_num [List.getD]
  rw [List.getElem?_zipWith, hw]
  norm_num

/-! ### C88 -/

theorem meanR_div (l : List ℝ) (c : ℝ) : meanR (l.map fun x => x / c) = meanR l / c := by
  unfold meanR
  rw [List.length_map]
  have := sum_map_div l id c
  simp only [id, List.map_id] at this
  rw [this]
  ring

theorem stdR_div (l : List ℝ) (c : ℝ) (hc : 0 < c) : stdR (l.map fun x => x / c) = stdR l / c := by
  unfold stdR
  rw [List.map_map, meanR_div]
  have e : l.map ((fun x => (x - meanR l / c) ^ 2) ∘ fun x => x / c) =
      (l.map fun x => (x - meanR l) ^ 2).map fun y => y / c ^ 2 := by
    rw [List.map_map]
    apply List.map_congr_left
    intro x _
    simp only [Function.comp]
    rw [← sub_div, div_pow]
  rw [e, meanR_div, Real.sqrt_div' _ (by positivity), Real.sqrt_sq hc.le]

/-- **C88** (standard deviation) A trace is divided by a positive number; its
standard deviation is one afterwards, unless the trace is constant, in which case
it is unchanged. -/
theorem c88_std (row : List ℝ) :
    (stdR row = 0 → normalizeStd row = row) ∧
    (stdR row ≠ 0 → stdR (normalizeStd row) = 1 ∧ ∃ c > 0, normalizeStd row = row.map (· / c)) := by
  unfold normalizeStd
  constructor
  · intro h
    simp [h]
  · intro h
    have hp : 0 < stdR row := lt_of_le_of_ne (Real.sqrt_nonneg _) (Ne.symm h)
    simp only [h, if_false]
    exact ⟨by rw [stdR_div _ _ hp, div_self h], stdR row, hp, rfl⟩

/-- standard deviation zero means constant -/
theorem c88_constant (row : List ℝ) (hne : row ≠ []) : stdR row = 0 ↔ ∀ x ∈ row, ∀ y ∈ row, x = y := by
  have hlen : (0 : ℝ) < row.length := by exact_mod_cast List.length_pos_iff.2 hne
  have hsum : stdR row = 0 ↔ (row.map fun x => (x - meanR row) ^ 2).sum = 0 := by
    unfold stdR
    have h0 : 0 ≤ (row.map fun x => (x - meanR row) ^ 2).sum := by
      apply List.sum_nonneg
      intro y hy
      obtain ⟨z, -, rfl⟩ := List.mem_map.1 hy
      exact sq_nonneg _
    rw [Real.sqrt_eq_zero (by rw [meanR]; positivity), meanR, List.length_map, div_eq_zero_iff]
    simp [hlen.ne']
  rw [hsum]
  constructor
  · intro h
    have h1 := sum_nonneg_eq_zero row (fun x => (x - meanR row) ^ 2) (fun x => sq_nonneg _) h
    have h2 : ∀ x ∈ row, x = meanR row := by
      intro x hx
      have := h1 x hx
      have := pow_eq_zero_iff (two_ne_zero) |>.1 this
      linarith
    intro x hx y hy
    rw [h2 x hx, h2 y hy]
  · intro h
    obtain ⟨a, ha⟩ := List.exists_mem_of_ne_nil row hne
    have hall : row = List.replicate row.length a := List.eq_replicate_iff.2 ⟨rfl, fun b hb => h b hb a ha⟩
    have hm : meanR row = a := by
      unfold meanR
      have : row.sum = row.length * a := by
        conv_lhs => rw [hall]
        simp
      rw [this]
      field_simp
    apply List.sum_eq_zero
    intro y hy
    obtain ⟨z, hz, rfl⟩ := List.mem_map.1 hy
    rw [hm, h z hz a ha]
    simp

/-- **C88** (one bit) The result holds only -1, 0 and 1, with the sign of the
samples; the processing is idempotent and does not depend on the amplitude of the
trace. -/
theorem c88_sign_bit (row : List ℝ) :
    (∀ (i : Nat) (x : ℝ), row[i]? = some x → ∃ y, (signBit row)[i]? = some y ∧
      (0 < x → y = 1) ∧ (x < 0 → y = -1) ∧ (x = 0 → y = 0)) ∧
    signBit (signBit row) = signBit row ∧ ∀ c > 0, signBit (row.map (c * ·)) = signBit row := by
  refine ⟨?_, ?_, ?_⟩
  · intro i x hx
    refine ⟨npSign x, by simp [signBit, hx], ?_, ?_, ?_⟩
    · intro h; simp [npSign, h]
    · intro h; simp [npSign, h, h.le]
    · intro h; simp [npSign, h]
  · unfold signBit
    rw [List.map_map]
    apply List.map_congr_left
    intro x _
    simp only [Function.comp, npSign]
    split
    · norm_num
    · split <;> norm_num
  · intro c hc
    unfold signBit
    rw [List.map_map]
    apply List.map_congr_left
    intro x _
    simp only [Function.comp, npSign, mul_pos_iff_of_pos_left hc]
    have : c * x < 0 ↔ x < 0 := by
      constructor
      · intro h
        by_contra hx
        exact absurd (mul_nonneg hc.le (not_lt.1 hx)) (not_le.2 h)
      · intro h; exact mul_neg_of_pos_of_neg hc h
    simp only [this]

end SeisMIC
