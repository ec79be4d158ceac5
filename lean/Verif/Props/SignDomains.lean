import Verif.Props.FdNorm
import Verif.Props.OtherStations

/-!
# C222: one-bit normalisation in the time domain or in the frequency domain
-/

namespace SeisMIC

open Xcorr

noncomputable section

/-! ### Lemmas -/

theorem npSign_eq (x : ℝ) : npSign x = Real.sign x := by
  unfold npSign
  rcases lt_trichotomy 0 x with h | h | h
  · rw [if_pos h, Real.sign_of_pos h]
  · subst h
    simp
  · rw [if_neg (by linarith), if_pos h, Real.sign_of_neg h]

theorem mapM_pad (sr lts : Rat) (n : Nat) (A : List (List ℝ)) (hA : ∀ x ∈ A, x.length = n) :
    (A.mapM fun x => orStop (zeroPadding .avoidWrapFastLen sr lts x)) =
      .ok (A.map fun x => x ++ List.replicate (nextFastLen (⌊(n : Rat) + sr * lts⌋).toNat - n) 0) := by
  induction A with
  | nil => rfl
  | cons x A ih =>
    rw [List.mapM_cons, ih fun y hy => hA y (by simp [hy])]
    have : zeroPadding .avoidWrapFastLen sr lts x = .ok (x ++ List.replicate (nextFastLen (⌊(n : Rat) + sr * lts⌋).toNat - n) 0) := by
      unfold zeroPadding paddedLen
      rw [hA x (by simp)]
      rfl
    rw [this]
    rfl

/-! ### C222 -/

/-- **C222** For every chain of steps in the time domain that yields traces of `n` samples, all further steps in the frequency domain, all pairs, start
times and settings: the one-bit normalisation as the first step in the frequency domain gives the same correlations as the one-bit normalisation as the last
step in the time domain, if the length of the padded traces is even.
Missing: an odd number of samples, see `c222_odd_violated`. -/
theorem c222_domains_partial (td : List TdStep) (fd : List FdStep) (center normalize : Bool) (sr lts : Rat) (starts : List Rat)
    (pairs : List (Nat × Nat)) (A : List (List ℝ)) (n : Nat)
    (hA : ∀ A', td.foldlM (fun A s => s.run sr A) A = .ok A' → ∀ x ∈ A', x.length = n)
    (h0 : 0 ≤ sr * lts) (hn : 0 < n) (he : Even (nextFastLen (⌊(n : Rat) + sr * lts⌋).toNat)) :
    correlateChain td (.sign :: fd) center normalize sr lts starts pairs A =
      correlateChain (td ++ [.sign]) fd center normalize sr lts starts pairs A := by
  unfold correlateChain
  rw [List.foldlM_append]
  cases hr : td.foldlM (fun A s => s.run sr A) A with
  | error e => rfl
  | ok A' =>
    have hl := hA A' hr
    have hnn : n ≤ nextFastLen (⌊(n : Rat) + sr * lts⌋).toNat := by
      refine le_trans ?_ (Nat.find_spec (exists_smooth_ge _)).1
      have : (n : Int) ≤ ⌊(n : Rat) + sr * lts⌋ := by
        rw [Int.le_floor]
        push_cast
        linarith
      omega
    simp only [List.foldlM_cons, List.foldlM_nil, bind, Except.bind, pure, Except.pure, TdStep.run, FdStep.run]
    rw [mapM_pad sr lts n A' hl, mapM_pad sr lts n (A'.map signBit) (by
      intro x hx
      obtain ⟨y, hy, rfl⟩ := List.mem_map.1 hx
      unfold signBit
      rw [List.length_map, hl y hy])]
    generalize hN : nextFastLen (⌊(n : Rat) + sr * lts⌋).toNat = N at *
    obtain ⟨m, hm⟩ := he
    have hpl : ∀ x ∈ A'.map (fun x => x ++ List.replicate (N - n) (0 : ℝ)), x.length = 2 * m := by
      intro x hx
      obtain ⟨y, hy, rfl⟩ := List.mem_map.1 hx
      rw [List.length_append, List.length_replicate, hl y hy]
      omega
    simp only
    rw [c125_signs_partial m (by omega) _ hpl]
    have e1 : ((A'.map fun x => x ++ List.replicate (N - n) (0 : ℝ)).map fun x => rfft (x.map Real.sign)) =
        ((A'.map signBit).map fun x => x ++ List.replicate (N - n) (0 : ℝ)).map rfft := by
      rw [List.map_map, List.map_map, List.map_map]
      refine List.map_congr_left fun x _ => ?_
      simp only [Function.comp, List.map_append, List.map_replicate, Real.sign_zero, signBit]
      congr 2
      exact List.map_congr_left fun y _ => (npSign_eq y).symm
    have e2 : ((A'.map fun x => x ++ List.replicate (N - n) (0 : ℝ)).headD []).length =
        (((A'.map signBit).map fun x => x ++ List.replicate (N - n) (0 : ℝ)).headD []).length := by
      cases A' with
      | nil => rfl
      | cons x A' => simp [signBit]
    rw [e1, e2]
    simp only [orStop]

/-- traces of three samples that are padded to four samples -/
example (fd : List FdStep) (A : List (List ℝ)) (hA : ∀ x ∈ A, x.length = 3) (pairs : List (Nat × Nat)) :
    correlateChain [] (.sign :: fd) true true 1 1 [0, 0] pairs A = correlateChain [.sign] fd true true 1 1 [0, 0] pairs A := by
  refine c222_domains_partial [] fd true true 1 1 [0, 0] pairs A 3 ?_ (by norm_num) (by decide) ?_
  · intro A' h
    cases h
    exact hA
  · have : (⌊((3 : ℕ) : Rat) + 1 * 1⌋).toNat = 4 := by
      norm_num
      rfl
    rw [this, nextFastLen_self 4 (by decide)]
    decide

/-- a correlation of a trace of three samples, with two coefficients of which the second one is `z`, with itself -/
theorem corrRow_three (a : ℝ) (z : ℂ) : ∃ l r : ℝ, corrRow false false 1 1 3 0 0 [(a : ℂ), z] [(a : ℂ), z] =
    .ok ([l, (a ^ 2 + Complex.normSq z) / 2, r], -1) := by
  have hs : sampleToSave 1 1 = 1 := by decide +kernel
  have hr : roffset false 1 (0 - 0) = 0 := by decide +kernel
  have hf : rfftfreq 3 1 = [0, 1 / 3] := by decide +kernel
  have hM : crossSpectrum (rfftfreq 3 1) (0 - 0 - 0) [(a : ℂ), z] [(a : ℂ), z] = [((a ^ 2 : ℝ) : ℂ), (Complex.normSq z : ℂ)] := by
    rw [hf]
    simp [crossSpectrum, List.zipWith3, Complex.normSq_eq_conj_mul_self]
    ring
  have hi : ∃ t : ℝ, irfft [((a ^ 2 : ℝ) : ℂ), (Complex.normSq z : ℂ)] = .ok [(a ^ 2 + Complex.normSq z) / 2, t] := by
    unfold irfft
    simp only [List.length_cons, List.length_nil]
    rw [if_neg (by norm_num)]
    have hr : ∀ (v : ℝ) (f : ℕ → ℝ), f 0 = v → ∃ t : ℝ, (Except.ok ((List.range (2 * (0 + 1 + 1 - 1))).map f) : Except PyErr _) = .ok [v, t] :=
      fun v f h => ⟨f 1, by rw [← h]; rfl⟩
    apply hr
    simp [-Complex.ofReal_pow]
  obtain ⟨t, hi⟩ := hi
  refine ⟨t, t, ?_⟩
  unfold corrRow
  simp only [hs, hr, hM, hi, bind, Except.bind, pure, Except.pure, corrNorm]
  simp [cutCentre]

/-- **C222 is violated** if the length of the padded traces is odd. Two samples 1, 1 that are padded to three are their own signs. Their autocorrelation
at zero lag is another one if the normalisation is done in the frequency domain. -/
theorem c222_odd_violated : ∃ c c' : List ℝ × Rat, c.1.getD 1 0 = 2 ∧ c'.1.getD 1 0 = 5 / 2 ∧
    correlateChain [] [.sign] false false 1 1 [0] [(0, 0)] [[1, 1]] = .ok [c] ∧
    correlateChain [.sign] [] false false 1 1 [0] [(0, 0)] [[1, 1]] = .ok [c'] := by
  have hcos : Real.cos (2 * Real.pi / 3) = -(1 / 2) := by
    rw [show 2 * Real.pi / 3 = Real.pi - Real.pi / 3 by ring, Real.cos_pi_sub, Real.cos_pi_div_three]
  have hsin : Real.sin (2 * Real.pi / 3) ^ 2 = 3 / 4 := by
    have := Real.sin_sq_add_cos_sq (2 * Real.pi / 3)
    rw [hcos] at this
    linarith
  have hpad : zeroPadding .avoidWrapFastLen 1 1 [1, 1] = .ok [(1 : ℝ), 1, 0] := by
    have hN : nextFastLen (⌊(([1, 1] : List ℝ).length : Rat) + 1 * 1⌋).toNat = 3 := by
      have : (⌊(([1, 1] : List ℝ).length : Rat) + 1 * 1⌋).toNat = 3 := by
        norm_num
        rfl
      rw [this, nextFastLen_self 3 (by decide)]
    simp only [zeroPadding, paddedLen, hN, bind, Except.bind, pure, Except.pure]
    rfl
  obtain ⟨z, hz⟩ : ∃ z, z = dft [1, 1, 0] 1 := ⟨_, rfl⟩
  have hz' : z = 1 + Complex.exp (((-(2 * Real.pi / 3) : ℝ) : ℂ) * Complex.I) := by
    rw [hz]
    unfold dft
    simp [Finset.sum_range_succ]
    congr 1
    ring
  have hre : z.re = 1 / 2 := by
    rw [hz', Complex.add_re, Complex.exp_ofReal_mul_I_re, Real.cos_neg, hcos]
    norm_num
  have him : z.im ^ 2 = 3 / 4 := by
    rw [hz', Complex.add_im, Complex.exp_ofReal_mul_I_im, Real.sin_neg]
    simp [hsin]
  have hsq : Complex.normSq z = 1 := by
    rw [Complex.normSq_apply, ← pow_two, ← pow_two, hre, him]
    norm_num
  have hrf : rfft [1, 1, 0] = [((2 : ℝ) : ℂ), z] := by
    unfold rfft
    rw [hz]
    simp [List.range_succ, dft, Finset.sum_range_succ]
    norm_num
  have hfd : fdSignBit [[((2 : ℝ) : ℂ), z]] = .ok [[((2 : ℝ) : ℂ), 0]] := by
    have hi : irfft [((2 : ℝ) : ℂ), z] = .ok [5 / 4, 3 / 4] := by
      unfold irfft
      simp [List.range_succ, hre]
      norm_num
    have h2 : rfft [(1 : ℝ), 1] = [((2 : ℝ) : ℂ), 0] := by
      unfold rfft
      simp [List.range_succ, dft, Finset.sum_range_succ]
      constructor
      · norm_num
      · have : -(2 * (Real.pi : ℂ) * Complex.I * (1 / 2)) = -((Real.pi : ℂ) * Complex.I) := by ring
        have e := Complex.exp_pi_mul_I
        have e2 : Complex.exp (-((Real.pi : ℂ) * Complex.I)) = -1 := by
          rw [Complex.exp_neg, e]
          norm_num
        simp_all
    have p1 : Real.sign (5 / 4) = 1 := Real.sign_of_pos (by norm_num)
    have p2 : Real.sign (3 / 4) = 1 := Real.sign_of_pos (by norm_num)
    simp only [fdSignBit, List.mapM_cons, List.mapM_nil, hi, bind, Except.bind, pure, Except.pure, List.map_cons, List.map_nil, p1, p2, h2]
  obtain ⟨l, r, h⟩ := corrRow_three 2 0
  obtain ⟨l', r', h'⟩ := corrRow_three 2 z
  rw [hsq] at h'
  rw [Complex.normSq_zero] at h
  refine ⟨([l, (2 ^ 2 + 0) / 2, r], -1), ([l', (2 ^ 2 + 1) / 2, r'], -1), ?_, ?_, ?_, ?_⟩
  rotate_left 2
  · unfold correlateChain
    simp only [List.foldlM_nil, List.foldlM_cons, bind, Except.bind, pure, Except.pure, List.mapM_cons, List.mapM_nil, hpad, orStop, List.map_cons,
      List.map_nil, hrf, FdStep.run, hfd, pairRow, List.headD_cons]
    simp only [List.length_cons, List.length_nil, List.getElem?_cons_zero, Nat.zero_add, Nat.reduceAdd, h]
  · unfold correlateChain
    have hsg : signBit [(1 : ℝ), 1] = [1, 1] := by simp [signBit, npSign]
    simp only [List.foldlM_nil, List.foldlM_cons, bind, Except.bind, pure, Except.pure, List.mapM_cons, List.mapM_nil, TdStep.run, hsg, hpad, orStop,
      List.map_cons, List.map_nil, hrf, pairRow, List.headD_cons]
    simp only [List.length_cons, List.length_nil, List.getElem?_cons_zero, Nat.zero_add, Nat.reduceAdd, h']
  · show (2 ^ 2 + 0 : ℝ) / 2 = 2
    norm_num
  · show (2 ^ 2 + 1 : ℝ) / 2 = 5 / 2
    norm_num

end

end SeisMIC
