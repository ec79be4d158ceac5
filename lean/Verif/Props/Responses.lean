import Verif.Model.Chain
import Verif.Lemmas.Xcorr
import Mathlib.Tactic.FieldSimp
import Mathlib.Tactic.Ring
import Mathlib.Tactic.Linarith

/-!
# C224: responses of the instruments and whitened correlations
-/

namespace SeisMIC

noncomputable section

open Xcorr Complex

/-! ### specification -/

/-- a trace with the zeros that are appended before it is transformed -/
def withZeros (sr lts : Rat) (x : List ℝ) : List ℝ := x ++ List.replicate (nextFastLen (⌊(x.length : Rat) + sr * lts⌋).toNat - x.length) 0

/-- The trace `x'` is what an instrument with another response records instead of `x`: at every frequency the spectrum is multiplied by an amplitude, which
can be different for every instrument, and by the phase `φ`, which cannot. No coefficient of the spectrum is zero. -/
def OtherResponse (sr lts : Rat) (φ : ℕ → ℂ) (x x' : List ℝ) : Prop :=
  x'.length = x.length ∧ ∃ amp : ℕ → ℝ, (∀ k, 0 < amp k) ∧
    ∀ k ≤ (withZeros sr lts x).length / 2, dft (withZeros sr lts x) k ≠ 0 ∧ dft (withZeros sr lts x') k = amp k * φ k * dft (withZeros sr lts x) k

/-! ### Lemmas -/

/-- a spectrum with other phases -/
def turnRow (φ : ℕ → ℂ) (row : List ℂ) : List ℂ := row.mapIdx fun k z => φ k * z

theorem turnRow_nil (φ : ℕ → ℂ) : turnRow φ [] = [] := rfl

theorem turnRow_cons (φ : ℕ → ℂ) (z : ℂ) (row : List ℂ) : turnRow φ (z :: row) = φ 0 * z :: turnRow (fun k => φ (k + 1)) row := by
  unfold turnRow
  rw [List.mapIdx_cons]

theorem turnRow_length (φ : ℕ → ℂ) (row : List ℂ) : (turnRow φ row).length = row.length := by simp [turnRow]

theorem whiten_eq (B : List (List ℂ)) (h : ∀ row ∈ B, ∀ z ∈ row, z ≠ 0) :
    spectralWhitening false B = .ok (B.map fun row => (row.map fun z => z / (‖z‖ : ℂ)).set 0 0) := by
  have hno : ¬ ∃ row ∈ whitenAbs false B, (0 : ℝ) ∈ row := by
    rintro ⟨row, hr, h0⟩
    simp only [whitenAbs, Bool.false_eq_true, if_false, List.mem_map] at hr
    obtain ⟨row0, h1, rfl⟩ := hr
    obtain ⟨z, hz, hz0⟩ := List.mem_map.1 h0
    exact h row0 h1 z hz (norm_eq_zero.1 hz0)
  unfold spectralWhitening
  rw [if_neg (by simp)]
  simp only
  rw [if_neg hno]
  congr 1
  simp only [whitenAbs, Bool.false_eq_true, if_false]
  rw [List.zipWith_map_right, List.zipWith_self, List.map_map]
  refine List.map_congr_left fun row _ => ?_
  simp only [Function.comp]
  rw [List.zipWith_map_right, List.zipWith_self]

/-- the phases that are left after whitening, which sets the coefficient of frequency zero to zero -/
def laterPhase (φ : ℕ → ℂ) (k : ℕ) : ℂ := if k = 0 then 1 else φ k

theorem whitenRow_turn (φ : ℕ → ℂ) (hφ : ∀ k, ‖φ k‖ = 1) (amp : ℕ → ℝ) (ha : ∀ k, 0 < amp k) (row row' : List ℂ) (hl : row'.length = row.length)
    (h : ∀ k (hk : k < row.length), row'[k] = amp k * φ k * row[k]) :
    (row'.map fun z => z / (‖z‖ : ℂ)).set 0 0 = turnRow (laterPhase φ) ((row.map fun z => z / (‖z‖ : ℂ)).set 0 0) := by
  refine List.ext_getElem (by simp [turnRow, hl]) fun k h1 h2 => ?_
  have hk : k < row.length := by simpa [hl] using h1
  simp only [turnRow, List.getElem_mapIdx, List.getElem_set, List.getElem_map]
  by_cases h0 : k = 0
  · subst h0
    simp
  · rw [if_neg (Ne.symm h0), if_neg (Ne.symm h0), h k hk, laterPhase, if_neg h0, norm_mul, norm_mul, hφ, mul_one, Complex.norm_real,
      Real.norm_of_nonneg (ha k).le, Complex.ofReal_mul]
    have hne : (amp k : ℂ) ≠ 0 := by exact_mod_cast (ha k).ne'
    rw [mul_assoc, mul_div_mul_left _ _ hne, mul_div_assoc]

theorem filterRow_turn (φ : ℕ → ℂ) (row : List ℂ) (tap : List ℝ) :
    List.zipWith (fun (z : ℂ) (t : ℝ) => z * t) (turnRow φ row) tap = turnRow φ (List.zipWith (fun (z : ℂ) (t : ℝ) => z * t) row tap) := by
  induction row generalizing φ tap with
  | nil => rfl
  | cons z row ih =>
    cases tap with
    | nil => simp [turnRow]
    | cons t tap =>
      rw [turnRow_cons, List.zipWith_cons_cons, List.zipWith_cons_cons, turnRow_cons, ih]
      rw [mul_assoc]

/-- a step that filters -/
def FdStep.IsFilter : FdStep → Prop
  | .filter _ _ _ _ => True
  | _ => False

theorem filters_turn (φ : ℕ → ℂ) (freqs : List Rat) (fs : List FdStep) (hf : ∀ s ∈ fs, s.IsFilter) (B : List (List ℂ)) :
    fs.foldlM (fun B (s : FdStep) => s.run freqs B) (B.map (turnRow φ)) = (fs.foldlM (fun B (s : FdStep) => s.run freqs B) B).map fun B => B.map (turnRow φ) := by
  induction fs generalizing B with
  | nil => rfl
  | cons s fs ih =>
    have hs := hf s (by simp)
    have step : s.run freqs (B.map (turnRow φ)) = (s.run freqs B).map fun B => B.map (turnRow φ) := by
      cases s with
      | filter f1 f2 f3 f4 =>
        simp only [FdStep.run, fdFilter]
        cases fdTaper freqs f1 f2 f3 f4 with
        | error e => rfl
        | ok tap =>
          simp only [bind, Except.bind, orStop, Except.map, List.map_map]
          congr 1
          exact List.map_congr_left fun row _ => filterRow_turn φ row tap
      | sign => exact hs.elim
      | whiten => exact hs.elim
    simp only [List.foldlM_cons]
    rw [step]
    cases s.run freqs B with
    | error e => rfl
    | ok C => exact ih (fun s h => hf s (by simp [h])) C

theorem cross_turn (φ : ℕ → ℂ) (hφ : ∀ k, ‖φ k‖ = 1) (freqs : List Rat) (o : Rat) (b0 b1 : List ℂ) :
    crossSpectrum freqs o (turnRow φ b0) (turnRow φ b1) = crossSpectrum freqs o b0 b1 := by
  unfold crossSpectrum
  induction b0 generalizing φ b1 freqs with
  | nil => rfl
  | cons z b0 ih =>
    cases b1 with
    | nil => simp [turnRow, List.zipWith3]
    | cons w b1 =>
      cases freqs with
      | nil => simp [turnRow_cons, List.zipWith3]
      | cons f freqs =>
        simp only [turnRow_cons, List.zipWith3]
        rw [ih (fun k => φ (k + 1)) (fun k => hφ _)]
        congr 2
        have h1 : (starRingEnd ℂ) (φ 0) * φ 0 = 1 := by
          rw [← Complex.normSq_eq_conj_mul_self, Complex.normSq_eq_norm_sq, hφ]
          norm_num
        rw [map_mul]
        calc _ = ((starRingEnd ℂ) (φ 0) * φ 0) * ((starRingEnd ℂ) z * w) := by ring
          _ = _ := by rw [h1, one_mul]

theorem normTerm_turn (φ : ℕ → ℂ) (hφ : ∀ k, ‖φ k‖ = 1) (h0 : φ 0 = 1) (b : List ℂ) : normTerm (turnRow φ b) = normTerm b := by
  have hs : ∀ (φ : ℕ → ℂ), (∀ k, ‖φ k‖ = 1) → ((turnRow φ b).map normSq) = b.map normSq := by
    intro φ hφ
    induction b generalizing φ with
    | nil => rfl
    | cons z b ih =>
      rw [turnRow_cons, List.map_cons, List.map_cons, ih _ (fun k => hφ _), Complex.normSq_mul, Complex.normSq_eq_norm_sq (φ 0), hφ]
      norm_num
  have hz : (turnRow φ b).getD 0 0 = b.getD 0 0 := by
    cases b with
    | nil => rfl
    | cons z b => simp [turnRow_cons, h0]
  unfold normTerm
  rw [hs φ hφ, hz]

theorem pairRow_turn (φ : ℕ → ℂ) (hφ : ∀ k, ‖φ k‖ = 1) (h0 : φ 0 = 1) (center normalize : Bool) (sr lts : Rat) (N : ℕ) (starts : List Rat)
    (B : List (List ℂ)) (ij : ℕ × ℕ) :
    pairRow center normalize sr lts N starts (B.map (turnRow φ)) ij = pairRow center normalize sr lts N starts B ij := by
  unfold pairRow
  simp only [List.getElem?_map]
  cases B[ij.1]? with
  | none => rfl
  | some b0 =>
    cases B[ij.2]? with
    | none => rfl
    | some b1 =>
      cases starts[ij.1]? with
      | none => rfl
      | some s0 =>
        cases starts[ij.2]? with
        | none => rfl
        | some s1 =>
          simp only [Option.map_some]
          congr 1
          unfold corrRow corrNorm
          simp only [cross_turn φ hφ, normTerm_turn φ hφ h0, turnRow_length]

theorem mapM_withZeros (sr lts : Rat) (A : List (List ℝ)) :
    (A.mapM fun x => orStop (zeroPadding .avoidWrapFastLen sr lts x)) = .ok (A.map (withZeros sr lts)) := by
  induction A with
  | nil => rfl
  | cons x A ih =>
    rw [List.mapM_cons, ih]
    rfl

/-! ### C224 -/

/-- **C224** For all matrices of traces, all pairs and all settings: with whitened spectra (and filters after the whitening), instruments with other
responses record the same correlations if all have the same phase response. Their amplitude responses can all be different. -/
theorem c224_response (fs : List FdStep) (hf : ∀ s ∈ fs, s.IsFilter) (center normalize : Bool) (sr lts : Rat) (starts : List Rat)
    (pairs : List (ℕ × ℕ)) (A A' : List (List ℝ)) (φ : ℕ → ℂ) (hφ : ∀ k, ‖φ k‖ = 1) (h : List.Forall₂ (OtherResponse sr lts φ) A A') :
    correlateChain [] (.whiten :: fs) center normalize sr lts starts pairs A' = correlateChain [] (.whiten :: fs) center normalize sr lts starts pairs A := by
  have hlen : ∀ x x', OtherResponse sr lts φ x x' → (withZeros sr lts x').length = (withZeros sr lts x).length := by
    intro x x' hx
    simp [withZeros, hx.1]
  have hN : ((A'.map (withZeros sr lts)).headD []).length = ((A.map (withZeros sr lts)).headD []).length := by
    cases h with
    | nil => rfl
    | cons hx _ => exact hlen _ _ hx
  have hw0 : ∀ row ∈ (A.map (withZeros sr lts)).map rfft, ∀ z ∈ row, z ≠ 0 := by
    clear hN
    induction h with
    | nil => simp
    | cons hx _ ih =>
      intro row hr
      simp only [List.map_cons, List.mem_cons] at hr
      rcases hr with rfl | hr
      · intro z hz
        obtain ⟨k, hk, rfl⟩ := List.mem_map.1 hz
        obtain ⟨-, amp, -, h2⟩ := hx
        exact (h2 k (by have := List.mem_range.1 hk; omega)).1
      · exact ih row hr
  have hw1 : ∀ row ∈ (A'.map (withZeros sr lts)).map rfft, ∀ z ∈ row, z ≠ 0 := by
    clear hN hw0
    induction h with
    | nil => simp
    | cons hx _ ih =>
      intro row hr
      simp only [List.map_cons, List.mem_cons] at hr
      rcases hr with rfl | hr
      · intro z hz
        obtain ⟨k, hk, rfl⟩ := List.mem_map.1 hz
        rw [hlen _ _ hx] at hk
        obtain ⟨-, amp, h1, h2⟩ := hx
        obtain ⟨h3, h4⟩ := h2 k (by have := List.mem_range.1 hk; omega)
        rw [h4]
        refine mul_ne_zero (mul_ne_zero (by exact_mod_cast (h1 k).ne') ?_) h3
        exact norm_ne_zero_iff.1 (by rw [hφ]; norm_num)
      · exact ih row hr
  have hturn : ((A'.map (withZeros sr lts)).map rfft).map (fun row => (row.map fun z => z / (‖z‖ : ℂ)).set 0 0) =
      (((A.map (withZeros sr lts)).map rfft).map (fun row => (row.map fun z => z / (‖z‖ : ℂ)).set 0 0)).map (turnRow (laterPhase φ)) := by
    clear hN hw0 hw1
    induction h with
    | nil => rfl
    | cons hx _ ih =>
      simp only [List.map_cons]
      rw [ih]
      congr 1
      have hl := hlen _ _ hx
      obtain ⟨-, amp, h1, h2⟩ := hx
      refine whitenRow_turn φ hφ amp h1 _ _ (by simp [rfft, hl]) fun k hk => ?_
      rw [rfft, List.length_map, List.length_range] at hk
      simpa [rfft] using (h2 k (by omega)).2
  have hl1 : ∀ k, ‖laterPhase φ k‖ = 1 := by
    intro k
    unfold laterPhase
    split_ifs
    · simp
    · exact hφ k
  unfold correlateChain
  simp only [List.foldlM_nil, pure_bind, mapM_withZeros, List.foldlM_cons]
  simp only [bind, Except.bind]
  rw [hN]
  have hr : ∀ (freqs : List Rat) (B : List (List ℂ)), (∀ row ∈ B, ∀ z ∈ row, z ≠ 0) →
      FdStep.whiten.run freqs B = .ok (B.map fun row => (row.map fun z => z / (‖z‖ : ℂ)).set 0 0) := by
    intro freqs B hB
    simp only [FdStep.run, whiten_eq _ hB, orStop]
  simp only [hr _ _ hw0, hr _ _ hw1, hturn]
  rw [filters_turn _ _ fs hf]
  cases fs.foldlM (fun B (s : FdStep) => s.run (rfftfreq ((A.map (withZeros sr lts)).headD []).length sr) B)
      (((A.map (withZeros sr lts)).map rfft).map (fun row => (row.map fun z => z / (‖z‖ : ℂ)).set 0 0)) with
  | error e => rfl
  | ok B =>
    simp only [Except.map]
    congr 1
    funext ij
    exact pairRow_turn _ hl1 (by simp [laterPhase]) center normalize sr lts _ starts B ij

/-- two instruments that record later by one sample than those before, with two and three times the amplitude -/
example : List.Forall₂ (OtherResponse 1 1 fun k => exp (-(2 * Real.pi * I * (k / 3)))) [[1, 0], [1, 0]] [[0, 2], [0, 3]] := by
  have hn : nextFastLen 3 = 3 := by decide +kernel
  have hz : ∀ a b : ℝ, withZeros 1 1 [a, b] = [a, b, 0] := by
    intro a b
    have : (⌊(([a, b] : List ℝ).length : Rat) + 1 * 1⌋).toNat = 3 := by
      have : (([a, b] : List ℝ).length : Rat) + 1 * 1 = ((3 : ℤ) : Rat) := by norm_num
      rw [this, Int.floor_intCast]
      rfl
    unfold withZeros
    rw [this, hn]
    rfl
  have key : ∀ c : ℝ, 0 < c → OtherResponse 1 1 (fun k => exp (-(2 * Real.pi * I * (k / 3)))) [1, 0] [0, c] := by
    intro c hc
    refine ⟨rfl, fun _ => c, fun _ => hc, fun k _ => ?_⟩
    rw [hz, hz]
    constructor
    · simp [dft, Finset.sum_range_succ]
    · simp [dft, Finset.sum_range_succ]
  exact .cons (key 2 (by norm_num)) (.cons (key 3 (by norm_num)) .nil)

end

end SeisMIC
