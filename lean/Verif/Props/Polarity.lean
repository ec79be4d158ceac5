import Verif.Props.MeasureGain

/-!
# C168: Reversed polarity of sensors does not influence what is measured
-/

namespace SeisMIC

noncomputable section

/-- what a step makes of the matrices of one pair: the `p`-th correlation of each window -/
def pairBulk (f : List (List ℝ) → Except Stop (List (List ℝ × Rat))) (p : Nat) (windows : List (List (List ℝ))) : Except Stop (List (List ℝ)) :=
  windows.mapM fun A => (f A).map fun C => (C.getD p ([], 0)).1

/-- **C168** (velocity changes). If the signs of all traces and of the reference are reversed, whatever their amplitudes, the velocity changes that are
measured and their correlations stay the same. -/
theorem c168_stretch (spline : List ℝ → List ℝ → ℝ → ℝ) (hsp : SplineLinear spline) (data : List (List ℝ)) (s : LagStats) (ref : List ℝ)
    (tw : Option (List (List Int))) (range : ℝ) (steps : Nat) (sides : Str) (refStats : Option LagStats)
    (g : List ℝ) (hg : ∀ a ∈ g, a < 0) (hl : g.length = data.length) (c : ℝ) (hc : c < 0) :
    corrMatStretch spline (withGains g data) s (some (scaleBy c ref)) tw range steps sides refStats =
      corrMatStretch spline data s (some ref) tw range steps sides refStats :=
  stretch_any (ε := -1) spline hsp data s ref tw range steps sides refStats g (fun a ha => by simpa using hg a ha) hl c (by simpa using hc)

/-- **C168** (velocity changes without reference). If no reference is given, a factor of any sign that all traces have in common has no influence. -/
theorem c168_stretch_mean (spline : List ℝ → List ℝ → ℝ → ℝ) (hsp : SplineLinear spline) (data : List (List ℝ)) (s : LagStats)
    (tw : Option (List (List Int))) (range : ℝ) (steps : Nat) (sides : Str) (refStats : Option LagStats) (c : ℝ) (hc : c ≠ 0) :
    corrMatStretch spline (data.map (scaleBy c)) s none tw range steps sides refStats =
      corrMatStretch spline data s none tw range steps sides refStats :=
  stretch_mean_any (ε := c) spline hsp data s tw range steps sides refStats c (mul_self_pos.2 hc)

/-- **C168** (time shifts). The same holds for the measurement of time shifts with a reference, -/
theorem c168_shift (spline : List ℝ → List ℝ → ℝ → ℝ) (hsp : SplineLinear spline) (data : List (List ℝ)) (s : LagStats) (ref : List ℝ)
    (tw : Option (List (List Rat))) (range : Rat) (steps : Int) (sides : Str)
    (g : List ℝ) (hg : ∀ a ∈ g, a < 0) (hl : g.length = data.length) (c : ℝ) (hc : c < 0) :
    measureShift spline (withGains g data) s (some (scaleBy c ref)) tw range steps sides =
      measureShift spline data s (some ref) tw range steps sides :=
  shift_any (ε := -1) spline hsp data s ref tw range steps sides g (fun a ha => by simpa using hg a ha) hl c (by simpa using hc)

/-- **C168** (time shifts without reference) and without one. -/
theorem c168_shift_mean (spline : List ℝ → List ℝ → ℝ → ℝ) (hsp : SplineLinear spline) (data : List (List ℝ)) (s : LagStats)
    (tw : Option (List (List Rat))) (range : Rat) (steps : Int) (sides : Str) (c : ℝ) (hc : c ≠ 0) :
    measureShift spline (data.map (scaleBy c)) s none tw range steps sides = measureShift spline data s none tw range steps sides :=
  shift_mean_any (ε := c) spline hsp data s tw range steps sides c (mul_self_pos.2 hc)

/-- **C168** (waveform coherence). The coherence with a reference stays the same if the signs of all traces and of the reference are reversed. -/
theorem c168_coherence (n : Nat) (data : List (List ℝ)) (tw : List (List Int)) (ref : List ℝ) (sides : Str) (nans : Bool)
    (g : List ℝ) (hg : ∀ a ∈ g, a < 0) (hl : g.length = data.length) (c : ℝ) (hc : c < 0) :
    computeWfc n ((withGains g data).map fun row => row.map some) tw (scaleBy c ref) sides nans =
      computeWfc n (data.map fun row => row.map some) tw ref sides nans :=
  coherence_any (ε := -1) n data tw ref sides nans g (fun a ha => by simpa using hg a ha) hl c (by simpa using hc)

theorem pairSign_ne (g : List ℝ) (hg : ∀ a ∈ g, a ≠ 0) (ij : Nat × Nat) : pairSign g ij ≠ 0 := by
  have h : ∀ i, g.getD i 1 ≠ 0 := by
    intro i
    rw [List.getD_eq_getElem?_getD]
    cases hi : g[i]? with
    | none => simp
    | some a => exact hg a (List.mem_of_getElem? hi)
  unfold pairSign
  have := mul_ne_zero (h ij.1) (h ij.2)
  rcases lt_or_gt_of_ne this with h | h
  · rw [sign_neg h]; simp
  · rw [sign_pos h]; simp

/-- the correlations of a pair with gains of the sensors -/
theorem pairBulk_gains (td : List TdStep) (htd : ∀ s ∈ td, s.Relative) (fd : List FdStep) (center : Bool) (sr lts : Rat)
    (starts : List Rat) (pairs : List (Nat × Nat)) (p : Nat) (ij : Nat × Nat) (hp : pairs[p]? = some ij) (g : List ℝ) (hg : ∀ a ∈ g, a ≠ 0)
    (windows : List (List (List ℝ))) (hl : ∀ A ∈ windows, g.length = A.length) :
    pairBulk (correlateChain td fd center true sr lts starts pairs) p (windows.map (withGains g)) =
      (pairBulk (correlateChain td fd center true sr lts starts pairs) p windows).map fun rows => rows.map (scaleBy (pairSign g ij)) := by
  unfold pairBulk
  induction windows with
  | nil => rfl
  | cons A windows ih =>
    rw [List.map_cons, List.mapM_cons, List.mapM_cons, ih fun B hB => hl B (List.mem_cons_of_mem _ hB),
      c154_polarity_partial td htd fd center sr lts starts pairs A g hg (hl A List.mem_cons_self)]
    cases hC : correlateChain td fd center true sr lts starts pairs A with
    | error e => rfl
    | ok C =>
      have hlen : C.length = pairs.length := by
        unfold correlateChain at hC
        simp only [bind, Except.bind] at hC
        split at hC
        · cases hC
        · split at hC
          · cases hC
          · split at hC
            · cases hC
            · exact mapM_length _ _ _ hC
      simp only [Except.map, bind, Except.bind]
      have hrow : ((List.zipWith (fun ij c => (scaleBy (pairSign g ij) c.1, c.2)) pairs C).getD p ([], 0)).1 =
          scaleBy (pairSign g ij) (C.getD p ([], 0)).1 := by
        have hpl : p < pairs.length := (List.getElem?_eq_some_iff.1 hp).1
        have hpc : p < C.length := hlen ▸ hpl
        rw [List.getD_eq_getElem?_getD, List.getD_eq_getElem?_getD, List.getElem?_zipWith, hp, List.getElem?_eq_getElem hpc]
        rfl
      rw [hrow]
      cases List.mapM (m := Except Stop) _ windows with
      | error e => rfl
      | ok rows => rfl

/-- **C168** (from seismograms to velocity changes). Let sensors have other gains, some of them with reversed polarity, during all windows. Then either the
processing fails for both, with the same exception, or the velocity changes of every pair are the same (no step may depend on absolute amplitudes). -/
theorem c168_run (td : List TdStep) (htd : ∀ s ∈ td, s.Relative) (fd : List FdStep) (center : Bool) (sr lts : Rat)
    (starts : List Rat) (pairs : List (Nat × Nat)) (p : Nat) (hp : p < pairs.length) (g : List ℝ) (hg : ∀ a ∈ g, a ≠ 0)
    (windows : List (List (List ℝ))) (hl : ∀ A ∈ windows, g.length = A.length)
    (spline : List ℝ → List ℝ → ℝ → ℝ) (hsp : SplineLinear spline) (s : LagStats) (tw : Option (List (List Int))) (range : ℝ) (steps : Nat)
    (sides : Str) (refStats : Option LagStats) :
    (pairBulk (correlateChain td fd center true sr lts starts pairs) p (windows.map (withGains g))).map
        (fun rows => corrMatStretch spline rows s none tw range steps sides refStats) =
      (pairBulk (correlateChain td fd center true sr lts starts pairs) p windows).map
        fun rows => corrMatStretch spline rows s none tw range steps sides refStats := by
  rw [pairBulk_gains td htd fd center sr lts starts pairs p _ (List.getElem?_eq_getElem hp) g hg windows hl]
  cases pairBulk (correlateChain td fd center true sr lts starts pairs) p windows with
  | error e => rfl
  | ok rows =>
    simp only [Except.map]
    rw [c168_stretch_mean spline hsp rows s tw range steps sides refStats _ (pairSign_ne g hg _)]

/-- Hypotheses of C168: negative gains, and an interpolation that is linear in the values. -/
example : SplineLinear (fun times values x => values.getD ((times.filter fun t => decide (t ≤ x)).length - 1) 0) ∧
    (∀ a ∈ [(-2 : ℝ), -1 / 3], a < 0) ∧ withGains [-2, -1 / 3] [[1, 4, 2], [3, 0, 6]] = [[-2, -8, -4], [-1, 0, -2]] ∧
    pairSign [-2, -1 / 3, 1] (0, 2) = -1 ∧ pairSign [-2, -1 / 3, 1] (0, 1) = 1 := by
  refine ⟨fun a t v x => getD_scaleBy a v _, ?_, ?_, ?_, ?_⟩
  · intro a ha
    simp only [List.mem_cons, List.not_mem_nil, or_false] at ha
    rcases ha with rfl | rfl <;> norm_num
  · norm_num [withGains, scaleBy]
  · norm_num [pairSign, sign_neg]
  · norm_num [pairSign, sign_pos]

/-- If the polarity changes during the measurement, the result does change: the second trace is opposite to the mean of the reference. -/
example : similarity [1, 2] [1, 2] = some 1 ∧ similarity (scaleBy (-1) [1, 2]) [1, 2] = some (-1) := by
  have h5 : Real.sqrt (5 * 5) = 5 := Real.sqrt_mul_self (by norm_num)
  constructor <;> norm_num [similarity, dotR, scaleBy] <;> rw [show (25 : ℝ) = 5 * 5 by norm_num, h5] <;> norm_num

end

end SeisMIC
