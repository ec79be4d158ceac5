import Verif.Props.MuteQuiet
import Verif.Props.FloatLags

/-! # Muting with tapers of 2, 4, 8, ... samples despite rounding (C208) -/

namespace SeisMIC

theorem foldl_f64_exact (p : Nat) : ∀ (l : List Rat), (∀ x ∈ l, x = 0 ∨ x = pow2 (-p)) → ∀ m : Nat, m + l.length ≤ 2 ^ 53 →
    l.foldl (fun s x => f64 (s + x)) (m * pow2 (-p)) = m * pow2 (-p) + l.sum := by
  intro l
  induction l with
  | nil => intro _ m _; simp
  | cons x l ih =>
    intro h m hm
    have ih := ih fun y hy => h y (by simp [hy])
    simp only [List.length_cons] at hm
    have hex : ∀ m' : Nat, m' ≤ 2 ^ 53 → f64 (m' * pow2 (-p)) = m' * pow2 (-p) := fun m' hm' =>
      f64_exact ⟨m', -p, by rw [abs_of_nonneg (by omega)]; exact_mod_cast hm', by push_cast; rfl⟩
    rw [List.foldl_cons, List.sum_cons]
    rcases h x (by simp) with rfl | rfl
    · rw [add_zero, hex m (by omega), ih m (by omega), zero_add]
    · have e : (m : Rat) * pow2 (-p) + pow2 (-p) = ((m + 1 : Nat) : Rat) * pow2 (-p) := by push_cast; ring
      rw [e, hex (m + 1) (by omega), ih (m + 1) (by omega)]
      push_cast
      ring

theorem movingMeanF_exact (p : Nat) (hp : p ≤ 53) (mask : List Rat) (h : ∀ x ∈ mask, x = 0 ∨ x = 1) :
    (movingMeanF mask (2 ^ p)).map (fun x : Rat => (x : ℝ)) =
      convSame (mask.map fun x : Rat => (x : ℝ)) (List.replicate (2 ^ p) (1 / ((2 ^ p : Nat) : ℝ))) := by
  have hw : f64 (1 / ((2 ^ p : Nat) : Rat)) = pow2 (-p) := by
    have : 1 / ((2 ^ p : Nat) : Rat) = pow2 (-p) := by rw [pow2_eq]; simp
    rw [this]
    exact f64_exact ⟨1, -p, by norm_num, by simp⟩
  have hw' : ((pow2 (-p) : Rat) : ℝ) = 1 / ((2 ^ p : Nat) : ℝ) := by rw [pow2_eq]; push_cast; simp
  unfold movingMeanF convSame
  rw [List.map_map, List.length_map, List.length_replicate]
  refine List.map_congr_left fun i _ => ?_
  simp only [Function.comp]
  rw [hw]
  have hf := foldl_f64_exact p ((List.range (2 ^ p)).map fun j =>
      (if 2 ^ p - 1 - j ≤ i + (2 ^ p - 1) / 2 then mask.getD (i + (2 ^ p - 1) / 2 - (2 ^ p - 1 - j)) 0 else 0) * pow2 (-p)) (by
    intro x hx
    obtain ⟨j, _, rfl⟩ := List.mem_map.1 hx
    have : ∀ y : Rat, y = 0 ∨ y = 1 → y * pow2 (-p) = 0 ∨ y * pow2 (-p) = pow2 (-p) := by
      rintro y (rfl | rfl) <;> simp
    apply this
    split
    · rw [List.getD_eq_getElem?_getD]
      cases hg : mask[i + (2 ^ p - 1) / 2 - (2 ^ p - 1 - j)]? with
      | none => exact .inl rfl
      | some y => exact h y (List.mem_of_getElem? hg)
    · exact .inl rfl) 0 (by
    rw [List.length_map, List.length_range, zero_add]
    exact Nat.pow_le_pow_right (by norm_num) hp)
  simp only [Nat.cast_zero, zero_mul, zero_add] at hf
  rw [hf]
  have hsum : ∀ (n : Nat) (g : Nat → Rat), ((((List.range n).map g).sum : Rat) : ℝ) = ∑ j ∈ Finset.range n, ((g j : Rat) : ℝ) := by
    intro n g
    have : ((List.range n).map g).sum = ∑ j ∈ Finset.range n, g j := rfl
    rw [this]
    push_cast
    rfl
  have hsum' : ∀ (n : Nat) (g : Nat → ℝ), ((List.range n).map g).sum = ∑ j ∈ Finset.range n, g j := fun _ _ => rfl
  rw [hsum, hsum', ← Finset.sum_range_reflect]
  refine Finset.sum_congr rfl fun j hj => ?_
  have hj := Finset.mem_range.1 hj
  have e : 2 ^ p - 1 - (2 ^ p - 1 - j) = j := by omega
  have hr : (List.replicate (2 ^ p) (1 / ((2 ^ p : Nat) : ℝ))).getD j 0 = 1 / ((2 ^ p : Nat) : ℝ) := by
    rw [List.getD_eq_getElem?_getD, List.getElem?_replicate, if_pos hj, Option.getD_some]
  rw [e, Rat.cast_mul, hw', mul_comm, hr]
  congr 1
  split
  · rw [List.getD_eq_getElem?_getD, List.getD_eq_getElem?_getD, List.getElem?_map]
    cases mask[i + (2 ^ p - 1) / 2 - j]? <;> simp
  · simp

/-- **C208** (rounding) If muted segments are not extended, or if the number of samples of the taper is a power of two, rounding does not influence what is muted:
the result is that of exact arithmetic, so quiet samples survive as in `c208_quiet_partial`. Partial: for other lengths of the taper see
`c208_rounding_violated`. -/
theorem c208_powers_partial (filt : List ℝ → List ℝ) (A : List (List ℝ)) (npts : Nat) (sr : Rat) (args : MuteArgs)
    (h : args.extendGaps = false ∨ ∃ p : Nat, p ≤ 53 ∧ truncRat (args.taperLen * sr) = 2 ^ p) :
    muteF filt A npts sr args = mute filt A npts sr args := by
  have hrow : 0 < truncRat (args.taperLen * sr) → ∀ c : List ℝ,
      muteWeightsF args (truncRat (args.taperLen * sr)).toNat c = muteWeights args (truncRat (args.taperLen * sr)).toNat c := by
    intro hpos c
    unfold muteWeightsF muteWeights
    have hm : (c.map fun x => if |x| > args.thres c then (0 : Rat) else 1).map (fun x : Rat => (x : ℝ)) = c.map fun x => if |x| > args.thres c then (0 : ℝ) else 1 := by
      rw [List.map_map]
      refine List.map_congr_left fun x _ => ?_
      simp only [Function.comp]
      split <;> simp
    refine congrArg (convSame · _) ?_
    cases hg : args.extendGaps with
    | false =>
      simp only [Bool.false_eq_true, if_false]
      rw [← hm]
      simp [List.flatMap_singleton', List.map_eq_flatMap]
    | true =>
      obtain ⟨p, hp, ht⟩ := h.resolve_left (by simp [hg])
      have ht' : (truncRat (args.taperLen * sr)).toNat = 2 ^ p := by
        rw [ht]
        exact_mod_cast Int.toNat_natCast (2 ^ p)
      simp only [if_true]
      rw [ht', ← hm, ← movingMeanF_exact p hp _ (by
        intro x hx
        obtain ⟨y, _, rfl⟩ := List.mem_map.1 hx
        split
        · exact .inl rfl
        · exact .inr rfl), List.map_map]
      refine List.map_congr_left fun x _ => ?_
      simp only [Function.comp]
      by_cases hx : x < 1
      · rw [if_pos hx, if_pos (by exact_mod_cast hx)]
      · rw [if_neg hx, if_neg (by exact_mod_cast hx)]
  unfold muteF mute
  by_cases h0 : args.taperLen = 0
  · rw [if_pos h0, if_pos h0]
  · rw [if_neg h0, if_neg h0]
    simp only
    by_cases h1 : (npts : Int) ≤ truncRat (args.taperLen * sr)
    · rw [if_pos h1, if_pos h1]
    · rw [if_neg h1, if_neg h1]
      by_cases h2 : truncRat (args.taperLen * sr) ≤ 0
      · rw [if_pos h2, if_pos h2]
      · rw [if_neg h2, if_neg h2]
        congr 1
        exact List.map_congr_left fun row _ => by rw [hrow (by omega)]

/-- a taper of 0.8 s at 10 Hz has eight samples -/
example : truncRat ((4 / 5 : Rat) * 10) = 2 ^ 3 := by decide +kernel

end SeisMIC
