import Verif.Model.Floats
import Verif.Lemmas.Float
import Verif.Props.Parallel

/-!
# C192: rounding does not influence the distribution of work
-/

namespace SeisMIC

theorem f64_nat (n : Nat) (h : n ≤ 2 ^ 53) : f64 (n : Rat) = n := by
  have := roundTo_exact 53 (by decide) ((n : Int) : Rat) (representable_int 53 n (by rw [abs_of_nonneg (by omega)]; exact_mod_cast h))
  unfold f64
  simpa using this

theorem f64_mono {x y : Rat} (h : x ≤ y) : f64 x ≤ f64 y := roundTo_mono 53 (by decide) h

theorem f64_err (x : Rat) : |f64 x - x| ≤ |x| * pow2 (-53) := roundTo_err 53 x

theorem pow2_neg53 : pow2 (-53) = 1 / 9007199254740992 := by rw [pow2_eq]; norm_num

/-- the quotient of two whole numbers, rounded to a float, has the same integer part as the exact quotient -/
theorem floor_f64_div (a n : Nat) (hn : 0 < n) (h : a + n < 2 ^ 53) : (f64 ((a : Rat) / n)).floor = (a / n : Nat) := by
  have hn' : (0 : Rat) < n := by exact_mod_cast hn
  have ha : (0 : Rat) ≤ a := by positivity
  have hx : (0 : Rat) ≤ (a : Rat) / n := by positivity
  have hq : a / n ≤ a := Nat.div_le_self a n
  apply le_antisymm
  · -- the next whole number is further away than the error
    have hlt : (f64 ((a : Rat) / n)).floor < ((a / n : Nat) : Int) + 1 := by
      rw [Rat.floor_lt_iff]
      have herr := (abs_le.1 (f64_err ((a : Rat) / n))).2
      rw [abs_of_nonneg hx, pow2_neg53] at herr
      have hmod : a + 1 ≤ (a / n + 1) * n := by
        have := Nat.div_add_mod a n
        have hm := Nat.mod_lt a hn
        have : n * (a / n) = a / n * n := Nat.mul_comm _ _
        rw [Nat.add_mul]; omega
      have hmod' : (a : Rat) + 1 ≤ ((a / n : Nat) + 1) * n := by exact_mod_cast hmod
      have hle : ((a : Rat) + 1) / n ≤ (a / n : Nat) + 1 := by rw [div_le_iff₀ hn']; exact hmod'
      have hsm : (a : Rat) / n * (1 / 9007199254740992) < 1 / n := by
        rw [div_mul_eq_mul_div, div_lt_div_iff_of_pos_right hn']
        have : (a : Rat) < 9007199254740992 := by
          have : a < 9007199254740992 := by omega
          exact_mod_cast this
        linarith
      have : ((a : Rat) + 1) / n = a / n + 1 / n := by rw [add_div]
      rw [Int.cast_add, Int.cast_natCast, Int.cast_one]
      linarith
    omega
  · rw [Rat.le_floor_iff]
    have : ((a / n : Nat) : Rat) ≤ (a : Rat) / n := by
      rw [le_div_iff₀ hn']
      exact_mod_cast Nat.div_mul_le_self a n
    have h2 := f64_mono this
    rw [f64_nat _ (by omega)] at h2
    exact_mod_cast h2

/-- **C192** The process that rounded arithmetic assigns to an item is the one of exact arithmetic. -/
theorem c192_same_process (n p i : Nat) (hn : 0 < n) (hi : i < n) (h : n * p + n < 2 ^ 53) : pmapF n p i = pmap n p i := by
  have hle : i * p ≤ n * p := Nat.mul_le_mul_right p (by omega)
  unfold pmapF pmap
  rw [f64_nat (i * p) (by omega), f64_nat n (by omega)]
  unfold truncRat
  have hnn : ¬ f64 (((i * p : Nat) : Rat) / n) < 0 := by
    have : (0 : Rat) ≤ f64 (((i * p : Nat) : Rat) / n) := roundTo_nonneg 53 _ (by positivity)
    exact not_lt.2 this
  rw [if_neg hnn, floor_f64_div _ n hn (by omega)]

/-- **C192** Each process works on the items it would work on without rounding. -/
theorem c192_same_items (n p r : Nat) (h : n * p + n < 2 ^ 53) : ownIndicesF n p r = ownIndices n p r := by
  unfold ownIndicesF ownIndices
  refine List.filter_congr fun i hi => ?_
  have hi := List.mem_range.1 hi
  rw [c192_same_process n p i (by omega) hi h]
  by_cases hr : pmap n p i = r
  · simp [hr]
  · have : ¬ ((pmap n p i : Int) = (r : Int)) := by omega
    simp [hr, this]

/-- **C192** Every item is worked on by exactly one process, the blocks of the processes are contiguous and in order, and
their lengths differ by at most one. -/
theorem c192_distribution (n p : Nat) (hp : 0 < p) (h : n * p + n < 2 ^ 53) :
    (∀ i < n, ∃ r, (r < p ∧ i ∈ ownIndicesF n p r) ∧ ∀ r', i ∈ ownIndicesF n p r' → r' = r) ∧
    (List.range p).flatMap (ownIndicesF n p) = List.range n ∧
    ∀ r r', r < p → r' < p → (ownIndicesF n p r).length ≤ (ownIndicesF n p r').length + 1 := by
  have he : ownIndicesF n p = ownIndices n p := funext fun r => c192_same_items n p r h
  rw [he]
  exact ⟨(c01_exactly_one_process n p hp).1, c03_contiguous n p hp, fun r r' hr hr' => c03_balanced n p r r' hr hr'⟩

/-- a distribution whose quotients are rounded: 3 items, 10 processes -/
example : ownIndicesF 3 10 6 = [2] ∧ f64 ((20 : Nat) / (3 : Nat) : Rat) ≠ 20 / 3 ∧ 3 * 10 + 3 < 2 ^ 53 := by decide +kernel

end SeisMIC
