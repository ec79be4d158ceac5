import Verif.Py.Float
import Mathlib.Algebra.Order.Field.Power
import Mathlib.Algebra.Order.Field.Rat
import Mathlib.Tactic.Linarith
import Mathlib.Tactic.Ring
import Mathlib.Tactic.NormNum
import Mathlib.Tactic.FieldSimp
import Mathlib.Tactic.Positivity

/-! # Lemmas on rounding of floating point numbers -/

namespace SeisMIC

theorem pow2_eq (e : Int) : pow2 e = (2 : Rat) ^ e := by
  cases e with
  | ofNat n => simp [pow2]
  | negSucc n => simp [pow2, zpow_negSucc]

theorem pow2_pos (e : Int) : 0 < pow2 e := by rw [pow2_eq]; positivity

theorem pow2_add (a b : Int) : pow2 (a + b) = pow2 a * pow2 b := by
  rw [pow2_eq, pow2_eq, pow2_eq, zpow_add₀ (by norm_num)]

theorem pow2_le {a b : Int} (h : a ≤ b) : pow2 a ≤ pow2 b := by
  rw [pow2_eq, pow2_eq]; exact zpow_le_zpow_right₀ (by norm_num) h

theorem pow2_lt {a b : Int} (h : a < b) : pow2 a < pow2 b := by
  rw [pow2_eq, pow2_eq]; exact zpow_lt_zpow_right₀ (by norm_num) h

theorem lt_of_pow2_lt {a b : Int} (h : pow2 a < pow2 b) : a < b := by
  by_contra hc
  exact absurd h (not_lt.2 (pow2_le (not_lt.1 hc)))

theorem pow2_nat (n : Nat) : pow2 (n : Int) = ((2 ^ n : Nat) : Rat) := rfl

theorem pow2_zero : pow2 0 = 1 := by rw [pow2_eq]; norm_num

theorem pow2_neg_mul (a : Int) : pow2 (-a) * pow2 a = 1 := by rw [← pow2_add]; simp [pow2_zero]

theorem abs_eq_natAbs_div (x : Rat) : |x| = (x.num.natAbs : Rat) / (x.den : Rat) := by
  conv_lhs => rw [← Rat.num_div_den x]
  rw [abs_div, Nat.abs_cast]
  congr 1
  rw [← Int.cast_abs, Int.abs_eq_natAbs]
  simp

theorem ilog2_spec (x : Rat) (hx : x ≠ 0) : pow2 (ilog2 x) ≤ |x| ∧ |x| < pow2 (ilog2 x + 1) := by
  have hn : x.num.natAbs ≠ 0 := by simpa using hx
  have hd : x.den ≠ 0 := x.den_nz
  have hd' : (0 : Rat) < (x.den : Rat) := by exact_mod_cast Nat.pos_of_ne_zero hd
  obtain ⟨a1, a2⟩ : 2 ^ Nat.log2 x.num.natAbs ≤ x.num.natAbs ∧ x.num.natAbs < 2 ^ (Nat.log2 x.num.natAbs + 1) :=
    ⟨Nat.log2_self_le hn, Nat.lt_log2_self⟩
  obtain ⟨b1, b2⟩ : 2 ^ Nat.log2 x.den ≤ x.den ∧ x.den < 2 ^ (Nat.log2 x.den + 1) := ⟨Nat.log2_self_le hd, Nat.lt_log2_self⟩
  have A1 : pow2 (Nat.log2 x.num.natAbs : Int) ≤ (x.num.natAbs : Rat) := by rw [pow2_nat]; exact_mod_cast a1
  have A2 : (x.num.natAbs : Rat) < pow2 ((Nat.log2 x.num.natAbs : Int) + 1) := by
    rw [show ((Nat.log2 x.num.natAbs : Int) + 1) = ((Nat.log2 x.num.natAbs + 1 : Nat) : Int) by simp, pow2_nat]; exact_mod_cast a2
  have B1 : pow2 (Nat.log2 x.den : Int) ≤ (x.den : Rat) := by rw [pow2_nat]; exact_mod_cast b1
  have B2 : (x.den : Rat) < pow2 ((Nat.log2 x.den : Int) + 1) := by
    rw [show ((Nat.log2 x.den : Int) + 1) = ((Nat.log2 x.den + 1 : Nat) : Int) by simp, pow2_nat]; exact_mod_cast b2
  have hab := abs_eq_natAbs_div x
  unfold ilog2
  simp only
  generalize (Nat.log2 x.num.natAbs : Int) = la at *
  generalize (Nat.log2 x.den : Int) = lb at *
  have up : |x| < pow2 (la - lb + 1) := by
    rw [hab, div_lt_iff₀ hd']
    calc (x.num.natAbs : Rat) < pow2 (la + 1) := A2
      _ = pow2 (la - lb + 1) * pow2 lb := by rw [← pow2_add]; congr 1; ring
      _ ≤ pow2 (la - lb + 1) * x.den := mul_le_mul_of_nonneg_left B1 (le_of_lt (pow2_pos _))
  have lo : pow2 (la - lb - 1) ≤ |x| := by
    rw [hab, le_div_iff₀ hd']
    calc pow2 (la - lb - 1) * x.den ≤ pow2 (la - lb - 1) * pow2 (lb + 1) :=
          mul_le_mul_of_nonneg_left (le_of_lt B2) (le_of_lt (pow2_pos _))
      _ = pow2 la := by rw [← pow2_add]; congr 1; ring
      _ ≤ x.num.natAbs := A1
  split
  · rename_i h; exact ⟨h, up⟩
  · rename_i h
    refine ⟨lo, ?_⟩
    rw [sub_add_cancel]
    exact not_le.1 h

/-! ## `round` -/

theorem floor_le' (y : Rat) : (y.floor : Rat) ≤ y := Rat.floor_le y

theorem lt_floor_add_one' (y : Rat) : y < (y.floor : Rat) + 1 := by
  have := Rat.lt_floor (x := y); linarith

theorem pyRound_err (y : Rat) : |(pyRound y : Rat) - y| ≤ 1 / 2 := by
  have h1 := floor_le' y
  have h2 := lt_floor_add_one' y
  unfold pyRound
  rw [abs_le]
  split
  · constructor <;> linarith
  · split
    · push_cast; constructor <;> linarith
    · have : y - y.floor = 1 / 2 := by linarith
      split
      · constructor <;> linarith
      · push_cast; constructor <;> linarith

theorem pyRound_whole (n : Int) : pyRound (n : Rat) = n := by
  unfold pyRound
  have : (n : Rat).floor = n := Rat.floor_intCast n
  rw [this, if_pos (by norm_num)]

theorem pyRound_mono {x y : Rat} (h : x ≤ y) : pyRound x ≤ pyRound y := by
  by_contra hc
  have hc' : pyRound y + 1 ≤ pyRound x := by omega
  have hcr : (pyRound y : Rat) + 1 ≤ pyRound x := by exact_mod_cast hc'
  have ex := abs_le.1 (pyRound_err x)
  have ey := abs_le.1 (pyRound_err y)
  have he : x = y := by linarith
  rw [he] at hc
  exact hc le_rfl

theorem pyRound_neg (y : Rat) : pyRound (-y) = -pyRound y := by
  have h1 := floor_le' y
  have h2 := lt_floor_add_one' y
  rcases eq_or_lt_of_le h1 with h | h
  · have : y = (y.floor : Rat) := h.symm
    rw [this, ← Int.cast_neg, pyRound_whole, pyRound_whole]
  · have hf : (-y).floor = -y.floor - 1 := by
      apply le_antisymm
      · have : (-y).floor < -y.floor := by
          rw [Rat.floor_lt_iff]; push_cast; linarith
        omega
      · rw [Rat.le_floor_iff]; push_cast; linarith
    unfold pyRound
    rw [hf]
    push_cast
    have hfr : -y - (-(y.floor : Rat) - 1) = 1 - (y - y.floor) := by ring
    rw [hfr]
    generalize hg : y - (y.floor : Rat) = g
    rcases lt_trichotomy g (1 / 2) with c | c | c
    · have q1 : ¬ 1 - g < 1 / 2 := by linarith
      have q2 : 1 / 2 < 1 - g := by linarith
      rw [if_pos c, if_neg q1, if_pos q2]; ring
    · subst c
      have q1 : ¬ (1 : Rat) - 1 / 2 < 1 / 2 := by norm_num
      have q2 : ¬ (1 : Rat) / 2 < 1 - 1 / 2 := by norm_num
      have q3 : ¬ (1 : Rat) / 2 < 1 / 2 := by norm_num
      rw [if_neg q1, if_neg q2, if_neg q3, if_neg q3]
      by_cases hp : y.floor % 2 = 0
      · have hq : ¬ (-y.floor - 1) % 2 = 0 := by omega
        rw [if_pos hp, if_neg hq]; ring
      · have hq : (-y.floor - 1) % 2 = 0 := by omega
        rw [if_neg hp, if_pos hq]; ring
    · have q1 : 1 - g < 1 / 2 := by linarith
      have q2 : ¬ g < 1 / 2 := by linarith
      rw [if_pos q1, if_neg q2, if_pos c]; ring

/-! ## rounding to `p` digits -/

theorem roundTo_zero (p : Nat) : roundTo p 0 = 0 := by simp [roundTo]

/-- the error is at most half a unit of the last digit -/
theorem roundTo_ulp (p : Nat) (x : Rat) (hx : x ≠ 0) : |roundTo p x - x| ≤ pow2 (ilog2 x - p) := by
  unfold roundTo
  rw [if_neg hx]
  generalize hs : (p : Int) - 1 - ilog2 x = k
  have hk := pow2_pos k
  have he := pyRound_err (x * pow2 k)
  have : (pyRound (x * pow2 k) : Rat) / pow2 k - x = ((pyRound (x * pow2 k) : Rat) - x * pow2 k) / pow2 k := by
    field_simp
  rw [this, abs_div, abs_of_pos hk, div_le_iff₀ hk]
  have : pow2 (ilog2 x - p) * pow2 k = 1 / 2 := by
    rw [← pow2_add, show ilog2 x - p + k = -1 by omega, pow2_eq]; norm_num
  rw [this]; exact he

/-- the relative error is at most `2^-p` -/
theorem roundTo_err (p : Nat) (x : Rat) : |roundTo p x - x| ≤ |x| * pow2 (-p) := by
  by_cases hx : x = 0
  · subst hx; simp [roundTo_zero]
  · refine le_trans (roundTo_ulp p x hx) ?_
    rw [sub_eq_add_neg, pow2_add]
    exact mul_le_mul_of_nonneg_right (ilog2_spec x hx).1 (le_of_lt (pow2_pos _))

/-- numbers with at most `p` significant binary digits -/
def Representable (p : Nat) (x : Rat) : Prop := ∃ m k : Int, |m| ≤ 2 ^ p ∧ x = m * pow2 k

theorem roundTo_of_lt (p : Nat) (m k : Int) (hm : |m| < 2 ^ p) : roundTo p (m * pow2 k) = m * pow2 k := by
  by_cases hx : (m : Rat) * pow2 k = 0
  · rw [hx, roundTo_zero]
  obtain ⟨h1, _⟩ := ilog2_spec _ hx
  have habs : |(m : Rat) * pow2 k| < pow2 (p + k) := by
    rw [abs_mul, abs_of_pos (pow2_pos k), pow2_add]
    refine mul_lt_mul_of_pos_right ?_ (pow2_pos k)
    rw [← Int.cast_abs, pow2_nat]; exact_mod_cast hm
  have he : ilog2 ((m : Rat) * pow2 k) < p + k := lt_of_pow2_lt (lt_of_le_of_lt h1 habs)
  unfold roundTo
  rw [if_neg hx]
  generalize ilog2 ((m : Rat) * pow2 k) = e at *
  obtain ⟨j, hj⟩ : ∃ j : Nat, (p : Int) - 1 - e + k = j := ⟨((p : Int) - 1 - e + k).toNat, by omega⟩
  have : (m : Rat) * pow2 k * pow2 ((p : Int) - 1 - e) = ((m * 2 ^ j : Int) : Rat) := by
    rw [mul_assoc, ← pow2_add, show k + ((p : Int) - 1 - e) = j by omega, pow2_nat]; push_cast; ring
  rw [this, pyRound_whole, ← this]
  have := pow2_pos ((p : Int) - 1 - e)
  field_simp

/-- representable numbers are not changed -/
theorem roundTo_exact (p : Nat) (hp : 0 < p) (x : Rat) (h : Representable p x) : roundTo p x = x := by
  obtain ⟨m, k, hm, rfl⟩ := h
  rcases lt_or_eq_of_le hm with h | h
  · exact roundTo_of_lt p m k h
  · obtain ⟨q, rfl⟩ : ∃ q, p = q + 1 := ⟨p - 1, by omega⟩
    have hpos : (0 : Int) < 2 ^ q := by positivity
    have : ∃ m' : Int, m = m' * 2 ∧ |m'| < 2 ^ (q + 1) := by
      rcases abs_choice m with hc | hc
      · refine ⟨2 ^ q, by rw [← hc, h, pow_succ], ?_⟩
        rw [abs_of_pos hpos, pow_succ]; omega
      · refine ⟨-2 ^ q, by rw [neg_mul, ← pow_succ, ← h, hc, neg_neg], ?_⟩
        rw [abs_neg, abs_of_pos hpos, pow_succ]; omega
    obtain ⟨m', rfl, hm'⟩ := this
    have : ((m' * 2 : Int) : Rat) * pow2 k = m' * pow2 (k + 1) := by
      rw [pow2_add]; push_cast; rw [show pow2 1 = 2 by rw [pow2_eq]; norm_num]; ring
    rw [this]
    exact roundTo_of_lt _ _ _ hm'

theorem representable_int (p : Nat) (n : Int) (h : |n| ≤ 2 ^ p) : Representable p n := ⟨n, 0, h, by simp [pow2_zero]⟩

theorem representable_neg {p : Nat} {x : Rat} (h : Representable p x) : Representable p (-x) := by
  obtain ⟨m, k, hm, rfl⟩ := h
  exact ⟨-m, k, by simpa using hm, by push_cast; ring⟩

theorem ilog2_neg (x : Rat) : ilog2 (-x) = ilog2 x := by
  unfold ilog2
  simp

theorem roundTo_neg (p : Nat) (x : Rat) : roundTo p (-x) = -roundTo p x := by
  unfold roundTo
  by_cases hx : x = 0
  · subst hx; simp
  · rw [if_neg (by simpa using hx), if_neg hx, ilog2_neg, neg_mul, pyRound_neg]
    push_cast; ring

/-- results of rounding are representable -/
theorem representable_roundTo (p : Nat) (x : Rat) : Representable p (roundTo p x) := by
  by_cases hx : x = 0
  · subst hx; exact ⟨0, 0, by simp, by simp [roundTo_zero]⟩
  · obtain ⟨_, h2⟩ := ilog2_spec x hx
    unfold roundTo
    rw [if_neg hx]
    refine ⟨_, -((p : Int) - 1 - ilog2 x), ?_, by
      have := pow2_neg_mul ((p : Int) - 1 - ilog2 x)
      have hp := pow2_pos ((p : Int) - 1 - ilog2 x)
      rw [div_eq_iff (ne_of_gt hp), mul_assoc, this, mul_one]⟩
    have hy : |x * pow2 ((p : Int) - 1 - ilog2 x)| < pow2 p := by
      rw [abs_mul, abs_of_pos (pow2_pos _)]
      calc |x| * pow2 ((p : Int) - 1 - ilog2 x) < pow2 (ilog2 x + 1) * pow2 ((p : Int) - 1 - ilog2 x) :=
            mul_lt_mul_of_pos_right h2 (pow2_pos _)
        _ = pow2 p := by rw [← pow2_add]; congr 1; ring
    rw [pow2_nat] at hy
    obtain ⟨y1, y2⟩ := abs_lt.1 hy
    rw [abs_le]
    constructor
    · have := pyRound_mono (le_of_lt y1)
      rw [show (-((2 ^ p : Nat) : Rat)) = ((-(2 ^ p) : Int) : Rat) by push_cast; rfl, pyRound_whole] at this
      exact this
    · have := pyRound_mono (le_of_lt y2)
      rw [show (((2 ^ p : Nat) : Rat)) = (((2 ^ p) : Int) : Rat) by push_cast; rfl, pyRound_whole] at this
      exact this

theorem roundTo_nonneg (p : Nat) (x : Rat) (h : 0 ≤ x) : 0 ≤ roundTo p x := by
  unfold roundTo
  split
  · exact le_rfl
  · refine div_nonneg ?_ (le_of_lt (pow2_pos _))
    have := pyRound_mono (mul_nonneg h (le_of_lt (pow2_pos ((p : Int) - 1 - ilog2 x))))
    rw [show (0 : Rat) = ((0 : Int) : Rat) by simp, pyRound_whole] at this
    exact_mod_cast this

theorem ilog2_mono {x y : Rat} (hx : 0 < x) (h : x ≤ y) : ilog2 x ≤ ilog2 y := by
  have hy : 0 < y := lt_of_lt_of_le hx h
  have a := ilog2_spec x (ne_of_gt hx)
  have b := ilog2_spec y (ne_of_gt hy)
  rw [abs_of_pos hx] at a
  rw [abs_of_pos hy] at b
  have : ilog2 x < ilog2 y + 1 := lt_of_pow2_lt (lt_of_le_of_lt a.1 (lt_of_le_of_lt h b.2))
  omega

theorem roundTo_mono_pos (p : Nat) (hp : 0 < p) {x y : Rat} (hx : 0 < x) (h : x ≤ y) : roundTo p x ≤ roundTo p y := by
  have hy : 0 < y := lt_of_lt_of_le hx h
  obtain ⟨a1, a2⟩ := ilog2_spec x (ne_of_gt hx)
  obtain ⟨b1, b2⟩ := ilog2_spec y (ne_of_gt hy)
  rw [abs_of_pos hx] at a1 a2
  rw [abs_of_pos hy] at b1 b2
  unfold roundTo
  rw [if_neg (ne_of_gt hx), if_neg (ne_of_gt hy)]
  rcases lt_or_eq_of_le (ilog2_mono hx h) with hl | he
  · -- a power of two lies between
    have hpx := pow2_pos ((p : Int) - 1 - ilog2 x)
    have hpy := pow2_pos ((p : Int) - 1 - ilog2 y)
    have hcast : (2 ^ (p - 1) : Int) * 2 = 2 ^ p := by
      rw [← pow_succ]; congr 1; omega
    have up : pyRound (x * pow2 ((p : Int) - 1 - ilog2 x)) ≤ 2 ^ p := by
      have hle : x * pow2 ((p : Int) - 1 - ilog2 x) ≤ ((2 ^ p : Int) : Rat) := by
        calc x * pow2 ((p : Int) - 1 - ilog2 x) ≤ pow2 (ilog2 x + 1) * pow2 ((p : Int) - 1 - ilog2 x) :=
              mul_le_mul_of_nonneg_right (le_of_lt a2) (le_of_lt hpx)
          _ = pow2 p := by rw [← pow2_add]; congr 1; ring
          _ = ((2 ^ p : Int) : Rat) := by rw [pow2_nat]; push_cast; rfl
      have := pyRound_mono hle
      rwa [pyRound_whole] at this
    have lo : 2 ^ (p - 1) ≤ pyRound (y * pow2 ((p : Int) - 1 - ilog2 y)) := by
      have hle : ((2 ^ (p - 1) : Int) : Rat) ≤ y * pow2 ((p : Int) - 1 - ilog2 y) := by
        calc ((2 ^ (p - 1) : Int) : Rat) = pow2 ((p - 1 : Nat) : Int) := by rw [pow2_nat]; push_cast; rfl
          _ = pow2 (ilog2 y) * pow2 ((p : Int) - 1 - ilog2 y) := by rw [← pow2_add]; congr 1; omega
          _ ≤ y * pow2 ((p : Int) - 1 - ilog2 y) := mul_le_mul_of_nonneg_right b1 (le_of_lt hpy)
      have := pyRound_mono hle
      rwa [pyRound_whole] at this
    have e1 : (pyRound (x * pow2 ((p : Int) - 1 - ilog2 x)) : Rat) / pow2 ((p : Int) - 1 - ilog2 x) ≤ pow2 (ilog2 x + 1) := by
      rw [div_le_iff₀ hpx, ← pow2_add, show ilog2 x + 1 + ((p : Int) - 1 - ilog2 x) = (p : Int) by ring, pow2_nat]
      exact_mod_cast up
    have e2 : pow2 (ilog2 y) ≤ (pyRound (y * pow2 ((p : Int) - 1 - ilog2 y)) : Rat) / pow2 ((p : Int) - 1 - ilog2 y) := by
      rw [le_div_iff₀ hpy, ← pow2_add, show ilog2 y + ((p : Int) - 1 - ilog2 y) = ((p - 1 : Nat) : Int) by omega, pow2_nat]
      exact_mod_cast lo
    exact le_trans e1 (le_trans (pow2_le (by omega)) e2)
  · rw [he]
    refine div_le_div_of_nonneg_right ?_ (le_of_lt (pow2_pos _))
    have := pyRound_mono (mul_le_mul_of_nonneg_right h (le_of_lt (pow2_pos ((p : Int) - 1 - ilog2 y))))
    exact_mod_cast this

/-- rounding keeps the order -/
theorem roundTo_mono (p : Nat) (hp : 0 < p) {x y : Rat} (h : x ≤ y) : roundTo p x ≤ roundTo p y := by
  rcases lt_trichotomy x 0 with hx | hx | hx
  · rcases lt_or_ge y 0 with hy | hy
    · have := roundTo_mono_pos p hp (x := -y) (y := -x) (by linarith) (by linarith)
      rw [roundTo_neg, roundTo_neg] at this
      linarith
    · have h1 := roundTo_nonneg p (-x) (by linarith)
      rw [roundTo_neg] at h1
      have h2 := roundTo_nonneg p y hy
      linarith
  · subst hx; rw [roundTo_zero]; exact roundTo_nonneg p y h
  · exact roundTo_mono_pos p hp hx h

end SeisMIC
