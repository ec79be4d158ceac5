import Verif.Py.Datetime

namespace SeisMIC

theorem yearLength_pos (y : Int) : 365 ≤ yearLength y ∧ yearLength y ≤ 366 := by
  unfold yearLength; split <;> decide

theorem daysBeforeYear_succ (y : Int) : daysBeforeYear (y + 1) = daysBeforeYear y + yearLength y := by
  unfold daysBeforeYear yearLength isLeap
  simp only [Bool.and_eq_true, Bool.or_eq_true, decide_eq_true_eq]
  split <;> omega

theorem daysBeforeYear_lt (y z : Int) (h : y < z) : daysBeforeYear y + yearLength y ≤ daysBeforeYear z := by
  have hmono : ∀ k : Nat, daysBeforeYear (y + 1) ≤ daysBeforeYear (y + 1 + k) := by
    intro k
    induction k with
    | zero => simp
    | succ k ih =>
      have := daysBeforeYear_succ (y + 1 + k)
      have := (yearLength_pos (y + 1 + k)).1
      push_cast
      rw [← Int.add_assoc]
      omega
  rw [← daysBeforeYear_succ]
  have := hmono (z - (y + 1)).toNat
  rwa [show y + 1 + (((z - (y + 1)).toNat : Nat) : Int) = z by omega] at this

theorem monthLength_pos (y : Int) (m : Nat) : 28 ≤ monthLength y m ∧ monthLength y m ≤ 31 := by
  unfold monthLength
  split
  · split <;> decide
  · split <;> decide

theorem daysBeforeMonth_succ (y : Int) (m : Nat) (h : 1 ≤ m) :
    daysBeforeMonth y (m + 1) = daysBeforeMonth y m + monthLength y m := by
  obtain ⟨m, rfl⟩ : ∃ k, m = k + 1 := ⟨m - 1, by omega⟩
  rfl

theorem daysBeforeMonth_end (y : Int) : daysBeforeMonth y 13 = yearLength y := by
  unfold yearLength
  simp only [daysBeforeMonth, monthLength]
  cases isLeap y <;> decide

theorem daysBeforeMonth_mono (y : Int) (m k : Nat) (h : 1 ≤ m) (hk : m ≤ k) : daysBeforeMonth y m ≤ daysBeforeMonth y k := by
  obtain ⟨j, rfl⟩ := Nat.exists_eq_add_of_le hk
  clear hk
  induction j with
  | zero => exact Int.le_refl _
  | succ j ih =>
    have := daysBeforeMonth_succ y (m + j) (by omega)
    have := (monthLength_pos y (m + j)).1
    rw [← Nat.add_assoc]
    omega

theorem daysBeforeMonth_nonneg (y : Int) (m : Nat) (h : 1 ≤ m) : 0 ≤ daysBeforeMonth y m := by
  have := daysBeforeMonth_mono y 1 m (Nat.le_refl 1) h
  have h1 : daysBeforeMonth y 1 = 0 := rfl
  omega

theorem findYear_spec (n : Int) (fuel : Nat) (y : Int) (h1 : daysBeforeYear y ≤ n) (h2 : n < daysBeforeYear (y + 1 + fuel)) :
    y ≤ findYear n fuel y ∧ daysBeforeYear (findYear n fuel y) ≤ n ∧ n < daysBeforeYear (findYear n fuel y + 1) := by
  induction fuel generalizing y with
  | zero => simpa [findYear] using ⟨h1, by simpa using h2⟩
  | succ fuel ih =>
    unfold findYear
    split
    · rename_i h
      have := ih (y + 1) h (by rw [show y + 1 + 1 + (fuel : Int) = y + 1 + ((fuel + 1 : Nat) : Int) by omega]; exact h2)
      omega
    · omega

theorem findMonth_spec (y r : Int) (fuel m : Nat) (h1 : daysBeforeMonth y m ≤ r) (h2 : r < daysBeforeMonth y (m + 1 + fuel)) :
    m ≤ findMonth y r fuel m ∧ findMonth y r fuel m ≤ m + fuel ∧
      daysBeforeMonth y (findMonth y r fuel m) ≤ r ∧ r < daysBeforeMonth y (findMonth y r fuel m + 1) := by
  induction fuel generalizing m with
  | zero => simpa [findMonth] using ⟨h1, h2⟩
  | succ fuel ih =>
    unfold findMonth
    split
    · rename_i h
      have := ih (m + 1) h (by rw [show m + 1 + 1 + fuel = m + 1 + (fuel + 1) by omega]; exact h2)
      omega
    · exact ⟨Nat.le_refl _, by omega, h1, by omega⟩

/-- the parts of the date of a time -/
theorem civilOf_spec (t : Int) (h : 0 ≤ t) :
    1 ≤ (civilOf t).year ∧ 1 ≤ (civilOf t).month ∧ (civilOf t).month ≤ 12 ∧ 1 ≤ (civilOf t).day ∧
      ((civilOf t).day : Int) ≤ monthLength (civilOf t).year (civilOf t).month ∧ ((civilOf t).us : Int) < dayUs ∧
      (civilOf t).abs = t ∧ daysBeforeYear (civilOf t).year ≤ t / dayUs := by
  have hd : (0 : Int) < dayUs := by decide
  have hn : 0 ≤ t / dayUs := Int.ediv_nonneg h (by decide)
  unfold civilOf
  simp only
  generalize hneq : t / dayUs = n at *
  obtain ⟨y1, y2, y3⟩ := findYear_spec n n.toNat (n / 366 + 1)
    (by unfold daysBeforeYear; omega) (by unfold daysBeforeYear; omega)
  generalize findYear n n.toNat (n / 366 + 1) = y at *
  have hs := daysBeforeYear_succ y
  obtain ⟨m1, m2, m3, m4⟩ := findMonth_spec y (n - daysBeforeYear y) 11 1
    (by show (0 : Int) ≤ _; omega) (by show _ < daysBeforeMonth y 13; rw [daysBeforeMonth_end]; omega)
  generalize findMonth y (n - daysBeforeYear y) 11 1 = m at *
  have hms := daysBeforeMonth_succ y m m1
  refine ⟨by omega, m1, by omega, by omega, by omega, ?_, ?_, y2⟩
  · have := Int.emod_lt_of_pos t hd
    have := Int.emod_nonneg t (Int.ne_of_gt hd)
    omega
  · unfold Civil.abs Civil.dayNo
    simp only
    have h1 : daysBeforeYear y + daysBeforeMonth y m + (((n - daysBeforeYear y - daysBeforeMonth y m + 1).toNat : Nat) : Int) - 1 = n := by
      omega
    rw [h1, Int.toNat_of_nonneg (Int.emod_nonneg t (Int.ne_of_gt hd)), ← hneq, Int.mul_comm]
    exact Int.mul_ediv_add_emod t dayUs

theorem add_ok (c : Civil) (d : Int) (r : Civil) (h : c.add d = .ok r) : r.Valid ∧ r.abs = c.abs + d := by
  unfold Civil.add at h
  simp only at h
  split at h
  · rename_i ht
    simp only [Except.ok.injEq] at h
    subst h
    obtain ⟨h1, h2, h3, h4, h5, h6, h7, h8⟩ := civilOf_spec (c.abs + d) ht.1
    refine ⟨⟨h1, ?_, h2, h3, h4, h5, h6⟩, h7⟩
    rcases Int.lt_or_le 9999 (civilOf (c.abs + d)).year with h9 | h9
    · exfalso
      have : daysBeforeYear 10000 ≤ daysBeforeYear (civilOf (c.abs + d)).year := by
        rcases Int.lt_or_le 10000 (civilOf (c.abs + d)).year with h10 | h10
        · have := daysBeforeYear_lt 10000 _ h10
          have := (yearLength_pos 10000).1
          omega
        · rw [show (civilOf (c.abs + d)).year = 10000 by omega]
          exact Int.le_refl _
      have h11 : daysBeforeYear 10000 ≤ (c.abs + d) / dayUs := Int.le_trans this h8
      have := Int.ediv_lt_of_lt_mul (show (0 : Int) < dayUs by decide) ht.2
      omega
    · exact h9
  · cases h

theorem add_ok' (c : Civil) (d : Int) (h0 : 0 ≤ c.abs + d) (h1 : c.abs + d < daysBeforeYear 10000 * dayUs) :
    ∃ r, c.add d = .ok r ∧ r.Valid ∧ r.abs = c.abs + d := by
  have h : c.add d = .ok (civilOf (c.abs + d)) := by
    unfold Civil.add
    simp only
    rw [if_pos ⟨h0, h1⟩]
  exact ⟨_, h, add_ok _ _ _ h⟩

theorem mkCivil_ok (y : Int) (m d u : Nat) (r : Civil) (h : mkCivil y m d u = .ok r) :
    r = ⟨y, m, d, u⟩ ∧ r.Valid := by
  unfold mkCivil at h
  simp only at h
  split at h
  · rename_i hv
    simp only [Except.ok.injEq] at h
    subst h
    exact ⟨rfl, hv⟩
  · cases h

/-- bounds of the time of a date -/
theorem dayNo_bounds (c : Civil) (h : c.Valid) :
    daysBeforeYear c.year + daysBeforeMonth c.year c.month ≤ c.dayNo ∧
      c.dayNo < daysBeforeYear c.year + daysBeforeMonth c.year (c.month + 1) ∧
      daysBeforeYear c.year ≤ c.dayNo ∧ c.dayNo < daysBeforeYear (c.year + 1) := by
  obtain ⟨h1, h2, h3, h4, h5, h6, h7⟩ := h
  have hm := daysBeforeMonth_succ c.year c.month h3
  have h13 := daysBeforeMonth_mono c.year (c.month + 1) 13 (by omega) (by omega)
  rw [daysBeforeMonth_end] at h13
  have hy := daysBeforeYear_succ c.year
  have h0 := daysBeforeMonth_nonneg c.year c.month h3
  unfold Civil.dayNo
  omega

theorem abs_bounds (c : Civil) (h : c.Valid) : 0 ≤ c.abs ∧ c.abs < daysBeforeYear 10000 * dayUs ∧ c.abs / dayUs = c.dayNo := by
  have hb := dayNo_bounds c h
  obtain ⟨h1, h2, h3, h4, h5, h6, h7⟩ := h
  have e0 : daysBeforeYear 1 = 0 := by decide
  have hge : 0 ≤ c.dayNo := by
    rcases Int.lt_or_le 1 c.year with h | h
    · have := daysBeforeYear_lt 1 _ h
      have := (yearLength_pos 1).1
      omega
    · rw [show c.year = 1 by omega] at hb
      omega
  have hlt : c.dayNo < daysBeforeYear 10000 := by
    rcases Int.lt_or_le (c.year + 1) 10000 with h | h
    · have := daysBeforeYear_lt _ _ h
      have := (yearLength_pos (c.year + 1)).1
      omega
    · rw [show c.year + 1 = 10000 by omega] at hb
      omega
  unfold Civil.abs
  have hd : dayUs = 86400000000 := rfl
  rw [hd] at h7 ⊢
  refine ⟨by omega, by omega, by omega⟩

theorem abs_lt_of_dayNo (a b : Civil) (ha : (a.us : Int) < dayUs) (h : a.dayNo < b.dayNo) : a.abs < b.abs := by
  unfold Civil.abs
  have hd : dayUs = 86400000000 := rfl
  rw [hd] at ha ⊢
  omega

end SeisMIC
