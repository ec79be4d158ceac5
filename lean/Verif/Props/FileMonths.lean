import Verif.Props.FileStructure

/-!
# C94 for monthly and weekly files

Files for months are read completely if the request begins on one of the days 1 to 28; if it begins
on a day that the next month does not have, reading fails. Weekly files are not read completely if the
request includes the beginning of a year.
-/

namespace SeisMIC

/-- number of a month -/
def Civil.monthNo (c : Civil) : Int := 12 * c.year + c.month

theorem abs_lt_of_monthNo (a b : Civil) (ha : a.Valid) (hb : b.Valid) (hlt : a.monthNo < b.monthNo) : a.abs < b.abs := by
  unfold Civil.monthNo at hlt
  apply abs_lt_of_dayNo a b ha.2.2.2.2.2.2
  have ba := dayNo_bounds a ha
  have bb := dayNo_bounds b hb
  obtain ⟨a1, a2, a3, a4, _⟩ := ha
  obtain ⟨b1, b2, b3, b4, _⟩ := hb
  rcases Int.lt_or_le a.year b.year with hy | hy
  · have : daysBeforeYear (a.year + 1) ≤ daysBeforeYear b.year := by
      rw [daysBeforeYear_succ]; exact daysBeforeYear_lt _ _ hy
    omega
  · have hye : a.year = b.year := by omega
    have := daysBeforeMonth_mono b.year (a.month + 1) b.month (by omega) (by omega)
    rw [hye] at ba
    omega

/-- the neighbouring month exists for days up to 28 -/
theorem month_built (fs : List (List Str)) (p : Str) (hp : LastTime fs p) (hu : unitOf p = some .month) (t : Civil) (inc : Int)
    (hinc : inc = 1 ∨ inc = -1) (ht : t.Valid) (hd : t.day ≤ 28) (hy : 2 ≤ t.year ∧ t.year ≤ 9998) :
    ∃ t', adjacentTime t inc fs = .ok t' ∧ t'.Valid ∧ t'.monthNo = t.monthNo + inc ∧ t'.day = t.day ∧ t'.us = t.us := by
  rw [adjacentTime_eq t inc fs p hinc hp, shiftTime_eq t inc p _ hu]
  obtain ⟨h1, h2, h3, h4, h5, h6, h7⟩ := ht
  have ok : ∀ (y : Int) (m : Nat), 1 ≤ y → y ≤ 9999 → 1 ≤ m → m ≤ 12 → mkCivil y m t.day t.us = .ok ⟨y, m, t.day, t.us⟩ ∧
      (⟨y, m, t.day, t.us⟩ : Civil).Valid := by
    intro y m a b c d
    have hm := (monthLength_pos y m).1
    have hv : (⟨y, m, t.day, t.us⟩ : Civil).Valid := ⟨a, b, c, d, h5, by simp only; omega, h7⟩
    exact ⟨by unfold mkCivil; simp only; rw [if_pos hv], hv⟩
  unfold shiftUnit Civil.monthNo
  simp only
  split
  · obtain ⟨e, v⟩ := ok (t.year - 1) 12 (by omega) (by omega) (by omega) (by omega)
    exact ⟨_, e, v, by simp only; omega, rfl, rfl⟩
  · split
    · obtain ⟨e, v⟩ := ok (t.year + 1) 1 (by omega) (by omega) (by omega) (by omega)
      exact ⟨_, e, v, by simp only; omega, rfl, rfl⟩
    · obtain ⟨e, v⟩ := ok t.year ((t.month : Int) + inc).toNat (by omega) (by omega) (by omega) (by omega)
      exact ⟨_, e, v, by simp only; omega, rfl, rfl⟩

theorem readLoop_month (fs : List (List Str)) (p : Str) (hp : LastTime fs p) (hu : unitOf p = some .month)
    (short : List Civil → Bool) (start stop : Civil) (hstart : start.Valid ∧ 2 ≤ start.year ∧ start.day ≤ 28)
    (hstop : stop.Valid ∧ stop.year ≤ 9998) : ∀ (fuel : Nat) (seen : List Civil) (this : Civil), this.Valid →
    this.day = start.day → start.monthNo ≤ this.monthNo → stop.monthNo + 1 - this.monthNo ≤ fuel →
    (∀ n, start.monthNo ≤ n → n ≤ this.monthNo → ∃ v ∈ seen, v.Valid ∧ v.monthNo = n) →
    ∃ vs, readLoop fs short start stop fuel seen this = .ok (some vs) ∧
      (short vs = true → ∀ n, start.monthNo ≤ n → n ≤ stop.monthNo → ∃ v ∈ vs, v.Valid ∧ v.monthNo = n) := by
  intro fuel
  induction fuel with
  | zero =>
    intro seen this hv _ hm hf hs
    unfold readLoop
    have : ¬ this.abs < stop.abs := by
      have := abs_lt_of_monthNo stop this hstop.1 hv (by omega)
      omega
    rw [if_neg (by intro h; exact this h.2)]
    exact ⟨seen, rfl, fun _ n h1 h2 => hs n h1 (by omega)⟩
  | succ fuel ih =>
    intro seen this hv hd hm hf hs
    unfold readLoop
    by_cases hc : short seen = true ∧ this.abs < stop.abs
    · rw [if_pos hc]
      simp only
      have hle : this.monthNo ≤ stop.monthNo := by
        rcases Int.lt_or_le stop.monthNo this.monthNo with h | h
        · have := abs_lt_of_monthNo stop this hstop.1 hv h
          omega
        · exact h
      have hyear : 2 ≤ this.year ∧ this.year ≤ 9998 := by
        obtain ⟨_, _, a3, a4, _⟩ := hv
        obtain ⟨⟨_, _, b3, b4, _⟩, b8, _⟩ := hstart
        obtain ⟨⟨_, _, c3, c4, _⟩, c8⟩ := hstop
        unfold Civil.monthNo at hm hle
        omega
      obtain ⟨t', e, v, m, d, _⟩ := month_built fs p hp hu this 1 (.inl rfl) hv (by omega) hyear
      rw [e]
      simp only [bind, Except.bind]
      rw [if_neg (by rintro rfl; omega)]
      exact ih _ t' v (by omega) (by omega) (by omega) (by
        intro n h1 h2
        rcases Int.lt_or_le this.monthNo n with h | h
        · exact ⟨t', by simp, v, by omega⟩
        · obtain ⟨w, hw, hw2⟩ := hs n h1 h
          exact ⟨w, List.mem_append_left _ hw, hw2⟩)
    · rw [if_neg hc]
      refine ⟨seen, rfl, ?_⟩
      intro hsh n h1 h2
      refine hs n h1 ?_
      rcases Int.lt_or_le this.monthNo n with h | h
      · exact absurd ⟨hsh, abs_lt_of_monthNo this stop hv hstop.1 (by omega)⟩ hc
      · exact h

/-- **C94** (part, monthly files) If the request begins on one of the days 1 to 28, reading monthly
files ends after finitely many files, and unless the data found reach the end of the request before,
for every time of the request the file of its month has been read. Missing: requests that begin on the
days 29 to 31, see `c94_month_violated`. -/
theorem c94_month_partial (fs : List (List Str)) (p : Str) (hp : LastTime fs p) (hu : unitOf p = some .month) (late : Bool)
    (short : List Civil → Bool) (start stop : Civil) (hstart : start.Valid ∧ 2 ≤ start.year ∧ start.day ≤ 28)
    (hstop : stop.Valid ∧ stop.year ≤ 9998) :
    ∃ fuel vs, readTimes fs late short start stop fuel = .ok (some vs) ∧
      (short vs = true → ∀ t : Civil, t.Valid → start.abs ≤ t.abs → t.abs ≤ stop.abs →
        ∃ v ∈ vs, v.Valid ∧ v.year = t.year ∧ v.month = t.month) := by
  have main : ∀ seen : List Civil, start ∈ seen → ∃ vs,
      readLoop fs short start stop (stop.monthNo + 1 - start.monthNo).toNat seen start = .ok (some vs) ∧
      (short vs = true → ∀ t : Civil, t.Valid → start.abs ≤ t.abs → t.abs ≤ stop.abs →
        ∃ v ∈ vs, v.Valid ∧ v.year = t.year ∧ v.month = t.month) := by
    intro seen hmem
    obtain ⟨vs, h1, h2⟩ := readLoop_month fs p hp hu short start stop hstart hstop _ seen start hstart.1 rfl (Int.le_refl _)
      (Int.self_le_toNat _) (by
        intro n a b
        exact ⟨start, hmem, hstart.1, by omega⟩)
    refine ⟨vs, h1, ?_⟩
    intro hsh t ht ht1 ht2
    have a1 : start.monthNo ≤ t.monthNo := by
      rcases Int.lt_or_le t.monthNo start.monthNo with h | h
      · have := abs_lt_of_monthNo t start ht hstart.1 h
        omega
      · exact h
    have a2 : t.monthNo ≤ stop.monthNo := by
      rcases Int.lt_or_le stop.monthNo t.monthNo with h | h
      · have := abs_lt_of_monthNo stop t hstop.1 ht h
        omega
      · exact h
    obtain ⟨v, hv, hvv, hm⟩ := h2 hsh _ a1 a2
    refine ⟨v, hv, hvv, ?_⟩
    obtain ⟨_, _, b3, b4, _⟩ := hvv
    obtain ⟨_, _, c3, c4, _⟩ := ht
    unfold Civil.monthNo at hm
    omega
  unfold readTimes
  refine ⟨(stop.monthNo + 1 - start.monthNo).toNat, ?_⟩
  cases late with
  | false => exact main [start] (by simp)
  | true =>
    by_cases hy : start.year ≤ 9998
    · obtain ⟨t', e, _⟩ := month_built fs p hp hu start (-1) (.inr rfl) hstart.1 hstart.2.2 ⟨hstart.2.1, hy⟩
      simp only [if_true, e, bind, Except.bind, pure, Except.pure]
      exact main [start, t'] (by simp)
    · -- a start in the year 9999 is moved to the previous month only
      have hprev : ∃ t', adjacentTime start (-1) fs = .ok t' := by
        rw [adjacentTime_eq start (-1) fs p (.inr rfl) hp, shiftTime_eq start (-1) p _ hu]
        obtain ⟨⟨h1, h2, h3, h4, h5, h6, h7⟩, h8, h9⟩ := hstart
        have ok : ∀ (y : Int) (m : Nat), 1 ≤ y → y ≤ 9999 → 1 ≤ m → m ≤ 12 →
            mkCivil y m start.day start.us = .ok ⟨y, m, start.day, start.us⟩ := by
          intro y m a b c d
          have hm := (monthLength_pos y m).1
          unfold mkCivil; simp only
          rw [if_pos ⟨a, b, c, d, h5, by simp only; omega, h7⟩]
        unfold shiftUnit
        simp only
        split
        · exact ⟨_, ok _ _ (by omega) (by omega) (by omega) (by omega)⟩
        · split
          · omega
          · exact ⟨_, ok _ _ (by omega) (by omega) (by omega) (by omega)⟩
      obtain ⟨t', e⟩ := hprev
      simp only [if_true, e, bind, Except.bind, pure, Except.pure]
      exact main [start, t'] (by simp)

/-- **C94** (violated, monthly files) A request that begins on a day that the next month does not
have, for example on the 31st of January, and whose data do not reach its end in the first file, fails. -/
theorem c94_month_violated (fs : List (List Str)) (p : Str) (hp : LastTime fs p) (hu : unitOf p = some .month)
    (start stop : Civil) (hm : start.month < 12) (hday : monthLength start.year (start.month + 1) < (start.day : Int))
    (hlt : start.abs < stop.abs) (fuel : Nat) :
    readTimes fs false (fun _ => true) start stop (fuel + 1) = .error .valueError := by
  unfold readTimes readLoop
  simp only [Bool.false_eq_true, if_false, bind, Except.bind, pure, Except.pure]
  rw [if_pos ⟨trivial, hlt⟩]
  rw [adjacentTime_eq start 1 fs p (.inl rfl) hp, shiftTime_eq start 1 p _ hu]
  have : shiftUnit start 1 .month = .error .valueError := by
    unfold shiftUnit
    simp only
    rw [if_neg (by omega), if_neg (by omega)]
    unfold mkCivil
    simp only
    rw [if_neg]
    intro h
    have h6 := h.2.2.2.2.2.1
    simp only at h6
    rw [show ((start.month : Int) + 1).toNat = start.month + 1 by omega] at h6
    omega
  rw [this]

/-- the hypotheses of `c94_month_partial` and `c94_month_violated` hold: monthly files, the 15th and the 31st of January -/
example : LastTime [[c!"d"], [c!"%Y"], [c!"%m", c!"_", c!"%STA"]] c!"%m" ∧ unitOf c!"%m" = some .month ∧
    (⟨2015, 1, 15, 0⟩ : Civil).Valid ∧ monthLength 2015 2 < 31 ∧
    (match readTimes [[c!"d"], [c!"%Y"], [c!"%m", c!"_", c!"%STA"]] true (fun _ => true) ⟨2015, 1, 15, 5⟩ ⟨2015, 3, 1, 3⟩ 10 with
      | .ok (some l) => l | _ => []) = [⟨2015, 1, 15, 5⟩, ⟨2014, 12, 15, 5⟩, ⟨2015, 2, 15, 5⟩, ⟨2015, 3, 15, 5⟩] :=
  ⟨⟨[c!"d", c!"%Y"], [c!"_", c!"%STA"], rfl, by decide, by decide⟩, rfl, by decide, by decide, by decide⟩

/-- `%U` of `strftime`: number of the week, weeks begin on Sunday, the days before the first Sunday are in
week 0. The first day of year 1 was a Monday. -/
def Civil.weekU (c : Civil) : Int :=
  (c.dayNo - daysBeforeYear c.year + 7 - (c.dayNo + 1) % 7) / 7

/-- **C94** (violated, weekly files) The files of a request are named by year and week. The request begins in
the last week of 2014 and ends on the 8th of January; the files of the weeks of the 30th of December and
of the 6th and 13th of January are read, but not the one of week 0 of 2015, to which the 2nd of January
belongs. -/
theorem c94_week_violated :
    let fs := [[c!"d"], [c!"%Y"], [c!"%U"]]
    readTimes fs false (fun _ => true) ⟨2014, 12, 30, 0⟩ ⟨2015, 1, 8, 0⟩ 10 =
      .ok (some [⟨2014, 12, 30, 0⟩, ⟨2015, 1, 6, 0⟩, ⟨2015, 1, 13, 0⟩]) ∧
    (⟨2014, 12, 30, 0⟩ : Civil).abs < (⟨2015, 1, 2, 0⟩ : Civil).abs ∧ (⟨2015, 1, 2, 0⟩ : Civil).abs < (⟨2015, 1, 8, 0⟩ : Civil).abs ∧
    ([⟨2014, 12, 30, 0⟩, ⟨2015, 1, 6, 0⟩, ⟨2015, 1, 13, 0⟩] : List Civil).map (fun c => (c.year, c.weekU)) =
      [(2014, 52), (2015, 1), (2015, 2)] ∧
    (⟨2015, 1, 2, 0⟩ : Civil).weekU = 0 := by
  decide +kernel

end SeisMIC
