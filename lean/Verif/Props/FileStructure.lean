import Verif.Lemmas.Datetime
import Verif.Lemmas.Strings
import Verif.Model.FileStructure
import Verif.Props.MonitorFiles

/-!
# C65, C66, C94: reading from a described file structure
-/

namespace SeisMIC

/-! ### Specification -/

/-- the units of time of the elements of a file structure -/
inductive TimeUnit where
  | hour | halfDay | day | week | month | year
  deriving DecidableEq

/-- the unit of the time elements of `strftime` -/
def unitOf : Str → Option TimeUnit
  | ['%', 'H'] => some .hour
  | ['%', 'I'] => some .hour
  | ['%', 'p'] => some .halfDay
  | ['%', 'a'] => some .day
  | ['%', 'A'] => some .day
  | ['%', 'w'] => some .day
  | ['%', 'd'] => some .day
  | ['%', 'j'] => some .day
  | ['%', '-', 'j'] => some .day
  | ['%', 'U'] => some .week
  | ['%', 'W'] => some .week
  | ['%', 'b'] => some .month
  | ['%', 'B'] => some .month
  | ['%', 'm'] => some .month
  | ['%', 'y'] => some .year
  | ['%', 'Y'] => some .year
  | _ => none

/-- length of the units of fixed length -/
def TimeUnit.size : TimeUnit → Option Int
  | .hour => some hourUs
  | .halfDay => some (12 * hourUs)
  | .day => some dayUs
  | .week => some (7 * dayUs)
  | .month => none
  | .year => none

/-- `t'` is `t` moved by `inc` units: by a fixed time, or to the same day and time in another
month (year) -/
def Moved (u : TimeUnit) (inc : Int) (t t' : Civil) : Prop :=
  match u with
  | .month => 12 * t'.year + (t'.month : Int) = 12 * t.year + (t.month : Int) + inc ∧ t'.day = t.day ∧ t'.us = t.us
  | .year => t'.year = t.year + inc ∧ t'.month = t.month ∧ t'.day = t.day ∧ t'.us = t.us
  | u => ∃ s, u.size = some s ∧ t'.abs = t.abs + inc * s

/-- `p` is the last time element of the descriptor: it contains a percent sign, is not a part of
the id and has no replacement; none of the elements after it is like that -/
def LastTime (fs : List (List Str)) (p : Str) : Prop :=
  let T (q : Str) : Prop := '%' ∈ q ∧ q ∉ idFormat ∧ ¬ ('(' ∈ q ∧ ')' ∈ q)
  ∃ l1 l2, fs.flatten = l1 ++ p :: l2 ∧ T p ∧ ∀ q ∈ l2, ¬ T q

/-! ### C65 -/

theorem isTimePart_iff (q : Str) : isTimePart q = true ↔ '%' ∈ q ∧ q ∉ idFormat ∧ ¬ ('(' ∈ q ∧ ')' ∈ q) := by
  unfold isTimePart
  simp only [Bool.and_eq_true, Bool.not_eq_true', Bool.or_eq_false_iff, Bool.and_eq_false_iff, decide_eq_false_iff_not,
    decide_eq_true_eq]
  constructor
  · rintro ⟨⟨h1, h2⟩, h3⟩
    exact ⟨h3, h2, fun h => h1.elim (fun h' => h' h.1) (fun h' => h' h.2)⟩
  · rintro ⟨h1, h2, h3⟩
    refine ⟨⟨?_, h2⟩, h1⟩
    by_cases h : '(' ∈ q
    · exact .inr fun h' => h3 ⟨h, h'⟩
    · exact .inl h

theorem lastTimePart_of (fs : List (List Str)) (p : Str) (h : LastTime fs p) : lastTimePart fs = some p := by
  obtain ⟨l1, l2, hfs, hp, hq⟩ := h
  unfold lastTimePart
  rw [hfs, List.find?_eq_some_iff_append]
  refine ⟨(isTimePart_iff p).2 hp, l2.reverse, l1.reverse, by simp, ?_⟩
  intro a ha
  rw [List.mem_reverse] at ha
  simp only [Bool.not_eq_true']
  cases hh : isTimePart a with
  | false => rfl
  | true => exact absurd ((isTimePart_iff a).1 hh) (hq a ha)

theorem lastTimePart_none (fs : List (List Str)) (h : ∀ q ∈ fs.flatten, ¬ ('%' ∈ q ∧ q ∉ idFormat ∧ ¬ ('(' ∈ q ∧ ')' ∈ q))) :
    lastTimePart fs = none := by
  unfold lastTimePart
  rw [List.find?_eq_none]
  intro x hx hh
  exact h x (by simpa using hx) ((isTimePart_iff x).1 hh)

theorem adjacentTime_eq (t : Civil) (inc : Int) (fs : List (List Str)) (p : Str) (hinc : inc = 1 ∨ inc = -1)
    (hp : LastTime fs p) : adjacentTime t inc fs = shiftTime t inc p := by
  unfold adjacentTime
  rw [if_neg (by omega), lastTimePart_of fs p hp]

/-- the function of the element -/
def shiftUnit (t : Civil) (inc : Int) : TimeUnit → Except PyErr Civil
  | .month =>
    if (t.month : Int) + inc = 0 then mkCivil (t.year - 1) 12 t.day t.us
    else if (t.month : Int) + inc = 13 then mkCivil (t.year + 1) 1 t.day t.us
    else mkCivil t.year ((t.month : Int) + inc).toNat t.day t.us
  | .year => mkCivil (t.year - inc) t.month t.day t.us
  | u => t.add (inc * u.size.getD 0)

theorem shiftTime_eq (t : Civil) (inc : Int) (p : Str) (u : TimeUnit) (h : unitOf p = some u) :
    shiftTime t inc p = shiftUnit t inc u := by
  unfold unitOf at h
  split at h <;> simp only [Option.some.injEq, reduceCtorEq] at h <;> subst h <;> rfl

/-- **C65** (part) For elements other than the year: if the neighbouring file name is built, its
time is the given time moved by one unit of the last time element in the requested direction;
in particular it is later for the next, and earlier for the previous file. Missing: the year
(`c65_year_violated`), and that the last element is the finest (`c65_order_violated`). -/
theorem c65_moved_partial (fs : List (List Str)) (p : Str) (u : TimeUnit) (t t' : Civil) (inc : Int)
    (hp : LastTime fs p) (hu : unitOf p = some u) (huy : u ≠ .year) (hinc : inc = 1 ∨ inc = -1) (ht : t.Valid)
    (h : adjacentTime t inc fs = .ok t') :
    t'.Valid ∧ Moved u inc t t' ∧ (inc = 1 → t.abs < t'.abs) ∧ (inc = -1 → t'.abs < t.abs) := by
  rw [adjacentTime_eq t inc fs p hinc hp, shiftTime_eq t inc p u hu] at h
  have hfix : ∀ s : Int, 0 < s → t.add (inc * s) = .ok t' →
      t'.Valid ∧ t'.abs = t.abs + inc * s ∧ (inc = 1 → t.abs < t'.abs) ∧ (inc = -1 → t'.abs < t.abs) := by
    intro s hs h
    obtain ⟨h1, h2⟩ := add_ok _ _ _ h
    refine ⟨h1, h2, ?_, ?_⟩
    · rintro rfl; omega
    · rintro rfl; omega
  cases u with
  | year => exact absurd rfl huy
  | hour =>
    obtain ⟨h1, h2, h3⟩ := hfix hourUs (by decide) h
    exact ⟨h1, ⟨_, rfl, h2⟩, h3⟩
  | halfDay =>
    obtain ⟨h1, h2, h3⟩ := hfix (12 * hourUs) (by decide) h
    exact ⟨h1, ⟨_, rfl, h2⟩, h3⟩
  | day =>
    obtain ⟨h1, h2, h3⟩ := hfix dayUs (by decide) h
    exact ⟨h1, ⟨_, rfl, h2⟩, h3⟩
  | week =>
    obtain ⟨h1, h2, h3⟩ := hfix (7 * dayUs) (by decide) h
    exact ⟨h1, ⟨_, rfl, h2⟩, h3⟩
  | month =>
    have hm : t'.Valid ∧ 12 * t'.year + (t'.month : Int) = 12 * t.year + (t.month : Int) + inc ∧ t'.day = t.day ∧ t'.us = t.us := by
      unfold shiftUnit at h
      simp only at h
      have hv := ht
      obtain ⟨_, _, h3, h4, _⟩ := hv
      split at h
      · obtain ⟨rfl, h2⟩ := mkCivil_ok _ _ _ _ _ h
        exact ⟨h2, by simp only; omega, rfl, rfl⟩
      · split at h
        · obtain ⟨rfl, h2⟩ := mkCivil_ok _ _ _ _ _ h
          exact ⟨h2, by simp only; omega, rfl, rfl⟩
        · obtain ⟨rfl, h2⟩ := mkCivil_ok _ _ _ _ _ h
          exact ⟨h2, by simp only; omega, rfl, rfl⟩
    have key : ∀ a b : Civil, a.Valid → b.Valid → 12 * a.year + (a.month : Int) < 12 * b.year + (b.month : Int) → a.abs < b.abs := by
      intro a b ha hb hlt
      apply abs_lt_of_dayNo a b ha.2.2.2.2.2.2
      have ba := dayNo_bounds a ha
      have bb := dayNo_bounds b hb
      obtain ⟨a1, a2, a3, a4, _⟩ := ha
      obtain ⟨b1, b2, b3, b4, _⟩ := hb
      rcases Int.lt_or_le a.year b.year with hy | hy
      · have : daysBeforeYear (a.year + 1) ≤ daysBeforeYear b.year := by
          rw [daysBeforeYear_succ]; exact daysBeforeYear_lt _ _ hy
        omega
      · have hye : a.year = b.year := by omega
        have := daysBeforeMonth_mono b.year (a.month + 1) b.month (by omega) (by omega)
        rw [hye] at ba
        omega
    refine ⟨hm.1, hm.2, ?_, ?_⟩
    · rintro rfl; exact key _ _ ht hm.1 (by omega)
    · rintro rfl; exact key _ _ hm.1 ht (by omega)

/-- **C65** (part) The neighbouring file name is always built for the years 2 to 9998 if the
last time element is not a year and not a month; for a month it is built iff the day exists in
the neighbouring month.
Missing for the full property: `c65_year_violated`, `c65_order_violated`, `c65_month_violated` and others. -/
theorem c65_built_partial (fs : List (List Str)) (p : Str) (u : TimeUnit) (t : Civil) (inc : Int)
    (hp : LastTime fs p) (hu : unitOf p = some u) (hinc : inc = 1 ∨ inc = -1) (ht : t.Valid)
    (hr : 2 ≤ t.year ∧ t.year ≤ 9998) :
    (u ≠ .month → u ≠ .year → ∃ t', adjacentTime t inc fs = .ok t') ∧
    (u = .month → ((∃ t', adjacentTime t inc fs = .ok t') ↔ ∃ c : Civil, c.Valid ∧ Moved .month inc t c)) := by
  rw [adjacentTime_eq t inc fs p hinc hp, shiftTime_eq t inc p u hu]
  have hb := dayNo_bounds t ht
  have ha := abs_bounds t ht
  have hlow : daysBeforeYear 2 ≤ t.dayNo := by
    rcases Int.lt_or_le 2 t.year with h | h
    · have := daysBeforeYear_lt 2 _ h
      have := (yearLength_pos 2).1
      omega
    · rw [show t.year = 2 by omega] at hb
      omega
  have hhigh : t.dayNo < daysBeforeYear 9999 := by
    rcases Int.lt_or_le (t.year + 1) 9999 with h | h
    · have := daysBeforeYear_lt _ _ h
      have := (yearLength_pos (t.year + 1)).1
      omega
    · rw [show t.year + 1 = 9999 by omega] at hb
      omega
  have e2 : daysBeforeYear 2 = 365 := by decide
  have e9 : daysBeforeYear 9999 = 3651694 := by decide
  have e10 : daysBeforeYear 10000 = 3652059 := by decide
  have hus : (t.us : Int) < 86400000000 := ht.2.2.2.2.2.2
  have hd : dayUs = 86400000000 := rfl
  have hfix : ∀ s : Int, 0 ≤ s → s ≤ 7 * dayUs → ∃ t', t.add (inc * s) = .ok t' := by
    intro s h0 h7
    have hs : -(7 * dayUs) ≤ inc * s ∧ inc * s ≤ 7 * dayUs := by
      rcases hinc with rfl | rfl <;> omega
    obtain ⟨r, h, _⟩ := add_ok' t (inc * s)
      (by unfold Civil.abs; rw [hd] at hs ⊢; omega)
      (by rw [e10]; unfold Civil.abs; rw [hd] at hs ⊢; omega)
    exact ⟨r, h⟩
  refine ⟨?_, ?_⟩
  · intro h1 h2
    cases u with
    | hour => exact hfix hourUs (by decide) (by decide)
    | halfDay => exact hfix (12 * hourUs) (by decide) (by decide)
    | day => exact hfix dayUs (by decide) (by decide)
    | week => exact hfix (7 * dayUs) (by decide) (by decide)
    | month => exact absurd rfl h1
    | year => exact absurd rfl h2
  · rintro rfl
    have hmk : ∀ (y : Int) (m : Nat), (1 ≤ m ∧ m ≤ 12) → 12 * y + (m : Int) = 12 * t.year + (t.month : Int) + inc →
        ((∃ t', mkCivil y m t.day t.us = .ok t') ↔ ∃ c : Civil, c.Valid ∧ Moved .month inc t c) := by
      intro y m hm hy
      constructor
      · rintro ⟨t', h⟩
        obtain ⟨rfl, hv⟩ := mkCivil_ok _ _ _ _ _ h
        exact ⟨_, hv, hy, rfl, rfl⟩
      · rintro ⟨c, hv, hc1, hc2, hc3⟩
        have hcy : c = ⟨y, m, t.day, t.us⟩ := by
          obtain ⟨cy, cm, cd, cu⟩ := c
          simp only at hc1 hc2 hc3
          obtain ⟨_, _, h3, h4, _⟩ := hv
          simp only at h3 h4
          have : cy = y := by omega
          have : cm = m := by omega
          subst_vars; rfl
        rw [hcy] at hv
        refine ⟨⟨y, m, t.day, t.us⟩, ?_⟩
        unfold mkCivil
        simp only
        rw [if_pos hv]
    unfold shiftUnit
    simp only
    obtain ⟨_, _, h3, h4, _⟩ := ht
    split
    · exact hmk _ _ (by omega) (by omega)
    · split
      · exact hmk _ _ (by omega) (by omega)
      · exact hmk _ _ (by omega) (by omega)

/-- **C65** is violated: if the last time element is a year, the next file is searched one year
earlier, and the previous file one year later. -/
theorem c65_year_violated (fs : List (List Str)) (p : Str) (t t' : Civil) (inc : Int)
    (hp : LastTime fs p) (hu : unitOf p = some .year) (hinc : inc = 1 ∨ inc = -1) (ht : t.Valid)
    (h : adjacentTime t inc fs = .ok t') :
    Moved .year (-inc) t t' ∧ (inc = 1 → t'.abs < t.abs) ∧ (inc = -1 → t.abs < t'.abs) := by
  rw [adjacentTime_eq t inc fs p hinc hp, shiftTime_eq t inc p _ hu] at h
  unfold shiftUnit at h
  simp only at h
  obtain ⟨rfl, hv⟩ := mkCivil_ok _ _ _ _ _ h
  have key : ∀ a b : Civil, a.Valid → b.Valid → a.year < b.year → a.abs < b.abs := by
    intro a b ha hb hlt
    apply abs_lt_of_dayNo a b ha.2.2.2.2.2.2
    have ba := dayNo_bounds a ha
    have bb := dayNo_bounds b hb
    have : daysBeforeYear (a.year + 1) ≤ daysBeforeYear b.year := by
      rw [daysBeforeYear_succ]; exact daysBeforeYear_lt _ _ hlt
    omega
  refine ⟨⟨by simp only; omega, rfl, rfl, rfl⟩, ?_, ?_⟩
  · rintro rfl; exact key _ _ hv ht (by simp only; omega)
  · rintro rfl; exact key _ _ ht hv (by simp only; omega)

/-- **C65** is violated: the last time element decides, not the finest one. With hours in a
folder and days in the name of the file, the next file is searched one day later. -/
theorem c65_order_violated :
    adjacentTime ⟨2015, 5, 1, 0⟩ 1 [[c!"%Y"], [c!"%H"], [c!"%j"]] = .ok ⟨2015, 5, 2, 0⟩ := by decide +kernel

/-- **C65** is violated: with monthly files the search for the neighbouring file fails with a
ValueError if the day does not exist in the neighbouring month. -/
theorem c65_month_violated :
    adjacentTime ⟨2015, 1, 31, 0⟩ 1 [[c!"%Y"], [c!"%m"]] = .error .valueError ∧
      adjacentTime ⟨2015, 3, 29, 0⟩ (-1) [[c!"%Y"], [c!"%m"]] = .error .valueError := by decide +kernel

/-- **C65** is violated: without a time element, and with minutes as the last one, an
UnboundLocalError is raised. -/
theorem c65_unbound_violated (t : Civil) (inc : Int) (hinc : inc = 1 ∨ inc = -1) :
    (∀ fs : List (List Str), (∀ q ∈ fs.flatten, ¬ ('%' ∈ q ∧ q ∉ idFormat ∧ ¬ ('(' ∈ q ∧ ')' ∈ q))) →
      adjacentTime t inc fs = .error .unboundLocalError) ∧
    (∀ fs, LastTime fs c!"%M" → adjacentTime t inc fs = .error .unboundLocalError) := by
  constructor
  · intro fs h
    unfold adjacentTime
    rw [if_neg (by omega), lastTimePart_none fs h]
  · intro fs h
    rw [adjacentTime_eq t inc fs _ hinc h]
    rfl

theorem lastTime_sds (base : Str) : LastTime (sdsStructure base) c!"%j" := by
  refine ⟨[base, c!"%Y", c!"%NET", c!"%STA", c!"%CHA", c!".D", c!"%NET", c!".", c!"%STA", c!".", c!"%LOC", c!".", c!"%CHA",
    c!".D.", c!"%Y", c!"."], [], rfl, by decide, by simp⟩

example : LastTime [[c!"d"], [c!"%Y"], [c!"%m", c!"_", c!"%STA"]] c!"%m" :=
  ⟨[c!"d", c!"%Y"], [c!"_", c!"%STA"], rfl, by decide, by decide⟩

example : adjacentTime ⟨2015, 12, 31, 5⟩ 1 (sdsStructure c!"d") = .ok ⟨2016, 1, 1, 5⟩ ∧
    adjacentTime ⟨2016, 3, 1, 5⟩ (-1) (sdsStructure c!"d") = .ok ⟨2016, 2, 29, 5⟩ ∧
    (⟨2016, 3, 1, 5⟩ : Civil).Valid := by decide +kernel

/-! ### C66 -/

theorem fsTranslate_id (strftime : Civil → Str → Str) (part id : Str) (t : Civil) (h : part ∈ idFormat) :
    fsTranslate strftime part id t = (match (splitOn '.' id)[idFormat.idxOf part / 2]? with
      | none => .error .indexError
      | some x => .ok (if idFormat.idxOf part % 2 ≠ 0 then x.map Char.toLower else x)) := by
  have hn : ¬ ('(' ∈ part ∧ ')' ∈ part) := by
    revert part
    decide
  unfold fsTranslate
  rw [if_neg hn]
  simp only [Option.isSome_none, Bool.false_and, Bool.false_eq_true, if_false, h, if_true]
  cases (splitOn '.' id)[idFormat.idxOf part / 2]? with
  | none => rfl
  | some x => rfl

theorem fsTranslate_other (strftime : Civil → Str → Str) (part id : Str) (t : Civil) (h : part ∉ idFormat) :
    fsTranslate strftime part id t = .ok (strftime t part) := by
  unfold fsTranslate
  by_cases hp : '(' ∈ part ∧ ')' ∈ part
  · rw [if_pos hp]
    simp only [searchLazy, Option.isSome_some, ne_eq, not_true_eq_false, decide_false, Bool.and_false, Bool.false_eq_true,
      if_false, h]
    rfl
  · rw [if_neg hp]
    simp only [Option.isSome_none, Bool.false_and, Bool.false_eq_true, if_false, h]
    rfl

theorem splitOn_dots (n s l c : Str) (hn : '.' ∉ n) (hs : '.' ∉ s) (hl : '.' ∉ l) (hc : '.' ∉ c) :
    splitOn '.' (n ++ '.' :: (s ++ '.' :: (l ++ '.' :: c))) = [n, s, l, c] := by
  rw [splitOn_append _ _ _ hn, splitOn_append _ _ _ hs, splitOn_append _ _ _ hl, splitOn_eq_single _ _ hc]

/-- **C66** (part) Every element of a descriptor without a replacement is translated as
documented, for every seed id `n.s.l.c`: the elements of the id by its parts, in lower case for
the lower case elements; a text without a percent sign by itself (`strftime` leaves such a text
unchanged); everything else by `strftime`. Missing: the replacements, see
`c66_replacement_violated`. -/
theorem c66_elements_partial (strftime : Civil → Str → Str) (n s l c : Str) (t : Civil)
    (hn : '.' ∉ n) (hs : '.' ∉ s) (hl : '.' ∉ l) (hc : '.' ∉ c) (hst : ∀ x, '%' ∉ x → strftime t x = x) :
    let tr (part : Str) := fsTranslate strftime part (n ++ '.' :: (s ++ '.' :: (l ++ '.' :: c))) t
    tr c!"%NET" = .ok n ∧ tr c!"%net" = .ok (n.map Char.toLower) ∧
    tr c!"%STA" = .ok s ∧ tr c!"%sta" = .ok (s.map Char.toLower) ∧
    tr c!"%LOC" = .ok l ∧ tr c!"%loc" = .ok (l.map Char.toLower) ∧
    tr c!"%CHA" = .ok c ∧ tr c!"%cha" = .ok (c.map Char.toLower) ∧
    (∀ part, '%' ∉ part → tr part = .ok part) ∧
    (∀ part, part ∉ idFormat → tr part = .ok (strftime t part)) := by
  intro tr
  have h4 := splitOn_dots n s l c hn hs hl hc
  have hid : ∀ part ∈ idFormat, tr part = (match [n, s, l, c][idFormat.idxOf part / 2]? with
      | none => .error .indexError
      | some x => .ok (if idFormat.idxOf part % 2 ≠ 0 then x.map Char.toLower else x)) := by
    intro part h
    show fsTranslate _ _ _ _ = _
    rw [fsTranslate_id _ _ _ _ h, h4]
  refine ⟨hid c!"%NET" (by decide), hid c!"%net" (by decide), hid c!"%STA" (by decide), hid c!"%sta" (by decide),
    hid c!"%LOC" (by decide), hid c!"%loc" (by decide), hid c!"%CHA" (by decide), hid c!"%cha" (by decide), ?_, ?_⟩
  · intro part h
    have : part ∉ idFormat := fun hh => h ((show ∀ q ∈ idFormat, '%' ∈ q by decide) part hh)
    show fsTranslate _ _ _ _ = _
    rw [fsTranslate_other _ _ _ _ this, hst part h]
  · intro part h
    exact fsTranslate_other _ _ _ _ h

/-- **C66** is violated: a replacement in parentheses is never applied. An element of the id with
a replacement is passed to `strftime`, with the parentheses, for every id; in the example of
the documentation the name contains the century and the text of the replacement instead of the
last letter of the channel. -/
theorem c66_replacement_violated (strftime : Civil → Str → Str) (e x id : Str) (t : Civil) :
    fsTranslate strftime (e ++ '(' :: (x ++ [')'])) id t = .ok (strftime t (e ++ '(' :: (x ++ [')']))) := by
  apply fsTranslate_other
  intro h
  have h1 : '(' ∈ e ++ '(' :: (x ++ [')']) := by simp
  have : ∀ p ∈ idFormat, '(' ∉ p := by decide
  exact this _ h h1

/-- **C66** An id with too few parts raises an IndexError. -/
theorem c66_short (strftime : Civil → Str → Str) (n s : Str) (t : Civil) (hn : '.' ∉ n) (hs : '.' ∉ s) :
    fsTranslate strftime c!"%CHA" (n ++ '.' :: s) t = .error .indexError := by
  rw [fsTranslate_id _ _ _ _ (by decide), splitOn_append _ _ _ hn, splitOn_eq_single _ _ hs]
  rfl

/-- **C66** The file name for the SeisComP data structure, for every id, every time and every
base folder: `base/YEAR/NET/STA/CHA.D/NET.STA.LOC.CHA.D.YEAR.DAY`. -/
theorem c66_sds (strftime : Civil → Str → Str) (base n s l c : Str) (t : Civil)
    (hn : '.' ∉ n) (hs : '.' ∉ s) (hl : '.' ∉ l) (hc : '.' ∉ c) (hst : ∀ x, '%' ∉ x → strftime t x = x)
    (hb : '%' ∉ base ∧ base ≠ [] ∧ base.getLast? ≠ some '/')
    (hne : ∀ x ∈ [strftime t c!"%Y", n, s, c], x ≠ [] ∧ '/' ∉ x) :
    currentPattern strftime (n ++ '.' :: (s ++ '.' :: (l ++ '.' :: c))) t (sdsStructure base) =
      .ok (joinWith c!"/" [base, strftime t c!"%Y", n, s, c ++ c!".D",
        joinWith c!"." [n, s, l, c, c!"D", strftime t c!"%Y", strftime t c!"%j"]]) := by
  obtain ⟨e1, e2, e3, e4, e5, e6, e7, e8, e9, e10⟩ := c66_elements_partial strftime n s l c t hn hs hl hc hst
  generalize hid : n ++ '.' :: (s ++ '.' :: (l ++ '.' :: c)) = id at *
  have eb := e9 base hb.1
  have eY := e10 c!"%Y" (by decide)
  have ej := e10 c!"%j" (by decide)
  have eD := e9 c!".D" (by decide)
  have eD' := e9 c!".D." (by decide)
  have edot := e9 c!"." (by decide)
  generalize strftime t c!"%Y" = Y at *
  have hj : ∀ a x : Str, a ≠ [] → a.getLast? ≠ some '/' → x ≠ [] → '/' ∉ x → ∀ y, pathJoin a (x ++ y) = a ++ '/' :: (x ++ y) := by
    intro a x h1 h2 h3 h4 y
    unfold pathJoin
    rw [if_neg, if_neg]
    · rintro (h | h)
      · exact h1 h
      · exact h2 h
    · cases x with
      | nil => exact absurd rfl h3
      | cons a x =>
        simp only [List.cons_append, List.head?_cons, Option.some.injEq]
        rintro rfl
        exact h4 (by simp)
  have hlast : ∀ a x : Str, x ≠ [] → '/' ∉ x → (a ++ '/' :: x) ≠ [] ∧ (a ++ '/' :: x).getLast? ≠ some '/' := by
    intro a x h1 h2
    refine ⟨by simp, ?_⟩
    intro h
    obtain ⟨l', hl'⟩ := List.getLast?_eq_some_iff.1 h
    rcases List.eq_nil_or_concat x with hx | ⟨x', z, hx⟩
    · exact h1 hx
    · rw [hx, List.concat_eq_append, ← List.cons_append, ← List.append_assoc] at hl'
      have := (List.append_inj' hl' rfl).2
      simp only [List.cons.injEq, and_true] at this
      exact h2 (by rw [hx, this]; simp)
  obtain ⟨⟨y1, y2⟩, ⟨n1, n2⟩, ⟨s1, s2⟩, ⟨c1, c2⟩⟩ : (Y ≠ [] ∧ '/' ∉ Y) ∧ (n ≠ [] ∧ '/' ∉ n) ∧ (s ≠ [] ∧ '/' ∉ s) ∧ (c ≠ [] ∧ '/' ∉ c) := by
    exact ⟨hne Y (by simp), hne n (by simp), hne s (by simp), hne c (by simp)⟩
  unfold currentPattern sdsStructure
  simp only [patternFrom, levelName, eb, eY, ej, eD, eD', edot, e1, e3, e5, e7, bind, Except.bind, pure, Except.pure,
    List.append_nil]
  have j0 : pathJoin [] base = base := by
    unfold pathJoin
    split
    · rfl
    · simp
  have j1 := hj base Y hb.2.1 hb.2.2 y1 y2 []
  obtain ⟨p1, p2⟩ := hlast base Y y1 y2
  have j2 := hj _ n p1 p2 n1 n2 []
  obtain ⟨q1, q2⟩ := hlast (base ++ '/' :: Y) n n1 n2
  have j3 := hj _ s q1 q2 s1 s2 []
  obtain ⟨r1, r2⟩ := hlast ((base ++ '/' :: Y) ++ '/' :: n) s s1 s2
  have j4 := hj _ c r1 r2 c1 c2 c!".D"
  obtain ⟨u1, u2⟩ := hlast (((base ++ '/' :: Y) ++ '/' :: n) ++ '/' :: s) (c ++ c!".D") (by simp)
    (by intro h; rcases List.mem_append.1 h with h | h; exact c2 h; exact absurd h (by decide))
  rw [List.append_nil] at j1 j2 j3
  rw [j0, j1, j2, j3, j4, hj _ n u1 u2 n1 n2]
  simp [joinWith]

example : ∃ strftime : Civil → Str → Str, (∀ t x, '%' ∉ x → strftime t x = x) ∧
    currentPattern strftime c!"X1.STA.00.BHZ" ⟨2015, 5, 1, 0⟩ (sdsStructure c!"/data") =
      .ok c!"/data/2015/X1/STA/BHZ.D/X1.STA.00.BHZ.D.2015.121" :=
  ⟨fun _ x => if x = c!"%Y" then c!"2015" else if x = c!"%j" then c!"121" else x,
    by intro t x h; simp only; rw [if_neg (by rintro rfl; exact h (by decide)), if_neg (by rintro rfl; exact h (by decide))],
    by decide +kernel⟩

/-! ### C94: the files that are read -/

/-- a structure with files of fixed length: hours, half days or days -/
def FileUnit (fs : List (List Str)) (s : Int) : Prop :=
  ∃ p u, LastTime fs p ∧ unitOf p = some u ∧ (u = .hour ∨ u = .halfDay ∨ u = .day) ∧ u.size = some s

theorem fileUnit_next (fs : List (List Str)) (s : Int) (h : FileUnit fs s) (t : Civil) (inc : Int)
    (hinc : inc = 1 ∨ inc = -1) : adjacentTime t inc fs = t.add (inc * s) := by
  obtain ⟨p, u, hp, hu, huu, hs⟩ := h
  rw [adjacentTime_eq t inc fs p hinc hp, shiftTime_eq t inc p u hu]
  rcases huu with rfl | rfl | rfl <;> simp only [TimeUnit.size, Option.some.injEq] at hs <;> subst hs <;> rfl

theorem readLoop_spec (fs : List (List Str)) (s : Int) (hs : FileUnit fs s) (hpos : 0 < s) (hle : s ≤ dayUs)
    (short : List Civil → Bool) (start stop : Civil)
    (hstart : start.Valid) (hstop : stop.Valid ∧ stop.year ≤ 9998) (fuel : Nat) (seen : List Civil) (this : Civil)
    (hthis : this.Valid) (hge : start.abs ≤ this.abs) (hfuel : stop.abs - this.abs ≤ fuel * s)
    (base : Int)
    (hseen : ∀ k : Nat, base + (k : Int) * s ≤ this.abs → ∃ v ∈ seen, v.Valid ∧ v.abs = base + (k : Int) * s)
    (hk : ∃ k : Nat, this.abs = base + (k : Int) * s) :
    ∃ vs, readLoop fs short start stop fuel seen this = .ok (some vs) ∧
      (short vs = true → ∀ k : Nat, base + ((k : Int) - 1) * s < stop.abs → ∃ v ∈ vs, v.Valid ∧ v.abs = base + (k : Int) * s) := by
  induction fuel generalizing seen this with
  | zero =>
    unfold readLoop
    rw [if_neg (by rintro ⟨_, h⟩; simp at hfuel; omega)]
    refine ⟨seen, rfl, fun _ k hk' => hseen k ?_⟩
    obtain ⟨k0, hk0⟩ := hk
    have h0 : stop.abs ≤ this.abs := by simp at hfuel; omega
    have hlt : ((k : Int) - 1) * s < (k0 : Int) * s := by omega
    have := Int.lt_of_mul_lt_mul_right hlt (by omega)
    have := Int.mul_le_mul_of_nonneg_right (show (k : Int) ≤ k0 by omega) (show 0 ≤ s by omega)
    omega
  | succ fuel ih =>
    unfold readLoop
    by_cases hc : short seen = true ∧ this.abs < stop.abs
    · rw [if_pos hc]
      simp only
      have hb := abs_bounds stop hstop.1
      have hsy : stop.abs < daysBeforeYear 9999 * dayUs := by
        have hd := (dayNo_bounds stop hstop.1).2.2.2
        have hu := hstop.1.2.2.2.2.2.2
        have : daysBeforeYear (stop.year + 1) ≤ daysBeforeYear 9999 := by
          rcases Int.lt_or_le (stop.year + 1) 9999 with h | h
          · have := daysBeforeYear_lt _ _ h
            have := (yearLength_pos (stop.year + 1)).1
            omega
          · rw [show stop.year + 1 = 9999 by omega]; exact Int.le_refl _
        unfold Civil.abs
        have hd' : dayUs = 86400000000 := rfl
        rw [hd'] at hu ⊢
        omega
      have e9 : daysBeforeYear 9999 * dayUs + dayUs ≤ daysBeforeYear 10000 * dayUs := by decide +kernel
      have h0 := (abs_bounds this hthis).1
      rw [fileUnit_next fs s hs this 1 (.inl rfl), Int.one_mul]
      obtain ⟨r, hr, hrv, hra⟩ := add_ok' this s (by omega) (by omega)
      rw [hr]
      simp only [bind, Except.bind]
      rw [if_neg (by rintro rfl; omega)]
      obtain ⟨k0, hk0⟩ := hk
      refine ih (seen ++ [r]) r hrv (by omega) ?_ ?_ ⟨k0 + 1, ?_⟩
      · rw [hra]; push_cast at hfuel; rw [Int.add_mul] at hfuel; omega
      · intro k hk'
        by_cases hkk : base + (k : Int) * s ≤ this.abs
        · obtain ⟨v, hv, h⟩ := hseen k hkk
          exact ⟨v, by simp [hv], h⟩
        · refine ⟨r, by simp, hrv, ?_⟩
          have h1 : (k0 : Int) * s < (k : Int) * s := by omega
          have h1 := Int.lt_of_mul_lt_mul_right h1 (by omega)
          have h2 : (k : Int) * s ≤ ((k0 : Int) + 1) * s := by rw [Int.add_mul]; omega
          have h2 := Int.le_of_mul_le_mul_right h2 hpos
          have : (k : Int) = k0 + 1 := by omega
          rw [this, Int.add_mul]
          omega
      · rw [hra, hk0]; push_cast; rw [Int.add_mul]; omega
    · rw [if_neg hc]
      refine ⟨seen, rfl, fun hsh k hk' => hseen k ?_⟩
      obtain ⟨k0, hk0⟩ := hk
      have h0 : stop.abs ≤ this.abs := by
        rcases Int.lt_or_le this.abs stop.abs with h | h
        · exact absurd ⟨hsh, h⟩ hc
        · exact h
      have hlt : ((k : Int) - 1) * s < (k0 : Int) * s := by omega
      have := Int.lt_of_mul_lt_mul_right hlt (by omega)
      have := Int.mul_le_mul_of_nonneg_right (show (k : Int) ≤ k0 by omega) (show 0 ≤ s by omega)
      omega

/-- **C94** (part) For daily, half-daily and hourly files, reading ends after finitely many files, and
unless the data found reach the end of the request before, for every time of the request the file of
its day (half day, hour) has been read. For monthly files see `c94_month_partial`. Missing: yearly files
(`c94_year_violated`), weekly files (`c94_week_violated`). -/
theorem c94_read_partial (fs : List (List Str)) (s : Int) (hs : FileUnit fs s) (late : Bool)
    (short : List Civil → Bool) (start stop : Civil) (hstart : start.Valid ∧ 2 ≤ start.year)
    (hstop : stop.Valid ∧ stop.year ≤ 9998) :
    ∃ fuel vs, readTimes fs late short start stop fuel = .ok (some vs) ∧
      (short vs = true → ∀ t : Int, start.abs ≤ t → t ≤ stop.abs →
        ∃ v ∈ vs, v.Valid ∧ v.abs / s = t / s) := by
  have hsz : 0 < s ∧ s ≤ dayUs := by
    obtain ⟨p, u, _, _, huu, h⟩ := hs
    rcases huu with rfl | rfl | rfl <;> simp only [TimeUnit.size, Option.some.injEq] at h <;> subst h <;> decide
  obtain ⟨hpos, hle⟩ := hsz
  have main : ∀ seen : List Civil, start ∈ seen → ∃ vs,
      readLoop fs short start stop (stop.abs - start.abs).toNat seen start = .ok (some vs) ∧
      (short vs = true → ∀ t : Int, start.abs ≤ t → t ≤ stop.abs → ∃ v ∈ vs, v.Valid ∧ v.abs / s = t / s) := by
    intro seen hmem
    obtain ⟨vs, h1, h2⟩ := readLoop_spec fs s hs hpos hle short start stop hstart.1 hstop
      (stop.abs - start.abs).toNat seen start hstart.1 (Int.le_refl _) (by
        rcases Int.lt_or_le 0 (stop.abs - start.abs) with h | h
        · rw [Int.toNat_of_nonneg (by omega)]
          have := Int.mul_le_mul_of_nonneg_left (show 1 ≤ s by omega) (show 0 ≤ stop.abs - start.abs by omega)
          omega
        · have := Int.mul_nonneg (Int.natCast_nonneg (stop.abs - start.abs).toNat) (show 0 ≤ s by omega)
          omega)
      start.abs (by
        intro k hk
        have : (k : Int) * s ≤ 0 := by omega
        have h0 : (k : Int) = 0 := by
          rcases Int.lt_or_le 0 (k : Int) with hne | hne
          · have := Int.mul_pos hne hpos
            omega
          · omega
        exact ⟨start, hmem, hstart.1, by rw [h0]; simp⟩) ⟨0, by simp⟩
    refine ⟨vs, h1, ?_⟩
    intro hsh t ht1 ht2
    have hge : start.abs / s ≤ t / s := Int.ediv_le_ediv hpos ht1
    have e1 := Int.mul_ediv_add_emod start.abs s
    have e2 := Int.mul_ediv_add_emod t s
    have m1 := Int.emod_lt_of_pos start.abs hpos
    have m2 := Int.emod_nonneg start.abs (Int.ne_of_gt hpos)
    have m3 := Int.emod_nonneg t (Int.ne_of_gt hpos)
    have hkk : (((t / s - start.abs / s).toNat : Nat) : Int) = t / s - start.abs / s := Int.toNat_of_nonneg (by omega)
    obtain ⟨v, hv1, hv2, hv3⟩ := h2 hsh (t / s - start.abs / s).toNat (by
      rw [hkk]
      have : start.abs + (t / s - start.abs / s - 1) * s = s * (t / s) + start.abs % s - s := by
        rw [Int.mul_comm (t / s - start.abs / s - 1) s, Int.mul_sub, Int.mul_sub, Int.mul_one]
        omega
      rw [this]
      omega)
    refine ⟨v, hv1, hv2, ?_⟩
    rw [hv3, hkk, Int.add_mul_ediv_right _ _ (Int.ne_of_gt hpos)]
    omega
  unfold readTimes
  refine ⟨(stop.abs - start.abs).toNat, ?_⟩
  cases late with
  | false => exact main [start] (by simp)
  | true =>
    have hb := dayNo_bounds start hstart.1
    have ha := abs_bounds start hstart.1
    have hlow : daysBeforeYear 2 ≤ start.dayNo := by
      rcases Int.lt_or_le 2 start.year with h | h
      · have := daysBeforeYear_lt 2 _ h
        have := (yearLength_pos 2).1
        omega
      · rw [show start.year = 2 by have := hstart.2; omega] at hb
        omega
    have e2 : daysBeforeYear 2 = 365 := by decide
    have hd : dayUs = 86400000000 := rfl
    obtain ⟨p, hp, _⟩ := add_ok' start (-1 * s) (by unfold Civil.abs; rw [hd] at hle ⊢; omega) (by omega)
    simp only [if_true]
    rw [fileUnit_next fs s hs start (-1) (.inr rfl), hp]
    exact main [start, p] (by simp)

/-- **C94** is violated for yearly files: if the data in the file of the year do not reach the
end of the request, older and older years are searched; the files of the following years are
never read, and a ValueError is raised in the end. -/
theorem c94_year_violated (fs : List (List Str)) (p : Str) (hp : LastTime fs p) (hu : unitOf p = some .year)
    (start stop : Civil) (hstart : start.Valid) (hlt : start.abs < stop.abs) :
    ∃ fuel, readTimes fs false (fun _ => true) start stop fuel = .error .valueError := by
  have key : ∀ (n : Nat) (seen : List Civil) (this : Civil), this.year = (n : Int) + 1 → this.Valid →
      this.year ≤ start.year → this.abs < stop.abs →
      ∃ fuel, readLoop fs (fun _ => true) start stop fuel seen this = .error .valueError := by
    intro n
    induction n with
    | zero =>
      intro seen this hy hv _ hl
      refine ⟨1, ?_⟩
      unfold readLoop
      rw [if_pos ⟨rfl, hl⟩]
      simp only
      rw [adjacentTime_eq this 1 fs p (.inl rfl) hp, shiftTime_eq this 1 p _ hu]
      have : shiftUnit this 1 .year = .error .valueError := by
        unfold shiftUnit mkCivil
        simp only
        rw [if_neg]
        intro h
        have := h.1
        simp only at this
        omega
      rw [this]
      rfl
    | succ n ih =>
      intro seen this hy hv hle hl
      cases hn : shiftUnit this 1 .year with
      | error e =>
        have he : e = .valueError := by
          unfold shiftUnit mkCivil at hn
          simp only at hn
          split at hn
          · cases hn
          · simpa using hn.symm
        refine ⟨1, ?_⟩
        unfold readLoop
        rw [if_pos ⟨rfl, hl⟩]
        simp only
        rw [adjacentTime_eq this 1 fs p (.inl rfl) hp, shiftTime_eq this 1 p _ hu, hn, he]
        rfl
      | ok t =>
        have hadj : adjacentTime this 1 fs = .ok t := by
          rw [adjacentTime_eq this 1 fs p (.inl rfl) hp, shiftTime_eq this 1 p _ hu, hn]
        have hm := c65_year_violated fs p this t 1 hp hu (.inl rfl) hv hadj
        have hty : t.year = this.year + -1 := hm.1.1
        have hvt : t.Valid := by
          unfold shiftUnit at hn
          exact (mkCivil_ok _ _ _ _ _ hn).2
        have h1 := hm.2.1 rfl
        push_cast at hy
        obtain ⟨fuel, hf⟩ := ih (seen ++ [t]) t (by omega) hvt (by omega) (by omega)
        refine ⟨fuel + 1, ?_⟩
        unfold readLoop
        rw [if_pos ⟨rfl, hl⟩]
        simp only
        rw [hadj]
        simp only [bind, Except.bind]
        rw [if_neg (by rintro rfl; omega)]
        exact hf
  obtain ⟨fuel, h⟩ := key (start.year - 1).toNat [start] start
    (by rw [Int.toNat_of_nonneg (by have := hstart.1; omega)]; omega) hstart (Int.le_refl _) hlt
  exact ⟨fuel, h⟩

example : FileUnit (sdsStructure c!"d") dayUs := ⟨c!"%j", .day, lastTime_sds _, rfl, .inr (.inr rfl), rfl⟩

example : readTimes (sdsStructure c!"d") true (fun _ => true) ⟨2015, 12, 30, 5⟩ ⟨2016, 1, 1, 3⟩ 10 =
    .ok (some [⟨2015, 12, 30, 5⟩, ⟨2015, 12, 29, 5⟩, ⟨2015, 12, 31, 5⟩, ⟨2016, 1, 1, 5⟩]) := by decide +kernel

end SeisMIC
