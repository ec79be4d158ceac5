import Verif.Lemmas.Datetime
import Verif.Lemmas.Glob
import Verif.Lemmas.Sort
import Verif.Lemmas.Strings
import Verif.Model.Archive

/-!
# C64: the first and the last available day of a station
-/

namespace SeisMIC

/-! ### Specification -/

/-- names of folders that are years: four characters, the first is 1 or 2 -/
def IsYearName (d : Str) : Prop := d.length = 4 ∧ (d.head? = some '1' ∨ d.head? = some '2')

/-- the archive has a file for the day with this number: a file in the folder of a year whose
name ends with the number of the day in that year -/
def HasDay (files : Str → List Str) (dirs : List Str) (n : Int) : Prop :=
  ∃ d ∈ dirs, IsYearName d ∧ ∃ f ∈ files d,
    n = daysBeforeYear (digitsVal d) + (digitsVal (lastPart f) : Int) - 1

/-- the names are those of the archive: years are numbers, files end with a day that exists in
the year; days are written with three digits everywhere, or without zeros in front everywhere -/
structure GoodNames (files : Str → List Str) (dirs : List Str) : Prop where
  years : ∀ d ∈ dirs, IsYearName d → isDigits d = true
  days : ∀ d ∈ dirs, IsYearName d → ∀ f ∈ files d, lastPart f ≠ [] ∧ isDigits (lastPart f) = true ∧
    1 ≤ digitsVal (lastPart f) ∧ (digitsVal (lastPart f) : Int) ≤ yearLength (digitsVal d)
  form : (∀ d ∈ dirs, IsYearName d → ∀ f ∈ files d, (lastPart f).length = 3) ∨
    (∀ d ∈ dirs, IsYearName d → ∀ f ∈ files d, (lastPart f).head? ≠ some '0')

/-! ### Numbers and strings -/

theorem digit_bounds {c : Char} (h : (decide ('0' ≤ c) && decide (c ≤ '9')) = true) :
    48 ≤ c.toNat ∧ c.toNat ≤ 57 := by
  simp only [Bool.and_eq_true, decide_eq_true_eq] at h
  obtain ⟨h1, h2⟩ := h
  rw [Char.le_def] at h1 h2
  constructor
  · exact UInt32.le_iff_toNat_le.1 h1
  · exact UInt32.le_iff_toNat_le.1 h2

theorem digitsVal_lt (s : Str) (h : isDigits s = true) : digitsVal s < 10 ^ s.length := by
  induction s with
  | nil => simp [digitsVal]
  | cons c s ih =>
    simp only [isDigits, List.all_cons] at h
    rw [Bool.and_eq_true] at h
    have hc := digit_bounds h.1
    have := ih h.2
    simp only [digitsVal, List.length_cons, Nat.pow_succ]
    have h9 : c.toNat - '0'.toNat ≤ 9 := by
      have : '0'.toNat = 48 := rfl
      omega
    have := Nat.mul_le_mul_right (10 ^ s.length) h9
    omega

theorem digitsVal_ge (s : Str) (h : isDigits s = true) (h0 : s.head? ≠ some '0') (hne : s ≠ []) :
    10 ^ (s.length - 1) ≤ digitsVal s := by
  cases s with
  | nil => exact absurd rfl hne
  | cons c s =>
    simp only [isDigits, List.all_cons] at h
    rw [Bool.and_eq_true] at h
    have hc := digit_bounds h.1
    have hne : c.toNat ≠ 48 := by
      intro hh
      apply h0
      have : c = '0' := Char.ext (UInt32.toNat_inj.1 hh)
      simp [this]
    simp only [digitsVal, List.length_cons, Nat.add_sub_cancel]
    have h1 : 1 ≤ c.toNat - '0'.toNat := by
      have : '0'.toNat = 48 := rfl
      omega
    have := Nat.mul_le_mul_right (10 ^ s.length) h1
    omega

/-- for strings of digits of one length the order of the strings is that of the numbers -/
theorem digits_le (a b : Str) (ha : isDigits a = true) (hb : isDigits b = true)
    (hl : a.length = b.length) (h : a ≤ b) : digitsVal a ≤ digitsVal b := by
  induction a generalizing b with
  | nil => simp [digitsVal]
  | cons c a ih =>
    cases b with
    | nil => cases hl
    | cons e b =>
      simp only [isDigits, List.all_cons] at ha hb
      rw [Bool.and_eq_true] at ha hb
      have hc := digit_bounds ha.1
      have he := digit_bounds hb.1
      have hl' : a.length = b.length := by simpa using hl
      have ha' := digitsVal_lt a ha.2
      rw [hl'] at ha'
      simp only [digitsVal, hl']
      have h48 : '0'.toNat = 48 := rfl
      rw [List.cons_le_cons_iff] at h
      rcases h with h | ⟨rfl, h⟩
      · have hlt : c.toNat < e.toNat := by
          rw [Char.lt_def] at h
          exact UInt32.lt_iff_toNat_lt.1 h
        have : c.toNat - '0'.toNat + 1 ≤ e.toNat - '0'.toNat := by omega
        have := Nat.mul_le_mul_right (10 ^ b.length) this
        rw [Nat.add_mul] at this
        omega
      · have := ih b ha.2 hb.2 hl' h
        omega

theorem digits_inj (a b : Str) (ha : isDigits a = true) (hb : isDigits b = true)
    (hl : a.length = b.length) (h : digitsVal a = digitsVal b) : a = b := by
  induction a generalizing b with
  | nil => cases b with
    | nil => rfl
    | cons => cases hl
  | cons c a ih =>
    cases b with
    | nil => cases hl
    | cons e b =>
      simp only [isDigits, List.all_cons] at ha hb
      rw [Bool.and_eq_true] at ha hb
      have hc := digit_bounds ha.1
      have he := digit_bounds hb.1
      have hl' : a.length = b.length := by simpa using hl
      have ha' := digitsVal_lt a ha.2
      have hb' := digitsVal_lt b hb.2
      rw [hl'] at ha'
      simp only [digitsVal, hl'] at h
      have h48 : '0'.toNat = 48 := rfl
      rcases Nat.lt_trichotomy c.toNat e.toNat with hlt | heq | hlt
      · have : c.toNat - '0'.toNat + 1 ≤ e.toNat - '0'.toNat := by omega
        have := Nat.mul_le_mul_right (10 ^ b.length) this
        rw [Nat.add_mul] at this
        omega
      · have hce : c = e := Char.ext (UInt32.toNat_inj.1 heq)
        subst hce
        rw [ih b ha.2 hb.2 hl' (by omega)]
      · have : e.toNat - '0'.toNat + 1 ≤ c.toNat - '0'.toNat := by omega
        have := Nat.mul_le_mul_right (10 ^ b.length) this
        rw [Nat.add_mul] at this
        omega

/-! ### Calendar -/

theorem dayNumber_ok (y j : Nat) (h1 : 1 ≤ j) (h2 : (j : Int) ≤ yearLength y) :
    dayNumber y j = .ok (daysBeforeYear y + (j : Int) - 1) := by
  unfold dayNumber
  rw [if_pos]
  unfold yearLength at h2
  refine ⟨h1, ?_, ?_⟩
  · split at h2 <;> omega
  · rintro rfl
    split at h2
    · assumption
    · omega

/-! ### Folders and files -/

theorem firstFilled_spec (files : Str → List Str) (l : List Str) (h : ∃ d ∈ l, files d ≠ []) :
    ∃ l1 y l2, l = l1 ++ y :: l2 ∧ (∀ d ∈ l1, files d = []) ∧ files y ≠ [] ∧
      firstFilled files l = .ok (y, (files y).map lastPart) := by
  induction l with
  | nil => obtain ⟨d, hd, _⟩ := h; cases hd
  | cons y l ih =>
    unfold firstFilled
    by_cases hy : files y = []
    · rw [if_pos hy]
      have : ∃ d ∈ l, files d ≠ [] := by
        obtain ⟨d, hd, hf⟩ := h
        rcases List.mem_cons.1 hd with rfl | hd
        · exact absurd hy hf
        · exact ⟨d, hd, hf⟩
      obtain ⟨l1, z, l2, rfl, h1, h2, h3⟩ := ih this
      refine ⟨y :: l1, z, l2, rfl, ?_, h2, h3⟩
      intro d hd
      rcases List.mem_cons.1 hd with rfl | hd
      · exact hy
      · exact h1 d hd
    · rw [if_neg hy]
      exact ⟨[], y, l, rfl, by simp, hy, rfl⟩

theorem firstFilled_none (files : Str → List Str) (l : List Str) (h : ∀ d ∈ l, files d = []) :
    firstFilled files l = .error .indexError := by
  induction l with
  | nil => rfl
  | cons y l ih =>
    unfold firstFilled
    rw [if_pos (h y (by simp))]
    exact ih fun d hd => h d (by simp [hd])

theorem julLe_total (a b : Str) (h : julLe a b = false) : julLe b a = true := by
  unfold julLe at *
  simp only [Bool.or_eq_false_iff, Bool.and_eq_false_iff, decide_eq_false_iff_not] at h
  simp only [Bool.or_eq_true, Bool.and_eq_true, decide_eq_true_eq]
  rcases h with ⟨h1, h2 | h2⟩
  · left; omega
  · rcases Nat.lt_or_ge b.length a.length with h3 | h3
    · exact .inl h3
    · exact .inr ⟨by omega, strLe_total _ _ h2⟩

theorem julLe_trans (a b c : Str) (h1 : julLe a b = true) (h2 : julLe b c = true) : julLe a c = true := by
  unfold julLe at *
  simp only [Bool.or_eq_true, Bool.and_eq_true, decide_eq_true_eq] at *
  rcases h1 with h1 | ⟨h1, h1'⟩ <;> rcases h2 with h2 | ⟨h2, h2'⟩
  · left; omega
  · left; omega
  · left; omega
  · right; exact ⟨by omega, strLe_trans _ _ _ h1' h2'⟩

theorem jul_le (a b : Str) (ha : isDigits a = true) (hb : isDigits b = true) (hbn : b ≠ [])
    (hf : a.length = b.length ∨ b.head? ≠ some '0') (h : julLe a b = true) :
    digitsVal a ≤ digitsVal b := by
  unfold julLe at h
  simp only [Bool.or_eq_true, Bool.and_eq_true, decide_eq_true_eq] at h
  rcases h with h | ⟨h, h'⟩
  · rcases hf with hf | hf
    · omega
    · have h1 := digitsVal_lt a ha
      have h2 := digitsVal_ge b hb hf hbn
      have : 10 ^ a.length ≤ 10 ^ (b.length - 1) := Nat.pow_le_pow_right (by omega) (by omega)
      omega
  · exact digits_le a b ha hb h (strLe_iff.1 h')

theorem yearName_iff (d : Str) :
    (fnmatch d c!"1???" = true ∨ fnmatch d c!"2???" = true) ↔ IsYearName d := by
  have key : ∀ c : Char, c ≠ '*' ∧ c ≠ '?' ∧ c ≠ '[' →
      (fnmatch d [c, '?', '?', '?'] = true ↔ d.length = 4 ∧ d.head? = some c) := by
    intro c hc
    rw [fnmatch_cons _ _ _ hc]
    simp only [fnmatch_any, fnmatch_nil]
    constructor
    · rintro ⟨v, rfl, e, w, rfl, f, x, rfl, g, y, rfl, rfl⟩
      exact ⟨rfl, rfl⟩
    · rintro ⟨h1, h2⟩
      match d, h1, h2 with
      | [a, b, e, f], _, h2 =>
        simp only [List.head?_cons, Option.some.injEq] at h2
        exact ⟨[b, e, f], by rw [h2], b, _, rfl, e, _, rfl, f, _, rfl, rfl⟩
  have h1 := key '1' (by decide)
  have h2 := key '2' (by decide)
  show (fnmatch d ['1', '?', '?', '?'] = true ∨ fnmatch d ['2', '?', '?', '?'] = true) ↔ _
  rw [h1, h2]
  unfold IsYearName
  constructor
  · rintro (h | h)
    · exact ⟨h.1, .inl h.2⟩
    · exact ⟨h.1, .inr h.2⟩
  · rintro ⟨h, h' | h'⟩
    · exact .inl ⟨h, h'⟩
    · exact .inr ⟨h, h'⟩

/-- the list of years: members and order -/
theorem yearList (dirs : List Str) :
    (∀ d, d ∈ isort strLe (dirs.filter (fun d => fnmatch d c!"1???") ++ dirs.filter (fun d => fnmatch d c!"2???")) ↔
      d ∈ dirs ∧ IsYearName d) ∧
    (isort strLe (dirs.filter (fun d => fnmatch d c!"1???") ++ dirs.filter (fun d => fnmatch d c!"2???"))).Pairwise (· ≤ ·) := by
  constructor
  · intro d
    rw [mem_isort, List.mem_append, List.mem_filter, List.mem_filter, ← yearName_iff, ← and_or_left]
  · refine (isort_sorted strLe strLe_total strLe_trans _).imp ?_
    intro a b h
    exact strLe_iff.1 h

theorem pyInt_ok (s : Str) (h1 : s ≠ []) (h2 : isDigits s = true) : pyInt s = .ok (digitsVal s) := by
  unfold pyInt; rw [if_pos ⟨h1, h2⟩]

section
variable {files : Str → List Str} {dirs : List Str}

theorem dayStart_spec (hg : GoodNames files dirs) (l : List Str) (hm : ∀ d, d ∈ l ↔ d ∈ dirs ∧ IsYearName d)
    (hs : l.Pairwise (· ≤ ·)) (hf : ∃ d ∈ l, files d ≠ []) :
    ∃ n, dayStartIn files l = .ok n ∧ HasDay files dirs n ∧ ∀ m, HasDay files dirs m → n ≤ m := by
  obtain ⟨l1, y, l2, rfl, he, hy, h⟩ := firstFilled_spec files l hf
  have hyd := (hm y).1 (by simp)
  unfold dayStartIn
  rw [h]
  simp only [Bind.bind, Except.bind]
  have hjs := isort_sorted julLe julLe_total julLe_trans ((files y).map lastPart)
  have hjm : ∀ j, j ∈ isort julLe ((files y).map lastPart) ↔ ∃ f ∈ files y, lastPart f = j := by
    intro j; rw [mem_isort, List.mem_map]
  generalize isort julLe ((files y).map lastPart) = js at hjs hjm
  cases js with
  | nil =>
    obtain ⟨f, hf'⟩ := List.exists_mem_of_ne_nil _ hy
    have := (hjm (lastPart f)).2 ⟨f, hf', rfl⟩
    cases this
  | cons j js =>
    obtain ⟨f, hff, rfl⟩ := (hjm j).1 (by simp)
    obtain ⟨d1, d2, d3, d4⟩ := hg.days y hyd.1 hyd.2 f hff
    have hyn : y ≠ [] := by rintro rfl; exact absurd hyd.2.1 (by decide)
    simp only [List.head?_cons]
    rw [pyInt_ok y hyn (hg.years y hyd.1 hyd.2)]
    simp only
    rw [pyInt_ok _ d1 d2]
    simp only
    rw [dayNumber_ok _ _ d3 d4]
    refine ⟨_, rfl, ⟨y, hyd.1, hyd.2, f, hff, rfl⟩, ?_⟩
    rintro m ⟨d, hd, hdy, g, hgm, rfl⟩
    have hdl := (hm d).2 ⟨hd, hdy⟩
    obtain ⟨e1, e2, e3, e4⟩ := hg.days d hd hdy g hgm
    have hdin : d = y ∨ d ∈ l2 := by
      rcases List.mem_append.1 hdl with h' | h'
      · rw [he d h'] at hgm; cases hgm
      · exact List.mem_cons.1 h'
    have hyle : digitsVal y ≤ digitsVal d := by
      rcases hdin with rfl | h'
      · exact Nat.le_refl _
      · refine digits_le _ _ (hg.years y hyd.1 hyd.2) (hg.years d hd hdy) (by rw [hyd.2.1, hdy.1]) ?_
        exact (List.pairwise_cons.1 (List.pairwise_append.1 hs).2.1).1 d h'
    rcases Nat.lt_or_ge (digitsVal y) (digitsVal d) with hlt | hge
    · have := daysBeforeYear_lt (digitsVal y) (digitsVal d) (by omega)
      omega
    · have heq : digitsVal d = digitsVal y := by omega
      rw [heq]
      by_cases hdy' : d = y
      · subst hdy'
        have hle : digitsVal (lastPart f) ≤ digitsVal (lastPart g) := by
          rcases List.mem_cons.1 ((hjm _).2 ⟨g, hgm, rfl⟩) with h' | h'
          · rw [h']; exact Nat.le_refl _
          · refine jul_le _ _ d2 e2 e1 ?_ ((List.pairwise_cons.1 hjs).1 _ h')
            rcases hg.form with hf3 | hf0
            · left; rw [hf3 d hd hdy f hff, hf3 d hd hdy g hgm]
            · right; exact hf0 d hd hdy g hgm
        omega
      · exfalso
        apply hdy'
        exact digits_inj d y (hg.years d hd hdy) (hg.years y hyd.1 hyd.2) (by rw [hyd.2.1, hdy.1]) heq

theorem getLast_le {α : Type} {R : α → α → Prop} (hr : ∀ a, R a a) (l : List α) (hl : l.Pairwise R) (b : α)
    (h : l.getLast? = some b) : ∀ a ∈ l, R a b := by
  intro a ha
  obtain ⟨l', rfl⟩ := List.getLast?_eq_some_iff.1 h
  rcases List.mem_append.1 ha with h' | h'
  · exact (List.pairwise_append.1 hl).2.2 a h' b (by simp)
  · rw [List.mem_singleton.1 h']; exact hr b

theorem dayEnd_spec (hg : GoodNames files dirs) (l : List Str) (hm : ∀ d, d ∈ l ↔ d ∈ dirs ∧ IsYearName d)
    (hs : l.Pairwise (· ≤ ·)) (hf : ∃ d ∈ l, files d ≠ []) :
    ∃ n, dayEndIn files l = .ok (n + 1) ∧ HasDay files dirs n ∧ ∀ m, HasDay files dirs m → m ≤ n := by
  obtain ⟨l1, y, l2, hrev, he, hy, h⟩ := firstFilled_spec files l.reverse (by simpa using hf)
  have hyd := (hm y).1 (by rw [← List.mem_reverse, hrev]; simp)
  have hs' : (l1 ++ y :: l2).Pairwise (fun a b => b ≤ a) := by
    rw [← hrev, List.pairwise_reverse]; exact hs
  unfold dayEndIn
  rw [h]
  simp only [Bind.bind, Except.bind]
  have hjs := isort_sorted julLe julLe_total julLe_trans ((files y).map lastPart)
  have hjm : ∀ j, j ∈ isort julLe ((files y).map lastPart) ↔ ∃ f ∈ files y, lastPart f = j := by
    intro j; rw [mem_isort, List.mem_map]
  generalize isort julLe ((files y).map lastPart) = js at hjs hjm
  cases hj : js.getLast? with
  | none =>
    rw [List.getLast?_eq_none_iff] at hj
    subst hj
    obtain ⟨f, hf'⟩ := List.exists_mem_of_ne_nil _ hy
    have := (hjm (lastPart f)).2 ⟨f, hf', rfl⟩
    cases this
  | some j =>
    obtain ⟨f, hff, rfl⟩ := (hjm j).1 (List.mem_of_getLast? hj)
    obtain ⟨d1, d2, d3, d4⟩ := hg.days y hyd.1 hyd.2 f hff
    have hyn : y ≠ [] := by rintro rfl; exact absurd hyd.2.1 (by decide)
    simp only
    rw [pyInt_ok y hyn (hg.years y hyd.1 hyd.2)]
    simp only
    rw [pyInt_ok _ d1 d2]
    simp only
    rw [dayNumber_ok _ _ d3 d4]
    refine ⟨_, rfl, ⟨y, hyd.1, hyd.2, f, hff, rfl⟩, ?_⟩
    rintro m ⟨d, hd, hdy, g, hgm, rfl⟩
    have hdl : d ∈ l1 ++ y :: l2 := by rw [← hrev, List.mem_reverse]; exact (hm d).2 ⟨hd, hdy⟩
    obtain ⟨e1, e2, e3, e4⟩ := hg.days d hd hdy g hgm
    have hdin : d = y ∨ d ∈ l2 := by
      rcases List.mem_append.1 hdl with h' | h'
      · rw [he d h'] at hgm; cases hgm
      · exact List.mem_cons.1 h'
    have hyle : digitsVal d ≤ digitsVal y := by
      rcases hdin with rfl | h'
      · exact Nat.le_refl _
      · refine digits_le _ _ (hg.years d hd hdy) (hg.years y hyd.1 hyd.2) (by rw [hyd.2.1, hdy.1]) ?_
        exact (List.pairwise_cons.1 (List.pairwise_append.1 hs').2.1).1 d h'
    rcases Nat.lt_or_ge (digitsVal d) (digitsVal y) with hlt | hge
    · have := daysBeforeYear_lt (digitsVal d) (digitsVal y) (by omega)
      omega
    · have heq : digitsVal d = digitsVal y := by omega
      have hdy' : d = y :=
        digits_inj d y (hg.years d hd hdy) (hg.years y hyd.1 hyd.2) (by rw [hyd.2.1, hdy.1]) heq
      subst hdy'
      have hle : digitsVal (lastPart g) ≤ digitsVal (lastPart f) := by
        refine jul_le _ _ e2 d2 d1 ?_ (getLast_le (R := fun a b => julLe a b = true) ?_ js hjs _ hj _ ((hjm _).2 ⟨g, hgm, rfl⟩))
        · rcases hg.form with hf3 | hf0
          · left; rw [hf3 d hd hdy f hff, hf3 d hd hdy g hgm]
          · right; exact hf0 d hd hdy f hff
        · intro a; simp [julLe, strLe_refl]
      omega

end

/-! ### The theorems -/

/-- **C64** (part) If a file exists for the station, the reported first time is the start of the
earliest day with a file, and the reported last time is the end of the latest day with a file.
Missing: names that are not years and days; a station without files (see
`c64_empty_violated`). -/
theorem c64_times_partial (files : Str → List Str) (dirs : List Str) (hg : GoodNames files dirs)
    (hf : ∃ n, HasDay files dirs n) :
    ∃ a b, getTimes files dirs = .ok (some (a, b)) ∧
      HasDay files dirs a ∧ (∀ n, HasDay files dirs n → a ≤ n) ∧
      HasDay files dirs (b - 1) ∧ (∀ n, HasDay files dirs n → n + 1 ≤ b) := by
  obtain ⟨hm, hs⟩ := yearList dirs
  obtain ⟨n, d, hd, hdy, f, hfd, -⟩ := hf
  have hex : ∃ d ∈ isort strLe (dirs.filter (fun d => fnmatch d c!"1???") ++ dirs.filter (fun d => fnmatch d c!"2???")), files d ≠ [] :=
    ⟨d, (hm d).2 ⟨hd, hdy⟩, fun h => by rw [h] at hfd; cases hfd⟩
  obtain ⟨a, ha, ha1, ha2⟩ := dayStart_spec hg _ hm hs hex
  obtain ⟨b, hb, hb1, hb2⟩ := dayEnd_spec hg _ hm hs hex
  refine ⟨a, b + 1, ?_, ha1, ha2, by simpa using hb1, fun n hn => by have := hb2 n hn; omega⟩
  unfold getTimes
  simp only
  rw [if_neg, ha, hb]
  · rfl
  · intro h0
    obtain ⟨d, hd, _⟩ := hex
    rw [h0] at hd
    cases hd

/-- **C64** A station without the folder of a year is reported as unavailable. -/
theorem c64_unavailable (files : Str → List Str) (dirs : List Str) (h : ∀ d ∈ dirs, ¬ IsYearName d) :
    getTimes files dirs = .ok none := by
  unfold getTimes
  have h0 : dirs.filter (fun d => fnmatch d c!"1???") ++ dirs.filter (fun d => fnmatch d c!"2???") = [] := by
    rw [List.eq_nil_iff_forall_not_mem]
    intro d hd
    rw [← mem_isort (le := strLe), (yearList dirs).1 d] at hd
    exact h d hd.1 hd.2
  simp only [h0, if_true]

/-- **C64** is violated: if folders of years exist but all of them are empty, an IndexError is
raised instead of reporting the station as unavailable (only a FileNotFoundError is expected,
and it cannot occur). -/
theorem c64_empty_violated (files : Str → List Str) (dirs : List Str) (h : ∃ d ∈ dirs, IsYearName d)
    (he : ∀ d ∈ dirs, IsYearName d → files d = []) : getTimes files dirs = .error .indexError := by
  obtain ⟨hm, hs⟩ := yearList dirs
  unfold getTimes
  simp only
  rw [if_neg]
  · unfold dayStartIn
    rw [firstFilled_none]
    · rfl
    · intro d hd
      have := (hm d).1 hd
      exact he d this.1 this.2
  · intro h0
    obtain ⟨d, hd, hy⟩ := h
    have := (hm d).2 ⟨hd, hy⟩
    rw [h0] at this
    cases this

/-- **C64** is violated: another folder whose name has four characters and begins with 2 makes
the request fail, although there are files. -/
theorem c64_names_violated :
    ∃ (files : Str → List Str) (dirs : List Str), HasDay files dirs (daysBeforeYear 2015) ∧
      getTimes files dirs = .error .valueError :=
  ⟨fun _ => [c!"X.001"], [c!"2015", c!"2old"],
    ⟨c!"2015", by simp, by unfold IsYearName; decide, c!"X.001", by simp, by decide +kernel⟩, by decide +kernel⟩

/-- two years, the second with an empty folder in between; days in two channels -/
def exFiles : Str → List Str := fun d =>
  if d = c!"2014" then [c!"X.STA..HHZ.D.2014.365", c!"X.STA..HHN.D.2014.012"]
  else if d = c!"2016" then [c!"X.STA..HHZ.D.2016.366"] else []

example : getTimes exFiles [c!"2016", c!"misc", c!"2014", c!"2015"] =
    .ok (some (daysBeforeYear 2014 + 11, daysBeforeYear 2017)) := by decide +kernel

example : GoodNames exFiles [c!"2016", c!"misc", c!"2014", c!"2015"] ∧
    HasDay exFiles [c!"2016", c!"misc", c!"2014", c!"2015"] (daysBeforeYear 2014 + 11) := by
  refine ⟨⟨?_, ?_, .inl ?_⟩, c!"2014", by simp, by unfold IsYearName; decide, c!"X.STA..HHN.D.2014.012", by decide, by decide +kernel⟩
  all_goals unfold IsYearName; decide +kernel

example : (∀ d ∈ ([c!"misc", c!"20"] : List Str), ¬ IsYearName d) ∧ IsYearName c!"2015" := by
  unfold IsYearName; decide

end SeisMIC
