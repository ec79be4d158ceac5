import Verif.Model.HeaderStore
import Verif.Lemmas.Datetime
import Verif.Lemmas.Strings
import Mathlib.Tactic.Ring
import Mathlib.Order.Lattice
import Mathlib.Data.List.Basic

/-!
# C101, C102: times and headers in the database
-/

namespace SeisMIC

/-! ### Digits -/

theorem length_fixedDigits (w n : Nat) : (fixedDigits w n).length = w := by
  induction w generalizing n with
  | zero => rfl
  | succ w ih => simp [fixedDigits, ih]

theorem digitChar_facts (d : Nat) (h : d < 10) :
    (digitChar d).toNat - '0'.toNat = d ∧ '0' ≤ digitChar d ∧ digitChar d ≤ '9' := by
  match d, h with
  | 0, _ | 1, _ | 2, _ | 3, _ | 4, _ | 5, _ | 6, _ | 7, _ | 8, _ | 9, _ => decide

theorem digitsVal_append (a b : Str) : digitsVal (a ++ b) = digitsVal a * 10 ^ b.length + digitsVal b := by
  induction a with
  | nil => simp [digitsVal]
  | cons c a ih =>
    simp only [List.cons_append, digitsVal, ih, List.length_append, pow_add]
    ring

theorem digitsVal_fixedDigits (w n : Nat) (h : n < 10 ^ w) : digitsVal (fixedDigits w n) = n := by
  induction w generalizing n with
  | zero => simp [fixedDigits, digitsVal]; omega
  | succ w ih =>
    have hd := (digitChar_facts (n % 10) (by omega)).1
    rw [fixedDigits, digitsVal_append, ih (n / 10) (by rw [pow_succ] at h; omega)]
    simp only [digitsVal, List.length_cons, List.length_nil, hd]
    omega

theorem isDigits_fixedDigits (w n : Nat) : isDigits (fixedDigits w n) = true := by
  induction w generalizing n with
  | zero => rfl
  | succ w ih =>
    have hd := (digitChar_facts (n % 10) (by omega)).2
    have := ih (n / 10)
    unfold isDigits at this ⊢
    rw [fixedDigits, List.all_append, this]
    simp [hd.1, hd.2]

theorem pyInt_fixedDigits (w n : Nat) (hw : w ≠ 0) (h : n < 10 ^ w) : pyInt (fixedDigits w n) = .ok n := by
  unfold pyInt
  rw [if_pos, digitsVal_fixedDigits w n h]
  refine ⟨?_, isDigits_fixedDigits w n⟩
  intro h0
  have := length_fixedDigits w n
  rw [h0] at this
  exact hw this.symm

/-! ### The format -/

/-- the format with given fields -/
def fissStr (y j h m s f : Nat) : Str :=
  fixedDigits 4 y ++ fixedDigits 3 j ++ c!"T" ++ fixedDigits 2 h ++ fixedDigits 2 m ++ fixedDigits 2 s ++ c!"." ++
    fixedDigits 4 f ++ c!"Z"

/-- the time of given fields -/
def fissTime (y j h m s f : Nat) : Int :=
  (((daysBeforeYear y + j - 1) * 86400 + (h * 3600 + m * 60 + s : Nat)) * 10000 + f) * 100000

/-- fields that are a date -/
structure FissOk (y j h m s f : Nat) : Prop where
  y0 : 1 ≤ y
  y1 : y < 10000
  j0 : 1 ≤ j
  j1 : (j : Int) ≤ yearLength y
  h1 : h < 24
  m1 : m < 60
  s1 : s < 60
  f1 : f < 10000

theorem FissOk.j2 {y j h m s f : Nat} (hf : FissOk y j h m s f) : j < 1000 := by
  have h1 := hf.j1
  have h2 := (yearLength_pos y).2
  omega

theorem parse_fissStr (old : Bool) {y j h m s f : Nat} (hf : FissOk y j h m s f) :
    parseFissures old (fissStr y j h m s f) =
      if old = true ∧ j = 360 then .error .valueError else .ok (fissTime y j h m s f) := by
  obtain ⟨y0, y1, j0, j1, h1, m1, s1, f1⟩ := hf
  have hj2 := (yearLength_pos y).2
  unfold parseFissures
  rw [show (fissStr y j h m s f).take 4 = fixedDigits 4 y from rfl,
    show ((fissStr y j h m s f).drop 4).take 3 = fixedDigits 3 j from rfl,
    show ((fissStr y j h m s f).drop 8).take 2 = fixedDigits 2 h from rfl,
    show ((fissStr y j h m s f).drop 10).take 2 = fixedDigits 2 m from rfl,
    show ((fissStr y j h m s f).drop 12).take 2 = fixedDigits 2 s from rfl,
    show ((fissStr y j h m s f).drop 15).take 4 = fixedDigits 4 f from rfl,
    show ((fissStr y j h m s f).drop 7).take 1 = c!"T" from rfl,
    show ((fissStr y j h m s f).drop 14).take 1 = c!"." from rfl,
    show (fissStr y j h m s f).drop 19 = c!"Z" from rfl,
    pyInt_fixedDigits 4 y (by decide) (by omega), pyInt_fixedDigits 3 j (by decide) (by omega),
    pyInt_fixedDigits 2 h (by decide) (by omega), pyInt_fixedDigits 2 m (by decide) (by omega),
    pyInt_fixedDigits 2 s (by decide) (by omega), pyInt_fixedDigits 4 f (by decide) (by omega)]
  simp only [bind, Except.bind, pure, Except.pure, ne_eq, not_true_eq_false, or_self, ↓reduceIte]
  rw [if_neg (by omega)]
  simp only [fissTime]
  split <;> rfl

theorem read_fissStr (old : Bool) {y j h m s f : Nat} (hf : FissOk y j h m s f) :
    readTime old (fissStr y j h m s f) = .ok (fissTime y j h m s f) := by
  unfold readTime
  rw [parse_fissStr old hf]
  by_cases hc : old = true ∧ j = 360
  · rw [if_pos hc]
    obtain ⟨rfl, rfl⟩ := hc
    simp only
    rw [if_pos (show ((fissStr y 360 h m s f).drop 4).take 4 = c!"360T" from rfl),
      show (fissStr y 360 h m s f).set 6 '1' = fissStr y 361 h m s f from rfl,
      parse_fissStr true ⟨hf.y0, hf.y1, by omega, by have := (yearLength_pos y).1; omega, hf.h1, hf.m1, hf.s1, hf.f1⟩,
      if_neg (by decide)]
    simp only [Except.map, fissTime]
    congr 1
    omega
  · rw [if_neg hc]

/-- times of the years 1 to 9999 -/
def InYears (t : Int) : Prop := 0 ≤ t ∧ t < daysBeforeYear 10000 * 86400000000000

instance (t : Int) : Decidable (InYears t) := by unfold InYears; infer_instance

theorem fissures_fields (t : Int) (ht : InYears t) : ∃ y j h m s f : Nat, FissOk y j h m s f ∧
    fissures t = fissStr y j h m s f ∧ fissTime y j h m s f = t / 100000 * 100000 := by
  obtain ⟨h0, h1⟩ := ht
  have hus : 0 ≤ t / 1000 := by omega
  obtain ⟨c1, c2, c3, c4, c5, c6, c7, c8⟩ := civilOf_spec (t / 1000) hus
  have hn := Int.emod_add_mul_ediv (t / 1000) dayUs
  have hr0 := Int.emod_nonneg (t / 1000) (b := dayUs) (by decide)
  have hr1 := Int.emod_lt_of_pos (t / 1000) (b := dayUs) (by decide)
  have hcu : ((civilOf (t / 1000)).us : Int) = t / 1000 % dayUs := by
    have : (civilOf (t / 1000)).us = (t / 1000 % dayUs).toNat := rfl
    rw [this]; omega
  have hday : (civilOf (t / 1000)).dayNo = t / 1000 / dayUs := by
    unfold Civil.abs at c7
    rw [hcu] at c7
    have : dayUs * (civilOf (t / 1000)).dayNo = dayUs * (t / 1000 / dayUs) := by
      rw [Int.mul_comm]; omega
    exact Int.eq_of_mul_eq_mul_left (by decide) this
  have hy : (civilOf (t / 1000)).year < 10000 := by
    apply Int.lt_of_not_ge
    intro hge
    have hle : daysBeforeYear 10000 ≤ daysBeforeYear (civilOf (t / 1000)).year := by
      rcases Int.lt_or_eq_of_le hge with h | h
      · have := daysBeforeYear_lt _ _ h; have := (yearLength_pos 10000).1; omega
      · rw [← h]
    unfold dayUs at *
    omega
  have hj1 : t / 1000 / dayUs < daysBeforeYear (civilOf (t / 1000)).year + yearLength (civilOf (t / 1000)).year := by
    rw [← hday]
    unfold Civil.dayNo
    have := daysBeforeMonth_succ (civilOf (t / 1000)).year (civilOf (t / 1000)).month c2
    have := daysBeforeMonth_mono (civilOf (t / 1000)).year ((civilOf (t / 1000)).month + 1) 13 (by omega) (by omega)
    rw [daysBeforeMonth_end] at this
    omega
  have hyn : ((civilOf (t / 1000)).year.toNat : Int) = (civilOf (t / 1000)).year := by omega
  refine ⟨_, _, _, _, _, _, ?_, rfl, ?_⟩
  · constructor
    · omega
    · omega
    · unfold julday; omega
    · rw [hyn]; unfold julday; omega
    · unfold dayUs at *; omega
    · omega
    · omega
    · omega
  · unfold fissTime
    rw [hyn]
    have hjn : ((julday (civilOf (t / 1000)).year (t / 1000 / dayUs)).toNat : Int) =
        t / 1000 / dayUs - daysBeforeYear (civilOf (t / 1000)).year + 1 := by unfold julday; omega
    rw [hjn]
    generalize (civilOf (t / 1000)).us = u at *
    generalize daysBeforeYear (civilOf (t / 1000)).year = Y at *
    unfold dayUs at *
    omega

/-- C101 (round trip): a time that is written to the database is read back exactly to 0.1 ms: it
is rounded down to a multiple of 0.1 ms. This holds with the versions of obspy that fail for day
360 and with the others.
Missing for the full property: `c101_precision_violated`. -/
theorem c101_round_trip_partial (old : Bool) (t : Int) (ht : InYears t) :
    ∃ r, readTime old (fissures t) = .ok r ∧ r ≤ t ∧ t < r + 100000 ∧ 100000 ∣ r := by
  obtain ⟨y, j, h, m, s, f, hok, hs, htime⟩ := fissures_fields t ht
  refine ⟨_, by rw [hs]; exact read_fissStr old hok, ?_⟩
  rw [htime]
  omega

/-- C101: times that are multiples of 0.1 ms survive unchanged.
Missing for the full property: `c101_precision_violated`. -/
theorem c101_exact_partial (old : Bool) (t : Int) (ht : InYears t) (hd : 100000 ∣ t) :
    readTime old (fissures t) = .ok t := by
  obtain ⟨y, j, h, m, s, f, hok, hs, htime⟩ := fissures_fields t ht
  rw [hs, read_fissStr old hok, htime]
  congr 1
  omega

/-- 26 December 2010, 12:30:35.045 -/
example : InYears ((((daysBeforeYear 2010 + 359) * 86400 + 45035) * 10000 + 450) * 100000) ∧
    fissures ((((daysBeforeYear 2010 + 359) * 86400 + 45035) * 10000 + 450) * 100000) = c!"2010360T123035.0450Z" := by
  decide +kernel

/-- C101: a time with a higher resolution is changed. -/
theorem c101_precision_violated : ∃ t r, InYears t ∧ readTime false (fissures t) = .ok r ∧ r ≠ t :=
  ⟨50000, 0, by decide, by decide +kernel, by decide⟩

/-! ### Order and uniqueness of the names -/

theorem block_le_block {a b x y : Str} (h : a.length = b.length) :
    a ++ x ≤ b ++ y ↔ a < b ∨ (a = b ∧ x ≤ y) := by
  induction a generalizing b with
  | nil =>
    cases b with
    | nil => simp
    | cons => simp at h
  | cons c a ih =>
    cases b with
    | nil => simp at h
    | cons d b =>
      simp only [List.cons_append, List.cons_le_cons_iff, List.cons_lt_cons_iff, List.cons.injEq,
        ih (b := b) (by simpa using h)]
      constructor
      · rintro (h1 | ⟨rfl, h1 | ⟨rfl, h1⟩⟩)
        · exact .inl (.inl h1)
        · exact .inl (.inr ⟨rfl, h1⟩)
        · exact .inr ⟨⟨rfl, rfl⟩, h1⟩
      · rintro ((h1 | ⟨rfl, h1⟩) | ⟨⟨rfl, rfl⟩, h1⟩)
        · exact .inl h1
        · exact .inr ⟨rfl, .inl h1⟩
        · exact .inr ⟨rfl, .inr ⟨rfl, h1⟩⟩

theorem digit_le : ∀ a, a < 10 → ∀ b, b < 10 → ([digitChar a] ≤ [digitChar b] ↔ a ≤ b) := by decide

theorem fixedDigits_inj {w n m : Nat} (hn : n < 10 ^ w) (hm : m < 10 ^ w) (h : fixedDigits w n = fixedDigits w m) : n = m := by
  rw [← digitsVal_fixedDigits w n hn, ← digitsVal_fixedDigits w m hm, h]

theorem fixedDigits_le {w n m : Nat} (hn : n < 10 ^ w) (hm : m < 10 ^ w) : fixedDigits w n ≤ fixedDigits w m ↔ n ≤ m := by
  induction w generalizing n m with
  | zero => simp at hn hm; subst hn; subst hm; simp
  | succ w ih =>
    have hn' : n / 10 < 10 ^ w := by rw [pow_succ] at hn; omega
    have hm' : m / 10 < 10 ^ w := by rw [pow_succ] at hm; omega
    rw [fixedDigits, fixedDigits, block_le_block (by rw [length_fixedDigits, length_fixedDigits]),
      digit_le _ (by omega) _ (by omega)]
    have h1 : fixedDigits w (n / 10) < fixedDigits w (m / 10) ↔ n / 10 < m / 10 := by
      rw [← List.not_le, ih hm' hn', Nat.not_le]
    have h2 : fixedDigits w (n / 10) = fixedDigits w (m / 10) ↔ n / 10 = m / 10 :=
      ⟨fixedDigits_inj hn' hm', fun h => by rw [h]⟩
    rw [h1, h2]
    omega

theorem fixedDigits_block {w n m : Nat} {x y : Str} (hn : n < 10 ^ w) (hm : m < 10 ^ w) :
    fixedDigits w n ++ x ≤ fixedDigits w m ++ y ↔ n < m ∨ (n = m ∧ x ≤ y) := by
  rw [block_le_block (by rw [length_fixedDigits, length_fixedDigits])]
  have h1 : fixedDigits w n < fixedDigits w m ↔ n < m := by rw [← List.not_le, fixedDigits_le hm hn, Nat.not_le]
  have h2 : fixedDigits w n = fixedDigits w m ↔ n = m := ⟨fixedDigits_inj hn hm, fun h => by rw [h]⟩
  rw [h1, h2]

theorem fissStr_le {y j h m s f y' j' h' m' s' f' : Nat} (a : FissOk y j h m s f) (b : FissOk y' j' h' m' s' f') :
    fissStr y j h m s f ≤ fissStr y' j' h' m' s' f' ↔ fissTime y j h m s f ≤ fissTime y' j' h' m' s' f' := by
  have haj := a.j2
  have hbj := b.j2
  obtain ⟨a1, a2, a3, a4, a5, a6, a7, a8⟩ := a
  obtain ⟨b1, b2, b3, b4, b5, b6, b7, b8⟩ := b
  have hT : ∀ (c : Char) (x y : Str), [c] ++ x ≤ [c] ++ y ↔ x ≤ y := by
    intro c x y; simp [List.cons_le_cons_iff]
  unfold fissStr
  simp only [List.append_assoc]
  rw [fixedDigits_block (by omega) (by omega), fixedDigits_block (by omega) (by omega), hT 'T',
    fixedDigits_block (by omega) (by omega), fixedDigits_block (by omega) (by omega), fixedDigits_block (by omega) (by omega),
    hT '.', fixedDigits_block (by omega) (by omega)]
  have hZ : (c!"Z" : Str) ≤ c!"Z" := by decide
  simp only [hZ, and_true]
  unfold fissTime
  rcases Nat.lt_trichotomy y y' with hy | hy | hy
  · have := daysBeforeYear_lt y y' (by omega)
    constructor
    · intro _; omega
    · intro _; exact .inl hy
  · subst hy
    omega
  · have := daysBeforeYear_lt y' y (by omega)
    constructor
    · intro h; omega
    · intro h; omega

/-- C102 (order): the alphabetical order of the names of time windows in the database is their
order in time. -/
theorem c102_order (t u : Int) (ht : InYears t) (hu : InYears u) :
    fissures t ≤ fissures u ↔ t / 100000 ≤ u / 100000 := by
  obtain ⟨y, j, h, m, s, f, hok, hs, htime⟩ := fissures_fields t ht
  obtain ⟨y', j', h', m', s', f', hok', hs', htime'⟩ := fissures_fields u hu
  rw [hs, hs', fissStr_le hok hok', htime, htime']
  omega

/-- C102 (names): two times have the same name iff they are in the same interval of 0.1 ms.
Missing for the full property: `c102_names_violated`. -/
theorem c102_names_partial (t u : Int) (ht : InYears t) (hu : InYears u) :
    fissures t = fissures u ↔ t / 100000 = u / 100000 := by
  constructor
  · intro h
    have h1 := (c102_order t u ht hu).1 (by rw [h]; exact List.le_refl _)
    have h2 := (c102_order u t hu ht).1 (by rw [h]; exact List.le_refl _)
    omega
  · intro h
    exact List.le_antisymm ((c102_order t u ht hu).2 (by omega)) ((c102_order u t hu ht).2 (by omega))

/-- C102: different times within 0.1 ms have the same name. -/
theorem c102_names_violated : ∃ t u, InYears t ∧ InYears u ∧ t ≠ u ∧ fissures t = fissures u :=
  ⟨0, 50000, by decide, by decide, by decide, by decide +kernel⟩

/-! ### Headers -/

/-- the entries of a header that are times -/
def headerTimes : List Str := [c!"corr_start", c!"corr_end", c!"starttime", c!"endtime"]

theorem mem_headerTimes (k : Str) : k ∈ headerTimes ↔ k ∈ storedTimeKeys := by
  unfold headerTimes storedTimeKeys
  simp only [List.mem_cons, List.not_mem_nil, or_false]
  tauto

/-- C101 (header): every entry of a header is read back: times with a resolution of 0.1 ms, lists
of strings, strings and numbers unchanged. Entries without a representation in HDF5 are missing;
no entry is added. `time` values are under the four time keys and `processing` is a list.
Missing for the full property: `c101_precision_violated`. -/
theorem c101_header_partial (old : Bool) (hd : List (Str × StoredVal))
    (h1 : ∀ k v, (k, v) ∈ hd → k ∈ headerTimes → ∃ t, v = .time t ∧ InYears t)
    (h2 : ∀ k t, (k, .time t) ∈ hd → k ∈ headerTimes)
    (h3 : ∀ v, (c!"processing", v) ∈ hd → v = .other ∨ ∃ l, v = .strs l) :
    readHeader old (writeHeader hd) = .ok (hd.filterMap fun e =>
      match e.2 with
      | .other => none
      | .time t => some (e.1, .time (t / 100000 * 100000))
      | v => some (e.1, v)) := by
  simp only [mem_headerTimes] at h1 h2
  induction hd with
  | nil => rfl
  | cons e hd ih =>
    have ih := ih (fun v h => h3 v (List.mem_cons_of_mem _ h)) (fun k v h => h1 k v (List.mem_cons_of_mem _ h))
      (fun k t h => h2 k t (List.mem_cons_of_mem _ h))
    obtain ⟨k, v⟩ := e
    have hstep : ∀ (a : StoredAttr) (w : StoredVal), toAttr v = some a → fromAttr old k a = .ok w →
        readHeader old (writeHeader ((k, v) :: hd)) =
          (readHeader old (writeHeader hd)).map fun l => (k, w) :: l := by
      intro a w ha hw
      unfold readHeader writeHeader
      simp only [List.filterMap_cons, ha, Option.map_some, List.mapM_cons, hw]
      simp only [bind, Except.bind, pure, Except.pure, Except.map]
    have hk : v ≠ .other → k ∈ storedTimeKeys → ∃ t, v = .time t ∧ InYears t := fun _ => h1 k v (List.mem_cons_self ..)
    by_cases hmem : k ∈ storedTimeKeys
    · obtain ⟨t, rfl, ht⟩ := h1 k v (List.mem_cons_self ..) hmem
      obtain ⟨y, j, h, m, s, f, hok, hs, htime⟩ := fissures_fields t ht
      rw [hstep (.str (fissures t)) (.time (t / 100000 * 100000)) rfl (by
        unfold fromAttr
        rw [if_pos hmem, hs]
        simp only
        rw [read_fissStr old hok, htime]
        rfl), ih]
      simp [Except.map]
    · cases v with
      | time t => exact absurd (h2 k t (List.mem_cons_self ..)) hmem
      | other =>
        have e : writeHeader ((k, StoredVal.other) :: hd) = writeHeader hd := by
          unfold writeHeader
          simp [toAttr]
        rw [e, ih]
        simp
      | str s =>
        have hp : k ≠ c!"processing" := by
          rintro rfl
          rcases h3 _ (List.mem_cons_self ..) with h | ⟨l, h⟩ <;> cases h
        rw [hstep (.str s) (.str s) rfl (by unfold fromAttr; rw [if_neg hmem, if_neg hp]), ih]
        simp [Except.map]
      | num s =>
        have hp : k ≠ c!"processing" := by
          rintro rfl
          rcases h3 _ (List.mem_cons_self ..) with h | ⟨l, h⟩ <;> cases h
        rw [hstep (.num s) (.num s) rfl (by unfold fromAttr; rw [if_neg hmem, if_neg hp]), ih]
        simp [Except.map]
      | strs s =>
        rw [hstep (.strs s) (.strs s) rfl (by unfold fromAttr; rw [if_neg hmem]; split <;> rfl), ih]
        simp [Except.map]

/-- a header with a time, a code, a list of operations and a missing azimuth -/
example : readHeader true (writeHeader [(c!"corr_start", .time 31016704500012345), (c!"station", .str c!"AB-CD"),
      (c!"processing", .strs [c!"trim"]), (c!"az", .other), (c!"sampling_rate", .num 25)]) =
    .ok [(c!"corr_start", .time 31016704500000000), (c!"station", .str c!"AB-CD"),
      (c!"processing", .strs [c!"trim"]), (c!"sampling_rate", .num 25)] := by decide +kernel

end SeisMIC
