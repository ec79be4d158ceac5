import Verif.Model.LapseWindow
import Verif.Props.Stretch
import Mathlib.Tactic.Linarith
import Mathlib.Tactic.FieldSimp
import Mathlib.Data.Rat.Floor

/-!
# C207: the lapse time window of a measurement holds the requested lags on both sides
-/

namespace SeisMIC

/-! ### Specification -/

/-- lags (in samples) on the requested side or sides of zero lag -/
def OnSide (sides : Str) (l : Int) : Prop := sides = c!"both" ∨ (sides = c!"left" ∧ l ≤ 0) ∨ (sides = c!"right" ∧ 0 ≤ l)

/-- the header of correlations with `E` samples before and after zero lag -/
def aroundZero (E : Nat) (sr : Rat) : LagStats := ⟨-(E : Rat) / sr, 2 * E + 1, sr⟩

/-! ### Lemmas -/

theorem ratFloor_eq (q : Rat) : q.floor = ⌊q⌋ := rfl

theorem ratCeil_eq (q : Rat) : q.ceil = ⌈q⌉ := by
  rw [Rat.ceil_eq_neg_floor_neg, ratFloor_eq, Int.floor_neg, neg_neg]

/-- the cut matrix: columns from `E - ⌈T⌉` to `E + ⌊T⌋` -/
theorem trim_columns (E : Nat) (sr : Rat) (hsr : 0 < sr) (t T : Rat) (hT : t * sr = T) (h0 : 0 ≤ T) (hE : T ≤ E) :
    (corrMatTrim [List.range (2 * E + 1)] (aroundZero E sr) (-t) t).1 = [(List.range (⌈T⌉ + ⌊T⌋ + 1).toNat).map fun j => (E - ⌈T⌉).toNat + j] ∧
    (corrMatTrim [List.range (2 * E + 1)] (aroundZero E sr) (-t) t).2.npts = (⌈T⌉ + ⌊T⌋ + 1).toNat ∧
    (corrMatTrim [List.range (2 * E + 1)] (aroundZero E sr) (-t) t).2.sr = sr := by
  have e1 : ((-t - (aroundZero E sr).startLag) * (aroundZero E sr).sr).floor = (E : Int) - ⌈T⌉ := by
    show ((-t - -(E : Rat) / sr) * sr).floor = _
    rw [show (-t - -(E : Rat) / sr) * sr = (E : Rat) + -T by rw [← hT]; field_simp; ring, ratFloor_eq]
    rw [show ((E : Rat) + -T) = ((E : Int) : Rat) + -T by push_cast; ring, Int.floor_intCast_add, Int.floor_neg]
    ring
  have e2 : ((t - (aroundZero E sr).startLag) * (aroundZero E sr).sr).floor = (E : Int) + ⌊T⌋ := by
    show ((t - -(E : Rat) / sr) * sr).floor = _
    rw [show (t - -(E : Rat) / sr) * sr = (E : Rat) + T by rw [← hT]; field_simp; ring, ratFloor_eq]
    rw [show ((E : Rat) + T) = ((E : Int) : Rat) + T by push_cast; ring, Int.floor_intCast_add]
  have c1 : ⌈T⌉ ≤ (E : Int) := Int.ceil_le.2 (by exact_mod_cast hE)
  have c2 : 0 ≤ ⌊T⌋ := Int.floor_nonneg.2 h0
  have c3 : ⌊T⌋ ≤ (E : Int) := by
    have := Int.floor_le T
    have : (⌊T⌋ : Rat) ≤ E := by linarith
    exact_mod_cast this
  have c4 : 0 ≤ ⌈T⌉ := Int.ceil_nonneg h0
  have e3 : (aroundZero E sr).npts = 2 * E + 1 := rfl
  have hsl : pySlice (List.range (2 * E + 1)) (some ((E : Int) - ⌈T⌉)) (some ((E : Int) + ⌊T⌋ + 1)) =
      (List.range (⌈T⌉ + ⌊T⌋ + 1).toNat).map fun j => (E - ⌈T⌉).toNat + j := by
    simp only [pySlice, sliceBound, List.length_range]
    rw [if_neg (by omega), if_neg (by omega)]
    refine List.ext_getElem ?_ fun i h1 h2 => ?_
    · simp
      omega
    · simp only [List.getElem_take, List.getElem_drop, List.getElem_range, List.getElem_map]
      omega
  unfold corrMatTrim
  simp only [e1, e2, e3]
  rw [if_neg (by omega), if_neg (by omega)]
  simp only [List.map_cons, List.map_nil, hsl]
  refine ⟨by trivial, by simp, rfl⟩

theorem center_columns (T : Rat) (h0 : 0 ≤ T) : centerP (⌈T⌉ + ⌊T⌋ + 1).toNat = ⌊T⌋ := by
  unfold centerP
  have c2 : 0 ≤ ⌊T⌋ := Int.floor_nonneg.2 h0
  have h1 := Int.ceil_le_floor_add_one T
  have h2 := Int.floor_le_ceil T
  omega

theorem truncInt_right (c : Int) (x : Rat) (hx : 0 ≤ x) (hc : 0 ≤ c) : truncInt (c + x) = c + ⌊x⌋ := by
  unfold truncInt
  have : (0 : Rat) ≤ c := by exact_mod_cast hc
  rw [if_neg (by linarith), ratFloor_eq, Int.floor_intCast_add]

theorem truncInt_left (c : Int) (x : Rat) (hx : x < c + 1) : truncInt (c - x) = max 0 (c - ⌈x⌉) := by
  unfold truncInt
  split
  · rename_i h
    have h1 : ⌈(c : Rat) - x⌉ = 0 := by
      rw [Int.ceil_eq_iff]
      constructor
      · push_cast; linarith
      · push_cast; linarith
    have h2 : c < ⌈x⌉ := Int.lt_ceil.2 (by linarith)
    rw [ratCeil_eq, h1]
    omega
  · rename_i h
    have h1 : ⌈x⌉ ≤ c := Int.ceil_le.2 (by linarith)
    rw [ratFloor_eq, sub_eq_add_neg, Int.floor_intCast_add, Int.floor_neg]
    omega

theorem mem_arangeQ (a b x : Rat) : x ∈ arangeQ a b ↔ ∃ k : Nat, x = a + k ∧ x < b := by
  unfold arangeQ
  rw [List.mem_map]
  constructor
  · rintro ⟨k, hk, rfl⟩
    rw [List.mem_range] at hk
    have : (k : Int) < (b - a).ceil := by omega
    rw [ratCeil_eq, Int.lt_ceil] at this
    refine ⟨k, rfl, ?_⟩
    push_cast at this
    linarith
  · rintro ⟨k, rfl, h⟩
    refine ⟨k, ?_, rfl⟩
    rw [List.mem_range]
    have : (k : Int) < (b - a).ceil := by
      rw [ratCeil_eq, Int.lt_ceil]
      push_cast
      linarith
    omega

/-- the columns that are used, for any window inside of the correlations -/
theorem mem_usedColumns (E : Nat) (sr : Rat) (hsr : 0 < sr) (t0 len a T : Rat) (ha : t0 * sr = a) (hT : (t0 + len) * sr = T) (h0 : 0 ≤ a) (haT : a < T) (hE : T ≤ E)
    (sides : Str) (hs : sides = c!"both" ∨ sides = c!"left" ∨ sides = c!"right") :
    ∃ l, usedColumns (aroundZero E sr) t0 len sides = .ok l ∧ ∀ i : Nat, i ∈ l ↔
      ((sides = c!"both" ∨ sides = c!"left") ∧ ∃ k : Nat, a + k < T ∧ (i : Int) = E - ⌈T⌉ + max 0 (⌊T⌋ - ⌈a + k⌉)) ∨
      ((sides = c!"both" ∨ sides = c!"right") ∧ ∃ k : Nat, a + k < T ∧ (i : Int) = E - ⌈T⌉ + (⌊T⌋ + ⌊a + k⌋)) := by
  have hT0 : 0 ≤ T := by linarith
  obtain ⟨t1, t2, t3⟩ := trim_columns E sr hsr (t0 + len) T hT hT0 hE
  have c1 : ⌈T⌉ ≤ (E : Int) := Int.ceil_le.2 (by exact_mod_cast hE)
  have c2 : 0 ≤ ⌊T⌋ := Int.floor_nonneg.2 hT0
  have c4 := Int.floor_le_ceil T
  have hcen := center_columns T hT0
  set n := (⌈T⌉ + ⌊T⌋ + 1).toNat with hn
  have hlt : T < (⌊T⌋ : Rat) + 1 := Int.lt_floor_add_one T
  have hleft : ∀ x ∈ arangeQ a T, truncInt ((⌊T⌋ : Rat) - x) = max 0 (⌊T⌋ - ⌈x⌉) := by
    intro x hx
    obtain ⟨k, -, h⟩ := (mem_arangeQ a T x).1 hx
    exact truncInt_left _ _ (by linarith)
  have hright : ∀ x ∈ arangeQ a T, truncInt ((⌊T⌋ : Rat) + x) = ⌊T⌋ + ⌊x⌋ := by
    intro x hx
    obtain ⟨k, rfl, h⟩ := (mem_arangeQ a T x).1 hx
    exact truncInt_right _ _ (by have := Nat.cast_nonneg (α := Rat) k; linarith) c2
  have hidx : ∃ idx, windowIdxQ sides n (arangeQ a T) = .ok idx ∧ ∀ y, y ∈ idx ↔
      ((sides = c!"both" ∨ sides = c!"left") ∧ ∃ x ∈ arangeQ a T, y = max 0 (⌊T⌋ - ⌈x⌉)) ∨
      ((sides = c!"both" ∨ sides = c!"right") ∧ ∃ x ∈ arangeQ a T, y = ⌊T⌋ + ⌊x⌋) := by
    have ml : ∀ y, y ∈ ((arangeQ a T).reverse.map fun k => (⌊T⌋ : Rat) - k).map truncInt ↔ ∃ x ∈ arangeQ a T, y = max 0 (⌊T⌋ - ⌈x⌉) := by
      intro y
      simp only [List.mem_map, List.mem_reverse, exists_exists_and_eq_and]
      constructor
      · rintro ⟨x, hx, rfl⟩
        exact ⟨x, hx, hleft x hx⟩
      · rintro ⟨x, hx, rfl⟩
        exact ⟨x, hx, hleft x hx⟩
    have mr : ∀ y, y ∈ ((arangeQ a T).map fun k => (⌊T⌋ : Rat) + k).map truncInt ↔ ∃ x ∈ arangeQ a T, y = ⌊T⌋ + ⌊x⌋ := by
      intro y
      simp only [List.mem_map, exists_exists_and_eq_and]
      constructor
      · rintro ⟨x, hx, rfl⟩
        exact ⟨x, hx, hright x hx⟩
      · rintro ⟨x, hx, rfl⟩
        exact ⟨x, hx, hright x hx⟩
    unfold windowIdxQ
    rw [hcen]
    simp only
    rcases hs with rfl | rfl | rfl
    · rw [if_pos rfl]
      cases hw : arangeQ a T with
      | nil =>
        exfalso
        have : a ∈ arangeQ a T := (mem_arangeQ a T a).2 ⟨0, by simp, haT⟩
        rw [hw] at this
        simp at this
      | cons k0 rest =>
        simp only
        split
        · rename_i hk0
          refine ⟨_, rfl, fun y => ?_⟩
          rw [List.map_append, List.mem_append, ← hw, ml y]
          simp only [true_or, true_and]
          constructor
          · rintro (h | h)
            · exact .inl h
            · refine .inr ((mr y).1 ?_)
              rw [hw, List.map_cons, List.map_cons]
              exact List.mem_cons_of_mem _ h
          · rintro (h | h)
            · exact .inl h
            · have := (mr y).2 h
              rw [hw, List.map_cons, List.map_cons, List.mem_cons] at this
              rcases this with h | h
              · left
                refine ⟨k0, by rw [hw]; simp, ?_⟩
                rw [h, hk0, add_zero]
                have : truncInt ((⌊T⌋ : Int) : Rat) = ⌊T⌋ := by
                  have := truncInt_right ⌊T⌋ 0 le_rfl c2
                  simpa using this
                rw [this]
                simp
                omega
              · exact .inr h
        · refine ⟨_, rfl, fun y => ?_⟩
          rw [List.map_append, List.mem_append, ← hw, ml y, mr y]
          simp only [true_or, true_and]
    · rw [if_neg (by decide), if_pos rfl]
      refine ⟨_, rfl, fun y => ?_⟩
      rw [ml y]
      simp
    · rw [if_neg (by decide), if_neg (by decide), if_pos rfl]
      refine ⟨_, rfl, fun y => ?_⟩
      rw [mr y]
      simp
  obtain ⟨idx, hi1, hi2⟩ := hidx
  have hbound : ∀ y ∈ idx, 0 ≤ y ∧ y < n := by
    intro y hy
    rcases (hi2 y).1 hy with ⟨-, x, hx, rfl⟩ | ⟨-, x, hx, rfl⟩
    · obtain ⟨k, rfl, h⟩ := (mem_arangeQ a T x).1 hx
      have : 0 ≤ ⌈a + (k : Rat)⌉ := Int.ceil_nonneg (by have := Nat.cast_nonneg (α := Rat) k; linarith)
      omega
    · obtain ⟨k, rfl, h⟩ := (mem_arangeQ a T x).1 hx
      have g1 : 0 ≤ ⌊a + (k : Rat)⌋ := Int.floor_nonneg.2 (by have := Nat.cast_nonneg (α := Rat) k; linarith)
      have g2 : ⌊a + (k : Rat)⌋ ≤ ⌊T⌋ := Int.floor_le_floor h.le
      omega
  unfold usedColumns
  have hnp : (aroundZero E sr).npts = 2 * E + 1 := rfl
  rw [hnp]
  simp only [t1, t2, t3, ha, hT, hi1, bind, Except.bind, maskOf_ok n idx hbound]
  refine ⟨_, rfl, fun i => ?_⟩
  have hz : ∀ i : Nat, i ∈ (((([(List.range n).map fun j => ((E : Int) - ⌈T⌉).toNat + j] : List (List Nat)).headD []).zip
      ((List.range n).map fun i : Nat => decide ((i : Int) ∈ idx))).filter fun cm => cm.2).map Prod.fst ↔
      ∃ j : Nat, j < n ∧ (j : Int) ∈ idx ∧ i = ((E : Int) - ⌈T⌉).toNat + j := by
    intro i
    rw [List.headD_cons, List.zip_map', List.mem_map]
    constructor
    · rintro ⟨⟨c, m⟩, h1, rfl⟩
      rw [List.mem_filter, List.mem_map] at h1
      obtain ⟨⟨j, hj, he⟩, h2⟩ := h1
      simp only [Prod.mk.injEq] at he
      refine ⟨j, List.mem_range.1 hj, ?_, he.1.symm⟩
      simp only at h2
      rw [← he.2] at h2
      exact of_decide_eq_true h2
    · rintro ⟨j, hj, hm, rfl⟩
      refine ⟨(((E : Int) - ⌈T⌉).toNat + j, decide ((j : Int) ∈ idx)), ?_, rfl⟩
      rw [List.mem_filter, List.mem_map]
      exact ⟨⟨j, List.mem_range.2 hj, rfl⟩, by simpa using hm⟩
  rw [hz i]
  have hex : (∃ j : Nat, j < n ∧ (j : Int) ∈ idx ∧ i = ((E : Int) - ⌈T⌉).toNat + j) ↔ ∃ y ∈ idx, (i : Int) = E - ⌈T⌉ + y := by
    constructor
    · rintro ⟨j, -, h1, h2⟩
      exact ⟨j, h1, by omega⟩
    · rintro ⟨y, h1, h2⟩
      have := hbound y h1
      refine ⟨y.toNat, by omega, ?_, by omega⟩
      rwa [Int.toNat_of_nonneg this.1]
  rw [hex]
  constructor
  · rintro ⟨y, hy, he⟩
    rcases (hi2 y).1 hy with ⟨hs', x, hx, rfl⟩ | ⟨hs', x, hx, rfl⟩
    · obtain ⟨k, rfl, h⟩ := (mem_arangeQ a T x).1 hx
      exact .inl ⟨hs', k, h, he⟩
    · obtain ⟨k, rfl, h⟩ := (mem_arangeQ a T x).1 hx
      exact .inr ⟨hs', k, h, he⟩
  · rintro (⟨hs', k, h, he⟩ | ⟨hs', k, h, he⟩)
    · exact ⟨_, (hi2 _).2 (.inl ⟨hs', a + k, (mem_arangeQ a T _).2 ⟨k, rfl, h⟩, rfl⟩), he⟩
    · exact ⟨_, (hi2 _).2 (.inr ⟨hs', a + k, (mem_arangeQ a T _).2 ⟨k, rfl, h⟩, rfl⟩), he⟩

/-! ### Theorems -/

/-- **C207** Full statement: a measurement in a lapse time window from `tw_start` to `tw_start + tw_len` uses the samples whose lags are in the window, on the requested
side or on both sides.
Proved for windows that begin and end on samples `a` and `T`. Missing: other windows, see `c207_between_samples_violated` and `c207_close`. -/
theorem c207_whole_partial (E : Nat) (sr : Rat) (hsr : 0 < sr) (t0 len : Rat) (a T : Nat) (ha : t0 * sr = a) (hT : (t0 + len) * sr = T) (haT : a < T) (hE : T ≤ E)
    (sides : Str) (hs : sides = c!"both" ∨ sides = c!"left" ∨ sides = c!"right") :
    ∃ l, usedColumns (aroundZero E sr) t0 len sides = .ok l ∧
      ∀ i : Nat, i ∈ l ↔ OnSide sides ((i : Int) - E) ∧ (a : Int) ≤ |(i : Int) - E| ∧ |(i : Int) - E| < T := by
  obtain ⟨l, h1, h2⟩ := mem_usedColumns E sr hsr t0 len a T ha hT (by positivity) (by exact_mod_cast haT) (by exact_mod_cast hE) sides hs
  refine ⟨l, h1, fun i => ?_⟩
  rw [h2 i]
  have hc : ⌈(T : Rat)⌉ = (T : Int) := by simp
  have hf : ⌊(T : Rat)⌋ = (T : Int) := by simp
  have hck : ∀ k : Nat, ⌈(a : Rat) + k⌉ = (a : Int) + k := by
    intro k
    rw [show (a : Rat) + k = (((a : Int) + k : Int) : Rat) by push_cast; ring, Int.ceil_intCast]
  have hfk : ∀ k : Nat, ⌊(a : Rat) + k⌋ = (a : Int) + k := by
    intro k
    rw [show (a : Rat) + k = (((a : Int) + k : Int) : Rat) by push_cast; ring, Int.floor_intCast]
  have hlt : ∀ k : Nat, ((a : Rat) + k < T) ↔ a + k < T := by intro k; exact_mod_cast Iff.rfl
  simp only [hc, hf, hck, hfk, hlt]
  unfold OnSide
  constructor
  · rintro (⟨hs', k, hk, he⟩ | ⟨hs', k, hk, he⟩)
    · refine ⟨?_, ?_, ?_⟩
      · rcases hs' with h | h
        · exact .inl h
        · exact .inr (.inl ⟨h, by omega⟩)
      · rw [le_abs]; omega
      · rw [abs_lt]; omega
    · refine ⟨?_, ?_, ?_⟩
      · rcases hs' with h | h
        · exact .inl h
        · exact .inr (.inr ⟨h, by omega⟩)
      · rw [le_abs]; omega
      · rw [abs_lt]; omega
  · rintro ⟨hs', g1, g2⟩
    rw [abs_lt] at g2
    rcases le_total ((i : Int) - E) 0 with hneg | hpos
    · rw [abs_of_nonpos hneg] at g1
      rcases hs' with h | ⟨h, -⟩ | ⟨h, h0⟩
      · exact .inl ⟨.inl h, (E - i - a : Int).toNat, by omega, by omega⟩
      · exact .inl ⟨.inr h, (E - i - a : Int).toNat, by omega, by omega⟩
      · exact .inr ⟨.inr h, (i - E - a : Int).toNat, by omega, by omega⟩
    · rw [abs_of_nonneg hpos] at g1
      rcases hs' with h | ⟨h, h0⟩ | ⟨h, -⟩
      · exact .inr ⟨.inl h, (i - E - a : Int).toNat, by omega, by omega⟩
      · exact .inl ⟨.inr h, (E - i - a : Int).toNat, by omega, by omega⟩
      · exact .inr ⟨.inr h, (i - E - a : Int).toNat, by omega, by omega⟩

/-- a window from 0.48 s to 2.48 s at 25 Hz -/
example : (12 / 25 : Rat) * 25 = (12 : Nat) ∧ ((12 / 25 : Rat) + 2) * 25 = (62 : Nat) ∧ 12 < 62 ∧ 62 ≤ 100 ∧
    (∃ l, usedColumns (aroundZero 100 25) (12 / 25) 2 c!"both" = .ok l ∧ 100 - 12 ∈ l ∧ 100 + 12 ∈ l ∧ 100 + 11 ∉ l ∧ 100 + 61 ∈ l ∧ 100 + 62 ∉ l) := by
  obtain ⟨l, h1, h2⟩ := c207_whole_partial 100 25 (by norm_num) (12 / 25) 2 12 62 (by norm_num) (by norm_num) (by norm_num) (by norm_num) c!"both" (.inl rfl)
  refine ⟨by norm_num, by norm_num, by norm_num, by norm_num, l, h1, ?_⟩
  simp only [h2]
  unfold OnSide
  simp

/-- **C207** (all windows). For windows that begin or end between two samples, at `a` and `T` samples: no sample that is two or more samples outside of the window is used, and all samples
of the requested sides that are three or more samples inside are used. -/
theorem c207_close (E : Nat) (sr : Rat) (hsr : 0 < sr) (t0 len a T : Rat) (ha : t0 * sr = a) (hT : (t0 + len) * sr = T) (h0 : 0 ≤ a) (haT : a < T) (hE : T ≤ E)
    (sides : Str) (hs : sides = c!"both" ∨ sides = c!"left" ∨ sides = c!"right") :
    ∃ l, usedColumns (aroundZero E sr) t0 len sides = .ok l ∧
      (∀ i : Nat, i ∈ l → (OnSide sides ((i : Int) - E) ∨ (i : Int) - E = -1) ∧ a - 2 < |(i : Rat) - E| ∧ |(i : Rat) - E| < T + 2) ∧
      ∀ i : Nat, OnSide sides ((i : Int) - E) → a + 3 ≤ |(i : Rat) - E| → |(i : Rat) - E| ≤ T - 3 → i ∈ l := by
  obtain ⟨l, h1, h2⟩ := mem_usedColumns E sr hsr t0 len a T ha hT h0 haT hE sides hs
  have c1 := Int.ceil_le_floor_add_one T
  have c2 := Int.floor_le_ceil T
  have c3 : (⌊T⌋ : Rat) ≤ T := Int.floor_le T
  have c4 : T < ⌊T⌋ + 1 := Int.lt_floor_add_one T
  have c5 : T ≤ ⌈T⌉ := Int.le_ceil T
  have c6 : (⌈T⌉ : Rat) < T + 1 := Int.ceil_lt_add_one T
  have c0 : 0 ≤ ⌊T⌋ := Int.floor_nonneg.2 (by linarith)
  have c1' : (⌈T⌉ : Rat) ≤ ⌊T⌋ + 1 := by exact_mod_cast c1
  have c2' : (⌊T⌋ : Rat) ≤ ⌈T⌉ := by exact_mod_cast c2
  refine ⟨l, h1, ?_, ?_⟩
  · intro i hi
    rcases (h2 i).1 hi with ⟨hs', k, hk, he⟩ | ⟨hs', k, hk, he⟩
    · have d1 : a + k ≤ ⌈a + (k : Rat)⌉ := Int.le_ceil _
      have d2 : (⌈a + (k : Rat)⌉ : Rat) < a + k + 1 := Int.ceil_lt_add_one _
      have dk : (0 : Rat) ≤ k := Nat.cast_nonneg k
      have d3 : 0 ≤ ⌈a + (k : Rat)⌉ := Int.ceil_nonneg (by linarith)
      refine ⟨.inl ?_, ?_⟩
      · rcases hs' with h | h
        · exact .inl h
        · exact .inr (.inl ⟨h, by omega⟩)
      · rcases le_total (⌊T⌋ - ⌈a + (k : Rat)⌉) 0 with hm | hm
        · rw [max_eq_left hm, add_zero] at he
          have he' : (i : Rat) - E = -⌈T⌉ := by
            have : ((i : Int) : Rat) = ((E - ⌈T⌉ : Int) : Rat) := by rw [he]
            push_cast at this
            linarith
          rw [he', abs_neg, abs_of_nonneg (by linarith)]
          exact ⟨by linarith, by linarith⟩
        · rw [max_eq_right hm] at he
          have he' : (i : Rat) - E = -((⌈T⌉ : Rat) - ⌊T⌋ + ⌈a + (k : Rat)⌉) := by
            have : ((i : Int) : Rat) = ((E - ⌈T⌉ + (⌊T⌋ - ⌈a + (k : Rat)⌉) : Int) : Rat) := by rw [he]
            push_cast at this
            linarith
          have dn : (0 : Rat) ≤ ⌈a + (k : Rat)⌉ := by exact_mod_cast d3
          rw [he', abs_neg, abs_of_nonneg (by linarith)]
          exact ⟨by linarith, by linarith⟩
    · have d1 : (⌊a + (k : Rat)⌋ : Rat) ≤ a + k := Int.floor_le _
      have d2 : a + k < (⌊a + (k : Rat)⌋ : Rat) + 1 := Int.lt_floor_add_one _
      have dk : (0 : Rat) ≤ k := Nat.cast_nonneg k
      have d3 : 0 ≤ ⌊a + (k : Rat)⌋ := Int.floor_nonneg.2 (by linarith)
      refine ⟨?_, ?_⟩
      · rcases hs' with h | h
        · exact .inl (.inl h)
        · by_cases hz : (i : Int) - E = -1
          · exact .inr hz
          · exact .inl (.inr (.inr ⟨h, by omega⟩))
      · have he' : (i : Rat) - E = (⌊T⌋ : Rat) - ⌈T⌉ + ⌊a + (k : Rat)⌋ := by
          have : ((i : Int) : Rat) = ((E - ⌈T⌉ + (⌊T⌋ + ⌊a + (k : Rat)⌋) : Int) : Rat) := by rw [he]
          push_cast at this
          linarith
        rw [he']
        have dn : (0 : Rat) ≤ ⌊a + (k : Rat)⌋ := by exact_mod_cast d3
        constructor
        · exact lt_of_lt_of_le (by linarith) (le_abs_self _)
        · rw [abs_lt]
          exact ⟨by linarith, by linarith⟩
  · intro i hon g1 g2
    rw [h2 i]
    have right : 0 ≤ (i : Int) - E → ∃ k : Nat, a + k < T ∧ (i : Int) = E - ⌈T⌉ + (⌊T⌋ + ⌊a + (k : Rat)⌋) := by
      intro hpos
      have hpos' : (0 : Rat) ≤ (i : Rat) - E := by exact_mod_cast hpos
      rw [abs_of_nonneg hpos'] at g1 g2
      have f1 : (⌊a⌋ : Rat) ≤ a := Int.floor_le a
      have f2 : a < ⌊a⌋ + 1 := Int.lt_floor_add_one a
      have hk0 : (0 : Rat) ≤ (((i : Int) - E + ⌈T⌉ - ⌊T⌋ - ⌊a⌋ : Int) : Rat) := by push_cast; linarith
      have hk0' : 0 ≤ (i : Int) - E + ⌈T⌉ - ⌊T⌋ - ⌊a⌋ := by exact_mod_cast hk0
      refine ⟨((i : Int) - E + ⌈T⌉ - ⌊T⌋ - ⌊a⌋).toNat, ?_, ?_⟩
      · have : ((((i : Int) - E + ⌈T⌉ - ⌊T⌋ - ⌊a⌋).toNat : Nat) : Rat) = (((i : Int) - E + ⌈T⌉ - ⌊T⌋ - ⌊a⌋ : Int) : Rat) := by
          have hz := Int.toNat_of_nonneg hk0'
          exact_mod_cast congrArg (Int.cast : Int → Rat) hz
        rw [this]
        push_cast
        linarith
      · rw [Int.floor_add_natCast]
        omega
    have left : (i : Int) - E ≤ 0 → ∃ k : Nat, a + k < T ∧ (i : Int) = E - ⌈T⌉ + max 0 (⌊T⌋ - ⌈a + (k : Rat)⌉) := by
      intro hneg
      have hneg' : (i : Rat) - E ≤ 0 := by exact_mod_cast hneg
      rw [abs_of_nonpos hneg'] at g1 g2
      have f1 : a ≤ ⌈a⌉ := Int.le_ceil a
      have f2 : (⌈a⌉ : Rat) < a + 1 := Int.ceil_lt_add_one a
      have hk0 : (0 : Rat) ≤ (((E : Int) - i - ⌈T⌉ + ⌊T⌋ - ⌈a⌉ : Int) : Rat) := by push_cast; linarith
      have hk0' : 0 ≤ (E : Int) - i - ⌈T⌉ + ⌊T⌋ - ⌈a⌉ := by exact_mod_cast hk0
      have hi0 : (0 : Rat) ≤ ((i : Int) - E + ⌈T⌉ : Int) := by push_cast; linarith
      have hi0' : 0 ≤ (i : Int) - E + ⌈T⌉ := by exact_mod_cast hi0
      refine ⟨((E : Int) - i - ⌈T⌉ + ⌊T⌋ - ⌈a⌉).toNat, ?_, ?_⟩
      · have : ((((E : Int) - i - ⌈T⌉ + ⌊T⌋ - ⌈a⌉).toNat : Nat) : Rat) = (((E : Int) - i - ⌈T⌉ + ⌊T⌋ - ⌈a⌉ : Int) : Rat) := by
          have hz := Int.toNat_of_nonneg hk0'
          exact_mod_cast congrArg (Int.cast : Int → Rat) hz
        rw [this]
        push_cast
        linarith
      · rw [Int.ceil_add_natCast]
        omega
    rcases hon with h | ⟨h, hl⟩ | ⟨h, hl⟩
    · rcases le_total ((i : Int) - E) 0 with hl | hl
      · exact .inl ⟨.inl h, left hl⟩
      · exact .inr ⟨.inl h, right hl⟩
    · exact .inl ⟨.inr h, left hl⟩
    · exact .inr ⟨.inr h, right hl⟩

/-- **C207 is violated**: a window from 0.5 s to 2.5 s at 25 Hz, that is from 12.5 to 62.5 samples. Used are the lags from 11 to 60 samples and from -63 to -14 samples, instead of 13
to 62 samples on both sides: samples before the window enter, samples of the window do not, and the two sides differ by three samples. -/
theorem c207_between_samples_violated :
    ∃ l, usedColumns (aroundZero 100 25) (1 / 2) 2 c!"both" = .ok l ∧
      ∀ i : Nat, i ∈ l ↔ (11 ≤ (i : Int) - 100 ∧ (i : Int) - 100 ≤ 60) ∨ (-63 ≤ (i : Int) - 100 ∧ (i : Int) - 100 ≤ -14) := by
  obtain ⟨l, h1, h2⟩ := mem_usedColumns 100 25 (by norm_num) (1 / 2) 2 (25 / 2) (125 / 2) (by norm_num) (by norm_num) (by norm_num) (by norm_num) (by norm_num) c!"both" (.inl rfl)
  refine ⟨l, h1, fun i => ?_⟩
  rw [h2 i]
  have hc : ⌈(125 / 2 : Rat)⌉ = 63 := by norm_num
  have hf : ⌊(125 / 2 : Rat)⌋ = 62 := by norm_num
  have hck : ∀ k : Nat, ⌈(25 / 2 : Rat) + k⌉ = 13 + k := by
    intro k
    rw [Int.ceil_add_natCast]
    norm_num
  have hfk : ∀ k : Nat, ⌊(25 / 2 : Rat) + k⌋ = 12 + k := by
    intro k
    rw [Int.floor_add_natCast]
    norm_num
  have hlt : ∀ k : Nat, ((25 / 2 : Rat) + k < 125 / 2) ↔ k < 50 := by
    intro k
    constructor
    · intro h
      have : (k : Rat) < 50 := by linarith
      exact_mod_cast this
    · intro h
      have : (k : Rat) < 50 := by exact_mod_cast h
      linarith
  simp only [hc, hf, hck, hfk, hlt, true_or, true_and]
  constructor
  · rintro (⟨k, hk, he⟩ | ⟨k, hk, he⟩)
    · right; push_cast at he; omega
    · left; push_cast at he; omega
  · rintro (⟨g1, g2⟩ | ⟨g1, g2⟩)
    · exact .inr ⟨(i - 111 : Int).toNat, by omega, by push_cast; omega⟩
    · exact .inl ⟨(86 - i : Int).toNat, by omega, by push_cast; omega⟩

end SeisMIC
