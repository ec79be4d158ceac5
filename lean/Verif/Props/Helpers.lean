import Verif.Model.Helpers
import Verif.Lemmas.TraceUtils
import Verif.Props.Taper
import Verif.Props.ShiftDv
import Mathlib.Tactic.Linarith
import Mathlib.Tactic.NormNum
import Mathlib.Tactic.FieldSimp
import Mathlib.Tactic.Ring
import Mathlib.Data.Rat.Floor

/-!
# C172, C173: helpers for missing values, rounding and trimming
-/

namespace SeisMIC

/-! ## C172: missing values -/

/-- the last number before position `i` is `a` at position `p` -/
def LastBefore (y : List F) (i p : Nat) (a : Rat) : Prop := p < i ∧ y[p]? = some (some a) ∧ ∀ k, p < k → k < i → y[k]? = some none

/-- the first number after position `i` is `b` at position `q` -/
def FirstAfter (y : List F) (i q : Nat) (b : Rat) : Prop := i < q ∧ y[q]? = some (some b) ∧ ∀ k, i < k → k < q → y[k]? = some none

theorem whereTrue_valid (y : List F) : whereTrue ((y.map (·.isNone)).map not) = (List.range y.length).filter fun i => !((y.map (·.isNone)).getD i false) := by
  unfold whereTrue
  rw [List.length_map, List.length_map]
  refine List.filter_congr fun i hi => ?_
  have : i < y.length := List.mem_range.1 hi
  simp [List.getD_eq_getElem?_getD, this]

theorem whereTrue_nan (y : List F) (i : Nat) : i ∈ whereTrue (y.map (·.isNone)) ↔ y[i]? = some none := by
  unfold whereTrue
  rw [List.mem_filter, List.mem_range, List.length_map, List.getD_eq_getElem?_getD, List.getElem?_map]
  cases h : y[i]? with
  | none => simp
  | some x =>
    have := (List.getElem?_eq_some_iff.1 h).1
    cases x <;> simp [this]

theorem foldl_set (at_ : List Nat) (g : Nat → F) (y : List F) :
    ((at_.zip (at_.map g)).foldl (fun y p => y.set p.1 p.2) y).length = y.length ∧
      ∀ i, ((at_.zip (at_.map g)).foldl (fun y p => y.set p.1 p.2) y)[i]? = if i ∈ at_ ∧ i < y.length then some (g i) else y[i]? := by
  induction at_ generalizing y with
  | nil => simp
  | cons k at_ ih =>
    obtain ⟨h1, h2⟩ := ih (y.set k (g k))
    simp only [List.map_cons, List.zip_cons_cons, List.foldl_cons]
    refine ⟨by rw [h1, List.length_set], fun i => ?_⟩
    rw [h2 i, List.length_set, List.getElem?_set]
    by_cases hi : i ∈ at_ <;> by_cases hk : k = i <;> by_cases hl : i < y.length <;> simp_all
    · exact fun h => absurd h.symm hk
    · omega

theorem validPairs_all (off : Nat) (A : List F) (i : Nat) (v : Rat) (h : A[i]? = some (some v)) : (off + i, v) ∈ validPairs off A := by
  induction A generalizing off i with
  | nil => simp at h
  | cons x A ih =>
    cases i with
    | zero =>
      simp at h
      subst h
      simp [validPairs]
    | succ i =>
      have := ih (off + 1) i (by simpa using h)
      rw [show off + 1 + i = off + (i + 1) by omega] at this
      cases x <;> simp [validPairs, this]

theorem validPairs_sorted (off : Nat) (A : List F) : (validPairs off A).Pairwise fun a b => a.1 < b.1 := by
  induction A generalizing off with
  | nil => exact List.Pairwise.nil
  | cons x A ih =>
    cases x with
    | none => exact ih _
    | some v =>
      refine List.Pairwise.cons (fun p hp => ?_) (ih _)
      have := (validPairs_mem _ _ _ hp).1
      simp only
      omega

theorem last_before (y : List F) (i p : Nat) (a : Rat) (h : LastBefore y i p a) :
    ((validPairs 0 y).filter fun r => decide (r.1 < i)).getLast? = some (p, a) := by
  have hm : (p, a) ∈ (validPairs 0 y).filter fun r => decide (r.1 < i) := by
    rw [List.mem_filter]
    exact ⟨by simpa using validPairs_all 0 y p a h.2.1, by simpa using h.1⟩
  cases hl : ((validPairs 0 y).filter fun r => decide (r.1 < i)).getLast? with
  | none => rw [List.getLast?_eq_none_iff.1 hl] at hm; simp at hm
  | some x =>
    have hx := List.mem_filter.1 (List.mem_of_getLast? hl)
    have hx1 := (validPairs_mem _ _ _ hx.1).2.2
    obtain ⟨l, hl'⟩ := List.getLast?_eq_some_iff.1 hl
    have hs := (validPairs_sorted 0 y).filter fun r => decide (r.1 < i)
    have hxi : x.1 < i := by simpa using hx.2
    rw [hl'] at hs hm
    rcases List.mem_append.1 hm with hm | hm
    · have := (List.pairwise_append.1 hs).2.2 _ hm x (by simp)
      have := h.2.2 x.1 this hxi
      simp only [Nat.sub_zero] at hx1
      rw [this] at hx1
      simp at hx1
    · simp at hm
      rw [hm]

theorem first_after (y : List F) (i q : Nat) (b : Rat) (h : FirstAfter y i q b) :
    ((validPairs 0 y).filter fun r => decide (i < r.1)).head? = some (q, b) := by
  have hm : (q, b) ∈ (validPairs 0 y).filter fun r => decide (i < r.1) := by
    rw [List.mem_filter]
    exact ⟨by simpa using validPairs_all 0 y q b h.2.1, by simpa using h.1⟩
  cases hl : ((validPairs 0 y).filter fun r => decide (i < r.1)) with
  | nil => rw [hl] at hm; simp at hm
  | cons x l =>
    have hx := List.mem_filter.1 (hl ▸ List.mem_cons_self : x ∈ (validPairs 0 y).filter fun r => decide (i < r.1))
    have hx1 := (validPairs_mem _ _ _ hx.1).2.2
    have hs := (validPairs_sorted 0 y).filter fun r => decide (i < r.1)
    have hxi : i < x.1 := by simpa using hx.2
    rw [hl] at hs hm
    rcases List.mem_cons.1 hm with hm | hm
    · rw [hm]; rfl
    · have := (List.pairwise_cons.1 hs).1 _ hm
      have := h.2.2 x.1 hxi this
      simp only [Nat.sub_zero] at hx1
      rw [this] at hx1
      simp at hx1

theorem no_before (y : List F) (i : Nat) (h : ∀ k a, k < i → y[k]? ≠ some (some a)) :
    ((validPairs 0 y).filter fun r => decide (r.1 < i)).getLast? = none := by
  rw [List.getLast?_eq_none_iff, List.filter_eq_nil_iff]
  intro r hr hri
  have := (validPairs_mem _ _ _ hr).2.2
  exact h r.1 r.2 (by simpa using hri) (by simpa using this)

theorem no_after (y : List F) (i : Nat) (h : ∀ k a, i < k → y[k]? ≠ some (some a)) :
    ((validPairs 0 y).filter fun r => decide (i < r.1)).head? = none := by
  rw [List.head?_eq_none_iff, List.filter_eq_nil_iff]
  intro r hr hri
  have := (validPairs_mem _ _ _ hr).2.2
  exact h r.1 r.2 (by simpa using hri) (by simpa using this)

/-- **C172** If there is at least one number, filling missing values by the documented recipe leaves every number as it is. A missing value between two numbers is
put on the straight line between the nearest ones. One before all numbers gets the first number, one after all numbers the last one. -/
theorem c172_filled (y : List F) (hy : ∃ v, some v ∈ y) : ∃ out, fillNans y = .ok out ∧ out.length = y.length ∧
    (∀ (i : Nat) (v : Rat), y[i]? = some (some v) → out[i]? = some (some v)) ∧
    (∀ (i p : Nat) (a : Rat) (q : Nat) (b : Rat), y[i]? = some none → LastBefore y i p a → FirstAfter y i q b →
      out[i]? = some (some (a + (b - a) * (((i : Rat) - p) / ((q : Rat) - p))))) ∧
    (∀ (i q : Nat) (b : Rat), y[i]? = some none → (∀ (k : Nat) (a : Rat), k < i → y[k]? ≠ some (some a)) → FirstAfter y i q b → out[i]? = some (some b)) ∧
    ∀ (i p : Nat) (a : Rat), y[i]? = some none → LastBefore y i p a → (∀ (k : Nat) (b : Rat), i < k → y[k]? ≠ some (some b)) → out[i]? = some (some a) := by
  obtain ⟨v, hv⟩ := hy
  obtain ⟨k, hk⟩ := List.getElem?_of_mem hv
  have hkl := (List.getElem?_eq_some_iff.1 hk).1
  have hxp : whereTrue ((y.map (·.isNone)).map not) ≠ [] := by
    rw [whereTrue_valid]
    refine List.ne_nil_of_mem (a := k) (List.mem_filter.2 ⟨List.mem_range.2 hkl, ?_⟩)
    simp [List.getD_eq_getElem?_getD, hk]
  obtain ⟨h1, h2⟩ := foldl_set (whereTrue (y.map (·.isNone))) (npInterpEnds (whereTrue ((y.map (·.isNone)).map not)) (notNan y)) y
  refine ⟨_, by
    unfold fillNans nanHelper
    simp only
    rw [if_neg hxp], h1, ?_⟩
  have hin : ∀ i, y[i]? = some none → ((((whereTrue (y.map (·.isNone))).zip ((whereTrue (y.map (·.isNone))).map
      (npInterpEnds (whereTrue ((y.map (·.isNone)).map not)) (notNan y)))).foldl (fun y p => y.set p.1 p.2) y)[i]? =
        some (npInterpEnds (whereTrue ((y.map (·.isNone)).map not)) (notNan y) i)) := by
    intro i hi
    rw [h2 i, if_pos ⟨(whereTrue_nan y i).2 hi, (List.getElem?_eq_some_iff.1 hi).1⟩]
  refine ⟨fun i v hi => ?_, fun i p a q b hi hp hq => ?_, fun i q b hi hp hq => ?_, fun i p a hi hp hq => ?_⟩
  · rw [h2 i, if_neg, hi]
    rintro ⟨h, -⟩
    rw [whereTrue_nan, hi] at h
    simp at h
  · rw [hin i hi]
    unfold npInterpEnds
    rw [whereTrue_valid, zip_valid, last_before y i p a hp, first_after y i q b hq]
    simp only
    congr 2
    have : (p : Rat) < q := by exact_mod_cast Nat.lt_trans hp.1 hq.1
    have : (q : Rat) - p ≠ 0 := by linarith
    field_simp
    ring
  · rw [hin i hi]
    unfold npInterpEnds
    rw [whereTrue_valid, zip_valid, no_before y i hp, first_after y i q b hq]
  · rw [hin i hi]
    unfold npInterpEnds
    rw [whereTrue_valid, zip_valid, last_before y i p a hp, no_after y i hq]

/-- **C172** (nothing to go by) Without any number it is a `ValueError`. -/
theorem c172_no_number (y : List F) (hy : ∀ v, some v ∉ y) : fillNans y = .error .valueError := by
  unfold fillNans nanHelper
  simp only
  rw [if_pos]
  rw [whereTrue_valid, List.filter_eq_nil_iff]
  intro i hi
  have : i < y.length := List.mem_range.1 hi
  cases h : y[i] with
  | some v => exact absurd (h ▸ List.getElem_mem this) (hy v)
  | none => simp [List.getD_eq_getElem?_getD, this, h]

/-- missing values at the beginning, in the middle and at the end -/
example : fillNans [none, some 1, none, none, some 4, none] = .ok [some 1, some 1, some 2, some 3, some 4, some 4] := by decide +kernel

/-! ## C173: trimming by seconds -/

theorem roundAway_nat (k : Nat) : roundAway (k : Rat) = k := by
  unfold roundAway
  rw [if_pos (by exact_mod_cast Nat.zero_le k)]
  have : ⌊(k : Rat) + 1 / 2⌋ = (k : Int) := by
    rw [Int.floor_eq_iff]
    push_cast
    constructor <;> linarith
  exact this

/-- the trace without the first `a` and the last `b` samples -/
def Rec.without {α : Type} (tr : Rec α) (a b : Nat) : Rec α := ⟨tr.start + a / tr.sr, tr.sr, (tr.data.drop a).take (tr.data.length - a - b)⟩

/-- **C173** A trace that is trimmed by the duration of `a` samples at the start and of `b` samples at the end lacks exactly these samples; the time of its first
sample is adapted. If there are not more samples than that, it is a `ValueError`. -/
theorem c173_trace {α : Type} (tr : Rec α) (hsr : 0 < tr.sr) (a b : Nat) (hd : tr.data ≠ []) :
    trimTraceDelta tr (a / tr.sr) (b / tr.sr) = if a + b < tr.data.length then .ok (tr.without a b) else .error .valueError := by
  obtain ⟨start, sr, data⟩ := tr
  simp only at hsr hd ⊢
  have hn : 1 ≤ data.length := List.length_pos_iff.2 hd
  have hnr : ((data.length - 1 : Nat) : Rat) = (data.length : Rat) - 1 := by push_cast [hn]; ring
  have hstop : (Rec.mk start sr data).stop = start + ((data.length - 1 : Nat) : Rat) / sr := by
    unfold Rec.stop
    simp only
    rw [if_neg hd, hnr]
  unfold trimTraceDelta Rec.trim
  rw [hstop]
  by_cases hab : a + b < data.length
  · have hlt : (a : Rat) + b ≤ ((data.length - 1 : Nat) : Rat) := by exact_mod_cast (by omega : a + b ≤ data.length - 1)
    rw [if_pos hab, if_neg]
    · congr 1
      have hl : (Rec.mk start sr data).ltrim (start + a / sr) = ⟨start + a / sr, sr, data.drop a⟩ := by
        unfold Rec.ltrim
        simp only [hstop]
        rw [show (start + a / sr - start) * sr = (a : Rat) by field_simp; ring, roundAway_nat]
        by_cases ha : a = 0
        · subst ha
          simp
        · rw [if_neg (by omega), if_neg]
          · simp
          · have := div_le_div_of_nonneg_right (show (a : Rat) ≤ ((data.length - 1 : Nat) : Rat) by
              exact_mod_cast (by omega : a ≤ data.length - 1)) hsr.le
            linarith
      rw [hl]
      unfold Rec.rtrim Rec.without
      simp only [List.length_drop]
      have hr : (start + ((data.length - 1 : Nat) : Rat) / sr - b / sr - (start + a / sr)) * sr = ((data.length - 1 - b - a : Nat) : Rat) := by
        have : ((data.length - 1 - b - a : Nat) : Rat) = ((data.length - 1 : Nat) : Rat) - b - a := by
          rw [Nat.cast_sub (by omega), Nat.cast_sub (by omega)]
        rw [this]
        field_simp
        ring
      rw [hr, roundAway_nat]
      by_cases hb : b = 0
      · subst hb
        rw [if_pos (by omega), List.take_of_length_le (by simp)]
      · rw [if_neg (by omega), if_neg]
        · congr 2
          omega
        · have : (a : Rat) / sr + b / sr ≤ ((data.length - 1 : Nat) : Rat) / sr := by
            rw [← add_div]
            exact div_le_div_of_nonneg_right hlt hsr.le
          linarith
    · have : (a : Rat) / sr + b / sr ≤ ((data.length - 1 : Nat) : Rat) / sr := by
        rw [← add_div]
        exact div_le_div_of_nonneg_right hlt hsr.le
      linarith
  · have hlt : ((data.length - 1 : Nat) : Rat) < (a : Rat) + b := by exact_mod_cast (by omega : data.length - 1 < a + b)
    rw [if_neg hab, if_pos]
    have : ((data.length - 1 : Nat) : Rat) / sr < (a : Rat) / sr + b / sr := by
      rw [← add_div]
      exact div_lt_div_of_pos_right hlt hsr
    linarith

/-- **C173** (stream) So is each trace of a stream, according to its own times. -/
theorem c173_stream {α : Type} (st : List (Rec α)) (sr : Rat) (hsr : 0 < sr) (a b : Nat) (h : ∀ tr ∈ st, tr.sr = sr ∧ a + b < tr.data.length) :
    trimStreamDelta (a / sr) (b / sr) st = (.ok (), st.map fun tr => tr.without a b) := by
  induction st with
  | nil => rfl
  | cons tr st ih =>
    obtain ⟨h1, h2⟩ := h tr (by simp)
    have ih := ih fun tr htr => h tr (List.mem_cons_of_mem _ htr)
    subst h1
    unfold trimStreamDelta
    rw [c173_trace tr hsr a b (by rintro h; rw [h] at h2; simp at h2), if_pos h2]
    simp only [ih, List.map_cons]

/-- ten samples per second, a second off at both ends: 21 samples become one -/
example : trimTraceDelta ⟨5, 10, List.range 21⟩ 1 1 = .ok (⟨6, 10, [10]⟩ : Rec Nat) := by
  have := c173_trace (⟨5, 10, List.range 21⟩ : Rec Nat) (by norm_num) 10 10 (by simp)
  norm_num [Rec.without] at this
  exact this

/-- trimming more than there is -/
example : trimTraceDelta ⟨5, 10, List.range 20⟩ 1 1 = (.error .valueError : Except PyErr (Rec Nat)) := by
  have := c173_trace (⟨5, 10, List.range 20⟩ : Rec Nat) (by norm_num) 10 10 (by simp)
  norm_num at this
  exact this

/-! ## C174: rounding to halves -/

/-- **C174** The result is a multiple of a half, and no multiple of a half is nearer. -/
theorem c174_nearest (x : Rat) : (∃ k : Int, roundHalf x = k / 2) ∧ ∀ k : Int, |roundHalf x - x| ≤ |(k : Rat) / 2 - x| := by
  refine ⟨⟨_, rfl⟩, fun k => ?_⟩
  have h1 := abs_le.1 (pyRound_near (x * 2))
  unfold roundHalf
  rcases eq_or_ne k (pyRound (x * 2)) with rfl | hne
  · exact le_rfl
  · rcases lt_or_gt_of_ne hne with hk | hk
    · have : (k : Rat) + 1 ≤ pyRound (x * 2) := by exact_mod_cast hk
      refine le_trans (b := 1 / 4) ?_ ?_
      · rw [abs_le]; constructor <;> linarith
      · rw [le_abs]; right; linarith
    · have : (pyRound (x * 2) : Rat) + 1 ≤ k := by exact_mod_cast hk
      refine le_trans (b := 1 / 4) ?_ ?_
      · rw [abs_le]; constructor <;> linarith
      · rw [le_abs]; left; linarith

/-- the numbers in the middle between two halves -/
example : [1 / 4, 3 / 4, -1 / 4, 5 / 4, 26 / 10].map roundHalf = [0, 1, 0, 1, 5 / 2] := by decide +kernel

/-- **C174** (order) A smaller number never has a larger result, and multiples of a half stay. -/
theorem c174_order (x y : Rat) (h : x ≤ y) : roundHalf x ≤ roundHalf y ∧ ∀ k : Int, roundHalf (k / 2) = k / 2 := by
  refine ⟨?_, fun k => ?_⟩
  · unfold roundHalf
    rcases eq_or_lt_of_le h with rfl | h
    · exact le_rfl
    · have h1 := abs_le.1 (pyRound_near (x * 2))
      have h2 := abs_le.1 (pyRound_near (y * 2))
      have : pyRound (x * 2) < pyRound (y * 2) + 1 := by
        have : (pyRound (x * 2) : Rat) < pyRound (y * 2) + 1 := by linarith
        exact_mod_cast this
      have : ((pyRound (x * 2) : Int) : Rat) ≤ pyRound (y * 2) := by exact_mod_cast (by omega : pyRound (x * 2) ≤ pyRound (y * 2))
      linarith
  · unfold roundHalf
    rw [show (k : Rat) / 2 * 2 = k by ring, pyRound_int]

end SeisMIC
