import Verif.Model.Taper
import Mathlib.Algebra.Order.Floor.Ring
import Mathlib.Algebra.Order.Archimedean.Real.Basic
import Mathlib.Data.List.SplitBy
import Mathlib.Tactic.Linarith
import Mathlib.Tactic.Positivity

/-!
# C79: tapers only touch the ends
-/

namespace SeisMIC

theorem pyRound_nonneg {x : Rat} (h : 0 ≤ x) : 0 ≤ pyRound x := by
  have : 0 ≤ x.floor := Int.floor_nonneg (a := x).2 h
  unfold pyRound
  split
  · exact this
  · split
    · omega
    · split <;> omega

/-- the rounded number is at most one half away -/
theorem pyRound_near (x : Rat) : |(pyRound x : Rat) - x| ≤ 1 / 2 := by
  have h1 : (x.floor : Rat) ≤ x := Int.floor_le x
  have h2 : x < x.floor + 1 := Int.lt_floor_add_one x
  rw [abs_le]
  unfold pyRound
  split
  · constructor <;> linarith
  · split
    · push_cast; constructor <;> linarith
    · split
      · constructor <;> linarith
      · push_cast; constructor <;> linarith

theorem tapSin_range (n k : Nat) (hk : k < 2 * n) :
    0 ≤ Real.sin (k * (Real.pi / (2 * (n : ℝ) - 1))) ∧ Real.sin (k * (Real.pi / (2 * (n : ℝ) - 1))) ≤ 1 := by
  refine ⟨?_, Real.sin_le_one _⟩
  have hn : (1 : ℝ) ≤ n := by exact_mod_cast (by omega : 1 ≤ n)
  have hd : (0 : ℝ) < 2 * (n : ℝ) - 1 := by linarith
  have hk' : (k : ℝ) ≤ 2 * (n : ℝ) - 1 := by
    have : ((k + 1 : Nat) : ℝ) ≤ ((2 * n : Nat) : ℝ) := by exact_mod_cast hk
    push_cast at this
    linarith
  apply Real.sin_nonneg_of_nonneg_of_le_pi
  · have := Real.pi_pos; positivity
  · rw [mul_div_assoc', div_le_iff₀ hd, mul_comm]
    exact mul_le_mul_of_nonneg_left hk' Real.pi_pos.le

theorem taperWindow_range (isInt : Bool) (n npts i : Nat) (hn : n * 2 ≤ npts) (hi : i < npts) :
    0 ≤ taperWindow isInt n npts i ∧ taperWindow isInt n npts i ≤ 1 := by
  have cut : ∀ x : ℝ, 0 ≤ x → x ≤ 1 → 0 ≤ (if isInt then (⌊x⌋ : ℝ) else x) ∧ (if isInt then (⌊x⌋ : ℝ) else x) ≤ 1 := by
    intro x h0 h1
    split
    · exact ⟨by exact_mod_cast Int.floor_nonneg.2 h0, (Int.floor_le x).trans h1⟩
    · exact ⟨h0, h1⟩
  unfold taperWindow
  simp only
  split
  · obtain ⟨a, b⟩ := tapSin_range n (2 * n - (npts - i)) (by omega)
    exact cut _ a b
  · split
    · obtain ⟨a, b⟩ := tapSin_range n i (by omega)
      exact cut _ a b
    · exact ⟨zero_le_one, le_refl _⟩

/-- the three cases in which `cos_taper` raises `ValueError`, and its result otherwise -/
theorem cosTaper_cases (isInt : Bool) (sr taperLen : Rat) (data : List (Option ℝ)) :
    (cosTaper isInt sr taperLen data = .error .valueError ∧ (taperLen ≤ 0 ∨
      (data.length : Int) < 2 * pyRound (taperLen * sr) ∨ (pyRound (taperLen * sr) ≤ 0 ∧ data ≠ []))) ∨
    (0 < taperLen ∧ ∃ n : Nat, (n : Int) = max 0 (pyRound (taperLen * sr)) ∧ n * 2 ≤ data.length ∧ (data = [] ∨ 0 < n) ∧
      cosTaper isInt sr taperLen data = .ok (data.mapIdx fun i x => x.map (· * taperWindow isInt n data.length i))) := by
  unfold cosTaper
  simp only
  by_cases h1 : taperLen ≤ 0
  · left; rw [if_pos h1]; exact ⟨rfl, Or.inl h1⟩
  · rw [if_neg h1]
    by_cases h2 : (pyRound (taperLen * sr)).toNat * 2 > data.length
    · left; rw [if_pos h2]; exact ⟨rfl, Or.inr (Or.inl (by omega))⟩
    · rw [if_neg h2]
      by_cases h3 : (pyRound (taperLen * sr)).toNat = 0 ∧ data ≠ []
      · left; rw [if_pos h3]; exact ⟨rfl, Or.inr (Or.inr ⟨by omega, h3.2⟩)⟩
      · right
        rw [if_neg h3]
        refine ⟨not_le.1 h1, (pyRound (taperLen * sr)).toNat, by omega, by omega, ?_, rfl⟩
        by_cases hd : data = []
        · exact Or.inl hd
        · right
          by_contra hc
          exact h3 ⟨by omega, hd⟩

/-- **C79** (no tapering at gaps) For every trace of a stream, with `n` the number of
samples of the taper (its length in samples, rounded): the trace keeps its length and
its masked samples; the samples that are at least `n` samples away from both ends are
unchanged; no amplitude grows and no sign changes; and a trace shorter than two
tapers is left unchanged.
Missing: tapering at gaps, see `c79_masked_partial` and `c79_masked_violated`. -/
theorem c79_taper_partial (st : List (Rat × Bool × List (Option ℝ))) (taperLen : Rat) (k : Nat)
    (sr : Rat) (isInt : Bool) (data : List (Option ℝ)) (hk : st[k]? = some (sr, isInt, data)) (hsr : 0 < sr) :
    ∃ out, (cosTaperSt st taperLen false)[k]? = some (sr, isInt, out) ∧ out.length = data.length ∧
      ((data.length : Int) < 2 * pyRound (taperLen * sr) → out = data) ∧
      ∀ i, i < data.length →
        (out[i]? = some none ↔ data[i]? = some none) ∧
        (pyRound (taperLen * sr) ≤ (i : Int) → (i : Int) < data.length - pyRound (taperLen * sr) → out[i]? = data[i]?) ∧
        ∀ x, data[i]? = some (some x) → ∃ w : ℝ, 0 ≤ w ∧ w ≤ 1 ∧ out[i]? = some (some (x * w)) := by
  unfold cosTaperSt
  rw [List.getElem?_map, hk]
  simp only [Option.map_some, Bool.false_eq_true, if_false]
  refine ⟨_, rfl, ?_⟩
  rcases cosTaper_cases isInt sr taperLen data with ⟨he, -⟩ | ⟨hpos, n, hn, h2, h3, he⟩
  · rw [he]
    refine ⟨rfl, fun _ => rfl, fun i hi => ⟨Iff.rfl, fun _ _ => rfl, fun x hx => ⟨1, zero_le_one, le_refl _, ?_⟩⟩⟩
    simpa [orSame] using hx
  · rw [he]
    have hr : 0 ≤ pyRound (taperLen * sr) := pyRound_nonneg (mul_pos hpos hsr).le
    simp only [orSame]
    refine ⟨by simp, fun h => by omega, fun i hi => ⟨?_, ?_, ?_⟩⟩
    · rw [List.getElem?_mapIdx]
      cases data[i]? with
      | none => simp
      | some x => cases x <;> simp
    · intro ha hb
      rw [List.getElem?_mapIdx]
      have : taperWindow isInt n data.length i = 1 := by
        unfold taperWindow
        simp only
        rw [if_neg (by omega), if_neg (by omega)]
      rw [this]
      cases data[i]? with
      | none => simp
      | some x => cases x <;> simp
    · intro x hx
      obtain ⟨w0, w1⟩ := taperWindow_range isInt n data.length i h2 hi
      refine ⟨_, w0, w1, ?_⟩
      rw [List.getElem?_mapIdx, hx]
      rfl

/-- **C79** (the taper) A trace of floats that is long enough starts with zero, and
sample `i < n` of the taper has the weight `sin (i π / (2n - 1))`; the taper at the
end is the mirror image. -/
theorem c79_weights (sr taperLen : Rat) (data : List (Option ℝ)) (hlen : 0 < taperLen) (n : Nat)
    (hn : (n : Int) = pyRound (taperLen * sr)) (hn0 : 0 < n) (hl : 2 * n ≤ data.length) :
    ∃ out, cosTaper false sr taperLen data = .ok out ∧ ∀ i x, i < n →
      (data[i]? = some (some x) → out[i]? = some (some (x * Real.sin (i * (Real.pi / (2 * (n : ℝ) - 1)))))) ∧
      (data[data.length - 1 - i]? = some (some x) →
        out[data.length - 1 - i]? = some (some (x * Real.sin (i * (Real.pi / (2 * (n : ℝ) - 1)))))) := by
  rcases cosTaper_cases false sr taperLen data with ⟨-, h⟩ | ⟨-, m, hm, h2, -, he⟩
  · exfalso
    rcases h with h | h | ⟨h, -⟩
    · exact absurd hlen (not_lt.2 h)
    · omega
    · omega
  · obtain rfl : m = n := by omega
    refine ⟨_, he, ?_⟩
    intro i x hi
    constructor
    · intro hx
      rw [List.getElem?_mapIdx, hx]
      unfold taperWindow
      simp only [Bool.false_eq_true, if_false]
      by_cases hc : data.length - m ≤ i
      · omega
      · rw [if_neg hc, if_pos hi]; rfl
    · intro hx
      rw [List.getElem?_mapIdx, hx]
      unfold taperWindow
      simp only [Bool.false_eq_true, if_false]
      rw [if_pos (by omega)]
      have e : 2 * m - (data.length - (data.length - 1 - i)) = 2 * m - 1 - i := by omega
      rw [e]
      have hd : (0 : ℝ) < 2 * (m : ℝ) - 1 := by
        have : (1 : ℝ) ≤ m := by exact_mod_cast hn0
        linarith
      have : ((2 * m - 1 - i : Nat) : ℝ) * (Real.pi / (2 * (m : ℝ) - 1)) =
          Real.pi - i * (Real.pi / (2 * (m : ℝ) - 1)) := by
        rw [Nat.cast_sub (by omega), Nat.cast_sub (by omega)]
        push_cast
        rw [sub_mul, mul_div_assoc', mul_comm (2 * (m : ℝ) - 1), mul_div_assoc, div_self hd.ne', mul_one]
      rw [this, Real.sin_pi_sub]
      rfl

/-- five samples, a taper of two: the middle sample is kept -/
example : (5 : Int) ≥ 2 * pyRound (2 * 1) ∧ pyRound (2 * 1) = 2 := by decide +kernel

/-- **C79** is violated in detail for integer samples: the taper is cut to zero, so
the ends are set to zero instead of being tapered. -/
theorem c79_integer_violated (n npts i : Nat) (hn : 0 < n) (hi : i < n) (h2 : n * 2 ≤ npts) :
    taperWindow true n npts i = 0 := by
  unfold taperWindow
  simp only [if_true]
  have hlt : ∀ k : Nat, k < n → (⌊Real.sin (k * (Real.pi / (2 * (n : ℝ) - 1)))⌋ : ℝ) = 0 := by
    intro k hk
    obtain ⟨a, -⟩ := tapSin_range n k (by omega)
    have hn1 : (1 : ℝ) ≤ n := by exact_mod_cast hn
    have hd : (0 : ℝ) < 2 * (n : ℝ) - 1 := by linarith
    have hk1 : (k : ℝ) + 1 ≤ n := by exact_mod_cast hk
    have hhalf : (k : ℝ) * (Real.pi / (2 * (n : ℝ) - 1)) < Real.pi / 2 := by
      rw [mul_div_assoc', div_lt_div_iff₀ hd (by norm_num)]
      have := Real.pi_pos
      nlinarith
    have h0 : 0 ≤ (k : ℝ) * (Real.pi / (2 * (n : ℝ) - 1)) := by
      have := Real.pi_pos; positivity
    have hs : Real.sin (k * (Real.pi / (2 * (n : ℝ) - 1))) < 1 := by
      refine lt_of_lt_of_eq ?_ Real.sin_pi_div_two
      exact Real.sin_lt_sin_of_lt_of_le_pi_div_two (by have := Real.pi_pos; linarith) (le_refl _) hhalf
    have : ⌊Real.sin (k * (Real.pi / (2 * (n : ℝ) - 1)))⌋ = 0 := Int.floor_eq_zero_iff.2 ⟨a, hs⟩
    rw [this]
    simp
  rw [if_neg (by omega), if_pos hi]
  exact hlt i hi

/-- a hypothesis of the violation is met -/
example : taperWindow true 2 10 1 = 0 := c79_integer_violated 2 10 1 (by decide) (by decide) (by decide)

/-! ### tapering at gaps -/

theorem trimMasked_self {α : Type} (data : List (Option α)) (a b : α) (h1 : data.head? = some (some a))
    (h2 : data.getLast? = some (some b)) : trimMasked data = data := by
  unfold trimMasked
  cases data with
  | nil => rfl
  | cons x l =>
    obtain rfl : x = some a := by simpa using h1
    have e1 : (some a :: l).dropWhile (fun y : Option α => y.isNone) = some a :: l := by simp
    rw [e1]
    have hne : (some a :: l).reverse ≠ [] := by simp
    cases hr : (some a :: l).reverse with
    | nil => exact absurd hr hne
    | cons y r =>
      have : y = some b := by
        have h3 : (some a :: l).reverse.head? = some (some b) := by rw [List.head?_reverse]; exact h2
        rw [hr] at h3
        simpa using h3
      subst this
      have e2 : (some b :: r).dropWhile (fun y : Option α => y.isNone) = some b :: r := by simp
      rw [e2, ← hr, List.reverse_reverse]

/-- the relation between a sample and its tapered value -/
def Tapered (x y : Option ℝ) : Prop :=
  (x = none ∧ y = none) ∨ ∃ v w : ℝ, x = some v ∧ 0 ≤ w ∧ w ≤ 1 ∧ y = some (v * w)

theorem tapered_refl (x : Option ℝ) : Tapered x x := by
  cases x with
  | none => exact Or.inl ⟨rfl, rfl⟩
  | some v => exact Or.inr ⟨v, 1, rfl, zero_le_one, le_refl _, by simp⟩

theorem forall₂_tapered_refl (l : List (Option ℝ)) : List.Forall₂ Tapered l l := by
  induction l with
  | nil => exact .nil
  | cons x l ih => exact .cons (tapered_refl x) ih

theorem orSame_tapered (isInt : Bool) (sr taperLen : Rat) (data : List (Option ℝ)) :
    List.Forall₂ Tapered data (orSame data (cosTaper isInt sr taperLen data)) := by
  rcases cosTaper_cases isInt sr taperLen data with ⟨he, -⟩ | ⟨hpos, n, hn, h2, h3, he⟩
  · rw [he]; exact forall₂_tapered_refl data
  · rw [he]
    simp only [orSame]
    rw [List.forall₂_iff_get]
    refine ⟨by simp, ?_⟩
    intro i hi hi'
    simp only [List.get_eq_getElem, List.getElem_mapIdx]
    obtain ⟨w0, w1⟩ := taperWindow_range isInt n data.length i h2 hi
    cases hx : data[i] with
    | none => exact Or.inl ⟨rfl, rfl⟩
    | some v => exact Or.inr ⟨v, _, rfl, w0, w1, rfl⟩

theorem flatMap_tapered (f : List (Option ℝ) → List (Option ℝ)) (segs : List (List (Option ℝ)))
    (h : ∀ seg ∈ segs, List.Forall₂ Tapered seg (f seg)) : List.Forall₂ Tapered segs.flatten (segs.flatMap f) := by
  induction segs with
  | nil => exact .nil
  | cons seg segs ih =>
    rw [List.flatten_cons, List.flatMap_cons]
    exact List.rel_append (h seg (by simp)) (ih fun s hs => h s (by simp [hs]))

/-- **C79** (tapering at gaps) If the first and the last sample are valid, the trace
keeps its length and its masked samples, and no amplitude grows.
Missing: traces that begin or end with masked samples. -/
theorem c79_masked_partial (isInt : Bool) (sr taperLen : Rat) (hlen : 0 < taperLen) (data : List (Option ℝ)) (a b : ℝ)
    (h1 : data.head? = some (some a)) (h2 : data.getLast? = some (some b)) :
    ∃ out, cosTaperMasked isInt sr taperLen data = .ok out ∧ List.Forall₂ Tapered data out := by
  unfold cosTaperMasked
  rw [if_neg (not_le.2 hlen)]
  have hall : ¬ data.all (fun x => x.isNone) = true := by
    intro h
    have : some a ∈ data := List.mem_of_head? h1
    simpa using List.all_eq_true.1 h _ this
  rw [if_neg hall, trimMasked_self data a b h1 h2]
  refine ⟨_, rfl, ?_⟩
  have := flatMap_tapered (fun seg => if seg.all (·.isSome) then orSame seg (cosTaper isInt sr taperLen seg) else seg)
    (data.splitBy fun a b => a.isSome == b.isSome) (by
      intro seg _
      split
      · exact orSame_tapered isInt sr taperLen seg
      · exact forall₂_tapered_refl seg)
  rwa [List.flatten_splitBy] at this

/-- **C79** is violated by tapering at gaps: masked samples at the beginning are dropped
while the trace keeps its start time, so the valid samples move to earlier times. -/
theorem c79_masked_violated :
    cosTaperMasked false 1 100 [none, none, some 1, some 2] = .ok [some 1, some 2] := by
  unfold cosTaperMasked
  rw [if_neg (by norm_num), if_neg (by simp)]
  have h1 : trimMasked [none, none, some (1 : ℝ), some 2] = [some 1, some 2] := rfl
  rw [h1]
  have h2 : ([some (1 : ℝ), some 2].splitBy fun a b => a.isSome == b.isSome) = [[some 1, some 2]] := rfl
  rw [h2]
  have h3 : cosTaper false 1 100 [some 1, some 2] = .error .valueError := by
    rcases cosTaper_cases false 1 100 [some 1, some 2] with ⟨he, -⟩ | ⟨-, n, hn, hl, -⟩
    · exact he
    · exfalso
      have : pyRound (100 * 1) = 100 := by decide +kernel
      rw [this] at hn
      simp at hl hn
      omega
  simp [h3, orSame]

end SeisMIC
