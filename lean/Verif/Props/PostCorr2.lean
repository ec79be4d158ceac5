import Verif.Lemmas.PostCorr
import Mathlib.Algebra.Order.Archimedean.Basic

/-!
# C42 - C44: central taper, decimation, resampling of the lag axis
-/

namespace SeisMIC

/-! ### C42 -/

theorem mulSlice_get (row : List Rat) (a b : Nat) (t : List Rat) (hab : a ≤ row.length)
    (ht : t.length = min (b - a) (row.length - a)) :
    ∃ row', mulSlice row a b t = .ok row' ∧ row'.length = row.length ∧
      ∀ i, row'[i]? = (row[i]?).map fun x => if i < a then x else x * t.getD (i - a) 1 := by
  unfold mulSlice
  simp only
  have hp : ((row.drop a).take (b - a)).length = min (b - a) (row.length - a) := by simp
  rw [if_pos (by rw [hp, ht])]
  refine ⟨_, rfl, ?_, ?_⟩
  · simp only [List.length_append, List.length_zipWith, List.length_take, List.length_drop, hp, ht]
    omega
  · intro i
    rw [List.append_assoc]
    by_cases h1 : i < a
    · have : i < (row.take a).length := by simp; omega
      rw [List.getElem?_append_left this, List.getElem?_take_of_lt h1]
      cases row[i]? <;> simp [h1]
    · have hle : (row.take a).length ≤ i := by simp; omega
      rw [List.getElem?_append_right hle]
      have e : i - (row.take a).length = i - a := by simp; omega
      rw [e]
      by_cases h2 : i - a < t.length
      · rw [List.getElem?_append_left (by simp [hp, ht] at h2 ⊢; omega)]
        rw [List.getElem?_zipWith]
        have hi : i < row.length := by omega
        have h3 : ((row.drop a).take (b - a))[i - a]? = some row[i] := by
          rw [List.getElem?_take_of_lt (by omega), List.getElem?_drop, show a + (i - a) = i by omega,
            List.getElem?_eq_getElem hi]
        rw [h3, List.getElem?_eq_getElem h2, List.getElem?_eq_getElem hi]
        simp [h1, List.getD, h2]
      · have hz : (List.zipWith (· * ·) ((row.drop a).take (b - a)) t).length = t.length := by
          simp only [List.length_zipWith, hp, ht, min_self]
        rw [List.getElem?_append_right (by rw [hz]; omega), hz, hp, List.getElem?_drop, ← ht]
        rw [show a + t.length + (i - a - t.length) = i by omega]
        have : t.getD (i - a) 1 = 1 := by simp [List.getD, List.getElem?_eq_none (Nat.not_lt.1 h2)]
        rw [this]
        cases row[i]? <;> simp

theorem truncRat_intCast (k : Int) (hk : 0 ≤ k) : truncRat (k : Rat) = k := by
  unfold truncRat
  rw [if_neg (by rw [not_lt]; exact_mod_cast hk)]
  exact Int.floor_intCast (R := Rat) k

/-- **C42** (taper inside the trace) Let zero lag be at sample `z`, let the taper
reach over `h` samples on each side (`h` is half the width, rounded up), and let
its slopes have `slope` samples. If the taper does not begin before the trace
(`h ≤ z`) and does not end exactly one sample after it (`z + h ≠ npts`), the
function succeeds; all samples more than `h` samples away from zero lag are
unchanged, those inside the slopes are zero, and those on the slopes are
multiplied by the values of the cosine taper.
Missing: `h > z` and `z + h = npts`, see `c42_begin_violated` and
`c42_end_violated`. -/
theorem c42_taper_partial (cosTaper : Nat → List Rat) (hcos : ∀ n, (cosTaper n).length = n)
    (data : List (List Rat)) (s : LagStats) (width slopeFrac : Rat) (z h slope : Nat) (hsr : 0 < s.sr)
    (hd : Rect data s) (hz : s.lag z = 0) (hzn : z < s.npts) (hw : 0 < width) (hw2 : width ≤ s.npts / s.sr)
    (hf : 0 < slopeFrac) (hf1 : slopeFrac ≤ 1) (hh : (width * s.sr / 2).ceil = h)
    (hs : (h * slopeFrac : Rat).ceil = slope) (hbegin : h ≤ z) (hend : z + h ≠ s.npts) :
    ∃ out, corrMatTaperCenter cosTaper data s width slopeFrac = .ok out ∧ out.length = data.length ∧
      ∀ (r : Nat) (row row' : List Rat), data[r]? = some row → out[r]? = some row' → row'.length = row.length ∧
        ∀ i, i < s.npts →
          (i + h < z ∨ z + h < i → row'[i]? = row[i]?) ∧
          (z + slope ≤ i + h → i + slope ≤ z + h → row'[i]? = some 0) ∧
          (z ≤ i + h → i + h < z + slope → row'[i]? = (row[i]?).map fun x =>
            x * (cosTaper (slope * 2)).getD (slope + (i + h - z)) 1) ∧
          (i ≤ z + h → z + h < i + slope → row'[i]? = (row[i]?).map fun x =>
            x * (cosTaper (slope * 2)).getD (i + slope - (z + h + 1)) 1) := by
  have hsl : slope ≤ h := by
    have : (h * slopeFrac : Rat).ceil ≤ (h : Int) := by
      refine Rat.ceil_le_iff.2 ?_
      have : (0 : Rat) ≤ h := by positivity
      push_cast
      nlinarith
    omega
  have hh0 : 0 < h := by
    have : 0 < (width * s.sr / 2).ceil := Rat.lt_ceil_iff.2 (by push_cast; positivity)
    omega
  have hs0 : 0 < slope := by
    have : 0 < (h * slopeFrac : Rat).ceil := Rat.lt_ceil_iff.2 (by push_cast; positivity)
    omega
  have hzs : -s.startLag * s.sr = z := by
    unfold LagStats.lag at hz
    have : s.startLag = -(z / s.sr) := by linarith
    rw [this]
    field_simp
  have hlen : (2 * (width * s.sr / 2).ceil).toNat = 2 * h := by rw [hh]; omega
  have hslope : (((2 * h : Nat) : Rat) * slopeFrac / 2).ceil.toNat = slope := by
    have : ((2 * h : Nat) : Rat) * slopeFrac / 2 = h * slopeFrac := by push_cast; ring
    rw [this, hs]; rfl
  have hstart : truncRat (-s.startLag * s.sr - ((2 * h : Nat) : Rat) / 2) = ((z - h : Nat) : Int) := by
    rw [hzs]
    have : (z : Rat) - ((2 * h : Nat) : Rat) / 2 = (((z - h : Nat) : Int) : Rat) := by
      push_cast [hbegin]
      ring
    rw [this]
    exact truncRat_intCast _ (by omega)
  generalize htap : cosTaper (slope * 2) = tap
  have htl : tap.length = 2 * slope := by rw [← htap, hcos]; omega
  set τ : List Rat := tap.drop slope ++ List.replicate (2 * h + 1 - 2 * slope) 0 ++ tap.take slope with hτ
  have hτl : τ.length = 2 * h + 1 := by
    rw [hτ]
    simp only [List.length_append, List.length_drop, List.length_replicate, List.length_take, htl]
    omega
  set stop' : Nat := if z - h + 2 * h > s.npts then s.npts else z - h + 2 * h with hstop
  set τ' : List Rat := if z - h + 2 * h > s.npts then τ.take (s.npts - (z - h)) else τ with hτ'
  have hfun : corrMatTaperCenter cosTaper data s width slopeFrac =
      data.mapM fun row => mulSlice row (z - h) (stop' + 1) τ' := by
    unfold corrMatTaperCenter
    rw [if_neg hw.ne', if_neg (by linarith), if_neg (by linarith)]
    simp only [hlen, hslope, hstart, htap]
    have hn : ¬ ((z - h : Nat) : Int) < 0 := by omega
    simp only [hn, if_false, Int.toNat_natCast]
    rfl
  have hrow : ∀ row : List Rat, row.length = s.npts → ∃ row', mulSlice row (z - h) (stop' + 1) τ' = .ok row' ∧
      row'.length = row.length ∧
      ∀ i, row'[i]? = (row[i]?).map fun x => if i < z - h then x else x * τ'.getD (i - (z - h)) 1 := by
    intro row hl
    apply mulSlice_get _ _ _ _ (by omega)
    rw [hl, hτ', hstop]
    split
    · rw [List.length_take, hτl]; omega
    · rw [hτl]; omega
  have hget : ∀ k, k + (z - h) < s.npts → τ'.getD k 1 = τ.getD k 1 := by
    intro k hk
    rw [hτ']
    split
    · simp only [List.getD]
      rw [List.getElem?_take_of_lt (by omega)]
    · rfl
  -- the values of the taper
  have v1 : ∀ k, k < slope → τ.getD k 1 = tap.getD (slope + k) 1 := by
    intro k hk
    simp only [hτ, List.getD]
    rw [List.append_assoc, List.getElem?_append_left (by simp; omega), List.getElem?_drop]
  have v2 : ∀ k, slope ≤ k → k + slope ≤ 2 * h → τ.getD k 1 = 0 := by
    intro k h1 h2
    simp only [hτ, List.getD]
    rw [List.append_assoc, List.getElem?_append_right (by simp; omega), List.getElem?_append_left (by simp; omega),
      List.getElem?_replicate]
    rw [if_pos (by simp; omega)]
    rfl
  have v3 : ∀ k, 2 * h < k + slope → k ≤ 2 * h → τ.getD k 1 = tap.getD (k + slope - (2 * h + 1)) 1 := by
    intro k h1 h2
    simp only [hτ, List.getD]
    rw [List.getElem?_append_right (by simp; omega), List.getElem?_take_of_lt (by simp; omega)]
    congr 2
    simp; omega
  choose! g hg using hrow
  refine ⟨data.map g, ?_, by simp, ?_⟩
  · rw [hfun]
    exact mapM_ok data _ g (fun row hr => (hg row (hd row hr)).1)
  · intro r row row' h1 h2
    rw [List.getElem?_map, h1] at h2
    simp only [Option.map_some, Option.some.injEq] at h2
    subst h2
    have hl : row.length = s.npts := hd row (List.mem_of_getElem? h1)
    obtain ⟨-, g2, g3⟩ := hg row hl
    refine ⟨g2, ?_⟩
    intro i hi
    have hsome : row[i]? = some row[i] := List.getElem?_eq_getElem (by omega)
    refine ⟨?_, ?_, ?_, ?_⟩
    · rintro (h3 | h3)
      · rw [g3 i, hsome]; simp [show i < z - h by omega]
      · rw [g3 i, hsome, Option.map_some, if_neg (by omega), hget _ (by omega)]
        have : τ.getD (i - (z - h)) 1 = 1 := by
          simp [List.getD, List.getElem?_eq_none (show τ.length ≤ i - (z - h) by omega)]
        rw [this, mul_one]
    · intro h3 h4
      rw [g3 i, hsome, Option.map_some, if_neg (by omega), hget _ (by omega), v2 _ (by omega) (by omega), mul_zero]
    · intro h3 h4
      rw [g3 i, hsome, Option.map_some, if_neg (by omega), hget _ (by omega), v1 _ (by omega), Option.map_some]
      rw [show i - (z - h) = i + h - z by omega]
    · intro h3 h4
      rw [g3 i, hsome, Option.map_some, if_neg (by omega), hget _ (by omega), v3 _ (by omega) (by omega),
        Option.map_some]
      rw [show i - (z - h) + slope - (2 * h + 1) = i + slope - (z + h + 1) by omega]

/-- the hypotheses are met by a trace from -4 to 4 s and a width of 4 s -/
example : corrMatTaperCenter (fun n => List.replicate n (1 / 2)) [[1, 1, 1, 1, 1, 1, 1, 1, 1]] ⟨-4, 9, 1⟩ 4 (1 / 20) =
    .ok [[1, 1, 1 / 2, 0, 0, 0, 1 / 2, 1, 1]] := by decide +kernel

/-- **C42** (errors) -/
theorem c42_rejects (cosTaper : Nat → List Rat) (data : List (List Rat)) (s : LagStats) (width slopeFrac : Rat)
    (hn : width < 0 ∨ (s.npts : Rat) / s.sr < width) (h0 : width ≠ 0) :
    corrMatTaperCenter cosTaper data s width slopeFrac = .error .valueError := by
  unfold corrMatTaperCenter
  rw [if_neg h0]
  split
  · rfl
  · rcases hn with h | h
    · contradiction
    · rw [if_pos h]

/-- **C42** (width zero) The data are returned as they are. -/
theorem c42_zero (cosTaper : Nat → List Rat) (data : List (List Rat)) (s : LagStats) (slopeFrac : Rat) :
    corrMatTaperCenter cosTaper data s 0 slopeFrac = .ok data := by
  unfold corrMatTaperCenter
  rw [if_pos rfl]

/-- **C42** is violated: if the central part reaches over the beginning of the
trace (here a one-sided trace, as after mirroring), the function raises
`ValueError` although the width is admissible. -/
theorem c42_begin_violated :
    corrMatTaperCenter (fun n => List.replicate n (1 / 2)) [[1, 1, 1, 1, 1, 1, 1, 1, 1]] ⟨0, 9, 1⟩ 4 (1 / 20) =
    .error .valueError := by
  decide +kernel

/-- **C42** is violated: if the central part ends exactly one sample after the
last one, the function raises `ValueError`. -/
theorem c42_end_violated :
    corrMatTaperCenter (fun n => List.replicate n (1 / 2)) [[1, 1, 1, 1, 1, 1]] ⟨-4, 6, 1⟩ 4 (1 / 20) =
    .error .valueError := by
  decide +kernel

/-! ### C43 -/

theorem everyNth_get {α : Type} (f : Nat) (hf : 0 < f) (l : List α) :
    (everyNth f l).length = (l.length + f - 1) / f ∧ ∀ k, k < (l.length + f - 1) / f → (everyNth f l)[k]? = l[k * f]? := by
  have hin : ∀ k, k < (l.length + f - 1) / f → k * f < l.length := by
    intro k hk
    have : (k + 1) * f ≤ l.length + f - 1 := by
      have := (Nat.le_div_iff_mul_le hf).1 (show k + 1 ≤ (l.length + f - 1) / f by omega)
      exact this
    have e : (k + 1) * f = k * f + f := by ring
    omega
  have heq : everyNth f l = (List.range ((l.length + f - 1) / f)).pmap (fun k hk => l[k * f]'(hin k hk))
      (fun k hk => List.mem_range.1 hk) := by
    unfold everyNth
    have : ∀ (L : List Nat) (hL : ∀ k ∈ L, k < (l.length + f - 1) / f),
        L.filterMap (fun k => l[k * f]?) = L.pmap (fun k hk => l[k * f]'(hin k hk)) hL := by
      intro L
      induction L with
      | nil => intro _; rfl
      | cons a L ih =>
        intro hL
        rw [List.filterMap_cons, List.getElem?_eq_getElem (hin a (hL a (by simp)))]
        simp only [List.pmap_cons]
        rw [ih]
    rw [this]
  constructor
  · rw [heq]; simp
  · intro k hk
    rw [heq]
    simp [hk, List.getElem?_eq_getElem (hin k hk)]

/-- **C43** (all but the last one) For every matrix and factor `f ≥ 2`: the result
holds, for the filtered row `y` (filtered forwards and backwards), the samples
`y[0], y[f], y[2f], ...` except the last of them. The header reports the number
of samples that are returned and the reduced rate.
Missing: the last sample, see `c43_last_violated`. -/
theorem c43_decimate_partial {α : Type} (filt : List α → List α) (hfilt : ∀ l, (filt l).length = l.length)
    (data : List (List α)) (s : LagStats) (f : Nat) (hf : 2 ≤ f) (hd : Rect data s) :
    ∃ out s', corrMatDecimate filt data s f = .ok (out, s') ∧ Rect out s' ∧ s'.sr = s.sr / f ∧
      s'.startLag = s.startLag ∧ s'.npts = (s.npts + f - 1) / f - 1 ∧ out.length = data.length ∧
      ∀ (r : Nat) (row row' : List α), data[r]? = some row → out[r]? = some row' →
        ∀ k, k < s'.npts → row'[k]? = ((filt (filt row).reverse).reverse)[k * f]? := by
  have hlen : ∀ row : List α, row.length = s.npts →
      (everyNth f (filt (filt row).reverse).reverse).dropLast.length = (s.npts + f - 1) / f - 1 := by
    intro row hr
    rw [List.length_dropLast, (everyNth_get f (by omega) _).1]
    simp [hfilt, hr]
  have hrect : Rect (data.map fun row => (everyNth f (filt (filt row).reverse).reverse).dropLast)
      { s with npts := (s.npts + f - 1) / f - 1, sr := s.sr / f } := by
    intro row' h
    obtain ⟨row, hr, rfl⟩ := List.mem_map.1 h
    exact hlen row (hd row hr)
  refine ⟨data.map fun row => (everyNth f (filt (filt row).reverse).reverse).dropLast,
    { s with npts := (s.npts + f - 1) / f - 1, sr := s.sr / f }, ?_, hrect, rfl, rfl, rfl, by simp, ?_⟩
  · unfold corrMatDecimate
    rw [if_neg (by omega), if_neg (by omega)]
    simp only [Int.toNat_natCast, List.map_map]
    have e : (((f : Int) : Rat)) = (f : Rat) := by push_cast; rfl
    rw [e]
    cases data with
    | nil =>
      simp only [List.map_nil]
      rw [List.length_dropLast, (everyNth_get f (by omega) _).1, List.length_replicate]
    | cons row data =>
      simp only [List.map_cons, Function.comp]
      rw [hlen row (hd row (by simp))]
      rfl
  · intro r row row' h1 h2 k hk
    rw [List.getElem?_map, h1] at h2
    simp only [Option.map_some, Option.some.injEq] at h2
    subst h2
    have hr : row.length = s.npts := hd row (List.mem_of_getElem? h1)
    simp only at hk
    have hl : ((filt (filt row).reverse).reverse).length = s.npts := by simp [hfilt, hr]
    have hE := everyNth_get f (by omega) ((filt (filt row).reverse).reverse)
    rw [List.getElem?_dropLast, if_pos (by rw [hE.1, hl]; exact hk), hE.2 k (by rw [hl]; omega)]

/-- **C43** (errors and identity) -/
theorem c43_factor {α : Type} (filt : List α → List α) (data : List (List α)) (s : LagStats) (f : Int) :
    (f < 1 → corrMatDecimate filt data s f = .error .valueError) ∧ corrMatDecimate filt data s 1 = .ok (data, s) := by
  refine ⟨fun h => ?_, ?_⟩
  · unfold corrMatDecimate
    rw [if_pos h]
  · unfold corrMatDecimate
    rw [if_neg (by decide), if_pos rfl]

/-- **C43** is violated: of 6 samples, decimated by two, the samples 0 and 2 are
returned; sample 4 is missing. (No filter, for simplicity.) -/
theorem c43_last_violated :
    corrMatDecimate id [[0, 1, 2, 3, 4, 5]] ⟨0, 6, 1⟩ 2 = .ok ([[0, 2]], ⟨0, 2, 1 / 2⟩) := by
  decide +kernel

/-- **C43** (choice) The matrix is decimated iff the ratio of the rates is an
integer, and the factor is this ratio. -/
theorem c43_choice (sr freq : Rat) (f : Int) : decimationFactor sr freq = some f ↔ sr / freq = f := by
  unfold decimationFactor
  constructor
  · intro h
    split at h
    · next h1 => cases h; exact h1
    · cases h
  · intro h
    rw [h]
    have : ((f : Rat)).floor = f := Int.floor_intCast (R := Rat) f
    rw [if_pos (by rw [this]), this]

/-! ### C44 -/

/-- `a` additional new samples and `b` additional old samples make the two
durations equal -/
def Fits (npts num : Nat) (sr freq : Rat) (a b : Nat) : Prop :=
  ((num + a : Nat) : Rat) / freq = ((npts + b : Nat) : Rat) / sr

/-- every solution lies ahead of the current state -/
def Ahead (npts num : Nat) (sr freq : Rat) : Search → Prop
  | .run n1 n2 => (∀ a b, Fits npts num sr freq a b → n1 ≤ a ∧ n2 ≤ b) ∧ n1 ≤ num
  | .done n1 n2 => (∀ a b, Fits npts num sr freq a b → n1 ≤ a ∧ n2 ≤ b) ∧ Fits npts num sr freq n1 n2 ∧ n1 ≤ num
  | .fail => ∀ a b, Fits npts num sr freq a b → num < a

theorem searchStep_ahead (npts num : Nat) (sr freq : Rat) (hsr : 0 < sr) (hf : 0 < freq) (st : Search)
    (h : Ahead npts num sr freq st) : Ahead npts num sr freq (searchStep npts num sr freq st) := by
  cases st with
  | done n1 n2 => exact h
  | fail => exact h
  | run n1 n2 =>
    obtain ⟨h, hn⟩ := h
    unfold searchStep
    simp only
    by_cases he : ((num : Rat) + n1) / freq = (npts + n2) / sr
    · rw [if_pos he]
      refine ⟨h, ?_, hn⟩
      unfold Fits; push_cast; exact he
    · rw [if_neg he]
      by_cases hlt : ((num : Rat) + n1) / freq < (npts + n2) / sr
      · simp only [if_pos hlt]
        have key : ∀ a b, Fits npts num sr freq a b → n1 + 1 ≤ a ∧ n2 ≤ b := by
          intro a b hab
          obtain ⟨h1, h2⟩ := h a b hab
          refine ⟨?_, h2⟩
          by_contra hc
          have : a = n1 := by omega
          subst this
          unfold Fits at hab
          have h3 : ((npts + n2 : Nat) : Rat) / sr ≤ ((npts + b : Nat) : Rat) / sr := by
            apply div_le_div_of_nonneg_right _ hsr.le
            exact_mod_cast Nat.add_le_add_left h2 npts
          rw [← hab] at h3
          push_cast at h3
          linarith
        split
        · intro a b hab
          have := (key a b hab).1
          omega
        · exact ⟨key, by omega⟩
      · simp only [if_neg hlt]
        have hgt : ((npts : Rat) + n2) / sr < (num + n1) / freq := lt_of_le_of_ne (not_lt.1 hlt) (fun e => he e.symm)
        have key : ∀ a b, Fits npts num sr freq a b → n1 ≤ a ∧ n2 + 1 ≤ b := by
          intro a b hab
          obtain ⟨h1, h2⟩ := h a b hab
          refine ⟨h1, ?_⟩
          by_contra hc
          have : b = n2 := by omega
          subst this
          unfold Fits at hab
          have h3 : ((num + n1 : Nat) : Rat) / freq ≤ ((num + a : Nat) : Rat) / freq := by
            apply div_le_div_of_nonneg_right _ hf.le
            exact_mod_cast Nat.add_le_add_left h1 num
          rw [hab] at h3
          push_cast at h3
          linarith
        rw [if_neg (by omega)]
        exact ⟨key, hn⟩

theorem search_ahead (npts num : Nat) (sr freq : Rat) (hsr : 0 < sr) (hf : 0 < freq) (k : Nat) :
    Ahead npts num sr freq (search npts num sr freq k) := by
  induction k with
  | zero => exact ⟨fun a b _ => ⟨by omega, by omega⟩, by omega⟩
  | succ k ih => exact searchStep_ahead npts num sr freq hsr hf _ ih

/-- while the search is running, `n2` never exceeds the bound `M` and every step
increases `n1 + n2` -/
theorem search_bound (npts num M : Nat) (sr freq : Rat) (hsr : 0 < sr) (hf : 0 < freq)
    (hM : ((num + num : Nat) : Rat) / freq * sr ≤ M) (k n1 n2 : Nat)
    (h : search npts num sr freq k = .run n1 n2) : n1 + n2 = k ∧ n1 ≤ num ∧ n2 ≤ M + 1 := by
  induction k generalizing n1 n2 with
  | zero => cases h; omega
  | succ k ih =>
    have e : search npts num sr freq (k + 1) = searchStep npts num sr freq (search npts num sr freq k) := rfl
    rw [e] at h
    cases hs : search npts num sr freq k with
    | done a b => rw [hs] at h; simp [searchStep] at h
    | fail => rw [hs] at h; simp [searchStep] at h
    | run a b =>
      rw [hs] at h
      obtain ⟨i1, i2, i3⟩ := ih a b hs
      unfold searchStep at h
      simp only at h
      split at h
      · cases h
      · by_cases hlt : ((num : Rat) + a) / freq < (npts + b) / sr
        · simp only [if_pos hlt] at h
          split at h
          · cases h
          · cases h; omega
        · simp only [if_neg hlt] at h
          rw [if_neg (by omega)] at h
          cases h
          refine ⟨by omega, i2, ?_⟩
          rw [not_lt] at hlt
          have h1 : ((num : Rat) + n1) / freq ≤ ((num + num : Nat) : Rat) / freq := by
            apply div_le_div_of_nonneg_right _ hf.le
            push_cast
            have : (n1 : Rat) ≤ num := by exact_mod_cast i2
            linarith
          have h2 : (npts + b : Rat) ≤ M := by
            have := le_trans hlt h1
            rw [div_le_iff₀ hsr] at this
            linarith
          have h3 : (b : Rat) ≤ M := by
            have : (0 : Rat) ≤ npts := by positivity
            linarith
          have : b ≤ M := by exact_mod_cast h3
          omega

/-- **C44** (termination) For all rates and lengths the search ends after finitely
many iterations. -/
theorem c44_terminates (s : LagStats) (freq : Rat) (hsr : 0 < s.sr) (hf : 0 < freq) :
    ∃ fuel r, resampleTimePlan fuel s freq = some r := by
  unfold resampleTimePlan
  by_cases h1 : freq > s.sr
  · exact ⟨0, _, by rw [if_pos h1]⟩
  · by_cases h2 : freq = s.sr
    · exact ⟨0, _, by rw [if_neg h1, if_pos h2]⟩
    · simp only [if_neg h1, if_neg h2]
      generalize ((s.npts : Rat) / s.sr * freq).floor.toNat = num
      obtain ⟨M, hM⟩ := exists_nat_ge (((num + num : Nat) : Rat) / freq * s.sr)
      refine ⟨num + M + 2, ?_⟩
      cases hs : search s.npts num s.sr freq (num + M + 2) with
      | run n1 n2 =>
        exfalso
        have := search_bound s.npts num M s.sr freq hsr hf hM _ n1 n2 hs
        omega
      | done a b => exact ⟨_, rfl⟩
      | fail => exact ⟨_, rfl⟩

/-- **C44** (success) If the search ends successfully, the padded duration before
resampling is exactly the duration after it, and the number of samples that are
kept is the largest one that fits into the original duration. -/
theorem c44_durations (s : LagStats) (freq : Rat) (hsr : 0 < s.sr) (hf : 0 < freq) (fuel a b n : Nat)
    (h : resampleTimePlan fuel s freq = some (.ok (some (a, b, n)))) :
    ((s.npts + a : Nat) : Rat) / s.sr = (b : Rat) / freq ∧ s.npts ≤ a ∧ n ≤ b ∧
      (n : Rat) / freq ≤ s.npts / s.sr ∧ (s.npts : Rat) / s.sr < (n + 1) / freq := by
  unfold resampleTimePlan at h
  split at h
  · cases h
  · split at h
    · cases h
    · simp only at h
      have hnum : (((s.npts : Rat) / s.sr * freq).floor.toNat : Rat) ≤ s.npts / s.sr * freq ∧
          (s.npts : Rat) / s.sr * freq < (((s.npts : Rat) / s.sr * freq).floor.toNat : Rat) + 1 := by
        have h0 : (0 : Rat) ≤ s.npts / s.sr * freq := by positivity
        have h1 := ratFloor_le ((s.npts : Rat) / s.sr * freq)
        have h2 := ratFloor_lt ((s.npts : Rat) / s.sr * freq)
        have h3 : 0 ≤ ((s.npts : Rat) / s.sr * freq).floor := (le_ratFloor_iff _ _).2 (by simpa using h0)
        generalize ((s.npts : Rat) / s.sr * freq).floor = q at *
        obtain ⟨m, rfl⟩ := Int.eq_ofNat_of_zero_le h3
        simp only [Int.toNat_natCast]
        push_cast at h1 h2
        exact ⟨h1, h2⟩
      generalize ((s.npts : Rat) / s.sr * freq).floor.toNat = num at *
      have hah := search_ahead s.npts num s.sr freq hsr hf fuel
      cases hs : search s.npts num s.sr freq fuel with
      | run n1 n2 => rw [hs] at h; cases h
      | fail => rw [hs] at h; cases h
      | done n1 n2 =>
        rw [hs] at h hah
        cases h
        obtain ⟨-, hfit, -⟩ := hah
        unfold Fits at hfit
        refine ⟨?_, by omega, by omega, ?_, ?_⟩
        · have e1 : ((s.npts + (s.npts + 2 * n2) : Nat) : Rat) / s.sr = 2 * (((s.npts + n2 : Nat) : Rat) / s.sr) := by
            push_cast; ring
          have e2 : ((2 * (n + n1) : Nat) : Rat) / freq = 2 * (((n + n1 : Nat) : Rat) / freq) := by
            push_cast; ring
          rw [e1, e2, hfit]
        · rw [div_le_iff₀ hf]; exact hnum.1
        · rw [lt_div_iff₀ hf]; exact hnum.2

/-- **C44** (failure) `TypeError` is raised only if there is no common duration
with at most `num` additional samples; in particular, a common duration is found
if there is one. -/
theorem c44_failure (s : LagStats) (freq : Rat) (hsr : 0 < s.sr) (hf : 0 < freq) (fuel : Nat)
    (h : resampleTimePlan fuel s freq = some (.error .typeError)) (a b : Nat)
    (hfit : Fits s.npts ((s.npts : Rat) / s.sr * freq).floor.toNat s.sr freq a b) :
    ((s.npts : Rat) / s.sr * freq).floor.toNat < a := by
  unfold resampleTimePlan at h
  split at h
  · cases h
  · split at h
    · cases h
    · simp only at h
      have hah := search_ahead s.npts ((s.npts : Rat) / s.sr * freq).floor.toNat s.sr freq hsr hf fuel
      cases hs : search s.npts ((s.npts : Rat) / s.sr * freq).floor.toNat s.sr freq fuel with
      | run n1 n2 => rw [hs] at h; cases h
      | done n1 n2 => rw [hs] at h; cases h
      | fail =>
        rw [hs] at hah
        exact hah a b hfit

/-- 10 samples at 5 Hz to 2 Hz: no padding needed; 11 samples: one new and four
old samples are added -/
example : resampleTimePlan 100 ⟨0, 10, 5⟩ 2 = some (.ok (some (10, 8, 4))) ∧
    resampleTimePlan 100 ⟨0, 11, 5⟩ 2 = some (.ok (some (19, 12, 4))) ∧
    resampleTimePlan 100 ⟨0, 3, 7⟩ 1 = some (.error .typeError) := by
  decide +kernel

end SeisMIC
