import Verif.Model.Plot
import Verif.Lemmas.Sort
import Verif.Props.ShiftWindow
import Std.Data.String.ToNat
import Mathlib.Tactic.Linarith
import Mathlib.Tactic.FieldSimp
import Mathlib.Tactic.Ring
import Mathlib.Tactic.NormNum
import Mathlib.Data.Finset.Card

/-!
# C175, C176, C177: figures of velocity changes
-/

namespace SeisMIC

/-! ## C175: the points of the figures -/

/-- the points that the figure `publication` should show: one for each time with a similarity -/
def wantedPoints (starts : List Int) (value corr : List F) : List DvPoint :=
  (starts.zip (value.zip corr)).filterMap fun p => p.2.2.map fun c => ⟨p.1, p.2.1.map fun x => -x * 100, some c⟩

theorem fancy_points (starts : List Int) (value corr : List F) (h1 : starts.length = corr.length) (h2 : value.length = corr.length) :
    ∃ ts vs cs, boolSel (corr.map Option.isSome) starts = .ok ts ∧ boolSel (corr.map Option.isSome) value = .ok vs ∧
      boolSel (corr.map Option.isSome) corr = .ok cs ∧
      (ts.zip ((vs.map fun v => v.map fun x => -x * 100).zip cs)).map (fun p => (⟨p.1, p.2.1, p.2.2⟩ : DvPoint)) = wantedPoints starts value corr ∧
      ts = (wantedPoints starts value corr).map DvPoint.time := by
  have e1 : (corr.map Option.isSome).length = starts.length := by simp [h1]
  have e2 : (corr.map Option.isSome).length = value.length := by simp [h2]
  have e3 : (corr.map Option.isSome).length = corr.length := by simp
  refine ⟨_, _, _, if_pos e1, if_pos e2, if_pos e3, ?_⟩
  clear e1 e2 e3
  unfold wantedPoints
  induction corr generalizing starts value with
  | nil =>
    cases starts <;> simp at h1
    simp
  | cons c corr ih =>
    cases starts with
    | nil => simp at h1
    | cons s starts =>
      cases value with
      | nil => simp at h2
      | cons v value =>
        obtain ⟨i1, i2⟩ := ih starts value (by simpa using h1) (by simpa using h2)
        cases c with
        | none => exact ⟨by simpa using i1, by simpa using i2⟩
        | some c => exact ⟨by simpa using i1, by simpa using i2⟩

theorem foldl_minInt_spec (t : Int) (ts : List Int) : ts.foldl min t ∈ t :: ts ∧ ∀ x ∈ t :: ts, ts.foldl min t ≤ x := by
  induction ts generalizing t with
  | nil => simp
  | cons s ts ih =>
    obtain ⟨h1, h2⟩ := ih (min t s)
    rw [List.foldl_cons]
    refine ⟨?_, fun x hx => ?_⟩
    · rcases List.mem_cons.1 h1 with h | h
      · rw [h]
        rcases min_choice t s with h | h <;> simp [h]
      · simp [h]
    · have h3 := h2 (min t s) (by simp)
      rcases List.mem_cons.1 hx with rfl | hx
      · exact h3.trans (min_le_left _ _)
      · rcases List.mem_cons.1 hx with rfl | hx
        · exact h3.trans (min_le_right _ _)
        · exact h2 x (by simp [hx])

theorem foldl_maxInt_spec (t : Int) (ts : List Int) : ts.foldl max t ∈ t :: ts ∧ ∀ x ∈ t :: ts, x ≤ ts.foldl max t := by
  induction ts generalizing t with
  | nil => simp
  | cons s ts ih =>
    obtain ⟨h1, h2⟩ := ih (max t s)
    rw [List.foldl_cons]
    refine ⟨?_, fun x hx => ?_⟩
    · rcases List.mem_cons.1 h1 with h | h
      · rw [h]
        rcases max_choice t s with h | h <;> simp [h]
      · simp [h]
    · have h3 := h2 (max t s) (by simp)
      rcases List.mem_cons.1 hx with rfl | hx
      · exact (le_max_left _ _).trans h3
      · rcases List.mem_cons.1 hx with rfl | hx
        · exact (le_max_right _ _).trans h3
        · exact h2 x (by simp [hx])

/-- **C175** (part) The figure `publication` with given limits shows exactly one point for each time that has a
similarity, in the order of time: at the start time of this measurement, at minus its value in percent, with the
colour of its similarity. -/
theorem c175_publication (starts : List Int) (value corr : List F) (h1 : starts.length = corr.length) (h2 : value.length = corr.length)
    (lim : Int × Int) : plotFancyDv starts value corr (some lim) = .ok (wantedPoints starts value corr, lim) := by
  obtain ⟨ts, vs, cs, e1, e2, e3, e4, _⟩ := fancy_points starts value corr h1 h2
  unfold plotFancyDv
  simp only [e1, e2, e3, bind, Except.bind, pure, Except.pure, e4]

/-- **C175** (part) Without given limits the time axis goes from the first to the last point that is shown, so all
points are inside. Only if no time has a similarity there is no figure, but a `ValueError`. -/
theorem c175_limits (starts : List Int) (value corr : List F) (h1 : starts.length = corr.length) (h2 : value.length = corr.length) :
    (wantedPoints starts value corr = [] → plotFancyDv starts value corr none = .error .valueError) ∧
      (wantedPoints starts value corr ≠ [] → ∃ lo hi, plotFancyDv starts value corr none = .ok (wantedPoints starts value corr, (lo, hi)) ∧
        (∀ p ∈ wantedPoints starts value corr, lo ≤ p.time ∧ p.time ≤ hi) ∧
        (∃ p ∈ wantedPoints starts value corr, p.time = lo) ∧ ∃ p ∈ wantedPoints starts value corr, p.time = hi) := by
  obtain ⟨ts, vs, cs, e1, e2, e3, e4, e5⟩ := fancy_points starts value corr h1 h2
  refine ⟨fun h => ?_, fun h => ?_⟩
  · rw [h] at e5
    unfold plotFancyDv
    simp only [e1, e2, e3, bind, Except.bind, e5, List.map_nil, timeRange]
  · cases ts with
    | nil => exact absurd (List.map_eq_nil_iff.1 e5.symm) h
    | cons t ts =>
      have m1 := foldl_minInt_spec t ts
      have m2 := foldl_maxInt_spec t ts
      rw [e5] at m1 m2
      refine ⟨ts.foldl min t, ts.foldl max t, ?_, fun p hp => ⟨m1.2 _ (List.mem_map_of_mem hp), m2.2 _ (List.mem_map_of_mem hp)⟩, ?_, ?_⟩
      · unfold plotFancyDv
        simp only [e1, e2, e3, bind, Except.bind, pure, Except.pure, e4, timeRange]
      · exact List.mem_map.1 m1.1
      · exact List.mem_map.1 m2.1

/-- **C175** (part) The figure `technical` of a known kind of measurement shows minus the value of every time, with the
index of the time in the first panel and with its start time in the second, and the similarity of every time in the third. -/
theorem c175_technical (vt me : Str) (starts : List Int) (value corr : List F) (sim : List (List F)) (axis : List Rat) (norm : Bool)
    (clim : List Rat) (xlim : Option (Int × Int)) (h1 : starts.length = value.length) (h2 : starts.length = corr.length) (ha : axis ≠ [])
    (hk : (vt = c!"stretch" ∧ (me = c!"single_ref" ∨ me = c!"multi_ref")) ∨ (vt = c!"shift" ∧ (me = c!"time_shift" ∨ me = c!"absolute_shift")))
    (hc : clim = [] ∨ clim.length = 2) :
    ∃ f, plotTechnicalDv vt me starts value corr sim axis norm clim xlim = .ok f ∧
      f.dots.length = value.length ∧ f.curve.length = value.length ∧ f.corr.length = value.length ∧
      ∀ (i : Nat) (t : Int) (v c : F), starts[i]? = some t → value[i]? = some v → corr[i]? = some c →
        f.dots[i]? = some (i, v.map fun x => -x) ∧ f.curve[i]? = some (t, v.map fun x => -x) ∧ f.corr[i]? = some (t, c) := by
  unfold plotTechnicalDv
  have hkk : knownKind vt me = true := by
    unfold knownKind
    rcases hk with ⟨rfl, h | h⟩ | ⟨rfl, h | h⟩ <;> subst h <;> decide
  rw [if_neg (by rintro ⟨h, h'⟩; rcases hc with h'' | h''; exacts [h h'', h' h''])]
  cases hx : axis.head? with
  | none => exact absurd (List.head?_eq_none_iff.1 hx) ha
  | some a0 =>
    cases hy : axis.getLast? with
    | none => exact absurd (List.getLast?_eq_none_iff.1 hy) ha
    | some a1 =>
      simp only [hkk, Bool.not_true, Bool.false_eq_true, if_false]
      rw [if_neg (by rintro (h | h); exacts [h h1, h h2])]
      refine ⟨_, rfl, by simp, by simp [h1], by simp [← h1, h2], fun i t v c ht hv hcc => ?_⟩
      have hi : i < value.length := (List.getElem?_eq_some_iff.1 hv).1
      obtain ⟨_, hv'⟩ := List.getElem?_eq_some_iff.1 hv
      simp [List.getElem?_zip_eq_some, ht, hcc, hi, hv']

/-- the position of the smallest entry -/
theorem argminInt_spec (l : List Int) (hl : l ≠ []) : argminInt l < l.length ∧ ∀ y ∈ l, l.getD (argminInt l) 0 ≤ y := by
  induction l with
  | nil => exact absurd rfl hl
  | cons a l ih =>
    cases l with
    | nil => simp [argminInt]
    | cons b l =>
      obtain ⟨h1, h2⟩ := ih (by simp)
      simp only [argminInt]
      split
      · rename_i h
        refine ⟨by simp, fun y hy => ?_⟩
        rcases List.mem_cons.1 hy with rfl | hy
        · exact le_refl _
        · exact le_trans h (h2 y hy)
      · rename_i h
        refine ⟨by simpa using h1, fun y hy => ?_⟩
        rw [List.getD_cons_succ]
        rcases List.mem_cons.1 hy with rfl | hy
        · exact le_of_lt (not_le.1 h)
        · exact h2 y hy

/-- the time at the position is at least as close as every other -/
theorem closest_spec (l : List Int) (hl : l ≠ []) (t : Int) : ∃ x, l[closest l t]? = some x ∧ ∀ y ∈ l, |x - t| ≤ |y - t| := by
  obtain ⟨h1, h2⟩ := argminInt_spec (l.map fun s => |s - t|) (by simpa using hl)
  have h3 : closest l t < l.length := by simpa [closest] using h1
  refine ⟨l[closest l t], List.getElem?_eq_getElem h3, fun y hy => ?_⟩
  have := h2 |y - t| (List.mem_map_of_mem (f := fun s => |s - t|) hy)
  rw [List.getD_eq_getElem?_getD, List.getElem?_eq_getElem h1, Option.getD_some, List.getElem_map] at this
  exact this

/-- **C175** (part) The axis of the first panel of the figure `technical`, which counts the times, begins with the
time closest to the first limit and ends with the time closest to the second; without limits it shows all times. -/
theorem c175_technical_limits (vt me : Str) (starts : List Int) (value corr : List F) (sim : List (List F)) (axis : List Rat) (norm : Bool)
    (clim : List Rat) (xlim : Option (Int × Int)) (hne : starts ≠ []) (f : TechFig)
    (hf : plotTechnicalDv vt me starts value corr sim axis norm clim xlim = .ok f) :
    (xlim = none → f.xlim = (0, starts.length)) ∧
    ∀ l r, xlim = some (l, r) → ∃ (i j : Nat) (a b : Int), f.xlim = (i, j + 1) ∧ starts[i]? = some a ∧ starts[j]? = some b ∧
      (∀ y ∈ starts, |a - l| ≤ |y - l|) ∧ ∀ y ∈ starts, |b - r| ≤ |y - r| := by
  unfold plotTechnicalDv at hf
  split at hf
  · cases hf
  · simp only at hf
    split at hf
    · split at hf
      · cases hf
      · split at hf
        · cases hf
        · rename_i hlen
          push Not at hlen
          cases hf
          refine ⟨fun e => by subst e; simp [hlen.1], fun l r e => ?_⟩
          subst e
          obtain ⟨a, h1, h2⟩ := closest_spec starts hne l
          obtain ⟨b, h3, h4⟩ := closest_spec starts hne r
          exact ⟨_, _, a, b, rfl, h1, h3, h2, h4⟩
    · cases hf

/-- two of three measurements have a similarity; the second measurement itself is missing -/
example : plotFancyDv [10, 20, 30] [some (1/100), none, some (-2/100)] [some (9/10), none, some (1/2)] none
    = .ok ([⟨10, some (-1), some (9/10)⟩, ⟨30, some 2, some (1/2)⟩], (10, 30)) := by decide +kernel

example : plotFancyDv [10] [some 1] [none] none = .error .valueError := by decide +kernel

example : plotTechnicalDv c!"stretch" c!"single_ref" [10, 20] [some (1/100), none] [some (9/10), none] [[some 0, some 1], [none, none]] [-1, 1] false [] (some (9, 17))
    = .ok ⟨[(0, some (-1/100)), (1, none)], some ⟨[[some 1, none], [some 0, none]], 0, 2, 1, -1⟩, (0, 2), [(10, some (-1/100)), (20, none)], [(10, some (9/10)), (20, none)]⟩ := by
  decide +kernel

/-! ## C176: the similarity matrix below the points -/

theorem pixel_contains (L : Rat) (hL : 0 ≤ L) (m j : Nat) (hm : 1 < m) (hj : j < m) :
    L * j / m ≤ L * j / (m - 1) ∧ L * j / (m - 1) ≤ L * (j + 1) / m := by
  have h1 : (0 : Rat) < m := by exact_mod_cast (by omega : 0 < m)
  have h2 : (0 : Rat) < (m : Rat) - 1 := by
    have : (1 : Rat) < m := by exact_mod_cast hm
    linarith
  have h3 : (j : Rat) + 1 ≤ m := by exact_mod_cast hj
  have h4 : (0 : Rat) ≤ j := by positivity
  constructor
  · rw [div_le_div_iff₀ h1 h2]
    nlinarith [mul_nonneg hL h4]
  · rw [div_le_div_iff₀ h2 h1]
    nlinarith [mul_nonneg hL (sub_nonneg.2 h3)]

/-- **C176** (part) Panel 1 of the figure `technical`, for an axis that is equidistant from -A to A: the similarity of
time `i` with the `j`-th value of the axis is drawn as a pixel that contains the point (i, minus this value). So the
point of a measurement lies on the similarity that it was measured with, since both change their sign. -/
theorem c176_pixel (vt me : Str) (starts : List Int) (value corr : List F) (sim : List (List F)) (axis : List Rat) (norm : Bool)
    (clim : List Rat) (xlim : Option (Int × Int)) (f : TechFig) (hf : plotTechnicalDv vt me starts value corr sim axis norm clim xlim = .ok f)
    (A : Rat) (hA : 0 ≤ A) (hm : 1 < axis.length) (hax : ∀ (j : Nat) (x : Rat), axis[j]? = some x → x = -A + 2 * A * j / (axis.length - 1))
    (hrect : ∀ r ∈ sim, r.length = axis.length) (hne : sim ≠ []) (i j : Nat) (r : List F) (x : Rat)
    (hr : (if norm then normSim sim else sim)[i]? = some r) (hx : axis[j]? = some x) :
    ∃ im p, f.image = some im ∧ (im.rows[axis.length - 1 - j]?.bind (·[i]?)) = some (r.getD j none) ∧
      p = im.pixel sim.length (axis.length - 1 - j) i ∧ p.1.1 ≤ i ∧ i ≤ p.1.2 ∧ p.2.1 ≤ -x ∧ -x ≤ p.2.2 := by
  unfold plotTechnicalDv at hf
  by_cases hc : clim ≠ [] ∧ clim.length ≠ 2
  · rw [if_pos hc] at hf; cases hf
  rw [if_neg hc] at hf
  have hm0 : (sim.head?.map List.length).getD 0 = axis.length := by
    cases sim with
    | nil => exact absurd rfl hne
    | cons r0 sim => simpa using hrect r0 (by simp)
  have hj : j < axis.length := (List.getElem?_eq_some_iff.1 hx).1
  have hlen : (if norm then normSim sim else sim).length = sim.length := by split <;> simp [normSim]
  have hi : i < sim.length := hlen ▸ (List.getElem?_eq_some_iff.1 hr).1
  cases hx0 : axis.head? with
  | none => rw [List.head?_eq_none_iff.1 hx0] at hm; simp at hm
  | some a0 =>
    cases hx1 : axis.getLast? with
    | none => rw [List.getLast?_eq_none_iff.1 hx1] at hm; simp at hm
    | some a1 =>
      simp only [hx0, hx1, hm0] at hf
      split at hf
      · cases hf
      split at hf
      · cases hf
      cases hf
      have e0 : a0 = -A := by
        rw [List.head?_eq_getElem?] at hx0
        have := hax 0 a0 hx0
        simpa using this
      have h2 : (0 : Rat) < (axis.length : Rat) - 1 := by
        have : (1 : Rat) < axis.length := by exact_mod_cast hm
        linarith
      have e1 : a1 = A := by
        rw [List.getLast?_eq_getElem?] at hx1
        have := hax _ a1 hx1
        rw [Nat.cast_sub (by omega), Nat.cast_one, mul_div_assoc, div_self h2.ne'] at this
        linarith
      have hp := pixel_contains (2 * A) (by linarith) axis.length j hm hj
      have h3 : (axis.length : Rat) ≠ 0 := by
        have : (0 : Rat) < axis.length := by exact_mod_cast (by omega : 0 < axis.length)
        exact this.ne'
      have h4 : (0 : Rat) < sim.length := by exact_mod_cast (by omega : 0 < sim.length)
      have hrl : (flipT axis.length (if norm then normSim sim else sim)).length = axis.length := by simp [flipT]
      have hcast : ((axis.length - 1 - j : Nat) : Rat) = axis.length - 1 - j := by
        rw [Nat.cast_sub (by omega), Nat.cast_sub (by omega), Nat.cast_one]
      refine ⟨_, _, if_neg (by omega), ?_, rfl, ?_, ?_, ?_, ?_⟩
      · simp only [flipT, List.getElem?_map]
        rw [List.getElem?_range (by omega)]
        simp only [Option.map_some, Option.bind_some, List.getElem?_map, hr]
        rw [show axis.length - 1 - (axis.length - 1 - j) = j by omega]
      · simp only [Image.pixel, zero_add, sub_zero]
        rw [mul_div_cancel_left₀ _ h4.ne']
      · simp only [Image.pixel, zero_add, sub_zero]
        rw [mul_div_cancel_left₀ _ h4.ne']
        linarith
      · simp only [Image.pixel, hrl, hcast]
        rw [hax j x hx, e0, e1]
        have : (A - -A) * ((axis.length : Rat) - 1 - j) / axis.length = 2 * A - 2 * A * (j + 1) / axis.length := by
          field_simp
          ring
        rw [this]
        linarith [hp.2]
      · simp only [Image.pixel, hrl, hcast]
        rw [hax j x hx, e0, e1]
        have : (A - -A) * ((axis.length : Rat) - 1 - j + 1) / axis.length = 2 * A - 2 * A * j / axis.length := by
          field_simp
          ring
        rw [this]
        linarith [hp.1]

/-- the hypotheses of `c176_pixel` are met by an axis from -1 to 1 with three values -/
example : ∀ (j : Nat) (x : Rat), ([-1, 0, 1] : List Rat)[j]? = some x → x = -1 + 2 * 1 * j / (([-1, 0, 1] : List Rat).length - 1) := by
  intro j x h
  match j with
  | 0 => simp at h; subst h; norm_num
  | 1 => simp at h; subst h; norm_num
  | 2 => simp at h; subst h; norm_num
  | j + 3 => simp at h

/-- the symmetry is needed: with an axis from 0 to 2 the point of the value 2 (at -2) is outside of the image (0 to 2) -/
example : ∃ f im, plotTechnicalDv c!"stretch" c!"single_ref" [10] [some 2] [some 1] [[some 0, some 0, some 1]] [0, 1, 2] false [] none = .ok f ∧
    f.image = some im ∧ f.dots = [(0, some (-2))] ∧ im.top = 0 ∧ im.bottom = 2 := ⟨_, _, rfl, rfl, rfl, rfl, rfl⟩

theorem rowMax_spec (r : List F) (M : Rat) (h : rowMax r = some M) : (∀ x ∈ r, x ≠ none) ∧ some M ∈ r ∧ ∀ x, some x ∈ r → x ≤ M := by
  unfold rowMax at h
  split at h
  · cases h
  · rename_i hn
    obtain ⟨h1, h2⟩ := maxList_spec _ _ h
    refine ⟨fun x hx hx' => hn (List.any_eq_true.2 ⟨x, hx, by simp [hx']⟩), mem_notNan.1 h1, fun x hx => h2 x (mem_notNan.2 hx)⟩

theorem rowMax_of (r : List F) (M : Rat) (h1 : ∀ x ∈ r, x ≠ none) (h2 : some M ∈ r) (h3 : ∀ x, some x ∈ r → x ≤ M) : rowMax r = some M := by
  unfold rowMax
  rw [if_neg (by
    intro h
    obtain ⟨x, hx, hx'⟩ := List.any_eq_true.1 h
    exact h1 x hx (by simpa using hx'))]
  cases hm : maxList (notNan r) with
  | none =>
    cases hl : notNan r with
    | nil => have := mem_notNan.2 h2; rw [hl] at this; cases this
    | cons a l => rw [hl] at hm; cases hm
  | some M' =>
    obtain ⟨e1, e2⟩ := maxList_spec _ _ hm
    rw [le_antisymm (h3 M' (mem_notNan.1 e1)) (e2 M (mem_notNan.2 h2))]

/-- **C176** (part) Normalising the matrix for the figure divides each time by its largest similarity. If this is
positive, the largest value becomes 1 and the order of the similarities of this time does not change.
Missing for the full property: `c176_normalize_violated`. -/
theorem c176_normalize_partial (sim : List (List F)) (i : Nat) (r : List F) (M : Rat) (hr : sim[i]? = some r) (hM : rowMax r = some M) (hpos : 0 < M) :
    ∃ r', (normSim sim)[i]? = some r' ∧ rowMax r' = some 1 ∧ r'.length = r.length ∧
      ∀ (j : Nat) (x : Rat), r[j]? = some (some x) → r'[j]? = some (some (x / M)) ∧
        ∀ (k : Nat) (y : Rat), r[k]? = some (some y) → (x < y ↔ x / M < y / M) := by
  obtain ⟨h1, h2, h3⟩ := rowMax_spec r M hM
  refine ⟨r.map fun x => F.div x (rowMax r), by simp [normSim, hr], ?_, by simp, fun j x hx => ⟨?_, fun k y _ => (div_lt_div_iff_of_pos_right hpos).symm⟩⟩
  · have hd : ∀ x : Rat, F.div (some x) (some M) = some (x / M) := fun x => by simp [F.div, hpos.ne']
    refine rowMax_of _ 1 (fun x hx => ?_) ?_ (fun x hx => ?_)
    · obtain ⟨y, hy, rfl⟩ := List.mem_map.1 hx
      cases y with
      | none => exact absurd rfl (h1 _ hy)
      | some y => rw [hM, hd]; simp
    · exact List.mem_map.2 ⟨some M, h2, by rw [hM, hd, div_self hpos.ne']⟩
    · obtain ⟨y, hy, he⟩ := List.mem_map.1 hx
      cases y with
      | none => exact absurd rfl (h1 _ hy)
      | some y =>
        rw [hM, hd] at he
        have := h3 y hy
        rw [← Option.some.inj he]
        exact (div_le_one hpos).2 this
  · rw [List.getElem?_map, hx, Option.map_some, hM]
    simp [F.div, hpos.ne']

/-- the hypotheses of `c176_normalize_partial` are met -/
example : ([[some (1/4), some (1/2)]] : List (List F))[0]? = some [some (1/4), some (1/2)] ∧ rowMax [some (1/4), some (1/2)] = some (1/2) := by decide +kernel

/-- **C176** (negation of a part) If all similarities of a time are negative, normalising turns their order around: the
smallest similarity is shown as the largest. If one similarity is missing, the figure shows none of this time. -/
theorem c176_normalize_violated :
    (∀ x y : Rat, x < y → y < 0 → ∃ a b, normSim [[some x, some y]] = [[some a, some b]] ∧ b < a) ∧
      ∀ r : List F, none ∈ r → normSim [r] = [r.map fun _ => none] := by
  refine ⟨fun x y hxy hy => ?_, fun r hr => ?_⟩
  · have hM : rowMax [some x, some y] = some y := rowMax_of _ _ (by simp) (by simp) (by
      intro z hz
      simp at hz
      rcases hz with rfl | rfl
      · exact hxy.le
      · exact le_rfl)
    refine ⟨x / y, y / y, ?_, ?_⟩
    · simp [normSim, hM, F.div, hy.ne]
    · rw [div_self hy.ne, one_lt_div_of_neg hy]
      exact hxy
  · have : rowMax r = none := by
      unfold rowMax
      rw [if_pos (List.any_eq_true.2 ⟨none, hr, rfl⟩)]
    simp only [normSim, this, List.map_cons, List.map_nil]
    congr 1
    refine List.map_congr_left fun x _ => ?_
    cases x <;> rfl

/-! ## C177: the file of a figure -/

theorem numbered_inj (name : Str) (i j : Nat) (h : numbered name i ++ c!"_change.png" = numbered name j ++ c!"_change.png") : i = j := by
  have h1 := List.append_cancel_right h
  unfold numbered at h1
  have h2 := List.append_cancel_left h1
  exact Nat.repr_injective (String.toList_inj.1 h2)

theorem exists_free (dir : List Str) (name : Str) : ∃ k, numbered name k ++ c!"_change.png" ∉ dir := by
  by_contra hn
  push Not at hn
  have hs : (Finset.range (dir.length + 1)).image (fun k => numbered name k ++ c!"_change.png") ⊆ dir.toFinset := by
    intro x hx
    obtain ⟨k, _, rfl⟩ := Finset.mem_image.1 hx
    exact List.mem_toFinset.2 (hn k)
  have h1 := Finset.card_le_card hs
  rw [Finset.card_image_of_injective _ fun i j h => numbered_inj name i j h, Finset.card_range] at h1
  have := List.toFinset_card_le dir
  omega

theorem freeName_end (dir : List Str) (name : Str) (k : Nat) (hk : numbered name k ++ c!"_change.png" ∉ dir) (d : Nat) :
    ∀ i, i + d = k → ∀ fname exist, ∃ f, ∀ fuel, d + 2 ≤ fuel → freeName dir name fuel i fname exist = some f := by
  induction d with
  | zero =>
    intro i hi fname exist
    cases exist with
    | false => exact ⟨fname, fun fuel hf => by obtain ⟨g, rfl⟩ := Nat.exists_eq_add_of_le' (by omega : 1 ≤ fuel); simp [freeName]⟩
    | true =>
      refine ⟨numbered name i, fun fuel hf => ?_⟩
      obtain ⟨g, rfl⟩ := Nat.exists_eq_add_of_le' hf
      have : dir.contains (numbered name i ++ c!"_change.png") = false := by
        rw [show i = k by omega]
        simpa using hk
      simp only [freeName, if_true, this, Bool.false_eq_true, if_false]
  | succ d ih =>
    intro i hi fname exist
    cases exist with
    | false => exact ⟨fname, fun fuel hf => by obtain ⟨g, rfl⟩ := Nat.exists_eq_add_of_le' (by omega : 1 ≤ fuel); simp [freeName]⟩
    | true =>
      obtain ⟨f, hf⟩ := ih (i + 1) (by omega) (numbered name i) (dir.contains (numbered name i ++ c!"_change.png"))
      refine ⟨f, fun fuel hfu => ?_⟩
      obtain ⟨g, rfl⟩ := Nat.exists_eq_add_of_le' (by omega : 1 ≤ fuel)
      simp only [freeName, if_true]
      exact hf g (by omega)

/-- **C177** (part) The search for a file name ends for every directory, and saving a figure with any name leaves all
files but the one it writes as they are. -/
theorem c177_others {β : Type} (files : List (Str × β)) (name : Str) (fig : β) :
    ∃ f files' fuel0, (∀ fuel, fuel0 ≤ fuel → figureFile (files.map Prod.fst) fuel name = some f ∧ saveFigure files fuel name fig = some files') ∧
      (f, fig) ∈ files' ∧ ∀ e : Str × β, e.1 ≠ f → (e ∈ files' ↔ e ∈ files) := by
  obtain ⟨k, hk⟩ := exists_free (files.map Prod.fst) name
  obtain ⟨nm, hnm⟩ := freeName_end (files.map Prod.fst) name k hk k 0 (Nat.zero_add _)
    (name ++ c!"_change.png") ((files.map Prod.fst).contains (name ++ c!"_change.png"))
  obtain ⟨f, hf⟩ : ∃ f, ∀ fuel, k + 2 ≤ fuel → figureFile (files.map Prod.fst) fuel name = some f := by
    unfold figureFile
    have : ∃ n, ∀ fuel, k + 2 ≤ fuel → (if name = c!"plot_default" then
        freeName (files.map Prod.fst) name fuel 0 (name ++ c!"_change.png") ((files.map Prod.fst).contains (name ++ c!"_change.png"))
      else some name) = some n := by
      by_cases hd : name = c!"plot_default"
      · exact ⟨nm, fun fuel hfu => by rw [if_pos hd, hnm fuel hfu]⟩
      · exact ⟨name, fun fuel _ => by rw [if_neg hd]⟩
    obtain ⟨n, hn⟩ := this
    exact ⟨withExtension n, fun fuel hfu => by rw [hn fuel hfu]; rfl⟩
  refine ⟨f, (f, fig) :: files.filter fun e => e.1 != f, k + 2, fun fuel hfu => ⟨hf fuel hfu, ?_⟩, by simp, fun e he => ?_⟩
  · unfold saveFigure
    rw [hf fuel hfu]
    rfl
  · constructor
    · intro h
      rcases List.mem_cons.1 h with h | h
      · exact absurd (by rw [h]) he
      · exact (List.mem_filter.1 h).1
    · intro h
      exact List.mem_cons_of_mem _ (List.mem_filter.2 ⟨h, by simpa using he⟩)

theorem splitOn_join (c : Char) (a s : Str) : splitOn c (a ++ c :: s) = splitOn c a ++ splitOn c s := by
  induction a with
  | nil => simp [splitOn]
  | cons d a ih =>
    have hne := splitOn_ne_nil c a
    simp only [List.cons_append, splitOn, ih]
    split
    · simp
    · cases hs : splitOn c a with
      | nil => exact absurd hs hne
      | cons w ws => simp

/-- the formats of figures -/
def figureFormats : List Str := [c!"png", c!"svg", c!"pdf", c!"jpg"]

/-- **C177** (part) A name with an extension `.png`, `.svg`, `.pdf` or `.jpg` (in small or capital letters) is the name of
the file, every other name is completed by `.png`. (A name without any dot that is itself the name of a format, such as
`png`, is taken as it is.) -/
theorem c177_extension (dir : List Str) (fuel : Nat) (stem ext : Str) (hext : '.' ∉ ext) :
    figureFile dir fuel (stem ++ '.' :: ext) =
      some (if ext.map Char.toLower ∈ figureFormats then stem ++ '.' :: ext else stem ++ '.' :: ext ++ c!".png") ∧
    (ext ≠ c!"plot_default" → ext.map Char.toLower ∉ figureFormats → figureFile dir fuel ext = some (ext ++ c!".png")) := by
  constructor
  · unfold figureFile
    rw [if_neg]
    · simp only [Option.map_some, withExtension, splitOn_join, splitOn_eq_single _ _ hext]
      simp [figureFormats]
    · intro h
      have : '.' ∈ c!"plot_default" := by rw [← h]; simp
      revert this; decide
  · intro h1 h2
    unfold figureFile
    rw [if_neg h1]
    simp only [Option.map_some, withExtension, splitOn_eq_single _ _ hext]
    simpa [figureFormats] using h2

example : '.' ∉ c!"PDF" ∧ (c!"PDF").map Char.toLower ∈ figureFormats ∧ (c!"v1").map Char.toLower ∉ figureFormats := by decide

/-- **C177** (part) The default name: if the directory has no figure with this name, a new file is written and no file is
replaced.
Missing for the full property: `c177_default_violated`. -/
theorem c177_fresh_partial (dir : List Str) (h : c!"plot_default_change.png" ∉ dir) (fuel : Nat) :
    figureFile dir (fuel + 1) c!"plot_default" = some c!"plot_default_change.png" := by
  have : dir.contains (c!"plot_default" ++ c!"_change.png") = false := by simpa using h
  unfold figureFile
  simp only [if_true, freeName, this, Bool.false_eq_true, if_false]
  rfl

example : c!"plot_default_change.png" ∉ ([c!"other.png"] : List Str) := by decide

/-- saving figures with the default name, one after the other -/
def saveDefault {β : Type} (fuel : Nat) : List (Str × β) → List β → Option (List (Str × β))
  | files, [] => some files
  | files, g :: gs => (saveFigure files fuel c!"plot_default" g).bind fun files => saveDefault fuel files gs

theorem saveFigure_second {β : Type} (a : β) (rest : List (Str × β)) (hrest : rest = [] ∨ ∃ b, rest = [(c!"plot_default_0.png", b)]) (g : β) (fuel : Nat) :
    saveFigure (rest ++ [(c!"plot_default_change.png", a)]) (fuel + 2) c!"plot_default" g = some [(c!"plot_default_0.png", g), (c!"plot_default_change.png", a)] := by
  rcases hrest with rfl | ⟨b, rfl⟩
  · unfold saveFigure figureFile
    have e1 : ([c!"plot_default_change.png"] : List Str).contains (c!"plot_default" ++ c!"_change.png") = true := by decide
    have e3 : numbered c!"plot_default" 0 = c!"plot_default_0" := by decide
    simp only [List.nil_append, List.map_cons, List.map_nil, if_true, freeName, e1, e3]
    rfl
  · unfold saveFigure figureFile
    have e3 : numbered c!"plot_default" 0 = c!"plot_default_0" := by decide
    simp only [List.cons_append, List.nil_append, List.map_cons, List.map_nil, if_true, freeName, e3]
    rfl

/-- **C177** (negation of a part) The default name should give a new file for each figure. But of any number of figures
that are saved into an empty directory only the first and the last one remain: the search looks for files
`plot_default_0_change.png`, which are never written, so the second and all later figures have the same name. -/
theorem c177_default_violated {β : Type} (first second : β) (others : List β) (fuel : Nat) :
    saveDefault (fuel + 2) [] (first :: second :: others) =
      some [(c!"plot_default_0.png", (second :: others).getLast (by simp)), (c!"plot_default_change.png", first)] := by
  have h0 : saveFigure ([] : List (Str × β)) (fuel + 2) c!"plot_default" first = some [(c!"plot_default_change.png", first)] := by
    unfold saveFigure
    rw [show ([] : List (Str × β)).map Prod.fst = [] from rfl, c177_fresh_partial [] (by simp) (fuel + 1)]
    rfl
  have h1 := saveFigure_second first [] (Or.inl rfl) second fuel
  have h2 : ∀ (gs : List β) (b : β), saveDefault (fuel + 2) [(c!"plot_default_0.png", b), (c!"plot_default_change.png", first)] gs =
      some [(c!"plot_default_0.png", (b :: gs).getLast (by simp)), (c!"plot_default_change.png", first)] := by
    intro gs
    induction gs with
    | nil => intro b; rfl
    | cons g gs ih =>
      intro b
      have := saveFigure_second first [(c!"plot_default_0.png", b)] (Or.inr ⟨b, rfl⟩) g fuel
      simp only [List.cons_append, List.nil_append] at this
      rw [saveDefault, this, Option.bind_some, ih g, List.getLast_cons (List.cons_ne_nil g gs)]
  simp only [List.nil_append] at h1
  rw [saveDefault, h0, Option.bind_some, saveDefault, h1, Option.bind_some, h2 others second]

end SeisMIC
