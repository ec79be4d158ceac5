import Verif.Props.Spatial
import Mathlib.Tactic.FieldSimp
import Mathlib.Algebra.BigOperators.Group.Finset.Basic

/-! # Alignment of curves: C59, C60 -/

namespace SeisMIC

open scoped BigOperators

/-! ### C59 -/

theorem window_filter {α : Type} (l : List α) (n a b : Nat) :
    ((l.zipIdx n).filter fun x => decide (x.2 < b ∧ a ≤ x.2)).map Prod.fst = (l.take (b - n)).drop (a - n) := by
  induction l generalizing n with
  | nil => simp
  | cons x l ih =>
    rw [List.zipIdx_cons]
    by_cases hb : n < b
    · have e : b - n = (b - (n + 1)) + 1 := by omega
      by_cases ha : a ≤ n
      · rw [List.filter_cons_of_pos (by simp [hb, ha]), List.map_cons, ih, e]
        have : a - n = 0 := by omega
        have h2 : a - (n + 1) = 0 := by omega
        rw [this, h2]
        simp
      · rw [List.filter_cons_of_neg (by simp [ha]), ih, e]
        have : a - n = (a - (n + 1)) + 1 := by omega
        rw [this, List.take_succ_cons, List.drop_succ_cons]
    · rw [List.filter_cons_of_neg (by simp [hb]), ih]
      have h1 : b - n = 0 := by omega
      have h2 : b - (n + 1) = 0 := by omega
      rw [h1, h2]
      simp

theorem alignWindow_eq (n ii steps : Nat) (l : List F) (hl : l.length = n) :
    alignWindow n ii steps l = (l.take (ii + steps + 1)).drop (ii - steps) := by
  unfold alignWindow
  split
  · rename_i h
    have : ii - steps = 0 := by omega
    rw [this]; rfl
  · split
    · rw [List.take_of_length_le (by omega)]
    · rfl

theorem zip_take_drop {α β : Type} (l : List α) (m : List β) (a b : Nat) :
    ((l.zip m).take b).drop a = ((l.take b).drop a).zip ((m.take b).drop a) := by
  induction l generalizing m a b with
  | nil => simp
  | cons x l ih =>
    cases m with
    | nil => simp
    | cons y m =>
      cases b with
      | zero => simp
      | succ b =>
        cases a with
        | zero =>
          have := ih m 0 b
          simp only [List.drop_zero] at this
          simp [this]
        | succ a => simp [ih m a b]

theorem around_eq (v c : List F) (ii steps : Nat) (hl : v.length = c.length) :
    Spec.around v c ii steps = ((alignWindow v.length ii steps v).zip (alignWindow v.length ii steps c)).filterMap fun x =>
      match x with
      | (some v, some c) => some (v, c)
      | _ => none := by
  rw [alignWindow_eq _ _ _ v rfl, alignWindow_eq _ _ _ c hl.symm, ← zip_take_drop]
  have h := window_filter (v.zip c) 0 (ii - steps) (ii + steps + 1)
  rw [Nat.sub_zero, Nat.sub_zero] at h
  rw [← h, List.filterMap_map]
  unfold Spec.around
  have : (fun x : (F × F) × Nat => decide (x.2 ≤ ii + steps ∧ ii ≤ x.2 + steps)) =
      fun x => decide (x.2 < ii + steps + 1 ∧ ii - steps ≤ x.2) := by
    funext x
    rw [decide_eq_decide]
    omega
  rw [this]
  rfl

theorem sums_of_window (v c : List F) (hl : v.length = c.length)
    (hn : ∀ (k : Nat) (a b : F), v[k]? = some a → c[k]? = some b → (a = none ↔ b = none)) :
    nansum (List.zipWith F.mul v c) = (((v.zip c).filterMap fun x => match x with
      | (some v, some c) => some (v, c)
      | _ => none).map fun x => x.1 * x.2).sum ∧
    nansum c = (((v.zip c).filterMap fun x => match x with
      | (some v, some c) => some (v, c)
      | _ => none).map fun x => x.2).sum := by
  induction v generalizing c with
  | nil =>
    cases c with
    | nil => exact ⟨rfl, rfl⟩
    | cons b c => simp at hl
  | cons a v ih =>
    cases c with
    | nil => simp at hl
    | cons b c =>
      obtain ⟨h1, h2⟩ := ih c (by simpa using hl) fun k x y hx hy => hn (k + 1) x y hx hy
      have hab := hn 0 a b rfl rfl
      cases a with
      | none =>
        have hb := hab.1 rfl
        subst hb
        exact ⟨h1, h2⟩
      | some x =>
        cases b with
        | none => exact absurd (hab.2 rfl) (by simp)
        | some y =>
          unfold nansum at h1 h2 ⊢
          constructor
          · have : notNan (List.zipWith F.mul (some x :: v) (some y :: c)) = x * y :: notNan (List.zipWith F.mul v c) := rfl
            rw [this, List.sum_cons, h1]
            simp
          · have : notNan (some y :: c) = y :: notNan c := rfl
            rw [this, List.sum_cons, h2]
            simp

/-- the list with `s` subtracted -/
def subAll (s : Rat) (v : List F) : List F := v.map fun x => F.sub x (some s)

theorem alignWindow_map (n ii steps : Nat) (f : F → F) (l : List F) :
    alignWindow n ii steps (l.map f) = (alignWindow n ii steps l).map f := by
  unfold alignWindow
  split
  · rw [List.map_take]
  · split
    · rw [List.map_drop]
    · rw [List.map_drop, List.map_take]

theorem shifted_sum (s : Rat) (l m : List F) :
    (((subAll s l).zip m).filterMap fun x => match x with
      | (some v, some c) => some (v, c)
      | _ => none) = ((l.zip m).filterMap fun x => match x with
      | (some v, some c) => some (v, c)
      | _ => none).map fun x : Rat × Rat => (x.1 - s, x.2) := by
  induction l generalizing m with
  | nil => rfl
  | cons a l ih =>
    cases m with
    | nil => simp
    | cons b m =>
      have ih := ih m
      unfold subAll at ih ⊢
      rw [List.map_cons, List.zip_cons_cons, List.zip_cons_cons, List.filterMap_cons, List.filterMap_cons, ih]
      cases a with
      | none => rfl
      | some x =>
        cases b with
        | none => rfl
        | some y => rfl

theorem sum_sub_mul (s : Rat) (l : List (Rat × Rat)) :
    (l.map fun x => (x.1 - s) * x.2).sum = (l.map fun x => x.1 * x.2).sum - s * (l.map fun x => x.2).sum := by
  induction l with
  | nil => simp
  | cons a l ih => simp only [List.map_cons, List.sum_cons, ih]; ring

theorem alignWindow_getElem (n ii steps : Nat) (l : List F) (hl : l.length = n) (k : Nat) (x : F)
    (h : (alignWindow n ii steps l)[k]? = some x) :
    l[ii - steps + k]? = some x ∧ ii - steps + k ≤ ii + steps ∧ ii ≤ ii - steps + k + steps := by
  rw [alignWindow_eq n ii steps l hl, List.getElem?_drop, List.getElem?_take] at h
  split at h
  · exact ⟨h, by omega, by omega⟩
  · cases h

/-- **C59** If value and coherence are missing at the same points around the time, and the
coherences there do not add up to zero, the coherence-weighted mean around the time is the
requested value after the alignment. Partial: if a value is missing where there is a
coherence, the mean is not the requested value (`c59_missing_violated`). -/
theorem c59_mean_partial (utc : Int) (steps : Nat) (value : Rat) (c c' : Curve) (hl : c.value.length = c.corr.length)
    (h : alignCurve utc steps value c = .ok c')
    (hn : ∀ (k : Nat) (a b : F), k ≤ c.nearest utc + steps → c.nearest utc ≤ k + steps → c.value[k]? = some a →
      c.corr[k]? = some b → (a = none ↔ b = none))
    (hsum : ((Spec.around c.value c.corr (c.nearest utc) steps).map fun x => x.2).sum ≠ 0) :
    Spec.LocalMean c'.value c'.corr (c.nearest utc) steps value := by
  unfold alignCurve at h
  split at h
  · cases h
  · cases h
  · split at h
    · cases h
    · rename_i p hp
      simp only [Except.ok.injEq] at h
      have hwin := sums_of_window (alignWindow c.value.length (c.nearest utc) steps c.value)
        (alignWindow c.value.length (c.nearest utc) steps c.corr)
        (by rw [alignWindow_eq _ _ _ _ rfl, alignWindow_eq _ _ _ _ hl.symm]; simp [hl])
        (by
          intro k a b ha hb
          obtain ⟨h1, h2, h3⟩ := alignWindow_getElem _ _ _ _ rfl k a ha
          obtain ⟨h4, _, _⟩ := alignWindow_getElem _ _ _ _ hl.symm k b hb
          exact hn _ a b h2 h3 h1 h4)
      rw [← around_eq c.value c.corr _ steps hl] at hwin
      obtain ⟨hw1, hw2⟩ := hwin
      have hshift : F.div (some (nansum (List.zipWith F.mul (alignWindow c.value.length (c.nearest utc) steps c.value)
          (alignWindow c.value.length (c.nearest utc) steps c.corr)))) (some (nansum (alignWindow c.value.length (c.nearest utc) steps c.corr))) =
          some (((Spec.around c.value c.corr (c.nearest utc) steps).map fun x => x.1 * x.2).sum /
            ((Spec.around c.value c.corr (c.nearest utc) steps).map fun x => x.2).sum) := by
        rw [hw1, hw2]
        unfold F.div
        simp [hsum]
      rw [hshift] at h
      subst h
      simp only
      generalize hA : ((Spec.around c.value c.corr (c.nearest utc) steps).map fun x => x.1 * x.2).sum = A
      generalize hB : ((Spec.around c.value c.corr (c.nearest utc) steps).map fun x => x.2).sum = B at hsum
      have hmap : (c.value.map fun x => F.sub x (F.sub (some (A / B)) (some value))) = subAll (A / B - value) c.value := rfl
      have haround : Spec.around (subAll (A / B - value) c.value) c.corr (c.nearest utc) steps =
          (Spec.around c.value c.corr (c.nearest utc) steps).map fun x => (x.1 - (A / B - value), x.2) := by
        have hlen : (subAll (A / B - value) c.value).length = c.value.length := by simp [subAll]
        rw [around_eq _ _ _ _ (by rw [hlen, hl]), around_eq _ _ _ _ hl, hlen]
        have : alignWindow c.value.length (c.nearest utc) steps (subAll (A / B - value) c.value) =
            subAll (A / B - value) (alignWindow c.value.length (c.nearest utc) steps c.value) :=
          alignWindow_map _ _ _ _ _
        rw [this, shifted_sum]
      unfold Spec.LocalMean
      rw [hmap, haround, List.map_map, List.map_map]
      have e1 : ((Spec.around c.value c.corr (c.nearest utc) steps).map ((fun x : Rat × Rat => x.2) ∘ fun x => (x.1 - (A / B - value), x.2))).sum = B := by
        rw [← hB]; rfl
      have e2 : ((Spec.around c.value c.corr (c.nearest utc) steps).map ((fun x : Rat × Rat => x.1 * x.2) ∘ fun x => (x.1 - (A / B - value), x.2))).sum =
          A - (A / B - value) * B := by
        rw [← hA, ← hB]
        exact sum_sub_mul _ _
      rw [e1, e2]
      refine ⟨hsum, ?_⟩
      field_simp
      ring

/-- **C59** All points are shifted by the same amount, missing values stay missing, and the
coherences and times do not change. If the coherences around the time do not add up to zero
the amount is a number. -/
theorem c59_shift (utc : Int) (steps : Nat) (value : Rat) (c c' : Curve)
    (h : alignCurve utc steps value c = .ok c') :
    c'.corr = c.corr ∧ c'.starts = c.starts ∧ c'.ends = c.ends ∧ c'.stat0 = c.stat0 ∧ c'.stat1 = c.stat1 ∧
    (∃ p, c'.proc = some p ∧ p.aligned = some value) ∧
    ∃ s : F, c'.value = c.value.map (fun x => F.sub x s) ∧
      (nansum (alignWindow c.value.length (c.nearest utc) steps c.corr) ≠ 0 → s ≠ none) := by
  unfold alignCurve at h
  split at h
  · cases h
  · cases h
  · split at h
    · cases h
    · rename_i p hp
      simp only [Except.ok.injEq] at h
      subst h
      refine ⟨rfl, rfl, rfl, rfl, rfl, ⟨_, rfl, rfl⟩, _, rfl, ?_⟩
      intro hs
      unfold F.div
      simp [hs, F.sub]

/-- a curve with a missing value between two others -/
def exGap : Curve :=
  { starts := [0, 10, 20], ends := [10, 20, 30], value := [some 1, some 1, none], corr := [some (1/2), some (1/2), some (1/2)],
    stat0 := (1, 1), stat1 := (2, 2), proc := some { twStart := 1, twLen := 2, freqMin := 1, freqMax := 2, aligned := none } }

/-- **C59** violated: a missing value with a coherence counts as zero, so that a constant
curve aligned to 0 is not 0 -/
theorem c59_missing_violated :
    (alignCurve 10 1 0 exGap).map (·.value) = .ok [some (1/3), some (1/3), none] ∧
    ¬ Spec.LocalMean [some (1/3), some (1/3), none] exGap.corr (exGap.nearest 10) 1 0 := by
  constructor
  · decide +kernel
  · unfold Spec.LocalMean
    decide +kernel

/-- Hypotheses of `c59_mean_partial`. -/
example :
    let c : Curve := { exGap with value := [some 1, some 3, none], corr := [some (1/2), some (1/2), none] }
    (alignCurve 10 1 5 c).map (·.value) = .ok [some 4, some 6, none] ∧
    ((Spec.around c.value c.corr (c.nearest 10) 1).map fun x => x.2).sum ≠ 0 := by
  constructor <;> decide +kernel

/-! ### C60 -/

theorem alignLoop_unselected (utc : Int) (steps : Nat) (l : List (Curve × Bool)) (ss : List Rat) (out : List Curve)
    (h : alignLoop utc steps l ss = .ok out) :
    out.length = l.length ∧ ∀ (k : Nat) (c : Curve), l[k]? = some (c, false) → out[k]? = some c := by
  induction l generalizing ss out with
  | nil =>
    simp only [alignLoop, Except.ok.injEq] at h
    subst h
    exact ⟨rfl, fun k c hk => by simp at hk⟩
  | cons x l ih =>
    obtain ⟨c, b⟩ := x
    have step : ∀ (c' : Curve) (ss' : List Rat) (r : List Curve), alignLoop utc steps l ss' = .ok r → (b = false → c' = c) →
        (c' :: r).length = ((c, b) :: l).length ∧
          ∀ (k : Nat) (d : Curve), ((c, b) :: l)[k]? = some (d, false) → (c' :: r)[k]? = some d := by
      intro c' ss' r hr hb
      obtain ⟨h1, h2⟩ := ih ss' r hr
      refine ⟨by simp [h1], ?_⟩
      intro k d hk
      cases k with
      | zero =>
        simp only [List.getElem?_cons_zero, Option.some.injEq, Prod.mk.injEq] at hk ⊢
        rw [hb hk.2, hk.1]
      | succ k => exact h2 k d hk
    cases b with
    | false =>
      simp only [alignLoop, bind, Except.bind] at h
      cases hr : alignLoop utc steps l ss with
      | error e => rw [hr] at h; cases h
      | ok r =>
        rw [hr] at h
        simp only [pure, Except.pure, Except.ok.injEq] at h
        subst h
        exact step c ss r hr fun _ => rfl
    | true =>
      cases ss with
      | nil =>
        simp only [alignLoop, bind, Except.bind] at h
        cases hr : alignLoop utc steps l [] with
        | error e => rw [hr] at h; cases h
        | ok r =>
          rw [hr] at h
          simp only [pure, Except.pure, Except.ok.injEq] at h
          subst h
          exact step c [] r hr fun _ => rfl
      | cons s ss =>
        simp only [alignLoop, bind, Except.bind] at h
        cases ha : alignCurve utc steps s c with
        | error e => rw [ha] at h; cases h
        | ok c' =>
          rw [ha] at h
          simp only at h
          cases hr : alignLoop utc steps l ss with
          | error e => rw [hr] at h; cases h
          | ok r =>
            rw [hr] at h
            simp only [pure, Except.pure, Except.ok.injEq] at h
            subst h
            exact step c' ss r hr fun hb => by cases hb

/-- the curve is to be aligned at this time: not aligned before, at least six values with a
coherence, covering the time, and a coherence of at least the threshold at the closest start
time -/
def Starts (utc : Int) (thres : Rat) (c : Curve) : Prop :=
  (∃ p, c.proc = some p ∧ p.aligned = none) ∧ 6 ≤ (c.corr.filter Option.isSome).length ∧
  (∃ s e, c.starts.head? = some s ∧ c.ends.getLast? = some e ∧ s ≤ utc ∧ utc ≤ e) ∧
  ∃ k r, Spec.Closest c.starts utc k ∧ c.corr[k]? = some (some r) ∧ thres ≤ r

theorem notNan_length (l : List F) : (notNan l).length = (l.filter Option.isSome).length := by
  unfold notNan
  induction l with
  | nil => rfl
  | cons a l ih =>
    cases a with
    | none => exact ih
    | some x => exact congrArg (· + 1) ih

theorem alignSelected_true (utc : Int) (thres : Rat) (c : Curve) (b : Bool) (h : alignSelected utc thres c = .ok b) :
    b = true ↔ Starts utc thres c := by
  unfold alignSelected at h
  unfold Starts
  split at h
  · cases h
  · rename_i p hp
    split at h
    · rename_i ha
      simp only [Except.ok.injEq] at h
      subst h
      simp only [Bool.false_eq_true, false_iff, not_and]
      rintro ⟨p', hp', hpa⟩
      rw [hp] at hp'
      cases hp'
      rw [hpa] at ha
      cases ha
    · rename_i ha
      have hpa : p.aligned = none := by
        cases hpa : p.aligned with
        | none => rfl
        | some v => rw [hpa] at ha; exact absurd rfl ha
      have h1 : ∃ q, c.proc = some q ∧ q.aligned = none := ⟨p, hp, hpa⟩
      unfold dvStarts at h
      rw [notNan_length] at h
      split at h
      · rename_i h6
        simp only [Except.ok.injEq] at h
        subst h
        simp only [Bool.false_eq_true, false_iff, not_and]
        intro _ h6'
        omega
      · rename_i h6
        rw [not_lt] at h6
        split at h
        · rename_i s e hs he
          have hne : c.starts ≠ [] := by intro hn; rw [hn] at hs; cases hs
          split at h
          · rename_i hcov
            simp only [Except.ok.injEq] at h
            subst h
            simp only [Bool.false_eq_true, false_iff, not_and]
            rintro _ _ ⟨s', e', hs', he', h3, h4⟩
            rw [hs] at hs'; rw [he] at he'
            cases hs'; cases he'
            omega
          · rename_i hcov
            push Not at hcov
            have hcv : ∃ s e, c.starts.head? = some s ∧ c.ends.getLast? = some e ∧ s ≤ utc ∧ utc ≤ e :=
              ⟨s, e, hs, he, hcov.1, hcov.2⟩
            split at h
            · rename_i r hr
              simp only [Except.ok.injEq] at h
              subst h
              simp only [Bool.not_eq_true', decide_eq_false_iff_not, not_lt]
              constructor
              · intro ht
                exact ⟨h1, h6, hcv, c.nearest utc, r, nearest_closest c utc hne, hr, ht⟩
              · rintro ⟨_, _, _, k, r', hk, hr', ht⟩
                have := closest_unique _ _ _ _ hk (nearest_closest c utc hne)
                subst this
                rw [hr] at hr'
                cases hr'
                exact ht
            · rename_i hr
              simp only [Except.ok.injEq] at h
              subst h
              simp only [Bool.false_eq_true, false_iff, not_and]
              rintro _ _ _ ⟨k, r', hk, hr', ht⟩
              have := closest_unique _ _ _ _ hk (nearest_closest c utc hne)
              subst this
              rw [hr] at hr'
              cases hr'
            · cases h
        · cases h

theorem alignDvs_cases (g : Geo) (ord : List Pt → List Pt) (kern : KKey → Except PyErr (List Rat)) (st : Option Stations)
    (vel : Option (List Rat)) (utc : Int) (steps : Nat) (thres : Rat) (curves out : List Curve)
    (h : alignDvs g ord kern st vel utc steps thres curves = .ok out) :
    ∃ flags, List.Forall₂ (fun c b => alignSelected utc thres c = .ok b) curves flags ∧
      ((flagged (curves.zip flags) = [] ∧ out = curves) ∨
        ∃ shifts, alignShifts g ord kern st vel utc (flagged (curves.zip flags)) = .ok shifts ∧
          alignLoop utc steps (curves.zip flags) shifts = .ok out) := by
  unfold alignDvs at h
  simp only [bind, Except.bind] at h
  split at h
  · cases h
  · rename_i flags hflags
    refine ⟨flags, mapM_forall2 _ _ _ hflags, ?_⟩
    split at h
    · rename_i he
      simp only [pure, Except.pure, Except.ok.injEq] at h
      exact Or.inl ⟨he, h.symm⟩
    · right
      split at h
      · cases h
      · rename_i shifts hs
        exact ⟨shifts, hs, h⟩

/-- **C60** A curve that was aligned before, or does not start at the time, is left as it is,
whatever the other curves are. -/
theorem c60_others (g : Geo) (ord : List Pt → List Pt) (kern : KKey → Except PyErr (List Rat)) (st : Option Stations)
    (vel : Option (List Rat)) (utc : Int) (steps : Nat) (thres : Rat) (curves out : List Curve)
    (h : alignDvs g ord kern st vel utc steps thres curves = .ok out) :
    out.length = curves.length ∧
    ∀ (k : Nat) (c : Curve), curves[k]? = some c → ¬ Starts utc thres c → out[k]? = some c := by
  obtain ⟨flags, hf, h⟩ := alignDvs_cases g ord kern st vel utc steps thres curves out h
  rcases h with ⟨_, rfl⟩ | ⟨shifts, _, h⟩
  · exact ⟨rfl, fun k c hk _ => hk⟩
  · obtain ⟨h1, h2⟩ := alignLoop_unselected utc steps _ _ _ h
    refine ⟨by rw [h1, List.length_zip, hf.length_eq]; simp, ?_⟩
    intro k c hk hs
    obtain ⟨hkl, rfl⟩ := List.getElem?_eq_some_iff.1 hk
    have hkf : k < flags.length := by rw [← hf.length_eq]; exact hkl
    have hsel := hf.get hkl hkf
    simp only [List.get_eq_getElem] at hsel
    have hb : flags[k] = false := by
      have := alignSelected_true utc thres _ _ hsel
      cases hfk : flags[k] with
      | false => rfl
      | true => exact absurd (this.1 hfk) hs
    apply h2
    rw [List.getElem?_eq_getElem (by simp [hkl, hkf]), List.getElem_zip, hb]

/-- the value that the grid predicts for the two stations of a curve: the values of the cells, weighted with the kernel -/
def ForwardValue (g : Geo) (kern : KKey → Except PyErr (List Rat)) (grid : List Rat) (t : Rat) (c : Curve) (v : Rat) : Prop :=
  ∃ row, kern ((g.east c.stat0.2, g.north c.stat0.1), (g.east c.stat1.2, g.north c.stat1.1), t) = .ok row ∧
    v = ∑ k ∈ Finset.range (min row.length grid.length), row.getD k 0 * grid.getD k 0

theorem dotQ_eq_sum (a b : List Rat) : dotQ a b = ∑ k ∈ Finset.range (min a.length b.length), a.getD k 0 * b.getD k 0 := by
  unfold dotQ
  induction a generalizing b with
  | nil => simp
  | cons x a ih =>
    cases b with
    | nil => simp
    | cons y b =>
      have h1 : min (x :: a).length (y :: b).length = min a.length b.length + 1 := by simp only [List.length_cons]; omega
      rw [h1, Finset.sum_range_succ', List.zip_cons_cons, List.map_cons, List.sum_cons, ih b]
      simp [add_comm]

theorem zip_map_same {α β γ : Type} (l : List α) (f : α → β) (g : α → γ) :
    (l.map f).zip (l.map g) = l.map fun x => (f x, g x) := by
  induction l with
  | nil => rfl
  | cons a l ih => simp [ih]

theorem forwardModel_spec (g : Geo) (ord : List Pt → List Pt) (kern : KKey → Except PyErr (List Rat)) (st : Option Stations)
    (grid : List Rat) (utc : Int) (curves : List Curve) (vals : List Rat)
    (h : forwardModel g ord kern st grid utc curves = .ok vals) (hv : ∀ c ∈ curves, ∃ d, Contributes utc c d) :
    ∃ p : Proc, (∃ c, curves.getLast? = some c ∧ c.proc = some p) ∧
      List.Forall₂ (fun c v => ForwardValue g kern grid ((p.twStart + (p.twStart + p.twLen)) / 2) c v) curves vals := by
  unfold forwardModel at h
  simp only [bind, Except.bind] at h
  split at h
  · cases h
  · rename_i r hr
    obtain ⟨data, st', proc⟩ := r
    simp only at h
    cases proc with
    | none => cases h
    | some p =>
      simp only at h
      split at h
      · cases h
      · rename_i rows hrows
        simp only [pure, Except.pure, Except.ok.injEq] at h
        subst h
        -- the data belong to the curves one by one
        unfold extractInfo at hr
        simp only [bind, Except.bind] at hr
        split at hr
        · cases hr
        · rename_i sel hsel
          have hf := mapM_forall2 _ _ _ hsel
          have hdata : List.Forall₂ (fun c d => Contributes utc c d) curves (sel.filterMap id) := by
            clear hr hrows hsel
            induction hf with
            | nil => exact .nil
            | cons ha hf ih =>
              rename_i c o cs os
              obtain ⟨d, hd⟩ := hv c (by simp)
              have := (extractOne_some utc c d).2 hd
              rw [ha] at this
              simp only [Except.ok.injEq] at this
              subst this
              exact .cons hd (ih fun c hc => hv c (by simp [hc]))
          split at hr
          · cases hr
          · rename_i d hd
            split at hr
            · cases hr
            · split at hr
              · cases hr
              · simp only [pure, Except.pure, Except.ok.injEq, Prod.mk.injEq] at hr
                obtain ⟨hr1, _, hr3⟩ := hr
                rw [hr1] at hdata hd
                have hlast : ∃ c, curves.getLast? = some c ∧ c.proc = some p := by
                  have hne : data ≠ [] := by intro hn; rw [hn] at hd; cases hd
                  have hl := hdata.length_eq
                  have hcne : curves ≠ [] := by
                    intro hn; rw [hn] at hl
                    exact hne (List.length_eq_zero_iff.1 hl.symm)
                  refine ⟨curves.getLast hcne, List.getLast?_eq_getLast_of_ne_nil hcne, ?_⟩
                  have hg := hdata.get (i := curves.length - 1) (by have := List.length_pos_iff.2 hcne; omega)
                    (by have := List.length_pos_iff.2 hcne; omega)
                  simp only [List.get_eq_getElem] at hg
                  rw [List.getLast_eq_getElem, ← hg.2.2.2.2.2.2]
                  rw [List.getLast?_eq_getLast_of_ne_nil hne, Option.some.injEq, List.getLast_eq_getElem] at hd
                  have e : data[curves.length - 1]'(by have := List.length_pos_iff.2 hcne; omega) = d := by
                    rw [← hd]; congr 1; omega
                  rw [e, hr3]
                refine ⟨p, hlast, ?_⟩
                have hk := (computeKernels_spec g kern [] (data.map (·.stat0)) (data.map (·.stat1))
                  ((p.twStart + (p.twStart + p.twLen)) / 2) (fun _ _ h => by cases h)).1
                rw [hrows] at hk
                cases hc0 : g.cart (data.map (·.stat0)) with
                | error e => rw [hc0] at hk; cases hk
                | ok q0 =>
                  cases hc1 : g.cart (data.map (·.stat1)) with
                  | error e => rw [hc0, hc1] at hk; cases hk
                  | ok q1 =>
                    rw [hc0, hc1] at hk
                    simp only [bind, Except.bind] at hk
                    have e0 : q0 = (data.map (·.stat0)).map fun p => (g.east p.2, g.north p.1) := by
                      by_cases ha : g.Accepts (data.map (·.stat0))
                      · rw [(cart_ok g _).1 ha] at hc0; cases hc0; rfl
                      · rw [(cart_ok g _).2 ha] at hc0; cases hc0
                    have e1 : q1 = (data.map (·.stat1)).map fun p => (g.east p.2, g.north p.1) := by
                      by_cases ha : g.Accepts (data.map (·.stat1))
                      · rw [(cart_ok g _).1 ha] at hc1; cases hc1; rfl
                      · rw [(cart_ok g _).2 ha] at hc1; cases hc1
                    have hk2 := mapM_forall2 _ _ _ hk.symm
                    rw [e0, e1, List.map_map, List.map_map, zip_map_same, List.forall₂_map_left_iff] at hk2
                    rw [List.forall₂_map_right_iff]
                    clear hk hrows hc0 hc1 hd hr1 hlast hf hsel hv e0 e1
                    induction hdata generalizing rows with
                    | nil =>
                      cases hk2
                      exact .nil
                    | cons hcd _ ih =>
                      cases hk2 with
                      | cons hrow hrest =>
                        refine .cons ?_ (ih _ hrest)
                        refine ⟨_, ?_, dotQ_eq_sum _ _⟩
                        rw [← hcd.2.2.2.2.1, ← hcd.2.2.2.2.2.1]
                        exact hrow

theorem alignLoop_selected (utc : Int) (steps : Nat) (l : List (Curve × Bool)) (ss : List Rat) (out : List Curve)
    (P : Curve → Rat → Prop) (hp : List.Forall₂ P (flagged l) ss)
    (h : alignLoop utc steps l ss = .ok out) (k : Nat) (c : Curve) (hk : l[k]? = some (c, true)) :
    ∃ v c', P c v ∧ alignCurve utc steps v c = .ok c' ∧ out[k]? = some c' := by
  induction l generalizing ss out k with
  | nil => simp at hk
  | cons x l ih =>
    obtain ⟨d, b⟩ := x
    cases b with
    | false =>
      have hfl : flagged ((d, false) :: l) = flagged l := rfl
      rw [hfl] at hp
      simp only [alignLoop, bind, Except.bind] at h
      cases hr : alignLoop utc steps l ss with
      | error e => rw [hr] at h; cases h
      | ok r =>
        rw [hr] at h
        simp only [pure, Except.pure, Except.ok.injEq] at h
        subst h
        cases k with
        | zero => simp at hk
        | succ k => exact ih ss r hp hr k hk
    | true =>
      have hfl : flagged ((d, true) :: l) = d :: flagged l := rfl
      rw [hfl] at hp
      cases hp with
      | cons hv hrest =>
        rename_i s ss
        simp only [alignLoop, bind, Except.bind] at h
        cases ha : alignCurve utc steps s d with
        | error e => rw [ha] at h; cases h
        | ok c' =>
          rw [ha] at h
          simp only at h
          cases hr : alignLoop utc steps l ss with
          | error e => rw [hr] at h; cases h
          | ok r =>
            rw [hr] at h
            simp only [pure, Except.pure, Except.ok.injEq] at h
            subst h
            cases k with
            | zero =>
              simp only [List.getElem?_cons_zero, Option.some.injEq, Prod.mk.injEq, and_true] at hk
              subst hk
              exact ⟨s, c', hv, ha, rfl⟩
            | succ k => exact ih ss r hrest hr k hk

/-- **C60** If at the time every curve that starts has a valid value and a coherence below
one, every curve that starts is aligned (`alignCurve`, see `c59_mean_partial`) to the value
that the grid predicts for its own stations, for the middle of the lapse window. Partial:
otherwise the predicted values are given to the wrong curves (`c60_shifted_violated`), and
the lapse window is that of the last curve (`c60_window_violated`). -/
theorem c60_own_value_partial (g : Geo) (ord : List Pt → List Pt) (kern : KKey → Except PyErr (List Rat))
    (st : Option Stations) (grid : List Rat) (utc : Int) (steps : Nat) (thres : Rat) (curves out : List Curve) (t : Rat)
    (h : alignDvs g ord kern st (some grid) utc steps thres curves = .ok out)
    (hv : ∀ c ∈ curves, Starts utc thres c → ∃ d, Contributes utc c d)
    (ht : ∀ c ∈ curves, ∀ p, c.proc = some p → (p.twStart + (p.twStart + p.twLen)) / 2 = t)
    (k : Nat) (c : Curve) (hk : curves[k]? = some c) (hs : Starts utc thres c) :
    ∃ v c', ForwardValue g kern grid t c v ∧ alignCurve utc steps v c = .ok c' ∧ out[k]? = some c' := by
  obtain ⟨flags, hf, h⟩ := alignDvs_cases g ord kern st (some grid) utc steps thres curves out h
  obtain ⟨hkl, hkc⟩ := List.getElem?_eq_some_iff.1 hk
  have hkf : k < flags.length := by rw [← hf.length_eq]; exact hkl
  have hsel := hf.get hkl hkf
  simp only [List.get_eq_getElem] at hsel
  rw [hkc] at hsel
  have hb : flags[k] = true := (alignSelected_true utc thres _ _ hsel).2 hs
  have hz : (curves.zip flags)[k]? = some (c, true) := by
    rw [List.getElem?_eq_getElem (by simp [hkl, hkf]), List.getElem_zip, hb, hkc]
  have hmem : ∀ d ∈ flagged (curves.zip flags), d ∈ curves ∧ Starts utc thres d := by
    intro d hd
    obtain ⟨⟨d', b⟩, hm, rfl⟩ := List.mem_map.1 hd
    obtain ⟨hm, hbt⟩ := List.mem_filter.1 hm
    obtain ⟨j, hj, hje⟩ := List.mem_iff_getElem.1 hm
    rw [List.length_zip] at hj
    have hjc : j < curves.length := by omega
    have hjf : j < flags.length := by omega
    rw [List.getElem_zip, Prod.mk.injEq] at hje
    have := hf.get hjc hjf
    simp only [List.get_eq_getElem] at this
    rw [hje.1, hje.2] at this
    refine ⟨?_, (alignSelected_true utc thres _ _ this).1 hbt⟩
    rw [← hje.1]
    exact List.getElem_mem hjc
  rcases h with ⟨hn, _⟩ | ⟨shifts, hs2, h⟩
  · have : c ∈ flagged (curves.zip flags) :=
      List.mem_map.2 ⟨(c, true), List.mem_filter.2 ⟨List.mem_of_getElem? hz, rfl⟩, rfl⟩
    rw [hn] at this
    cases this
  · obtain ⟨p, ⟨cl, hcl, hclp⟩, hfw⟩ := forwardModel_spec g ord kern st grid utc _ shifts hs2
      fun d hd => hv d (hmem d hd).1 (hmem d hd).2
    have htp := ht cl (hmem cl (List.mem_of_getLast? hcl)).1 p hclp
    rw [htp] at hfw
    exact alignLoop_selected utc steps _ _ _ _ hfw h k c hz

/-- **C60** Before there is a grid, every curve that starts is aligned to zero. -/
theorem c60_first (g : Geo) (ord : List Pt → List Pt) (kern : KKey → Except PyErr (List Rat))
    (st : Option Stations) (utc : Int) (steps : Nat) (thres : Rat) (curves out : List Curve)
    (h : alignDvs g ord kern st none utc steps thres curves = .ok out)
    (k : Nat) (c : Curve) (hk : curves[k]? = some c) (hs : Starts utc thres c) :
    ∃ c', alignCurve utc steps 0 c = .ok c' ∧ out[k]? = some c' := by
  obtain ⟨flags, hf, h⟩ := alignDvs_cases g ord kern st none utc steps thres curves out h
  obtain ⟨hkl, hkc⟩ := List.getElem?_eq_some_iff.1 hk
  have hkf : k < flags.length := by rw [← hf.length_eq]; exact hkl
  have hsel := hf.get hkl hkf
  simp only [List.get_eq_getElem] at hsel
  rw [hkc] at hsel
  have hb : flags[k] = true := (alignSelected_true utc thres _ _ hsel).2 hs
  have hz : (curves.zip flags)[k]? = some (c, true) := by
    rw [List.getElem?_eq_getElem (by simp [hkl, hkf]), List.getElem_zip, hb, hkc]
  rcases h with ⟨hn, _⟩ | ⟨shifts, hs2, h⟩
  · have : c ∈ flagged (curves.zip flags) :=
      List.mem_map.2 ⟨(c, true), List.mem_filter.2 ⟨List.mem_of_getElem? hz, rfl⟩, rfl⟩
    rw [hn] at this
    cases this
  · simp only [alignShifts, pure, Except.pure, Except.ok.injEq] at hs2
    have hall : List.Forall₂ (fun (_ : Curve) (v : Rat) => v = 0) (flagged (curves.zip flags)) shifts := by
      rw [← hs2]
      generalize flagged (curves.zip flags) = l
      induction l with
      | nil => exact .nil
      | cons a l ih => exact .cons rfl ih
    obtain ⟨v, c', rfl, hc', ho⟩ := alignLoop_selected utc steps _ _ _ _ hall h k c hz
    exact ⟨c', hc', ho⟩

/-- **C60** Curves that were aligned are not shifted again by a later alignment at any time. -/
theorem c60_once (g : Geo) (ord : List Pt → List Pt) (kern : KKey → Except PyErr (List Rat)) (st : Option Stations)
    (vel : Option (List Rat)) (utc : Int) (steps : Nat) (thres : Rat) (curves out : List Curve)
    (h : alignDvs g ord kern st vel utc steps thres curves = .ok out) (k : Nat) (c : Curve) (hk : curves[k]? = some c)
    (p : Proc) (hp : c.proc = some p) (ha : p.aligned ≠ none) : out[k]? = some c := by
  refine (c60_others g ord kern st vel utc steps thres curves out h).2 k c hk ?_
  rintro ⟨⟨p', hp', hpa⟩, _⟩
  rw [hp] at hp'
  cases hp'
  exact ha hpa

/-- a curve with seven constant values -/
def exFlat (v r : Rat) (s : Pt) (len : Rat) : Curve :=
  { starts := [0, 10, 20, 30, 40, 50, 60], ends := [10, 20, 30, 40, 50, 60, 70], value := List.replicate 7 (some v),
    corr := List.replicate 7 (some r), stat0 := s, stat1 := s,
    proc := some { twStart := 0, twLen := len, freqMin := 1, freqMax := 2, aligned := none } }

/-- grid with two points; the kernel of a pair is its easting times the lapse time -/
def exKern (k : KKey) : Except PyErr (List Rat) := .ok [k.1.1 * k.2.2, 0]

def exGeo : Geo := { lat0 := 0, lon0 := 0, east := id, north := id }

/-- Hypotheses of `c60_own_value_partial`. -/
example : (alignDvs exGeo List.eraseDups exKern none (some [1, 1]) 30 1 (1/2)
    [exFlat 0 (3/4) (1, 1) 2, exFlat 0 (3/4) (1, 5) 2]).map (fun l => l.map (fun c => c.value[0]?)) =
    .ok [some (some 1), some (some 5)] := by
  decide +kernel

/-- **C60** violated: the first curve has a coherence of one; it gets the value that belongs
to the second curve, and the second curve is not aligned -/
theorem c60_shifted_violated : (alignDvs exGeo List.eraseDups exKern none (some [1, 1]) 30 1 (1/2)
    [exFlat 0 1 (1, 1) 2, exFlat 0 (3/4) (1, 5) 2]).map (fun l => l.map (fun c => c.value[0]?)) =
    .ok [some (some 5), some (some 0)] := by
  decide +kernel

/-- **C60** violated: with different lapse windows the window of the last curve is used for
all of them -/
theorem c60_window_violated : (alignDvs exGeo List.eraseDups exKern none (some [1, 1]) 30 1 (1/2)
    [exFlat 0 (3/4) (1, 1) 2, exFlat 0 (3/4) (1, 5) 20]).map (fun l => l.map (fun c => c.value[0]?)) =
    .ok [some (some 10), some (some 50)] := by
  decide +kernel

end SeisMIC
