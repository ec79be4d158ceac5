import Verif.Model.Chain
import Verif.Props.Muting
import Verif.Props.ParallelWhiten
import Mathlib.Data.Sign.Basic
import Mathlib.Tactic.FieldSimp
import Mathlib.Tactic.Ring
import Mathlib.Tactic.Positivity
import Mathlib.Tactic.Linarith

/-! # The gain of the instruments and the correlations: C154 -/

namespace SeisMIC

noncomputable section

open Xcorr

/-! ### specification -/

/-- the traces with another gain each -/
def withGains (g : List ℝ) (A : List (List ℝ)) : List (List ℝ) := List.zipWith scaleBy g A

/-- steps without an absolute amplitude in their arguments: no threshold for `mute`, no
negative factor for `clip` -/
def TdStep.Relative : TdStep → Prop
  | .clip factor => 0 ≤ factor
  | .mute _ args => args.threshold = none
  | _ => True

/-- the sign that two gains give to the correlation of the traces -/
def pairSign (g : List ℝ) (ij : Nat × Nat) : ℝ := (SignType.sign (g.getD ij.1 1 * g.getD ij.2 1) : ℝ)

/-! ### gains of single traces -/

/-- what a step does to a trace depends on the gain by a factor of the same sign only -/
def RowGain (f : List ℝ → Except Stop (List ℝ)) : Prop :=
  ∀ a : ℝ, a ≠ 0 → ∀ x, ∃ b : ℝ, 0 < a * b ∧ f (scaleBy a x) = (f x).map (scaleBy b)

/-- the same for a matrix, with own gains for all traces -/
def MatGain (F : List (List ℝ) → Except Stop (List (List ℝ))) : Prop :=
  ∀ (g : List ℝ) (A : List (List ℝ)), (∀ a ∈ g, a ≠ 0) → g.length = A.length →
    ∃ h : List ℝ, List.Forall₂ (fun a b => 0 < a * b) g h ∧ F (withGains g A) = (F A).map (withGains h) ∧
      ∀ B, F A = .ok B → B.length = A.length

theorem scaleBy_length (a : ℝ) (x : List ℝ) : (scaleBy a x).length = x.length := by simp [scaleBy]

theorem forall2_refl_gain (g : List ℝ) (hg : ∀ a ∈ g, a ≠ 0) : List.Forall₂ (fun a b => 0 < a * b) g g := by
  induction g with
  | nil => exact .nil
  | cons a g ih => exact .cons (mul_self_pos.2 (hg a (by simp))) (ih fun b hb => hg b (by simp [hb]))

theorem ne_of_gain (g h : List ℝ) (H : List.Forall₂ (fun a b => 0 < a * b) g h) : ∀ b ∈ h, b ≠ 0 := by
  induction H with
  | nil => simp
  | cons hab _ ih =>
    intro b hb
    rcases List.mem_cons.1 hb with rfl | hb
    · rintro rfl; simp at hab
    · exact ih b hb

theorem gain_trans (f g h : List ℝ) (H1 : List.Forall₂ (fun a b => 0 < a * b) f g)
    (H2 : List.Forall₂ (fun a b => 0 < a * b) g h) : List.Forall₂ (fun a b => 0 < a * b) f h := by
  induction H1 generalizing h with
  | nil => cases H2; exact .nil
  | @cons a b f g hab _ ih =>
    cases H2 with
    | @cons _ c _ h hbc H2 =>
      refine .cons ?_ (ih h H2)
      have := mul_pos hab hbc
      have hb : 0 < b * b := mul_self_pos.2 (by rintro rfl; simp at hab)
      by_contra hn
      push Not at hn
      nlinarith [mul_nonneg (neg_nonneg.2 hn) hb.le]

theorem matGain_mapM (f : List ℝ → Except Stop (List ℝ)) (hf : RowGain f) : MatGain fun A => A.mapM f := by
  intro g A hg hl
  induction A generalizing g with
  | nil =>
    have : g = [] := List.length_eq_zero_iff.1 (by simpa using hl)
    subst this
    exact ⟨[], .nil, rfl, by rintro B hB; cases hB; rfl⟩
  | cons x A ih =>
    cases g with
    | nil => simp at hl
    | cons a g =>
      obtain ⟨h, h1, h2, h3⟩ := ih g (fun b hb => hg b (by simp [hb])) (by simpa using hl)
      obtain ⟨b, hb1, hb2⟩ := hf a (hg a (by simp)) x
      refine ⟨b :: h, .cons hb1 h1, ?_, ?_⟩
      · simp only [withGains, List.zipWith_cons_cons, List.mapM_cons, hb2] at h2 ⊢
        cases hx : f x with
        | error e => rfl
        | ok y =>
          simp only [Except.map, bind, Except.bind]
          rw [h2]
          cases A.mapM f with
          | error e => rfl
          | ok B => rfl
      · intro B hB
        simp only [List.mapM_cons] at hB
        cases hx : f x with
        | error e => rw [hx] at hB; cases hB
        | ok y =>
          rw [hx] at hB
          simp only [bind, Except.bind] at hB
          cases hA : A.mapM f with
          | error e => rw [hA] at hB; cases hB
          | ok C =>
            rw [hA] at hB
            cases hB
            simp [h3 C hA]

theorem matGain_map (f : List ℝ → List ℝ) (hf : RowGain fun x => .ok (f x)) : MatGain fun A => .ok (A.map f) := by
  have h := matGain_mapM _ hf
  have he : (fun A : List (List ℝ) => A.mapM fun x => (Except.ok (f x) : Except Stop (List ℝ))) = fun A => .ok (A.map f) := by
    funext A
    induction A with
    | nil => rfl
    | cons x A ih => rw [List.mapM_cons, ih]; rfl
  rw [he] at h
  exact h

theorem rowGain_linear (f : List ℝ → List ℝ) (hf : ∀ a x, f (scaleBy a x) = scaleBy a (f x)) : RowGain fun x => .ok (f x) :=
  fun a ha x => ⟨a, mul_self_pos.2 ha, by simp only [hf, Except.map]⟩

/-! ### the single steps -/

theorem meanR_scale (a : ℝ) (x : List ℝ) : meanR (scaleBy a x) = a * meanR x := by
  unfold meanR scaleBy
  rw [List.length_map, List.sum_map_mul_left, List.map_id']
  ring

theorem stdR_scale (a : ℝ) (x : List ℝ) : stdR (scaleBy a x) = |a| * stdR x := by
  unfold stdR
  rw [meanR_scale]
  have : (scaleBy a x).map (fun y => (y - a * meanR x) ^ 2) = scaleBy (a ^ 2) (x.map fun y => (y - meanR x) ^ 2) := by
    simp only [scaleBy, List.map_map]
    apply List.map_congr_left
    intro y _
    simp only [Function.comp]
    ring
  rw [this, meanR_scale, Real.sqrt_mul (sq_nonneg a), Real.sqrt_sq_eq_abs]

theorem noNan_some (x : List ℝ) : noNan (x.map some) = .ok x := by
  unfold noNan
  have : (x.map some).mapM id = some x := by
    induction x with
    | nil => rfl
    | cons a x ih => rw [List.map_cons, List.mapM_cons, ih]; rfl
  rw [this]

theorem gainSign_pos (a : ℝ) (ha : a ≠ 0) : 0 < a * (a / |a|) := by
  have h1 : 0 < a * a := mul_self_pos.2 ha
  have h2 : 0 < |a| := abs_pos.2 ha
  rw [← mul_div_assoc]
  positivity

theorem rowGain_std : RowGain fun x => .ok (normalizeStd x) := by
  intro a ha x
  by_cases h0 : stdR x = 0
  · refine ⟨a, mul_self_pos.2 ha, ?_⟩
    unfold normalizeStd
    simp only [Except.map, stdR_scale, h0, mul_zero, if_true, div_one, List.map_id']
  · refine ⟨a / |a|, gainSign_pos a ha, ?_⟩
    unfold normalizeStd
    have h1 : |a| * stdR x ≠ 0 := mul_ne_zero (abs_ne_zero.2 ha) h0
    simp only [Except.map, Except.ok.injEq, stdR_scale, if_neg h0, if_neg h1]
    simp only [scaleBy, List.map_map]
    apply List.map_congr_left
    intro y _
    simp only [Function.comp]
    field_simp

theorem npSign_scale (a : ℝ) (ha : a ≠ 0) (x : ℝ) : npSign (a * x) = a / |a| * npSign x := by
  rcases lt_or_gt_of_ne ha with h | h
  · rw [abs_of_neg h, div_neg, div_self ha]
    unfold npSign
    rcases lt_trichotomy x 0 with hx | hx | hx
    · rw [if_pos (mul_pos_of_neg_of_neg h hx), if_neg (by linarith), if_pos hx]; ring
    · subst hx; simp
    · have := mul_neg_of_neg_of_pos h hx
      rw [if_neg (by linarith), if_pos this, if_pos hx]; ring
  · rw [abs_of_pos h, div_self ha]
    unfold npSign
    rcases lt_trichotomy x 0 with hx | hx | hx
    · have := mul_neg_of_pos_of_neg h hx
      rw [if_neg (by linarith), if_pos this, if_neg (by linarith), if_pos hx]; ring
    · subst hx; simp
    · rw [if_pos (mul_pos h hx), if_pos hx]; ring

theorem rowGain_sign : RowGain fun x => .ok (signBit x) := by
  intro a ha x
  refine ⟨a / |a|, gainSign_pos a ha, ?_⟩
  simp only [Except.map, Except.ok.injEq, signBit, scaleBy, List.map_map]
  apply List.map_congr_left
  intro y _
  exact npSign_scale a ha y

theorem noNan_scale (c : ℝ) (l : List (Option ℝ)) : noNan (l.map (Option.map (c * ·))) = (noNan l).map (scaleBy c) := by
  unfold noNan
  have : (l.map (Option.map (c * ·))).mapM id = (l.mapM id).map (scaleBy c) := by
    induction l with
    | nil => rfl
    | cons a l ih =>
      rw [List.map_cons, List.mapM_cons, ih, List.mapM_cons]
      cases a with
      | none => rfl
      | some a =>
        cases l.mapM id with
        | none => rfl
        | some l => rfl
  rw [this]
  cases l.mapM id with
  | none => rfl
  | some l => rfl

theorem filterMap_some (x : List ℝ) : (x.map some).filterMap id = x := by
  induction x with
  | nil => rfl
  | cons a x ih => simp

theorem rowGain_clip (factor : ℝ) (hf : 0 ≤ factor) : RowGain fun x => noNan (tdClip factor (x.map some)) := by
  intro a ha x
  refine ⟨a, mul_self_pos.2 ha, ?_⟩
  rw [← noNan_scale]
  beta_reduce
  congr 1
  unfold tdClip
  simp only [filterMap_some]
  by_cases hx : x = []
  · subst hx; rfl
  · rw [if_neg (by simp [scaleBy, hx]), if_neg hx]
    have hs : 0 ≤ stdR x := Real.sqrt_nonneg _
    have ht : 0 ≤ factor * stdR x := mul_nonneg hf hs
    rw [stdR_scale]
    have he : factor * (|a| * stdR x) = |a| * (factor * stdR x) := by ring
    rw [he]
    generalize factor * stdR x = t at ht
    simp only [scaleBy, List.map_map]
    apply List.map_congr_left
    intro y _
    simp only [Function.comp, Option.map_some, Option.some.injEq]
    rcases lt_or_gt_of_ne ha with h | h
    · rw [abs_of_neg h]
      by_cases h1 : y > t
      · have h2 : a * y < a * t := mul_lt_mul_of_neg_left h1 h
        have h3 : ¬ (a * y > -a * t) := by nlinarith
        rw [if_neg h3, if_pos h1, if_pos (by linarith), if_neg (by linarith)]
        ring
      · by_cases h2 : y < -t
        · have h3 : a * y > -a * t := by nlinarith
          rw [if_pos h3, if_neg h1, if_pos h2, if_neg (by nlinarith)]
          ring
        · have h3 : ¬ (a * y > -a * t) := by push Not at h2 ⊢; nlinarith
          have h4 : ¬ (a * y < -(-a * t)) := by push Not at h1 ⊢; nlinarith
          rw [if_neg h3, if_neg h4, if_neg h1, if_neg h2]
    · rw [abs_of_pos h]
      by_cases h1 : y > t
      · have h3 : a * y > a * t := mul_lt_mul_of_pos_left h1 h
        rw [if_pos h3, if_pos h1, if_neg (by nlinarith), if_neg (by linarith)]
      · have h3 : ¬ (a * y > a * t) := by push Not at h1 ⊢; nlinarith
        rw [if_neg h3, if_neg h1]
        by_cases h2 : y < -t
        · rw [if_pos (by nlinarith), if_pos h2]
          ring
        · rw [if_neg (by push Not at h2 ⊢; nlinarith), if_neg h2]

theorem muteWeights_scale (args : MuteArgs) (harg : args.threshold = none) (n : Nat) (a : ℝ) (ha : a ≠ 0) (c : List ℝ) :
    muteWeights args n (scaleBy a c) = muteWeights args n c := by
  have hth : args.thres (scaleBy a c) = |a| * args.thres c := by
    unfold MuteArgs.thres
    rw [harg]
    cases args.stdFactor with
    | none => exact stdR_scale a c
    | some f => simp only [stdR_scale]; ring
  have hm : (scaleBy a c).map (fun x => if |x| > args.thres (scaleBy a c) then (0 : ℝ) else 1) =
      c.map fun x => if |x| > args.thres c then (0 : ℝ) else 1 := by
    rw [hth]
    simp only [scaleBy, List.map_map]
    apply List.map_congr_left
    intro y _
    simp only [Function.comp, abs_mul, gt_iff_lt, mul_lt_mul_iff_right₀ (abs_pos.2 ha)]
  unfold muteWeights
  simp only [hm]

theorem zipWith_scale (a : ℝ) (x w : List ℝ) : List.zipWith (· * ·) (scaleBy a x) w = scaleBy a (List.zipWith (· * ·) x w) := by
  unfold scaleBy
  rw [List.map_zipWith, List.zipWith_map_left]
  congr 1
  funext p q
  ring

theorem matGain_error (e : Stop) : MatGain fun _ => .error e := by
  intro g A hg _
  exact ⟨g, forall2_refl_gain g hg, rfl, by intro B hB; cases hB⟩

theorem matGain_mute (filt : LinFilter) (args : MuteArgs) (harg : args.threshold = none) (npts : Nat) (sr : Rat) :
    MatGain fun A => orStop (mute filt.run A npts sr args) := by
  unfold mute
  by_cases h1 : args.taperLen = 0
  · simp only [if_pos h1]
    exact matGain_error _
  · simp only [if_neg h1]
    by_cases h2 : (npts : Int) ≤ truncRat (args.taperLen * sr)
    · simp only [if_pos h2]
      refine matGain_map (fun row => row.map fun _ => 0) (rowGain_linear _ ?_)
      intro a x
      simp [scaleBy, Function.comp_def]
    · simp only [if_neg h2]
      by_cases h3 : truncRat (args.taperLen * sr) ≤ 0
      · simp only [if_pos h3]
        exact matGain_error _
      · simp only [if_neg h3]
        refine matGain_map (fun row => List.zipWith (· * ·) row
          (muteWeights args (truncRat (args.taperLen * sr)).toNat (filt.run row))) ?_
        intro a ha x
        refine ⟨a, mul_self_pos.2 ha, ?_⟩
        simp only [filt.homog, muteWeights_scale args harg _ a ha, zipWith_scale, Except.map]

theorem withGains_head (g : List ℝ) (A : List (List ℝ)) (h : g.length = A.length) :
    ((withGains g A).headD []).length = (A.headD []).length := by
  cases A with
  | nil => simp [withGains]
  | cons x A =>
    cases g with
    | nil => simp at h
    | cons a g => simp [withGains, scaleBy_length]

/-- steps whose arguments depend on the number of samples -/
theorem matGain_npts (F : Nat → List (List ℝ) → Except Stop (List (List ℝ))) (hF : ∀ n, MatGain (F n)) :
    MatGain fun A => F (A.headD []).length A := by
  intro g A hg hl
  simp only [withGains_head g A hl]
  exact hF _ g A hg hl

theorem convSame_scaleBy (a : ℝ) (x v : List ℝ) : convSame (scaleBy a x) v = scaleBy a (convSame x v) := by
  unfold convSame scaleBy
  rw [List.length_map, List.map_map]
  apply List.map_congr_left
  intro i _
  simp only [Function.comp]
  rw [← List.sum_map_mul_left]
  congr 1
  apply List.map_congr_left
  intro j _
  have hg : ∀ k, (x.map (a * ·)).getD k 0 = a * x.getD k 0 := by
    intro k
    rw [List.getD_eq_getElem?_getD, List.getD_eq_getElem?_getD, List.getElem?_map]
    cases x[k]? with
    | none => simp
    | some y => simp
  split_ifs with h
  · rw [hg]; ring
  · ring

theorem tdEnvelope_scaleBy (n : Nat) (a : ℝ) (x : List ℝ) : tdEnvelope n (scaleBy a x) = scaleBy (a ^ 2) (tdEnvelope n x) := by
  have hrev : ∀ (c : ℝ) (y : List ℝ), (scaleBy c y).reverse = scaleBy c y.reverse := by
    intro c y; simp [scaleBy]
  have hsq : (scaleBy a x).map (· ^ 2) = scaleBy (a ^ 2) (x.map (· ^ 2)) := by
    simp only [scaleBy, List.map_map]
    apply List.map_congr_left
    intro y _
    simp only [Function.comp]
    ring
  unfold tdEnvelope
  simp only [hsq, convSame_scaleBy, hrev]

theorem maxR_scaleBy (c : ℝ) (hc : 0 ≤ c) (x : List ℝ) : maxR (scaleBy c x) = (maxR x).map (c * ·) := by
  cases x with
  | nil => rfl
  | cons y x =>
    simp only [scaleBy, List.map_cons, maxR, Option.map_some, Option.some.injEq]
    induction x generalizing y with
    | nil => rfl
    | cons z x ih =>
      simp only [List.map_cons, List.foldl_cons]
      rw [← mul_max_of_nonneg _ _ hc]
      exact ih (max y z)

theorem rowGain_norm (filt : LinFilter) (n : Nat) : RowGain fun x => noNan (tdNormRow filt.run n (x.map some)) := by
  intro a ha x
  refine ⟨a / |a|, gainSign_pos a ha, ?_⟩
  rw [← noNan_scale]
  beta_reduce
  congr 1
  unfold tdNormRow
  rw [if_neg (by simp), if_neg (by simp)]
  simp only [filterMap_some, filt.homog, tdEnvelope_scaleBy]
  rw [maxR_scaleBy _ (sq_nonneg a)]
  generalize hb : tdEnvelope n (filt.run x) = b
  have hm : ((maxR b).map (a ^ 2 * ·)).getD 0 = a ^ 2 * (maxR b).getD 0 := by
    cases maxR b with
    | none => simp
    | some m => rfl
  rw [hm]
  generalize (maxR b).getD 0 = m
  unfold scaleBy
  rw [List.map_zipWith, List.zipWith_map]
  congr 1
  funext y z
  have h2 : a ^ 2 ≠ 0 := pow_ne_zero 2 ha
  have he : a ^ 2 * z + a ^ 2 * m * (1 / 1000000) = a ^ 2 * (z + m * (1 / 1000000)) := by ring
  rw [he]
  by_cases h0 : z + m * (1 / 1000000) = 0
  · rw [if_pos (by rw [h0, mul_zero]), if_pos h0]
    rfl
  · rw [if_neg (mul_ne_zero h2 h0), if_neg h0]
    simp only [Option.map_some, Option.some.injEq]
    rw [Real.sqrt_mul (sq_nonneg a), Real.sqrt_sq_eq_abs]
    have := abs_ne_zero.2 ha
    rw [mul_div_mul_comm]

theorem matGain_norm (filt : LinFilter) (wl : Rat) (npts : Nat) (sr : Rat) :
    MatGain fun A => match tdNormalization filt.run npts sr wl (A.map fun x => x.map some) with
      | .error e => .error (some e)
      | .ok B => B.mapM noNan := by
  have h : ∀ A : List (List ℝ), (match tdNormalization filt.run npts sr wl (A.map fun x => x.map some) with
      | .error e => (.error (some e) : Except Stop (List (List ℝ)))
      | .ok B => B.mapM noNan) =
      if wl ≤ 0 then .error (some .valueError)
      else if npts < (wl * sr).ceil.toNat ∧ A ≠ [] then .error (some .valueError)
      else A.mapM fun x => noNan (tdNormRow filt.run (wl * sr).ceil.toNat (x.map some)) := by
    intro A
    unfold tdNormalization
    by_cases h1 : wl ≤ 0
    · simp only [if_pos h1]
    · simp only [if_neg h1]
      by_cases h2 : npts < (wl * sr).ceil.toNat ∧ A ≠ []
      · rw [if_pos (by simpa using h2), if_pos h2]
      · rw [if_neg (by simpa using h2), if_neg h2]
        simp only
        rw [List.map_map, List.mapM_map]
        rfl
  simp only [h]
  intro g A hg hl
  have hne : withGains g A ≠ [] ↔ A ≠ [] := by
    cases A with
    | nil => simp [withGains]
    | cons x A =>
      cases g with
      | nil => simp at hl
      | cons a g => simp [withGains]
  simp only [hne]
  by_cases h1 : wl ≤ 0
  · simp only [if_pos h1]
    exact matGain_error _ g A hg hl
  · simp only [if_neg h1]
    by_cases h2 : npts < (wl * sr).ceil.toNat ∧ A ≠ []
    · simp only [if_pos h2]
      exact matGain_error _ g A hg hl
    · simp only [if_neg h2]
      exact matGain_mapM _ (rowGain_norm filt _) g A hg hl

theorem ofFn_scale_some {n : Nat} (a : ℝ) (f : Fin n → ℝ) :
    List.ofFn (fun k => some (a * f k)) = (List.ofFn fun k => some (f k)).map (Option.map (a * ·)) := by
  rw [List.map_ofFn]
  rfl

theorem rowGain_trend (qr : (n : Nat) → 2 ≤ n → QR (trendMatrix n)) : RowGain fun x =>
    if h : 2 ≤ x.length then noNan (List.ofFn (detrendRow (qr x.length h) fun k => some (x.get k)))
    else .error (some .valueError) := by
  intro a ha x
  refine ⟨a, mul_self_pos.2 ha, ?_⟩
  by_cases h : 2 ≤ x.length
  · have h' : 2 ≤ (scaleBy a x).length := by rw [scaleBy_length]; exact h
    simp only [dif_pos h, dif_pos h']
    rw [← noNan_scale]
    congr 1
    have key : ∀ (n : Nat) (hn : 2 ≤ n) (f : Fin n → ℝ),
        List.ofFn (detrendRow (qr n hn) fun k => some (a * f k)) =
          (List.ofFn (detrendRow (qr n hn) fun k => some (f k))).map (Option.map (a * ·)) := by
      intro n hn f
      unfold detrendRow
      rw [if_pos (by simp), if_pos (by simp), ← ofFn_scale_some]
      congr 1
      funext k
      simp only [Option.getD_some, Option.some.injEq]
      have : (fun i => a * f i) = a • f := rfl
      rw [this, Matrix.mulVec_smul, Matrix.mulVec_smul]
      simp only [Pi.smul_apply, smul_eq_mul]
      ring
    have hk := key x.length h x.get
    rw [← hk]
    have hcast : ∀ (y : List ℝ) (hy : y.length = x.length) (h2 : 2 ≤ y.length),
        List.ofFn (detrendRow (qr y.length h2) fun k => some (y.get k)) =
          List.ofFn (detrendRow (qr x.length h) fun k => some (y.get (k.cast hy.symm))) := by
      intro y hy h2
      have : ∀ (m : Nat) (hm : m = x.length) (h3 : 2 ≤ m) (u : Fin m → ℝ),
          List.ofFn (detrendRow (qr m h3) fun k => some (u k)) =
            List.ofFn (detrendRow (qr x.length h) fun k => some (u (k.cast hm.symm))) := by
        intro m hm h3 u
        subst hm
        rfl
      exact this _ hy h2 y.get
    rw [hcast _ (scaleBy_length a x) h']
    congr 2
    funext k
    simp only [List.get_eq_getElem, scaleBy, List.getElem_map]
    rfl
  · have h' : ¬ 2 ≤ (scaleBy a x).length := by rw [scaleBy_length]; exact h
    simp only [dif_neg h, dif_neg h']
    rfl

theorem demean_list (x : List ℝ) :
    List.ofFn (demeanRow fun k : Fin x.length => some (x.get k)) = x.map fun y => some (y - x.sum / x.length) := by
  have h0 : List.ofFn (fun k : Fin x.length => some (x.get k)) = x.map some := by
    apply List.ext_getElem?
    intro i
    by_cases hi : i < x.length
    · simp [hi]
    · simp [hi]
  apply List.ext_getElem?
  intro i
  by_cases hi : i < x.length
  · rw [List.getElem?_ofFn]
    simp only [hi, dif_pos, demeanRow]
    have hnm : nanmeanR (x.map some) = some (x.sum / x.length) := by
      unfold nanmeanR
      rw [filterMap_some]
      cases x with
      | nil => simp at hi
      | cons y x => rfl
    rw [h0, hnm]
    simp [hi]
  · simp [hi]

theorem rowGain_demean : RowGain fun x => noNan (List.ofFn (demeanRow fun k : Fin x.length => some (x.get k))) := by
  have h : (fun x : List ℝ => noNan (List.ofFn (demeanRow fun k : Fin x.length => some (x.get k)))) =
      fun x => .ok (x.map fun y => y - x.sum / x.length) := by
    funext x
    rw [demean_list]
    have := noNan_some (x.map fun y => y - x.sum / x.length)
    rw [List.map_map] at this
    exact this
  rw [h]
  apply rowGain_linear
  intro a x
  unfold scaleBy
  rw [List.length_map, List.sum_map_mul_left, List.map_id', List.map_map, List.map_map]
  apply List.map_congr_left
  intro y _
  simp only [Function.comp]
  ring

theorem matGain_step (sr : Rat) (s : TdStep) (hs : s.Relative) : MatGain (s.run sr) := by
  cases s with
  | clip f => exact matGain_mapM _ (rowGain_clip f hs)
  | trend qr => exact matGain_mapM _ (rowGain_trend qr)
  | demean => exact matGain_mapM _ rowGain_demean
  | mute filt args =>
    exact matGain_npts (fun n A => orStop (mute filt.run A n sr args)) fun n => matGain_mute filt args hs n sr
  | std => exact matGain_map _ rowGain_std
  | sign => exact matGain_map _ rowGain_sign
  | taper w =>
    exact matGain_npts (fun n A => .ok (A.map fun x => List.zipWith (· * ·) x (w n))) fun n =>
      matGain_map _ (rowGain_linear _ fun a x => zipWith_scale a x (w n))
  | norm filt wl => exact matGain_npts (fun n A => match tdNormalization filt.run n sr wl (A.map fun x => x.map some) with
      | .error e => .error (some e)
      | .ok B => B.mapM noNan) fun n => matGain_norm filt wl n sr
  | filter filt => exact matGain_map _ (rowGain_linear _ filt.homog)

/-! ### the frequency domain -/

/-- spectra with a real factor each -/
def withGainsC (g : List ℝ) (B : List (List ℂ)) : List (List ℂ) := List.zipWith (fun a row => row.map ((a : ℂ) * ·)) g B

/-- the gains of spectra -/
def MatGainC (F : List (List ℂ) → Except Stop (List (List ℂ))) : Prop :=
  ∀ (g : List ℝ) (B : List (List ℂ)), (∀ a ∈ g, a ≠ 0) → g.length = B.length →
    ∃ h : List ℝ, List.Forall₂ (fun a b => 0 < a * b) g h ∧ F (withGainsC g B) = (F B).map (withGainsC h) ∧
      ∀ B', F B = .ok B' → B'.length = B.length

/-- the gain of one spectrum -/
def RowGainC (f : List ℂ → Except Stop (List ℂ)) : Prop :=
  ∀ a : ℝ, a ≠ 0 → ∀ x, ∃ b : ℝ, 0 < a * b ∧ f (x.map ((a : ℂ) * ·)) = (f x).map fun y => y.map ((b : ℂ) * ·)

theorem matGainC_mapM (f : List ℂ → Except Stop (List ℂ)) (hf : RowGainC f) : MatGainC fun A => A.mapM f := by
  intro g A hg hl
  induction A generalizing g with
  | nil =>
    have : g = [] := List.length_eq_zero_iff.1 (by simpa using hl)
    subst this
    exact ⟨[], .nil, rfl, by rintro B hB; cases hB; rfl⟩
  | cons x A ih =>
    cases g with
    | nil => simp at hl
    | cons a g =>
      obtain ⟨h, h1, h2, h3⟩ := ih g (fun b hb => hg b (by simp [hb])) (by simpa using hl)
      obtain ⟨b, hb1, hb2⟩ := hf a (hg a (by simp)) x
      refine ⟨b :: h, .cons hb1 h1, ?_, ?_⟩
      · simp only [withGainsC, List.zipWith_cons_cons, List.mapM_cons, hb2] at h2 ⊢
        cases hx : f x with
        | error e => rfl
        | ok y =>
          simp only [Except.map, bind, Except.bind]
          rw [h2]
          cases A.mapM f with
          | error e => rfl
          | ok B => rfl
      · intro B hB
        simp only [List.mapM_cons] at hB
        cases hx : f x with
        | error e => rw [hx] at hB; cases hB
        | ok y =>
          rw [hx] at hB
          simp only [bind, Except.bind] at hB
          cases hA : A.mapM f with
          | error e => rw [hA] at hB; cases hB
          | ok C =>
            rw [hA] at hB
            cases hB
            simp [h3 C hA]

theorem matGainC_map (f : List ℂ → List ℂ) (hf : RowGainC fun x => .ok (f x)) : MatGainC fun A => .ok (A.map f) := by
  have h := matGainC_mapM _ hf
  have he : (fun A : List (List ℂ) => A.mapM fun x => (Except.ok (f x) : Except Stop (List ℂ))) = fun A => .ok (A.map f) := by
    funext A
    induction A with
    | nil => rfl
    | cons x A ih => rw [List.mapM_cons, ih]; rfl
  rw [he] at h
  exact h

theorem getD_scale (c : ℂ) (M : List ℂ) (k : Nat) : (M.map (c * ·)).getD k 0 = c * M.getD k 0 := by
  rw [List.getD_eq_getElem?_getD, List.getD_eq_getElem?_getD, List.getElem?_map]
  cases M[k]? with
  | none => simp
  | some y => simp

theorem irfft_scale (c : ℝ) (M : List ℂ) : irfft (M.map ((c : ℂ) * ·)) = (irfft M).map (scaleBy c) := by
  unfold irfft
  simp only [List.length_map]
  by_cases h : M.length - 1 = 0
  · simp only [if_pos h]
    rfl
  · simp only [if_neg h, Except.map, Except.ok.injEq, scaleBy, List.map_map]
    apply List.map_congr_left
    intro j _
    simp only [Function.comp, getD_scale]
    have h1 : ∀ z : ℂ, ((c : ℂ) * z).re = c * z.re := fun z => Complex.re_ofReal_mul c z
    have h2 : ∀ k, 2 * ((c : ℂ) * M.getD k 0 * Complex.exp (2 * Real.pi * Complex.I * (j * k / (2 * (M.length - 1) : ℕ)))).re =
        c * (2 * (M.getD k 0 * Complex.exp (2 * Real.pi * Complex.I * (j * k / (2 * (M.length - 1) : ℕ)))).re) := by
      intro k
      rw [mul_assoc, h1]
      ring
    simp only [h1, h2]
    rw [← Finset.mul_sum]
    ring

theorem dft_scale (a : ℝ) (x : List ℝ) (k : Nat) : dft (scaleBy a x) k = (a : ℂ) * dft x k := by
  unfold dft
  rw [scaleBy_length, Finset.mul_sum]
  apply Finset.sum_congr rfl
  intro j _
  have : (scaleBy a x).getD j 0 = a * x.getD j 0 := by
    unfold scaleBy
    rw [List.getD_eq_getElem?_getD, List.getD_eq_getElem?_getD, List.getElem?_map]
    cases x[j]? with
    | none => simp
    | some y => simp
  rw [this]
  push_cast
  ring

theorem rfft_scale (a : ℝ) (x : List ℝ) : rfft (scaleBy a x) = (rfft x).map ((a : ℂ) * ·) := by
  unfold rfft
  rw [scaleBy_length, List.map_map]
  apply List.map_congr_left
  intro k _
  exact dft_scale a x k

theorem rowGainC_sign : RowGainC fun row => orStop (do
    let x ← irfft row
    .ok (rfft (x.map Real.sign))) := by
  intro a ha row
  refine ⟨a / |a|, gainSign_pos a ha, ?_⟩
  beta_reduce
  rw [irfft_scale]
  cases irfft row with
  | error e => rfl
  | ok x =>
    simp only [Except.map, bind, Except.bind, orStop]
    congr 1
    rw [← rfft_scale]
    congr 1
    simp only [scaleBy, List.map_map]
    apply List.map_congr_left
    intro y _
    simp only [Function.comp]
    have hs : ∀ r : ℝ, Real.sign r = npSign r := by
      intro r
      unfold npSign
      rcases lt_trichotomy r 0 with h | h | h
      · rw [Real.sign_of_neg h, if_neg (by linarith), if_pos h]
      · subst h; simp
      · rw [Real.sign_of_pos h, if_pos h]
    rw [hs, hs, npSign_scale a ha]

theorem orStop_mapM {α β : Type} (f : α → Except PyErr β) (l : List α) : orStop (l.mapM f) = l.mapM fun x => orStop (f x) := by
  induction l with
  | nil => rfl
  | cons a l ih =>
    rw [List.mapM_cons, List.mapM_cons, ← ih]
    cases f a with
    | error e => rfl
    | ok b =>
      simp only [bind, Except.bind, orStop]
      cases l.mapM f with
      | error e => rfl
      | ok c => rfl

theorem matGainC_whiten : MatGainC fun B => orStop (spectralWhitening false B) := by
  classical
  intro g B hg hl
  have hlen : ∀ B', (orStop (spectralWhitening false B) : Except Stop _) = .ok B' → B'.length = B.length := by
    intro B' hB'
    unfold spectralWhitening at hB'
    rw [if_neg (by simp)] at hB'
    simp only [orStop, Except.ok.injEq] at hB'
    rw [← hB']
    split_ifs <;> simp [whitenAbs]
  have hset : ∀ (a : ℂ) (row : List ℂ), (row.map (a * ·)).set 0 0 = (row.set 0 0).map (a * ·) := by
    intro a row
    rw [List.map_set, mul_zero]
  have hzero : (∃ row ∈ withGainsC g B, (0 : ℂ) ∈ row) ↔ ∃ row ∈ B, (0 : ℂ) ∈ row := by
    clear hlen
    induction B generalizing g with
    | nil => simp [withGainsC]
    | cons x B ih =>
      cases g with
      | nil => simp at hl
      | cons a g =>
        have ih := ih g (fun b hb => hg b (by simp [hb])) (by simpa using hl)
        have ha : (a : ℂ) ≠ 0 := by exact_mod_cast hg a (by simp)
        simp only [withGainsC, List.zipWith_cons_cons, List.exists_mem_cons_iff] at ih ⊢
        rw [ih]
        simp [ha]
  by_cases h0 : ∃ row ∈ B, (0 : ℂ) ∈ row
  · refine ⟨g, forall2_refl_gain g hg, ?_, hlen⟩
    beta_reduce
    rw [c77_zero_sample B h0, c77_zero_sample _ (hzero.2 h0)]
    simp only [orStop, Except.map, Except.ok.injEq]
    unfold withGainsC
    rw [List.map_zipWith, List.zipWith_map_right]
    simp only [hset]
  · have hB : ∀ row ∈ B, ∀ z ∈ row, z ≠ 0 := by
      rintro row hr z hz rfl
      exact h0 ⟨row, hr, hz⟩
    have hB' : ∀ row ∈ withGainsC g B, ∀ z ∈ row, z ≠ 0 := by
      rintro row hr z hz rfl
      exact h0 (hzero.1 ⟨row, hr, hz⟩)
    refine ⟨g.map fun a => a / |a|, ?_, ?_, hlen⟩
    · clear hlen hzero h0 hB hB' hl
      induction g with
      | nil => exact .nil
      | cons a g ih => exact .cons (gainSign_pos a (hg a (by simp))) (ih fun b hb => hg b (by simp [hb]))
    · beta_reduce
      rw [whitening_rows B hB, whitening_rows _ hB']
      simp only [orStop, Except.map, Except.ok.injEq]
      clear hlen hzero h0 hB hB'
      induction B generalizing g with
      | nil => simp [withGainsC]
      | cons x B ih =>
        cases g with
        | nil => simp at hl
        | cons a g =>
          have ih := ih g (fun b hb => hg b (by simp [hb])) (by simpa using hl)
          have ha : a ≠ 0 := hg a (by simp)
          simp only [withGainsC, List.zipWith_cons_cons, List.map_cons, List.cons.injEq] at ih ⊢
          refine ⟨?_, ih⟩
          unfold whiteRow
          rw [← hset, List.map_map, List.map_map]
          congr 1
          apply List.map_congr_left
          intro z _
          simp only [Function.comp, norm_mul, Complex.norm_real, Real.norm_eq_abs]
          push_cast
          rw [mul_div_mul_comm]

theorem matGainC_step (freqs : List Rat) (s : FdStep) : MatGainC (s.run freqs) := by
  cases s with
  | filter f1 f2 f3 f4 =>
    show MatGainC fun B => orStop (fdFilter freqs f1 f2 f3 f4 B)
    unfold fdFilter
    cases fdTaper freqs f1 f2 f3 f4 with
    | error e =>
      intro g A hg _
      exact ⟨g, forall2_refl_gain g hg, rfl, by intro B hB; cases hB⟩
    | ok tap =>
      refine matGainC_map (fun row => List.zipWith (fun (z : ℂ) (t : ℝ) => z * t) row tap) ?_
      intro a ha x
      refine ⟨a, mul_self_pos.2 ha, ?_⟩
      simp only [Except.map]
      rw [List.map_zipWith, List.zipWith_map_left]
      congr 2
      funext z t
      ring
  | sign =>
    show MatGainC fun B => orStop (fdSignBit B)
    unfold fdSignBit
    simp only [orStop_mapM]
    exact matGainC_mapM _ rowGainC_sign
  | whiten => exact matGainC_whiten

/-! ### the correlation of two spectra -/

theorem crossSpectrum_scale (freqs : List Rat) (off : Rat) (a b : ℝ) (B0 B1 : List ℂ) :
    crossSpectrum freqs off (B0.map ((a : ℂ) * ·)) (B1.map ((b : ℂ) * ·)) =
      (crossSpectrum freqs off B0 B1).map (((a * b : ℝ) : ℂ) * ·) := by
  unfold crossSpectrum
  induction B0 generalizing B1 freqs with
  | nil => rfl
  | cons x B0 ih =>
    cases B1 with
    | nil => rfl
    | cons y B1 =>
      cases freqs with
      | nil => rfl
      | cons f freqs =>
        simp only [List.map_cons, List.zipWith3, ih freqs B1]
        congr 1
        rw [map_mul, Complex.conj_ofReal]
        push_cast
        ring

theorem normTerm_scale (a : ℝ) (B : List ℂ) : normTerm (B.map ((a : ℂ) * ·)) = a ^ 2 * normTerm B := by
  unfold normTerm
  rw [getD_scale, Complex.re_ofReal_mul, List.map_map]
  have : (B.map (Complex.normSq ∘ fun z => (a : ℂ) * z)) = (B.map Complex.normSq).map (a ^ 2 * ·) := by
    rw [List.map_map]
    apply List.map_congr_left
    intro z _
    simp only [Function.comp, Complex.normSq_mul, Complex.normSq_ofReal]
    ring
  rw [this, List.sum_map_mul_left, List.map_id']
  ring

theorem corrNorm_scale (a b : ℝ) (B0 B1 : List ℂ) :
    corrNorm true (B0.map ((a : ℂ) * ·)) (B1.map ((b : ℂ) * ·)) = |a| * |b| * corrNorm true B0 B1 := by
  unfold corrNorm
  simp only [if_true, normTerm_scale, List.length_map, Real.sqrt_mul (sq_nonneg _), Real.sqrt_sq_eq_abs]
  ring

theorem sign_div_abs (c : ℝ) (hc : c ≠ 0) : (SignType.sign c : ℝ) = c / |c| := by
  rw [eq_div_iff (abs_ne_zero.2 hc), sign_mul_abs]

theorem cutCentre_map {α β : Type} (f : α → β) (s : Nat) (l : List α) : cutCentre s (l.map f) = (cutCentre s l).map f := by
  unfold cutCentre
  rw [List.map_append, List.map_take, List.length_map]
  congr 1
  split_ifs
  · rfl
  · rw [List.map_drop]

theorem corrRow_scale (center : Bool) (sr lts : Rat) (N : Nat) (s0 s1 : Rat) (a b : ℝ) (ha : a ≠ 0) (hb : b ≠ 0) (B0 B1 : List ℂ) :
    corrRow center true sr lts N s0 s1 (B0.map ((a : ℂ) * ·)) (B1.map ((b : ℂ) * ·)) =
      (corrRow center true sr lts N s0 s1 B0 B1).map fun c => (scaleBy (SignType.sign (a * b) : ℝ) c.1, c.2) := by
  unfold corrRow
  simp only [crossSpectrum_scale, irfft_scale, corrNorm_scale]
  cases irfft (crossSpectrum (rfftfreq N sr) (s0 - s1 - roffset center sr (s0 - s1)) B0 B1) with
  | error e => rfl
  | ok tmp =>
    simp only [Except.map, bind, Except.bind, scaleBy, cutCentre_map, List.length_map]
    by_cases h : (cutCentre (sampleToSave sr lts) tmp).length = 2 * sampleToSave sr lts + 1
    · simp only [if_pos h, pure, Except.pure, Except.ok.injEq, Prod.mk.injEq, and_true, List.map_map]
      apply List.map_congr_left
      intro y _
      simp only [Function.comp]
      rw [sign_div_abs _ (mul_ne_zero ha hb), abs_mul, mul_div_mul_comm]
    · simp only [if_neg h, throw, throwThe, MonadExceptOf.throw]

/-! ### the chain -/

theorem foldlM_gain (sr : Rat) (td : List TdStep) (htd : ∀ s ∈ td, s.Relative) :
    MatGain fun A => td.foldlM (fun A s => s.run sr A) A := by
  induction td with
  | nil =>
    intro g A hg _
    exact ⟨g, forall2_refl_gain g hg, rfl, by rintro B hB; cases hB; rfl⟩
  | cons s td ih =>
    intro g A hg hl
    have ih := ih fun s hs => htd s (by simp [hs])
    obtain ⟨h, h1, h2, h3⟩ := matGain_step sr s (htd s (by simp)) g A hg hl
    cases hA : s.run sr A with
    | error e =>
      refine ⟨g, forall2_refl_gain g hg, ?_, ?_⟩
      · simp only [List.foldlM_cons, h2, hA]
        rfl
      · intro B hB
        simp only [List.foldlM_cons, hA] at hB
        cases hB
    | ok C =>
      have hC := h3 C hA
      have hlen := h1.length_eq
      obtain ⟨k, k1, k2, k3⟩ := ih h C (ne_of_gain g h h1) (by omega)
      refine ⟨k, gain_trans g h k h1 k1, ?_, ?_⟩
      · simp only [List.foldlM_cons, h2, hA, Except.map, bind, Except.bind] at k2 ⊢
        exact k2
      · intro B hB
        simp only [List.foldlM_cons, hA, bind, Except.bind] at hB
        rw [k3 B hB, hC]

theorem foldlM_gainC (freqs : List Rat) (fd : List FdStep) : MatGainC fun B => fd.foldlM (fun B s => s.run freqs B) B := by
  induction fd with
  | nil =>
    intro g A hg _
    exact ⟨g, forall2_refl_gain g hg, rfl, by rintro B hB; cases hB; rfl⟩
  | cons s fd ih =>
    intro g A hg hl
    obtain ⟨h, h1, h2, h3⟩ := matGainC_step freqs s g A hg hl
    cases hA : s.run freqs A with
    | error e =>
      refine ⟨g, forall2_refl_gain g hg, ?_, ?_⟩
      · simp only [List.foldlM_cons, h2, hA]
        rfl
      · intro B hB
        simp only [List.foldlM_cons, hA] at hB
        cases hB
    | ok C =>
      have hC := h3 C hA
      have hlen := h1.length_eq
      obtain ⟨k, k1, k2, k3⟩ := ih h C (ne_of_gain g h h1) (by omega)
      refine ⟨k, gain_trans g h k h1 k1, ?_, ?_⟩
      · simp only [List.foldlM_cons, h2, hA, Except.map, bind, Except.bind] at k2 ⊢
        exact k2
      · intro B hB
        simp only [List.foldlM_cons, hA, bind, Except.bind] at hB
        rw [k3 B hB, hC]

theorem rowGain_pad (sr lts : Rat) : RowGain fun x => orStop (zeroPadding .avoidWrapFastLen sr lts x) := by
  intro a ha x
  refine ⟨a, mul_self_pos.2 ha, ?_⟩
  unfold zeroPadding
  simp only [scaleBy_length]
  cases paddedLen .avoidWrapFastLen sr lts x.length with
  | error e => rfl
  | ok N =>
    simp only [bind, Except.bind, pure, Except.pure, orStop, Except.map, Except.ok.injEq]
    simp [scaleBy]

theorem map_rfft_gains (g : List ℝ) (A : List (List ℝ)) : (withGains g A).map rfft = withGainsC g (A.map rfft) := by
  unfold withGains withGainsC
  rw [List.map_zipWith, List.zipWith_map_right]
  congr 1
  funext a x
  exact rfft_scale a x

theorem forall2_getElem? {g h : List ℝ} (H : List.Forall₂ (fun a b => 0 < a * b) g h) (i : Nat) :
    (g[i]? = none ∧ h[i]? = none) ∨ ∃ a b, g[i]? = some a ∧ h[i]? = some b ∧ 0 < a * b := by
  induction H generalizing i with
  | nil => left; simp
  | @cons a b g h hab _ ih =>
    cases i with
    | zero => right; exact ⟨a, b, rfl, rfl, hab⟩
    | succ i => simpa using ih i

theorem sign_pair (a b a' b' : ℝ) (h1 : 0 < a * a') (h2 : 0 < b * b') :
    SignType.sign (a' * b') = SignType.sign (a * b) := by
  have h : 0 < (a' * b') * (a * b) := by
    have := mul_pos h1 h2
    calc (0 : ℝ) < a * a' * (b * b') := this
      _ = _ := by ring
  rcases lt_trichotomy (a * b) 0 with h3 | h3 | h3
  · have : a' * b' < 0 := by
      by_contra hn
      push Not at hn
      nlinarith [mul_nonneg hn (neg_nonneg.2 h3.le)]
    rw [sign_neg h3, sign_neg this]
  · rw [h3, mul_zero] at h; exact absurd h (lt_irrefl _)
  · have : 0 < a' * b' := by
      by_contra hn
      push Not at hn
      nlinarith [mul_nonneg (neg_nonneg.2 hn) h3.le]
    rw [sign_pos h3, sign_pos this]

theorem pairRow_gain (center : Bool) (sr lts : Rat) (N : Nat) (starts : List Rat) (B : List (List ℂ)) (g h : List ℝ)
    (H : List.Forall₂ (fun a b => 0 < a * b) g h) (hl : g.length = B.length) (ij : Nat × Nat) :
    pairRow center true sr lts N starts (withGainsC h B) ij =
      (pairRow center true sr lts N starts B ij).map fun c => (scaleBy (pairSign g ij) c.1, c.2) := by
  have hlen := H.length_eq
  have hget : ∀ i : Nat, (withGainsC h B)[i]? = match h[i]?, B[i]? with
      | some a, some row => some (row.map ((a : ℂ) * ·))
      | _, _ => none := by
    intro i
    unfold withGainsC
    rw [List.getElem?_zipWith]
    cases h[i]? <;> cases B[i]? <;> rfl
  unfold pairRow
  simp only [hget]
  rcases forall2_getElem? H ij.1 with ⟨h1, h2⟩ | ⟨a, a', h1, h2, h3⟩
  · rw [List.getElem?_eq_none_iff] at h1
    rw [List.getElem?_eq_none (by omega : B.length ≤ ij.1), h2]
    rfl
  · have hb0 : ∃ b0, B[ij.1]? = some b0 := by
      have := (List.getElem?_eq_some_iff.1 h1).1
      exact ⟨_, List.getElem?_eq_getElem (by omega)⟩
    obtain ⟨b0, hb0⟩ := hb0
    rcases forall2_getElem? H ij.2 with ⟨k1, k2⟩ | ⟨b, b', k1, k2, k3⟩
    · rw [List.getElem?_eq_none_iff] at k1
      rw [List.getElem?_eq_none (by omega : B.length ≤ ij.2), k2, hb0, h2]
      rfl
    · have hb1 : ∃ b1, B[ij.2]? = some b1 := by
        have := (List.getElem?_eq_some_iff.1 k1).1
        exact ⟨_, List.getElem?_eq_getElem (by omega)⟩
      obtain ⟨b1, hb1⟩ := hb1
      rw [hb0, hb1, h2, k2]
      simp only
      cases starts[ij.1]? with
      | none => rfl
      | some s0 =>
        cases starts[ij.2]? with
        | none => rfl
        | some s1 =>
          simp only
          have ha' : a' ≠ 0 := by rintro rfl; simp at h3
          have hb' : b' ≠ 0 := by rintro rfl; simp at k3
          rw [corrRow_scale center sr lts N s0 s1 a' b' ha' hb', sign_pair a b a' b' h3 k3]
          have hp : pairSign g ij = (SignType.sign (a * b) : ℝ) := by
            unfold pairSign
            rw [List.getD_eq_getElem?_getD, List.getD_eq_getElem?_getD, h1, k1]
            rfl
          rw [hp]
          cases corrRow center true sr lts N s0 s1 b0 b1 with
          | error e => rfl
          | ok c => rfl

theorem pairs_gain (center : Bool) (sr lts : Rat) (N : Nat) (starts : List Rat) (B : List (List ℂ)) (g h : List ℝ)
    (H : List.Forall₂ (fun a b => 0 < a * b) g h) (hl : g.length = B.length) (pairs : List (Nat × Nat)) :
    pairs.mapM (pairRow center true sr lts N starts (withGainsC h B)) =
      (pairs.mapM (pairRow center true sr lts N starts B)).map fun C =>
        List.zipWith (fun ij c => (scaleBy (pairSign g ij) c.1, c.2)) pairs C := by
  induction pairs with
  | nil => rfl
  | cons ij pairs ih =>
    rw [List.mapM_cons, List.mapM_cons, ih, pairRow_gain center sr lts N starts B g h H hl]
    cases pairRow center true sr lts N starts B ij with
    | error e => rfl
    | ok c =>
      simp only [Except.map, bind, Except.bind]
      cases pairs.mapM (pairRow center true sr lts N starts B) with
      | error e => rfl
      | ok C => rfl

/-! ### theorems -/

/-- C154: For every chain of steps, every matrix of traces and all pairs: if the traces get
other gains, possibly with reversed polarity, every normalised correlation gets the sign of
the product of the gains of its traces, and is otherwise the same. The chain fails with the
same exception or not at all.
Missing for the full property: `c154_threshold_violated`, `c154_joint_violated`. -/
theorem c154_polarity_partial (td : List TdStep) (htd : ∀ s ∈ td, s.Relative) (fd : List FdStep) (center : Bool) (sr lts : Rat)
    (starts : List Rat) (pairs : List (Nat × Nat)) (A : List (List ℝ)) (g : List ℝ) (hg : ∀ a ∈ g, a ≠ 0)
    (hl : g.length = A.length) :
    correlateChain td fd center true sr lts starts pairs (withGains g A) =
      (correlateChain td fd center true sr lts starts pairs A).map fun C =>
        List.zipWith (fun ij c => (scaleBy (pairSign g ij) c.1, c.2)) pairs C := by
  unfold correlateChain
  obtain ⟨h, h1, h2, h3⟩ := foldlM_gain sr td htd g A hg hl
  simp only at h2 h3
  rw [h2]
  cases hA : td.foldlM (fun A s => s.run sr A) A with
  | error e => rfl
  | ok A1 =>
    simp only [Except.map, bind, Except.bind]
    have l1 := h1.length_eq
    have l2 := h3 A1 hA
    obtain ⟨k, k1, k2, k3⟩ := matGain_mapM _ (rowGain_pad sr lts) h A1 (ne_of_gain g h h1) (by omega)
    simp only at k2 k3
    rw [k2]
    cases hA2 : A1.mapM fun x => orStop (zeroPadding .avoidWrapFastLen sr lts x) with
    | error e => rfl
    | ok A2 =>
      simp only [Except.map]
      have l3 := k1.length_eq
      have l4 := k3 A2 hA2
      rw [withGains_head k A2 (by omega), map_rfft_gains]
      obtain ⟨m, m1, m2, m3⟩ := foldlM_gainC (rfftfreq (A2.headD []).length sr) fd k (A2.map rfft) (ne_of_gain h k k1)
        (by rw [List.length_map]; omega)
      simp only at m2 m3
      rw [m2]
      cases hB : fd.foldlM (fun B s => s.run (rfftfreq (A2.headD []).length sr) B) (A2.map rfft) with
      | error e => rfl
      | ok B =>
        simp only [Except.map]
        have l5 := m3 B hB
        rw [List.length_map] at l5
        exact pairs_gain center sr lts _ starts B g m (gain_trans g k m (gain_trans g h k h1 k1) m1) (by omega) pairs

theorem mapM_length {α β ε : Type} (f : α → Except ε β) (l : List α) (m : List β) (h : l.mapM f = .ok m) : m.length = l.length := by
  induction l generalizing m with
  | nil => cases h; rfl
  | cons a l ih =>
    rw [List.mapM_cons] at h
    cases ha : f a with
    | error e => rw [ha] at h; cases h
    | ok b =>
      rw [ha] at h
      cases hl : l.mapM f with
      | error e => rw [hl] at h; cases h
      | ok c =>
        rw [hl] at h
        cases h
        simp [ih c hl]

/-- C154: Positive gains of the instruments have no influence on the normalised correlations at
all, whatever steps of the time and frequency domain are used (except a mute with an absolute
threshold, joint whitening, and a clip with negative factor).
Missing for the full property: `c154_threshold_violated`, `c154_joint_violated`. -/
theorem c154_gain_partial (td : List TdStep) (htd : ∀ s ∈ td, s.Relative) (fd : List FdStep) (center : Bool) (sr lts : Rat)
    (starts : List Rat) (pairs : List (Nat × Nat)) (A : List (List ℝ)) (g : List ℝ) (hg : ∀ a ∈ g, 0 < a)
    (hl : g.length = A.length) :
    correlateChain td fd center true sr lts starts pairs (withGains g A) =
      correlateChain td fd center true sr lts starts pairs A := by
  rw [c154_polarity_partial td htd fd center sr lts starts pairs A g (fun a ha => (hg a ha).ne') hl]
  cases hC : correlateChain td fd center true sr lts starts pairs A with
  | error e => rfl
  | ok C =>
    have hlen : C.length = pairs.length := by
      unfold correlateChain at hC
      simp only [bind, Except.bind] at hC
      split at hC
      · cases hC
      · split at hC
        · cases hC
        · split at hC
          · cases hC
          · exact mapM_length _ _ _ hC
    have hpos : ∀ i, 0 < g.getD i 1 := by
      intro i
      rw [List.getD_eq_getElem?_getD]
      cases hgi : g[i]? with
      | none => simp
      | some a => exact hg a (List.mem_of_getElem? hgi)
    simp only [Except.map, Except.ok.injEq]
    clear hC
    induction C generalizing pairs with
    | nil => simp
    | cons c C ih =>
      cases pairs with
      | nil => simp at hlen
      | cons ij pairs =>
        simp only [List.zipWith_cons_cons, List.cons.injEq]
        refine ⟨?_, ih pairs (by simpa using hlen)⟩
        have hs : pairSign g ij = 1 := by
          unfold pairSign
          rw [sign_pos (mul_pos (hpos _) (hpos _))]
          rfl
        rw [hs]
        simp [scaleBy]

/-- C154 is violated for a mute with an absolute threshold: a trace above the threshold
becomes silent, the same trace with a quarter of the gain does not. -/
theorem c154_threshold_violated :
    (TdStep.mute ⟨id, fun _ _ => rfl⟩ ⟨2, some 1, none, false⟩).run 1 [[2, 2, 2]] = .ok [[0, 0, 0]] ∧
    (TdStep.mute ⟨id, fun _ _ => rfl⟩ ⟨2, some 1, none, false⟩).run 1 (withGains [1 / 4] [[2, 2, 2]]) = .ok [[0, 1 / 2, 1 / 2]] := by
  have htap : muteTap 2 = [0, 1] := by
    simp only [muteTap, List.range_succ, List.range_zero, List.nil_append, List.map_cons, List.map_nil,
      List.cons_append]
    congr 1
    · norm_num
    · congr 1
      rw [show ((1 : ℕ) : ℝ) / (2 : ℕ) * 2 * Real.pi = Real.pi by push_cast; ring, Real.cos_pi]
      norm_num
  have ht : truncRat (2 * 1) = 2 := by decide +kernel
  constructor
  · simp only [TdStep.run, mute, List.headD_cons, List.length_cons, List.length_nil, ht]
    rw [if_neg (by norm_num), if_neg (by norm_num), if_neg (by norm_num)]
    simp only [orStop, List.map_cons, List.map_nil, muteWeights, MuteArgs.thres, id, show Int.toNat 2 = 2 from rfl, htap]
    norm_num [convSame, List.range_succ]
  · simp only [TdStep.run, mute, withGains, scaleBy, List.zipWith_cons_cons, List.zipWith_nil_left, List.map_cons, List.map_nil,
      List.headD_cons, List.length_cons, List.length_nil, ht]
    rw [if_neg (by norm_num), if_neg (by norm_num), if_neg (by norm_num)]
    simp only [orStop, muteWeights, MuteArgs.thres, id, show Int.toNat 2 = 2 from rfl, htap]
    norm_num [convSame, List.range_succ, abs_of_pos]

/-- C154 is violated for joint whitening: if the gain of the second component is four times as
high, the whitened spectrum of the first component has another shape. -/
theorem c154_joint_violated :
    spectralWhitening true [[1, 1, 1], [1, 1, 3], [1, 1, 1]] = .ok [[0, 1, 3 / 5], [0, 1, 9 / 5], [0, 1, 3 / 5]] ∧
    spectralWhitening true (withGainsC [1, 4, 1] [[1, 1, 1], [1, 1, 3], [1, 1, 1]]) =
      .ok [[0, 1 / 2, 3 / 14], [0, 2, 18 / 7], [0, 1 / 2, 3 / 14]] := by
  constructor
  · unfold spectralWhitening
    rw [if_neg (by simp)]
    simp only
    rw [if_neg (by norm_num [whitenAbs])]
    norm_num [whitenAbs]
  · unfold spectralWhitening
    rw [if_neg (by simp [withGainsC])]
    simp only
    rw [if_neg (by norm_num [whitenAbs, withGainsC])]
    norm_num [whitenAbs, withGainsC]

/-- Without steps the chain is the correlation of C10, C12 and C82. -/
theorem chain_correlate (center normalize : Bool) (sr lts s0 s1 : Rat) (x0 x1 : List ℝ) (hlen : x0.length = x1.length) :
    correlateChain [] [] center normalize sr lts [s0, s1] [(0, 1)] [x0, x1] =
      (orStop (correlate center normalize sr lts s0 s1 x0 x1)).map fun c => [c] := by
  have hz : ∀ x : List ℝ, x.length = x0.length → zeroPadding .avoidWrapFastLen sr lts x =
      (paddedLen .avoidWrapFastLen sr lts x0.length).map fun N => x ++ List.replicate (N - x0.length) 0 := by
    intro x hx
    unfold zeroPadding
    rw [hx]
    cases paddedLen .avoidWrapFastLen sr lts x0.length <;> rfl
  have h0 := hz x0 rfl
  have h1 := hz x1 hlen.symm
  clear hz
  generalize paddedLen .avoidWrapFastLen sr lts x0.length = P at h0 h1
  unfold correlateChain correlate
  rw [List.foldlM_nil]
  simp only [pure_bind, List.mapM_cons, List.mapM_nil, h0, h1]
  cases P with
  | error e => rfl
  | ok N =>
    have hp : ∀ (M : Nat) (b0 b1 : List ℂ), pairRow center normalize sr lts M [s0, s1] [b0, b1] (0, 1) =
        orStop (corrRow center normalize sr lts M s0 s1 b0 b1) := fun M b0 b1 => rfl
    simp only [Except.map, orStop, bind, Except.bind, pure, Except.pure, List.foldlM_nil, List.map_cons, List.map_nil,
      List.headD_cons, hp]

/-- Hypotheses of `c154_gain_partial` and `c154_polarity_partial`: a chain of many steps, two
traces, the second of which has reversed polarity. -/
example (qr : (n : Nat) → 2 ≤ n → QR (trendMatrix n)) :
    (∀ s ∈ [TdStep.demean, .trend qr, .clip 3, .std, .norm ⟨id, fun _ _ => rfl⟩ 2, .mute ⟨id, fun _ _ => rfl⟩ ⟨2, none, some 4, true⟩, .sign],
      s.Relative) ∧ withGains [2, -1] [[1, 2], [3, 4]] = [[2, 4], [-3, -4]] ∧ pairSign [2, -1] (0, 1) = -1 := by
  refine ⟨?_, ?_, ?_⟩
  · intro s hs
    simp only [List.mem_cons, List.not_mem_nil, or_false] at hs
    rcases hs with rfl | rfl | rfl | rfl | rfl | rfl | rfl <;> simp [TdStep.Relative]
  · norm_num [withGains, scaleBy]
  · simp [pairSign]

end

end SeisMIC
