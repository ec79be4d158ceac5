import Verif.Model.StretchMeasure
import Verif.Props.Measure

/-!
# C215: the unit of the lag times

Header, windows and shifts in another unit of time: all lags are multiplied by `c`, the sampling rate is divided by it.
-/

namespace SeisMIC

/-- a header in another unit of time -/
def LagStats.inUnit (c : Rat) (s : LagStats) : LagStats := ⟨c * s.startLag, s.npts, s.sr / c⟩

/-- what splines do not depend on: the unit of the abscissa -/
def UnitFree (spline : List ℝ → List ℝ → ℝ → ℝ) : Prop :=
  ∀ (c : ℝ) (ts ys : List ℝ) (x : ℝ), 0 < c → spline (ts.map (c * ·)) ys (c * x) = spline ts ys x

variable {c : Rat}

theorem endLag_inUnit (hc : 0 < c) (s : LagStats) : (s.inUnit c).endLag = c * s.endLag := by
  unfold LagStats.endLag LagStats.inUnit
  simp only [div_eq_zero_iff, hc.ne', or_false]
  split
  · ring
  · split
    · ring
    · rw [one_div_div, mul_add]
      congr 1
      field_simp

theorem corrMatTrim_inUnit {α : Type} (hc : 0 < c) (data : List (List α)) (s : LagStats) (t0 t1 : Rat) :
    corrMatTrim data (s.inUnit c) (c * t0) (c * t1) = ((corrMatTrim data s t0 t1).1, (corrMatTrim data s t0 t1).2.inUnit c) := by
  have h : ∀ t, (c * t - c * s.startLag) * (s.sr / c) = (t - s.startLag) * s.sr := by
    intro t
    field_simp
  unfold corrMatTrim LagStats.inUnit
  simp only [h]
  split
  · rfl
  · split
    · rfl
    · rfl

theorem lagTimes_inUnit (hc : 0 < c) (s : LagStats) : lagTimes (s.inUnit c) = (lagTimes s).map ((c : ℝ) * ·) := by
  unfold lagTimes linspaceR
  rw [endLag_inUnit hc, List.map_map]
  apply List.map_congr_left
  intro k _
  simp only [LagStats.inUnit, Function.comp]
  push_cast
  ring

theorem linspaceR_scaled (c r : ℝ) (n : Nat) : linspaceR (-(c * r)) (c * r) n = (linspaceR (-r) r n).map (c * ·) := by
  unfold linspaceR
  rw [List.map_map]
  apply List.map_congr_left
  intro k _
  simp only [Function.comp]
  ring

theorem lagIndices_inUnit (hc : 0 < c) (sides : Str) (s : LagStats) (t0 t1 : Rat) :
    lagIndices sides (s.inUnit c) (c * t0) (c * t1) = lagIndices sides s t0 t1 := by
  have h : ∀ t, c * t * (s.sr / c) = t * s.sr := by
    intro t
    field_simp
  unfold lagIndices LagStats.inUnit
  simp only [h]

theorem shiftedRefMat_inUnit (hc : 0 < c) (spline : List ℝ → List ℝ → ℝ → ℝ) (hsp : UnitFree spline) (ref : List ℝ) (s : LagStats) (shifts : List ℝ) :
    shiftedRefMat spline ref (s.inUnit c) (shifts.map ((c : ℝ) * ·)) = shiftedRefMat spline ref s shifts := by
  have hc' : (0 : ℝ) < c := by exact_mod_cast hc
  unfold shiftedRefMat
  rw [lagTimes_inUnit hc, List.map_map]
  apply List.map_congr_left
  intro v _
  simp only [Function.comp, List.map_map]
  apply List.map_congr_left
  intro t _
  simp only [Function.comp]
  rw [← mul_add, hsp _ _ _ _ hc']

theorem bestMatch_scaled (c : ℝ) (vals : List ℝ) (sims : List (Option ℝ)) :
    bestMatch (vals.map (c * ·)) sims = (bestMatch vals sims).map fun r => (r.1, r.2.map (c * ·)) := by
  unfold bestMatch
  cases npMaxR sims with
  | error e => rfl
  | ok m =>
    simp only [bind, Except.bind, List.getElem?_map]
    cases vals[npArgmaxR sims]? with
    | none => rfl
    | some v =>
      simp only [Option.map_some, Except.map]
      cases m <;> rfl

theorem mapM_except_map {α β γ : Type} (f : α → Except PyErr β) (g : β → γ) (l : List α) :
    (l.mapM fun x => (f x).map g) = (l.mapM f).map (List.map g) := by
  induction l with
  | nil => rfl
  | cons a l ih =>
    rw [List.mapM_cons, List.mapM_cons, ih]
    cases f a with
    | error e => rfl
    | ok b =>
      cases l.mapM f with
      | error e => rfl
      | ok bs => rfl

theorem max?_scaled (hc : 0 < c) (l : List Rat) : (l.map (c * ·)).max? = l.max?.map (c * ·) := by
  cases l with
  | nil => rfl
  | cons a l =>
    rw [List.map_cons, List.max?_cons', List.max?_cons', Option.map_some]
    congr 1
    induction l generalizing a with
    | nil => rfl
    | cons b l ih =>
      rw [List.map_cons, List.foldl_cons, List.foldl_cons, ← ih, mul_max_of_nonneg _ _ hc.le]

theorem min?_scaled (hc : 0 < c) (l : List Rat) : (l.map (c * ·)).min? = l.min?.map (c * ·) := by
  cases l with
  | nil => rfl
  | cons a l =>
    rw [List.map_cons, List.min?_cons', List.min?_cons', Option.map_some]
    congr 1
    induction l generalizing a with
    | nil => rfl
    | cons b l ih =>
      rw [List.map_cons, List.foldl_cons, List.foldl_cons, ← ih, mul_min_of_nonneg _ _ hc.le]

theorem measureTrimmed_inUnit (hc : 0 < c) (spline : List ℝ → List ℝ → ℝ → ℝ) (hsp : UnitFree spline) (data : List (List ℝ)) (ref : List ℝ) (s : LagStats)
    (wins : List (Rat × Rat)) (range : Rat) (steps : Nat) (sides : Str) :
    measureTrimmed spline data ref (s.inUnit c) (wins.map fun w => (c * w.1, c * w.2)) (c * range) steps sides =
      (measureTrimmed spline data ref s wins range steps sides).map (List.map fun r => (r.1, r.2.map ((c : ℝ) * ·))) := by
  unfold measureTrimmed
  rw [← mapM_except_map]
  push_cast
  simp only [linspaceR_scaled, shiftedRefMat_inUnit hc spline hsp]
  congr 1
  funext row
  have hw : ((wins.map fun w => (c * w.1, c * w.2)).mapM fun w =>
      compareRow (shiftedRefMat spline ref s (linspaceR (-(range : ℝ)) (range : ℝ) steps)) (lagIndices sides (s.inUnit c) w.1 w.2) row) =
      wins.mapM fun w => compareRow (shiftedRefMat spline ref s (linspaceR (-(range : ℝ)) (range : ℝ) steps)) (lagIndices sides s w.1 w.2) row := by
    rw [List.mapM_map]
    congr 1
    funext w
    simp only [Function.comp, lagIndices_inUnit hc]
  rw [hw]
  cases wins.mapM fun w => compareRow (shiftedRefMat spline ref s (linspaceR (-(range : ℝ)) (range : ℝ) steps)) (lagIndices sides s w.1 w.2) row with
  | error e => rfl
  | ok sims => exact bestMatch_scaled _ _ _

/-- a step function of the abscissa has no unit -/
theorem unitFree_step : UnitFree fun ts ys x => ys.getD ((ts.filter fun t => decide (t ≤ x)).length - 1) 0 := by
  intro c ts ys x hc
  simp only [List.filter_map, List.length_map, Function.comp_def, mul_le_mul_iff_right₀ hc]

/-- 21 lags from -10 s to 10 s are 21 lags from -10000 ms to 10000 ms -/
example : (LagStats.mk (-10) 21 1).inUnit 1000 = ⟨-10000, 21, 1 / 1000⟩ ∧ (LagStats.mk (-10) 21 1).endLag = 10 ∧
    ((LagStats.mk (-10) 21 1).inUnit 1000).endLag = 10000 ∧ (0 : Rat) < 1000 := by
  decide +kernel

/-- **C215** (time shifts) If lags, windows and the range of shifts are given in another unit of time, the measured shifts are the same, in this unit, with the same
correlations, and the same inputs are refused. -/
theorem c215_shift (hc : 0 < c) (spline : List ℝ → List ℝ → ℝ → ℝ) (hsp : UnitFree spline) (data : List (List ℝ)) (s : LagStats) (ref : Option (List ℝ))
    (tw : Option (List (List Rat))) (range : Rat) (steps : Int) (sides : Str) :
    measureShift spline data (s.inUnit c) ref (tw.map (List.map (List.map (c * ·)))) (c * range) steps sides =
      (measureShift spline data s ref tw range steps sides).map (List.map fun r => (r.1, r.2.map ((c : ℝ) * ·))) := by
  have hlen : ((tw.map (List.map (List.map (c * ·)))).getD []).any (fun w => w.length != 2) = (tw.getD []).any (fun w => w.length != 2) := by
    cases tw with
    | none => rfl
    | some tw => simp [List.any_map, Function.comp_def]
  have hneg : ((tw.map (List.map (List.map (c * ·)))).getD []).any (fun w => w.any fun t => decide (t < 0)) = (tw.getD []).any (fun w => w.any fun t => decide (t < 0)) := by
    cases tw with
    | none => rfl
    | some tw =>
      simp only [Option.map_some, Option.getD_some, List.any_map, Function.comp_def]
      congr 1
      funext w
      congr 1
      funext t
      simp [mul_neg_iff, hc, not_lt.2 hc.le]
  have hwins : ((tw.map (List.map (List.map (c * ·)))).getD [[(s.inUnit c).startLag + c * range, (s.inUnit c).endLag - c * range]]).map (fun w => (w.getD 0 0, w.getD 1 0)) =
      ((tw.getD [[s.startLag + range, s.endLag - range]]).map fun w => (w.getD 0 0, w.getD 1 0)).map fun w => (c * w.1, c * w.2) := by
    have hg : ∀ (w : List Rat) (k : Nat), (w.map (c * ·)).getD k 0 = c * w.getD k 0 := by
      intro w k
      rw [List.getD_eq_getElem?_getD, List.getD_eq_getElem?_getD, List.getElem?_map]
      cases w[k]? <;> simp
    cases tw with
    | none =>
      simp only [Option.map_none, Option.getD_none, List.map_cons, List.map_nil, endLag_inUnit hc]
      simp [LagStats.inUnit, mul_add, mul_sub]
    | some tw =>
      simp only [Option.map_some, Option.getD_some, List.map_map]
      apply List.map_congr_left
      intro w _
      simp only [Function.comp, hg]
  unfold measureShift
  rw [hlen, hneg, hwins]
  generalize (tw.getD [[s.startLag + range, s.endLag - range]]).map (fun w => (w.getD 0 0, w.getD 1 0)) = wins
  dsimp only
  have hends : (wins.map fun w => (c * w.1, c * w.2)).flatMap (fun w => [w.1, w.2]) = (wins.flatMap fun w => [w.1, w.2]).map (c * ·) := by
    rw [List.flatMap_map, List.map_flatMap]
    rfl
  rw [hends, max?_scaled hc, min?_scaled hc]
  by_cases h1 : steps % 2 = 0
  · rw [if_pos h1, if_pos h1]
    rfl
  rw [if_neg h1, if_neg h1]
  by_cases h2 : sides ≠ c!"both" ∧ sides ≠ c!"single"
  · rw [if_pos h2, if_pos h2]
    rfl
  rw [if_neg h2, if_neg h2]
  by_cases h3 : (tw.getD []).any (fun w => w.length != 2)
  · rw [if_pos h3, if_pos h3]
    rfl
  rw [if_neg h3, if_neg h3]
  by_cases h4 : sides = c!"both" ∧ (tw.getD []).any (fun w => w.any fun t => decide (t < 0))
  · rw [if_pos h4, if_pos h4]
    rfl
  rw [if_neg h4, if_neg h4]
  have hnp : (s.inUnit c).npts = s.npts := rfl
  rw [hnp]
  cases ref with
  | none =>
    dsimp only
    rw [if_neg Bool.false_ne_true, if_neg Bool.false_ne_true]
    cases (wins.flatMap fun w => [w.1, w.2]).max? with
    | none => rfl
    | some hi =>
      cases (wins.flatMap fun w => [w.1, w.2]).min? with
      | none => rfl
      | some lo =>
        simp only [Option.map_some]
        have e1 : c * hi + c * range = c * (hi + range) := by ring
        have e2 : (if sides = c!"both" then -(c * (hi + range)) else c * lo - c * range) = c * (if sides = c!"both" then -(hi + range) else lo - range) := by
          split <;> ring
        rw [e1, e2, endLag_inUnit hc]
        generalize (if sides = c!"both" then -(hi + range) else lo - range) = tmin
        have e3 : c * (hi + range) ≤ c * s.endLag ↔ hi + range ≤ s.endLag := mul_le_mul_iff_right₀ hc
        have e4 : (s.inUnit c).startLag ≤ c * tmin ↔ s.startLag ≤ tmin := mul_le_mul_iff_right₀ hc
        simp only [e3, e4]
        split
        · rfl
        split
        · rfl
        rw [corrMatTrim_inUnit hc]
        split
        · rfl
        · exact measureTrimmed_inUnit hc spline hsp _ _ _ _ _ _ _
  | some r =>
    dsimp only
    by_cases h5 : decide (r.length ≠ s.npts) = true
    · rw [if_pos h5, if_pos h5]
      rfl
    rw [if_neg h5, if_neg h5]
    cases (wins.flatMap fun w => [w.1, w.2]).max? with
    | none => rfl
    | some hi =>
      cases (wins.flatMap fun w => [w.1, w.2]).min? with
      | none => rfl
      | some lo =>
        simp only [Option.map_some]
        have e1 : c * hi + c * range = c * (hi + range) := by ring
        have e2 : (if sides = c!"both" then -(c * (hi + range)) else c * lo - c * range) = c * (if sides = c!"both" then -(hi + range) else lo - range) := by
          split <;> ring
        rw [e1, e2, endLag_inUnit hc]
        generalize (if sides = c!"both" then -(hi + range) else lo - range) = tmin
        have e3 : c * (hi + range) ≤ c * s.endLag ↔ hi + range ≤ s.endLag := mul_le_mul_iff_right₀ hc
        have e4 : (s.inUnit c).startLag ≤ c * tmin ↔ s.startLag ≤ tmin := mul_le_mul_iff_right₀ hc
        simp only [e3, e4]
        split
        · rfl
        split
        · rfl
        rw [corrMatTrim_inUnit hc]
        split
        · rfl
        · exact measureTrimmed_inUnit hc spline hsp _ _ _ _ _ _ _

theorem stretchTrim_inUnit {α : Type} (hc : 0 < c) (data : List (List α)) (s : LagStats) (sides : Str) :
    stretchTrim data (s.inUnit c) sides = ((stretchTrim data s sides).1, (stretchTrim data s sides).2.inUnit c) := by
  have e0 : (0 : Rat) = c * 0 := by ring
  have e1 : min (-(s.inUnit c).startLag) (c * s.endLag) = c * min (-s.startLag) s.endLag := by
    rw [mul_min_of_nonneg _ _ hc.le]
    simp [LagStats.inUnit]
  unfold stretchTrim
  rw [endLag_inUnit hc, e1]
  split
  · conv_lhs => rw [e0]
    exact corrMatTrim_inUnit hc _ _ _ _
  · rw [← mul_neg]
    exact corrMatTrim_inUnit hc _ _ _ _

/-- **C215** (stretches) If the lags are given in another unit of time, the measured stretches and correlations are the same. Windows are given in samples. -/
theorem c215_stretch (hc : 0 < c) (spline : List ℝ → List ℝ → ℝ → ℝ) (data : List (List ℝ)) (s : LagStats) (ref : Option (List ℝ))
    (tw : Option (List (List Int))) (range : ℝ) (steps : Nat) (sides : Str) (refStats : Option LagStats) :
    corrMatStretch spline data (s.inUnit c) ref tw range steps sides (refStats.map (LagStats.inUnit c)) =
      corrMatStretch spline data s ref tw range steps sides refStats := by
  have e0 : (0 : Rat) = c * 0 := by ring
  have e1 : min (-(s.inUnit c).startLag) (c * s.endLag) = c * min (-s.startLag) s.endLag := by
    rw [mul_min_of_nonneg _ _ hc.le]
    simp [LagStats.inUnit]
  have e2 : (if sides = c!"single" then ((0 : Rat), c * s.endLag) else (-(c * min (-s.startLag) s.endLag), c * min (-s.startLag) s.endLag)) =
      (c * (if sides = c!"single" then ((0 : Rat), s.endLag) else (-(min (-s.startLag) s.endLag), min (-s.startLag) s.endLag)).1,
        c * (if sides = c!"single" then ((0 : Rat), s.endLag) else (-(min (-s.startLag) s.endLag), min (-s.startLag) s.endLag)).2) := by
    split <;> simp
  have e3 : ∀ x : LagStats, (refStats.map (LagStats.inUnit c)).getD (x.inUnit c) = (refStats.getD x).inUnit c := by
    intro x
    cases refStats <;> rfl
  have e4 : ∀ x : LagStats, (x.inUnit c).npts = x.npts := fun _ => rfl
  unfold corrMatStretch timeStretch
  simp only [stretchTrim_inUnit hc, endLag_inUnit hc, e1, e2, e3, e4, corrMatTrim_inUnit hc]

/-- **C215** (corrections) Traces are corrected for a stretch, and for shifts in the unit of the lags, to the same samples. -/
theorem c215_correct (hc : 0 < c) (spline : List ℝ → List ℝ → ℝ → ℝ) (hsp : UnitFree spline) (s : LagStats) (row : List ℝ) (v : ℝ) (rows : List (List (Option ℝ)))
    (shifts : List (Option ℝ)) :
    stretchRow spline (s.inUnit c) row v = stretchRow spline s row v ∧
    applyShift (s.inUnit c) rows (shifts.map fun v => v.map ((c : ℝ) * ·)) = applyShift s rows shifts := by
  have hc' : (0 : ℝ) < c := by exact_mod_cast hc
  constructor
  · unfold stretchRow
    rw [lagTimes_inUnit hc, List.map_map]
    apply List.map_congr_left
    intro t _
    simp only [Function.comp]
    unfold splineZeros
    have hh : ((lagTimes s).map ((c : ℝ) * ·)).headD 0 = c * (lagTimes s).headD 0 := by
      cases lagTimes s <;> simp
    have hl : ((lagTimes s).map ((c : ℝ) * ·)).getLastD 0 = c * (lagTimes s).getLastD 0 := by
      rw [List.getLastD_eq_getLast?, List.getLastD_eq_getLast?, List.getLast?_map]
      cases (lagTimes s).getLast? <;> simp
    rw [hh, hl, mul_assoc, hsp _ _ _ _ hc']
    simp only [mul_le_mul_iff_right₀ hc']
  · induction rows generalizing shifts with
    | nil => cases shifts <;> rfl
    | cons row rows ih =>
      cases shifts with
      | nil => rfl
      | cons v vs =>
        rw [List.map_cons]
        unfold applyShift
        rw [ih vs, lagTimes_inUnit hc, List.map_map]
        have hrow : (lagTimes s).map ((fun t => match v.map ((c : ℝ) * ·) with
            | some v => interpLin ((s.inUnit c).startLag : ℝ) (1 / ((s.inUnit c).sr : ℝ)) row (t + v)
            | none => none) ∘ ((c : ℝ) * ·)) = (lagTimes s).map fun t => match v with
            | some v => interpLin (s.startLag : ℝ) (1 / (s.sr : ℝ)) row (t + v)
            | none => none := by
          apply List.map_congr_left
          intro t _
          cases v with
          | none => rfl
          | some v =>
            simp only [Function.comp, Option.map_some]
            have e1 : ((s.inUnit c).startLag : ℝ) = c * s.startLag := by simp [LagStats.inUnit]
            have e2 : 1 / ((s.inUnit c).sr : ℝ) = c * (1 / (s.sr : ℝ)) := by
              simp only [LagStats.inUnit]
              push_cast
              rw [one_div_div, mul_one_div]
            have e3 : ∀ x t0 d : ℝ, (c * x - c * t0) / (c * d) = (x - t0) / d := by
              intro x t0 d
              rw [← mul_sub, mul_div_mul_left _ _ hc'.ne']
            unfold interpLin
            rw [e1, e2, ← mul_add]
            simp only [e3]
            have e4 : ∀ i : Nat, ((c : ℝ) * (t + v) - (c * s.startLag + i * (c * (1 / (s.sr : ℝ))))) / (c * (1 / (s.sr : ℝ))) =
                ((t + v) - (s.startLag + i * (1 / (s.sr : ℝ)))) / (1 / (s.sr : ℝ)) := by
              intro i
              rw [← e3 (t + v) (s.startLag + i * (1 / (s.sr : ℝ))) (1 / (s.sr : ℝ))]
              congr 1
              ring
            simp only [e4]
        exact congrArg (fun n => (n :: (applyShift s rows vs).1, (applyShift s rows vs).2)) hrow

/-- **C215** (cutting, mirroring, tapering) The samples of the other functions of the lag axis are the same, too, and their headers have the new unit. -/
theorem c215_processing (hc : 0 < c) {α : Type} (any : List (List α)) (data : List (List F)) (vals : List (List Rat)) (cosTaper : Nat → List Rat) (s : LagStats)
    (t0 t1 width frac : Rat) (filt : List α → List α) (factor : Int) :
    corrMatTrim any (s.inUnit c) (c * t0) (c * t1) = ((corrMatTrim any s t0 t1).1, (corrMatTrim any s t0 t1).2.inUnit c) ∧
    corrMatMirror data (s.inUnit c) = (corrMatMirror data s).map (fun r => (r.1, r.2.inUnit c)) ∧
    corrMatTaperCenter cosTaper vals (s.inUnit c) (c * width) frac = corrMatTaperCenter cosTaper vals s width frac ∧
    corrMatDecimate filt any (s.inUnit c) factor = (corrMatDecimate filt any s factor).map (fun r => (r.1, r.2.inUnit c)) := by
  have h : ∀ t, c * t * (s.sr / c) = t * s.sr := by
    intro t
    field_simp
  refine ⟨corrMatTrim_inUnit hc any s t0 t1, ?_, ?_, ?_⟩
  · have hz : (s.inUnit c).startLag * (s.inUnit c).sr = s.startLag * s.sr := h s.startLag
    have he : c * s.endLag ≤ 0 ↔ s.endLag ≤ 0 := by
      constructor
      · intro h'
        by_contra hlt
        have := mul_pos hc (not_le.1 hlt)
        linarith
      · intro h'
        exact mul_nonpos_of_nonneg_of_nonpos hc.le h'
    unfold corrMatMirror
    simp only [hz, endLag_inUnit hc, he]
    split
    · rfl
    split
    · rfl
    split
    · rfl
    · simp [LagStats.inUnit]
  · have h1 : c * width = 0 ↔ width = 0 := by simp [hc.ne']
    have h2 : c * width < 0 ↔ width < 0 := by simp [mul_neg_iff, hc, not_lt.2 hc.le]
    have h3 : c * width > (s.npts : Rat) / (s.sr / c) ↔ width > (s.npts : Rat) / s.sr := by
      rw [gt_iff_lt, gt_iff_lt, div_div_eq_mul_div, mul_comm (s.npts : Rat) c, mul_div_assoc]
      exact mul_lt_mul_iff_right₀ hc
    have h4 : -(c * s.startLag) * (s.sr / c) = -s.startLag * s.sr := by
      rw [← mul_neg, h]
    unfold corrMatTaperCenter LagStats.inUnit
    simp only [h1, h2, h3, h, h4]
  · unfold corrMatDecimate LagStats.inUnit
    split
    · rfl
    split
    · rfl
    · simp only [Except.map]
      rw [div_right_comm]

end SeisMIC
