import Verif.Model.StretchMeasure

/-!
# Model: the velocity change of one combination of stations (monitor.py:162-326)

The bulk as it is after reading, normalising, stacking, filtering and preprocessing (lines 185-246) is given; all its samples are numbers.
`dt_ref` describes a single reference; how it is made of the traces is a parameter. Postprocessing, saving and plotting are left out.
-/

namespace SeisMIC

noncomputable section

/-- the part of `options['dv']` that is used -/
structure DvOptions where
  twStart : Rat
  twLen : Option Rat
  range : ℝ
  steps : Nat
  sides : Str

/-- monitor.py:198-227: start and end of the time window. `tt` is the rounded travel time, if `compute_tt` is set and the header has a
distance; only then the variable `d`, which is part of the message of the error, exists. -/
def dvWindow (o : DvOptions) (lts : Rat) (tt : Option Rat) : Except PyErr (Rat × Rat) :=
  let start := o.twStart + tt.getD 0
  match o.twLen with
  | none => .error .typeError
  | some len =>
    if lts < start + len then .error (if tt.isSome then .valueError else .unboundLocalError)
    else .ok (start, start + len)

/-- `np.arange(start, stop, 1)`, as whole numbers (monitor.py:280-282; `astype(np.int32)` in stretch_mod.py:280-299 cuts off the
decimals; the numbers are not negative). Simplification: exact if `start` is a whole number; otherwise the code cuts off the decimals of
`center - k` on the left side, which is one sample further away from the centre. -/
def arangeInt (start stop : Rat) : List Int :=
  (List.range ((stop - start).ceil).toNat).map fun k : Nat => (start + k).floor

/-- the result of a measurement: for each trace correlation and value -/
abbrev DvRows := List (Option ℝ × Option ℝ)

/-- `Monitor.compute_velocity_change` (monitor.py:198-308). `lts` is the saved length of the correlations, `refOf` makes the reference of the
traces (`extract_multi_trace`), `custom` is the argument `ref_trcs`. `stretch` changes the header of the bulk it is called on
(post_corr_process.py:875-883), so the second measurement has the changed header. -/
def computeDv (spline : List ℝ → List ℝ → ℝ → ℝ) (refOf : List (List (Option ℝ)) → List ℝ) (data : List (List ℝ)) (s : LagStats)
    (o : DvOptions) (lts : Rat) (tt : Option Rat) (custom : Option (List ℝ)) : Except PyErr DvRows := do
  let w ← dvWindow o lts tt
  let cbt := corrMatTrim data s (-w.2) w.2
  if cbt.2.npts ≤ 20 then .error .valueError
  let tr := custom.getD (refOf (data.map fun row => row.map some))
  let tw := arangeInt (w.1 * cbt.2.sr) (w.2 * cbt.2.sr)
  let dv ← corrMatStretch spline cbt.1 cbt.2 (some tr) (some [tw]) o.range o.steps o.sides (some s)
  let ccb ← correctStretch spline s c!"stretch" data (squeeze ((dv.headD []).map Prod.snd))
  let tr := custom.getD (refOf ccb)
  let dv ← corrMatStretch spline cbt.1 (stretchTrim cbt.1 cbt.2 o.sides).2 (some tr) (some [tw]) o.range o.steps o.sides (some s)
  .ok (dv.headD [])

end

end SeisMIC
