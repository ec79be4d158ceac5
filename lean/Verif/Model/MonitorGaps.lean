import Verif.Model.MonitorDv

/-!
# Model: the velocity change of a combination of stations with times without data (monitor.py:162-326)

`resample` puts a row of `nan` for each time window without correlations (post_corr_process.py:281-294). This is `computeDv` for a
matrix with such rows.
-/

namespace SeisMIC

noncomputable section

/-- `correct_stretch` (stream.py:188-209, post_corr_process.py:1229-1254) for a matrix with `nan`. Simplification: the spline of a row
with a `nan` is `nan` everywhere. -/
def correctStretchGaps (spline : List ℝ → List ℝ → ℝ → ℝ) (s : LagStats) (valueType : Str) (data : List (List (Option ℝ)))
    (value : Squeezed) : Except PyErr (List (List (Option ℝ))) :=
  if valueType ≠ c!"stretch" then .error .valueError
  else match value with
    | .scalar _ => if data = [] then .ok [] else .error .indexError
    | .array l =>
      if l.length < data.length then .error .indexError
      else .ok (List.zipWith (fun row v => match v, row.mapM id with
        | some v, some row => (stretchRow spline s row (-1 * v)).map some
        | _, _ => (lagTimes s).map fun _ => none) data l)

/-- `Monitor.compute_velocity_change` (monitor.py:198-308), see `computeDv`. The measurements replace `nan` by zero
(stretch_mod.py:928-930), the reference is made of the matrix with `nan`. -/
def computeDvGaps (spline : List ℝ → List ℝ → ℝ → ℝ) (refOf : List (List (Option ℝ)) → List ℝ) (data : List (List (Option ℝ)))
    (s : LagStats) (o : DvOptions) (lts : Rat) (tt : Option Rat) (custom : Option (List ℝ)) : Except PyErr DvRows := do
  let w ← dvWindow o lts tt
  let cbt := corrMatTrim (data.map fun row => row.map fun x => x.getD 0) s (-w.2) w.2
  if cbt.2.npts ≤ 20 then .error .valueError
  let tr := custom.getD (refOf data)
  let tw := arangeInt (w.1 * cbt.2.sr) (w.2 * cbt.2.sr)
  let dv ← corrMatStretch spline cbt.1 cbt.2 (some tr) (some [tw]) o.range o.steps o.sides (some s)
  let ccb ← correctStretchGaps spline s c!"stretch" data (squeeze ((dv.headD []).map Prod.snd))
  let tr := custom.getD (refOf ccb)
  let dv ← corrMatStretch spline cbt.1 (stretchTrim cbt.1 cbt.2 o.sides).2 (some tr) (some [tw]) o.range o.steps o.sides (some s)
  .ok (dv.headD [])

end

end SeisMIC
