import Verif.Py.Basic
import Mathlib.Analysis.SpecialFunctions.Sqrt

/-!
# Model: velocity changes by comparison with stretched references (stretch_mod.py)

Real numbers, `none` is NaN. Infinite values are not modelled. A matrix is the list of
its rows, the number of columns is given separately. The final `np.squeeze` is left out.
-/

namespace SeisMIC

/-- `np.floor((n - 1.) / 2.)` (stretch_mod.py:100, 270) -/
def centerP (n : Nat) : Int := ((n : Int) - 1) / 2

/-- `time_windows_creation` (stretch_mod.py:22-65) for lists; `t_width` a list of the same
length or a scalar -/
def timeWindows (starts : List Int) (widths : List Int ⊕ Int) : Except PyErr (List (List Int)) :=
  let ws := match widths with
    | .inl l => l
    | .inr w => starts.map fun _ => w
  if ws.length ≠ starts.length then .error .valueError
  else if (match widths with
    | .inl l => l.any (· ≤ 0)
    | .inr w => decide (w ≤ 0)) then .error .valueError
  else .ok (List.zipWith (fun s w => (List.range w.toNat).map fun k : Nat => s + k) starts ws)

/-- the indices of a lag window (stretch_mod.py:106-123, 280-299). `astype(np.int32)` of
integers is the identity. -/
def windowIdx (sides : Str) (n : Nat) (ctw : List Int) : Except PyErr (List Int) :=
  let c := centerP n
  if sides = c!"both" then
    match ctw with
    | [] => .error .indexError
    | k0 :: rest =>
      if k0 = 0 then .ok ((ctw.reverse.map fun k => c - k) ++ rest.map fun k => c + k)
      else .ok ((ctw.reverse.map fun k => c - k) ++ ctw.map fun k => c + k)
  else if sides = c!"left" then .ok (ctw.reverse.map fun k => c - k)
  else if sides = c!"right" then .ok (ctw.map fun k => c + k)
  else if sides = c!"single" then .ok ctw
  else .error .valueError

/-- `mask = np.zeros(n); mask[idx] = 1` (stretch_mod.py:125-126, 301-302): negative indices
count from the end -/
def maskOf (n : Nat) (idx : List Int) : Except PyErr (List Bool) :=
  if idx.any fun k => decide (k < -(n : Int)) || decide ((n : Int) ≤ k) then .error .indexError
  else .ok ((List.range n).map fun i : Nat => idx.any fun k => decide (k = (i : Int)) || decide (k + n = (i : Int)))

/-- `row * mask` -/
def maskMul (mask : List Bool) (row : List ℝ) : List ℝ := List.zipWith (fun m x => if m then x else 0) mask row

/-- `np.dot` of two vectors -/
def dotR (a b : List ℝ) : ℝ := (List.zipWith (· * ·) a b).sum

/-- `dprod / den` (stretch_mod.py:310-321): zero divided by zero is NaN -/
noncomputable def similarity (a b : List ℝ) : Option ℝ :=
  let den := Real.sqrt (dotR a a * dotR b b)
  if den = 0 then none else some (dotR a b / den)

/-- values of a row: `np.nan_to_num` if NaNs are removed (stretch_mod.py:267-268);
otherwise one NaN makes every product with the row NaN -/
def rowVals (removeNans : Bool) (row : List (Option ℝ)) : Option (List ℝ) :=
  if removeNans then some (row.map (·.getD 0)) else row.mapM id

/-- one row of the similarity matrix (stretch_mod.py:304-322) -/
noncomputable def simRow (removeNans : Bool) (mask : List Bool) (strref : List (List ℝ)) (row : List (Option ℝ)) :
    List (Option ℝ) :=
  strref.map fun r => match rowVals removeNans row with
    | none => none
    | some f => similarity (maskMul mask f) (maskMul mask r)

open Classical in
/-- `tmp.max(axis=1)` for one row: NaN if there is a NaN -/
noncomputable def npMaxR (l : List (Option ℝ)) : Except PyErr (Option ℝ) :=
  if l = [] then .error .valueError
  else if none ∈ l then .ok none
  else .ok (some ((l.filterMap id).foldl max ((l.filterMap id).headD 0)))

open Classical in
/-- `tmp.argmax(axis=1)` for one row: the first NaN, otherwise the first maximum -/
noncomputable def npArgmaxR (l : List (Option ℝ)) : Nat :=
  if none ∈ l then l.findIdx fun x => x.isNone
  else l.findIdx fun x => decide (∀ y ∈ l, y.getD 0 ≤ x.getD 0)

/-- the best match of one row (stretch_mod.py:324-330) -/
noncomputable def bestMatch (strvec : List ℝ) (sims : List (Option ℝ)) : Except PyErr (Option ℝ × Option ℝ) := do
  let corr ← npMaxR sims
  match strvec[npArgmaxR sims]? with
  | none => .error .indexError
  | some v => .ok (corr, if corr.isNone then none else some v)

/-- `velocity_change_estimate` (stretch_mod.py:203-341): for each window and each row
correlation and value. `n` and `nref` are the numbers of columns. The assignment to
`sim_mat` broadcasts a single column. -/
noncomputable def velocityChange (n nref : Nat) (mat : List (List (Option ℝ))) (tw : List (List Int))
    (strref : List (List ℝ)) (strvec : List ℝ) (sides : Str) (removeNans : Bool) :
    Except PyErr (List (List (Option ℝ × Option ℝ))) :=
  if nref ≠ n then .error .valueError
  else tw.mapM fun ctw => do
    let idx ← windowIdx sides n ctw
    let mask ← maskOf n idx
    if strvec.length ≠ strref.length ∧ strref.length ≠ 1 then .error .valueError
    mat.mapM fun row => bestMatch strvec (simRow removeNans mask strref row)

/-- `compute_wfc` (stretch_mod.py:68-145) -/
noncomputable def computeWfc (n : Nat) (mat : List (List (Option ℝ))) (tw : List (List Int)) (refcorr : List ℝ)
    (sides : Str) (removeNans : Bool) : Except PyErr (List (List (Option ℝ))) :=
  if refcorr.length ≠ n then .error .assertionError
  else tw.mapM fun ctw => do
    let idx ← windowIdx sides n ctw
    let mask ← maskOf n idx
    pure (mat.map fun row => match rowVals removeNans row with
      | none => none
      | some f => similarity (maskMul mask f) (maskMul mask refcorr))

/-! ### several references -/

/-- the row of `_create_G` (stretch_mod.py:678-696) for references `jj` and `t`: `-1` in
column `jj - 1` if `jj > 0`, then `1` in column `t - 1` if `t > 0` -/
def rowG (n jj t : Nat) : List ℝ :=
  (List.range (n - 1)).map fun c : Nat => if t > 0 ∧ c = t - 1 then 1 else if jj > 0 ∧ c = jj - 1 then -1 else 0

/-- the pairs of references in the order of the rows (stretch_mod.py:683-686, 759-769) -/
def pairsG (n : Nat) : List (Nat × Nat) :=
  (List.range n).flatMap fun jj => ((List.range n).filter fun t => t ≠ jj).map fun t => (jj, t)

/-- `_create_G` (stretch_mod.py:678-696) -/
def createG (n : Nat) : List (List ℝ) := (pairsG n).map fun p => rowG n p.1 p.2

/-- the linear system `(G^T W G) m = G^T W D` (stretch_mod.py:771-792), one equation for
each column. The pseudo inverse of a regular matrix gives its solution; a singular matrix
(all weights of a reference zero) is not modelled. -/
def SolvesAlignment (n : Nat) (W D m : List ℝ) : Prop :=
  ∀ c < n - 1, (List.zipWith (fun w (rd : List ℝ × ℝ) => w * rd.1.getD c 0 * (dotR rd.1 m - rd.2)) W
    ((createG n).zip D)).sum = 0

/-- the offsets relative to their mean from the solution of the linear system
(stretch_mod.py:793-794) -/
noncomputable def centreShifts (m : List ℝ) : List ℝ := (0 :: m).map fun x => x - (0 :: m).sum / ((0 :: m).length : ℝ)

/-- division of masked arrays: a zero denominator gives a masked value -/
noncomputable def maDiv (a b : Option ℝ) : Option ℝ :=
  match a, b with
  | some x, some y => if y = 0 then none else some (x / y)
  | _, _ => none

/-- `(1 - corr ** 2) / (4 * corr ** 2)` (stretch_mod.py:644-645) -/
noncomputable def pointVar (c : Option ℝ) : Option ℝ :=
  maDiv (c.map fun c => 1 - c ^ 2) (c.map fun c => 4 * c ^ 2)

/-- weight of a point (stretch_mod.py:648). The mask of stretch_mod.py:650 demands
`corr > 0.999` and not `corr > 0`, which no point fulfils, so no point is removed. -/
noncomputable def pointWgt (c1 c2 : Option ℝ) : Option ℝ :=
  maDiv (some 1) (match pointVar c1, pointVar c2 with
    | some a, some b => some (a + b)
    | _, _ => none)

/-- a point of the two curves: values and correlations -/
structure ShiftPoint where
  dt1 : Option ℝ
  dt2 : Option ℝ
  corr1 : Option ℝ
  corr2 : Option ℝ

noncomputable def ShiftPoint.wgt (p : ShiftPoint) : Option ℝ := pointWgt p.corr1 p.corr2

/-- `(dt1 - dt2) * wgt` -/
noncomputable def ShiftPoint.term (p : ShiftPoint) : Option ℝ :=
  match p.dt1, p.dt2, p.wgt with
  | some a, some b, some w => some ((a - b) * w)
  | _, _, _ => none

/-- the shift of `est_shift_from_dt_corr` (stretch_mod.py:594-675): sums skip masked
values; NaN without any valid term or weight -/
noncomputable def estShift (pts : List ShiftPoint) : Option ℝ :=
  let wgts := pts.filterMap ShiftPoint.wgt
  let terms := pts.filterMap ShiftPoint.term
  if wgts = [] ∨ terms = [] then none
  else if wgts.sum = 0 then none
  else some (terms.sum / wgts.sum)

end SeisMIC
