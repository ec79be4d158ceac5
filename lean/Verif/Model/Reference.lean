import Verif.Model.Amplitude
import Verif.Py.Nan
import Verif.Py.Sort

/-!
# Model: reference traces (post_corr_process.py:717-785, stream.py:302-398)

A matrix is the list of its rows, `m` the number of its columns. `none` is NaN. Real numbers
instead of floats, infinite values are not modelled.
-/

namespace SeisMIC

noncomputable section

/-- `np.mean` of the values that are not masked, `filled(nan)` -/
def maMean (l : List (Option ℝ)) : Option ℝ :=
  match l.filterMap id with
  | [] => none
  | v => some (meanR v)

/-- the median of sorted values: the middle one, or the mean of the two in the middle -/
def middle (v : List ℝ) : ℝ :=
  if v.length % 2 = 1 then v.getD (v.length / 2) 0
  else (v.getD (v.length / 2 - 1) 0 + v.getD (v.length / 2) 0) / 2

/-- sorted values -/
def sortR (l : List ℝ) : List ℝ := isort (fun a b => decide (a ≤ b)) l

/-- `np.median` of the values that are not masked, `filled(nan)` -/
def maMedian (l : List (Option ℝ)) : Option ℝ :=
  match l.filterMap id with
  | [] => none
  | v => some (middle (sortR v))

/-- one row in `corr_mat_normalize` with `absmax` and without times
(post_corr_process.py:438-445): the maximum of a row with NaN is NaN -/
def absmaxRow (row : List (Option ℝ)) : Except PyErr (List (Option ℝ)) :=
  if row = [] then .error .valueError
  else if none ∈ row then .ok (row.map fun _ => none)
  else
    match maxR ((row.filterMap id).map (|·|)) with
    | none => .error .valueError
    | some mx => .ok (row.map fun x => x.map (· / (if mx = 0 then 1 else mx)))

/-- all values of a list, `none` if one is NaN -/
def allVals (l : List (Option ℝ)) : Option (List ℝ) := l.mapM id

/-- the similarity of a row with the mean trace (post_corr_process.py:767-775): NaN if there is a
NaN in one of them or if one of them vanishes -/
def simToMean (mean row : List (Option ℝ)) : Option ℝ := do
  let a ← allVals row
  let b ← allVals mean
  let den := Real.sqrt ((a.map (· ^ 2)).sum * (b.map (· ^ 2)).sum)
  if den = 0 then none else some ((List.zipWith (· * ·) a b).sum / den)

/-- `np.percentile` with linear interpolation. `IndexError` without values. -/
def npPercentile (l : List ℝ) (p : ℝ) : Except PyErr ℝ :=
  if p < 0 ∨ 100 < p then .error .valueError
  else if l = [] then .error .indexError
  else
    let v := sortR l
    let h := ((v.length : ℝ) - 1) * (p / 100)
    let lo := ⌊h⌋.toNat
    .ok (v.getD lo 0 + (v.getD (lo + 1) (v.getD lo 0) - v.getD lo 0) * (h - lo))

/-- `corr_mat_extract_trace` (post_corr_process.py:717-785) -/
def extractTrace (m : Nat) (data : List (List (Option ℝ))) (method : Str) (percentile : ℝ) :
    Except PyErr (List (Option ℝ)) :=
  if method = c!"mean" then .ok ((List.range m).map fun j => maMean (column data j))
  else if method = c!"median" then .ok ((List.range m).map fun j => maMedian (column data j))
  else if method = c!"norm_mean" then do
    let ndata ← data.mapM absmaxRow
    .ok ((List.range m).map fun j => maMean (column ndata j))
  else if method = c!"similarity_percentile" then do
    let ndata ← data.mapM absmaxRow
    let mean := (List.range m).map fun j => maMean (column ndata j)
    let tres ← npPercentile (ndata.filterMap (simToMean mean)) percentile
    -- `cor > tres` is false for NaN; the mean of no rows is NaN
    let sel := ndata.filter fun row => match simToMean mean row with
      | none => false
      | some c => decide (tres < c)
    .ok ((List.range m).map fun j => maMean (column sel j))
  else .error .valueError

/-- the rows whose correlations touch the time window, `_find_slice_index` with
`include_partial=True` (stream.py:796-825) -/
def rowsInWindow (starts ends : List Int) (data : List (List (Option ℝ))) (lo hi : Int) :
    Except PyErr (List (List (Option ℝ))) :=
  if hi ≤ lo then .error .valueError
  else .ok (((starts.zip ends).zip data).filterMap fun x => if lo ≤ x.1.2 ∧ x.1.1 ≤ hi then some x.2 else none)

/-- the loop `while start < max(corr_end)` in `extract_multi_trace` (stream.py:387-395) -/
def multiLoop (m : Nat) (starts ends : List Int) (data : List (List (Option ℝ))) (method : Str) (percentile : ℝ)
    (inc maxEnd start : Int) : Except PyErr (List (List (Option ℝ))) :=
  if start < maxEnd then
    match rowsInWindow starts ends data (start - inc / 2) (start + inc + inc / 2) with
    | .error e => .error e
    | .ok rows =>
      match extractTrace m rows method percentile with
      | .error e => .error e
      | .ok tr =>
        if 0 < inc then
          match multiLoop m starts ends data method percentile inc maxEnd (start + inc) with
          | .error e => .error e
          | .ok rest => .ok (tr :: rest)
        else .error .valueError -- not reached: the window would be empty
  else .ok []
termination_by (maxEnd - start).toNat
decreasing_by omega

/-- the loop over a list of increments in `extract_multi_trace` (stream.py:380-386) -/
def multiList (m : Nat) (starts ends : List Int) (data : List (List (Option ℝ))) (method : Str) (percentile : ℝ) :
    List Int → Int → Except PyErr (List (List (Option ℝ)))
  | [], _ => .ok []
  | inc :: rest, start => do
    let rows ← rowsInWindow starts ends data (start - inc / 2) (start + inc + inc / 2)
    let tr ← extractTrace m rows method percentile
    let more ← multiList m starts ends data method percentile rest (start + inc)
    .ok (tr :: more)

/-- `CorrBulk.extract_multi_trace` (stream.py:336-398). `win_inc` is a list or a whole number of
days. Only for bulks with at least two rows: for one row `np.squeeze` in `_find_slice_index`
adds a dimension. -/
def extractMulti (m : Nat) (starts ends : List Int) (data : List (List (Option ℝ))) (winInc : List Int ⊕ Int)
    (method : Str) (percentile : ℝ) : Except PyErr (List (List (Option ℝ))) :=
  match winInc with
  | .inr 0 => do
    let tr ← extractTrace m data method percentile
    .ok [tr]
  | .inr w =>
    match starts.min?, ends.max? with
    | some s, some e => multiLoop m starts ends data method percentile (w * dayNs) e s
    | _, _ => .error .valueError
  | .inl ws =>
    match starts.min? with
    | some s => multiList m starts ends data method percentile (ws.map (· * dayNs)) s
    | none => .error .valueError

end

end SeisMIC
