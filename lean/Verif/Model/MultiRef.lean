import Verif.Model.Stretch
import Verif.Model.Reference

/-!
# Model: velocity changes with several references (stretch_mod.py:699-952)

Real numbers, `none` is NaN (or masked). The references are in the order of `np.sort` of their names, which is the
order in which all loops visit them.
-/

namespace SeisMIC

noncomputable section

/-- the result with one reference (`velocity_change_estimate` for one window): value and correlation for each time, and the
similarity matrix, one row for each time -/
structure RefResult where
  value : List (Option ℝ)
  corr : List (Option ℝ)
  sim : List (List (Option ℝ))

/-- the points of two curves -/
def pairPoints (r1 r2 : RefResult) : List ShiftPoint :=
  List.zipWith (fun (a : Option ℝ × Option ℝ) (b : Option ℝ × Option ℝ) => ⟨a.1, b.1, a.2, b.2⟩) (r1.value.zip r1.corr) (r2.value.zip r2.corr)

/-- `(corr1 + corr2) * wgt` (stretch_mod.py:662) -/
def ShiftPoint.corrTerm (p : ShiftPoint) : Option ℝ :=
  match p.corr1, p.corr2, p.wgt with
  | some a, some b, some w => some ((a + b) * w)
  | _, _, _ => none

/-- `comb_corr` of `est_shift_from_dt_corr` (stretch_mod.py:662) -/
def estCorr (pts : List ShiftPoint) : Option ℝ :=
  let wgts := pts.filterMap ShiftPoint.wgt
  let terms := pts.filterMap ShiftPoint.corrTerm
  if wgts = [] ∨ terms = [] then none
  else if wgts.sum = 0 then none
  else some (terms.sum / wgts.sum)

/-- `np.around`: to the next whole number, halves to the even one -/
def npAround (x : ℝ) : Int :=
  if x - ⌊x⌋ < 1 / 2 then ⌊x⌋ else if x - ⌊x⌋ > 1 / 2 then ⌊x⌋ + 1 else if ⌊x⌋ % 2 = 0 then ⌊x⌋ else ⌊x⌋ + 1

/-- one row of `np.roll(sim_mat, m, axis=1)` (stretch_mod.py:807-812) -/
def rollRow (m : Int) (row : List (Option ℝ)) : List (Option ℝ) :=
  (List.range row.length).map fun j : Nat => row.getD (((j : Int) - m) % (row.length : Int)).toNat none

/-- the mean of the rolled matrices without masked values (stretch_mod.py:802-831); `rows` and `cols` are the shape of the first
matrix -/
def combineSims (panel : List RefResult) (ms : List Int) : List (List (Option ℝ)) :=
  (List.range (panel.headD ⟨[], [], []⟩).sim.length).map fun a =>
    (List.range ((panel.headD ⟨[], [], []⟩).sim.headD []).length).map fun j =>
      maMean (List.zipWith (fun (r : RefResult) m => (rollRow m (r.sim.getD a [])).getD j none) panel ms)

/-- `np.max(bsimmat, axis=1)` for one row: masked values are skipped -/
def maMaxR (l : List (Option ℝ)) : Option ℝ :=
  match l.filterMap id with
  | [] => none
  | v => some (v.foldl max (v.headD 0))

open Classical in
/-- `np.argmax(bsimmat, axis=1)` for one row: masked values count as `-inf`, so that a row without any value gives 0 -/
def maArgmaxR (l : List (Option ℝ)) : Nat :=
  if l.filterMap id = [] then 0
  else l.findIdx fun x => decide (x ≠ none ∧ ∀ y ∈ l, y ≠ none → y.getD 0 ≤ x.getD 0)

/-- weights and shifts for all pairs (stretch_mod.py:759-778): NaN is replaced by zero -/
def pairWeights (panel : List RefResult) : List ℝ :=
  (pairsG panel.length).map fun p => (estCorr (pairPoints (panel.getD p.1 ⟨[], [], []⟩) (panel.getD p.2 ⟨[], [], []⟩))).getD 0

/-- see `pairWeights` -/
def pairShifts (panel : List RefResult) : List ℝ :=
  (pairsG panel.length).map fun p => (estShift (pairPoints (panel.getD p.1 ⟨[], [], []⟩) (panel.getD p.2 ⟨[], [], []⟩))).getD 0

/-- the number of samples by which each matrix is rolled (stretch_mod.py:771-800). `solve n W D` is
`pinv(G^T W G) G^T W D`. -/
def rollSteps (solve : Nat → List ℝ → List ℝ → List ℝ) (axis : List ℝ) (panel : List RefResult) : List Int :=
  (centreShifts (solve panel.length (pairWeights panel) (pairShifts panel))).map fun x => npAround (x / (axis.getD 1 0 - axis.getD 0 0))

/-- `estimate_reftr_shifts_from_dt_corr` (stretch_mod.py:699-856): for each time correlation and value. A matrix with one row
loses this dimension in `np.squeeze`, and the shape cannot be unpacked (line 802). `None` for fewer than two references
is a `TypeError` of the caller. -/
def combineRefs (solve : Nat → List ℝ → List ℝ → List ℝ) (axis : List ℝ) (panel : List RefResult) :
    Except PyErr (List (Option ℝ × Option ℝ)) :=
  if axis.length < 2 then .error .indexError
  else if panel.length < 2 then .error .typeError
  else if (panel.headD ⟨[], [], []⟩).sim.length = 1 then .error .valueError
  else .ok ((combineSims panel (rollSteps solve axis panel)).map fun row => (maMaxR row, some (axis.getD (maArgmaxR row) 0)))

end

end SeisMIC
