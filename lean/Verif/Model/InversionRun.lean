import Verif.Model.Inversion
import Verif.Model.Spatial

/-!
# Model: inversions with one grid object (monitor/spatial.py)

The public methods of the grid with their effects on the object: the stations, the kernels computed before, the last grid of velocity changes and the last
resolution. Data and kernels are rational numbers, the inversion is computed with real numbers.
-/

namespace SeisMIC

open Matrix

/-- The grid: reference point, `list(set(...))`, kernels, cells (flattened) and `np.linalg.pinv(G, rcond)`. -/
structure GridEnv where
  geo : Geo
  ord : List Pt → List Pt
  kern : KKey → Except PyErr (List Rat)
  cells : List Pt
  pinv : {n : Nat} → Matrix (Fin n) (Fin cells.length) ℝ → Rat → Matrix (Fin cells.length) (Fin n) ℝ

/-- attributes of a `DVGrid` that change (spatial.py:320-326) -/
structure GridState (nc : Nat) where
  stations : Option Stations
  cache : List (KKey × List Rat)
  vel : Option (Fin nc → ℝ)
  res : Option (Fin nc → ℝ)

/-- optional arguments of the methods -/
structure InvArgs where
  tw : Option (Rat × Rat)
  freq0 : Option Rat
  freq1 : Option Rat

/-- `given or own` (spatial.py:458-459, 554-555, 627-628, 693-694): zero is replaced, too -/
def orOwn (given own : Option Rat) : Option Rat :=
  match given with
  | some x => if x = 0 then own else some x
  | none => own

/-- `_extract_info_dvs` (spatial.py:726-786), with the stations of the object also after an exception -/
def extractSt (env : GridEnv) (st : Option Stations) (utc : Int) (curves : List Curve) : Except PyErr (List Datum × Option Proc) × Option Stations :=
  match curves.mapM (extractOne utc) with
  | .error e => (.error e, st)
  | .ok sel =>
    let data := sel.filterMap id
    match data.getLast? with
    | none => (.error .indexError, st)
    | some d =>
      match addStations env.geo env.ord st (data.map (·.stat0)) with
      | .error e => (.error e, st)
      | .ok s0 =>
        match addStations env.geo env.ord (some s0) (data.map (·.stat1)) with
        | .error e => (.error e, some s0)
        | .ok s1 => (.ok (data, d.proc), some s1)

/-- kernels and data, window and frequencies -/
structure Prepared where
  rows : List (List Rat × Datum)
  tw : Rat × Rat
  freq0 : Rat
  freq1 : Rat
  deriving DecidableEq

/-- window and frequencies: those that are given, else those of the curves (spatial.py:457-464, 553-560, 627-634, 693-700) -/
def invSettings (args : InvArgs) (proc : Option Proc) : Except PyErr ((Rat × Rat) × Rat × Rat) :=
  match args.tw.or (proc.map fun p => (p.twStart, p.twStart + p.twLen)), orOwn args.freq0 (proc.map (·.freqMin)), orOwn args.freq1 (proc.map (·.freqMax)) with
  | some tw, some f0, some f1 => .ok (tw, f0, f1)
  | _, _, _ => .error .attributeError

/-- the common first part of the methods (spatial.py:455-466, 551-562, 625-636, 691-702) -/
def prepare (env : GridEnv) {nc : Nat} (s : GridState nc) (args : InvArgs) (utc : Int) (curves : List Curve) : Except PyErr Prepared × GridState nc :=
  match extractSt env s.stations utc curves with
  | (.error e, st) => (.error e, { s with stations := st })
  | (.ok (data, proc), st) =>
    match invSettings args proc with
    | .error e => (.error e, { s with stations := st })
    | .ok (tw, f0, f1) =>
      let k := computeKernels env.geo env.kern s.cache (data.map (·.stat0)) (data.map (·.stat1)) ((tw.1 + tw.2) / 2)
      (k.1.map fun rows => ⟨rows.zip data, tw, f0, f1⟩, { s with stations := st, cache := k.2 })

noncomputable section

/-- the matrix of kernels; each kernel has a value for each cell (spatial.py:944-949) -/
def kernelMatrix (nc : Nat) (rows : List (List Rat × Datum)) : Matrix (Fin rows.length) (Fin nc) ℝ := Matrix.of fun i k => (((rows.get i).1.getD k 0 : Rat) : ℝ)

/-- coherences of the data -/
def rowCorrs (rows : List (List Rat × Datum)) : Fin rows.length → ℝ := fun i => ((rows.get i).2.corr : ℝ)

/-- values of the data -/
def datumVals (rows : List (List Rat × Datum)) : Fin rows.length → ℝ := fun i => ((rows.get i).2.val : ℝ)

/-- positions of the cells -/
def cellPos (cells : List Pt) : Fin cells.length → ℝ × ℝ := fun i => (((cells.get i).1 : ℝ), ((cells.get i).2 : ℝ))

/-- scaling factor, correlation length and standard deviation of the model -/
structure CmArgs where
  scaling : Rat
  corrLen : Rat
  stdModel : Rat

/-- data covariance and model covariance (spatial.py:467-471, 622-624, 637, 688-690, 703) -/
def covariances (env : GridEnv) (cm : CmArgs) (p : Prepared) :
    Except PyErr (Matrix (Fin env.cells.length) (Fin env.cells.length) ℝ × Matrix (Fin p.rows.length) (Fin p.rows.length) ℝ) := do
  let cd ← dataCovariance (rowCorrs p.rows) p.freq0 p.freq1 ((p.tw.1 : ℝ), (p.tw.2 : ℝ))
  pure (modelCovariance cm.scaling cm.corrLen cm.stdModel (cellPos env.cells), cd)

/-- `compute_dv_grid` (spatial.py:388-482); `withRes` is `compute_resolution` -/
def dvGridCall (env : GridEnv) (s : GridState env.cells.length) (withRes : Bool) (cm : CmArgs) (args : InvArgs) (utc : Int) (curves : List Curve) :
    Except PyErr (Fin env.cells.length → ℝ) × GridState env.cells.length :=
  match prepare env s args utc curves with
  | (.error e, s) => (.error e, s)
  | (.ok p, s) =>
    match covariances env cm p with
    | .error e => (.error e, s)
    | .ok (c, d) =>
      match invert (kernelMatrix _ p.rows) c d (datumVals p.rows) with
      | .error e => (.error e, s)
      | .ok m =>
        if withRes then
          match resolution (kernelMatrix _ p.rows) c d with
          | .error e => (.error e, { s with vel := some m })
          | .ok r => (.ok m, { s with vel := some m, res := some r })
        else (.ok m, { s with vel := some m })

/-- `compute_resolution` (spatial.py:571-643) -/
def resolutionCall (env : GridEnv) (s : GridState env.cells.length) (cm : CmArgs) (args : InvArgs) (utc : Int) (curves : List Curve) :
    Except PyErr (Fin env.cells.length → ℝ) × GridState env.cells.length :=
  match prepare env s args utc curves with
  | (.error e, s) => (.error e, s)
  | (.ok p, s) =>
    match covariances env cm p with
    | .error e => (.error e, s)
    | .ok (c, d) =>
      match resolution (kernelMatrix _ p.rows) c d with
      | .error e => (.error e, s)
      | .ok r => (.ok r, { s with res := some r })

/-- `compute_posterior_covariance` (spatial.py:645-705) -/
def posteriorCall (env : GridEnv) (s : GridState env.cells.length) (cm : CmArgs) (args : InvArgs) (utc : Int) (curves : List Curve) :
    Except PyErr (Matrix (Fin env.cells.length) (Fin env.cells.length) ℝ) × GridState env.cells.length :=
  match prepare env s args utc curves with
  | (.error e, s) => (.error e, s)
  | (.ok p, s) =>
    match covariances env cm p with
    | .error e => (.error e, s)
    | .ok (c, d) => (posteriorCovariance (kernelMatrix _ p.rows) c d, s)

/-- `compute_dv_tsvd` (spatial.py:484-569) -/
def tsvdCall (env : GridEnv) (s : GridState env.cells.length) (cutoff : Rat) (args : InvArgs) (utc : Int) (curves : List Curve) :
    Except PyErr (Fin env.cells.length → ℝ) × GridState env.cells.length :=
  match prepare env s args utc curves with
  | (.error e, s) => (.error e, s)
  | (.ok p, s) =>
    let m := env.pinv (kernelMatrix _ p.rows) cutoff *ᵥ datumVals p.rows
    (.ok m, { s with vel := some m })

/-- a call of one of the methods -/
inductive GridCall where
  | dvGrid (withRes : Bool) (cm : CmArgs) (args : InvArgs) (utc : Int) (curves : List Curve)
  | resolution (cm : CmArgs) (args : InvArgs) (utc : Int) (curves : List Curve)
  | posterior (cm : CmArgs) (args : InvArgs) (utc : Int) (curves : List Curve)
  | tsvd (cutoff : Rat) (args : InvArgs) (utc : Int) (curves : List Curve)

/-- what a method returns: values of the cells or a matrix -/
inductive GridAnswer (nc : Nat) where
  | cells (m : Fin nc → ℝ)
  | matrix (m : Matrix (Fin nc) (Fin nc) ℝ)

/-- a call on an object: answer and object afterwards -/
def runCall (env : GridEnv) (s : GridState env.cells.length) : GridCall → Except PyErr (GridAnswer env.cells.length) × GridState env.cells.length
  | .dvGrid r cm args utc curves => let o := dvGridCall env s r cm args utc curves; (o.1.map .cells, o.2)
  | .resolution cm args utc curves => let o := resolutionCall env s cm args utc curves; (o.1.map .cells, o.2)
  | .posterior cm args utc curves => let o := posteriorCall env s cm args utc curves; (o.1.map .matrix, o.2)
  | .tsvd cutoff args utc curves => let o := tsvdCall env s cutoff args utc curves; (o.1.map .cells, o.2)

/-- a new grid (spatial.py:280-326) -/
def newGrid (nc : Nat) : GridState nc := ⟨none, [], none, none⟩

/-- the object after several calls, whether they fail or not -/
def afterCalls (env : GridEnv) (calls : List GridCall) : GridState env.cells.length :=
  calls.foldl (fun s c => (runCall env s c).2) (newGrid env.cells.length)

end

end SeisMIC
