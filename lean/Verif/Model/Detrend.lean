import Mathlib.LinearAlgebra.Matrix.NonsingularInverse
import Mathlib.Data.Real.Basic
import Verif.Py.Basic

/-!
# Model: removing the trend of traces (preprocessing_td.py:56-145)

Real numbers instead of floats, `none` is NaN. Matrices with one row for each trace; arrays with one dimension are not
modelled (the correlator always uses matrices).
-/

namespace SeisMIC

noncomputable section

open Matrix

/-- the matrix `X` of `detrendqr` (preprocessing_td.py:119-121), without the rounding to single precision -/
def trendMatrix (n : Nat) : Matrix (Fin n) (Fin 2) ℝ := Matrix.of fun k j => if j = 0 then (k : ℝ) / n else 1

/-- a result of `np.linalg.qr` for a matrix with two columns and at least two rows: orthonormal columns and an upper triangular matrix -/
structure QR {n : Nat} (X : Matrix (Fin n) (Fin 2) ℝ) where
  Q : Matrix (Fin n) (Fin 2) ℝ
  R : Matrix (Fin 2) (Fin 2) ℝ
  prod : Q * R = X
  orth : Qᵀ * Q = 1
  upper : R 1 0 = 0

/-- one row in `detrendqr` (preprocessing_td.py:122-130): a NaN makes all products NaN -/
def detrendRow {n : Nat} (qr : QR (trendMatrix n)) (d : Fin n → Option ℝ) : Fin n → Option ℝ :=
  open Classical in
  if ∀ k, d k ≠ none then
    fun k => some ((d k).getD 0 - (trendMatrix n *ᵥ ((qr.R⁻¹ * qr.Qᵀ) *ᵥ fun i => (d i).getD 0)) k)
  else fun _ => none

/-- the mean of the valid values (`np.nanmean`) -/
def nanmeanR (l : List (Option ℝ)) : Option ℝ :=
  match l.filterMap id with
  | [] => none
  | v => some (v.sum / v.length)

/-- one row in `demean` (preprocessing_td.py:136-145) -/
def demeanRow {n : Nat} (d : Fin n → Option ℝ) : Fin n → Option ℝ := fun k =>
  match d k, nanmeanR (List.ofFn d) with
  | some x, some m => some (x - m)
  | _, _ => none

/-- the line that fits best, `scipy.linalg.lstsq` in `scipy.signal.detrend`: the residuals of the samples. For one sample it is zero. -/
def lineResiduals (l : List ℝ) : List ℝ :=
  let n : ℝ := l.length
  let tm := (n - 1) / 2
  let ym := l.sum / n
  let b := ((List.range l.length).map fun k : Nat => ((k : ℝ) - tm) * (l.getD k 0 - ym)).sum /
    ((List.range l.length).map fun k : Nat => ((k : ℝ) - tm) ^ 2).sum
  (List.range l.length).map fun k : Nat => l.getD k 0 - ym - b * ((k : ℝ) - tm)

/-- `scipy.signal.detrend` of the valid samples; the types are also known by their first letters -/
def spDetrend (type : Str) (l : List ℝ) : Except PyErr (List ℝ) :=
  if type = c!"linear" ∨ type = c!"l" then .ok (lineResiduals l)
  else if type = c!"constant" ∨ type = c!"c" then .ok (l.map fun x => x - l.sum / l.length)
  else .error .valueError

/-- `A[ii, ~np.isnan(A[ii])] = values` -/
def setValid : List (Option ℝ) → List ℝ → List (Option ℝ)
  | [], _ => []
  | none :: row, vals => none :: setValid row vals
  | some _ :: row, v :: vals => some v :: setValid row vals
  | some x :: row, [] => some x :: setValid row []

/-- the arguments `args` of `detrend`; other arguments (`bp`) are not modelled -/
structure DetrendArgs where
  method : Option Str
  type : Option Str

/-- one row in `detrend_scipy` (preprocessing_td.py:94-101): all of `args` is passed to `scipy.signal.detrend`, which has no argument
`method`. A row without valid samples is left as it is (`ZeroDivisionError`, or nothing to do), but after the check of the arguments. -/
def detrendScipyRow {n : Nat} (a : DetrendArgs) (d : Fin n → Option ℝ) : Except PyErr (Fin n → Option ℝ) :=
  if a.method.isSome then .error .typeError
  else do
    let v ← spDetrend (a.type.getD c!"linear") ((List.ofFn d).filterMap id)
    .ok fun k => (setValid (List.ofFn d) v).getD k none

/-- `detrend_scipy` (preprocessing_td.py:86-102): the matrix afterwards, which is changed in place, and the exception -/
def detrendScipy {n : Nat} (a : DetrendArgs) (A : List (Fin n → Option ℝ)) : List (Fin n → Option ℝ) × Option PyErr :=
  open Classical in
  if ∀ d ∈ A, ∀ k, d k = none then (A, none) else go A
where
  go : List (Fin n → Option ℝ) → List (Fin n → Option ℝ) × Option PyErr
    | [] => ([], none)
    | d :: A => match detrendScipyRow a d with
      | .error e => (d :: A, some e)
      | .ok r => (r :: (go A).1, (go A).2)

/-- `detrend` (preprocessing_td.py:56-83): the result, and the argument `A` afterwards. With fewer than two samples `R` is not square
(`LinAlgError`). -/
def detrend {n : Nat} (qr : 2 ≤ n → QR (trendMatrix n)) (a : DetrendArgs) (A : List (Fin n → Option ℝ)) :
    Except PyErr (List (Fin n → Option ℝ)) × List (Fin n → Option ℝ) :=
  let method := a.method.getD c!"qr"
  if method = c!"scipy" then
    match detrendScipy a A with
    | (B, some e) => (.error e, B)
    | (B, none) => (.ok B, B)
  else if method = c!"qr" then
    let type := a.type.getD c!"linear"
    if type = c!"linear" then
      if h : 2 ≤ n then (.ok (A.map (detrendRow (qr h))), A.map (detrendRow (qr h))) else (.error .valueError, A)
    else if type = c!"constant" then (.ok (A.map demeanRow), A)
    else (.error .valueError, A)
  else (.error .valueError, A)

end

end SeisMIC
