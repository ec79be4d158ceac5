import Mathlib.Analysis.SpecialFunctions.Trigonometric.Basic
import Mathlib.Analysis.SpecialFunctions.Sqrt
import Mathlib.Algebra.Order.Floor.Ring
import Verif.Py.Basic

/-!
# Model: sensitivity kernels (monitor/spatial.py)

Real numbers instead of floats. `vel` and `mf` (velocity and mean free path) are positive in
all theorems. Infinite values and NaN are those that numpy yields in the same places.
-/

namespace SeisMIC

noncomputable section

/-- `np.isclose(a, b, atol=atol)` with the default relative tolerance -/
def isClose (a b atol : ℝ) : Prop := |a - b| ≤ atol + 1 / 100000 * |b|

open Classical in
/-- the coherent part of `probability` (spatial.py:65-68): at distance zero the quotient is
infinite, and `nan_to_num` replaces it by 1 -/
def probCoherent (dist t vel mf atol : ℝ) : ℝ :=
  (if dist = 0 then 1 else Real.exp (-vel * t / mf) / (2 * Real.pi * dist)) * (if isClose dist (vel * t) atol then 1 else 0)

open Classical in
/-- the diffuse part of `probability` (spatial.py:70-75). Where the square roots are NaN and
where the quotient is infinite (`dist ≥ vel*t`), the step function is zero if
`atol ≥ 0`. -/
def probCoda (dist t vel mf atol : ℝ) : ℝ :=
  let a := 2 * Real.pi * mf * vel * t * Real.sqrt (1 - dist ^ 2 / (vel * t) ^ 2)
  let b := (Real.sqrt ((vel * t) ^ 2 - dist ^ 2) - vel * t) / mf
  (Real.exp b / a) * (if vel * t - dist - atol > 0 then 1 else 0)

open Classical in
/-- `probability` (spatial.py:32-77) for numbers -/
def probability (dist t vel mf atol : ℝ) : Except PyErr ℝ :=
  if dist < 0 then .error .valueError
  else if t < -atol / vel then .error .valueError
  else .ok (probCoherent dist t vel mf atol + probCoda dist t vel mf atol)

/-- distance of two points, `np.linalg.norm(s1-s2)` (spatial.py:157) and the entries of
`compute_grid_dist` (spatial.py:80-99) -/
def planeDist (p q : ℝ × ℝ) : ℝ := Real.sqrt ((p.1 - q.1) ^ 2 + (p.2 - q.2) ^ 2)

/-- `np.arange(0, t + dt, dt)` (spatial.py:156): `ceil((t + dt)/dt)` values -/
def lapseTimes (t dt : ℝ) : List ℝ := (List.range ⌈(t + dt) / dt⌉.toNat).map fun k : Nat => (k : ℝ) * dt

/-- `np.trapz(y, dx=dt)` -/
def trapz (dt : ℝ) : List ℝ → ℝ
  | a :: b :: l => dt * (a + b) / 2 + trapz dt (b :: l)
  | _ => 0

/-- is the distance of neighbours everywhere the same (spatial.py:149)? -/
def evenlySpaced (x : List ℝ) : Prop := ∀ d ∈ List.zipWith (fun a b => b - a) x x.tail, d = x.getD 1 0 - x.getD 0 0

/-- the nominator for one cell (spatial.py:163-167) -/
def kernelCell (s1 s2 p : ℝ × ℝ) (t dt vel mf atol : ℝ) : Except PyErr ℝ := do
  let f ← (lapseTimes t dt).mapM fun tt => do
    let a ← probability (planeDist p s1) tt vel mf atol
    let b ← probability (planeDist p s2) (t - tt) vel mf atol
    pure (a * b)
  pure (trapz dt f)

open Classical in
/-- `sensitivity_kernel` (spatial.py:102-169): rows for the values of `y`, columns for those
of `x`. Simplification: the cells are computed one after the other (all exceptions are
`ValueError`s). The warning about a large `dt` is left out. -/
def sensitivityKernel (s1 s2 : ℝ × ℝ) (x y : List ℝ) (t dt vel mf : ℝ) : Except PyErr (List (List ℝ)) := do
  let atol := vel * dt / 2
  if dt ≤ 0 then throw .valueError
  if x.length < 2 then throw .indexError
  if ¬ evenlySpaced x then throw .valueError
  if y.length < 2 then throw .indexError
  if ¬ evenlySpaced y then throw .valueError
  let denom ← probability (planeDist s1 s2) t vel mf atol
  if denom = 0 then pure (y.map fun _ => x.map fun _ => 0)
  else y.mapM fun yy => x.mapM fun xx => do
    let nom ← kernelCell s1 s2 (xx, yy) t dt vel mf atol
    pure (nom / denom)

end

end SeisMIC
