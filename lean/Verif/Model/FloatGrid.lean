import Verif.Model.Floats

/-!
# Model: grids of velocity changes and their kernels, with the rounding of floats (monitor/spatial.py)

All numbers are floats. The exact counterparts are in `Model/Kernel.lean`.
-/

namespace SeisMIC

/-- an axis of `DVGrid`: `np.arange(x0, x0 + x + res, res)` with `x0 = 0` (spatial.py:311-313) -/
def gridAxisF (res extent : Rat) : List Rat := arangeF 0 (f64 (extent + res)) res

/-- `not np.any(np.diff(x) != x[1]-x[0])` (spatial.py:149) for an axis with at least two values -/
def evenlySpacedF (x : List Rat) : Bool :=
  (List.zipWith (fun a b => f64 (b - a)) x x.tail).all fun d => d == f64 (x.getD 1 0 - x.getD 0 0)

/-- `T = np.arange(0, t + dt, dt)` (spatial.py:156) -/
def lapseTimesF (t dt : Rat) : List Rat := arangeF 0 (f64 (t + dt)) dt

/-- the limit `-atol/vel` below which `probability` refuses a time, with `atol = vel*dt/2` (spatial.py:56, 146) -/
def timeLimitF (dt vel : Rat) : Rat := f64 (-f64 (f64 (vel * dt) / 2) / vel)

/-- the exception of `sensitivity_kernel` (spatial.py:146-169, 54-57), `none` if a kernel is returned. `reached`: the probability of the wave to get from one
station to the other is not zero. Distances are never negative. -/
def kernelErrorF (x y : List Rat) (t dt vel : Rat) (reached : Bool) : Option PyErr :=
  if dt ≤ 0 then some .valueError
  else if x.length < 2 then some .indexError
  else if !evenlySpacedF x then some .valueError
  else if y.length < 2 then some .indexError
  else if !evenlySpacedF y then some .valueError
  else if t < timeLimitF dt vel then some .valueError
  else if !reached then none
  else if (lapseTimesF t dt).any fun tt => decide (tt < timeLimitF dt vel) || decide (f64 (t - tt) < timeLimitF dt vel) then some .valueError
  else none

/-- the exception of a kernel of a `DVGrid` for the lapse time `t` (spatial.py:311-313, 944-946) -/
def gridKernelErrorF (res xExtent yExtent t dt vel : Rat) (reached : Bool) : Option PyErr :=
  kernelErrorF (gridAxisF res xExtent) (gridAxisF res yExtent) t dt vel reached

end SeisMIC
