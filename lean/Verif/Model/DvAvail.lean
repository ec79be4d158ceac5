import Verif.Model.SmoothDv

/-!
# Model: availability of velocity changes (monitor/dv.py)
-/

namespace SeisMIC

/-- a `DV` object with its attribute `avail` (dv.py:69-82) -/
structure DvLive where
  dv : Dv
  avail : List Bool
  deriving DecidableEq

/-- `DV.__init__` (dv.py:32-82): `avail = ~np.isnan(corr)` -/
def DvLive.create (d : Dv) : DvLive := ⟨d, d.corr.map fun c => c.isSome⟩

/-- what a user can do to an object: smooth its similarity matrix (dv.py:197-222), or save it and read it again (dv.py:100-132, 225-269) -/
inductive DvOp where
  | smooth (winLen : Nat) (below : Option Rat)
  | reload

/-- one operation. `smooth_sim_mat` (dv.py:197-222) assigns `sim_mat`, `corr` and `value` only. `read_dv` (dv.py:264-269) makes a new object of what was saved; that
saving keeps the arrays is C56. -/
def DvLive.step (ncol : Nat) (o : DvLive) : DvOp → Except PyErr DvLive
  | .smooth w below => do
    let d ← smoothSimMat o.dv ncol w below
    pure { o with dv := d }
  | .reload => pure (DvLive.create o.dv)

/-- operations in a row, on an object whose matrix has `ncol` columns -/
def DvLive.run (ncol : Nat) : List DvOp → DvLive → Except PyErr DvLive
  | [], o => pure o
  | op :: ops, o => do
    let o' ← o.step ncol op
    DvLive.run ncol ops o'

end SeisMIC
