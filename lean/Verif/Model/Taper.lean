import Verif.Py.Basic
import Verif.Py.Round
import Mathlib.Analysis.SpecialFunctions.Trigonometric.Basic

/-!
# Model: cosine tapers (preprocessing_stream.py:22-109)

A trace is its sampling rate, whether its samples are integers, and its samples
(`none` is a masked sample). Real numbers instead of floats. The warnings are not
modelled.
-/

namespace SeisMIC

/-- sample `i` of the window of `cos_taper` (preprocessing_stream.py:104-107):
`np.ones_like(tr.data)` with the halves of `np.sin(np.linspace(0, np.pi, 2*n))` written
to its ends; written to an array of integers, the values are cut to integers -/
noncomputable def taperWindow (isInt : Bool) (n npts i : Nat) : ℝ :=
  let tap := fun k : Nat => Real.sin (k * (Real.pi / (2 * (n : ℝ) - 1)))
  let cut := fun x : ℝ => if isInt then (⌊x⌋ : ℝ) else x
  if npts - n ≤ i then cut (tap (2 * n - (npts - i)))
  else if i < n then cut (tap i)
  else 1

/-- `cos_taper` without `taper_at_masked` (preprocessing_stream.py:86-109). A taper of
zero samples makes `taper[-0:] = tap[-0:]` write no values into the whole array, which
numpy rejects with `ValueError` unless the array is empty. -/
noncomputable def cosTaper (isInt : Bool) (sr taperLen : Rat) (data : List (Option ℝ)) :
    Except PyErr (List (Option ℝ)) :=
  if taperLen ≤ 0 then .error .valueError
  else
    let n := (pyRound (taperLen * sr)).toNat
    if n * 2 > data.length then .error .valueError
    else if n = 0 ∧ data ≠ [] then .error .valueError
    else .ok (data.mapIdx fun i x => x.map (· * taperWindow isInt n data.length i))

/-- one trace of `cos_taper_st` (preprocessing_stream.py:48-52): `ValueError` leaves
the trace as it is -/
noncomputable def orSame (data : List (Option ℝ)) : Except PyErr (List (Option ℝ)) → List (Option ℝ)
  | .ok out => out
  | .error _ => data

/-- the samples from the first valid to the last valid one: what is left after
`Trace.split` and `Stream.merge` -/
def trimMasked {α : Type} (data : List (Option α)) : List (Option α) :=
  ((data.dropWhile (·.isNone)).reverse.dropWhile (·.isNone)).reverse

/-- `cos_taper` with `taper_at_masked` (preprocessing_stream.py:88-99): `Trace.split`
yields the contiguous valid parts, each is tapered, `Stream.merge` masks the gaps
between them. The start time of the trace is not changed. -/
noncomputable def cosTaperMasked (isInt : Bool) (sr taperLen : Rat) (data : List (Option ℝ)) :
    Except PyErr (List (Option ℝ)) :=
  if taperLen ≤ 0 then .error .valueError
  else if data.all (·.isNone) then .error .valueError
  else .ok (((trimMasked data).splitBy fun a b => a.isSome == b.isSome).flatMap fun seg =>
    if seg.all (·.isSome) then orSame seg (cosTaper isInt sr taperLen seg) else seg)

/-- `cos_taper_st` (preprocessing_stream.py:22-53): traces are given as sampling rate,
integer type and samples -/
noncomputable def cosTaperSt (st : List (Rat × Bool × List (Option ℝ))) (taperLen : Rat) (atMasked : Bool) :
    List (Rat × Bool × List (Option ℝ)) :=
  st.map fun tr => (tr.1, tr.2.1, orSame tr.2.2
    (if atMasked then cosTaperMasked tr.2.1 tr.1 taperLen tr.2.2 else cosTaper tr.2.1 tr.1 taperLen tr.2.2))

end SeisMIC
