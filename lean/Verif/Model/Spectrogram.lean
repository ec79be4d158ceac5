import Verif.Py.Sort
import Verif.Py.Basic

/-!
# Model: spectral time series (utils/raw_analysis.py)

Frequency axes and spectra are abstract. `comm.gather` collects the lists of all processes in
the order of the ranks.
-/

namespace SeisMIC

/-- a time window. `freq`: the frequency axis, `none` if computing the spectrum failed before
it was assigned. `spec`: the spectrum, `none` if an error occurred. -/
structure SpecWin (φ σ : Type) where
  time : Int
  freq : Option φ
  spec : Option σ

/-- a stream: `none` if it has no data or the preprocessing failed -/
abbrev SpecStream (φ σ : Type) := Option (List (SpecWin φ σ))

section
variable {φ σ : Type}

/-- the streams that a rank processes (raw_analysis.py:55-58) -/
def procStreams (streams : List (SpecStream φ σ)) (size rank : Nat) : List (SpecStream φ σ) :=
  (streams.zipIdx.filter fun si => decide (si.2 % size = rank)).map Prod.fst

/-- the windows of streams -/
def windowsOf (streams : List (SpecStream φ σ)) : List (SpecWin φ σ) := streams.flatMap fun s => s.getD []

/-- the loop of one rank (raw_analysis.py:55-87): times and spectra -/
def procSpectra (streams : List (SpecStream φ σ)) (size rank : Nat) : List (Int × σ) :=
  (windowsOf (procStreams streams size rank)).filterMap fun w => w.spec.map fun s => (w.time, s)

/-- the value of the variable `f2` of a rank after the loop; `none` if it is not bound -/
def procFreq (streams : List (SpecStream φ σ)) (size rank : Nat) : Option φ :=
  ((windowsOf (procStreams streams size rank)).filterMap fun w => w.freq).getLast?

/-- have two entries the same time? -/
def hasDup : List Int → Bool
  | [] => false
  | t :: l => l.contains t || hasDup l

/-- the result on rank 0 (raw_analysis.py:88-107). Sorting pairs of times and arrays compares
the arrays if two times are equal, which raises a ValueError. -/
def spectralSeries (streams : List (SpecStream φ σ)) (size : Nat) : Except PyErr (φ × List (Int × σ)) :=
  let all := (List.range size).flatMap fun r => procSpectra streams size r
  if hasDup (all.map Prod.fst) then .error .valueError
  else
    let sorted := isort (fun a b => decide (a.1 ≤ b.1)) all
    match procFreq streams size 0 with
    | some f => .ok (f, sorted)
    | none => .error .valueError

end

end SeisMIC
