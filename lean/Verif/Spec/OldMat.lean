import Verif.Model.OldMat
import Verif.Spec.TraceUtils
import Verif.Spec.CorrStats

/-! # Specification: content of files of the old format (C165) -/

namespace SeisMIC

/-- the field `key` of the record has the value `v` (the first of its leaves), or is empty (`none`) -/
def FieldIs (r : MatRecord) (key : Str) (v : Option MatVal) : Prop := ∃ x l, (key, x) ∈ r ∧ Leaves x l ∧ l.head? = v

/-- the record describes a seismogram with these codes, sampling rate, start (ns) and number of samples; an empty location is shown as `-` -/
structure TraceRecord (env : MatEnv) (r : MatRecord) (net sta loc cha : Str) (sr : Rat) (start n : Int) : Prop where
  names : (r.map Prod.fst).Nodup
  net : FieldIs r c!"network" (some (.str net))
  sta : FieldIs r c!"station" (some (.str sta))
  loc : FieldIs r c!"location" (some (.str loc)) ∨ (FieldIs r c!"location" none ∧ loc = c!"-")
  cha : FieldIs r c!"channel" (some (.str cha))
  rate : ∃ v, FieldIs r c!"sampling_rate" v ∧ env.float v = .ok sr
  delta : ∀ v, FieldIs r c!"delta" v → env.float v = .ok (1 / sr)
  start : ∃ v, FieldIs r c!"starttime" v ∧ env.utc v = .ok start
  npts : ∃ v, FieldIs r c!"npts" v ∧ env.int v = .ok n

/-- the record describes a matrix of correlations with these codes, sampling rate and number of samples -/
structure MatrixRecord (env : MatEnv) (r : MatRecord) (net sta loc cha : Str) (sr : Rat) (n : Int) : Prop where
  names : (r.map Prod.fst).Nodup
  net : FieldIs r c!"network" (some (.str net))
  sta : FieldIs r c!"station" (some (.str sta))
  loc : FieldIs r c!"location" (some (.str loc))
  cha : FieldIs r c!"channel" (some (.str cha))
  rate : ∃ v, FieldIs r c!"sampling_rate" v ∧ env.float v = .ok sr
  delta : ∀ v, FieldIs r c!"delta" v → env.float v = .ok (1 / sr)
  npts : ∃ v, FieldIs r c!"npts" v ∧ env.int v = .ok n
  numbers : ∀ v, FieldIs r c!"start_lag" v ∨ FieldIs r c!"calib" v → ∃ x, env.float v = .ok x

/-- the time in the field, relative to 1971-01-01, in seconds: how old files store lags -/
def LagIs (env : MatEnv) (r : MatRecord) (key : Str) (lag : Rat) : Prop :=
  ∃ v t, FieldIs r key v ∧ env.utc v = .ok t ∧ lag = ((t - 31536000 * 1000000000 : Int) : Rat) / 1000000000

/-- end of a seismogram -/
def lastSample (sr : Rat) (start n : Int) : Int := start + pyRound ((if n = 0 then 0 else ((n - 1 : Int) : Rat) * (1 / sr)) * 1000000000)

/-- samples with their lags -/
def fileSamples (lag0 sr : Rat) (x : List F) : List (Rat × F) := x.zipIdx.map fun p => (lag0 + (p.2 : Rat) / sr, p.1)

end SeisMIC
