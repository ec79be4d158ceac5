import Verif.Model.Stream

/-!
# What operations on streams and bulks of correlations have to do
-/

namespace SeisMIC

variable {V : Type}

/-- The correlation window lies in `[a, b]`, or (`partly`) it ends in `(a, b]`. -/
def InWindow (a b : Int) (partly : Bool) (tr : CTr V) : Prop :=
  if partly then a < tr.stats.corrEnd ∧ tr.stats.corrEnd ≤ b
  else a ≤ tr.stats.corrStart ∧ tr.stats.corrEnd ≤ b

instance (a b : Int) (p : Bool) (tr : CTr V) : Decidable (InWindow a b p tr) := by
  unfold InWindow; exact inferInstance

/-- The correlation window strictly contains `u`. -/
def Contains (tr : CTr V) (u : Int) : Prop := tr.stats.corrStart < u ∧ u < tr.stats.corrEnd

instance (tr : CTr V) (u : Int) : Decidable (Contains tr u) := by unfold Contains; exact inferInstance

/-- The correlation window lies in the interval from `start` to `stop` (times
after midnight) of some day. -/
def InDaily (start stop : Int) (tr : CTr V) : Prop :=
  ∃ day : Int, day * dayNs + start ≤ tr.stats.corrStart ∧ tr.stats.corrStart ≤ tr.stats.corrEnd ∧
    tr.stats.corrEnd ≤ day * dayNs + stop

/-- The data contain no `nan`. -/
def NoNan (tr : CTr V) : Prop := ∀ x ∈ tr.data, x ≠ none

/-- equal network, station, channel and (if regarded) location codes -/
def SameCodes (regardLoc : Bool) (a b : CTr V) : Prop :=
  a.stats.network = b.stats.network ∧ a.stats.station = b.stats.station ∧
    a.stats.channel = b.stats.channel ∧ (regardLoc = true → a.stats.location = b.stats.location)

instance (r : Bool) (a b : CTr V) : Decidable (SameCodes r a b) := by unfold SameCodes; exact inferInstance

/-- SEED codes contain no dot. -/
def CodesOk (tr : CTr V) : Prop :=
  '.' ∉ tr.stats.network ∧ '.' ∉ tr.stats.station ∧ '.' ∉ tr.stats.channel ∧ '.' ∉ tr.stats.location

instance (tr : CTr V) : Decidable (CodesOk tr) := by unfold CodesOk; exact inferInstance

/-- the fields that must not vary in a bulk are equal -/
def Alike (varyingChannel : Bool) (a b : CorrStats V) : Prop :=
  a.npts = b.npts ∧ a.samplingRate = b.samplingRate ∧ a.network = b.network ∧ a.station = b.station ∧
  a.startLag = b.startLag ∧ a.endLag = b.endLag ∧
  (a.geo.isSome → b.geo.isSome → a.geo = b.geo) ∧ (varyingChannel = false → a.channel = b.channel)

/-- a trace whose header belongs to its data -/
def CTr.Wf (tr : CTr V) : Prop := tr.stats.npts = tr.data.length ∧ tr.stats.refresh = tr.stats

instance [DecidableEq V] (tr : CTr V) : Decidable tr.Wf := by unfold CTr.Wf; exact inferInstance

/-- a bulk with one entry of every list field per row of the matrix -/
structure Bulk.Aligned (b : Bulk V) : Prop where
  start : b.stats.corrStart.length = b.data.length
  stop : b.stats.corrEnd.length = b.data.length
  loc : b.stats.location.length = b.data.length
  cha : ∀ l, b.stats.channel = some l → l.length = b.data.length

/-- the correlation of row `i`: time window, codes and samples -/
structure Row where
  start : Int
  stop : Int
  loc : Str
  cha : Str
  data : List F
  deriving DecidableEq

/-- the channel of each row -/
def Bulk.channels (b : Bulk V) : List Str :=
  match b.stats.channel with
  | some l => l
  | none => List.replicate b.data.length b.stats.base.channel

/-- all rows of a bulk with the header entries of the same index -/
def Bulk.rows (b : Bulk V) : List Row :=
  ((b.stats.corrStart.zip b.stats.corrEnd).zip (b.stats.location.zip (b.channels.zip b.data))).map
    fun x => ⟨x.1.1, x.1.2, x.2.1, x.2.2.1, x.2.2.2⟩

/-- The window of the row lies in `[a, b]` or (`partly`) has a point in common
with it. -/
def Row.inRange (a b : Int) (partly : Bool) (r : Row) : Prop :=
  if partly then a ≤ r.stop ∧ r.start ≤ b else a ≤ r.start ∧ r.stop ≤ b

instance (a b : Int) (p : Bool) (r : Row) : Decidable (r.inRange a b p) := by
  unfold Row.inRange; exact inferInstance

/-- the time window, codes and samples of a trace -/
def CTr.row (tr : CTr V) : Row :=
  ⟨tr.stats.corrStart, tr.stats.corrEnd, tr.stats.location, tr.stats.channel, tr.data⟩

end SeisMIC
