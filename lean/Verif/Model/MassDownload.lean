import Verif.Model.FileStructure
import Verif.Model.Wfc

/-!
# Model: mass download of raw data (trace_data/waveform.py)

Times are microseconds since year 1. A file is the list of the times of its samples; the
amplitudes are not modelled. The archive is a function from paths to files.
-/

namespace SeisMIC

/-- the codes of a channel -/
structure Channel where
  net : Str
  sta : Str
  loc : Str
  cha : Str
  deriving DecidableEq

/-- `julday`: number of the day in the year -/
def Civil.julday (c : Civil) : Nat := (daysBeforeMonth c.year c.month).toNat + c.day

/-- `'{:03d}'.format(n)` -/
def pad3 (n : Nat) : Str := List.replicate (3 - (natDigits n).length) '0' ++ natDigits n

/-- `SDS_FMTSTR.format(...)` below the folder `root` (waveform.py:33-35, 180-184, 365-369) with `sds_type = "D"` (waveform.py:74) -/
def sdsPath (root : Str) (ch : Channel) (t : Civil) : Str :=
  pathJoin root (joinWith c!"/" [natDigits t.year.toNat, ch.net, ch.sta, ch.cha ++ c!".D",
    joinWith c!"." [ch.net, ch.sta, ch.loc, ch.cha, c!"D", natDigits t.year.toNat, pad3 t.julday]])

/-- the files of an archive -/
abbrev SdsFiles := Str → Option (List Int)

/-- `_get_mseed_storage` (waveform.py:171-191); `none`: `True` is returned, nothing is downloaded -/
def mseedStorage (root : Str) (files : SdsFiles) (ch : Channel) (start : Civil) : Option Str :=
  if (files (sdsPath root ch start)).isSome then none else some (sdsPath root ch start)

/-- the time intervals of obspy's `Restrictions` with `chunklength_in_sec=86400` (waveform.py:95-99) -/
def mdlChunks (start stop : Int) : List (Int × Int) :=
  (List.range ((stop - start + dayUs - 1) / dayUs).toNat).map fun k : Nat =>
    (start + (k : Int) * dayUs, min (start + ((k : Int) + 1) * dayUs) stop)

/-- obspy's `MassDownloader` for one channel and one interval: the samples that are available are written to the file the storage function names. `avail`: samples
of a channel at the data centres. Not modelled: quality checks, the choice of a centre, station files. -/
def downloadChunk (root : Str) (avail : Channel → List Int) (files : SdsFiles) (r : Channel × Int × Int) : SdsFiles :=
  match mseedStorage root files r.1 (civilOf r.2.1) with
  | none => files
  | some p =>
    let d := (avail r.1).filter fun t => decide (r.2.1 ≤ t) && decide (t ≤ r.2.2)
    if d = [] then files else fun q => if q = p then some d else files q

/-- `download_waveforms_mdl` (waveform.py:82-122) for the channels `chs` that the data centres offer. `readOnly`: the option of the client, which is not used. -/
def downloadMdl (root : Str) (_readOnly : Bool) (avail : Channel → List Int) (chs : List Channel) (start stop : Int) (files : SdsFiles) : SdsFiles :=
  ((mdlChunks start stop).flatMap fun c => chs.map fun ch => (ch, c)).foldl (downloadChunk root avail) files

end SeisMIC
