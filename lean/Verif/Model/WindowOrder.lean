import Verif.Model.Combis
import Verif.Model.Segments
import Verif.Model.ParallelMatrix
import Verif.Model.Preprocess

/-!
# Model: the order of the traces of a window on each process (correlate.py:358-398, 549-642, 1303-1391)

Every process holds its own copy of the stream of a window. `calc_cross_combis` sorts the stream that it gets in place, and
it is called on process 0 only. Times are counted in samples, so that a trace is its header with the number of its first
sample, and its samples (`none` is a masked sample). Each channel of the window is one trace.
-/

namespace SeisMIC

variable {α β γ : Type}

/-- a trace -/
structure WTr (β : Type) where
  head : TrHead
  data : List (Option β)
  deriving DecidableEq, Repr

/-- `tr.id` -/
def WTr.id (t : WTr β) : Str × Str × Str × Str := (t.head.net, t.head.sta, t.head.loc, t.head.cha)

/-- the same trace with another start and other samples -/
def WTr.with (t : WTr β) (g : GapTr β) : WTr β := ⟨{ t.head with start := g.1 }, g.2⟩

/-- `st.sort(keys=['network', 'station', 'channel'])` (correlate.py:555, 897), a stable sort in place -/
def sortCodes (st : List (WTr β)) : List (WTr β) := isort (fun x y => trLe x.head y.head) st

/-- order of the keys network, station, location, channel, starttime, endtime in obspy's `Stream.merge` -/
def mergeLe (x y : WTr β) : Bool :=
  if x.head.net ≠ y.head.net then strLe x.head.net y.head.net
  else if x.head.sta ≠ y.head.sta then strLe x.head.sta y.head.sta
  else if x.head.loc ≠ y.head.loc then strLe x.head.loc y.head.loc
  else if x.head.cha ≠ y.head.cha then strLe x.head.cha y.head.cha
  else if x.head.start ≠ y.head.start then decide (x.head.start ≤ y.head.start)
  else decide (x.data.length ≤ y.data.length)

/-- obspy's `Stream.merge()` for traces without overlap. Empty traces are skipped. The traces of an id are put together to a new
trace. Traces that are the only one with their id keep their order; new ones are placed at the start, in order of the ids. -/
def mergeObs (st : List (WTr β)) : List (WTr β) :=
  let st := st.filter fun t => !t.data.isEmpty
  let sorted := isort mergeLe st
  let new := ((sorted.map WTr.id).eraseDups.filter fun i => decide (1 < (st.filter fun t => t.id == i).length)).filterMap fun i =>
    match sorted.filter fun t => t.id == i with
    | [] => none
    | t :: ts => (mergeGaps ((t :: ts).map fun x => (x.head.start, x.data))).map t.with
  new ++ st.filter fun t => decide ((st.filter fun u => u.id == t.id).length ≤ 1)

/-- obspy's `Stream.split` -/
def splitStream (st : List (WTr β)) : List (WTr β) :=
  st.flatMap fun t => (splitParts t.head.start t.data).map fun p => t.with (p.1, p.2.map some)

/-- functions that are applied to each trace or part alone: detrending, interpolation of short gaps, which parts are long enough
(`discard_short_traces` in `gap_handler` and in `preprocess_stream`), the taper, the removal of the response with the correction of
the polarity, and the steps of the parameter file -/
structure WinOps (β : Type) where
  detrend : List β → List β
  interp : List (Option β) → Except PyErr (List (Option β))
  retain : Nat → Bool
  long : Nat → Bool
  taper : List β → List β
  resp : List β → List β
  steps : List (WTr β) → Except PyErr (List (WTr β))

/-- `gap_handler` (miic_utils.py:453-485) for a stream with one trace for each id -/
def gapHandlerSt (o : WinOps β) (st : List (WTr β)) : Except PyErr (List (WTr β)) := do
  let st ← st.mapM fun t => (o.interp t.data).map fun d => t.with (t.head.start, d)
  let ps := (splitStream st).filter fun t => o.retain t.data.length
  pure (mergeObs (ps.map fun t => t.with (t.head.start, (o.taper (t.data.filterMap _root_.id)).map some)))

/-- the steps of `preprocess_stream` after the handling of gaps (correlate.py:1348-1391) -/
def afterGaps (o : WinOps β) (a b : Int) (st : List (WTr β)) : Except PyErr (List (WTr β)) := do
  let st := isort (fun x y => decide (x.head.start ≤ y.head.start)) (splitStream st)
  let st := st.map fun t => t.with (t.head.start, (o.resp (t.data.filterMap _root_.id)).map some)
  let st ← o.steps (st.filter fun t => o.long t.data.length)
  let st := (mergeObs st).map fun t => t.with (trimGap a b (t.head.start, t.data))
  pure (st.filter fun t => o.long t.data.length)

/-- `preprocess_stream` (correlate.py:1303-1391) with the order of the traces. The download of missing responses is in
`Model/Preprocess.lean`. -/
def preprocessWin (o : WinOps β) (a b : Int) (st : List (WTr β)) : Except PyErr (List (WTr β)) := do
  let st ← st.mapM fun t => (detrendTrace o.detrend (t.head.start, t.data)).map t.with
  let st ← gapHandlerSt o st
  -- also for an empty stream at the beginning
  if st.isEmpty then pure [] else afterGaps o a b st

/-- the traces that are in a combination (correlate.py:577-583) -/
def dropUnused (combis : List (Nat × Nat)) (win : List (WTr β)) : List (WTr β) :=
  ((List.range win.length).filter fun i => combis.any fun p => p.1 == i || p.2 == i).filterMap fun i => win[i]?

/-- The last steps of the loop (correlate.py:629-641): nothing is done for an empty stream, otherwise each process merges and trims
its own stream. -/
def finishWindow (a b : Int) (own : Nat → List (WTr β)) (combis : List (Nat × Nat)) : Option ((Nat → List (WTr β)) × List (Nat × Nat)) :=
  if (own 0).isEmpty then none
  else some (fun r => (mergeObs (own r)).map fun t => t.with (trimGap a b (t.head.start, t.data)), combis)

/-- are windows preprocessed one by one? Without existing data the option is switched off (correlate.py:470-475). -/
def subdivUsed (ex : ExDict) (subdiv : Bool) : Bool := subdiv && !ex.isEmpty

/-- The loop over the windows in `_generate_data` (correlate.py:549-641) on all processes: the stream that process `r` yields, and the
combinations, which process 0 sends to all. `parts` are the streams of the window on the processes that have read them. `pre` is
`preprocess_stream`, which is called here if `preprocess_subdiv` is in use; its ValueError leaves the window out. -/
def windowStreams (fiss : Int → Str) (ex : ExDict) (method : Str) (rcombis : Option (List Str)) (subdiv : Bool)
    (pre : List (WTr β) → Except PyErr (List (WTr β))) (a b : Int) (parts : List (List (WTr β))) :
    Except PyErr (Option ((Nat → List (WTr β)) × List (Nat × Nat))) :=
  let combine := fun w : List (WTr β) => calcCrossCombis fiss (w.map WTr.head) ex method rcombis
  -- `win.sort(...)` on every process, `calc_cross_combis` on process 0
  let win := sortCodes parts.flatten
  combine win >>= fun combis =>
  let own : Nat → List (WTr β) := fun r => if r = 0 then sortCodes win else win
  if combis = [] then pure none
  else
    let kept : Nat → List (WTr β) := fun r => dropUnused combis (own r)
    let popped : Bool := decide ((kept 0).length < win.length)
    (if popped then combine (kept 0) else pure combis) >>= fun combis =>
    let own : Nat → List (WTr β) := fun r => if r = 0 ∧ popped then sortCodes (kept r) else kept r
    if combis = [] then pure none
    else if subdivUsed ex subdiv then
      match pre (own 0) with
      | .error .valueError => pure none
      | .error e => .error e
      | .ok w =>
        -- the other processes preprocess their own streams; they are not sorted
        (combine w).map fun combis => finishWindow a b (fun r => if r = 0 then sortCodes w else (pre (own r)).toOption.getD []) combis
    else pure (finishWindow a b own combis)

/-- a row of the matrix: masked samples are zero (correlate.py:667, 781-797). All traces of a window have the same length. -/
def WTr.row [Zero β] (t : WTr β) : List β := t.data.map fun x => x.getD 0

/-- `_pxcorr_inner` and `_pxcorr_matrix` (correlate.py:358-398, 644-778) if each process has its own stream: rows and times are those of
the process, the headers are those of process 0. `corr` gets the two start times and spectra. -/
def windowCorrelations [Zero β] [Add α] [Zero α] [Add γ] [Zero γ] (psize fftsize width : Nat)
    (td : List (List (List β) → Except PyErr (List (List β)))) (pad : List β → List β) (fft : List β → List α)
    (fd : List (List (List α) → Except PyErr (List (List α)))) (corr : Int → Int → List α → List α → List γ)
    (own : Nat → List (WTr β)) (combis : List (Nat × Nat)) : Except PyErr (List (TrHead × TrHead × List γ)) := do
  let Bs ← (List.range psize).mapM fun r => rankSpectra psize r fftsize td pad fft fd ((own r).map WTr.row)
  let B := allreduceSum Bs
  let start : Nat → Nat → Int := fun r i => (((own r).map fun t => t.head.start)[i]?).getD 0
  let C := allreduceSum ((List.range psize).map fun r => rankCorrelations psize r width
    (fun B ij => corr (start r ij.1) (start r ij.2) (B.getD ij.1 []) (B.getD ij.2 [])) combis B)
  let head : Nat → TrHead := fun i => (((own 0).map WTr.head)[i]?).getD ⟨[], [], [], [], 0⟩
  pure ((C.zip combis).map fun x => (head x.2.1, head x.2.2, x.1))

end SeisMIC
