import Verif.Model.MonitorDv
import Verif.Model.Reference

/-!
# Model: waveform coherence (wfc.py, stretch_mod.py:148-200, stream.py:752-794, monitor.py:481-709, 1154-1179)

Real numbers instead of floats for coherences, `none` is NaN. A dictionary is the list of its items.
-/

namespace SeisMIC

noncomputable section

/-- `wfc_processing`: frequency band and lapse time window -/
structure WfcParams where
  freqMin : Rat
  freqMax : Rat
  twStart : Rat
  twLen : Rat
  deriving DecidableEq

/-- a `WFC` object (wfc.py:24-54): the dictionary from references to coherences (one row for each time window, one column for each
trace), the averages over time, and their mean, which is an empty array (`none`) until it is computed. Of the header only
the codes. -/
structure Wfc where
  net : Str
  sta : Str
  cha : Str
  params : WfcParams
  panel : List (Str × List (List (Option ℝ)))
  av : List (Str × Option ℝ)
  mean : Option (Option ℝ)

/-- `WFC.compute_average` (wfc.py:56-66). `self.av` is empty or has the same keys as the result. -/
def Wfc.computeAverage (w : Wfc) : Wfc :=
  let av := w.panel.map fun kv => (kv.1 ++ c!"_av", maMean kv.2.flatten)
  { w with av := av, mean := some (maMean (av.map Prod.snd)) }

/-- decimal digits of a number -/
def natDigits (n : Nat) : Str := (Nat.toDigits 10 n)

/-- the key `"reftr_%d" % i` -/
def reftrKey (i : Nat) : Str := c!"reftr_" ++ natDigits i

/-- `np.nan_to_num` -/
def nanToNum (row : List (Option ℝ)) : List ℝ := row.map (·.getD 0)

/-- `wfc_multi_reftr` (stretch_mod.py:148-200) with `remove_nans=True`, the only value used. `n` is the number of columns, at least two, so
that `np.squeeze` only removes the first dimension of a single reference. Without references `ref_trs` has no second dimension after
`np.squeeze`, or no rows; the latter is modelled. -/
def wfcMultiReftr (n : Nat) (data refs : List (List (Option ℝ))) (tw : List (List Int)) (sides : Str) :
    Except PyErr (List (Str × List (List (Option ℝ)))) :=
  refs.zipIdx.mapM fun rk => do
    let v ← computeWfc n data tw (nanToNum rk.1) sides true
    .ok (reftrKey rk.2, v)

/-- one pass of the loop over the time windows (monitor.py:672-708). `refOf` is `extract_multi_trace` with `options['dt_ref']`. `canSave` tells
whether the file can be written; only used with `save_comps`. The path of the file and its content are left out. -/
def wfcWindow (refOf : List (List (Option ℝ)) → Except PyErr (List (List (Option ℝ)))) (codes : Str × Str × Str) (saveComps canSave : Bool)
    (data : List (List (Option ℝ))) (s : LagStats) (p : WfcParams) : Except PyErr Wfc := do
  let cbt := corrMatTrim data s (-(p.twStart + p.twLen)) (p.twStart + p.twLen)
  if cbt.2.npts ≤ 20 then .error .valueError
  let tr ← refOf cbt.1
  let tw := arangeInt (p.twStart * cbt.2.sr) ((p.twStart + p.twLen) * cbt.2.sr)
  let panel ← wfcMultiReftr cbt.2.npts cbt.1 tr [tw] c!"both"
  let w : Wfc := (Wfc.mk codes.1 codes.2.1 codes.2.2 p panel [] none).computeAverage
  if saveComps && !canSave then .error .fileNotFoundError
  .ok w

/-- an option that is a number or a list of numbers -/
inductive NumOpt where
  | num (x : Rat)
  | list (l : List Rat)
  deriving DecidableEq

/-- `if not isinstance(opt, list): opt = [opt]` -/
def NumOpt.toList : NumOpt → List Rat
  | .num x => [x]
  | .list l => l

/-- the options `freq_min`, `freq_max`, `tw_start` and `tw_len` -/
structure WfcOptions where
  freqMin : NumOpt
  freqMax : NumOpt
  twStart : NumOpt
  twLen : NumOpt
  deriving DecidableEq

/-- monitor.py:621-644: all options become lists; the options of the object are changed -/
def wfcNormalise (o : WfcOptions) : Except PyErr WfcOptions := do
  let fmin := o.freqMin.toList
  let fmax := o.freqMax.toList
  if fmin.length ≠ fmax.length then .error .valueError
  let tw := o.twStart.toList
  match o.twLen with
  | .list l =>
    if l.length ≠ tw.length then .error .valueError
    .ok ⟨.list fmin, .list fmax, .list tw, .list l⟩
  | .num x => .ok ⟨.list fmin, .list fmax, .list tw, .list (List.replicate tw.length x)⟩

/-- the loops over bands and time windows of `Monitor.compute_waveform_coherence` (monitor.py:648-709), a generator: what it yields, and the
exception it ends with, if any. `β` are bulks, `prep` is filter and preprocessing, which change `cb`; `window` is the body of the inner loop,
whose exceptions are logged. `cb` is the bulk at the beginning of the pass, `bac` its copy. -/
def wfcBands {β : Type} (prep : Rat → Rat → β → Except PyErr β) (window : β → WfcParams → Except PyErr Wfc) (bac : β) (tws : List (Rat × Rat)) :
    β → List (Rat × Rat) → List Wfc × Option PyErr
  | _, [] => ([], none)
  | cb, (fmin, fmax) :: bands =>
    if fmax ≤ fmin then ([], some .valueError)
    else match prep fmin fmax cb with
      | .error e => ([], some e)
      | .ok cb =>
        let out := tws.filterMap fun tw => (window cb ⟨fmin, fmax, tw.1, tw.2⟩).toOption
        let rest := wfcBands prep window bac tws bac bands
        (out ++ rest.1, rest.2)

/-- `Monitor.compute_waveform_coherence` (monitor.py:562-709) from line 620 on; `cb` is the stacked bulk -/
def computeWaveformCoherence {β : Type} (prep : Rat → Rat → β → Except PyErr β) (window : β → WfcParams → Except PyErr Wfc) (cb : β)
    (o : WfcOptions) : List Wfc × Option PyErr :=
  match wfcNormalise o with
  | .error e => ([], some e)
  | .ok o => wfcBands prep window cb (o.twStart.toList.zip o.twLen.toList) cb (o.freqMin.toList.zip o.freqMax.toList)

/-- the value of a key of a dictionary -/
def panelGet (p : List (Str × List (List (Option ℝ)))) (k : Str) : Except PyErr (List (List (Option ℝ))) :=
  match p.find? fun kv => kv.1 = k with
  | none => .error .keyError
  | some kv => .ok kv.2

/-- `np.nanmean(arrays, axis=0)`: arrays of different shape are a `ValueError` -/
def nanmeanArrays (arrays : List (List (List (Option ℝ)))) : Except PyErr (List (List (Option ℝ))) :=
  let shape := fun a : List (List (Option ℝ)) => a.map List.length
  let a0 := arrays.headD []
  if arrays.any fun a => shape a ≠ shape a0 then .error .valueError
  else .ok (a0.mapIdx fun i row => row.mapIdx fun j _ => maMean (arrays.map fun a => (a.getD i []).getD j none))

/-- `average_components_wfc` (monitor.py:1154-1179) -/
def averageWfc (wfcs : List Wfc) : Except PyErr Wfc := do
  match wfcs with
  | [] => .error .indexError
  | w0 :: _ =>
    if wfcs.any fun w => decide (w.params ≠ w0.params) then .error .valueError
    let panel ← w0.panel.mapM fun kv => do
      let arrays ← wfcs.mapM fun w => panelGet w.panel kv.1
      let m ← nanmeanArrays arrays
      .ok (kv.1, m)
    .ok ⟨w0.net, w0.sta, c!"av", w0.params, panel, [], none⟩

/-- what the waveform coherences are grouped by (monitor.py:530-537) -/
abbrev WfcKey := Str × Str × WfcParams

/-- the group of a waveform coherence -/
def Wfc.key (w : Wfc) : WfcKey := (w.net, w.sta, w.params)

/-- a result or the first exception -/
def collectYields : List (List Wfc × Option PyErr) → Except PyErr (List Wfc)
  | [] => .ok []
  | (l, none) :: rest => (collectYields rest).map (l ++ ·)
  | (_, some e) :: _ => .error e

/-- `Monitor.compute_waveform_coherence_bulk` (monitor.py:511-560) after all jobs: `jobs` lists for each rank what its jobs yield and how they
end; exceptions of the generator are not caught, since only `append` is inside of `try`, and the other ranks wait for this one.
`order` is the order in which `set` lists the groups. The result are the
written averages, with their groups; every rank writes all of them. The paths and the content of the files are left out. -/
def wfcBulk (order : List WfcKey → List WfcKey) (jobs : List (List (List Wfc × Option PyErr))) : Except PyErr (List (WfcKey × Wfc)) := do
  let ranks ← jobs.mapM collectYields
  let all := ranks.flatten
  (order (all.map Wfc.key)).mapM fun k => do
    let w ← averageWfc (all.filter fun w => decide (w.key = k))
    .ok (k, w)

/-! ### the grid of `WFCBulk` -/

/-- centre of the frequency band and of the lapse time window (wfc.py:93-99) -/
def WfcParams.centre (p : WfcParams) : Rat × Rat := ((p.freqMax + p.freqMin) / 2, p.twStart + p.twLen / 2)

/-- `sorted(set(l))` -/
def sortedSet (l : List Rat) : List Rat := isort (fun a b => decide (a ≤ b)) l.dedup

/-- `wfc.mean.size or wfc.compute_average()` (wfc.py:91) -/
def Wfc.withMean (w : Wfc) : Wfc := match w.mean with
  | some _ => w
  | none => w.computeAverage

/-- `WFCBulk.__init__` (wfc.py:85-115): lapse times, frequencies, and for each frequency a row with a value for each lapse time. Every
coherence is written into the cell of its centre; later ones replace earlier ones. -/
def wfcGrid (l : List Wfc) : List Rat × List Rat × List (List (Option ℝ)) :=
  let lw := sortedSet (l.map fun w => w.params.centre.2)
  let fr := sortedSet (l.map fun w => w.params.centre.1)
  let grid0 : List (List (Option ℝ)) := fr.map fun _ => lw.map fun _ => none
  let grid := l.foldl (fun g w => g.modify (fr.idxOf w.params.centre.1) fun row =>
    row.set (lw.idxOf w.params.centre.2) (w.withMean.mean.getD none)) grid0
  (lw, fr, grid)

end

end SeisMIC
