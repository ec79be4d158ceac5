import Verif.Model.CorrStats
import Verif.Py.Nan

/-!
# Model: saving and reading results (utils/miic_utils.py, monitor/dv.py, correlate/stream.py)

A file is a dictionary of arrays. Times are integers (ns); `rt` is the round trip of a time
through a floating point timestamp.
-/

namespace SeisMIC

/-- values of a header -/
inductive HVal where
  | num (q : Rat)
  | str (s : Str)
  | nums (l : List Rat)
  | time (t : Int)
  | times (l : List Int)
  /-- None, dictionaries and other objects -/
  | obj
  deriving DecidableEq

/-- arrays in a file -/
inductive NpArr where
  /-- one-dimensional arrays -/
  | nums (l : List Rat)
  | strs (l : List Str)
  | stamps (l : List Int)
  | data (l : List F)
  /-- two-dimensional arrays -/
  | rows (l : List (List Rat))
  | mat (l : List (List F))
  /-- arrays without dimension, from single values -/
  | scalar (q : Rat)
  | text (s : Str)
  | flag (b : Bool)
  /-- arrays of objects -/
  | objs
  deriving DecidableEq

/-- `t_keys` (miic_utils.py:241) -/
def timeKeys : List Str := [c!"starttime", c!"endtime", c!"corr_start", c!"corr_end"]

/-- `no_stats` (miic_utils.py:243-248) -/
def noStats : List Str := [
  c!"corr", c!"value", c!"sim_mat", c!"second_axis", c!"method_array", c!"vt_array",
  c!"data", c!"tw_len", c!"tw_start", c!"freq_min", c!"freq_max", c!"aligned", c!"subdir",
  c!"plot_vel_change", c!"start_date", c!"end_date", c!"win_len", c!"date_inc",
  c!"sides", c!"compute_tt", c!"rayleigh_wave_velocity", c!"stretch_range",
  c!"stretch_steps", c!"dt_ref", c!"preprocessing", c!"postprocessing"]

/-- `convert_utc_to_timestamp` (miic_utils.py:296-311) -/
def toTimestamps (rt : Int → Int) : HVal → Except PyErr NpArr
  | .time t => .ok (.stamps [rt t])
  | .times l => .ok (.stamps (l.map rt))
  | .str [] => .ok (.stamps [])
  | .str _ => .error .attributeError
  | .nums [] => .ok (.stamps [])
  | .nums _ => .error .attributeError
  | .num _ => .error .typeError
  | .obj => .error .typeError

/-- `np.array([value])`. Simplified: a time under another key gives an array of objects. -/
def toArray : HVal → NpArr
  | .num q => .nums [q]
  | .str s => .strs [s]
  | .nums l => .rows [l]
  | .time _ => .objs
  | .times _ => .objs
  | .obj => .objs

/-- `save_header_to_np_array` (miic_utils.py:251-268) -/
def saveHeader (rt : Int → Int) : List (Str × HVal) → Except PyErr (List (Str × NpArr))
  | [] => .ok []
  | (k, v) :: h => do
    let a ← if k ∈ timeKeys then toTimestamps rt v else pure (toArray v)
    let r ← saveHeader rt h
    pure ((k, a) :: r)

/-- `convert_timestamp_to_utcdt` (miic_utils.py:313-328). Only arrays of timestamps are stored
under these keys. -/
def fromTimestamps : NpArr → Except PyErr HVal
  | .stamps [t] => .ok (.time t)
  | .stamps l => .ok (.times l)
  | _ => .error .typeError

/-- `array[0]`; `none` for an IndexError (miic_utils.py:288-292). Arrays of objects cannot be
read (`allow_pickle=False`). Simplified: the first element of a data array with NaN values is
not distinguished from other objects. -/
def firstElement : NpArr → Except PyErr (Option HVal)
  | .nums (q :: _) => .ok (some (.num q))
  | .strs (s :: _) => .ok (some (.str s))
  | .rows (l :: _) => .ok (some (.nums l))
  | .data (some q :: _) => .ok (some (.num q))
  | .data (none :: _) => .ok (some .obj)
  | .mat (_ :: _) => .ok (some .obj)
  | .objs => .error .valueError
  | _ => .ok none

/-- `load_header_from_np_array` (miic_utils.py:271-293) -/
def loadHeader : List (Str × NpArr) → Except PyErr (List (Str × HVal))
  | [] => .ok []
  | (k, a) :: d => do
    if k ∈ noStats ∨ c!"reftr".isPrefixOf k = true then loadHeader d
    else if k ∈ timeKeys then do
      let v ← fromTimestamps a
      let r ← loadHeader d
      pure ((k, v) :: r)
    else do
      match ← firstElement a with
      | none => loadHeader d
      | some v => do
        let r ← loadHeader d
        pure ((k, v) :: r)

/-- `CorrBulk.save` (stream.py:627-636): a header field `data` is a duplicate argument -/
def saveBulk (rt : Int → Int) (h : List (Str × HVal)) (data : List (List F)) : Except PyErr (List (Str × NpArr)) := do
  let a ← saveHeader rt h
  if (a.map Prod.fst).contains c!"data" then throw .typeError
  else pure ((c!"data", .mat data) :: a)

/-- `read_corr_bulk` (stream.py:828-839): header and data -/
def readBulk (file : List (Str × NpArr)) : Except PyErr (List (Str × HVal) × NpArr) := do
  let h ← loadHeader file
  match file.lookup c!"data" with
  | none => throw .keyError
  | some d => pure (h, d)

/-! ### Velocity changes -/

/-- `dv_processing` of a velocity change. `aligned`: the value of the shift, `none` for False. -/
structure DvProc where
  freqMin : Option Rat
  freqMax : Option Rat
  twLen : Option Rat
  twStart : Option Rat
  sides : Str
  aligned : Option Rat
  deriving DecidableEq

structure DvRes where
  header : List (Str × HVal)
  method : Str
  valueType : Str
  corr : List F
  value : List F
  simMat : List (List F)
  secondAxis : List F
  stretches : Option (List (List F))
  corrs : Option (List (List F))
  nStat : Option (List F)
  proc : Option DvProc
  deriving DecidableEq

/-- `dict.update` -/
def dictSetAll {V : Type} (d : List (Str × V)) (u : List (Str × V)) : List (Str × V) :=
  u.foldl (fun d kv => dictSet d kv.1 kv.2) d

/-- the fields of the processing (dv.py:109-117) -/
def procFields : Option DvProc → List (Str × Option NpArr)
  | none => []
  | some p => [
    (c!"freq_min", p.freqMin.map .scalar), (c!"freq_max", p.freqMax.map .scalar),
    (c!"tw_len", p.twLen.map .scalar), (c!"tw_start", p.twStart.map .scalar),
    (c!"sides", some (.text p.sides)),
    (c!"aligned", some (match p.aligned with | some q => .scalar q | none => .flag false))]

/-- the fields of the result (dv.py:118-128) -/
def resultFields (r : DvRes) : List (Str × Option NpArr) := [
  (c!"method_array", some (.strs [r.method])), (c!"vt_array", some (.strs [r.valueType])),
  (c!"corr", some (.data r.corr)), (c!"value", some (.data r.value)),
  (c!"sim_mat", some (.mat r.simMat)), (c!"second_axis", some (.data r.secondAxis)),
  (c!"stretches", r.stretches.map .mat), (c!"corrs", r.corrs.map .mat), (c!"n_stat", r.nStat.map .data)]

/-- `DV.save` (dv.py:100-132). Not modelled: paths; a header field with the name of a parameter
of `np.savez_compressed`. -/
def saveDv (rt : Int → Int) (r : DvRes) : Except PyErr (List (Str × NpArr)) := do
  let a ← saveHeader rt r.header
  let kwargs := a.map fun kv => (kv.1, some kv.2)
  let kwargs := dictSetAll kwargs (procFields r.proc)
  let kwargs := dictSetAll kwargs (resultFields r)
  pure (kwargs.filterMap fun kv => kv.2.map fun v => (kv.1, v))

/-- `aligned` of a curve that was read: an array, never the value False -/
inductive Aligned where
  /-- the value False -/
  | no
  /-- an array with the value that was saved -/
  | array (a : NpArr)
  deriving DecidableEq

/-- a velocity change that was read -/
structure DvLoaded where
  header : List (Str × HVal)
  method : Str
  valueType : Str
  corr : NpArr
  value : NpArr
  simMat : NpArr
  secondAxis : NpArr
  stretches : Option NpArr
  corrs : Option NpArr
  nStat : Option NpArr
  /-- frequencies, window and sides; `none` for an empty dictionary -/
  proc : Option (Rat × Rat × Rat × Rat × NpArr × Aligned)
  deriving DecidableEq

/-- `float(array)` -/
def toFloat : NpArr → Except PyErr Rat
  | .scalar q => .ok q
  | .nums [q] => .ok q
  | _ => .error .typeError

def getItem (file : List (Str × NpArr)) (k : Str) : Except PyErr NpArr :=
  match file.lookup k with
  | some a => .ok a
  | none => .error .keyError

/-- the innermost first element (dv.py:248-253) -/
def firstText : NpArr → Except PyErr Str
  | .strs (s :: _) => .ok s
  | _ => .error .indexError

/-- the processing of a file (dv.py:254-263): all or nothing -/
def loadProc (file : List (Str × NpArr)) : Except PyErr (Option (Rat × Rat × Rat × Rat × NpArr × Aligned)) :=
  match (do
    let a ← toFloat (← getItem file c!"freq_min")
    let b ← toFloat (← getItem file c!"freq_max")
    let c ← toFloat (← getItem file c!"tw_start")
    let d ← toFloat (← getItem file c!"tw_len")
    let s := (file.lookup c!"sides").getD (.text c!"unknown")
    let al := match file.lookup c!"aligned" with | some x => Aligned.array x | none => Aligned.no
    pure (a, b, c, d, s, al) : Except PyErr _) with
  | .ok p => .ok (some p)
  | .error .keyError => .ok none
  | .error e => .error e

/-- `read_dv` for one file (dv.py:245-269) -/
def readDv (file : List (Str × NpArr)) : Except PyErr DvLoaded := do
  let h ← loadHeader file
  let vt ← firstText (← getItem file c!"vt_array")
  let method ← firstText (← getItem file c!"method_array")
  let proc ← loadProc file
  pure { header := h, method := method, valueType := vt, corr := ← getItem file c!"corr",
         value := ← getItem file c!"value", simMat := ← getItem file c!"sim_mat",
         secondAxis := ← getItem file c!"second_axis", stretches := file.lookup c!"stretches",
         corrs := file.lookup c!"corrs", nStat := file.lookup c!"n_stat", proc := proc }

/-- is a curve that was read taken for one that has not been aligned? `x is False`
(spatial.py:1009-1011) -/
def DvLoaded.notAligned (r : DvLoaded) : Bool :=
  match r.proc with
  | none => true
  | some (_, _, _, _, _, .no) => true
  | some (_, _, _, _, _, .array _) => false

end SeisMIC
