import Verif.Py.Strings

/-!
# Model: the files used for monitoring (monitor/monitor.py)

Paths are strings; the directory listings are lists of names.
-/

namespace SeisMIC

/-- a request in the network dictionary: a string, a list of strings, or anything else -/
inductive NetReq
  | one (p : Str)
  | many (l : List Str)
  | other
  deriving DecidableEq

/-- `fnmatch.filter(codes, p) == codes` -/
def allMatch (codes : List Str) (p : Str) : Bool := decide (codes.filter (fun c => fnmatch c p) = codes)

/-- the decision about one file (monitor.py:770-798); `matched` is not reset between the
networks and the stations -/
def fileSelected (net sta : NetReq) (f : Str) : Bool :=
  let split := splitOn '.' f
  let nsplit := splitOn '-' (split.getD 0 [])
  let ssplit := splitOn '-' (split.getD 1 [])
  let step1 : Option Bool := match net with       -- none: continue; otherwise `matched`
    | .one p => if allMatch nsplit p then some false else none
    | .many l => if l.any (allMatch nsplit) then some true else none
    | .other => some false
  match step1 with
  | none => false
  | some matched =>
    match sta with
    | .one p => allMatch ssplit p
    | .many l => matched || l.any (allMatch ssplit)
    | .other => true

/-- `corr_find_filter` (monitor.py:750-803): network code, station code and path of the
selected files of the directory. `glob` with a leading `*` leaves out hidden files. -/
def corrFindFilter (indir : Str) (listing : List Str) (net sta : NetReq) : List (Str × Str × Str) :=
  ((listing.filter fun f => fnmatch f c!"*-*.*-*.h5" && !(decide (f.head? = some '.'))).filter (fileSelected net sta)).map
    fun f => ((splitOn '.' f).getD 0 [], (splitOn '.' f).getD 1 [], indir ++ '/' :: f)

/-! ### averaging loop -/

inductive AvMethod
  | autoComponents
  | crossComponents
  | stationWide
  | crossStations
  deriving DecidableEq

/-- name of the channel of the average (monitor.py:393-398) -/
def AvMethod.ch : AvMethod → Str
  | .autoComponents => c!"av-auto"
  | .crossComponents => c!"av-xc"
  | .stationWide => c!"av"
  | .crossStations => c!"av"

/-- is a file used by the method (monitor.py:423-446)? Missing parts are IndexErrors; `or`
does not evaluate the second condition if the first one holds. -/
def methodSelects (m : AvMethod) (f : Str) : Except PyErr Bool := do
  let parts := (splitOn '.' f).reverse
  let comp ← match parts[1]? with
    | some c => pure (splitOn '-' c)
    | none => throw .indexError
  let stat ← match parts[2]? with
    | some c => pure (splitOn '-' c)
    | none => throw .indexError
  let differ (l : List Str) : Except PyErr Bool := match l with
    | a :: b :: _ => pure (decide (a ≠ b))
    | _ => throw .indexError
  match m with
  | .autoComponents => if ← differ comp then pure false else pure (!(← differ stat))
  | .crossComponents => if !(← differ comp) then pure false else pure (!(← differ stat))
  | .stationWide => pure (!(← differ stat))
  | .crossStations => differ stat

/-- the loop over the files of one group (monitor.py:404-447): `none` if the average
exists, otherwise the files of the second filter -/
def scanGroup (m : AvMethod) : List Str → Except PyErr (Option (List Str))
  | [] => .ok (some [])
  | f :: l => do
    if m.ch ∈ splitOn '.' f then pure none
    else if isSub c!"av" f then scanGroup m l
    else
      let s ← methodSelects m f
      let r ← scanGroup m l
      pure (r.map fun r => if s then f :: r else r)

/-- the beginning of the names of a group, `'.'.join(f.split('.')[:-2])` (monitor.py:401) -/
def groupBase (f : Str) : Str := joinWith c!"." ((splitOn '.' f).take ((splitOn '.' f).length - 2))

/-- one pass of the `while` loop (monitor.py:399-465): the files that are left, and the
files whose results are averaged. `readable`: `read_dv` succeeds. All files of the group
are removed from the list. -/
def avStep (m : AvMethod) (readable : Str → Bool) (infiles : List Str) : Except PyErr (List Str × Option (List Str)) :=
  match infiles with
  | [] => .ok ([], none)
  | f0 :: _ => do
    let filt := infiles.filter fun f => fnmatch f (groupBase f0 ++ c!"*")
    let sel ← scanGroup m filt
    let dvs := (sel.getD []).filter readable
    pure (infiles.filter fun f => !(decide (f ∈ filt)), if 2 ≤ dvs.length then some dvs else none)

/-- `compute_components_average` (monitor.py:369-479): at most `fuel` passes; `none` if it
has not ended by then, otherwise the averages in the order in which they are computed.
Averaging itself and writing are left out. -/
def avLoop (m : AvMethod) (readable : Str → Bool) : Nat → List Str → Option (Except PyErr (List (List Str)))
  | _, [] => some (.ok [])
  | 0, _ :: _ => none
  | fuel + 1, infiles =>
    match avStep m readable infiles with
    | .error e => some (.error e)
    | .ok (rest, g) =>
      (avLoop m readable fuel rest).map fun r => r.map fun gs => (match g with
        | some g => g :: gs
        | none => gs)

end SeisMIC
