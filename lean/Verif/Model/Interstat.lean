import Verif.Model.Combis

/-!
# Model: selecting combinations by distance (correlate/correlate.py, trace_data/waveform.py, utils/miic_utils.py)
-/

namespace SeisMIC

/-- a station in an inventory (networks and stations are one list here) -/
structure InvStation where
  net : Str
  sta : Str
  lat : Rat
  lon : Rat
  deriving DecidableEq

abbrev Inv := List InvStation

/-- the inventory in memory, the files in the inventory folder, and the stations that were requested from the remote service so far -/
structure InvStore where
  inventory : Inv
  files : List (Str × Inv)
  requests : List (Str × Str)
  deriving DecidableEq

/-- `Store_Client.read_inventory` (waveform.py:313-321). Without any file ObsPy raises an exception. -/
def readInventory (st : InvStore) : Except PyErr InvStore :=
  if st.files.isEmpty then .error .obsPyError else .ok { st with inventory := st.files.flatMap Prod.snd }

/-- `Store_Client._write_inventory` (waveform.py:380-390): the file has the name of the first station and replaces a file with this name. An empty
inventory is an `IndexError`. -/
def writeInventory (st : InvStore) (ninv : Inv) : Except PyErr InvStore :=
  match ninv with
  | [] => .error .indexError
  | x :: _ =>
    let fname := x.net ++ c!"." ++ x.sta ++ c!".xml"
    .ok { st with inventory := st.inventory ++ ninv, files := st.files.filter (fun f => f.1 ≠ fname) ++ [(fname, ninv)] }

/-- `Inventory.select(network, station)` of ObsPy for codes without wildcards -/
def selectInv (inv : Inv) (n s : Str) : Inv := inv.filter fun x => x.net = n ∧ x.sta = s

/-- `Store_Client.select_inventory_or_load_remote` (waveform.py:323-344). `remote` is the answer of the remote service. -/
def selectOrLoad (remote : Str → Str → Except PyErr Inv) (st : InvStore) (n s : Str) : InvStore × Except PyErr Inv :=
  let inv := selectInv st.inventory n s
  if inv ≠ [] then (st, .ok inv)
  else
    let st := { st with requests := st.requests ++ [(n, s)] }
    match remote n s with
    | .error e => (st, .error e)
    | .ok ninv =>
      match writeInventory st ninv with
      | .error e => (st, .error e)
      | .ok st => (st, .ok ninv)

/-- `filter_stat_dist` (miic_utils.py:74-88) with `inv_calc_az_baz_dist` (91-126): the distance of the first stations. `dist` is the distance of
`gps2dist_azimuth`. -/
def filterStatDist (dist : Rat × Rat → Rat × Rat → Rat) (inv1 inv2 : Inv) (thres : Rat) : Except PyErr Bool :=
  match inv1, inv2 with
  | x :: _, y :: _ => .ok (decide (dist (x.lat, x.lon) (y.lat, y.lon) ≤ thres))
  | _, _ => .error .indexError

/-- state of the loops: requested combinations, inventories, and the exception that ended them -/
structure DistState where
  combis : List Str
  store : InvStore
  err : Option PyErr
  deriving DecidableEq

/-- the inner loop (correlate.py:262-266) -/
def distInner (remote : Str → Str → Except PyErr Inv) (dist : Rat × Rat → Rat × Rat → Rat) (dis : Rat) (a : Str × Str) (inv0 : Inv) :
    List (Str × Str) → List Str → InvStore → DistState
  | [], acc, st => ⟨acc, st, none⟩
  | b :: l, acc, st =>
    match selectOrLoad remote st b.1 b.2 with
    | (st, .error e) => ⟨acc, st, some e⟩
    | (st, .ok inv1) =>
      match filterStatDist dist inv0 inv1 dis with
      | .error e => ⟨acc, st, some e⟩
      | .ok close =>
        distInner remote dist dis a inv0 l (if close then acc ++ [dash (a.1, b.1) ++ c!"." ++ dash (a.2, b.2)] else acc) st

/-- the outer loop (correlate.py:259-266) -/
def distOuter (remote : Str → Str → Except PyErr Inv) (dist : Rat × Rat → Rat × Rat → Rat) (dis : Rat) :
    List (Str × Str) → List Str → InvStore → DistState
  | [], acc, st => ⟨acc, st, none⟩
  | a :: l, acc, st =>
    match selectOrLoad remote st a.1 a.2 with
    | (st, .error e) => ⟨acc, st, some e⟩
    | (st, .ok inv0) =>
      let r := distInner remote dist dis a inv0 (a :: l) acc st
      if r.err.isSome then r else distOuter remote dist dis l r.combis r.store

/-- `Correlator.find_interstat_dist` (correlate.py:237-270): the requested combinations and the inventories afterwards, and the exception, if any.
`rcombis` are the requested combinations before. -/
def findInterstatDist (remote : Str → Str → Except PyErr Inv) (dist : Rat × Rat → Rat × Rat → Rat) (method : Str) (stations : List (Str × Str))
    (rcombis : Option (List Str)) (st : InvStore) (dis : Rat) : Option (List Str) × InvStore × Option PyErr :=
  if method ≠ c!"betweenStations" then (rcombis, st, some .valueError)
  else match readInventory st with
    | .error e => (rcombis, st, some e)
    | .ok st =>
      match rcombis with
      | some _ => (rcombis, st, some .valueError)
      | none =>
        let r := distOuter remote dist dis stations [] st
        (some r.combis, r.store, r.err)

end SeisMIC
