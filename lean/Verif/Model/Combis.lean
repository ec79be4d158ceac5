import Verif.Model.Db

/-!
# Station and trace combinations (src/seismic/correlate/correlate.py)
-/

namespace SeisMIC

/-- the part of a trace header that is relevant for the combinations; `start` is
`stats.starttime` in nanoseconds -/
structure TrHead where
  net : Str
  sta : Str
  loc : Str
  cha : Str
  start : Int
  deriving DecidableEq, Repr

/-- `sort_comb_name_alphabetically` (correlate.py:1167-1233). Arguments are
strings, so the `TypeError` branch (1217-1219) is unreachable here. The two
keys are sorted as a list; `sort == sorted` iff the first is not greater. -/
def sortComb (net1 sta1 net2 sta2 cha1 cha2 : Str) : (Str × Str) × (Str × Str) × (Str × Str) :=
  let sort1 := net1 ++ sta1 ++ cha1
  let sort2 := net2 ++ sta2 ++ cha2
  if isort strLe [sort1, sort2] = [sort1, sort2] then
    ((net1, net2), (sta1, sta2), (cha1, cha2))
  else
    ((net2, net1), (sta2, sta1), (cha2, cha1))

/-- `'%s-%s' % (a, b)` -/
def dash (ab : Str × Str) : Str := ab.1 ++ c!"-" ++ ab.2

/-- dictionary of existing data: first station -> second station -> channels ->
formatted start times (correlate.py:285-292) -/
abbrev ExDict := List (Str × List (Str × List (Str × List Str)))

/-- `ex_corr[k1][k2][ch]`; `none` is a `KeyError` -/
def ExDict.get (d : ExDict) (k1 k2 ch : Str) : Option (List Str) := do
  let d2 ← d.lookup k1
  let d3 ← d2.lookup k2
  d3.lookup ch

/-- `f'{net}.{stat}'` -/
def dotted (n s : Str) : Str := n ++ c!"." ++ s

/-- `_compare_existing_data` (correlate.py:800-825). `fiss` is
`UTCDateTime.format_fissures`. A `KeyError` means that the data do not exist. -/
def compareExisting (fiss : Int → Str) (ex : ExDict) (tr0 tr1 : TrHead) : Bool :=
  let flip := ((tr0.net, tr1.net), (tr0.sta, tr1.sta), (tr0.cha, tr1.cha)) ≠
    sortComb tr0.net tr0.sta tr1.net tr1.sta tr0.cha tr1.cha
  let corrStart := max tr0.start tr1.start
  let times :=
    if flip then ex.get (dotted tr1.net tr1.sta) (dotted tr0.net tr0.sta) (dash (tr1.cha, tr0.cha))
    else ex.get (dotted tr0.net tr0.sta) (dotted tr1.net tr1.sta) (dash (tr0.cha, tr1.cha))
  match times with
  | none => false
  | some l => l.contains (fiss corrStart)

/-- `is_in_xcombis` (correlate.py:828-842). Simplification: the codes are given
separately (in the code they are obtained from the id by splitting at dots). -/
def isInXcombis (a b : TrHead) (rcombis : List Str) : Bool :=
  let tcombi := dash (a.net, b.net) ++ c!"." ++ dash (a.sta, b.sta) ++ c!"." ++ dash (a.cha, b.cha)
  let tcombi2 := dash (b.net, a.net) ++ c!"." ++ dash (b.sta, a.sta) ++ c!"." ++ dash (b.cha, a.cha)
  rcombis.any fun combi => fnmatch tcombi (combi ++ c!"*") || fnmatch tcombi2 (combi ++ c!"*")

/-- order of `st.sort(keys=['network', 'station', 'channel'])` -/
def trLe (a b : TrHead) : Bool :=
  if a.net ≠ b.net then strLe a.net b.net
  else if a.sta ≠ b.sta then strLe a.sta b.sta
  else strLe a.cha b.cha

/-- pairs `(ii, jj)` in the order of `for ii in range(n): for jj in range(f(ii), n)` -/
def pairsFrom (n : Nat) (f : Nat → Nat) : List (Nat × Nat) :=
  (List.range n).flatMap fun i => (List.range' (f i) (n - f i)).map fun j => (i, j)

/-- `calc_cross_combis` (correlate.py:845-933). The stream is sorted in place
first; the returned pairs are indices into the sorted stream. In
`betweenComponents` the last letter of an empty channel code is an
`IndexError` (evaluated only for traces of the same station). -/
def calcCrossCombis (fiss : Int → Str) (st : List TrHead) (ex : ExDict) (method : Str)
    (rcombis : Option (List Str)) : Except PyErr (List (Nat × Nat)) :=
  let st := isort trLe st
  let get (i : Nat) : TrHead := st.getD i ⟨[], [], [], [], 0⟩
  if method = c!"betweenStations" then
    .ok ((pairsFrom st.length (· + 1)).filter fun (i, j) =>
      let tr := get i
      let tr1 := get j
      if tr.net ≠ tr1.net ∨ tr.sta ≠ tr1.sta then
        if compareExisting fiss ex tr tr1 then false
        else match rcombis with
          | none => true
          | some r => isInXcombis tr tr1 r
      else false)
  else if method = c!"betweenComponents" then
    (pairsFrom st.length (· + 1)).foldlM (fun acc (i, j) =>
      let tr := get i
      let tr1 := get j
      if tr.net = tr1.net ∧ tr.sta = tr1.sta then
        match tr.cha.getLast?, tr1.cha.getLast? with
        | some a, some b =>
          if a ≠ b ∧ ¬ compareExisting fiss ex tr tr1 then .ok (acc ++ [(i, j)]) else .ok acc
        | _, _ => .error .indexError
      else .ok acc) []
  else if method = c!"autoComponents" then
    .ok (((List.range st.length).map fun i => (i, i)).filter fun (i, j) =>
      !compareExisting fiss ex (get i) (get j))
  else if method = c!"allSimpleCombinations" then
    .ok ((pairsFrom st.length id).filter fun (i, j) => !compareExisting fiss ex (get i) (get j))
  else if method = c!"allCombinations" then
    .ok ((pairsFrom st.length (fun _ => 0)).filter fun (i, j) =>
      !compareExisting fiss ex (get i) (get j))
  else .error .valueError

/-- `compute_network_station_combinations` (correlate.py:1236-1300): list of
(network combination, station combination). -/
def networkStationCombis (stations : List (Str × Str)) (method : Str)
    (combis : Option (List Str)) : Except PyErr (List (Str × Str)) :=
  let get (i : Nat) : Str × Str := stations.getD i ([], [])
  let name (a b : Str × Str) : Str × Str :=
    let (nc, sc, _) := sortComb a.1 a.2 b.1 b.2 [] []
    (dash nc, dash sc)
  if method = c!"betweenStations" then
    .ok (((pairsFrom stations.length (· + 1)).filter fun (i, j) =>
        let a := get i
        let b := get j
        if a.1 ≠ b.1 ∨ a.2 ≠ b.2 then
          match combis with
          | none => true
          | some c => c.contains ((name a b).1 ++ c!"." ++ (name a b).2)
        else false).map fun (i, j) => name (get i) (get j))
  else if method = c!"betweenComponents" ∨ method = c!"autoComponents" then
    .ok (stations.map fun (n, s) => (dash (n, n), dash (s, s)))
  else if method = c!"allSimpleCombinations" then
    .ok ((pairsFrom stations.length id).map fun (i, j) => name (get i) (get j))
  else if method = c!"allCombinations" then
    .ok ((pairsFrom stations.length (fun _ => 0)).map fun (i, j) => name (get i) (get j))
  else .error .valueError

/-- a directory of correlation files: file name -> file -/
abbrev CorrDir (δ : Type) := List (Str × H5 δ)

/-- `d.update(new)` for dictionaries -/
def dictUpdate {β : Type} (d new : List (Str × β)) : List (Str × β) :=
  new.foldl (fun d e => d.filter (fun x => x.1 ≠ e.1) ++ [e]) d

/-- `find_existing_times` (correlate.py:272-314) with `channel='*'`: for every
combination all files whose name matches `'%s.%s*.h5'` are read with
`get_available_starttimes`, which raises `KeyError` if the file does not contain
the combination under the tag. Simplification: the check of the options when
opening is not repeated here (see `openGuard`). -/
def findExistingTimes {δ : Type} (dir : CorrDir δ) (stations : List (Str × Str)) (method : Str)
    (rcombis : Option (List Str)) (tag : Str) : Except PyErr ExDict := do
  let combs ← networkStationCombis stations method rcombis
  combs.foldlM (fun ex (nc, sc) => do
    let files := dir.filter fun f => fnmatch f.1 (nc ++ c!"." ++ sc ++ c!"*.h5")
    if files.isEmpty then pure ex
    else
      let d ← files.foldlM (fun d f => do
        let new ← f.2.availableStarttimes nc sc tag c!"*"
        pure (dictUpdate d new)) []
      match splitOn '-' sc, splitOn '-' nc with
      | [s0, s1], [n0, n1] =>
        let inner := (ex.lookup (dotted n0 s0)).getD []
        pure (dictUpdate ex [(dotted n0 s0, dictUpdate inner [(dotted n1 s1, d)])])
      | _, _ => throw .valueError) []

/-- name of the file a correlation is written to when components are not saved
separately: `f'{net}.{stat}.h5'` (correlate.py:433-434) -/
def corrFileName (net sta : Str) : Str := net ++ c!"." ++ sta ++ c!".h5"

/-- network, station and channel code of a stored correlation of two traces
(stream.py:1424-1439 `alphabetical_correlation`, stream.py:1492-1497
`combine_stats`): the codes joined with `-` in the order of the concatenated
codes. -/
def corrCodes (a b : TrHead) : Str × Str × Str :=
  let sort1 := a.net ++ a.sta ++ a.cha
  let sort2 := b.net ++ b.sta ++ b.cha
  if isort strLe [sort1, sort2] = [sort1, sort2] then
    (dash (a.net, b.net), dash (a.sta, b.sta), dash (a.cha, b.cha))
  else
    (dash (b.net, a.net), dash (b.sta, a.sta), dash (b.cha, a.cha))

/-- `Correlator._filter_by_rcombis` (correlate.py:219-235) for the list of
stations -/
def filterByRcombis (stations : List (Str × Str)) (rcombis : Option (List Str)) (method : Str) :
    List (Str × Str) :=
  match rcombis with
  | none => stations
  | some r =>
    if method ≠ c!"betweenStations" then stations
    else stations.filter fun (n, s) =>
      (r.filter fun c => fnmatch c (n ++ c!"-*." ++ s ++ c!"-*")) ≠ [] ∨
      (r.filter fun c => fnmatch c (c!"*-" ++ n ++ c!".*-" ++ s)) ≠ []

end SeisMIC
