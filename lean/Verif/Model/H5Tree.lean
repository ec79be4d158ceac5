import Verif.Model.Db

/-!
# The hierarchy of groups in the correlation database (src/seismic/db/corr_hdf5.py)

`Model/Db.lean` describes a file by the list of its datasets. Here the file is the tree of groups
and datasets that h5py works on: groups that have lost their last dataset stay, and the members of a
group come in the order of their names (the index h5py uses when `track_order` is not set, as in
corr_hdf5.py:49). A dataset contains a correlation (`some d`) or the options (`none`).
Simplifications: times are given as the strings that `UTCDateTime.format_fissures` returns; a dataset
where a group is needed is a `ValueError` on creation and a `KeyError` on access.
-/

namespace SeisMIC

/-- An HDF5 object: a dataset or a group with its named members. -/
inductive Node (α : Type) where
  | set (a : α)
  | group (l : List (Str × Node α))

variable {α δ : Type}

/-- `self[path]` for the components of a path; `none`: `KeyError` (corr_hdf5.py:269, 277, 308, 315, 338) -/
def Node.get : Node α → List Str → Option (Node α)
  | n, [] => some n
  | .set _, _ :: _ => none
  | .group l, c :: cs =>
    match l.lookup c with
    | some n => n.get cs
    | none => none

/-- insertion or replacement of a member, in the order of the names -/
def linkAt (c : Str) (n : Node α) : List (Str × Node α) → List (Str × Node α)
  | [] => [(c, n)]
  | e :: l =>
    if e.1 = c then (c, n) :: l
    else if strLe c e.1 then (c, n) :: e :: l
    else e :: linkAt c n l

/-- new groups down to a new dataset -/
def chainTo (a : α) : List Str → Node α
  | [] => .set a
  | c :: cs => .group [(c, chainTo a cs)]

/-- `create_dataset(path, ...)` (corr_hdf5.py:98, 134): creates the missing groups, `ValueError` if
the object exists -/
def Node.create (a : α) : Node α → List Str → Except PyErr (Node α)
  | _, [] => .error .valueError
  | .set _, _ :: _ => .error .valueError
  | .group l, c :: cs =>
    match l.lookup c with
    | some n => do
      let n' ← n.create a cs
      .ok (.group (linkAt c n' l))
    | none => .ok (.group (linkAt c (chainTo a cs) l))

/-- `del self[path]` (corr_hdf5.py:192, 206): removes the member from its group, `KeyError` if there
is none -/
def Node.del : Node α → List Str → Except PyErr (Node α)
  | _, [] => .error .keyError
  | .set _, _ :: _ => .error .keyError
  | .group l, c :: cs =>
    match l.lookup c with
    | none => .error .keyError
    | some n =>
      match cs with
      | [] => .ok (.group (l.filter fun e => e.1 ≠ c))
      | _ :: _ => do
        let n' ← n.del cs
        .ok (.group (linkAt c n' l))

mutual
/-- an object with the place `pre` in `all_traces_recursive` (corr_hdf5.py:444-451): a group is
searched, a dataset is taken if its name `v.name` passes the test -/
def Node.visit (m : Str → Bool) (pre : List Str) : Node α → List (List Str × α)
  | .set a => if m (slashPath pre) then [(pre, a)] else []
  | .group l => visitLinks m pre l
/-- `for v in group.values()` (corr_hdf5.py:444) -/
def visitLinks (m : Str → Bool) (pre : List Str) : List (Str × Node α) → List (List Str × α)
  | [] => []
  | (c, n) :: l => n.visit m (pre ++ [c]) ++ visitLinks m pre l
end

/-- an open file -/
abbrev H5Tree (δ : Type) := Node (Option δ)

/-- an empty file -/
def H5Tree.empty : H5Tree δ := .group []

/-- `add_corr_options` (corr_hdf5.py:96-99) -/
def H5Tree.addOptions (t : H5Tree δ) : Except PyErr (H5Tree δ) := t.create none [c!"co"]

/-- One iteration of `add_correlation` (corr_hdf5.py:127-142), the `ValueError` is caught and gives a
warning. -/
def H5Tree.addOne (t : H5Tree δ) (p : HPath) (d : δ) : H5Tree δ :=
  match t.create (some d) (pathComps p.str) with
  | .ok t' => t'
  | .error _ => t

/-- `DBHandler.add_correlation` (corr_hdf5.py:101-142) -/
def H5Tree.add (t : H5Tree δ) (l : List (HPath × δ)) : H5Tree δ :=
  l.foldl (fun t e => t.addOne e.1 e.2) t

/-- `list(self[path].keys())` (corr_hdf5.py:308, 314-315, 338); a dataset has no attribute `keys` -/
def H5Tree.keys (t : H5Tree δ) (cs : List Str) : Except PyErr (List Str) :=
  match t.get cs with
  | some (.group l) => .ok (l.map Prod.fst)
  | some (.set _) => .error .attributeError
  | none => .error .keyError

/-- `all_traces_recursive(self[path], CorrStream(), pattern)` (corr_hdf5.py:277, 427-452); a dataset
has no attribute `values`. The result are the places and contents of the datasets. -/
def H5Tree.traverse (t : H5Tree δ) (cs : List Str) (pattern : Str) :
    Except PyErr (List (List Str × Option δ)) :=
  match t.get cs with
  | some (.group l) => .ok (visitLinks (fun name => nameMatches name pattern) cs l)
  | some (.set _) => .error .attributeError
  | none => .error .keyError

/-- `DBHandler.get_data` (corr_hdf5.py:219-277). A group has no data and no header: `TypeError`. -/
def H5Tree.getData (t : H5Tree δ) (net sta cha tag : Str) (cst cet : Option Str) :
    Except PyErr (List (List Str × Option δ)) := do
  let (net, sta, cha) ← sortRequest net sta cha
  let path := HPath.str ⟨tag, net, sta, cha, cst.getD c!"*", cet.getD c!"*"⟩
  if noWild path then
    match t.get (pathComps path) with
    | some (.set a) => .ok [(pathComps path, a)]
    | some (.group _) => .error .typeError
    | none => .error .keyError
  else
    let path := replaceQuestion path
    let pattern := replaceSlashStar path
    let path := (splitOn '*' path).headD []
    t.traverse (pathComps path) pattern

/-- `DBHandler.get_available_starttimes` (corr_hdf5.py:279-316) for a channel given as a string -/
def H5Tree.availableStarttimes (t : H5Tree δ) (net sta tag cha : Str) :
    Except PyErr (List (Str × List Str)) :=
  if !(cha.contains '*') then
    match t.keys (pathComps (slashPath [tag, net, sta, cha])) with
    | .ok l => .ok [(cha, l)]
    | .error .keyError => .ok []
    | .error e => .error e
  else do
    let path := slashPath [tag, net, sta]
    let chas ← t.keys (pathComps path)
    (chas.filter fun k => fnmatch k cha).mapM fun k => do
      let l ← t.keys (pathComps (path ++ '/' :: k))
      .ok (k, l)

/-- `DBHandler.get_available_channels` (corr_hdf5.py:318-341) for codes without `*` -/
def H5Tree.availableChannels (t : H5Tree δ) (tag net sta : Str) : Except PyErr (List Str) :=
  match t.keys (pathComps (slashPath [tag, net, sta])) with
  | .error .keyError => .ok []
  | r => r

/-- `DBHandler.remove_data` (corr_hdf5.py:144-206), the start time given as a string -/
def H5Tree.removeData (t : H5Tree δ) (net sta cha tag cst : Str) : Except PyErr (H5Tree δ) := do
  if (net ++ sta ++ cha).contains '*' then throw .valueError
  let (net, sta, cha) ← sortRequest net sta cha
  let path := stripSlashStar (HPath.str ⟨tag, net, sta, cha, cst, c!"*"⟩)
  if noWild path then
    match t.del (pathComps path) with
    | .ok t' => pure t'
    | .error _ => pure t          -- warning only
  else
    let path := replaceQuestion path
    let pattern := replaceSlashStar path
    let times ← t.availableStarttimes net sta tag cha
    match times.lookup cha with
    | none => throw .keyError
    | some l =>
      l.foldlM (fun t sst =>
        let sub := slashPath [tag, net, sta, cha, sst]
        if fnmatch sub pattern then t.del (pathComps sub) else pure t) t

end SeisMIC
