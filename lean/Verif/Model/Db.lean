import Verif.Py.Strings

/-!
# The correlation database (src/seismic/db/corr_hdf5.py)

An HDF5 file is the list of its datasets with their place in the hierarchy
`/{tag}/{network}/{station}/{channel}/{corr_st}/{corr_et}` (corr_hdf5.py:31)
and the dataset `co` with the options. Simplifications: groups exist iff they
contain a dataset (HDF5 keeps emptied groups); traversal is in order of
creation instead of name order (`Model/H5Tree.lean` describes both as they are); times are given as the strings that
`UTCDateTime.format_fissures` returns; codes contain no `/`.
-/

namespace SeisMIC

/-- place of a dataset in the hierarchy (corr_hdf5.py:31) -/
structure HPath where
  tag : Str
  net : Str
  sta : Str
  cha : Str
  cst : Str
  cet : Str
  deriving DecidableEq, Repr

/-- components of the path -/
def HPath.comps (p : HPath) : List Str := [p.tag, p.net, p.sta, p.cha, p.cst, p.cet]

/-- `/a/b/c` -/
def slashPath : List Str → Str
  | [] => []
  | x :: l => '/' :: x ++ slashPath l

/-- `hierarchy.format(...)` (corr_hdf5.py:31, 129, 184, 264, 299, 333) -/
def HPath.str (p : HPath) : Str := slashPath p.comps

/-- an open file: datasets `δ` (data and header) and whether options are stored -/
structure H5 (δ : Type) where
  hasCo : Bool
  sets : List (HPath × δ)

variable {δ : Type}

/-- `self[path]` for a path without wildcards given by its components: the
datasets in or below it -/
def H5.below (f : H5 δ) (cs : List Str) : List (HPath × δ) :=
  f.sets.filter fun e => cs.isPrefixOf e.1.comps

/-- the dataset stored at a path -/
def H5.lookup (f : H5 δ) (p : HPath) : Option δ := f.sets.lookup p

/-- One iteration of `add_correlation` (corr_hdf5.py:127-142): `create_dataset`
raises `ValueError` if the path exists, then the trace is omitted with a
warning. -/
def H5.addOne (f : H5 δ) (p : HPath) (d : δ) : H5 δ :=
  if f.sets.any (fun e => e.1 == p) then f
  else { f with sets := f.sets ++ [(p, d)] }

/-- `DBHandler.add_correlation` (corr_hdf5.py:101-142) for a stream of traces
whose places in the hierarchy are given. -/
def H5.add (f : H5 δ) (l : List (HPath × δ)) : H5 δ :=
  l.foldl (fun f e => f.addOne e.1 e.2) f

/-- `sort` of `get_data` and `remove_data` (corr_hdf5.py:168-169, 248-249) -/
def dottedCodes (net sta cha : Str) : List Str :=
  List.zipWith (fun ns c => joinWith c!"." [ns.1, ns.2, c])
    (List.zip (splitOn '-' net) (splitOn '-' sta)) (splitOn '-' cha)

/-- Reordering of the codes (corr_hdf5.py:168-174, 248-254). `sorted != sort`
implies at least two entries. The unpacking of the three codes raises
`ValueError` if there are not exactly three. -/
def sortRequest (net sta cha : Str) : Except PyErr (Str × Str × Str) :=
  let sort := dottedCodes net sta cha
  let sorted := isort strLe sort
  if sorted ≠ sort then
    match sorted with
    | s0 :: s1 :: _ =>
      match List.zipWith (fun a b => joinWith c!"-" [a, b]) (splitOn '.' s0) (splitOn '.' s1) with
      | [n, s, c] => .ok (n, s, c)
      | _ => .error .valueError
    | _ => .error .indexError
  else .ok (net, sta, cha)

/-- An object that a traversal can return: a correlation or the dataset with
the options at the root of the file. -/
inductive H5Obj (δ : Type) where
  | corr (p : HPath) (d : δ)
  | co
  deriving DecidableEq, Repr

/-- test in `all_traces_recursive` (corr_hdf5.py:447) -/
def nameMatches (name pattern : Str) : Bool := fnmatch name pattern || isSub name pattern

/-- `all_traces_recursive(self[path], CorrStream(), pattern)`
(corr_hdf5.py:427-452) for the group with the given components; a missing group
is a `KeyError`. The dataset `/co` is in the root group. -/
def H5.traverse (f : H5 δ) (cs : List Str) (pattern : Str) : Except PyErr (List (H5Obj δ)) :=
  let b := f.below cs
  if cs = [] then
    .ok ((if f.hasCo && nameMatches c!"/co" pattern then [H5Obj.co] else []) ++
      (b.filter fun e => nameMatches e.1.str pattern).map fun e => .corr e.1 e.2)
  else if b.isEmpty then .error .keyError
  else .ok ((b.filter fun e => nameMatches e.1.str pattern).map fun e => .corr e.1 e.2)

/-- components of a path string; empty components are ignored by HDF5 -/
def pathComps (s : Str) : List Str := (splitOn '/' s).filter fun c => !c.isEmpty

/-- `'*' not in path and '?' not in path` (corr_hdf5.py:190, 268) -/
def noWild (s : Str) : Bool := !(s.contains '*') && !(s.contains '?')

/-- `DBHandler.get_data` (corr_hdf5.py:219-277). Times that are not
`UTCDateTime` objects become `'*'` (`none`). -/
def H5.getData (f : H5 δ) (net sta cha tag : Str) (cst cet : Option Str) :
    Except PyErr (List (H5Obj δ)) := do
  let (net, sta, cha) ← sortRequest net sta cha
  let p : HPath := ⟨tag, net, sta, cha, cst.getD c!"*", cet.getD c!"*"⟩
  let path := p.str
  if noWild path then
    match f.lookup p with
    | some d => .ok [.corr p d]
    | none => .error .keyError
  else
    let path := replaceQuestion path
    let pattern := replaceSlashStar path
    let path := (splitOn '*' path).headD []
    f.traverse (pathComps path) pattern

/-- keys of the group with the given components (without order) -/
def H5.keys (f : H5 δ) (cs : List Str) : List Str :=
  (((f.below cs).filterMap fun e => e.1.comps[cs.length]?)).eraseDups

/-- `DBHandler.get_available_starttimes` (corr_hdf5.py:279-316) for a channel
given as a string: dictionary channel -> start times. Without `*` in the
channel a missing group gives an empty dictionary, with `*` it is a
`KeyError`. -/
def H5.availableStarttimes (f : H5 δ) (net sta tag cha : Str) :
    Except PyErr (List (Str × List Str)) :=
  if !(cha.contains '*') then
    if (f.below [tag, net, sta, cha]).isEmpty then .ok []
    else .ok [(cha, f.keys [tag, net, sta, cha])]
  else if (f.below [tag, net, sta]).isEmpty then .error .keyError
  else .ok (((f.keys [tag, net, sta]).filter fun k => fnmatch k cha).map fun k =>
    (k, f.keys [tag, net, sta, k]))

/-- `DBHandler.get_available_channels` (corr_hdf5.py:318-341) -/
def H5.availableChannels (f : H5 δ) (tag net sta : Str) : List Str := f.keys [tag, net, sta]

/-- `del self[path]` (corr_hdf5.py:192, 206): removes the dataset or the group
with everything below; without such an object `KeyError` -/
def H5.del (f : H5 δ) (cs : List Str) : Except PyErr (H5 δ) :=
  if (f.below cs).isEmpty then .error .keyError
  else .ok { f with sets := f.sets.filter fun e => !(cs.isPrefixOf e.1.comps) }

/-- `DBHandler.remove_data` (corr_hdf5.py:144-206), the start time given as a
string in fissures format, wildcards allowed. -/
def H5.removeData (f : H5 δ) (net sta cha tag cst : Str) : Except PyErr (H5 δ) := do
  if (net ++ sta ++ cha).contains '*' then throw .valueError
  let (net, sta, cha) ← sortRequest net sta cha
  let path := stripSlashStar (HPath.str ⟨tag, net, sta, cha, cst, c!"*"⟩)
  if noWild path then
    match f.del (pathComps path) with
    | .ok f' => pure f'
    | .error _ => pure f          -- warning only
  else
    let path := replaceQuestion path
    let pattern := replaceSlashStar path
    let times ← f.availableStarttimes net sta tag cha
    match times.lookup cha with
    | none => throw .keyError
    | some l =>
      l.foldlM (fun f sst =>
        if fnmatch (slashPath [tag, net, sta, cha, sst]) pattern
        then f.del [tag, net, sta, cha, sst] else pure f) f

/-! ## Options -/

/-- A processing step: function name and arguments (arguments are opaque). -/
structure ProcStep (ν : Type) where
  function : Str
  args : ν
  deriving DecidableEq, Repr

/-- The dictionary of correlation options: the sub-dictionaries `corr_args` and
`subdivision`, the list `preProcessing` (absent: `none`) and all other keys.
Values are opaque. `str` followed by `ast.literal_eval` is the identity. -/
structure Options (ν : Type) where
  other : List (Str × ν)
  corrArgs : List (Str × ν)
  subdivision : List (Str × ν)
  preProcessing : Option (List (ProcStep ν))
  deriving DecidableEq

variable {ν : Type} [DecidableEq ν]

/-- keys removed from the top level (corr_hdf5.py:516-519) -/
def remKeys : List Str := [c!"subdir", c!"read_start", c!"read_end", c!"read_len", c!"read_inc",
  c!"combination_method", c!"combinations", c!"starttime", c!"xcombinations",
  c!"preprocess_subdiv", c!"allow_different_params"]

/-- `d.pop(key, None)` -/
def popKey (key : Str) (d : List (Str × ν)) : List (Str × ν) := d.filter fun e => e.1 ≠ key

/-- `[l.remove(x) for x in l if pred x]`: removal of the first equal element
while the iterator runs over the same list by position (corr_hdf5.py:526-527).
`k` bounds the number of iterations. -/
def removeWhileIter {β : Type} [DecidableEq β] (pred : β → Bool) : Nat → Nat → List β → List β
  | 0, _, l => l
  | k+1, i, l =>
    match l[i]? with
    | none => l
    | some x => removeWhileIter pred k (i+1) (if pred x then l.erase x else l)

/-- `co_to_hdf5` (corr_hdf5.py:514-530) -/
def coToHdf5 (co : Options ν) : Options ν :=
  { other := remKeys.foldl (fun d k => popKey k d) co.other
    corrArgs := popKey c!"combinations" co.corrArgs
    subdivision := popKey c!"delete_subdivision" (popKey c!"recombine_subdivision" co.subdivision)
    preProcessing := co.preProcessing.map fun l =>
      removeWhileIter (fun s => isSub c!"stream_mask_at_utc" s.function) l.length 0 l }

/-- equality of dictionaries does not depend on the order of the keys -/
def dictEq (a b : List (Str × ν)) : Bool :=
  (a.map Prod.fst ++ b.map Prod.fst).all fun k => a.lookup k == b.lookup k

/-- `co_old == co_to_hdf5(co)` (corr_hdf5.py:75) -/
def optionsEq (a b : Options ν) : Bool :=
  dictEq a.other b.other && dictEq a.corrArgs b.corrArgs && dictEq a.subdivision b.subdivision &&
  decide (a.preProcessing = b.preProcessing)

/-- Guard of `DBHandler.__init__` (corr_hdf5.py:72-91): `stored` are the options
in the file (as written), the result are the options in the file afterwards.
`get_corr_options` (corr_hdf5.py:208-217) applies `co_to_hdf5` once more to what
is stored, `add_corr_options` (corr_hdf5.py:96-99) stores `co_to_hdf5(co)`. -/
def openGuard (stored : Option (Options ν)) (co : Option (Options ν)) (force : Bool) :
    Except PyErr (Option (Options ν)) :=
  match co with
  | none => .ok stored
  | some co =>
    match stored with
    | none => .ok (some (coToHdf5 co))
    | some old =>
      if !(optionsEq (coToHdf5 old) (coToHdf5 co)) && !force then .error .permissionError
      else .ok stored

/-! ## Opening -/

/-- file mode and path of `CorrelationDataBase.__init__` (corr_hdf5.py:401-410) -/
def openMode (hasOptions : Bool) (mode : Str) (force : Bool) (path : Str) : Str × Str :=
  let mode := if !hasOptions && mode ≠ c!"r" && !force then c!"r" else mode
  let path := if (splitOn '.' path).getLastD [] = c!"h5" then path else path ++ c!".h5"
  (mode, path)

/-- `self.compression_opts` for a requested level (corr_hdf5.py:56-65):
`np.arange(1, 10)[np.argmin(abs(np.arange(1, 10) - level))]` if the level is
not in 1..9. `argmin` returns the first minimum. -/
def argminFirst : List Nat → Nat
  | [] => 0
  | x :: l => if l.all (x ≤ ·) then 0 else argminFirst l + 1

def compressionLevel (level : Nat) : Nat :=
  let avail := (List.range 9).map (· + 1)
  if avail.contains level then level
  else avail.getD (argminFirst (avail.map fun a => (a - level) + (level - a))) 0

/-! ### the compression string -/

/-- `\w` of `re`. Simplification: ASCII strings. -/
def isWordChar (c : Char) : Bool := c.isAlphanum || c == '_'

/-- a match of `(\w+?)(\d+)` at the beginning of the string: the first
group is as short as possible, the second as long as possible
(corr_hdf5.py:51) -/
def compAt : Str → Option (Str × Str)
  | [] => none
  | c :: s =>
    if isWordChar c then
      if (s.head?.map Char.isDigit).getD false then some ([c], s.takeWhile Char.isDigit)
      else (compAt s).map fun (a, b) => (c :: a, b)
    else none

/-- `re.findall(r'(\w+?)(\d+)', s)[0]`: the leftmost match -/
def compFind : Str → Option (Str × Str)
  | [] => none
  | c :: s => (compAt (c :: s)).or (compFind s)

/-- `int(digits)` -/
def natOfDigits (s : Str) : Nat := s.foldl (fun n c => 10 * n + (c.toNat - '0'.toNat)) 0

/-- `self.compression`, `self.compression_opts` (corr_hdf5.py:50-68) -/
def compressionOf (compression : Option Str) : Except PyErr (Option (Str × Nat)) :=
  match compression with
  | none => .ok none
  | some s =>
    match compFind s with
    | none => .error .indexError
    | some (name, digits) =>
      if name ≠ c!"gzip" then .error .valueError
      else .ok (some (name, compressionLevel (natOfDigits digits)))

end SeisMIC
