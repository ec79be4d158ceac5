import Verif.Model.Db

/-!
# Model: correlation files on the disk and the context manager that opens and closes them

`with CorrelationDataBase(...) as cdb:` (db/corr_hdf5.py). Not modelled: locks of files that are
opened twice, and the garbage collector, which closes a file that nobody refers to any more.
-/

namespace SeisMIC

variable {ν δ : Type} [DecidableEq ν]

/-- the content of a file: options (dataset `co`) and correlations -/
structure CFile (ν δ : Type) where
  options : Option (Options ν)
  sets : List (HPath × δ)

/-- the datasets as in Model/Db.lean -/
def CFile.h5 (f : CFile ν δ) : H5 δ := ⟨f.options.isSome, f.sets⟩

/-- the files on the disk and the paths of the files that are open -/
structure Disk (ν δ : Type) where
  files : Str → Option (CFile ν δ)
  opened : List Str

/-- write a file -/
def Disk.put (d : Disk ν δ) (path : Str) (f : CFile ν δ) : Disk ν δ := { d with files := fun p => if p = path then some f else d.files p }

/-- `h5py.File(path, mode)` (corr_hdf5.py:49): the content afterwards -/
def h5Open (mode : Str) (f : Option (CFile ν δ)) : Except PyErr (CFile ν δ) :=
  if mode = c!"r" ∨ mode = c!"r+" then
    match f with
    | some f => .ok f
    | none => .error .fileNotFoundError
  else if mode = c!"w" then .ok ⟨none, []⟩
  else if mode = c!"w-" ∨ mode = c!"x" then
    match f with
    | some _ => .error .osError
    | none => .ok ⟨none, []⟩
  else if mode = c!"a" then .ok (f.getD ⟨none, []⟩)
  else .error .valueError

/-- the arguments of `CorrelationDataBase` (corr_hdf5.py:348-350) -/
structure DbArgs (ν : Type) where
  path : Str
  co : Option (Options ν)
  mode : Str
  compression : Option Str
  force : Bool

/-- mode and path that are used (corr_hdf5.py:401-411) -/
def DbArgs.mp (a : DbArgs ν) : Str × Str := openMode a.co.isSome a.mode a.force a.path

/-- what h5py does on writing to a file that was opened for reading: `none` if `add_correlation` or
`remove_data` only warn (corr_hdf5.py:139-142, 193-194) -/
structure ReadOnly where
  options : PyErr
  add : Option PyErr
  del : Option PyErr

/-- the check of the options (corr_hdf5.py:72-91): options cannot be written to a file opened for reading -/
def guardOptions (ro : ReadOnly) (a : DbArgs ν) (stored : Option (Options ν)) : Except PyErr (Option (Options ν)) :=
  if a.mp.1 = c!"r" ∧ a.co.isSome ∧ stored = none then .error ro.options else openGuard stored a.co a.force

/-- `DBHandler.__init__` and `__enter__` (corr_hdf5.py:48-91, 416-419): the file as it is at the
beginning of the block, and the disk afterwards. After an exception the file stays open. -/
def enter (ro : ReadOnly) (d : Disk ν δ) (a : DbArgs ν) : Except PyErr (CFile ν δ) × Disk ν δ :=
  match h5Open a.mp.1 (d.files a.mp.2) with
  | .error e => (.error e, d)
  | .ok f =>
    let d1 := { d.put a.mp.2 f with opened := a.mp.2 :: d.opened }
    match compressionOf a.compression with
    | .error e => (.error e, d1)
    | .ok _ =>
      match guardOptions ro a f.options with
      | .error e => (.error e, d1)
      | .ok o => (.ok { f with options := o }, d1.put a.mp.2 { f with options := o })

/-- a statement in the block -/
inductive DbOp (δ : Type) where
  | add (l : List (HPath × δ))
  | remove (net sta cha tag cst : Str)
  | read (net sta cha tag : Str) (cst cet : Option Str)
  /-- an exception of other code -/
  | raise (e : PyErr)

/-- one statement: the file afterwards and an exception. Simplified: a removal that fails with an
exception has removed nothing. -/
def DbOp.run (ro : ReadOnly) (writable : Bool) (f : CFile ν δ) : DbOp δ → CFile ν δ × Option PyErr
  | .add l => if writable then ({ f with sets := (f.h5.add l).sets }, none) else (f, ro.add)
  | .remove net sta cha tag cst =>
    match f.h5.removeData net sta cha tag cst with
    | .error e => (f, some e)
    | .ok g =>
      if writable then ({ f with sets := g.sets }, none)
      else if g.sets.length = f.sets.length then (f, none)
      else (f, ro.del)
  | .read net sta cha tag cst cet =>
    match f.h5.getData net sta cha tag cst cet with
    | .error e => (f, some e)
    | .ok _ => (f, none)
  | .raise e => (f, some e)

/-- the statements until the first exception -/
def runOps (ro : ReadOnly) (writable : Bool) : CFile ν δ → List (DbOp δ) → CFile ν δ × Option PyErr
  | f, [] => (f, none)
  | f, op :: ops =>
    match op.run ro writable f with
    | (g, none) => runOps ro writable g ops
    | (g, some e) => (g, some e)

/-- `with CorrelationDataBase(...) as cdb: ops` (corr_hdf5.py:416-424): the disk afterwards and the
exception that leaves the block. `__exit__` closes the file and does not suppress exceptions; it
is not called if `__enter__` fails. -/
def block (ro : ReadOnly) (d : Disk ν δ) (a : DbArgs ν) (ops : List (DbOp δ)) : Disk ν δ × Option PyErr :=
  match enter ro d a with
  | (.error e, d1) => (d1, some e)
  | (.ok f, d1) =>
    let r := runOps ro (decide (a.mp.1 ≠ c!"r")) f ops
    ({ d1.put a.mp.2 r.1 with opened := d1.opened.erase a.mp.2 }, r.2)

/-- several blocks, exceptions are caught -/
def blocks (ro : ReadOnly) : Disk ν δ → List (DbArgs ν × List (DbOp δ)) → Disk ν δ
  | d, [] => d
  | d, (a, ops) :: bs => blocks ro (block ro d a ops).1 bs

end SeisMIC
