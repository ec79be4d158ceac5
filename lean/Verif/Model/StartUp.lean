import Verif.Py.Basic

/-!
# Model: directories and files of the processes of a parallel run

What the MPI processes of `Correlator` and `Monitor` do with the file system and with each
other, as far as it matters for who finds which directory: a program is a list of actions,
and processes are interleaved in any order. A broadcast from process 0 lets the others pass
after process 0 has reached it; an `allgather` lets a process pass after all have reached it.
-/

namespace SeisMIC

/-- what a process does -/
inductive Act where
  /-- `os.makedirs(d, exist_ok=True)` -/
  | mkdir (d : Str)
  /-- open the file `f` in the directory `d` for writing; `FileNotFoundError` if there is no `d` -/
  | write (d f : Str)
  /-- `comm.bcast(x, root=0)` -/
  | bcast
  /-- `comm.allgather(x)` -/
  | gather
  deriving DecidableEq

/-- state of all processes and of the file system -/
structure Procs where
  dirs : List Str
  /-- files written, with the process, in the order of time -/
  written : List (Nat × Str × Str)
  /-- attempts to write into a directory that does not exist -/
  failed : List (Nat × Str × Str)
  /-- what is left to do for each process -/
  prog : Nat → List Act
  /-- number of broadcasts each process has passed -/
  bcasts : Nat → Nat
  /-- number of gathers each process has passed -/
  gathers : Nat → Nat

def Procs.init (dirs : List Str) (prog : Nat → List Act) : Procs :=
  { dirs := dirs, written := [], failed := [], prog := prog, bcasts := fun _ => 0, gathers := fun _ => 0 }

/-- has process `r'` reached the gather number `i`? -/
def Procs.reached (s : Procs) (i r' : Nat) : Bool :=
  decide (i < s.gathers r') || (decide (s.gathers r' = i) && decide ((s.prog r').head? = some Act.gather))

/-- can process `r` of `n` do its next action? -/
def Procs.enabled (n : Nat) (s : Procs) (r : Nat) : Bool :=
  match s.prog r with
  | [] => false
  | .bcast :: _ => decide (r = 0) || decide (s.bcasts r < s.bcasts 0)
  | .gather :: _ => (List.range n).all (s.reached (s.gathers r))
  | _ => true

/-- process `r` of `n` does its next action; nothing happens if it has to wait or is done -/
def Procs.step (n : Nat) (s : Procs) (r : Nat) : Procs :=
  if s.enabled n r then
    match s.prog r with
    | [] => s
    | .mkdir d :: l => { s with dirs := d :: s.dirs, prog := fun k => if k = r then l else s.prog k }
    | .write d f :: l =>
      if d ∈ s.dirs then { s with written := s.written ++ [(r, d, f)], prog := fun k => if k = r then l else s.prog k }
      else { s with failed := s.failed ++ [(r, d, f)], prog := fun k => if k = r then l else s.prog k }
    | .bcast :: l =>
      { s with bcasts := fun k => if k = r then s.bcasts r + 1 else s.bcasts k, prog := fun k => if k = r then l else s.prog k }
    | .gather :: l =>
      { s with gathers := fun k => if k = r then s.gathers r + 1 else s.gathers k, prog := fun k => if k = r then l else s.prog k }
  else s

/-- run the processes in the order `sched` -/
def Procs.run (n : Nat) (s : Procs) (sched : List Nat) : Procs := sched.foldl (Procs.step n) s

/-- decimal digits of a number, `str(k)` -/
def natStr (k : Nat) : Str := Nat.toDigits 10 k

/-- `str(rank).zfill(3)` (correlate.py:86, monitor.py:87, 94) -/
def rankStr (r : Nat) : Str := List.replicate (3 - (natStr r).length) '0' ++ natStr r

/-- `Correlator.__init__` (correlate.py:65-126): directories, the broadcast of the time, log
file and record of the options. `tstr` is the time of the start in minutes as text. The name of
the log file is only opened here, which also writes to it. -/
def correlatorInit (corrDir logDir tstr : Str) (r : Nat) : List Act :=
  (if r = 0 then [.mkdir corrDir, .mkdir logDir] else []) ++
  [.bcast, .write logDir (c!"correlate" ++ tstr ++ c!"rank" ++ rankStr r)] ++
  (if r = 0 then [.write logDir (c!"params" ++ tstr ++ c!".txt")] else [])

/-- `Monitor.__init__` (monitor.py:70-121); colons in the time are replaced before (monitor.py:85) -/
def monitorInit (outDir logDir tstr : Str) (r : Nat) : List Act :=
  (if r = 0 then [.mkdir outDir, .mkdir logDir] else []) ++
  [.bcast, .write logDir (c!"monitor" ++ tstr ++ c!"rank" ++ rankStr r)] ++
  (if r = 0 then [.write logDir (c!"params" ++ tstr ++ c!".txt")] else [])

/-- `Monitor.compute_velocity_change_bulk` (monitor.py:340-367): the list of combinations is
broadcast, each process saves the results of its own (`files r`). -/
def dvProgram (outDir : Str) (files : Nat → List Str) (r : Nat) : List Act :=
  .bcast :: (files r).map (Act.write outDir)

/-- `Monitor.compute_waveform_coherence` (monitor.py:604-607, 695-701) for one combination with
`save_comps`: process 0 creates the directory for the results, and the process saves `files` -/
def wfcActs (outDir : Str) (r : Nat) (files : List Str) : List Act :=
  (if r = 0 then [.mkdir outDir] else []) ++ files.map (Act.write outDir)

/-- `Monitor.compute_waveform_coherence_bulk` (monitor.py:493-560): `jobs r` are the files of
each combination of process `r`; then the results are exchanged and all processes save all averages. -/
def wfcProgram (outDir : Str) (jobs : Nat → List (List Str)) (averages : List Str) (r : Nat) : List Act :=
  .bcast :: ((jobs r).flatMap (wfcActs outDir r) ++ .gather :: averages.map (Act.write outDir))

end SeisMIC
