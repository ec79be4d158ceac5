import Verif.Model.StartUp
import Mathlib.Data.List.Basic
import Mathlib.Tactic.SplitIfs
import Mathlib.Tactic.Common
import Mathlib.Order.Nat
import Mathlib.Algebra.Order.BigOperators.Group.List
import Mathlib.Algebra.Order.Group.Nat
import Mathlib.Order.Basic
import Mathlib.Data.Nat.Find

/-!
# C149: directories exist before they are used, by any number of processes
-/

namespace SeisMIC

/-! ### One step -/

/-- the processes other than `r` keep their programs -/
theorem step_prog_other (n : Nat) (s : Procs) {r k : Nat} (hk : k ≠ r) : (s.step n r).prog k = s.prog k := by
  unfold Procs.step
  split
  · split <;> try rfl
    all_goals (try split)
    all_goals simp [hk]
  · rfl

theorem step_prog_self (n : Nat) (s : Procs) (r : Nat) :
    (s.step n r).prog r = if s.enabled n r then (s.prog r).tail else s.prog r := by
  unfold Procs.step
  split
  · split <;> rename_i h <;> try simp [h]
    all_goals (split <;> simp)
  · rfl

theorem step_dirs_mono (n : Nat) (s : Procs) (r : Nat) {d : Str} (h : d ∈ s.dirs) : d ∈ (s.step n r).dirs := by
  unfold Procs.step
  split
  · split <;> try exact h
    · exact List.mem_cons_of_mem _ h
    · split <;> exact h
  · exact h

/-! ### Directories -/

/-- a program that writes into `d` only after a broadcast -/
def waits (d : Str) : List Act → Prop
  | [] => True
  | .bcast :: _ => True
  | .write d' _ :: l => d' ≠ d ∧ waits d l
  | .mkdir _ :: l => waits d l
  | .gather :: l => waits d l

/-- a program that creates `d` before it writes into it and before it takes part in a broadcast -/
def provides (d : Str) : List Act → Prop
  | [] => True
  | .bcast :: _ => False
  | .write d' _ :: l => d' ≠ d ∧ provides d l
  | .mkdir d' :: l => d' = d ∨ provides d l
  | .gather :: l => provides d l

/-- `d` exists, or nobody can use it yet -/
def SafeDir (d : Str) (s : Procs) : Prop :=
  d ∈ s.dirs ∨ (s.bcasts 0 = 0 ∧ provides d (s.prog 0) ∧ ∀ r, r ≠ 0 → waits d (s.prog r))

theorem step_safe {n : Nat} {d : Str} {s : Procs} (r : Nat) (hs : SafeDir d s) (hf : ∀ x ∈ s.failed, x.2.1 ≠ d) :
    SafeDir d (s.step n r) ∧ ∀ x ∈ (s.step n r).failed, x.2.1 ≠ d := by
  by_cases hd : d ∈ s.dirs
  · refine ⟨Or.inl (step_dirs_mono n s r hd), ?_⟩
    unfold Procs.step
    split
    · split <;> try exact hf
      split
      · exact hf
      · rename_i h
        intro x hx
        rcases List.mem_append.1 hx with hx | hx
        · exact hf x hx
        · rw [List.mem_singleton] at hx
          subst hx
          intro he
          dsimp only at he
          exact h (by rw [he]; exact hd)
    · exact hf
  · rcases hs with hs | ⟨h0, hp, hw⟩
    · exact absurd hs hd
    by_cases hen : s.enabled n r = true
    swap
    · have : s.step n r = s := by unfold Procs.step; rw [if_neg hen]
      rw [this]; exact ⟨Or.inr ⟨h0, hp, hw⟩, hf⟩
    -- the step is done
    have hown : ∀ a l, s.prog r = a :: l → (s.step n r).prog r = l := by
      intro a l h
      rw [step_prog_self, if_pos hen, h]; rfl
    cases hl : s.prog r with
    | nil => rw [Procs.enabled, hl] at hen; cases hen
    | cons a l =>
      have hl' := hown a l hl
      cases a with
      | mkdir d' =>
        have hst : (s.step n r).dirs = d' :: s.dirs ∧ (s.step n r).failed = s.failed ∧ (s.step n r).bcasts = s.bcasts := by
          unfold Procs.step; rw [if_pos hen, hl]; exact ⟨rfl, rfl, rfl⟩
        refine ⟨?_, by rw [hst.2.1]; exact hf⟩
        by_cases hdd : d' = d
        · left; rw [hst.1, hdd]; exact List.mem_cons_self
        · right
          refine ⟨by rw [hst.2.2]; exact h0, ?_, ?_⟩
          · by_cases hr : r = 0
            · subst hr
              rw [hl'] ; rw [hl] at hp
              exact hp.resolve_left hdd
            · rw [step_prog_other n s (Ne.symm hr)]; exact hp
          · intro k hk
            by_cases hkr : k = r
            · subst hkr; rw [hl']; have := hw k hk; rw [hl] at this; exact this
            · rw [step_prog_other n s hkr]; exact hw k hk
      | write d' f =>
        have hne : d' ≠ d := by
          by_cases hr : r = 0
          · subst hr; rw [hl] at hp; exact hp.1
          · have := hw r hr; rw [hl] at this; exact this.1
        have hst : (s.step n r).dirs = s.dirs ∧ (s.step n r).bcasts = s.bcasts ∧ ∀ x ∈ (s.step n r).failed, x.2.1 ≠ d := by
          unfold Procs.step
          rw [if_pos hen, hl]
          dsimp only
          split
          · exact ⟨rfl, rfl, hf⟩
          · refine ⟨rfl, rfl, ?_⟩
            intro x hx
            rcases List.mem_append.1 hx with hx | hx
            · exact hf x hx
            · rw [List.mem_singleton] at hx; subst hx; exact hne
        refine ⟨Or.inr ⟨by rw [hst.2.1]; exact h0, ?_, ?_⟩, hst.2.2⟩
        · by_cases hr : r = 0
          · subst hr; rw [hl']; rw [hl] at hp; exact hp.2
          · rw [step_prog_other n s (Ne.symm hr)]; exact hp
        · intro k hk
          by_cases hkr : k = r
          · subst hkr; rw [hl']; have := hw k hk; rw [hl] at this; exact this.2
          · rw [step_prog_other n s hkr]; exact hw k hk
      | bcast =>
        exfalso
        by_cases hr : r = 0
        · subst hr; rw [hl] at hp; exact hp
        · rw [Procs.enabled, hl] at hen
          simp [hr, h0] at hen
      | gather =>
        have hst : (s.step n r).dirs = s.dirs ∧ (s.step n r).bcasts = s.bcasts ∧ (s.step n r).failed = s.failed := by
          unfold Procs.step; rw [if_pos hen, hl]; exact ⟨rfl, rfl, rfl⟩
        refine ⟨Or.inr ⟨by rw [hst.2.1]; exact h0, ?_, ?_⟩, by rw [hst.2.2]; exact hf⟩
        · by_cases hr : r = 0
          · subst hr; rw [hl']; rw [hl] at hp; exact hp
          · rw [step_prog_other n s (Ne.symm hr)]; exact hp
        · intro k hk
          by_cases hkr : k = r
          · subst hkr; rw [hl']; have := hw k hk; rw [hl] at this; exact this
          · rw [step_prog_other n s hkr]; exact hw k hk

theorem run_safe {n : Nat} {d : Str} (sched : List Nat) : ∀ {s : Procs}, SafeDir d s → (∀ x ∈ s.failed, x.2.1 ≠ d) →
    ∀ x ∈ (s.run n sched).failed, x.2.1 ≠ d := by
  induction sched with
  | nil => intro s _ hf; exact hf
  | cons r l ih =>
    intro s hs hf
    have := step_safe (n := n) r hs hf
    exact ih this.1 this.2

/-- The processes only try to write into directories for which it is safe. -/
theorem step_failed_dirs (n : Nat) (s : Procs) (r : Nat) (P : Str → Prop) (hp : ∀ k d f, Act.write d f ∈ s.prog k → P d)
    (hf : ∀ x ∈ s.failed, P x.2.1) :
    (∀ k d f, Act.write d f ∈ (s.step n r).prog k → P d) ∧ ∀ x ∈ (s.step n r).failed, P x.2.1 := by
  constructor
  · intro k d f h
    by_cases hk : k = r
    · subst hk
      rw [step_prog_self] at h
      split at h
      · exact hp k d f (List.mem_of_mem_tail h)
      · exact hp k d f h
    · rw [step_prog_other n s hk] at h; exact hp k d f h
  · unfold Procs.step
    split
    · split <;> try exact hf
      split
      · exact hf
      · rename_i h _
        intro x hx
        rcases List.mem_append.1 hx with hx | hx
        · exact hf x hx
        · rw [List.mem_singleton] at hx; subst hx
          exact hp r _ _ (by rw [h]; exact List.mem_cons_self)
    · exact hf

theorem run_failed_dirs (n : Nat) (P : Str → Prop) (sched : List Nat) : ∀ (s : Procs), (∀ k d f, Act.write d f ∈ s.prog k → P d) →
    (∀ x ∈ s.failed, P x.2.1) → ∀ x ∈ (s.run n sched).failed, P x.2.1 := by
  induction sched with
  | nil => intro s _ hf; exact hf
  | cons r l ih =>
    intro s hp hf
    have := step_failed_dirs n s r P hp hf
    exact ih _ this.1 this.2

/-- if all directories that are used are safe, nothing fails -/
theorem run_no_failure {n : Nat} (dirs : List Str) (prog : Nat → List Act) (sched : List Nat)
    (h : ∀ k d f, Act.write d f ∈ prog k → d ∈ dirs ∨ (provides d (prog 0) ∧ ∀ r, r ≠ 0 → waits d (prog r))) :
    ((Procs.init dirs prog).run n sched).failed = [] := by
  rw [List.eq_nil_iff_forall_not_mem]
  intro x hx
  have hP := run_failed_dirs n (fun d => ∃ k f, Act.write d f ∈ prog k) sched (Procs.init dirs prog)
    (fun k d f hm => ⟨k, f, hm⟩) (by simp [Procs.init]) x hx
  obtain ⟨k, f, hm⟩ := hP
  have hs : SafeDir x.2.1 (Procs.init dirs prog) := by
    rcases h k x.2.1 f hm with h | h
    · exact Or.inl h
    · exact Or.inr ⟨rfl, h⟩
  exact run_safe sched hs (by simp [Procs.init]) x hx rfl

/-! ### C149: no file is opened in a missing directory -/

/-- **C149** (correlations) Whatever number of processes there is and in whatever order they proceed: if after the start they write only into the
directories for correlations and for logs, none of them ever finds its directory missing, although only one process creates the directories. -/
theorem c149_correlator (n : Nat) (dirs : List Str) (corrDir logDir tstr : Str) (rest : Nat → List Act)
    (hrest : ∀ k d f, Act.write d f ∈ rest k → d = corrDir ∨ d = logDir) (sched : List Nat) :
    ((Procs.init dirs fun r => correlatorInit corrDir logDir tstr r ++ rest r).run n sched).failed = [] := by
  apply run_no_failure
  intro k d f hm
  right
  have hd : d = corrDir ∨ d = logDir := by
    rcases List.mem_append.1 hm with hm | hm
    · right
      unfold correlatorInit at hm
      split at hm <;> simp at hm
      · rcases hm with hm | hm <;> exact hm.1
      · exact hm.1
    · exact hrest k d f hm
  constructor
  · simp only [correlatorInit, if_true, List.cons_append, List.nil_append, provides]
    rcases hd with h | h
    · exact Or.inl h.symm
    · exact Or.inr (Or.inl h.symm)
  · intro r hr
    simp only [correlatorInit, if_neg hr, List.cons_append, List.nil_append, waits]

/-- **C149** (velocity changes) The same for the computation of velocity changes. -/
theorem c149_monitor (n : Nat) (dirs : List Str) (outDir logDir tstr : Str) (files : Nat → List Str) (sched : List Nat) :
    ((Procs.init dirs fun r => monitorInit outDir logDir tstr r ++ dvProgram outDir files r).run n sched).failed = [] := by
  apply run_no_failure
  intro k d f hm
  right
  have hd : d = outDir ∨ d = logDir := by
    rcases List.mem_append.1 hm with hm | hm
    · right
      unfold monitorInit at hm
      split at hm <;> simp at hm
      · rcases hm with hm | hm <;> exact hm.1
      · exact hm.1
    · left
      simp [dvProgram] at hm
      exact hm.2.symm
  constructor
  · simp only [monitorInit, if_true, List.cons_append, List.nil_append, provides]
    rcases hd with h | h
    · exact Or.inl h.symm
    · exact Or.inr (Or.inl h.symm)
  · intro r hr
    simp only [monitorInit, if_neg hr, List.cons_append, List.nil_append, waits]

/-- **C149** (waveform coherence) With the directory for the results existing from the start, nothing fails.
Missing: the case that it does not, see `c149_wfc_violated`. -/
theorem c149_wfc_partial (n : Nat) (dirs : List Str) (outDir logDir wfcDir tstr : Str) (jobs : Nat → List (List Str)) (averages : List Str)
    (hdir : wfcDir ∈ dirs) (sched : List Nat) :
    ((Procs.init dirs fun r => monitorInit outDir logDir tstr r ++ wfcProgram wfcDir jobs averages r).run n sched).failed = [] := by
  apply run_no_failure
  intro k d f hm
  rcases List.mem_append.1 hm with hm | hm
  · right
    have hd : d = logDir := by
      unfold monitorInit at hm
      split at hm <;> simp at hm
      · rcases hm with hm | hm <;> exact hm.1
      · exact hm.1
    constructor
    · simp only [monitorInit, if_true, List.cons_append, List.nil_append, provides]
      exact Or.inr (Or.inl hd.symm)
    · intro r hr
      simp only [monitorInit, if_neg hr, List.cons_append, List.nil_append, waits]
  · left
    have : d = wfcDir := by
      simp only [wfcProgram, List.mem_cons, List.mem_append, List.mem_flatMap, List.mem_map, wfcActs] at hm
      rcases hm with hm | ⟨job, _, hm⟩ | hm | ⟨_, _, hm⟩
      · cases hm
      · rcases hm with hm | ⟨_, _, hm⟩
        · split at hm <;> simp at hm
        · cases hm; rfl
      · cases hm
      · cases hm; rfl
    rw [this]; exact hdir

/-- **C149** is violated by the waveform coherence: the directory for its results is created by process 0 when it computes its own first combination,
and nobody waits for that. If process 1 is faster, its results are lost (the exception is caught and the result is not handed on). -/
theorem c149_wfc_violated (outDir logDir wfcDir tstr f g : Str) (hne : wfcDir ≠ outDir) (hne' : wfcDir ≠ logDir) :
    ∃ sched, (1, wfcDir, g) ∈ ((Procs.init [] fun r =>
      monitorInit outDir logDir tstr r ++ wfcProgram wfcDir (fun r => if r = 0 then [[f]] else [[g]]) [] r).run 2 sched).failed := by
  refine ⟨[0, 0, 0, 0, 0, 0, 1, 1, 1, 1], ?_⟩
  simp [Procs.run, Procs.step, Procs.enabled, Procs.init, monitorInit, wfcProgram, wfcActs, hne, hne']

/-! ### The run does not get stuck -/

/-- is the action a call in which all processes take part? -/
def Act.isColl : Act → Bool
  | .bcast => true
  | .gather => true
  | _ => false

/-- the calls that are left to a process in which all take part -/
def collLeft (s : Procs) (r : Nat) : List Act := (s.prog r).filter Act.isColl

/-- the processes follow the same list of collective calls `C`, each is at some place of it -/
structure InStep (n : Nat) (C : List Act) (s : Procs) : Prop where
  left : ∀ r < n, collLeft s r = C.drop (s.bcasts r + s.gathers r)
  le : ∀ r < n, s.bcasts r + s.gathers r ≤ C.length
  bc : ∀ r < n, s.bcasts r = (C.take (s.bcasts r + s.gathers r)).count .bcast

theorem inStep_init {n : Nat} (dirs : List Str) (prog : Nat → List Act) (C : List Act) (h : ∀ r < n, (prog r).filter Act.isColl = C) :
    InStep n C (Procs.init dirs prog) := by
  refine ⟨fun r hr => ?_, fun r _ => ?_, fun r _ => ?_⟩ <;> simp [Procs.init, collLeft]
  exact h r hr

theorem step_other_counts (n : Nat) (s : Procs) {r k : Nat} (hk : k ≠ r) :
    (s.step n r).bcasts k = s.bcasts k ∧ (s.step n r).gathers k = s.gathers k := by
  unfold Procs.step
  split
  · split <;> try exact ⟨rfl, rfl⟩
    · split <;> exact ⟨rfl, rfl⟩
    · simp [hk]
    · simp [hk]
  · exact ⟨rfl, rfl⟩

theorem step_inStep {n : Nat} {C : List Act} {s : Procs} (h : InStep n C s) (r : Nat) : InStep n C (s.step n r) := by
  by_cases hen : s.enabled n r = true
  swap
  · have : s.step n r = s := by unfold Procs.step; rw [if_neg hen]
    rw [this]; exact h
  have key : r < n → collLeft (s.step n r) r = C.drop ((s.step n r).bcasts r + (s.step n r).gathers r) ∧
      (s.step n r).bcasts r + (s.step n r).gathers r ≤ C.length ∧
      (s.step n r).bcasts r = (C.take ((s.step n r).bcasts r + (s.step n r).gathers r)).count .bcast := by
    intro hr
    have hself := step_prog_self n s r
    rw [if_pos hen] at hself
    have h1 := h.left r hr; have h2 := h.le r hr; have h3 := h.bc r hr
    cases hl : s.prog r with
    | nil => rw [Procs.enabled, hl] at hen; cases hen
    | cons a l =>
      rw [hl, List.tail_cons] at hself
      have hleft : collLeft (s.step n r) r = l.filter Act.isColl := by rw [collLeft, hself]
      rw [collLeft, hl] at h1
      by_cases hc : a.isColl = true
      · rw [List.filter_cons_of_pos hc] at h1
        have hlt : s.bcasts r + s.gathers r < C.length := by
          by_contra hge
          rw [List.drop_eq_nil_of_le (by omega)] at h1
          cases h1
        rw [List.drop_eq_getElem_cons hlt, List.cons.injEq] at h1
        have hcount : (s.step n r).bcasts r + (s.step n r).gathers r = s.bcasts r + s.gathers r + 1 ∧
            (s.step n r).bcasts r = s.bcasts r + if a = .bcast then 1 else 0 := by
          unfold Procs.step
          rw [if_pos hen, hl]
          cases a with
          | mkdir => simp [Act.isColl] at hc
          | write => simp [Act.isColl] at hc
          | bcast => simp; omega
          | gather => simp; omega
        refine ⟨by rw [hleft, h1.2, hcount.1], by omega, ?_⟩
        rw [hcount.1, hcount.2, List.take_add_one, List.getElem?_eq_getElem hlt, List.count_append, ← h3, ← h1.1]
        by_cases ha : a = .bcast
        · simp [ha]
        · simp [ha]
      · rw [List.filter_cons_of_neg hc] at h1
        have hcount : (s.step n r).bcasts r = s.bcasts r ∧ (s.step n r).gathers r = s.gathers r := by
          unfold Procs.step
          rw [if_pos hen, hl]
          cases a with
          | mkdir => exact ⟨rfl, rfl⟩
          | write => dsimp only; split <;> exact ⟨rfl, rfl⟩
          | bcast => simp [Act.isColl] at hc
          | gather => simp [Act.isColl] at hc
        rw [hcount.1, hcount.2]
        exact ⟨by rw [hleft, h1], h2, h3⟩
  refine ⟨fun k hk => ?_, fun k hk => ?_, fun k hk => ?_⟩
  all_goals
    by_cases hkr : k = r
    · subst hkr
      first | exact (key hk).1 | exact (key hk).2.1 | exact (key hk).2.2
    · have h1 := step_other_counts n s hkr
      rw [h1.1, h1.2]
      first
      | (rw [collLeft, step_prog_other n s hkr]; exact h.left k hk)
      | exact h.le k hk
      | exact h.bc k hk

/-- some process can go on as long as not all are done -/
theorem inStep_progress {n : Nat} {C : List Act} {s : Procs} (h : InStep n C s) (hne : ∃ r < n, s.prog r ≠ []) :
    ∃ r < n, s.enabled n r = true := by
  by_contra hno
  push Not at hno
  -- what stops a process is a collective call
  have hhead : ∀ r < n, s.prog r ≠ [] → ∃ a l, s.prog r = a :: l ∧ a.isColl = true := by
    intro r hr hnil
    cases hl : s.prog r with
    | nil => exact absurd hl hnil
    | cons a l =>
      refine ⟨a, l, rfl, ?_⟩
      have := hno r hr
      rw [Procs.enabled, hl] at this
      cases a <;> simp_all [Act.isColl]
  -- take one that is least far
  have hex : ∃ m, ∃ r < n, s.prog r ≠ [] ∧ s.bcasts r + s.gathers r = m := by
    obtain ⟨r, hr, hnil⟩ := hne; exact ⟨_, r, hr, hnil, rfl⟩
  classical
  obtain ⟨r, hr, hnil, hm⟩ := Nat.find_spec hex
  have hmin : ∀ k < n, s.prog k ≠ [] → s.bcasts r + s.gathers r ≤ s.bcasts k + s.gathers k := by
    intro k hk hkn
    rw [hm]
    exact Nat.find_min' hex ⟨k, hk, hkn, rfl⟩
  obtain ⟨a, l, hl, ha⟩ := hhead r hr hnil
  have hlt : s.bcasts r + s.gathers r < C.length := by
    by_contra hge
    have := h.left r hr
    rw [List.drop_eq_nil_of_le (by omega), collLeft, hl, List.filter_cons_of_pos ha] at this
    cases this
  have haC : a = C[s.bcasts r + s.gathers r] := by
    have := h.left r hr
    rw [collLeft, hl, List.filter_cons_of_pos ha, List.drop_eq_getElem_cons hlt, List.cons.injEq] at this
    exact this.1
  -- those that are done are farther
  have hmin' : ∀ k < n, s.bcasts r + s.gathers r ≤ s.bcasts k + s.gathers k := by
    intro k hk
    by_cases hkn : s.prog k = []
    · have h1 := h.left k hk
      rw [collLeft, hkn, List.filter_nil] at h1
      have : C.length ≤ s.bcasts k + s.gathers k := List.drop_eq_nil_iff.1 h1.symm
      omega
    · exact hmin k hk hkn
  -- those equally far wait for the same call
  have hsame : ∀ k < n, s.bcasts k + s.gathers k = s.bcasts r + s.gathers r → ∃ l', s.prog k = a :: l' := by
    intro k hk he
    have h1 := h.left k hk
    rw [he, List.drop_eq_getElem_cons hlt, ← haC] at h1
    have hkn : s.prog k ≠ [] := by
      intro h0
      rw [collLeft, h0] at h1
      cases h1
    obtain ⟨b, l', hb, hbc⟩ := hhead k hk hkn
    rw [collLeft, hb, List.filter_cons_of_pos hbc, List.cons.injEq] at h1
    exact ⟨l', by rw [hb, h1.1]⟩
  have hcountlt : ∀ k < n, s.bcasts r + s.gathers r < s.bcasts k + s.gathers k →
      (a = .bcast → s.bcasts r < s.bcasts k) ∧ (a = .gather → s.gathers r < s.gathers k) := by
    intro k hk hlt'
    have e1 := h.bc r hr; have e2 := h.bc k hk
    have hpre : C.take (s.bcasts k + s.gathers k) = C.take (s.bcasts r + s.gathers r) ++ a :: (C.take (s.bcasts k + s.gathers k)).drop (s.bcasts r + s.gathers r + 1) := by
      have hlt2 : s.bcasts r + s.gathers r < (C.take (s.bcasts k + s.gathers k)).length := by
        rw [List.length_take]; omega
      conv_lhs => rw [← List.take_append_drop (s.bcasts r + s.gathers r) (C.take (s.bcasts k + s.gathers k))]
      rw [List.take_take, Nat.min_eq_left (by omega), List.drop_eq_getElem_cons hlt2, List.getElem_take, ← haC]
    have hb : s.bcasts k = s.bcasts r + (a :: (C.take (s.bcasts k + s.gathers k)).drop (s.bcasts r + s.gathers r + 1)).count .bcast := by
      conv_lhs => rw [e2, hpre]
      rw [List.count_append, ← e1]
    constructor
    · intro ha'
      rw [hb, ha', List.count_cons_self]; omega
    · intro ha'
      rw [ha', List.count_cons_of_ne (by decide)] at hb
      have hle := List.count_le_length (a := Act.bcast) (l := (C.take (s.bcasts k + s.gathers k)).drop (s.bcasts r + s.gathers r + 1))
      rw [List.length_drop, List.length_take] at hle
      have := h.le k hk
      omega
  refine hno r hr ?_
  rw [Procs.enabled, hl]
  cases a with
  | mkdir => simp [Act.isColl] at ha
  | write => simp [Act.isColl] at ha
  | bcast =>
    by_cases hr0 : r = 0
    · simp [hr0]
    · have h0n : 0 < n := by omega
      rcases Nat.lt_or_ge (s.bcasts r + s.gathers r) (s.bcasts 0 + s.gathers 0) with hlt' | hge
      · simp [(hcountlt 0 h0n hlt').1 rfl]
      · obtain ⟨l', h'⟩ := hsame 0 h0n (by have := hmin' 0 h0n; omega)
        exfalso
        refine hno 0 h0n ?_
        rw [Procs.enabled, h']; rfl
  | gather =>
    simp only [List.all_eq_true, List.mem_range]
    intro k hk
    rw [Procs.reached]
    rcases Nat.lt_or_ge (s.bcasts r + s.gathers r) (s.bcasts k + s.gathers k) with hlt' | hge
    · simp [(hcountlt k hk hlt').2 rfl]
    · have he : s.bcasts k + s.gathers k = s.bcasts r + s.gathers r := by have := hmin' k hk; omega
      obtain ⟨l', h'⟩ := hsame k hk he
      have e1 := h.bc r hr; have e2 := h.bc k hk
      rw [he, ← e1] at e2
      have : s.gathers k = s.gathers r := by omega
      simp [this, h']

/-- number of actions that are left -/
def actsLeft (n : Nat) (s : Procs) : Nat := ((List.range n).map fun r => (s.prog r).length).sum

theorem sum_lt_of_one {f g : Nat → Nat} {n r : Nat} (hr : r < n) (hlt : g r < f r) (heq : ∀ k, k ≠ r → g k = f k) :
    ((List.range n).map g).sum < ((List.range n).map f).sum := by
  induction n with
  | zero => omega
  | succ n ih =>
    rw [List.range_succ, List.map_append, List.map_append, List.sum_append, List.sum_append]
    simp only [List.map_cons, List.map_nil, List.sum_cons, List.sum_nil, Nat.add_zero]
    by_cases h : r = n
    · subst h
      have : (List.range r).map g = (List.range r).map f := by
        apply List.map_congr_left
        intro k hk
        exact heq k (by have := List.mem_range.1 hk; omega)
      rw [this]; omega
    · have := ih (by omega)
      rw [heq n (fun e => h e.symm)]; omega

theorem step_actsLeft {n : Nat} {s : Procs} {r : Nat} (hr : r < n) (hen : s.enabled n r = true) : actsLeft n (s.step n r) < actsLeft n s := by
  unfold actsLeft
  refine sum_lt_of_one hr ?_ (fun k hk => by rw [step_prog_other n s hk])
  rw [step_prog_self, if_pos hen]
  cases hl : s.prog r with
  | nil => rw [Procs.enabled, hl] at hen; cases hen
  | cons a l => simp

theorem inStep_finish {n : Nat} {C : List Act} : ∀ (m : Nat) (s : Procs), InStep n C s → actsLeft n s ≤ m →
    ∃ sched, ∀ r < n, (s.run n sched).prog r = [] := by
  intro m
  induction m with
  | zero =>
    intro s _ h0
    refine ⟨[], ?_⟩
    intro r hr
    by_contra hne
    have hmem : (s.prog r).length ∈ (List.range n).map fun r => (s.prog r).length := List.mem_map.2 ⟨r, List.mem_range.2 hr, rfl⟩
    have := List.single_le_sum (fun _ _ => Nat.zero_le _) _ hmem
    have h0' : actsLeft n s = 0 := by omega
    rw [actsLeft] at h0'
    have : (s.prog r).length = 0 := by omega
    exact hne (List.length_eq_zero_iff.1 this)
  | succ m ih =>
    intro s hs hle
    by_cases hdone : ∀ r < n, s.prog r = []
    · exact ⟨[], hdone⟩
    · push Not at hdone
      obtain ⟨r, hr, hen⟩ := inStep_progress hs hdone
      have hlt := step_actsLeft hr hen
      obtain ⟨sched, h⟩ := ih (s.step n r) (step_inStep hs r) (by omega)
      exact ⟨r :: sched, h⟩

theorem run_inStep {n : Nat} {C : List Act} (sched : List Nat) : ∀ {s : Procs}, InStep n C s → InStep n C (s.run n sched) := by
  induction sched with
  | nil => intro s h; exact h
  | cons r l ih => intro s h; exact ih (step_inStep h r)

/-- **C149** (no process is stuck) In whatever order the processes have proceeded so far, the run can be completed, if all take part in the same
collective calls. -/
theorem c149_completes (n : Nat) (dirs : List Str) (prog : Nat → List Act) (C : List Act) (hC : ∀ r < n, (prog r).filter Act.isColl = C)
    (sched : List Nat) : ∃ more, ∀ r < n, ((Procs.init dirs prog).run n (sched ++ more)).prog r = [] := by
  obtain ⟨more, h⟩ := inStep_finish _ _ (run_inStep sched (inStep_init dirs prog C hC)) le_rfl
  refine ⟨more, fun r hr => ?_⟩
  rw [Procs.run, List.foldl_append]
  exact h r hr

theorem filter_writes (d : Str) (l : List Str) : (l.map (Act.write d)).filter Act.isColl = [] := by
  rw [List.filter_eq_nil_iff]
  intro a ha
  obtain ⟨f, _, rfl⟩ := List.mem_map.1 ha
  simp [Act.isColl]

theorem filter_monitorInit (outDir logDir tstr : Str) (r : Nat) : (monitorInit outDir logDir tstr r).filter Act.isColl = [.bcast] := by
  unfold monitorInit
  split <;> rfl

/-- **C149** (velocity changes) In particular, the computation of velocity changes never gets stuck. -/
theorem c149_monitor_completes (n : Nat) (dirs : List Str) (outDir logDir tstr : Str) (files : Nat → List Str) (sched : List Nat) :
    ∃ more, ∀ r < n, ((Procs.init dirs fun r => monitorInit outDir logDir tstr r ++ dvProgram outDir files r).run n (sched ++ more)).prog r = [] := by
  refine c149_completes n dirs _ [.bcast, .bcast] ?_ sched
  intro r _
  rw [List.filter_append, filter_monitorInit, dvProgram, List.filter_cons_of_pos rfl, filter_writes]
  rfl

/-- **C149** (waveform coherence) Neither does that of the waveform coherence. -/
theorem c149_wfc_completes (n : Nat) (dirs : List Str) (outDir logDir wfcDir tstr : Str) (jobs : Nat → List (List Str)) (averages : List Str)
    (sched : List Nat) :
    ∃ more, ∀ r < n, ((Procs.init dirs fun r =>
      monitorInit outDir logDir tstr r ++ wfcProgram wfcDir jobs averages r).run n (sched ++ more)).prog r = [] := by
  refine c149_completes n dirs _ [.bcast, .bcast, .gather] ?_ sched
  intro r _
  have hjobs : ((jobs r).flatMap (wfcActs wfcDir r)).filter Act.isColl = [] := by
    rw [List.filter_eq_nil_iff]
    intro a ha
    obtain ⟨job, _, ha⟩ := List.mem_flatMap.1 ha
    unfold wfcActs at ha
    rcases List.mem_append.1 ha with ha | ha
    · split at ha <;> simp at ha
      simp [ha, Act.isColl]
    · obtain ⟨f, _, rfl⟩ := List.mem_map.1 ha
      simp [Act.isColl]
  rw [List.filter_append, filter_monitorInit, wfcProgram, List.filter_cons_of_pos rfl, List.filter_append, hjobs, List.filter_cons_of_pos rfl, filter_writes]
  rfl

/-! ### Log files -/

theorem natStr_inj {a b : Nat} (h : natStr a = natStr b) : a = b := by
  unfold natStr at h
  rw [← Nat.ofDigitChars_toDigits (b := 10) (n := a) (by decide) (by decide), h, Nat.ofDigitChars_toDigits (by decide) (by decide)]

theorem ofDigitChars_zeros (k : Nat) (l : Str) : Nat.ofDigitChars 10 (List.replicate k '0' ++ l) 0 = Nat.ofDigitChars 10 l 0 := by
  induction k with
  | zero => rfl
  | succ k ih =>
    rw [List.replicate_succ, List.cons_append, Nat.ofDigitChars_cons]
    exact ih

theorem rankStr_inj {a b : Nat} (h : rankStr a = rankStr b) : a = b := by
  have h' := congrArg (fun l => Nat.ofDigitChars 10 l 0) h
  simp only [rankStr, ofDigitChars_zeros] at h'
  unfold natStr at h'
  rwa [Nat.ofDigitChars_toDigits (by decide) (by decide), Nat.ofDigitChars_toDigits (by decide) (by decide)] at h'

/-- what a process writes comes from its program -/
theorem run_written (n : Nat) (prog : Nat → List Act) (sched : List Nat) : ∀ (s : Procs), (∀ k a, a ∈ s.prog k → a ∈ prog k) →
    (∀ x ∈ s.written, Act.write x.2.1 x.2.2 ∈ prog x.1) → ∀ x ∈ (s.run n sched).written, Act.write x.2.1 x.2.2 ∈ prog x.1 := by
  induction sched with
  | nil => intro s _ h; exact h
  | cons r l ih =>
    intro s hp hw
    refine ih (s.step n r) ?_ ?_
    · intro k a ha
      by_cases hk : k = r
      · subst hk
        rw [step_prog_self] at ha
        split at ha
        · exact hp k a (List.mem_of_mem_tail ha)
        · exact hp k a ha
      · rw [step_prog_other n s hk] at ha; exact hp k a ha
    · unfold Procs.step
      split
      · split <;> try exact hw
        split
        · rename_i h _
          intro x hx
          rcases List.mem_append.1 hx with hx | hx
          · exact hw x hx
          · rw [List.mem_singleton] at hx; subst hx
            exact hp r _ (by rw [h]; exact List.mem_cons_self)
        · exact hw
      · exact hw

/-- **C149** (log files) In the directory of the logs, no file is ever written by two processes. -/
theorem c149_log_files (n : Nat) (dirs : List Str) (outDir logDir tstr : Str) (hne : outDir ≠ logDir) (files : Nat → List Str) (sched : List Nat)
    (r r' : Nat) (f : Str)
    (h : (r, logDir, f) ∈ ((Procs.init dirs fun r => monitorInit outDir logDir tstr r ++ dvProgram outDir files r).run n sched).written)
    (h' : (r', logDir, f) ∈ ((Procs.init dirs fun r => monitorInit outDir logDir tstr r ++ dvProgram outDir files r).run n sched).written) :
    r = r' := by
  have key := run_written n (fun r => monitorInit outDir logDir tstr r ++ dvProgram outDir files r) sched
    (Procs.init dirs fun r => monitorInit outDir logDir tstr r ++ dvProgram outDir files r) (fun k a ha => ha) (by simp [Procs.init])
  have hname : ∀ k, (k, logDir, f) ∈ ((Procs.init dirs fun r => monitorInit outDir logDir tstr r ++ dvProgram outDir files r).run n sched).written →
      f = c!"monitor" ++ tstr ++ c!"rank" ++ rankStr k ∨ (k = 0 ∧ f = c!"params" ++ tstr ++ c!".txt") := by
    intro k hk
    have := key _ hk
    dsimp only at this
    rcases List.mem_append.1 this with hm | hm
    · unfold monitorInit at hm
      split at hm
      · rename_i h0
        simp only [List.mem_append, List.mem_cons, List.not_mem_nil, or_false, reduceCtorEq, false_or, Act.write.injEq, true_and] at hm
        rcases hm with hm | hm
        · exact Or.inl hm
        · exact Or.inr ⟨h0, hm⟩
      · simp only [List.mem_append, List.mem_cons, List.not_mem_nil, or_false, reduceCtorEq, false_or, Act.write.injEq, true_and] at hm
        exact Or.inl hm
    · simp only [dvProgram, List.mem_cons, reduceCtorEq, false_or, List.mem_map, Act.write.injEq] at hm
      obtain ⟨_, _, hm, _⟩ := hm
      exact absurd hm hne
  have hmp : ∀ a b : Str, c!"monitor" ++ a ≠ c!"params" ++ b := by
    intro a b he
    have := congrArg List.head? he
    simp at this
  rcases hname r h with e1 | ⟨e1, e1'⟩ <;> rcases hname r' h' with e2 | ⟨e2, e2'⟩
  · rw [e1] at e2
    exact rankStr_inj (List.append_cancel_left e2)
  · rw [e1] at e2'
    simp only [List.append_assoc] at e2'
    exact absurd e2' (hmp _ _)
  · rw [e2] at e1'
    simp only [List.append_assoc] at e1'
    exact absurd e1' (hmp _ _)
  · rw [e1, e2]

/-- **C149** is violated: all processes write the files with the averages of the waveform coherence, at the same time. -/
theorem c149_averages_violated (outDir logDir wfcDir tstr f : Str) :
    ∃ sched, let s := (Procs.init [wfcDir] fun r => monitorInit outDir logDir tstr r ++ wfcProgram wfcDir (fun _ => []) [f] r).run 2 sched
      (0, wfcDir, f) ∈ s.written ∧ (1, wfcDir, f) ∈ s.written := by
  refine ⟨[0, 0, 0, 0, 0, 0, 1, 1, 1, 0, 1, 0, 1], ?_⟩
  simp [Procs.run, Procs.step, Procs.enabled, Procs.init, Procs.reached, monitorInit, wfcProgram, List.range_succ]

/-- the hypotheses are met: two processes, three results -/
example : (∀ k d f, Act.write d f ∈ (fun r => [Act.bcast, Act.write c!"corr" (rankStr r)]) k → d = c!"corr" ∨ d = c!"log") ∧
    (∀ r < 2, ((fun r => correlatorInit c!"corr" c!"log" c!"2024" r ++ [Act.bcast, Act.write c!"corr" (rankStr r)]) r).filter Act.isColl =
      [.bcast, .bcast]) ∧ c!"dv" ≠ c!"log" := by
  refine ⟨fun k d f h => ?_, fun r hr => ?_, by decide⟩
  · simp at h; exact Or.inl h.1
  · match r, hr with
    | 0, _ => rfl
    | 1, _ => rfl


end SeisMIC
