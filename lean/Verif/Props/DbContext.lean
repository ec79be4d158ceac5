import Verif.Model.DbContext
import Mathlib.Tactic.SplitIfs
import Mathlib.Tactic.Cases

/-!
# C184: blocks that open and close a correlation file

A block `with CorrelationDataBase(...) as cdb:` that has been entered closes the file however it ends;
what was written before an exception stays; only the named file is touched; without options nothing
can be changed. If the opening fails, the file remains open, and it may have been emptied.
-/

namespace SeisMIC

variable {ν δ : Type} [DecidableEq ν]

/-! ## Lemmas -/

omit [DecidableEq ν] in
theorem put_files_self (d : Disk ν δ) (path : Str) (f : CFile ν δ) : (d.put path f).files path = some f := by
  simp [Disk.put]

omit [DecidableEq ν] in
theorem put_files_ne (d : Disk ν δ) {path p : Str} (f : CFile ν δ) (h : p ≠ path) : (d.put path f).files p = d.files p := by
  simp [Disk.put, h]

omit [DecidableEq ν] in
theorem put_same (d : Disk ν δ) {path : Str} {f : CFile ν δ} (h : d.files path = some f) :
    (d.put path f).files = d.files := by
  funext p
  by_cases hp : p = path
  · subst hp; rw [put_files_self, h]
  · rw [put_files_ne d f hp]

omit [DecidableEq ν] in
theorem runOps_append (ro : ReadOnly) (w : Bool) (l1 l2 : List (DbOp δ)) : ∀ f : CFile ν δ,
    (runOps ro w f l1).2 = none → runOps ro w f (l1 ++ l2) = runOps ro w (runOps ro w f l1).1 l2 := by
  induction l1 with
  | nil => intro f _; rfl
  | cons op l1 ih =>
    intro f h
    simp only [runOps, List.cons_append] at h ⊢
    cases ho : op.run ro w f with
    | mk g e =>
      cases e with
      | none => rw [ho] at h; exact ih g h
      | some e => rw [ho] at h; cases h

omit [DecidableEq ν] in
theorem op_readonly (ro : ReadOnly) (f : CFile ν δ) (op : DbOp δ) : (op.run ro false f).1 = f := by
  cases op with
  | add l => rfl
  | remove net sta cha tag cst =>
    simp only [DbOp.run]
    split
    · rfl
    · simp only [Bool.false_eq_true, if_false]; split <;> rfl
  | read net sta cha tag cst cet => simp only [DbOp.run]; split <;> rfl
  | raise e => rfl

omit [DecidableEq ν] in
theorem runOps_readonly (ro : ReadOnly) (ops : List (DbOp δ)) : ∀ f : CFile ν δ, (runOps ro false f ops).1 = f := by
  induction ops with
  | nil => intro f; rfl
  | cons op ops ih =>
    intro f
    have h := op_readonly ro f op
    simp only [runOps]
    cases ho : op.run ro false f with
    | mk g e =>
      rw [ho] at h
      subst h
      cases e with
      | none => exact ih _
      | some e => rfl

/-- what entering a block does, case by case -/
theorem enter_cases (ro : ReadOnly) (d : Disk ν δ) (a : DbArgs ν) :
    (∃ e, h5Open a.mp.1 (d.files a.mp.2) = .error e ∧ enter ro d a = (.error e, d)) ∨
    ∃ f, h5Open a.mp.1 (d.files a.mp.2) = .ok f ∧
      ((∃ e, (compressionOf a.compression = .error e ∨
            (∃ c, compressionOf a.compression = .ok c) ∧ guardOptions ro a f.options = .error e) ∧
          enter ro d a = (.error e, { d.put a.mp.2 f with opened := a.mp.2 :: d.opened })) ∨
       ∃ c o, compressionOf a.compression = .ok c ∧ guardOptions ro a f.options = .ok o ∧
          enter ro d a = (.ok { f with options := o },
            ({ d.put a.mp.2 f with opened := a.mp.2 :: d.opened } : Disk ν δ).put a.mp.2 { f with options := o })) := by
  unfold enter
  cases h1 : h5Open a.mp.1 (d.files a.mp.2) with
  | error e => exact .inl ⟨e, rfl, rfl⟩
  | ok f =>
    right
    refine ⟨f, rfl, ?_⟩
    cases h2 : compressionOf a.compression with
    | error e => exact .inl ⟨e, .inl rfl, rfl⟩
    | ok c =>
      cases h3 : guardOptions ro a f.options with
      | error e => exact .inl ⟨e, .inr ⟨⟨c, rfl⟩, rfl⟩, by simp only [h3]⟩
      | ok o => exact .inr ⟨c, o, rfl, rfl, by simp only [h3]⟩

theorem enter_opened {ro : ReadOnly} {d : Disk ν δ} {a : DbArgs ν} {f : CFile ν δ} (h : (enter ro d a).1 = .ok f) :
    (enter ro d a).2.opened = a.mp.2 :: d.opened ∧ (enter ro d a).2.files a.mp.2 = some f ∧
      ∀ p, p ≠ a.mp.2 → (enter ro d a).2.files p = d.files p := by
  rcases enter_cases ro d a with ⟨e, _, h2⟩ | ⟨g, _, ⟨e, _, h2⟩ | ⟨c, o, _, _, h2⟩⟩
  · rw [h2] at h; cases h
  · rw [h2] at h; cases h
  · rw [h2] at h ⊢
    cases h
    refine ⟨rfl, put_files_self .., ?_⟩
    intro p hp
    rw [put_files_ne _ _ hp]
    exact put_files_ne _ _ hp

theorem block_of_enter {ro : ReadOnly} {d : Disk ν δ} {a : DbArgs ν} {f : CFile ν δ} (h : (enter ro d a).1 = .ok f)
    (ops : List (DbOp δ)) :
    (block ro d a ops).1.opened = d.opened ∧
    (block ro d a ops).1.files a.mp.2 = some (runOps ro (decide (a.mp.1 ≠ c!"r")) f ops).1 ∧
    (∀ p, p ≠ a.mp.2 → (block ro d a ops).1.files p = d.files p) ∧
    (block ro d a ops).2 = (runOps ro (decide (a.mp.1 ≠ c!"r")) f ops).2 := by
  obtain ⟨h1, h2, h3⟩ := enter_opened h
  unfold block
  revert h1 h2 h3 h
  cases enter ro d a with
  | mk r d1 =>
    intro h h1 h2 h3
    simp only at h h1 h2 h3
    subst h
    refine ⟨?_, put_files_self .., ?_, rfl⟩
    · simp only [h1, List.erase_cons_head]
    · intro p hp
      rw [← h3 p hp]
      exact put_files_ne _ _ hp

theorem block_of_fail {ro : ReadOnly} {d : Disk ν δ} {a : DbArgs ν} {e : PyErr} (h : (enter ro d a).1 = .error e)
    (ops : List (DbOp δ)) : block ro d a ops = ((enter ro d a).2, some e) := by
  unfold block
  revert h
  cases enter ro d a with
  | mk r d1 => intro h; simp only at h; subst h; rfl

/-! ## Theorems -/

/-- **C184 (closing).** A block that has been entered leaves the files open that were open before
and no other, whatever is done in it and whichever exception ends it, and this exception is passed on. -/
theorem c184_closed (ro : ReadOnly) (d : Disk ν δ) (a : DbArgs ν) (f : CFile ν δ) (h : (enter ro d a).1 = .ok f)
    (ops : List (DbOp δ)) :
    (block ro d a ops).1.opened = d.opened ∧
    (block ro d a ops).2 = (runOps ro (decide (a.mp.1 ≠ c!"r")) f ops).2 :=
  ⟨(block_of_enter h ops).1, (block_of_enter h ops).2.2.2⟩

/-- **C184 (crash point).** If an exception interrupts the block at any point, then the file holds
what the same block without the rest of the statements would have written. -/
theorem c184_crash (ro : ReadOnly) (d : Disk ν δ) (a : DbArgs ν) (f : CFile ν δ) (h : (enter ro d a).1 = .ok f)
    (before rest : List (DbOp δ)) (e : PyErr) (hb : (block ro d a before).2 = none) :
    (block ro d a (before ++ .raise e :: rest)).2 = some e ∧
    (block ro d a (before ++ .raise e :: rest)).1.files = (block ro d a before).1.files ∧
    (block ro d a (before ++ .raise e :: rest)).1.opened = d.opened := by
  obtain ⟨a1, a2, a3, a4⟩ := block_of_enter h before
  obtain ⟨b1, b2, b3, b4⟩ := block_of_enter h (before ++ .raise e :: rest)
  rw [a4] at hb
  have hr := runOps_append ro (decide (a.mp.1 ≠ c!"r")) before (.raise e :: rest) f hb
  rw [hr] at b2 b4
  refine ⟨b4, ?_, b1⟩
  funext p
  by_cases hp : p = a.mp.2
  · subst hp; rw [b2, a2]; rfl
  · rw [b3 p hp, a3 p hp]

/-- **C184 (other files).** A block does not touch any file but its own, the path of which ends with
`.h5`. -/
theorem c184_others (ro : ReadOnly) (d : Disk ν δ) (a : DbArgs ν) (ops : List (DbOp δ)) (p : Str)
    (h1 : p ≠ a.path) (h2 : p ≠ a.path ++ c!".h5") : (block ro d a ops).1.files p = d.files p := by
  have hp : p ≠ a.mp.2 := by
    simp only [DbArgs.mp, openMode]
    split_ifs <;> assumption
  cases he : (enter ro d a).1 with
  | ok f => exact (block_of_enter he ops).2.2.1 p hp
  | error e =>
    rw [block_of_fail he]
    rcases enter_cases ro d a with ⟨e', _, h⟩ | ⟨g, _, ⟨e', _, h⟩ | ⟨c, o, _, _, h⟩⟩
    · rw [h]
    · rw [h]; exact put_files_ne _ _ hp
    · rw [h] at he; cases he

/-- **C184 (reading).** Without correlation options (and without the private argument `_force`) no
block changes any file, whatever mode is asked for and whatever is called in the block. -/
theorem c184_readonly (ro : ReadOnly) (d : Disk ν δ) (a : DbArgs ν) (ops : List (DbOp δ)) (hco : a.co = none)
    (hf : a.force = false) : (block ro d a ops).1.files = d.files := by
  have hm : a.mp.1 = c!"r" := by
    by_cases h : a.mode = c!"r" <;> simp [DbArgs.mp, openMode, hco, hf, h]
  have hopen : ∀ f, h5Open a.mp.1 (d.files a.mp.2) = .ok f → d.files a.mp.2 = some f := by
    intro f h
    rw [hm] at h
    unfold h5Open at h
    rw [if_pos (.inl rfl)] at h
    revert h
    cases d.files a.mp.2 with
    | none => intro h; cases h
    | some g => intro h; cases h; rfl
  rcases enter_cases ro d a with ⟨e, _, h⟩ | ⟨f, h1, ⟨e, _, h⟩ | ⟨c, o, _, h3, h⟩⟩
  · rw [block_of_fail (e := e) (by rw [h]), h]
  · rw [block_of_fail (e := e) (by rw [h]), h]
    exact put_same d (hopen f h1)
  · have ho : o = f.options := by
      simp only [guardOptions, hco, openGuard] at h3
      simpa using h3.symm
    subst ho
    obtain ⟨_, b2, b3, _⟩ := block_of_enter (f := f) (by rw [h]) ops
    have hw : decide (a.mp.1 ≠ c!"r") = false := by rw [hm]; rfl
    rw [hw, runOps_readonly] at b2
    funext p
    by_cases hp : p = a.mp.2
    · subst hp; rw [b2, hopen f h1]
    · exact b3 p hp

/-- **C184 (refusal).** A block that is refused because the file has been made with other options
changes no file. -/
theorem c184_refused (ro : ReadOnly) (d : Disk ν δ) (a : DbArgs ν) (ops : List (DbOp δ))
    (h : (enter ro d a).1 = .error .permissionError) :
    (block ro d a ops).2 = some .permissionError ∧ (block ro d a ops).1.files = d.files := by
  rw [block_of_fail h]
  refine ⟨rfl, ?_⟩
  rcases enter_cases ro d a with ⟨e, _, h2⟩ | ⟨f, h1, ⟨e, he, h2⟩ | ⟨c, o, _, _, h2⟩⟩
  · rw [h2]
  · rw [h2] at h ⊢
    have hee : e = .permissionError := by simpa using h
    subst hee
    apply put_same d
    -- the file has existed
    have hex : ∀ g, d.files a.mp.2 = some g → a.mp.1 ≠ c!"w" → g = f := by
      intro g hg hw
      rw [hg] at h1
      unfold h5Open at h1
      split_ifs at h1 <;> simp_all
    have hopt : f.options.isSome ∨ a.mp.1 = c!"r" := by
      rcases he with hc | ⟨_, hg⟩
      · exfalso
        unfold compressionOf at hc
        split at hc
        · cases hc
        · split at hc
          · cases hc
          · split at hc <;> cases hc
      · unfold guardOptions at hg
        split_ifs at hg with hr
        · exact .inr hr.1
        · left
          unfold openGuard at hg
          split at hg
          · cases hg
          · split at hg
            · cases hg
            · rename_i old hold
              rw [hold]; rfl
    cases hd : d.files a.mp.2 with
    | some g =>
      by_cases hw : a.mp.1 = c!"w"
      · rcases hopt with ho | ho
        · rw [hw] at h1
          have : f = ⟨none, []⟩ := by
            unfold h5Open at h1
            rw [if_neg (by decide), if_pos rfl] at h1
            cases h1; rfl
          subst this; cases ho
        · rw [hw] at ho; exact absurd ho (by decide)
      · rw [hex g hd hw]
    | none =>
      exfalso
      rw [hd] at h1
      have hf : f = ⟨none, []⟩ := by
        unfold h5Open at h1
        split_ifs at h1 <;> simp_all
      rcases hopt with ho | ho
      · subst hf; cases ho
      · rw [ho] at h1
        unfold h5Open at h1
        rw [if_pos (.inl rfl)] at h1
        cases h1
  · rw [h2] at h; cases h

/-! ## Histories -/

theorem addOne_mem {f : H5 δ} {x : HPath × δ} (p : HPath) (v : δ) (h : x ∈ f.sets) : x ∈ (f.addOne p v).sets := by
  unfold H5.addOne
  split_ifs
  · exact h
  · exact List.mem_append_left _ h

theorem add_mem {x : HPath × δ} (l : List (HPath × δ)) : ∀ f : H5 δ, x ∈ f.sets → x ∈ (f.add l).sets := by
  induction l with
  | nil => intro f h; exact h
  | cons e l ih => intro f h; exact ih _ (addOne_mem e.1 e.2 h)

omit [DecidableEq ν] in
theorem runOps_kept (ro : ReadOnly) (w : Bool) (x : HPath × δ) (ops : List (DbOp δ))
    (hops : ∀ net sta cha tag cst, DbOp.remove net sta cha tag cst ∉ ops) : ∀ f : CFile ν δ,
    x ∈ f.sets → x ∈ (runOps ro w f ops).1.sets ∧ (runOps ro w f ops).1.options = f.options := by
  induction ops with
  | nil => intro f h; exact ⟨h, rfl⟩
  | cons op ops ih =>
    intro f h
    have hop : x ∈ (op.run ro w f).1.sets ∧ (op.run ro w f).1.options = f.options := by
      cases op with
      | add l =>
        simp only [DbOp.run]
        split_ifs
        · exact ⟨add_mem l _ h, rfl⟩
        · exact ⟨h, rfl⟩
      | remove net sta cha tag cst => exact absurd List.mem_cons_self (hops net sta cha tag cst)
      | read net sta cha tag cst cet => simp only [DbOp.run]; split <;> exact ⟨h, rfl⟩
      | raise e => exact ⟨h, rfl⟩
    simp only [runOps]
    cases ho : op.run ro w f with
    | mk g e =>
      rw [ho] at hop
      cases e with
      | none =>
        obtain ⟨i1, i2⟩ := ih (fun n s c t cs hm => hops n s c t cs (List.mem_cons_of_mem _ hm)) g hop.1
        exact ⟨i1, i2.trans hop.2⟩
      | some e => exact hop

theorem guardOptions_some {ro : ReadOnly} {a : DbArgs ν} {s : Options ν} {o : Option (Options ν)}
    (h : guardOptions ro a (some s) = .ok o) : o = some s := by
  simp only [guardOptions, reduceCtorEq, and_false, if_false, openGuard] at h
  split at h
  · cases h; rfl
  · split_ifs at h
    · cases h; rfl

/-- **C184 (history).** Through any sequence of blocks on any files, successful, failing or refused,
which open no file in mode `w` and remove nothing, every correlation of every file stays as it is, and
so do the options of the file. -/
theorem c184_history (ro : ReadOnly) (bs : List (DbArgs ν × List (DbOp δ)))
    (hw : ∀ b ∈ bs, b.1.mode ≠ c!"w")
    (hops : ∀ b ∈ bs, ∀ net sta cha tag cst, DbOp.remove net sta cha tag cst ∉ b.2) :
    ∀ (d : Disk ν δ) (p : Str) (f : CFile ν δ) (x : HPath × δ), d.files p = some f → x ∈ f.sets →
      ∃ g, (blocks ro d bs).files p = some g ∧ x ∈ g.sets ∧ (f.options.isSome → g.options = f.options) := by
  induction bs with
  | nil => intro d p f x hf hx; exact ⟨f, hf, hx, fun _ => rfl⟩
  | cons b bs ih =>
    intro d p f x hf hx
    obtain ⟨a, ops⟩ := b
    have hstep : ∃ g, (block ro d a ops).1.files p = some g ∧ x ∈ g.sets ∧
        (f.options.isSome → g.options = f.options) := by
      by_cases hp : p = a.mp.2
      · have hmw : a.mp.1 ≠ c!"w" := by
          have := hw (a, ops) List.mem_cons_self
          simp only [DbArgs.mp, openMode]
          split_ifs
          · decide
          · exact this
        have hopen : ∀ g, h5Open a.mp.1 (d.files a.mp.2) = .ok g → g = f := by
          intro g hg
          rw [← hp, hf] at hg
          unfold h5Open at hg
          split_ifs at hg <;> simp_all
        rcases enter_cases ro d a with ⟨e, _, h⟩ | ⟨g, h1, ⟨e, _, h⟩ | ⟨c, o, _, h3, h⟩⟩
        · rw [block_of_fail (e := e) (by rw [h]), h]
          exact ⟨f, hf, hx, fun _ => rfl⟩
        · rw [block_of_fail (e := e) (by rw [h]), h]
          refine ⟨g, ?_, ?_, ?_⟩
          · subst hp; exact put_files_self ..
          · rw [hopen g h1]; exact hx
          · rw [hopen g h1]; exact fun _ => rfl
        · obtain ⟨_, b2, _, _⟩ := block_of_enter (f := { g with options := o }) (by rw [h]) ops
          have hgf := hopen g h1
          subst hgf
          obtain ⟨r1, r2⟩ := runOps_kept ro (decide (a.mp.1 ≠ c!"r")) x ops (hops (a, ops) List.mem_cons_self)
            { g with options := o } hx
          refine ⟨_, hp ▸ b2, r1, ?_⟩
          intro hs
          rw [r2]
          obtain ⟨s, hs⟩ := Option.isSome_iff_exists.mp hs
          rw [hs] at h3 ⊢
          exact guardOptions_some h3
      · refine ⟨f, ?_, hx, fun _ => rfl⟩
        cases he : (enter ro d a).1 with
        | ok f' => rw [(block_of_enter he ops).2.2.1 p hp]; exact hf
        | error e =>
          rw [block_of_fail he]
          rcases enter_cases ro d a with ⟨e', _, h⟩ | ⟨g, _, ⟨e', _, h⟩ | ⟨c, o, _, _, h⟩⟩
          · rw [h]; exact hf
          · rw [h]; exact (put_files_ne _ _ hp).trans hf
          · rw [h] at he; cases he
    obtain ⟨g, g1, g2, g3⟩ := hstep
    obtain ⟨k, k1, k2, k3⟩ := ih (fun b hb => hw b (List.mem_cons_of_mem _ hb))
      (fun b hb => hops b (List.mem_cons_of_mem _ hb)) _ p g x g1 g2
    refine ⟨k, k1, k2, fun hs => ?_⟩
    have hgo := g3 hs
    rw [← hgo]
    exact k3 (by rw [hgo]; exact hs)

/-- **C184 (what was written is read).** A correlation written in one block under a new path is found
under this path by a later block that reads it, whatever blocks without removal and mode `w` ran between
them. -/
theorem c184_read_back (ro : ReadOnly) (d : Disk ν δ) (a : DbArgs ν) (f : CFile ν δ) (h : (enter ro d a).1 = .ok f)
    (hm : a.mp.1 ≠ c!"r") (p : HPath) (v : δ) (hnew : ∀ e ∈ f.sets, e.1 ≠ p)
    (bs : List (DbArgs ν × List (DbOp δ))) (hw : ∀ b ∈ bs, b.1.mode ≠ c!"w")
    (hops : ∀ b ∈ bs, ∀ net sta cha tag cst, DbOp.remove net sta cha tag cst ∉ b.2) :
    ∃ g, (blocks ro (block ro d a [.add [(p, v)]]).1 bs).files a.mp.2 = some g ∧ (p, v) ∈ g.sets := by
  have hb := (block_of_enter h [.add [(p, v)]]).2.1
  have hd : decide (a.mp.1 ≠ c!"r") = true := by simpa using hm
  rw [hd] at hb
  have hmem : (p, v) ∈ (runOps ro true f [.add [(p, v)]]).1.sets := by
    have hany : (f.sets.any fun e => e.1 == p) = false := by
      rw [List.any_eq_false]
      intro e he; simpa using hnew e he
    simp [runOps, DbOp.run, H5.add, H5.addOne, CFile.h5, hany]
  obtain ⟨g, g1, g2, _⟩ := c184_history ro bs hw hops _ a.mp.2 _ (p, v) hb hmem
  exact ⟨g, g1, g2⟩

/-! ## What goes wrong if the opening fails -/

/-- errors of h5py, as an example -/
def exRo : ReadOnly := ⟨.valueError, none, none⟩
/-- a place in the file -/
def exHp : HPath := ⟨c!"subdivision", c!"A-A", c!"S-T", c!"Z-Z", c!"t0", c!"t1"⟩
/-- options -/
def exCo (n : Nat) : Options Nat := ⟨[(c!"x", n)], [], [], none⟩
/-- a disk with one file -/
def exDisk : Disk Nat Nat :=
  ⟨fun p => if p = c!"a.h5" then some ⟨some (exCo 1), [(exHp, 7)]⟩ else none, []⟩

/-- **C184 (violated: emptied by a failing block).** Opening a file in mode `w` with an unknown
compression raises the error only after the file has been emptied. -/
theorem c184_emptied_violated :
    (block exRo exDisk ⟨c!"a", some (exCo 1), c!"w", some c!"lzf3", false⟩ []).2 = some .valueError ∧
    ((block exRo exDisk ⟨c!"a", some (exCo 1), c!"w", some c!"lzf3", false⟩ []).1.files c!"a.h5").map CFile.sets = some [] ∧
    (exDisk.files c!"a.h5").map CFile.sets = some [(exHp, 7)] := by
  decide +kernel

/-- **C184 (violated: left open).** A file that is refused because of other options is not closed. -/
theorem c184_leak_violated :
    (block exRo exDisk ⟨c!"a", some (exCo 2), c!"a", some c!"gzip3", false⟩ []).2 = some .permissionError ∧
    (block exRo exDisk ⟨c!"a", some (exCo 2), c!"a", some c!"gzip3", false⟩ []).1.opened = [c!"a.h5"] ∧
    exDisk.opened = [] := by
  decide +kernel

/-- **C184 (violated: lost without an error).** Adding to a file that was opened for reading only is not
an error where h5py reports the refusal as `ValueError`: the correlation is reported as already being
in the file and is not written. -/
theorem c184_silent_violated :
    (block exRo exDisk ⟨c!"a", some (exCo 1), c!"r", none, false⟩ [.add [({ exHp with cst := c!"t1" }, 8)]]).2 = none ∧
    ((block exRo exDisk ⟨c!"a", some (exCo 1), c!"r", none, false⟩ [.add [({ exHp with cst := c!"t1" }, 8)]]).1.files
      c!"a.h5").map CFile.sets = some [(exHp, 7)] := by
  decide +kernel

/-- the hypotheses of `c184_closed`, `c184_crash` and `c184_read_back` hold: a block adds a correlation, fails, and the file holds it -/
example : ((enter exRo exDisk ⟨c!"a", some (exCo 1), c!"a", some c!"gzip3", false⟩).1.toOption.map CFile.sets) = some [(exHp, 7)] ∧
    (block exRo exDisk ⟨c!"a", some (exCo 1), c!"a", some c!"gzip3", false⟩ [.add [({ exHp with cst := c!"t1" }, 8)]]).2 = none ∧
    ((block exRo exDisk ⟨c!"a", some (exCo 1), c!"a", some c!"gzip3", false⟩
      [.add [({ exHp with cst := c!"t1" }, 8)], .raise .keyError, .add [({ exHp with cst := c!"t2" }, 9)]]).1.files
        c!"a.h5").map (fun f => f.sets.map Prod.snd) = some [7, 8] := by
  decide +kernel

/-- the hypothesis of `c184_refused` holds -/
example : (enter exRo exDisk ⟨c!"a", some (exCo 2), c!"a", some c!"gzip3", false⟩).1.toOption.isNone = true ∧
    (block exRo exDisk ⟨c!"a", some (exCo 2), c!"a", some c!"gzip3", false⟩ []).2 = some .permissionError := by
  decide +kernel

end SeisMIC
