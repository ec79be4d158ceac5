import Verif.Model.MonitorBulk
import Verif.Props.Parallel
import Verif.Lemmas.DbRead
import Verif.Lemmas.Strings
import Mathlib.Tactic.SplitIfs
import Mathlib.Tactic.Set
import Mathlib.Data.List.Nodup

/-!
# C145: velocity changes are computed for every channel combination, by any number of processes
-/

namespace SeisMIC

variable {δ ρ : Type}

/-! ### Specification -/

/-- a possible execution with `p` processes: every pass is made by one of the processes, and each process
makes the passes of its own tasks in their order -/
def Execution (tasks : List DvTask) (p : Nat) (order : List (Nat × DvTask)) : Prop :=
  (∀ x ∈ order, x.1 < p) ∧ ∀ r, r < p → (order.filter fun x => x.1 == r).map (·.2) = rankTasks tasks p r

/-! ### Lemmas -/

theorem execution_perm (tasks : List DvTask) (p : Nat) (hp : 0 < p) (order : List (Nat × DvTask)) (h : Execution tasks p order) :
    (order.map (·.2)).Perm tasks := by
  have key : ∀ (q : Nat) (l : List (Nat × DvTask)), (∀ x ∈ l, x.1 < q) →
      (l.map (·.2)).Perm ((List.range q).flatMap fun r => (l.filter fun x => x.1 == r).map (·.2)) := by
    intro q
    induction q with
    | zero =>
      intro l hl
      cases l with
      | nil => exact .refl _
      | cons x l => exact absurd (hl x (by simp)) (by omega)
    | succ q ih =>
      intro l hl
      rw [List.range_succ, List.flatMap_append]
      have h1 := ih (l.filter fun x => decide (x.1 < q)) (fun x hx => by simpa using (List.mem_filter.1 hx).2)
      have h2 : ((List.range q).flatMap fun r => ((l.filter fun x => decide (x.1 < q)).filter fun x => x.1 == r).map (·.2)) =
          (List.range q).flatMap fun r => (l.filter fun x => x.1 == r).map (·.2) := by
        have : ∀ r ∈ List.range q, ((l.filter fun x => decide (x.1 < q)).filter fun x => x.1 == r) = l.filter fun x => x.1 == r := by
          intro r hr
          rw [List.filter_filter]
          refine List.filter_congr ?_
          intro x _
          have := List.mem_range.1 hr
          by_cases hx : x.1 = r
          · simp [hx, this]
          · simp [hx]
        rw [List.flatMap_def, List.flatMap_def]
        congr 1
        refine List.map_congr_left ?_
        intro r hr
        rw [this r hr]
      rw [h2] at h1
      have h3 : (l.filter fun x => !decide (x.1 < q)) = l.filter fun x => x.1 == q := by
        refine List.filter_congr ?_
        intro x hx
        have := hl x hx
        by_cases hx : x.1 = q
        · simp [hx]
        · have : x.1 < q := by omega
          simp [hx, this]
      have h4 := (List.filter_append_perm (fun x : Nat × DvTask => decide (x.1 < q)) l).symm
      rw [h3] at h4
      have h5 := h4.map Prod.snd
      rw [List.map_append] at h5
      refine h5.trans (h1.append ?_)
      simp
  have h1 := key p order h.1
  have h2 : ((List.range p).flatMap fun r => (order.filter fun x => x.1 == r).map (·.2)) = tasks := by
    rw [← c01_items_partition tasks p hp]
    rw [List.flatMap_def, List.flatMap_def]
    congr 1
    refine List.map_congr_left ?_
    intro r hr
    exact h.2 r (List.mem_range.1 hr)
  rw [h2] at h1
  exact h1

theorem runDvBulk_facts (outdir : Str) (compute : DvTask → Option ρ) (order : List (Nat × DvTask)) (dir : Str → Option ρ)
    (hnd : ((order.map (·.2)).map (dvFile outdir)).Nodup) :
    (∀ x ∈ order, ∀ r, compute x.2 = some r → runDvBulk outdir compute dir order (dvFile outdir x.2) = some r) ∧
    ∀ f, (∀ x ∈ order, compute x.2 ≠ none → f ≠ dvFile outdir x.2) → runDvBulk outdir compute dir order f = dir f := by
  have hframe : ∀ (order : List (Nat × DvTask)) (dir : Str → Option ρ) f,
      (∀ x ∈ order, compute x.2 ≠ none → f ≠ dvFile outdir x.2) → runDvBulk outdir compute dir order f = dir f := by
    intro order
    induction order with
    | nil => intro dir f _; rfl
    | cons y order ih =>
      intro dir f hf
      rw [runDvBulk, List.foldl_cons]
      refine (ih _ f fun x hx => hf x (by simp [hx])).trans ?_
      unfold runDvTask
      cases hc : compute y.2 with
      | none => rfl
      | some r => exact if_neg (hf y (by simp) (by rw [hc]; simp))
  refine ⟨?_, hframe order dir⟩
  induction order generalizing dir with
  | nil => intro x hx; cases hx
  | cons y order ih =>
    intro x hx r hr
    simp only [List.map_cons, List.nodup_cons] at hnd
    rcases List.mem_cons.1 hx with rfl | hx
    · rw [runDvBulk, List.foldl_cons]
      refine (hframe order _ _ ?_).trans ?_
      · intro z hz _ he
        exact hnd.1 (by rw [he, List.map_map]; exact List.mem_map_of_mem (f := dvFile outdir ∘ Prod.snd) hz)
      · simp [runDvTask, hr]
    · rw [runDvBulk, List.foldl_cons]
      exact ih _ hnd.2 x hx r hr

theorem dvFile_inj (outdir : Str) (t u : DvTask) (h1 : '.' ∉ t.net) (h2 : '.' ∉ t.sta) (h4 : '.' ∉ u.net)
    (h5 : '.' ∉ u.sta) (h : dvFile outdir t = dvFile outdir u) :
    t.net = u.net ∧ t.sta = u.sta ∧ t.cha = u.cha := by
  unfold dvFile at h
  have h' := List.append_cancel_right h
  have h'' := List.append_cancel_left h'
  simp only [List.cons.injEq, true_and, List.append_assoc] at h''
  have hx := List.append_cancel_left h''
  have key : ∀ (a b x y : Str), '.' ∉ a → '.' ∉ b → a ++ '.' :: x = b ++ '.' :: y → a = b ∧ x = y := by
    intro a
    induction a with
    | nil =>
      intro b x y _ hb h
      cases b with
      | nil => exact ⟨rfl, by simpa using h⟩
      | cons c b =>
        simp only [List.nil_append, List.cons_append, List.cons.injEq] at h
        exact absurd (List.mem_cons.2 (.inl h.1)) hb
    | cons c a ih =>
      intro b x y ha hb h
      cases b with
      | nil =>
        simp only [List.nil_append, List.cons_append, List.cons.injEq] at h
        exact absurd (List.mem_cons.2 (.inl h.1.symm)) ha
      | cons c' b =>
        simp only [List.cons_append, List.cons.injEq] at h
        obtain ⟨e1, e2⟩ := ih b x y (fun hh => ha (by simp [hh])) (fun hh => hb (by simp [hh])) h.2
        exact ⟨by rw [h.1, e1], e2⟩
  obtain ⟨e1, e2⟩ := key _ _ _ _ h1 h4 hx
  obtain ⟨e3, e4⟩ := key _ _ _ _ h2 h5 e2
  exact ⟨e1, e3, e4⟩

theorem splitOn_no_sep (c : Char) (s : Str) : ∀ x ∈ splitOn c s, c ∉ x := by
  induction s with
  | nil => simp [splitOn]
  | cons d s ih =>
    intro x hx
    rw [splitOn] at hx
    split_ifs at hx with hd
    · rcases List.mem_cons.1 hx with rfl | hx
      · simp
      · exact ih x hx
    · cases hs : splitOn c s with
      | nil =>
        rw [hs] at hx
        have : x = [d] := by simpa using hx
        subst this
        simp [Ne.symm hd]
      | cons y ys =>
        rw [hs] at hx
        rcases List.mem_cons.1 hx with rfl | hx
        · have := ih y (by rw [hs]; simp)
          simp [Ne.symm hd, this]
        · exact ih x (by rw [hs]; simp [hx])

theorem getD_splitOn_no_sep (c : Char) (s : Str) (i : Nat) : c ∉ (splitOn c s).getD i [] := by
  rw [List.getD_eq_getElem?_getD]
  cases h : (splitOn c s)[i]? with
  | none => simp
  | some x => exact splitOn_no_sep c s x (List.mem_of_getElem? h)

/-! ### C145 -/

/-- **C145** Full statement: with any number of processes and in every order of execution, the result of each
channel combination in the selected files is saved in its own file, whatever happens to the others, and no
other file is changed.
Proved if there is one correlation file for each combination of stations. Missing: several files, see
`c145_two_files_violated`. -/
theorem c145_results_partial (files : Str → H5 δ) (indir outdir : Str) (listing : List Str) (net sta : NetReq)
    (hone : ((corrFindFilter indir listing net sta).map fun x => (x.1, x.2.1)).Nodup)
    (p : Nat) (hp : 0 < p) (order : List (Nat × DvTask))
    (hex : Execution (dvTasks files (corrFindFilter indir listing net sta)) p order)
    (compute : DvTask → Option ρ) (dir : Str → Option ρ) :
    (∀ n s f, (n, s, f) ∈ corrFindFilter indir listing net sta → ∀ c ∈ (files f).availableChannels c!"subdivision" n s,
      ∀ r, compute ⟨f, n, s, c⟩ = some r → runDvBulk outdir compute dir order (dvFile outdir ⟨f, n, s, c⟩) = some r) ∧
    ∀ x, (∀ n s f, (n, s, f) ∈ corrFindFilter indir listing net sta → ∀ c ∈ (files f).availableChannels c!"subdivision" n s,
        compute ⟨f, n, s, c⟩ ≠ none → x ≠ dvFile outdir ⟨f, n, s, c⟩) →
      runDvBulk outdir compute dir order x = dir x := by
  set sel := corrFindFilter indir listing net sta with hsel
  have hdot : ∀ x ∈ sel, '.' ∉ x.1 ∧ '.' ∉ x.2.1 := by
    intro x hx
    obtain ⟨f, -, rfl⟩ := List.mem_map.1 hx
    exact ⟨getD_splitOn_no_sep _ _ _, getD_splitOn_no_sep _ _ _⟩
  have hnd : ((dvTasks files sel).map (dvFile outdir)).Nodup := by
    clear_value sel
    clear hex hsel
    induction sel with
    | nil => simp [dvTasks]
    | cons x sel ih =>
      rw [List.map_cons, List.nodup_cons] at hone
      unfold dvTasks at ih ⊢
      rw [List.flatMap_cons, List.map_append, List.nodup_append]
      have hx := hdot x (by simp)
      refine ⟨?_, ih hone.2 (fun y hy => hdot y (by simp [hy])), ?_⟩
      · rw [List.map_map]
        have hk : ((files x.2.2).availableChannels c!"subdivision" x.1 x.2.1).Nodup := nodup_eraseDups _
        refine hk.map ?_
        intro c c' he
        exact (dvFile_inj outdir _ _ hx.1 hx.2 hx.1 hx.2 he).2.2
      · intro a ha b hb hab
        obtain ⟨t, ht, rfl⟩ := List.mem_map.1 ha
        obtain ⟨c, -, rfl⟩ := List.mem_map.1 ht
        obtain ⟨u, hu, rfl⟩ := List.mem_map.1 hb
        obtain ⟨y, hy, hu⟩ := List.mem_flatMap.1 hu
        obtain ⟨c', -, rfl⟩ := List.mem_map.1 hu
        have hy' := hdot y (by simp [hy])
        obtain ⟨e1, e2, -⟩ := dvFile_inj outdir _ _ hx.1 hx.2 hy'.1 hy'.2 hab
        refine hone.1 ?_
        have : (x.1, x.2.1) = (y.1, y.2.1) := Prod.ext e1 e2
        rw [this]
        exact List.mem_map_of_mem (f := fun x : Str × Str × Str => (x.1, x.2.1)) hy
  have hperm := execution_perm _ p hp order hex
  have hnd' : ((order.map (·.2)).map (dvFile outdir)).Nodup := (hperm.map _).nodup_iff.2 hnd
  obtain ⟨f1, f2⟩ := runDvBulk_facts outdir compute order dir hnd'
  have hmem : ∀ t, (∃ x ∈ order, x.2 = t) ↔ t ∈ dvTasks files sel := by
    intro t
    rw [← hperm.mem_iff, List.mem_map]
  have htask : ∀ t, t ∈ dvTasks files sel ↔
      ∃ n s f c, (n, s, f) ∈ sel ∧ c ∈ (files f).availableChannels c!"subdivision" n s ∧ t = ⟨f, n, s, c⟩ := by
    intro t
    unfold dvTasks
    rw [List.mem_flatMap]
    constructor
    · rintro ⟨⟨n, s, f⟩, hx, ht⟩
      obtain ⟨c, hc, rfl⟩ := List.mem_map.1 ht
      exact ⟨n, s, f, c, hx, hc, rfl⟩
    · rintro ⟨n, s, f, c, hx, hc, rfl⟩
      exact ⟨(n, s, f), hx, List.mem_map.2 ⟨c, hc, rfl⟩⟩
  constructor
  · intro n s f hx c hc r hr
    obtain ⟨y, hy, hyt⟩ := (hmem ⟨f, n, s, c⟩).2 ((htask _).2 ⟨n, s, f, c, hx, hc, rfl⟩)
    have := f1 y hy r (by rw [hyt]; exact hr)
    rw [hyt] at this
    exact this
  · intro x hx
    refine f2 x ?_
    intro y hy hcn
    obtain ⟨n, s, f, c, h1, h2, h3⟩ := (htask y.2).1 ((hmem y.2).1 ⟨y, hy, rfl⟩)
    rw [h3] at hcn ⊢
    exact hx n s f h1 c h2 hcn

/-- **C145** Hence the results depend neither on the number of processes nor on the order of execution.
Missing for the full property: `c145_two_files_violated`. -/
theorem c145_same_partial (files : Str → H5 δ) (indir outdir : Str) (listing : List Str) (net sta : NetReq)
    (hone : ((corrFindFilter indir listing net sta).map fun x => (x.1, x.2.1)).Nodup)
    (p q : Nat) (hp : 0 < p) (hq : 0 < q) (order order' : List (Nat × DvTask))
    (hex : Execution (dvTasks files (corrFindFilter indir listing net sta)) p order)
    (hex' : Execution (dvTasks files (corrFindFilter indir listing net sta)) q order')
    (compute : DvTask → Option ρ) (dir : Str → Option ρ) :
    runDvBulk outdir compute dir order = runDvBulk outdir compute dir order' := by
  obtain ⟨a1, a2⟩ := c145_results_partial files indir outdir listing net sta hone p hp order hex compute dir
  obtain ⟨b1, b2⟩ := c145_results_partial files indir outdir listing net sta hone q hq order' hex' compute dir
  funext x
  by_cases h : ∃ n s f c, (n, s, f) ∈ corrFindFilter indir listing net sta ∧ c ∈ (files f).availableChannels c!"subdivision" n s ∧
      compute ⟨f, n, s, c⟩ ≠ none ∧ x = dvFile outdir ⟨f, n, s, c⟩
  · obtain ⟨n, s, f, c, h1, h2, h3, rfl⟩ := h
    obtain ⟨r, hr⟩ := Option.ne_none_iff_exists'.1 h3
    rw [a1 n s f h1 c h2 r hr, b1 n s f h1 c h2 r hr]
  · have hx : ∀ n s f, (n, s, f) ∈ corrFindFilter indir listing net sta → ∀ c ∈ (files f).availableChannels c!"subdivision" n s,
        compute ⟨f, n, s, c⟩ ≠ none → x ≠ dvFile outdir ⟨f, n, s, c⟩ :=
      fun n s f h1 c h2 h3 he => h ⟨n, s, f, c, h1, h2, h3, he⟩
    rw [a2 x hx, b2 x hx]

/-- a database with one channel combination -/
def oneChannel (net sta cha : Str) : H5 Unit := ⟨true, [(⟨c!"subdivision", net, sta, cha, c!"0", c!"1"⟩, ())]⟩

/-- there is an execution, also with two processes -/
example : dvTasks (fun _ => oneChannel c!"A-A" c!"S-S" c!"Z-Z") (corrFindFilter c!"d" [c!"A-A.S-S.h5"] (.one c!"*") (.one c!"*")) =
      [⟨c!"d/A-A.S-S.h5", c!"A-A", c!"S-S", c!"Z-Z"⟩] ∧
    Execution [⟨c!"d/A-A.S-S.h5", c!"A-A", c!"S-S", c!"Z-Z"⟩] 2 [(0, ⟨c!"d/A-A.S-S.h5", c!"A-A", c!"S-S", c!"Z-Z"⟩)] ∧
    ((corrFindFilter c!"d" [c!"A-A.S-S.h5"] (.one c!"*") (.one c!"*")).map fun x => (x.1, x.2.1)).Nodup := by
  refine ⟨by decide +kernel, ⟨by decide, ?_⟩, by decide +kernel⟩
  intro r hr
  match r, hr with
  | 0, _ => decide +kernel
  | 1, _ => decide +kernel

/-- **C145 is violated**: if the correlations of a channel combination are in two selected files (all components
in one file and each in its own file), the results are saved in the same file, and the order of execution decides
which one remains. -/
theorem c145_two_files_violated (r1 r2 : ρ) (h : r1 ≠ r2) :
    ∃ (compute : DvTask → Option ρ) (order order' : List (Nat × DvTask)),
      (let tasks := dvTasks (fun _ => oneChannel c!"A-A" c!"S-S" c!"Z-Z")
        (corrFindFilter c!"d" [c!"A-A.S-S.h5", c!"A-A.S-S.Z-Z.h5"] (.one c!"*") (.one c!"*"))
      Execution tasks 2 order ∧ Execution tasks 2 order') ∧
      runDvBulk c!"o" compute (fun _ => none) order ≠ runDvBulk c!"o" compute (fun _ => none) order' := by
  have ht : dvTasks (fun _ => oneChannel c!"A-A" c!"S-S" c!"Z-Z")
      (corrFindFilter c!"d" [c!"A-A.S-S.h5", c!"A-A.S-S.Z-Z.h5"] (.one c!"*") (.one c!"*")) =
      [⟨c!"d/A-A.S-S.h5", c!"A-A", c!"S-S", c!"Z-Z"⟩, ⟨c!"d/A-A.S-S.Z-Z.h5", c!"A-A", c!"S-S", c!"Z-Z"⟩] := by decide +kernel
  refine ⟨fun t => some (if t.file = c!"d/A-A.S-S.h5" then r1 else r2),
    [(0, ⟨c!"d/A-A.S-S.h5", c!"A-A", c!"S-S", c!"Z-Z"⟩), (1, ⟨c!"d/A-A.S-S.Z-Z.h5", c!"A-A", c!"S-S", c!"Z-Z"⟩)],
    [(1, ⟨c!"d/A-A.S-S.Z-Z.h5", c!"A-A", c!"S-S", c!"Z-Z"⟩), (0, ⟨c!"d/A-A.S-S.h5", c!"A-A", c!"S-S", c!"Z-Z"⟩)], ?_, ?_⟩
  · dsimp only
    rw [ht]
    refine ⟨⟨by decide, ?_⟩, ⟨by decide, ?_⟩⟩ <;> intro r hr <;> match r, hr with
      | 0, _ => decide +kernel
      | 1, _ => decide +kernel
  · intro hc
    have := congrFun hc (dvFile c!"o" ⟨c!"d/A-A.S-S.h5", c!"A-A", c!"S-S", c!"Z-Z"⟩)
    simp [runDvBulk, runDvTask, dvFile] at this
    exact h this.symm

end SeisMIC
