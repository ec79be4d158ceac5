import Verif.Props.Run
import Verif.Props.Parallel
import Verif.Spec.ParallelWrite

/-!
# C157: the database after a run with several processes
-/

namespace SeisMIC

variable {δ : Type}

theorem exec_append (dir : CorrDir δ) (l l' : List (Str × Out δ)) : dir.exec (l ++ l') = (dir.exec l).exec l' := by
  simp [CorrDir.exec]

theorem get_exec (dir : CorrDir δ) (l : List (Str × Out δ)) (f : Str) (q : HPath) :
    (dir.exec l).get f q = (dir.get f q).or
      ((l.find? fun x => decide (x.1 = f ∧ x.2.path = q)).map fun x => x.2.val) := by
  induction l generalizing dir with
  | nil => simp [CorrDir.exec]
  | cons x l ih =>
    have : dir.exec (x :: l) = (dir.addOne x.1 x.2).exec l := rfl
    rw [this, ih, get_addOne, List.find?_cons]
    by_cases h : x.1 = f ∧ x.2.path = q
    · rw [if_pos ⟨h.1.symm, h.2.symm⟩]
      simp only [h, and_self, decide_true, Option.map_some]
      cases dir.get f q <;> simp
    · rw [if_neg (fun h' => h ⟨h'.1.symm, h'.2.symm⟩)]
      simp only [h, decide_false, Option.or_none]

theorem filter_flatMap_key {α β : Type} (ws : List (Str × α)) (g : Str × α → List (Str × β))
    (hg : ∀ w, ∀ x ∈ g w, x.1 = w.1) (hn : (ws.map Prod.fst).Nodup) (w : Str × α) (hw : w ∈ ws) :
    (ws.flatMap g).filter (fun x => decide (x.1 = w.1)) = g w := by
  induction ws with
  | nil => simp at hw
  | cons a ws ih =>
    rw [List.map_cons, List.nodup_cons] at hn
    rw [List.flatMap_cons, List.filter_append]
    rcases List.mem_cons.1 hw with rfl | hw'
    · have e1 : (g w).filter (fun x => decide (x.1 = w.1)) = g w :=
        List.filter_eq_self.2 (fun x hx => by simp [hg w x hx])
      have e2 : (ws.flatMap g).filter (fun x => decide (x.1 = w.1)) = [] := by
        rw [List.filter_eq_nil_iff]
        intro x hx
        obtain ⟨v, hv, hxv⟩ := List.mem_flatMap.1 hx
        have := hg v x hxv
        simp only [decide_eq_true_eq]
        intro h
        exact hn.1 (List.mem_map.2 ⟨v, hv, by rw [← this, h]⟩)
      rw [e1, e2, List.append_nil]
    · have e1 : (g a).filter (fun x => decide (x.1 = w.1)) = [] := by
        rw [List.filter_eq_nil_iff]
        intro x hx
        simp only [decide_eq_true_eq, hg a x hx]
        intro h
        exact hn.1 (List.mem_map.2 ⟨w, hw', h.symm⟩)
      rw [e1, List.nil_append, ih hn.2 hw']

theorem GoodCodes.plain {sep : Bool} {cst : List (Out δ)} (h : GoodCodes sep cst) : ∀ o ∈ cst, o.PlainCodes := by
  intro o ho
  have := h.1 o ho
  exact ⟨this _ (by simp), this _ (by simp), this _ (by simp)⟩

theorem ops_file (o : WriteOpts δ) (w : Str × List (Out δ)) : ∀ x ∈ o.ops w, x.1 = w.1 := by
  intro x hx
  unfold WriteOpts.ops at hx
  obtain ⟨y, _, rfl⟩ := List.mem_map.1 hx
  rfl

/-- the actions of one write that concern one file -/
theorem course_file (o : WriteOpts δ) (sep : Bool) (p : Nat) (hp : 0 < p) (cst : List (Out δ))
    (e : List (Nat × (Str × Out δ))) (hgood : GoodCodes sep cst) (he : WriteCourse o sep p cst e) (f : Str) :
    (e.map Prod.snd).filter (fun x => decide (x.1 = f)) = (fileAdds o sep f cst).map fun x => (f, x) := by
  obtain ⟨prog, hprog, hrank, hsched⟩ := he
  obtain ⟨ws, hws, hcontent, _⟩ := c86_own_file_partial sep p hp cst hgood.plain hgood.2
  obtain ⟨hdis, hnodup, hnames⟩ := c37_disjoint sep p hp cst ws hws
  have hpr : ∀ r < p, prog r = (ws r).flatMap o.ops := by
    intro r hr
    have := hprog r hr
    unfold rankOps at this
    rw [hws r hr] at this
    simpa [bind, Except.bind, pure, Except.pure] using this.symm
  have hin : ∀ x ∈ e, ∃ w ∈ ws x.1, x.2 ∈ o.ops w := by
    intro x hx
    have hr := hrank x hx
    have : x.2 ∈ prog x.1 := by
      rw [← hsched x.1 hr]
      exact List.mem_map.2 ⟨x, List.mem_filter.2 ⟨hx, by simp⟩, rfl⟩
    rw [hpr _ hr] at this
    exact List.mem_flatMap.1 this
  by_cases hown : cst.filter (fun x => decide (x.code sep ++ c!".h5" = f)) = []
  · have : fileAdds o sep f cst = [] := by unfold fileAdds; simp only; rw [if_pos hown]
    rw [this, List.map_nil, List.filter_eq_nil_iff]
    intro y hy
    obtain ⟨x, hx, rfl⟩ := List.mem_map.1 hy
    obtain ⟨w, hw, hxw⟩ := hin x hx
    simp only [decide_eq_true_eq]
    intro hf
    obtain ⟨u, hu, hfu⟩ := (hnames w.1).1 ⟨x.1, hrank x hx, List.mem_map.2 ⟨w, hw, rfl⟩⟩
    rw [List.filter_eq_nil_iff] at hown
    exact hown u hu (by simp [← hf, ops_file o w _ hxw, hfu])
  · obtain ⟨u, hu⟩ := List.exists_mem_of_ne_nil _ hown
    have hu := List.mem_filter.1 hu
    have huf : u.code sep ++ c!".h5" = f := by simpa using hu.2
    obtain ⟨r, hr, hmem⟩ := (hnames f).2 ⟨u, hu.1, huf.symm⟩
    obtain ⟨w, hw, hwf⟩ := List.mem_map.1 hmem
    have hfr : ∀ x ∈ e, x.2.1 = f → x.1 = r := by
      intro x hx hf
      obtain ⟨v, hv, hxv⟩ := hin x hx
      by_contra hne
      exact hdis x.1 (hrank x hx) r hr hne f
        (List.mem_map.2 ⟨v, hv, by rw [← ops_file o v _ hxv, hf]⟩) hmem
    have e1 : (e.map Prod.snd).filter (fun x => decide (x.1 = f)) = (prog r).filter (fun x => decide (x.1 = f)) := by
      rw [← hsched r hr, List.filter_map, List.filter_map, List.filter_filter]
      congr 1
      apply List.filter_congr
      intro x hx
      simp only [Function.comp]
      by_cases hf : x.2.1 = f
      · simp [hf, hfr x hx hf]
      · simp [hf]
    rw [e1, hpr r hr, ← hwf, filter_flatMap_key (ws r) o.ops (ops_file o) (hnodup r hr) w hw, hwf]
    have hc := hcontent r hr w hw
    rw [hwf] at hc
    unfold WriteOpts.ops fileAdds
    simp only
    rw [if_neg hown]
    have hc' : w.2 = cst.filter fun x => decide (x.code sep ++ c!".h5" = f) := hc
    rw [hwf, hc']

theorem find_filter_pair (l : List (Str × Out δ)) (f : Str) (q : HPath) :
    (l.find? fun x => decide (x.1 = f ∧ x.2.path = q)) =
      (l.filter fun x => decide (x.1 = f)).find? fun x => decide (x.2.path = q) := by
  rw [List.find?_filter]
  congr 1
  funext x
  simp

theorem find_map_pair (l : List (Out δ)) (f : Str) (q : HPath) :
    (((l.map fun x => (f, x)).find? fun x => decide (x.2.path = q)).map fun x => x.2.val) =
      (l.find? fun x => decide (x.path = q)).map Out.val := by
  induction l with
  | nil => rfl
  | cons a l ih =>
    simp only [List.map_cons, List.find?_cons]
    by_cases h : a.path = q
    · simp [h]
    · simpa [h] using ih

theorem run_file (o : WriteOpts δ) (sep : Bool) (p : Nat) (hp : 0 < p) (writes : List (List (Out δ)))
    (e : List (Nat × (Str × Out δ))) (hgood : ∀ cst ∈ writes, GoodCodes sep cst) (he : RunCourse o sep p writes e)
    (f : Str) :
    (e.map Prod.snd).filter (fun x => decide (x.1 = f)) = (writes.flatMap (fileAdds o sep f)).map fun x => (f, x) := by
  induction he with
  | nil => rfl
  | cons cst rest e e' h _ ih =>
    rw [List.map_append, List.filter_append, course_file o sep p hp cst e (hgood _ (by simp)) h f,
      ih (fun c hc => hgood c (by simp [hc])), List.flatMap_cons, List.map_append]

/-- **C157** For any number of processes and every order in which their actions may
happen, every entry of every file in the database is the one given by the
specification, in which there are no processes. -/
theorem c157_database (o : WriteOpts δ) (sep : Bool) (p : Nat) (hp : 0 < p) (dir : CorrDir δ)
    (writes : List (List (Out δ))) (hgood : ∀ cst ∈ writes, GoodCodes sep cst)
    (e : List (Nat × (Str × Out δ))) (he : RunCourse o sep p writes e) (f : Str) (q : HPath) :
    (dir.exec (e.map Prod.snd)).get f q = expectedEntry o sep dir writes f q := by
  rw [get_exec, find_filter_pair, run_file o sep p hp writes e hgood he f, find_map_pair]
  rfl

/-- **C157** (two runs) The numbers of processes and the order of their actions do
not matter. -/
theorem c157_same (o : WriteOpts δ) (sep : Bool) (p p' : Nat) (hp : 0 < p) (hp' : 0 < p') (dir : CorrDir δ)
    (writes : List (List (Out δ))) (hgood : ∀ cst ∈ writes, GoodCodes sep cst)
    (e e' : List (Nat × (Str × Out δ))) (he : RunCourse o sep p writes e) (he' : RunCourse o sep p' writes e')
    (f : Str) (q : HPath) :
    (dir.exec (e.map Prod.snd)).get f q = (dir.exec (e'.map Prod.snd)).get f q := by
  rw [c157_database o sep p hp dir writes hgood e he, c157_database o sep p' hp' dir writes hgood e' he']

/-- **C157** (killed runs) If all processes are killed at any moment, every entry
that is then in the database, old or new, is the one that the complete run would
have left. -/
theorem c157_killed (o : WriteOpts δ) (sep : Bool) (p : Nat) (hp : 0 < p) (dir : CorrDir δ)
    (writes : List (List (Out δ))) (hgood : ∀ cst ∈ writes, GoodCodes sep cst)
    (e before : List (Nat × (Str × Out δ))) (he : RunCourse o sep p writes e) (hk : before <+: e) (f : Str) (q : HPath)
    (v : δ) (hv : (dir.exec (before.map Prod.snd)).get f q = some v) :
    expectedEntry o sep dir writes f q = some v ∧
    (∀ v₀, dir.get f q = some v₀ → v = v₀) := by
  constructor
  · rw [← c157_database o sep p hp dir writes hgood e he f q]
    obtain ⟨after, rfl⟩ := hk
    rw [List.map_append, exec_append, get_exec, hv]
    rfl
  · intro v₀ h₀
    rw [get_exec, h₀] at hv
    simpa using hv.symm

theorem schedule_exists {α : Type} (p : Nat) (prog : Nat → List α) :
    IsSchedule p prog ((List.range p).flatMap fun r => (prog r).map fun x => (r, x)) := by
  refine ⟨?_, ?_⟩
  · intro x hx
    obtain ⟨r, hr, hx⟩ := List.mem_flatMap.1 hx
    obtain ⟨y, _, rfl⟩ := List.mem_map.1 hx
    simpa using hr
  · intro r hr
    induction p with
    | zero => omega
    | succ p ih =>
      rw [List.range_succ, List.flatMap_append, List.filter_append, List.map_append]
      simp only [List.flatMap_cons, List.flatMap_nil, List.append_nil]
      by_cases h : r = p
      · subst h
        have e1 : ((List.range r).flatMap fun s => (prog s).map fun x => (s, x)).filter (fun x => x.1 == r) = [] := by
          rw [List.filter_eq_nil_iff]
          intro x hx
          obtain ⟨s, hs, hx⟩ := List.mem_flatMap.1 hx
          obtain ⟨y, _, rfl⟩ := List.mem_map.1 hx
          have : s < r := by simpa using hs
          simp; omega
        have e2 : ((prog r).map fun x => (r, x)).filter (fun x => x.1 == r) = (prog r).map fun x => (r, x) :=
          List.filter_eq_self.2 (fun x hx => by obtain ⟨y, _, rfl⟩ := List.mem_map.1 hx; simp)
        rw [e1, e2]
        simp
      · have e2 : ((prog p).map fun x => (p, x)).filter (fun x => x.1 == r) = [] := by
          rw [List.filter_eq_nil_iff]
          intro x hx
          obtain ⟨y, _, rfl⟩ := List.mem_map.1 hx
          simp; omega
        rw [ih (by omega), e2]
        simp

/-- **C157** (it can be done) No process raises an exception while writing, so there
is at least one possible course of the run. -/
theorem c157_completes (o : WriteOpts δ) (sep : Bool) (p : Nat) (hp : 0 < p)
    (writes : List (List (Out δ))) (hgood : ∀ cst ∈ writes, GoodCodes sep cst) : ∃ e, RunCourse o sep p writes e := by
  induction writes with
  | nil => exact ⟨[], .nil⟩
  | cons cst rest ih =>
    obtain ⟨e', he'⟩ := ih (fun c hc => hgood c (by simp [hc]))
    have hg := hgood cst (by simp)
    obtain ⟨ws, hws, _⟩ := c86_own_file_partial sep p hp cst hg.plain hg.2
    refine ⟨_, .cons cst rest _ e' ⟨fun r => (ws r).flatMap o.ops, ?_, schedule_exists p _⟩ he'⟩
    intro r hr
    unfold rankOps
    rw [hws r hr]
    rfl

theorem flatMap_fileAdds_single (o : WriteOpts δ) (sep : Bool) (hdel : o.delete = false) (hrec : o.recombine = false)
    (f : Str) (writes : List (List (Out δ))) :
    writes.flatMap (fileAdds o sep f) = writes.flatten.filter fun x => decide (x.code sep ++ c!".h5" = f) := by
  induction writes with
  | nil => rfl
  | cons cst rest ih =>
    rw [List.flatMap_cons, List.flatten_cons, List.filter_append, ih]
    congr 1
    unfold fileAdds
    simp only [hdel, hrec, Bool.false_eq_true, if_false, List.append_nil]
    split
    · next h => rw [h]
    · rfl

/-- the correlations of one window, computed row by row and pair by pair -/
def specWindow {α β γ : Type} (td : List (List β → List β)) (pad : List β → List β) (fft : List β → List α)
    (fd : List (List α → List α)) (corr : List (List α) → Nat × Nat → List γ) (w : WinData β) : List (Out (List γ)) :=
  w.combis.map fun ij => ⟨w.place ij, corr (specSpectra td pad fft fd w.rows) ij⟩

theorem zip_map_self {α β γ : Type} (l : List α) (g : α → β) (h : α → β → γ) :
    ((l.map g).zip l).map (fun x => h x.2 x.1) = l.map fun a => h a (g a) := by
  induction l with
  | nil => rfl
  | cons a l ih => simp [ih]

theorem windowOuts_eq {α β γ : Type} [AddCommMonoid α] [AddCommMonoid γ]
    (p : Nat) (hp : 0 < p) (fftsize width : Nat)
    (td : List (List β → List β)) (pad : List β → List β) (fft : List β → List α)
    (fd : List (List α → List α)) (corr : List (List α) → Nat × Nat → List γ) (w : WinData β)
    (hfd : ∀ a ∈ w.rows, (chain fd (fft (pad (chain td a)))).length = fftsize)
    (hcorr : ∀ ij ∈ w.combis, (corr (specSpectra td pad fft fd w.rows) ij).length = width) :
    windowOuts p fftsize width (td.map rowStep) pad fft (fd.map rowStep) corr w =
      .ok (specWindow td pad fft fd corr w) := by
  unfold windowOuts
  rw [c02_parallel_eq_serial p hp fftsize width td pad fft fd corr w.combis w.rows hfd hcorr]
  simp only [bind, Except.bind, pure, Except.pure]
  congr 1
  exact zip_map_self w.combis (corr (specSpectra td pad fft fd w.rows)) (fun ij c => (⟨w.place ij, c⟩ : Out (List γ)))

/-- **C157** (from the windows to the files) A run over any read increments and
windows, on any number of processes and with any course of the writing, leaves for
every file and every place what was there before, otherwise the first correlation
of all windows, computed row by row and pair by pair, that belongs to this file and
place. -/
theorem c157_run {α β γ : Type} [AddCommMonoid α] [AddCommMonoid γ]
    (o : WriteOpts (List γ)) (sep : Bool) (hdel : o.delete = false) (hrec : o.recombine = false)
    (p : Nat) (hp : 0 < p) (fftsize width : Nat)
    (td : List (List β → List β)) (pad : List β → List β) (fft : List β → List α)
    (fd : List (List α → List α)) (corr : List (List α) → Nat × Nat → List γ)
    (incs : List (List (Option (WinData β)))) (dir : CorrDir (List γ))
    (hfd : ∀ inc ∈ incs, ∀ w, some w ∈ inc → ∀ a ∈ w.rows, (chain fd (fft (pad (chain td a)))).length = fftsize)
    (hcorr : ∀ inc ∈ incs, ∀ w, some w ∈ inc → ∀ ij ∈ w.combis,
      (corr (specSpectra td pad fft fd w.rows) ij).length = width)
    (hgood : GoodCodes sep ((incs.flatten.filterMap id).flatMap (specWindow td pad fft fd corr))) :
    ∃ writes, runWrites p fftsize width (td.map rowStep) pad fft (fd.map rowStep) corr incs = .ok writes ∧
      (∃ e, RunCourse o sep p writes e) ∧
      ∀ e, RunCourse o sep p writes e → ∀ f q,
        (dir.exec (e.map Prod.snd)).get f q = (dir.get f q).or
          ((((incs.flatten.filterMap id).flatMap (specWindow td pad fft fd corr)).find? fun x =>
            decide (x.code sep ++ ".h5".toList = f ∧ x.path = q)).map Out.val) := by
  have hw : runWrites p fftsize width (td.map rowStep) pad fft (fd.map rowStep) corr incs =
      .ok (pxcorrWrites (generateData (incs.map fun inc => inc.map (Option.map (specWindow td pad fft fd corr))))) := by
    unfold runWrites
    rw [mapM_ok _ _ (fun inc => inc.map (Option.map (specWindow td pad fft fd corr)))]
    · rfl
    · intro inc hinc
      apply mapM_ok
      intro w hw
      cases w with
      | none => rfl
      | some w =>
        simp only [windowOuts_eq p hp fftsize width td pad fft fd corr w (hfd inc hinc w hw) (hcorr inc hinc w hw)]
        rfl
  have hflat : (pxcorrWrites (generateData (incs.map fun inc =>
      inc.map (Option.map (specWindow td pad fft fd corr))))).flatten =
      (incs.flatten.filterMap id).flatMap (specWindow td pad fft fd corr) := by
    rw [(c33_written_once _).1]
    rw [← List.map_flatten, List.filterMap_map, List.flatMap_def, List.map_filterMap]
    congr 1
  have hg : ∀ cst ∈ pxcorrWrites (generateData (incs.map fun inc =>
      inc.map (Option.map (specWindow td pad fft fd corr)))), GoodCodes sep cst := by
    intro cst hcst
    have sub : ∀ x ∈ cst, x ∈ (incs.flatten.filterMap id).flatMap (specWindow td pad fft fd corr) := by
      intro x hx
      rw [← hflat]
      exact List.mem_flatten.2 ⟨cst, hcst, hx⟩
    exact ⟨fun x hx => hgood.1 x (sub x hx), fun x hx y hy => hgood.2 x (sub x hx) y (sub y hy)⟩
  refine ⟨_, hw, c157_completes o sep p hp _ hg, ?_⟩
  intro e he f q
  rw [c157_database o sep p hp dir _ hg e he f q]
  unfold expectedEntry
  rw [flatMap_fileAdds_single o sep hdel hrec, hflat, List.find?_filter]
  congr 3
  funext x
  simp

/-- correlations of the examples -/
def exampleOut (sta : Str) (t : Str) (n : Nat) : Out Nat :=
  ⟨⟨c!"subdivision", c!"XN-XN", sta, c!"HHZ-HHZ", t, t⟩, n⟩

/-- Two processes and three correlations of two pairs: process 1 acts between the two
actions of process 0. -/
example :
    let o : WriteOpts Nat := ⟨false, false, fun _ => []⟩
    let cst := [exampleOut c!"A-A" c!"t" 1, exampleOut c!"A-B" c!"t" 2, exampleOut c!"A-A" c!"u" 3]
    GoodCodes false cst ∧
    WriteCourse o false 2 cst [(0, (c!"XN-XN.A-A.h5", exampleOut c!"A-A" c!"t" 1)),
      (1, (c!"XN-XN.A-B.h5", exampleOut c!"A-B" c!"t" 2)), (0, (c!"XN-XN.A-A.h5", exampleOut c!"A-A" c!"u" 3))] ∧
    expectedEntry o false [] [cst] c!"XN-XN.A-A.h5" (exampleOut c!"A-A" c!"u" 3).path = some 3 := by
  refine ⟨⟨by decide, by decide⟩, ?_, by decide⟩
  refine ⟨fun r => if r = 0 then [(c!"XN-XN.A-A.h5", exampleOut c!"A-A" c!"t" 1),
    (c!"XN-XN.A-A.h5", exampleOut c!"A-A" c!"u" 3)] else [(c!"XN-XN.A-B.h5", exampleOut c!"A-B" c!"t" 2)], ?_, ?_, ?_⟩
  · intro r hr
    obtain rfl | rfl : r = 0 ∨ r = 1 := by omega
    · decide
    · decide
  · decide
  · decide

/-- Stacks: they are added after the single correlations, or instead of them. -/
example :
    let o : WriteOpts Nat := ⟨true, true, fun l => [⟨⟨c!"stack_2", c!"XN-XN", c!"A-A", c!"HHZ-HHZ", c!"t", c!"u"⟩,
      (l.map Out.val).sum⟩]⟩
    let cst := [exampleOut c!"A-A" c!"t" 1, exampleOut c!"A-A" c!"u" 3]
    rankOps o false 2 0 cst = .ok [(c!"XN-XN.A-A.h5", ⟨⟨c!"stack_2", c!"XN-XN", c!"A-A", c!"HHZ-HHZ", c!"t", c!"u"⟩, 4⟩)] ∧
    rankOps { o with delete := false } false 2 0 cst = .ok [(c!"XN-XN.A-A.h5", exampleOut c!"A-A" c!"t" 1),
      (c!"XN-XN.A-A.h5", exampleOut c!"A-A" c!"u" 3),
      (c!"XN-XN.A-A.h5", ⟨⟨c!"stack_2", c!"XN-XN", c!"A-A", c!"HHZ-HHZ", c!"t", c!"u"⟩, 4⟩)] := by
  decide

/-- A run of two windows on two processes: the hypotheses of `c157_run` are met. -/
example :
    let td : List (List Int → List Int) := [fun a => a.map (- ·)]
    let corr : List (List Int) → Nat × Nat → List Int :=
      fun B ij => List.zipWith (· * ·) (B.getD ij.1 []) (B.getD ij.2 [])
    let place (t : Str) (ij : Nat × Nat) : HPath :=
      ⟨c!"subdivision", c!"XN-XN", if ij.1 = ij.2 then c!"A-A" else c!"A-B", c!"HHZ-HHZ", t, t⟩
    let incs : List (List (Option (WinData Int))) :=
      [[some ⟨[[1], [2]], [(0, 0), (0, 1)], place c!"t"⟩, none], [some ⟨[[3], [4]], [(0, 1)], place c!"u"⟩]]
    GoodCodes false ((incs.flatten.filterMap id).flatMap (specWindow td id id [] corr)) ∧
    (((incs.flatten.filterMap id).flatMap (specWindow td id id [] corr)).map fun x => x.val) = [[1], [2], [12]] ∧
    ∃ w, runWrites 2 1 1 (td.map rowStep) id id [] corr incs = .ok w ∧ w.length = 2 := by
  refine ⟨⟨by decide, by decide⟩, by decide, _, by rfl, by decide⟩

end SeisMIC
