import Verif.Spec.Later
import Verif.Props.BulkOps
import Verif.Props.StreamSelect
import Verif.Model.ShiftMethod

/-!
# C163: results do not depend on the time at which the data were recorded
-/

namespace SeisMIC

variable {V : Type}

/-! ### Lemmas -/

theorem isort_map_key {α β : Type} (le : β → β → Bool) (le' : α → α → Bool) (f : α → β) (h : ∀ a b, le (f a) (f b) = le' a b) (l : List α) :
    isort le (l.map f) = (isort le' l).map f := by
  have ins : ∀ (x : α) (l : List α), insertSorted le (f x) (l.map f) = (insertSorted le' x l).map f := by
    intro x l
    induction l with
    | nil => rfl
    | cons y l ih =>
      simp only [List.map_cons, insertSorted, h]
      split
      · rfl
      · rw [ih]; rfl
  induction l with
  | nil => rfl
  | cons x l ih => simp only [List.map_cons, isort, ih, ins]

theorem filter_map_key {α β : Type} (p : β → Bool) (p' : α → Bool) (f : α → β) (h : ∀ a, p (f a) = p' a) (l : List α) :
    (l.map f).filter p = (l.filter p').map f := by
  rw [List.filter_map]
  congr 1
  exact List.filter_congr fun x _ => h x

theorem later_refresh (d : Int) (s : CorrStats V) : (s.later d).refresh = s.refresh.later d := by
  simp [CorrStats.later, CorrStats.refresh]

theorem isort_start_later (d : Int) (st : List (CTr V)) : isort startLe (st.map (CTr.later d)) = (isort startLe st).map (CTr.later d) :=
  isort_map_key _ _ _ (fun a b => by simp [startLe, CTr.later, CorrStats.later]) st

theorem arange_later (start stop step d : Int) : arange (start + d) (stop + d) step = (arange start stop step).map (· + d) := by
  unfold arange
  have : start + d - (stop + d) = start - stop := by omega
  rw [this, List.map_map]
  exact List.map_congr_left fun i _ => by simp; omega

theorem pyMin_later (l : List Int) (d : Int) : pyMin (l.map (· + d)) = (pyMin l).map (· + d) := by
  cases l with
  | nil => rfl
  | cons a l =>
    simp only [List.map_cons, pyMin, Except.map]
    congr 1
    induction l generalizing a with
    | nil => rfl
    | cons b l ih =>
      simp only [List.map_cons, List.foldl_cons]
      rw [← ih]
      congr 1
      omega

theorem pyMax_later (l : List Int) (d : Int) : pyMax (l.map (· + d)) = (pyMax l).map (· + d) := by
  cases l with
  | nil => rfl
  | cons a l =>
    simp only [List.map_cons, pyMax, Except.map]
    congr 1
    induction l generalizing a with
    | nil => rfl
    | cons b l ih =>
      simp only [List.map_cons, List.foldl_cons]
      rw [← ih]
      congr 1
      omega

/-! ### Streams -/

/-- **C163** (selecting) What is selected from correlations of later data, with arguments that are later by the same time, is what is selected from
the original ones, later. -/
theorem c163_select [DecidableEq V] (st : List (CTr V)) (a b d : Int) (partly : Bool) (utcs : List Int) :
    selectCorrTime (st.map (CTr.later d)) (a + d) (b + d) partly = (selectCorrTime st a b partly).map (CTr.later d) ∧
    popAtUtcs (st.map (CTr.later d)) (utcs.map (· + d)) = (popAtUtcs st utcs).map (CTr.later d) ∧
    removeDuplicates (st.map (CTr.later d)) = (removeDuplicates st).map (CTr.later d) := by
  refine ⟨?_, ?_, ?_⟩
  · unfold selectCorrTime
    simp only [isort_start_later]
    split
    · exact filter_map_key _ _ _ (fun tr => by simp [CTr.later, CorrStats.later]) _
    · exact filter_map_key _ _ _ (fun tr => by simp [CTr.later, CorrStats.later]) _
  · unfold popAtUtcs
    exact filter_map_key _ _ _ (fun tr => by simp [CTr.later, CorrStats.later, List.any_map, Function.comp_def]) _
  · have heq : ∀ a b : CTr V, (a.later d).pyEq (b.later d) = a.pyEq b := by
      intro a b
      have : (a.stats.later d = b.stats.later d) ↔ a.stats = b.stats := by
        constructor
        · intro h
          obtain ⟨a, _⟩ := a
          obtain ⟨b, _⟩ := b
          cases a
          cases b
          simp only [CorrStats.later, CorrStats.mk.injEq, Int.add_left_inj] at h ⊢
          exact h
        · intro h; rw [h]
      simp [CTr.pyEq, CTr.later, this]
    unfold removeDuplicates
    have key : ∀ (l acc : List (CTr V)), (l.map (CTr.later d)).foldl (fun acc ctr => if acc.any fun x => x.pyEq ctr then acc else acc ++ [ctr])
        (acc.map (CTr.later d)) = (l.foldl (fun acc ctr => if acc.any fun x => x.pyEq ctr then acc else acc ++ [ctr]) acc).map (CTr.later d) := by
      intro l
      induction l with
      | nil => intro acc; rfl
      | cons x l ih =>
        intro acc
        simp only [List.map_cons, List.foldl_cons]
        rw [← ih]
        congr 1
        have : (acc.map (CTr.later d)).any (fun y => y.pyEq (x.later d)) = acc.any fun y => y.pyEq x := by
          simp [List.any_map, Function.comp_def, heq]
        rw [this]
        split
        · rfl
        · simp
    exact key st []

theorem slide_some (st : List (CTr V)) (len step d t0 t1 : Int) (partly : Bool) :
    slide (st.map (CTr.later d)) len step partly (some (t0 + d)) (some (t1 + d)) =
      (slide st len step partly (some t0) (some t1)).map fun ws => ws.map fun w => w.map (CTr.later d) := by
  classical
  unfold slide
  have e3 : (st.map (CTr.later d)).map (fun tr => tr.stats.corrEnd - tr.stats.corrStart) = st.map fun tr => tr.stats.corrEnd - tr.stats.corrStart := by
    rw [List.map_map]
    exact List.map_congr_left fun tr _ => by simp [CTr.later, CorrStats.later]
  rw [e3]
  simp only [bind, Except.bind]
  cases pyMax (st.map fun tr => tr.stats.corrEnd - tr.stats.corrStart) with
  | error e => rfl
  | ok longest =>
    simp only
    split
    · rfl
    · split
      · rfl
      · simp only [pure, Except.pure, Except.map]
        congr 1
        rw [arange_later, List.map_map]
        have : (arange t0 t1 step).map ((fun start => selectCorrTime (st.map (CTr.later d)) start (start + len) partly) ∘ fun x => x + d) =
            ((arange t0 t1 step).map fun start => selectCorrTime st start (start + len) partly).map fun w => w.map (CTr.later d) := by
          rw [List.map_map]
          apply List.map_congr_left
          intro t _
          simp only [Function.comp_apply]
          have e : t + d + len = t + len + d := by omega
          rw [e]
          exact (c163_select st t (t + len) d partly []).1
        rw [this]
        exact filter_map_key _ _ _ (fun w => by cases w <;> rfl) _

theorem slide_none_start (st : List (CTr V)) (len step : Int) (partly : Bool) (b : Option Int) :
    slide st len step partly none b = (pyMin (st.map fun tr => tr.stats.corrStart)).bind fun t => slide st len step partly (some t) b := by
  unfold slide
  cases pyMin (st.map fun tr => tr.stats.corrStart) <;> rfl

theorem slide_none_stop (st : List (CTr V)) (len step : Int) (partly : Bool) (t : Int) :
    slide st len step partly (some t) none = (pyMax (st.map fun tr => tr.stats.corrEnd)).bind fun e => slide st len step partly (some t) (some e) := by
  unfold slide
  cases pyMax (st.map fun tr => tr.stats.corrEnd) <;> rfl

/-- **C163** (windows) The windows of later data are the windows, later. -/
theorem c163_slide (st : List (CTr V)) (len step d : Int) (partly : Bool) (a b : Option Int) :
    slide (st.map (CTr.later d)) len step partly (a.map (· + d)) (b.map (· + d)) =
      (slide st len step partly a b).map fun ws => ws.map fun w => w.map (CTr.later d) := by
  have e1 : (st.map (CTr.later d)).map (fun tr => tr.stats.corrStart) = (st.map fun tr => tr.stats.corrStart).map (· + d) := by
    rw [List.map_map, List.map_map]; rfl
  have e2 : (st.map (CTr.later d)).map (fun tr => tr.stats.corrEnd) = (st.map fun tr => tr.stats.corrEnd).map (· + d) := by
    rw [List.map_map, List.map_map]; rfl
  have hsome : ∀ t, slide (st.map (CTr.later d)) len step partly (some (t + d)) (b.map (· + d)) =
      (slide st len step partly (some t) b).map fun ws => ws.map fun w => w.map (CTr.later d) := by
    intro t
    cases b with
    | some e => exact slide_some st len step d t e partly
    | none =>
      rw [Option.map_none, slide_none_stop, slide_none_stop, e2, pyMax_later]
      cases pyMax (st.map fun tr => tr.stats.corrEnd) with
      | error e => rfl
      | ok e => exact slide_some st len step d t e partly
  cases a with
  | some t => exact hsome t
  | none =>
    rw [Option.map_none, slide_none_start, slide_none_start, e1, pyMin_later]
    cases pyMin (st.map fun tr => tr.stats.corrStart) with
    | error e => rfl
    | ok t => exact hsome t

theorem stackSt_later (st : List (CTr V)) (w : Weight) (norm : Bool) (d : Int) :
    stackSt (st.map (CTr.later d)) w norm = (stackSt st w norm).map (CTr.later d) := by
  unfold stackSt
  simp only [isort_start_later]
  generalize isort startLe st = l
  have hn : isort nptsLe (l.map (CTr.later d)) = (isort nptsLe l).map (CTr.later d) :=
    isort_map_key _ _ _ (fun a b => rfl) l
  rw [hn, List.head?_map, List.getLast?_map]
  cases h1 : l.head? with
  | none => rfl
  | some first =>
    cases h2 : l.getLast? with
    | none => rfl
    | some last =>
      simp only [Option.map_some]
      have hnp : (((isort nptsLe l).map (CTr.later d)).getLastD (first.later d)).stats.npts = ((isort nptsLe l).getLastD first).stats.npts := by
        rw [List.getLastD_eq_getLast?, List.getLastD_eq_getLast?, List.getLast?_map]
        cases (isort nptsLe l).getLast? <;> rfl
      rw [hnp]
      have hsel : ((isort nptsLe l).map (CTr.later d)).filter (fun tr => decide (tr.stats.npts = ((isort nptsLe l).getLastD first).stats.npts)) =
          ((isort nptsLe l).filter fun tr => decide (tr.stats.npts = ((isort nptsLe l).getLastD first).stats.npts)).map (CTr.later d) :=
        filter_map_key _ _ _ (fun tr => rfl) _
      rw [hsel, List.map_map, List.map_map]
      have hdur : ((fun tr : CTr V => ((tr.stats.corrEnd - tr.stats.corrStart : Int) : Rat) / 1000000000) ∘ CTr.later d) =
          fun tr => ((tr.stats.corrEnd - tr.stats.corrStart : Int) : Rat) / 1000000000 := by
        funext tr
        simp [CTr.later, CorrStats.later]
      rw [hdur]
      have hdat : ((fun tr : CTr V => tr.data) ∘ CTr.later d) = fun tr => tr.data := rfl
      rw [hdat]
      cases stackData w _ _ _ with
      | none => rfl
      | some data =>
        simp only [pure, Except.pure, Except.map]
        rfl

theorem groups_later (regardLoc : Bool) (st : List (CTr V)) (d : Int) :
    groups regardLoc (st.map (CTr.later d)) = (groups regardLoc st).map fun g => (g.1, g.2.map (CTr.later d)) := by
  unfold groups
  have add : ∀ (g : List (Str × List (CTr V))) (k : Str) (tr : CTr V),
      groupAdd (g.map fun g => (g.1, g.2.map (CTr.later d))) k (tr.later d) = (groupAdd g k tr).map fun g => (g.1, g.2.map (CTr.later d)) := by
    intro g k tr
    induction g with
    | nil => rfl
    | cons x g ih =>
      simp only [List.map_cons, groupAdd]
      split
      · simp
      · rw [ih]; rfl
  have key : ∀ (l : List (CTr V)) (acc : List (Str × List (CTr V))),
      (l.map (CTr.later d)).foldl (fun d tr => groupAdd d (groupKey regardLoc tr.stats) tr) (acc.map fun g => (g.1, g.2.map (CTr.later d))) =
        (l.foldl (fun d tr => groupAdd d (groupKey regardLoc tr.stats) tr) acc).map fun g => (g.1, g.2.map (CTr.later d)) := by
    intro l
    induction l with
    | nil => intro acc; rfl
    | cons x l ih =>
      intro acc
      simp only [List.map_cons, List.foldl_cons]
      rw [← ih, ← add]
      rfl
  exact key st []

theorem mapM_map_later {α β γ δ : Type} (l : List α) (f : α → β) (g : β → Except PyErr γ) (g' : α → Except PyErr δ) (k : δ → γ)
    (h : ∀ a, g (f a) = (g' a).map k) : (l.map f).mapM g = (l.mapM g').map fun r => r.map k := by
  induction l with
  | nil => rfl
  | cons x l ih =>
    rw [List.map_cons, List.mapM_cons, List.mapM_cons, ih, h]
    cases g' x with
    | error e => rfl
    | ok y =>
      cases l.mapM g' with
      | error e => rfl
      | ok r => rfl

theorem stackByGroup_later (st : List (CTr V)) (regardLoc : Bool) (w : Weight) (d : Int) :
    stackByGroup (st.map (CTr.later d)) regardLoc w = (stackByGroup st regardLoc w).map fun l => l.map (CTr.later d) := by
  unfold stackByGroup
  rw [groups_later]
  exact mapM_map_later _ _ _ _ _ fun g => stackSt_later g.2 w true d

/-- **C163** (stacking) The stacks of later data are the stacks, later: for all data in one stack and for stacks of a given length with any delay,
for daily stacks with a delay of whole days. -/
theorem c163_stack (st : List (CTr V)) (w : Weight) (a b : Option Int) (len : StackLen) (regardLoc : Bool) (d : Int)
    (hd : len = .daily → dayNs ∣ d) :
    stack (st.map (CTr.later d)) w (a.map (· + d)) (b.map (· + d)) len regardLoc =
      (stack st w a b len regardLoc).map fun l => l.map (CTr.later d) := by
  have hw : stackWindows (st.map (CTr.later d)) (a.map (· + d)) (b.map (· + d)) len =
      (stackWindows st a b len).map fun ws => ws.map fun w => w.map (CTr.later d) := by
    have core : ∀ (len' : StackLen) (n t0 t1 : Int), (len' = .daily → dayNs ∣ d) →
        slide (isort startLe (st.map (CTr.later d))) n n true
          (some (if len' = .daily then t0 + d - timeOfDay (t0 + d) else t0 + d)) (some (t1 + d)) =
        (slide (isort startLe st) n n true (some (if len' = .daily then t0 - timeOfDay t0 else t0)) (some t1)).map
          fun ws => ws.map fun w => w.map (CTr.later d) := by
      intro len' n t0 t1 hd'
      have ht : (if len' = .daily then t0 + d - timeOfDay (t0 + d) else t0 + d) = (if len' = .daily then t0 - timeOfDay t0 else t0) + d := by
        split
        · rename_i hdaily
          obtain ⟨k, rfl⟩ := hd' hdaily
          unfold timeOfDay
          rw [Int.add_mul_emod_self_left]
          omega
        · rfl
      rw [ht, isort_start_later]
      exact slide_some (isort startLe st) n n d _ t1 true
    have hh : (isort startLe (st.map (CTr.later d))).head? = (isort startLe st).head?.map (CTr.later d) := by
      rw [isort_start_later, List.head?_map]
    have hg : (isort startLe (st.map (CTr.later d))).getLast? = (isort startLe st).getLast?.map (CTr.later d) := by
      rw [isort_start_later, List.getLast?_map]
    cases len with
    | all => rfl
    | daily =>
      have c := core .daily dayNs
      unfold stackWindows
      simp only [hh, hg]
      cases a <;> cases b <;> cases (isort startLe st).head? <;> cases (isort startLe st).getLast? <;>
        first | rfl | exact c _ _ hd
    | len n =>
      have c := core (.len n) n
      unfold stackWindows
      simp only [hh, hg]
      cases a <;> cases b <;> cases (isort startLe st).head? <;> cases (isort startLe st).getLast? <;>
        first | rfl | exact c _ _ hd
  unfold stack
  rw [hw]
  cases stackWindows st a b len with
  | error e => rfl
  | ok ws =>
    simp only [Except.map, bind, Except.bind]
    rw [mapM_map_later ws (fun w => w.map (CTr.later d)) (fun x => stackByGroup x regardLoc w) (fun x => stackByGroup x regardLoc w)
      (fun l => l.map (CTr.later d)) (fun x => stackByGroup_later x regardLoc w d)]
    cases ws.mapM fun x => stackByGroup x regardLoc w with
    | error e => rfl
    | ok ss =>
      simp only [Except.map, pure, Except.pure]
      congr 1
      rw [List.map_flatten]

/-! ### Bulks -/

theorem row_later (b : Bulk V) (d : Int) (i : Nat) : (b.later d).stats.row i = (b.stats.row i).map (CorrStats.later d) := by
  simp only [BulkStats.row, Bulk.later, List.getElem?_map]
  cases b.stats.corrStart[i]? with
  | none => rfl
  | some cs =>
    cases b.stats.corrEnd[i]? with
    | none => rfl
    | some ce =>
      cases b.stats.location[i]? with
      | none => rfl
      | some loc =>
        cases b.stats.channel with
        | none => rfl
        | some l =>
          cases hl : l[i]? with
          | none => simp [hl]
          | some cha => simp [hl, CorrStats.later]

theorem createStream_later (b : Bulk V) (d : Int) : createStream (b.later d) = (createStream b).map fun st => st.map (CTr.later d) := by
  unfold createStream
  have hid : b.data.zipIdx = b.data.zipIdx.map id := (List.map_id _).symm
  show (b.data.zipIdx).mapM _ = _
  conv_lhs => rw [hid]
  refine mapM_map_later b.data.zipIdx id _ _ _ ?_
  intro x
  simp only [id]
  rw [row_later]
  cases b.stats.row x.2 with
  | none => rfl
  | some s => rfl

theorem sameImmutables_later (v : Bool) (s t : CorrStats V) (d : Int) : sameImmutables v (s.later d) (t.later d) = sameImmutables v s t := rfl

theorem createBulk_later (st : List (CTr V)) (v : Bool) (d : Int) :
    createBulk (st.map (CTr.later d)) none v = (createBulk st none v).map (Bulk.later d) := by
  unfold createBulk
  simp only
  cases st with
  | nil => rfl
  | cons first rest =>
    simp only [List.map_cons]
    have hsel : ((first.later d) :: rest.map (CTr.later d)).filter (fun tr => decide (tr.stats.samplingRate = (first.later d).stats.samplingRate)) =
        ((first :: rest).filter fun tr => decide (tr.stats.samplingRate = first.stats.samplingRate)).map (CTr.later d) := by
      rw [← List.map_cons (f := CTr.later d)]
      exact filter_map_key _ _ _ (fun tr => rfl) _
    rw [hsel]
    generalize (first :: rest).filter (fun tr => decide (tr.stats.samplingRate = first.stats.samplingRate)) = sel
    have hall : ((sel.map (CTr.later d)).all fun tr => decide ((tr.data.length : Int) = (first.later d).stats.npts)) =
        sel.all fun tr => decide ((tr.data.length : Int) = first.stats.npts) := by
      rw [List.all_map]; rfl
    rw [hall]
    split
    · have hst : ((sel.map (CTr.later d)).map fun tr => tr.stats) = (sel.map fun tr => tr.stats).map (CorrStats.later d) := by
        rw [List.map_map, List.map_map]; rfl
      have hda : ((sel.map (CTr.later d)).map fun tr => tr.data) = sel.map fun tr => tr.data := by
        rw [List.map_map]; rfl
      rw [hst, hda]
      generalize sel.map (fun tr => tr.stats) = l
      cases l with
      | nil => rfl
      | cons s l =>
        simp only [List.map_cons, convertStatlist]
        have : (((s.later d) :: l.map (CorrStats.later d)).all fun t => sameImmutables v (s.later d) t) = (s :: l).all fun t => sameImmutables v s t := by
          rw [← List.map_cons (f := CorrStats.later d), List.all_map]; rfl
        rw [this]
        split
        · simp only [bind, Except.bind, pure, Except.pure, Except.map]
          congr 1
          simp only [Bulk.later, Bulk.mk.injEq, true_and, BulkStats.mk.injEq, List.map_cons, List.map_map, List.length_cons, List.length_map]
          refine ⟨?_, ?_, ?_, ?_⟩
          · rfl
          · rfl
          · rfl
          · split <;> exact ⟨rfl, trivial⟩
        · rfl
    · rfl

theorem setLag_later (b : Bulk V) (data : List (List F)) (l : LagStats) (d : Int) :
    (⟨data, (b.later d).stats.setLag l⟩ : Bulk V) = (⟨data, b.stats.setLag l⟩ : Bulk V).later d := rfl

theorem resampleBin_later (m : Nat) (data : List (List F)) (otime : List Int) (s e d : Int) :
    resampleBin m data (otime.map (· + d)) (s + d) (e + d) = resampleBin m data otime s e := by
  unfold resampleBin
  have : (((otime.map (· + d)).zip data).filter fun td => decide (s + d ≤ td.1) && decide (td.1 < e + d)).map Prod.snd =
      ((otime.zip data).filter fun td => decide (s ≤ td.1) && decide (td.1 < e)).map Prod.snd := by
    have hz : (otime.map (· + d)).zip data = (otime.zip data).map fun p => (p.1 + d, p.2) := by
      rw [List.zip_map_left]; rfl
    rw [hz, filter_map_key _ (fun td => decide (s ≤ td.1) && decide (td.1 < e)) _ (fun p => by simp), List.map_map]
    rfl
  rw [this]

theorem resample_later (m : Nat) (data : List (List F)) (otime oend st en : List Int) (d : Int) :
    corrMatResample m data (otime.map (· + d)) (oend.map (· + d)) (st.map (· + d)) (en.map (· + d)) =
      (corrMatResample m data otime oend st en).map fun r => (r.1, r.2.1.map (· + d), r.2.2.map (· + d)) := by
  have core : ∀ etime : List Int, (((st.map (· + d)).zip (etime.map (· + d))).map fun b => resampleBin m data (otime.map (· + d)) b.1 b.2) =
      (st.zip etime).map fun b => resampleBin m data otime b.1 b.2 := by
    intro etime
    rw [List.zip_map, List.map_map]
    exact List.map_congr_left fun p _ => resampleBin_later m data otime p.1 p.2 d
  unfold corrMatResample
  simp only [List.length_map, ne_eq, List.map_eq_nil_iff, List.getLast?_map]
  split
  · rfl
  · cases st with
    | nil => rfl
    | cons s0 st =>
      cases st with
      | nil =>
        simp only [List.map_cons, List.map_nil, bind, Except.bind, pure, Except.pure]
        split
        · simp only [Except.map]
          congr 2
          exact core en
        · cases oend.getLast? with
          | none => rfl
          | some e =>
            simp only [Option.map_some, Except.map]
            congr 2
            exact core [e]
      | cons s1 st =>
        simp only [List.map_cons, bind, Except.bind, pure, Except.pure]
        split
        · simp only [Except.map]
          congr 2
          exact core en
        · simp only [Except.map]
          have he : (s0 + d + (s1 + d - (s0 + d))) :: (s1 + d + (s1 + d - (s0 + d))) :: (st.map (· + d)).map (fun s => s + (s1 + d - (s0 + d))) =
              ((s0 + (s1 - s0)) :: (s1 + (s1 - s0)) :: st.map fun s => s + (s1 - s0)).map (· + d) := by
            simp only [List.map_cons, List.map_map]
            congr 1
            · omega
            · congr 1
              · omega
              · exact List.map_congr_left fun x _ => by simp; omega
          rw [he]
          congr 2
          exact core _

theorem call_later (fuel : Nat) (filt : List F → List F) (fft : Nat → List F → List F) (b : Bulk V) (c : BulkCall) (d : Int) :
    (b.later d).call fuel filt fft (c.later d) = (b.call fuel filt fft c).map (Bulk.later d) := by
  cases c with
  | values f =>
    simp only [BulkCall.later, Bulk.call]
    have : (b.later d).stats.lag = b.stats.lag := rfl
    rw [this]
    show (f b.data b.stats.lag >>= _) = _
    cases f b.data b.stats.lag <;> rfl
  | mirror =>
    simp only [BulkCall.later, Bulk.call]
    show (match corrMatMirror b.data b.stats.lag with | none => _ | some (data, s) => _) = _
    cases corrMatMirror b.data b.stats.lag with
    | none => rfl
    | some p => rfl
  | trim a e => rfl
  | resample st en =>
    simp only [BulkCall.later, Bulk.call]
    show (corrMatResample b.stats.lag.npts b.data (b.stats.corrStart.map (· + d)) (b.stats.corrEnd.map (· + d)) _ _ >>= _) = _
    rw [resample_later]
    cases corrMatResample b.stats.lag.npts b.data b.stats.corrStart b.stats.corrEnd st en with
    | error e => rfl
    | ok r => rfl
  | resampleTimeAxis freq =>
    simp only [BulkCall.later, Bulk.call]
    have h1 : (b.later d).stats.base.samplingRate = b.stats.base.samplingRate := rfl
    have h2 : (b.later d).stats.lag = b.stats.lag := rfl
    have h3 : (b.later d).data = b.data := rfl
    rw [h1, h2, h3]
    cases decimationFactor b.stats.base.samplingRate freq with
    | some factor =>
      simp only
      cases corrMatDecimate filt b.data b.stats.lag factor with
      | error e => rfl
      | ok r => rfl
    | none =>
      simp only
      cases corrMatResampleTime fuel filt fft b.data b.stats.lag freq with
      | none => rfl
      | some r => cases r <;> rfl
  | slice a e p =>
    simp only [BulkCall.later, Bulk.call, Bulk.slice]
    have hi : sliceIndex (b.later d).stats (a + d) (e + d) p = sliceIndex b.stats a e p := by
      unfold sliceIndex
      have : (e + d ≤ a + d) ↔ e ≤ a := by omega
      simp only [this]
      split
      · rfl
      · split
        · congr 1
          show List.zipWith _ (b.stats.corrStart.map (· + d)) (b.stats.corrEnd.map (· + d)) = _
          rw [List.zipWith_map]
          congr 1
          funext s e'
          simp
        · congr 1
          show List.zipWith _ (b.stats.corrStart.map (· + d)) (b.stats.corrEnd.map (· + d)) = _
          rw [List.zipWith_map]
          congr 1
          funext s e'
          simp
    rw [hi]
    cases sliceIndex b.stats a e p with
    | error e => rfl
    | ok ii =>
      simp only [bind, Except.bind]
      split
      · rfl
      · simp only [pure, Except.pure, Except.map]
        congr 1
        simp only [Bulk.later, selectBool_map]
  | getSlice lo hi =>
    simp only [BulkCall.later, Bulk.call, Except.map]
    congr 1
    simp only [Bulk.later, Bulk.getSlice, List.map_drop, List.map_take]
  | selectTime a e p =>
    simp only [BulkCall.later, Bulk.call, Bulk.selectCorrTime]
    rw [createStream_later]
    cases createStream b with
    | error e => rfl
    | ok st =>
      simp only [Except.map, bind, Except.bind]
      classical
      rw [(c163_select st a e d p []).1]
      exact createBulk_later _ true d

/-- **C163** (any sequence of calls on a bulk) Processing a bulk of later data, with times in the arguments that are later by the same time, gives the
same samples and the same header, later. -/
theorem c163_calls (fuel : Nat) (filt : List F → List F) (fft : Nat → List F → List F) (b : Bulk V) (cs : List BulkCall) (d : Int) :
    (b.later d).calls fuel filt fft (cs.map (BulkCall.later d)) = (b.calls fuel filt fft cs).later d := by
  unfold Bulk.calls
  induction cs generalizing b with
  | nil => rfl
  | cons c cs ih =>
    rw [List.map_cons, List.foldl_cons, List.foldl_cons, ← ih, call_later]
    congr 1
    cases b.call fuel filt fft c <;> rfl

/-- **C163** (conversion) Bulks and streams of later data are those of the original data, later. -/
theorem c163_convert (st : List (CTr V)) (b : Bulk V) (v : Bool) (times : Option (Int × Int)) (d : Int) :
    createBulk (st.map (CTr.later d)) (times.map fun t => (t.1 + d, t.2 + d)) v = (createBulk st times v).map (Bulk.later d) ∧
    createStream (b.later d) = (createStream b).map fun st => st.map (CTr.later d) := by
  refine ⟨?_, createStream_later b d⟩
  cases times with
  | none => exact createBulk_later st v d
  | some t =>
    classical
    have h := createBulk_later (selectCorrTime st t.1 t.2 true) v d
    rw [← (c163_select st t.1 t.2 d true []).1] at h
    have e : ∀ l : List (CTr V), ∀ a b : Int, createBulk l (some (a, b)) v =
        (if selectCorrTime l a b true = [] then .error .valueError else createBulk (selectCorrTime l a b true) none v) := by
      intro l a b
      unfold createBulk
      simp only
      cases selectCorrTime l a b true <;> rfl
    obtain ⟨t1, t2⟩ := t
    simp only [Option.map_some, e]
    rw [h, (c163_select st t1 t2 d true []).1]
    simp only [List.map_eq_nil_iff]
    split <;> rfl

/-- **C163** (monitoring times) A later period has the same monitoring times, later. -/
theorem c163_times (start stop inc len d : Int) :
    makeTimeList (start + d) (stop + d) inc len = (makeTimeList start stop inc len).map fun r => (r.1.map (· + d), r.2.map (· + d)) := by
  unfold makeTimeList
  split
  · rfl
  · have : (start + d ≥ stop + d) ↔ start ≥ stop := by omega
    simp only [this]
    split
    · rfl
    · simp only [Except.map, arange_later, List.map_map]
      congr 2
      exact List.map_congr_left fun x _ => by simp; omega

/-! ### Curves -/

/-- **C163** (shift correction) The shift between two curves does not depend on their common time. -/
theorem c163_shift (method : Str) (d0 d1 : Dv) (t0 t1 : List Int) (nOverlap : Nat) (d : Int) :
    correctDvShiftM method d0 d1 (t0.map (· + d)) (t1.map (· + d)) nOverlap = correctDvShiftM method d0 d1 t0 t1 nOverlap := by
  have hmask : ∀ (t : List Int) (av : List Bool), maskSel (t.map (· + d)) av = (maskSel t av).map (· + d) := by
    intro t av
    unfold maskSel
    rw [List.zip_map_left, List.filterMap_map, List.map_filterMap]
    congr 1
    funext p
    simp only [Function.comp_apply, Prod.map]
    split <;> simp_all
  have hwhere : ∀ (t : List Int) (a : Int), whereFirst (t.map (· + d)) (a + d) = whereFirst t a := by
    intro t a
    unfold whereFirst
    have : (t.map (· + d)).findIdx (· = a + d) = t.findIdx (· = a) := by
      rw [List.findIdx_map]
      congr 1
      funext x
      simp
    rw [this, List.length_map]
  have : ∀ av0 av1 n, shiftWindow (t0.map (· + d)) (t1.map (· + d)) av0 av1 nOverlap n = shiftWindow t0 t1 av0 av1 nOverlap n := by
    intro av0 av1 n
    unfold shiftWindow
    simp only [hmask, List.head?_map, List.getLast?_map]
    cases (maskSel t0 av0).head? <;> cases (maskSel t1 av1).getLast? <;> cases (maskSel t1 av1).head? <;> cases (maskSel t0 av0).getLast? <;>
      simp only [Option.map_some, Option.map_none, hwhere, gt_iff_lt, Int.add_lt_add_iff_right]
  unfold correctDvShiftM
  rw [this]

/-- **C163** (time of day) A selection by the time of day gives the same correlations for data that are whole days later. -/
theorem c163_timeofday (st : List (CTr V)) (start stop d : Int) (exclude : Bool) (hd : dayNs ∣ d) :
    selectTime (st.map (CTr.later d)) start stop exclude = (selectTime st start stop exclude).map (CTr.later d) := by
  have ht : ∀ t, timeOfDay (t + d) = timeOfDay t := by
    intro t
    unfold timeOfDay
    obtain ⟨k, rfl⟩ := hd
    exact Int.add_mul_emod_self_left t dayNs k
  unfold selectTime
  exact filter_map_key _ _ _ (fun tr => by simp [CTr.later, CorrStats.later, ht]) _

/-! ### Concrete cases -/

/-- two hours of one day, 19 hours apart -/
def twoHours : List (CTr Nat) :=
  [exTr c!"A-A" 0 3600000000000 [some 1], exTr c!"A-A" 72000000000000 75600000000000 [some 3]]

/-- two days later there is one daily stack as well; its times are two days later -/
example : (dayNs : Int) ∣ 172800000000000 ∧
    (stack (twoHours.map (CTr.later 172800000000000)) .mean none none .daily true).toOption.map (fun l => l.map fun t => t.stats.corrStart) =
      some [172800000000000] ∧
    (stack twoHours .mean none none .daily true).toOption.map (fun l => l.map fun t => t.stats.corrStart) = some [0] := by
  decide +kernel

/-- Half a day later the two correlations belong to two days: daily stacks do depend on a delay that is not a number of days. -/
example : (stack (twoHours.map (CTr.later 43200000000000)) .mean none none .daily true).toOption.map (fun l => l.length) = some 2 := by
  decide +kernel

/-- Selecting 00:00 to 02:00 likewise. -/
example : (selectTime twoHours 0 7200000000000 false).length = 1 ∧
    (selectTime (twoHours.map (CTr.later 172800000000000)) 0 7200000000000 false).length = 1 ∧
    (selectTime (twoHours.map (CTr.later 43200000000000)) 0 7200000000000 false).length = 0 := by
  decide +kernel

/-- a bulk is cut and averaged; the delayed bulk with delayed arguments gives the delayed result, and the header did change -/
example : (bulk23.later 100).calls 0 id (fun n _ => List.replicate n none) [.resample [100] [120], .trim 0 1] =
      (bulk23.calls 0 id (fun n _ => List.replicate n none) [.resample [0] [20], .trim 0 1]).later 100 ∧
    (bulk23.calls 0 id (fun n _ => List.replicate n none) [.resample [0] [20], .trim 0 1]).stats.corrStart = [0] := by
  constructor
  · exact c163_calls 0 id _ bulk23 [.resample [0] [20], .trim 0 1] 100
  · decide +kernel

/-- the monitoring times of a later year -/
example : makeTimeList 1000 1010 5 5 = .ok ([1000, 1005], [1005, 1010]) ∧ makeTimeList 0 10 5 5 = .ok ([0, 5], [5, 10]) := by decide +kernel

end SeisMIC
