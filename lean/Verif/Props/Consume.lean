import Mathlib.Tactic.Push
import Verif.Lemmas.Sort
import Verif.Model.Consume

/-!
# C182: data of correlation traces that were put into a matrix

`create_corr_bulk` deletes the data of the traces that it puts into the matrix unless `inplace=False`
is given. Traces are objects that several streams can share.
-/

namespace SeisMIC

variable {V : Type}

/-! ## Specification -/

/-- the objects `h` are the traces `o`, of which some may have lost their data; no header and no datum is changed -/
def OnlyLost (o : Nat → CTr V) (h : Objs V) : Prop :=
  ∀ r, (h r).stats = (o r).stats ∧ ((h r).data = none ∨ (h r).data = some (o r).data)

/-- the traces of the stream `refs` have their data -/
def Complete (o : Nat → CTr V) (h : Objs V) (refs : List Nat) : Prop := ∀ r ∈ refs, h r = ⟨(o r).stats, some (o r).data⟩

/-- what the call has to return: the matrix of the selected traces -/
def wanted (o : Nat → CTr V) (refs : List Nat) (a : BulkArgs V) : Except PyErr (Bulk V) :=
  createBulk ((refs.map o).filter fun t => a.pick t.stats) a.times a.varyingChannel

/-- is the trace within the requested time? -/
def InTimes (t : CorrStats V) : Option (Int × Int) → Prop
  | none => True
  | some (t0, t1) => (t0 < t.corrEnd ∧ t.corrEnd < t1) ∨ t.corrEnd = t1

/-! ## Lemmas -/

theorem isort_map_of {α β : Type} (f : α → β) (le : α → α → Bool) (le' : β → β → Bool) (h : ∀ a b, le a b = le' (f a) (f b)) (l : List α) :
    (isort le l).map f = isort le' (l.map f) := by
  have ins : ∀ (a : α) (l : List α), (insertSorted le a l).map f = insertSorted le' (f a) (l.map f) := by
    intro a l
    induction l with
    | nil => rfl
    | cons b l ih =>
      simp only [insertSorted, h a b, List.map_cons]
      split
      · rfl
      · simp [ih]
  induction l with
  | nil => rfl
  | cons a l ih => simp [isort, ins, ih]

theorem isort_nodup {α : Type} (le : α → α → Bool) (l : List α) (hl : l.Nodup) : (isort le l).Nodup := (isort_perm le l).nodup_iff.2 hl

/-- the rows that are put into the matrix -/
def rowsOf (o : Nat → CTr V) (sr : Rat) (rs : List Nat) : List (List F × CorrStats V) :=
  ((rs.map o).filter fun t => t.stats.samplingRate = sr).map fun t => (t.data, t.stats)

theorem createBulk_eq (st : List (CTr V)) (times : Option (Int × Int)) (vc : Bool) :
    createBulk st times vc =
      match (match times with
        | some (a, b) => selectCorrTime st a b true
        | none => st) with
      | [] => .error (if times.isSome then .valueError else .typeError)
      | first :: l =>
        if ((first :: l).filter fun tr => tr.stats.samplingRate = first.stats.samplingRate).all fun tr => decide ((tr.data.length : Int) = first.stats.npts) then
          bulkOf vc (((first :: l).filter fun tr => tr.stats.samplingRate = first.stats.samplingRate).map fun t => (t.data, t.stats))
        else .error .valueError := by
  unfold createBulk
  cases times with
  | none =>
    cases st with
    | nil => rfl
    | cons first l =>
      simp only [bulkOf, List.map_map, Function.comp_def]
      split
      · cases convertStatlist _ vc <;> rfl
      · rfl
  | some p =>
    simp only
    cases selectCorrTime st p.1 p.2 true with
    | nil => rfl
    | cons first l =>
      simp only [bulkOf, List.map_map, Function.comp_def]
      split
      · cases convertStatlist _ vc <;> rfl
      · rfl

theorem selectRefs_map (o : Nat → CTr V) (h : Objs V) (hs : ∀ r, (h r).stats = (o r).stats) (refs : List Nat) (a b : Int) :
    (selectRefs h refs a b).map o = selectCorrTime (refs.map o) a b true := by
  simp only [selectRefs, selectCorrTime, if_true]
  rw [← isort_map_of o (fun a b => decide ((h a).stats.corrStart ≤ (h b).stats.corrStart)) startLe (by intro a b; simp [startLe, hs]), List.filter_map]
  simp [hs, Function.comp_def]

theorem selected_map (o : Nat → CTr V) (h : Objs V) (hs : ∀ r, (h r).stats = (o r).stats) (refs : List Nat) (a : BulkArgs V) :
    (a.selected h refs).map o = (match a.times with
      | some (t0, t1) => selectCorrTime ((refs.map o).filter fun t => a.pick t.stats) t0 t1 true
      | none => (refs.map o).filter fun t => a.pick t.stats) := by
  unfold BulkArgs.selected
  cases a.times with
  | none => simp [hs, List.filter_map, Function.comp_def]
  | some p => simp [selectRefs_map o h hs, hs, List.filter_map, Function.comp_def]

theorem selected_mem (h : Objs V) (refs : List Nat) (a : BulkArgs V) (r : Nat) :
    r ∈ a.selected h refs ↔ r ∈ refs ∧ a.pick (h r).stats = true ∧ InTimes (h r).stats a.times := by
  unfold BulkArgs.selected
  cases a.times with
  | none => simp [InTimes]
  | some p => simp [InTimes, selectRefs, mem_isort, and_assoc]

theorem selected_nodup (h : Objs V) (refs : List Nat) (a : BulkArgs V) (hn : refs.Nodup) : (a.selected h refs).Nodup := by
  unfold BulkArgs.selected
  have h1 := hn.filter fun r => a.pick (h r).stats
  cases a.times with
  | none => exact h1
  | some p => exact (isort_nodup _ _ h1).filter _

theorem wanted_eq (o : Nat → CTr V) (h : Objs V) (hs : ∀ r, (h r).stats = (o r).stats) (refs : List Nat) (a : BulkArgs V) :
    wanted o refs a = match a.selected h refs with
      | [] => .error (if a.times.isSome then .valueError else .typeError)
      | r :: rs =>
        if ((rowsOf o (o r).stats.samplingRate (r :: rs)).all fun x => decide ((x.1.length : Int) = (o r).stats.npts)) then
          bulkOf a.varyingChannel (rowsOf o (o r).stats.samplingRate (r :: rs))
        else .error .valueError := by
  unfold wanted
  rw [createBulk_eq]
  rw [← selected_map o h hs]
  cases a.selected h refs with
  | nil => rfl
  | cons r rs => simp only [List.map_cons, rowsOf, List.all_map]; rfl

theorem onlyLost_del {o : Nat → CTr V} {h : Objs V} (hk : OnlyLost o h) (r : Nat) : OnlyLost o (h.del r) := by
  intro i
  unfold Objs.del
  split
  · exact ⟨(hk i).1, Or.inl rfl⟩
  · exact hk i

theorem bulkLoop_ok (o : Nat → CTr V) (sr : Rat) (n : Int) (ip : Bool) (rs : List Nat) :
    ∀ (h : Objs V), OnlyLost o h → (∀ l, (bulkLoop sr n ip h rs).1 = .ok l → l = rowsOf o sr rs ∧ ∀ x ∈ l, (x.1.length : Int) = n) ∧
      OnlyLost o (bulkLoop sr n ip h rs).2 := by
  induction rs with
  | nil =>
    intro h hk
    refine ⟨fun l e => ?_, hk⟩
    cases e
    simp [rowsOf]
  | cons r rs ih =>
    intro h hk
    rw [bulkLoop]
    split
    · rename_i hr
      have := ih h hk
      rw [(hk r).1] at hr
      simpa [rowsOf, hr] using this
    · rename_i hr
      rw [(hk r).1] at hr
      push Not at hr
      split
      · exact ⟨fun l e => (by cases e), hk⟩
      · rename_i d hd
        split
        · exact ⟨fun l e => (by cases e), hk⟩
        · rename_i hn
          push Not at hn
          have hk' : OnlyLost o (if ip then h.del r else h) := by
            split
            · exact onlyLost_del hk r
            · exact hk
          have hi := ih _ hk'
          refine ⟨?_, hi.2⟩
          intro l e
          simp only at e
          cases hb : (bulkLoop sr n ip (if ip then h.del r else h) rs).1 with
          | error x => rw [hb] at e; cases e
          | ok l' =>
            rw [hb] at e
            cases e
            have h1 := hi.1 l' hb
            have hdo : d = (o r).data := by
              rcases (hk r).2 with h2 | h2
              · rw [h2] at hd; cases hd
              · rw [h2] at hd; exact (Option.some.inj hd).symm
            constructor
            · simp [rowsOf, hr, hdo, (hk r).1, h1.1]
            · intro x hx
              rcases List.mem_cons.1 hx with rfl | hx
              · exact hn
              · exact h1.2 x hx

theorem bulkLoop_complete (o : Nat → CTr V) (sr : Rat) (n : Int) (ip : Bool) (rs : List Nat) :
    ∀ (h : Objs V), Complete o h rs → (ip = true → rs.Nodup) →
      (bulkLoop sr n ip h rs).1 = if (rowsOf o sr rs).all fun x => decide ((x.1.length : Int) = n) then .ok (rowsOf o sr rs) else .error .valueError := by
  induction rs with
  | nil => intro h _ _; simp [bulkLoop, rowsOf]
  | cons r rs ih =>
    intro h hc hn
    have hr := hc r (List.mem_cons_self ..)
    have hc' : Complete o h rs := fun x hx => hc x (List.mem_cons_of_mem _ hx)
    rw [bulkLoop, hr]
    simp only
    split
    · rename_i hs
      rw [ih h hc' (fun e => (List.nodup_cons.1 (hn e)).2)]
      simp [rowsOf, hs]
    · rename_i hs
      push Not at hs
      have hrows : rowsOf o sr (r :: rs) = ((o r).data, (o r).stats) :: rowsOf o sr rs := by simp [rowsOf, hs]
      split
      · rename_i hl
        rw [hrows]
        simp [hl]
      · rename_i hl
        push Not at hl
        have hc2 : Complete o (if ip then h.del r else h) rs := by
          intro x hx
          cases ip with
          | false => exact hc' x hx
          | true =>
            have hne : x ≠ r := fun e => (List.nodup_cons.1 (hn rfl)).1 (e ▸ hx)
            simp only [if_true, Objs.del, if_neg hne]
            exact hc' x hx
        rw [ih _ hc2 (fun e => (List.nodup_cons.1 (hn e)).2), hrows]
        simp only [List.all_cons, hl, decide_true, Bool.true_and]
        split <;> rfl

theorem bulkLoop_objs (sr : Rat) (n : Int) (ip : Bool) (rs : List Nat) :
    ∀ (h : Objs V) (i : Nat), (bulkLoop sr n ip h rs).2 i = h i ∨
      (ip = true ∧ i ∈ rs ∧ (h i).stats.samplingRate = sr ∧ (bulkLoop sr n ip h rs).2 i = { h i with data := none }) := by
  induction rs with
  | nil => intro h i; exact Or.inl rfl
  | cons r rs ih =>
    intro h i
    rw [bulkLoop]
    split
    · rcases ih h i with e | ⟨a, b, c, d⟩
      · exact Or.inl e
      · exact Or.inr ⟨a, List.mem_cons_of_mem _ b, c, d⟩
    · rename_i hs
      push Not at hs
      split
      · exact Or.inl rfl
      · split
        · exact Or.inl rfl
        · simp only
          cases ip with
          | false =>
            rcases ih h i with e | ⟨a, _⟩
            · exact Or.inl (by simpa using e)
            · cases a
          | true =>
            simp only [if_true]
            by_cases hi : i = r
            · subst hi
              refine Or.inr ⟨by simp, List.mem_cons_self .., hs, ?_⟩
              rcases ih (h.del i) i with e | ⟨_, _, _, d⟩
              · rw [e]; simp [Objs.del]
              · rw [d]; simp [Objs.del]
            · have hd : (h.del r) i = h i := by simp [Objs.del, hi]
              rcases ih (h.del r) i with e | ⟨_, b, c, d⟩
              · exact Or.inl (e.trans hd)
              · rw [hd] at c d
                exact Or.inr ⟨by simp, List.mem_cons_of_mem _ b, c, d⟩

theorem bulkLoop_lost (sr : Rat) (n : Int) (rs : List Nat) :
    ∀ (h : Objs V) (l : List (List F × CorrStats V)), (bulkLoop sr n true h rs).1 = .ok l →
      ∀ i ∈ rs, (h i).stats.samplingRate = sr → (bulkLoop sr n true h rs).2 i = { h i with data := none } := by
  induction rs with
  | nil => intro h l _ i hi; cases hi
  | cons r rs ih =>
    intro h l e i hi hsi
    rw [bulkLoop] at e ⊢
    split at e
    · rename_i hs
      rw [if_pos hs]
      rcases List.mem_cons.1 hi with rfl | hi
      · exact absurd hsi hs
      · exact ih h l e i hi hsi
    · rename_i hs
      rw [if_neg hs]
      cases hd : (h r).data with
      | none => rw [hd] at e; cases e
      | some d =>
        rw [hd] at e
        simp only at e ⊢
        split at e
        · cases e
        · rename_i hl
          rw [if_neg hl]
          simp only [if_true] at e ⊢
          cases hb : (bulkLoop sr n true (h.del r) rs).1 with
          | error x => rw [hb] at e; cases e
          | ok l' =>
            by_cases hir : i = r
            · subst hir
              rcases bulkLoop_objs sr n true rs (h.del i) i with e2 | ⟨_, _, _, e2⟩
              · rw [e2]; simp [Objs.del]
              · rw [e2]; simp [Objs.del]
            · have hi' : i ∈ rs := by
                rcases List.mem_cons.1 hi with e2 | e2
                · exact absurd e2 hir
                · exact e2
              have hdi : (h.del r) i = h i := by simp [Objs.del, hir]
              rw [ih (h.del r) l' hb i hi' (by rw [hdi]; exact hsi), hdi]

theorem createBulkObj_ok (o : Nat → CTr V) (h : Objs V) (hk : OnlyLost o h) (refs : List Nat) (a : BulkArgs V) :
    (∀ b, (createBulkObj h refs a).1 = .ok b → wanted o refs a = .ok b) ∧ OnlyLost o (createBulkObj h refs a).2 := by
  have hs : ∀ r, (h r).stats = (o r).stats := fun r => (hk r).1
  rw [wanted_eq o h hs]
  unfold createBulkObj
  cases a.selected h refs with
  | nil => exact ⟨fun b e => (by cases e), hk⟩
  | cons r rs =>
    simp only
    have hl := bulkLoop_ok o (h r).stats.samplingRate (h r).stats.npts a.inplace (r :: rs) h hk
    refine ⟨fun b e => ?_, hl.2⟩
    cases hb : (bulkLoop (h r).stats.samplingRate (h r).stats.npts a.inplace h (r :: rs)).1 with
    | error x => rw [hb] at e; cases e
    | ok l =>
      rw [hb] at e
      obtain ⟨h1, h2⟩ := hl.1 l hb
      rw [hs] at h1 h2
      rw [← h1, if_pos (by simpa using h2)]
      exact e

/-! ## C182 -/

/-- C182: whatever calls of `create_corr_bulk` were made before, on this or on other streams that share the traces, with any selection and
also if they failed: each matrix that is returned is the matrix of the original traces, never one of other or missing data, and no header
and no remaining data of any trace have been changed -/
theorem c182_history (o : Nat → CTr V) (calls : List (List Nat × BulkArgs V)) (h : Objs V) (hk : OnlyLost o h) :
    (∀ (i : Nat) (refs : List Nat) (a : BulkArgs V) (b : Bulk V), calls[i]? = some (refs, a) → (bulkCalls h calls).1[i]? = some (.ok b) →
      wanted o refs a = .ok b) ∧ OnlyLost o (bulkCalls h calls).2 := by
  induction calls generalizing h with
  | nil => exact ⟨fun i refs a b e => by simp at e, hk⟩
  | cons c cs ih =>
    obtain ⟨refs0, a0⟩ := c
    have h1 := createBulkObj_ok o h hk refs0 a0
    have h2 := ih (createBulkObj h refs0 a0).2 h1.2
    simp only [bulkCalls]
    refine ⟨fun i refs a b e1 e2 => ?_, h2.2⟩
    cases i with
    | zero =>
      simp only [List.getElem?_cons_zero, Option.some.injEq, Prod.mk.injEq] at e1 e2
      obtain ⟨rfl, rfl⟩ := e1
      exact h1.1 b e2
    | succ i =>
      simp only [List.getElem?_cons_succ] at e1 e2
      exact h2.1 i refs a b e1 e2

/-- C182: with `inplace=False` the traces stay as they are, and the result, also an exception, is that of the selected traces -/
theorem c182_kept (o : Nat → CTr V) (h : Objs V) (hk : OnlyLost o h) (refs : List Nat) (hc : Complete o h refs) (a : BulkArgs V) (ha : a.inplace = false) :
    createBulkObj h refs a = (wanted o refs a, h) := by
  have hs : ∀ r, (h r).stats = (o r).stats := fun r => (hk r).1
  rw [wanted_eq o h hs]
  unfold createBulkObj
  have hsel : ∀ x ∈ a.selected h refs, x ∈ refs := fun x hx => ((selected_mem h refs a x).1 hx).1
  cases hse : a.selected h refs with
  | nil => rfl
  | cons r rs =>
    rw [hse] at hsel
    have hl := bulkLoop_complete o (h r).stats.samplingRate (h r).stats.npts a.inplace (r :: rs) h (fun x hx => hc x (hsel x hx)) (by simp [ha])
    have ho : (bulkLoop (h r).stats.samplingRate (h r).stats.npts a.inplace h (r :: rs)).2 = h := by
      funext i
      rcases bulkLoop_objs (h r).stats.samplingRate (h r).stats.npts a.inplace (r :: rs) h i with e | ⟨e, _⟩
      · exact e
      · rw [ha] at e; cases e
    simp only
    rw [hl, ho]
    simp only [hs]
    split <;> rfl

/-- C182: without `inplace=False` the result, also an exception, is the same; if a matrix is returned, then exactly the selected traces with
the sampling rate of the first one have lost their data -/
theorem c182_default (o : Nat → CTr V) (h : Objs V) (hk : OnlyLost o h) (refs : List Nat) (hc : Complete o h refs) (hn : refs.Nodup) (a : BulkArgs V)
    (ha : a.inplace = true) :
    (createBulkObj h refs a).1 = wanted o refs a ∧
    ∀ b, (createBulkObj h refs a).1 = .ok b → ∃ first ∈ refs, ∀ r, (createBulkObj h refs a).2 r =
      (open Classical in if r ∈ refs ∧ a.pick (o r).stats = true ∧ InTimes (o r).stats a.times ∧ (o r).stats.samplingRate = (o first).stats.samplingRate
        then { h r with data := none } else h r) := by
  have hs : ∀ r, (h r).stats = (o r).stats := fun r => (hk r).1
  have hmem := selected_mem h refs a
  have hsn := selected_nodup h refs a hn
  rw [wanted_eq o h hs]
  unfold createBulkObj
  cases hse : a.selected h refs with
  | nil => exact ⟨rfl, fun b e => by cases e⟩
  | cons r rs =>
    rw [hse] at hmem hsn
    have hl := bulkLoop_complete o (h r).stats.samplingRate (h r).stats.npts a.inplace (r :: rs) h (fun x hx => hc x ((hmem x).1 hx).1) (fun _ => hsn)
    simp only
    constructor
    · rw [hl]
      simp only [hs]
      split <;> rfl
    · intro b e
      refine ⟨r, ((hmem r).1 (List.mem_cons_self ..)).1, fun i => ?_⟩
      rw [ha] at e ⊢
      cases hb : (bulkLoop (h r).stats.samplingRate (h r).stats.npts true h (r :: rs)).1 with
      | error x => rw [hb] at e; cases e
      | ok l =>
        split
        · rename_i hi
          refine bulkLoop_lost _ _ (r :: rs) h l hb i ((hmem i).2 ⟨hi.1, ?_, ?_⟩) ?_
          · rw [hs]; exact hi.2.1
          · rw [hs]; exact hi.2.2.1
          · rw [hs, hs]; exact hi.2.2.2
        · rename_i hi
          rcases bulkLoop_objs (h r).stats.samplingRate (h r).stats.npts true (r :: rs) h i with e2 | ⟨_, e3, e4, _⟩
          · exact e2
          · refine absurd ?_ hi
            have := (hmem i).1 e3
            rw [hs] at this
            rw [hs, hs] at e4
            exact ⟨this.1, this.2.1, this.2.2, e4⟩

/-- C182: traces that are not selected are not touched, whatever the outcome of the call -/
theorem c182_others (h : Objs V) (refs : List Nat) (a : BulkArgs V) (r : Nat)
    (hr : r ∉ refs ∨ a.pick (h r).stats = false ∨ ¬ InTimes (h r).stats a.times) : (createBulkObj h refs a).2 r = h r := by
  unfold createBulkObj
  have hmem := selected_mem h refs a r
  cases hse : a.selected h refs with
  | nil => rfl
  | cons f rs =>
    rw [hse] at hmem
    simp only
    rcases bulkLoop_objs (h f).stats.samplingRate (h f).stats.npts a.inplace (f :: rs) h r with e | ⟨_, e, _⟩
    · exact e
    · obtain ⟨h1, h2, h3⟩ := hmem.1 e
      rcases hr with hr | hr | hr
      · exact absurd h1 hr
      · rw [hr] at h2; cases h2
      · exact absurd h3 hr

/-- C182: the same call again is an AttributeError and not a matrix of other data -/
theorem c182_again (o : Nat → CTr V) (h : Objs V) (hk : OnlyLost o h) (refs : List Nat) (a : BulkArgs V) (ha : a.inplace = true) (b : Bulk V)
    (hb : (createBulkObj h refs a).1 = .ok b) : (createBulkObj (createBulkObj h refs a).2 refs a).1 = .error .attributeError := by
  have hk' := (createBulkObj_ok o h hk refs a).2
  have hst : ∀ r, ((createBulkObj h refs a).2 r).stats = (h r).stats := fun r => (hk' r).1.trans (hk r).1.symm
  have hsel : a.selected (createBulkObj h refs a).2 refs = a.selected h refs := by
    simp only [BulkArgs.selected, selectRefs, hst]
  unfold createBulkObj at hb ⊢
  cases hse : a.selected h refs with
  | nil => rw [hse] at hb; cases hb
  | cons r rs =>
    rw [hse] at hb
    simp only at hb
    unfold createBulkObj at hsel hst
    simp only [hse] at hsel hst ⊢
    rw [hsel]
    simp only
    rw [ha] at hb hst ⊢
    cases hbl : (bulkLoop (h r).stats.samplingRate (h r).stats.npts true h (r :: rs)).1 with
    | error x => rw [hbl] at hb; cases hb
    | ok l =>
      have hl := bulkLoop_lost _ _ (r :: rs) h l hbl r (List.mem_cons_self ..) rfl
      rw [bulkLoop]
      rw [hl]
      simp
      rfl

/-- two traces of different stations, one sample each -/
def exCons : Nat → CTr Nat := fun r =>
  ⟨{ CorrStats.default with station := if r = 0 then c!"A" else c!"B", npts := 1, corrStart := r, corrEnd := r + 1 }, [some (r : Rat)]⟩

/-- the objects before the first call -/
def exObjs : Objs Nat := fun r => ⟨(exCons r).stats, some (exCons r).data⟩

/-- all traces, all times -/
def exArgs : BulkArgs Nat := ⟨fun _ => true, none, false, true⟩

/-- only station A -/
def exArgsA : BulkArgs Nat := ⟨fun s => decide (s.station = c!"A"), none, false, true⟩

example : OnlyLost exCons exObjs ∧ Complete exCons exObjs [0, 1] ∧ [0, 1].Nodup := ⟨fun _ => ⟨rfl, Or.inr rfl⟩, fun _ _ => rfl, by decide⟩

example : ∃ b, (createBulkObj exObjs [0, 1] exArgsA).1 = .ok b ∧ b.data = [[some 0]] ∧ ((createBulkObj exObjs [0, 1] exArgsA).2 0).data = none ∧
    ((createBulkObj exObjs [0, 1] exArgsA).2 1).data = some [some 1] := ⟨_, rfl, by decide +kernel, rfl, rfl⟩

/-- the calls: failing, then station A -/
example : ((bulkCalls exObjs [([0, 1], exArgsA), ([0, 1], { exArgs with inplace := false }), ([1], exArgs)]).1.map fun r => r.toOption.map Bulk.data) =
    [some [[some 0]], none, some [[some 1]]] := by decide +kernel

example : (0 : Nat) ∉ [1] ∨ exArgsA.pick (exObjs 1).stats = false := Or.inr (by decide +kernel)

/-- C182: a call that fails, here because the traces are of different stations, has deleted the data nevertheless -/
theorem c182_failed_violated : ∃ (h : Objs Nat) (refs : List Nat) (a : BulkArgs Nat), Complete exCons h refs ∧ refs.Nodup ∧
    (createBulkObj h refs a).1 = .error .valueError ∧ ∀ r ∈ refs, ((createBulkObj h refs a).2 r).data = none :=
  ⟨exObjs, [0, 1], exArgs, fun _ _ => rfl, by decide, rfl, by decide +kernel⟩

end SeisMIC
