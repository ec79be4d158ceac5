import Verif.Model.Queries
import Verif.Props.StreamSelect
import Verif.Props.InversionRun
import Verif.Props.OtherStations

/-!
# C190: queries to a stream do not change what it holds
-/

namespace SeisMIC

variable {V : Type}

/-- the stream after a history of calls -/
def afterQueries (dist : CTr V → Rat) (st : List (CTr V)) (qs : List StreamQuery) : List (CTr V) :=
  qs.foldl (fun st q => q.after dist st) st

theorem plotSort_perm (dist : CTr V → Rat) (b : Bool) (st : List (CTr V)) : (plotSort dist b st).Perm st := by
  unfold plotSort
  simp only
  split
  · exact (isort_perm _ _).trans ((isort_perm _ _).trans ((isort_perm _ _).trans (isort_perm _ _)))
  · exact (isort_perm _ _).trans ((isort_perm _ _).trans ((isort_perm _ _).trans (isort_perm _ _)))

theorem after_perm (dist : CTr V → Rat) (q : StreamQuery) (st : List (CTr V)) : (q.after dist st).Perm st := by
  unfold StreamQuery.after
  cases q with
  | select a b p => exact isort_perm _ _
  | slide wl step p s e =>
    simp only
    split
    · exact isort_perm _ _
    · exact List.Perm.refl _
  | stack w s e len r =>
    simp only
    split
    · exact List.Perm.refl _
    · exact isort_perm _ _
  | plot b =>
    simp only
    split
    · exact List.Perm.refl _
    · exact plotSort_perm _ _ _

/-- **C190** No query loses, adds or changes a correlation: after any number of queries the stream holds what it held before. -/
theorem c190_nothing_lost (dist : CTr V → Rat) (st : List (CTr V)) (qs : List StreamQuery) : (afterQueries dist st qs).Perm st := by
  unfold afterQueries
  induction qs generalizing st with
  | nil => exact List.Perm.refl _
  | cons q qs ih => exact (ih _).trans (after_perm dist q st)

theorem isort_startLe_idem (st : List (CTr V)) : isort startLe (isort startLe st) = isort startLe st :=
  isort_eq_self _ _ (isort_sorted startLe startLe_total startLe_trans st)

/-- calls other than plots leave the stream as it is or sorted by time -/
theorem after_noPlot (dist : CTr V → Rat) (q : StreamQuery) (hq : ∀ b, q ≠ .plot b) (st : List (CTr V)) :
    q.after dist st = st ∨ q.after dist st = isort startLe st := by
  unfold StreamQuery.after
  cases q with
  | select a b p => exact Or.inr rfl
  | slide wl step p s e =>
    simp only
    split
    · exact Or.inr rfl
    · exact Or.inl rfl
  | stack w s e len r =>
    simp only
    split
    · exact Or.inl rfl
    · exact Or.inr rfl
  | plot b => exact absurd rfl (hq b)

theorem afterQueries_noPlot (dist : CTr V → Rat) (st : List (CTr V)) (qs : List StreamQuery) (h : ∀ q ∈ qs, ∀ b, q ≠ .plot b) :
    afterQueries dist st qs = st ∨ afterQueries dist st qs = isort startLe st := by
  have key : ∀ (qs : List StreamQuery) (s : List (CTr V)), (∀ q ∈ qs, ∀ b, q ≠ .plot b) → (s = st ∨ s = isort startLe st) →
      (afterQueries dist s qs = st ∨ afterQueries dist s qs = isort startLe st) := by
    intro qs
    induction qs with
    | nil => intro s _ hs; exact hs
    | cons q qs ih =>
      intro s hq hs
      refine ih _ (fun q' h' => hq q' (by simp [h'])) ?_
      rcases after_noPlot dist q (hq q (by simp)) s with e | e
      · show q.after dist s = st ∨ q.after dist s = isort startLe st
        rw [e]; exact hs
      · right
        show q.after dist s = isort startLe st
        rw [e]
        rcases hs with rfl | rfl
        · rfl
        · exact isort_startLe_idem st
  exact key qs st h (Or.inl rfl)

theorem selectCorrTime_sorted (st : List (CTr V)) (a b : Int) (p : Bool) :
    selectCorrTime (isort startLe st) a b p = selectCorrTime st a b p := by
  unfold selectCorrTime
  rw [isort_startLe_idem]

theorem foldl_max_perm {l l' : List Int} (h : l.Perm l') (a : Int) : l.foldl max a = l'.foldl max a :=
  h.foldl_eq' (fun _ _ _ _ _ => by omega) a

theorem foldl_min_perm {l l' : List Int} (h : l.Perm l') (a : Int) : l.foldl min a = l'.foldl min a :=
  h.foldl_eq' (fun _ _ _ _ _ => by omega) a

theorem pyMax_perm {l l' : List Int} (h : l.Perm l') : pyMax l = pyMax l' := by
  cases l with
  | nil => rw [List.nil_perm.1 h]
  | cons a l =>
    cases l' with
    | nil => exact absurd h.symm (by simp)
    | cons b l' =>
      have e := foldl_max_perm h a
      have e' := foldl_max_perm h b
      have m1 : ∀ (l : List Int) (x : Int), l.foldl max x = max x (l.foldl max x) := by
        intro l
        induction l with
        | nil => intro x; simp
        | cons y l ih => intro x; simp only [List.foldl_cons]; rw [ih]; omega
      have hb : b ∈ a :: l := h.mem_iff.2 (by simp)
      have ha : a ∈ b :: l' := h.mem_iff.1 (by simp)
      have ub : ∀ (l : List Int) (x y : Int), y ∈ l → y ≤ l.foldl max x := by
        intro l
        induction l with
        | nil => simp
        | cons z l ih =>
          intro x y hy
          rcases List.mem_cons.1 hy with rfl | hy
          · simp only [List.foldl_cons]; have := m1 l (max x y); omega
          · exact ih _ _ hy
      have sw : ∀ (l : List Int) (x y : Int), l.foldl max (max x y) = max x (l.foldl max y) := by
        intro l
        induction l with
        | nil => intro x y; rfl
        | cons z l ih => intro x y; simp only [List.foldl_cons]; rw [show max (max x y) z = max x (max y z) by omega, ih]
      simp only [pyMax]
      congr 1
      have e1 : (a :: l).foldl max a = l.foldl max a := by simp
      have e2 : (b :: l').foldl max b = l'.foldl max b := by simp
      have e3 : (b :: l').foldl max a = max a (l'.foldl max b) := by simp only [List.foldl_cons]; rw [sw]
      have e4 : (a :: l).foldl max b = max b (l.foldl max a) := by simp only [List.foldl_cons]; rw [sw]
      omega

theorem pyMin_neg (l : List Int) : pyMin l = (pyMax (l.map Neg.neg)).map Neg.neg := by
  cases l with
  | nil => rfl
  | cons a l =>
    simp only [pyMin, pyMax, List.map_cons, Except.map]
    congr 1
    have : ∀ (l : List Int) (x : Int), l.foldl min x = -((l.map Neg.neg).foldl max (-x)) := by
      intro l
      induction l with
      | nil => intro x; simp
      | cons y l ih =>
        intro x
        simp only [List.foldl_cons, List.map_cons]
        rw [ih, show -(min x y) = max (-x) (-y) by omega]
    exact this l a

theorem pyMin_perm {l l' : List Int} (h : l.Perm l') : pyMin l = pyMin l' := by
  rw [pyMin_neg, pyMin_neg, pyMax_perm (h.map _)]

theorem slide_sorted (st : List (CTr V)) (wl step : Int) (p : Bool) (s e : Option Int) :
    slide (isort startLe st) wl step p s e = slide st wl step p s e := by
  have hp := isort_perm startLe st
  unfold slide
  simp only [selectCorrTime_sorted, pyMin_perm (hp.map fun tr => tr.stats.corrStart), pyMax_perm (hp.map fun tr => tr.stats.corrEnd),
    pyMax_perm (hp.map fun tr => tr.stats.corrEnd - tr.stats.corrStart)]

theorem stackWindows_sorted (st : List (CTr V)) (s e : Option Int) (len : StackLen) (h : len ≠ .all) :
    stackWindows (isort startLe st) s e len = stackWindows st s e len := by
  unfold stackWindows
  cases len with
  | all => exact absurd rfl h
  | daily => simp only [isort_startLe_idem]
  | len n => simp only [isort_startLe_idem]

theorem stackSt_sorted (st : List (CTr V)) (w : Weight) (norm : Bool) : stackSt (isort startLe st) w norm = stackSt st w norm := by
  unfold stackSt
  simp only [isort_startLe_idem]

/-- **C190** Selections by time, sliding windows and stacks of time windows are the same after any history of such calls. -/
theorem c190_same_answers (dist : CTr V → Rat) (st : List (CTr V)) (qs : List StreamQuery) (h : ∀ q ∈ qs, ∀ b, q ≠ .plot b) :
    (∀ a b p, selectCorrTime (afterQueries dist st qs) a b p = selectCorrTime st a b p) ∧
    (∀ wl step p s e, slide (afterQueries dist st qs) wl step p s e = slide st wl step p s e) ∧
    ∀ w s e len r, len ≠ .all → stack (afterQueries dist st qs) w s e len r = stack st w s e len r := by
  rcases afterQueries_noPlot dist st qs h with hs | hs
  · rw [hs]; exact ⟨fun _ _ _ => rfl, fun _ _ _ _ _ => rfl, fun _ _ _ _ _ _ => rfl⟩
  · rw [hs]
    refine ⟨selectCorrTime_sorted st, slide_sorted st, fun w s e len r hl => ?_⟩
    unfold stack
    rw [stackWindows_sorted st s e len hl]

theorem stackByGroup_keys (st : List (CTr V)) (r : Bool) (w : Weight) :
    stackByGroup st r w = ((groups r st).map Prod.fst).mapM fun k => stackSt (st.filter fun tr => groupKey r tr.stats = k) w true := by
  unfold stackByGroup
  have h4 := (groups_spec r st).2.2.2
  have : ∀ l : List (Str × List (CTr V)), (∀ x ∈ l, x ∈ groups r st) →
      (l.mapM fun g => stackSt g.2 w true) = (l.map Prod.fst).mapM fun k => stackSt (st.filter fun tr => groupKey r tr.stats = k) w true := by
    intro l
    induction l with
    | nil => intro _; rfl
    | cons x l ih =>
      intro hx
      rw [List.mapM_cons, List.map_cons, List.mapM_cons, ih fun y hy => hx y (by simp [hy]), h4 x.1 x.2 (hx x (by simp))]
  exact this _ fun _ h => h

/-- **C190** Stacks of all correlations are the same, too; they may come in another order. -/
theorem c190_stack_all (dist : CTr V → Rat) (st : List (CTr V)) (qs : List StreamQuery) (h : ∀ q ∈ qs, ∀ b, q ≠ .plot b)
    (w : Weight) (s e : Option Int) (r : Bool) (out : List (CTr V)) (ho : stack st w s e .all r = .ok out) :
    ∃ out', stack (afterQueries dist st qs) w s e .all r = .ok out' ∧ out'.Perm out := by
  have hone : ∀ st' : List (CTr V), stack st' w s e .all r = (stackByGroup st' r w) := by
    intro st'
    unfold stack stackWindows
    simp only [bind, Except.bind, pure, Except.pure, List.mapM_cons, List.mapM_nil]
    cases stackByGroup st' r w <;> simp
  rcases afterQueries_noPlot dist st qs h with hs | hs
  · rw [hs]; exact ⟨out, ho, List.Perm.refl _⟩
  · rw [hs, hone]
    rw [hone, stackByGroup_keys] at ho
    have hk : ((groups r st).map Prod.fst).Perm ((groups r (isort startLe st)).map Prod.fst) := by
      refine (List.perm_ext_iff_of_nodup (groups_spec r st).1 (groups_spec r _).1).2 fun k => ?_
      rw [(groups_spec r st).2.2.1, (groups_spec r _).2.2.1]
      simp only [mem_isort]
    obtain ⟨out', h1, h2⟩ := mapM_perm hk _ out ho
    refine ⟨out', ?_, h2.symm⟩
    rw [stackByGroup_keys, ← h1]
    congr 1
    funext k
    rw [← isort_filter_any startLe startLe_total startLe_trans, stackSt_sorted]

/-- **C190** With plots in the history, the selected correlations are still the same, but those with the same start may
come in another order. -/
theorem c190_after_plots (dist : CTr V → Rat) (st : List (CTr V)) (qs : List StreamQuery) (a b : Int) (p : Bool) :
    (selectCorrTime (afterQueries dist st qs) a b p).Perm (selectCorrTime st a b p) := by
  have hp := c190_nothing_lost dist st qs
  unfold selectCorrTime
  have hq : (isort startLe (afterQueries dist st qs)).Perm (isort startLe st) :=
    (isort_perm _ _).trans (hp.trans (isort_perm _ _).symm)
  simp only
  split
  · exact hq.filter _
  · exact hq.filter _

/-- **C190** If no two correlations start at the same time, every call of any history has the same answer, plots or not. -/
theorem c190_distinct_starts (dist : CTr V → Rat) (st : List (CTr V)) (qs : List StreamQuery)
    (hd : ∀ x ∈ st, ∀ y ∈ st, x.stats.corrStart = y.stats.corrStart → x = y) :
    (∀ a b p, selectCorrTime (afterQueries dist st qs) a b p = selectCorrTime st a b p) ∧
    (∀ wl step p s e, slide (afterQueries dist st qs) wl step p s e = slide st wl step p s e) ∧
    ∀ w s e len r, len ≠ .all → stack (afterQueries dist st qs) w s e len r = stack st w s e len r := by
  have hp := c190_nothing_lost dist st qs
  have he : isort startLe (afterQueries dist st qs) = isort startLe st := by
    refine List.Perm.eq_of_pairwise ?_ (isort_sorted startLe startLe_total startLe_trans _)
      (isort_sorted startLe startLe_total startLe_trans _) ((isort_perm _ _).trans (hp.trans (isort_perm _ _).symm))
    intro a b ha hb h1 h2
    refine hd a (hp.mem_iff.1 (mem_isort.1 ha)) b (mem_isort.1 hb) ?_
    simp only [startLe, decide_eq_true_eq] at h1 h2
    omega
  refine ⟨fun a b p => ?_, fun wl step p s e => ?_, fun w s e len r hl => ?_⟩
  · rw [← selectCorrTime_sorted, he, selectCorrTime_sorted]
  · rw [← slide_sorted, he, slide_sorted]
  · unfold stack
    rw [← stackWindows_sorted _ _ _ _ hl, he, stackWindows_sorted _ _ _ _ hl]

/-- **C190** is violated by the order of the rows of a matrix: the same call makes another matrix of the stream if a
selection has been made before. -/
theorem c190_rows_violated :
    let st : List (CTr Nat) := [exTr c!"A-A" 20 30 [some 2], exTr c!"A-A" 0 10 [some 1]]
    (createBulk st none true).map (·.data) = .ok [[some 2], [some 1]] ∧
    (createBulk (afterQueries (fun _ => 0) st [.select 0 10 true]) none true).map (·.data) = .ok [[some 1], [some 2]] := by
  decide +kernel

/-- **C190** The windows of `slide` begin at the given start, or with the first correlation, and follow each other by the step;
windows without correlations are left out. -/
theorem c190_windows (st : List (CTr V)) (wl step : Int) (p : Bool) (s e : Option Int) (rows : List (List (CTr V)))
    (h : slide st wl step p s e = .ok rows) :
    ∃ ws, windowStartsOf st step s e = .ok ws ∧ rows = (ws.map fun w => selectCorrTime st w (w + wl) p).filter fun r => !r.isEmpty := by
  unfold slide at h
  unfold windowStartsOf
  cases s <;> cases e <;> simp only [bind, Except.bind, pure, Except.pure, throw, throwThe, MonadExceptOf.throw] at h ⊢ <;>
    (repeat' split at h) <;> simp_all

/-- a history that sorts the stream -/
example : afterQueries (fun _ => 0) [exTr c!"A-A" 20 30 [some 2], exTr c!"B-B" 0 10 [some 1]] [.slide 10 10 true none none, .stack .mean none none .all false] =
    [exTr c!"B-B" 0 10 [some 1], exTr c!"A-A" 20 30 [some 2]] := by decide +kernel

/-- a stream without equal starts, plotted by distance -/
example : let st := [exTr c!"A-A" 20 30 [some 2], exTr c!"B-B" 0 10 [some 1]]
    (∀ x ∈ st, ∀ y ∈ st, x.stats.corrStart = y.stats.corrStart → x = y) ∧
    afterQueries (fun tr => -(tr.stats.corrStart : Rat)) st [.select 0 30 true, .plot true] = st := by decide +kernel

end SeisMIC
