import Verif.Spec.Run
import Verif.Lemmas.Run
import Verif.Lemmas.Write
import Mathlib.Tactic.Linarith
import Mathlib.Tactic.Positivity

/-!
# C33 - C35, C37, C86: the loop of a run and the files it writes
-/

namespace SeisMIC

variable {δ : Type}

/-! ### C33 -/

/-- **C33**. For all read increments `incs`, each a list of windows (`none`: no
data, `some l`: the correlations of the window): what is handed to the writer is,
in order, all correlations of all windows, each once, and never an empty
stream. -/
theorem c33_written_once {κ : Type} (incs : List (List (Option (List κ)))) :
    (pxcorrWrites (generateData incs)).flatten = (incs.flatten.filterMap id).flatten ∧
    [] ∉ pxcorrWrites (generateData incs) := by
  have hfst : (generateData incs).map Prod.fst = incs.flatten.filterMap id := by
    unfold generateData
    induction incs with
    | nil => rfl
    | cons w incs ih =>
      rw [List.flatMap_cons, List.map_append, ih, genIncrement_fst, List.flatten_cons, List.filterMap_append]
  have h := pxcorr_fold (generateData incs) [] [] (by simp)
  simp only [hfst, List.flatten_nil, List.nil_append] at h
  unfold pxcorrWrites
  simp only
  generalize (generateData incs).foldl pxcorrStep ([], []) = s at *
  by_cases h2 : s.2 = []
  · rw [if_neg (by simpa using h2)]
    rw [h2, List.append_nil] at h
    exact h
  · rw [if_pos h2]
    constructor
    · rw [List.flatten_append]; simpa using h.1
    · simp only [List.mem_append, List.mem_singleton, not_or]
      exact ⟨h.2, fun e => h2 e.symm⟩

example : pxcorrWrites (generateData [[some [1, 2], none, some [3]], [], [none, some [4]]]) = [[1, 2], [3, 4]] := by
  decide

/-! ### C34 -/

theorem delayed_fold {κ : Type} (incs : List (List (Option (List κ)))) (ws : List (List κ)) (cst : List κ) :
    let s := (generateData incs).foldl pxcorrStep (ws, cst)
    s.1 ++ [s.2].filter (fun w => !w.isEmpty) =
      ws ++ (delayed cst (incs.map fun i => i.filterMap id)).filter (fun w => !w.isEmpty) := by
  have tail : ∀ (rest : List (List κ)) (ws : List (List κ)) (cst : List κ),
      (rest.map fun y => (y, false)).foldl pxcorrStep (ws, cst) = (ws, cst ++ rest.flatten) := by
    intro rest
    induction rest with
    | nil => simp
    | cons r rest ih =>
      intro ws cst
      simp only [List.map_cons, List.foldl_cons, pxcorrStep]
      rw [if_neg (by simp), ih]
      simp
  induction incs generalizing ws cst with
  | nil => simp [generateData, delayed]
  | cons i incs ih =>
    have e : generateData (i :: incs) = genIncrement i ++ generateData incs := rfl
    rw [e, List.foldl_append, genIncrement_eq]
    simp only [List.map_cons]
    generalize i.filterMap id = L
    cases L with
    | nil =>
      simp only [delayed, List.foldl_nil]
      exact ih ws cst
    | cons f rest =>
      simp only [delayed, List.foldl_cons]
      by_cases hc : cst ++ f = []
      · have e1 : pxcorrStep (ws, cst) (f, true) = (ws, []) := by
          unfold pxcorrStep; simp [hc]
        rw [e1, tail, List.nil_append]
        have := ih ws rest.flatten
        simp only at this
        rw [this]
        simp [hc]
      · have e1 : pxcorrStep (ws, cst) (f, true) = (ws ++ [cst ++ f], []) := by
          unfold pxcorrStep; simp only; rw [if_pos trivial, if_pos hc]
        rw [e1, tail, List.nil_append]
        have := ih (ws ++ [cst ++ f]) rest.flatten
        simp only at this
        rw [this]
        have : (cst ++ f).isEmpty = false := by simpa [List.isEmpty_eq_false_iff] using hc
        simp [this]

/-- **C34** (what the writes contain) The writes are the non-empty members of
`delayed`: every write consists of the windows of the previous increment except
its first one, followed by the first window of the increment. -/
theorem c34_actual {κ : Type} (incs : List (List (Option (List κ)))) :
    pxcorrWrites (generateData incs) =
      (delayed [] (incs.map fun i => i.filterMap id)).filter (fun w => !w.isEmpty) := by
  have h := delayed_fold incs [] []
  simp only [List.nil_append] at h
  rw [← h]
  unfold pxcorrWrites
  simp only
  generalize (generateData incs).foldl pxcorrStep ([], []) = s
  cases s.2 <;> simp

/-- **C34** (holds with one window per increment) If every read increment yields
at most one window, the writes are the non-empty increments.
Missing: increments with several windows, see `c34_violated`. -/
theorem c34_partial {κ : Type} (incs : List (List (Option (List κ))))
    (h : ∀ i ∈ incs, (i.filterMap id).length ≤ 1) :
    pxcorrWrites (generateData incs) =
      (incs.map fun i => (i.filterMap id).flatten).filter (fun w => !w.isEmpty) := by
  rw [c34_actual]
  induction incs with
  | nil => rfl
  | cons i incs ih =>
    have ih := ih (fun j hj => h j (by simp [hj]))
    have hi := h i (by simp)
    simp only [List.map_cons]
    generalize i.filterMap id = L at *
    match L, hi with
    | [], _ => simpa [delayed] using ih
    | [f], _ =>
      simp only [delayed, List.nil_append, List.flatten_nil, List.flatten_cons, List.append_nil, List.filter_cons, ih]

example : ∀ i ∈ [[some [1, 2], none], [none], [some [3]]], (i.filterMap id).length ≤ 1 := by decide

/-- **C34** is violated: two read increments with two windows each. The first
write contains only the first window; the second write mixes the second window of
the first increment and the first window of the second. -/
theorem c34_violated :
    pxcorrWrites (generateData [[some ["day 1, window 1"], some ["day 1, window 2"]],
      [some ["day 2, window 1"], some ["day 2, window 2"]]]) =
    [["day 1, window 1"], ["day 1, window 2", "day 2, window 1"], ["day 2, window 2"]] := by
  decide

/-! ### C35 -/

theorem ceilDiv_eq (a b : Int) (n : Nat) (hb : 0 < b) (h1 : (n - 1) * b < a) (h2 : a ≤ n * b) :
    ceilDiv a b = n := by
  unfold ceilDiv
  have : (-a) / b = -(n : Int) := by
    apply le_antisymm
    · have : (-a) / b < -(n : Int) + 1 := by
        rw [Int.ediv_lt_iff_lt_mul hb]; nlinarith
      omega
    · rw [Int.le_ediv_iff_mul_le hb]; nlinarith
  rw [this]; simp

theorem foldl_min_const (rest : List Span) (s : Int) (h : ∀ x ∈ rest, x.start = s) :
    rest.foldl (fun m x => min m x.start) s = s := by
  induction rest with
  | nil => rfl
  | cons x rest ih =>
    simp only [List.foldl_cons]
    rw [h x (by simp), min_self]
    exact ih (fun y hy => h y (by simp [hy]))

theorem foldl_max_const (rest : List Span) (s : Int) (h : ∀ x ∈ rest, x.stop = s) :
    rest.foldl (fun m x => max m x.stop) s = s := by
  induction rest with
  | nil => rfl
  | cons x rest ih =>
    simp only [List.foldl_cons]
    rw [h x (by simp), max_self]
    exact ih (fun y hy => h y (by simp [hy]))

/-- **C35** (holds for aligned data) Let `n` be the number of correlation
increments in `readLen`. If every process that has data finds all its traces to
begin at a common time and to end at a common time, such that they span `n`
increments as well, then every process passes exactly `n` gathers, processes
without data included.
Missing: traces of one process that are not aligned to the sample, traces that do
not fill the increment, and processes on which preprocessing fails; see
`c35_offset_violated`, `c35_short_violated` and `c35_failure_violated`. -/
theorem c35_partial (corrLen corrInc delta readLen : Int) (n : Nat) (ranks : List (List Span))
    (hinc : 0 < corrInc) (hlen : delta ≤ corrLen)
    (hn : (n - 1) * corrInc < readLen ∧ readLen ≤ n * corrInc)
    (hspan : ∀ st ∈ ranks, ∃ s e, (∀ tr ∈ st, tr.start = s ∧ tr.stop = e) ∧
      (n - 1) * corrInc < e - s ∧ e - s ≤ n * corrInc) :
    ∀ st ∈ ranks, gatherCalls false st corrLen corrInc delta readLen = n := by
  intro st hst
  obtain ⟨s, e, hall, h1, h2⟩ := hspan st hst
  unfold gatherCalls
  rw [if_neg (by simp)]
  unfold numWindows
  match st with
  | [] => exact ceilDiv_eq _ _ _ hinc hn.1 hn.2
  | tr :: rest =>
    simp only
    have a1 := hall tr (by simp)
    rw [a1.1, a1.2, foldl_min_const rest s (fun x hx => (hall x (by simp [hx])).1),
      foldl_max_const rest e (fun x hx => (hall x (by simp [hx])).2), ceilDiv_eq _ _ n hinc h1 h2]
    rw [List.filter_eq_self.2, List.length_range]
    intro k hk
    rw [List.mem_range] at hk
    rw [List.any_cons, a1.1, a1.2]
    have hk' : (k : Int) ≤ n - 1 := by omega
    have h3 : (0 : Int) ≤ k * corrInc := by positivity
    have h4 : (k : Int) * corrInc ≤ (n - 1) * corrInc := by nlinarith
    have c1 : decide (s ≤ s + k * corrInc + (corrLen - delta)) = true := decide_eq_true (by omega)
    have c2 : decide (s + k * corrInc ≤ e) = true := decide_eq_true (by omega)
    rw [c1, c2]; rfl

/-- a day of hourly windows: one process with two traces, one without data -/
example : ∀ st ∈ [[(⟨0, 86399⟩ : Span), ⟨0, 86399⟩], []], ∃ s e : Int, (∀ tr ∈ st, tr.start = s ∧ tr.stop = e) ∧
    (((24 : Nat) : Int) - 1) * 3600 < e - s ∧ e - s ≤ (24 : Nat) * 3600 := by
  intro st hst
  refine ⟨0, 86399, ?_, by decide, by decide⟩
  simp at hst
  rcases hst with rfl | rfl <;> simp

/-- **C35** is violated: a process with two traces that are shifted against each
other by part of a sample (unit: a tenth of a second, sampling 1 Hz) sees a
longer stream and loops over one more window than a process with one trace. -/
theorem c35_offset_violated :
    gatherCalls false [⟨0, 36000⟩, ⟨3, 36003⟩] 18000 18000 10 36000 = 3 ∧
    gatherCalls false [⟨0, 36000⟩] 18000 18000 10 36000 = 2 := by
  decide +kernel

/-- **C35** is violated: if the data of one process cover only the first half of
the increment, this process leaves the loop earlier than a process without any
data. -/
theorem c35_short_violated :
    gatherCalls false [⟨0, 18000⟩] 18000 18000 10 36000 = 1 ∧
    gatherCalls false [] 18000 18000 10 36000 = 2 := by
  decide +kernel

/-- **C35** is violated: a process on which resampling or preprocessing raises
`ValueError` skips all gathers of the increment. -/
theorem c35_failure_violated :
    gatherCalls true [⟨0, 36000⟩] 18000 18000 10 36000 = 0 ∧
    gatherCalls false [⟨0, 36000⟩] 18000 18000 10 36000 = 2 := by
  decide +kernel

/-! ### C37 -/

/-- **C37**. For every stream and any number of processes: no file is written by
two different processes, no process opens a file twice, and the files are those
of the codes in the stream. -/
theorem c37_disjoint (sep : Bool) (p : Nat) (hp : 0 < p) (cst : List (Out δ))
    (ws : Nat → List (Str × List (Out δ))) (hws : ∀ r < p, writeRank sep p r cst = .ok (ws r)) :
    (∀ r < p, ∀ r' < p, r ≠ r' → ∀ file, file ∈ (ws r).map Prod.fst → file ∉ (ws r').map Prod.fst) ∧
    (∀ r < p, ((ws r).map Prod.fst).Nodup) ∧
    ∀ file, (∃ r < p, file ∈ (ws r).map Prod.fst) ↔ ∃ o ∈ cst, file = o.code sep ++ ".h5".toList := by
  have inj : ∀ a b : Str, a ++ c!".h5" = b ++ c!".h5" → a = b := fun a b h => List.append_cancel_right h
  refine ⟨?_, ?_, ?_⟩
  · intro r hr r' hr' hne file h h'
    rw [writeRank_names sep p r cst _ (hws r hr)] at h
    rw [writeRank_names sep p r' cst _ (hws r' hr')] at h'
    obtain ⟨a, ha, rfl⟩ := List.mem_map.1 h
    obtain ⟨b, hb, e⟩ := List.mem_map.1 h'
    have := inj _ _ e
    subst this
    exact own_disjoint _ (nodup_codelist sep cst) p r r' hne _ ha hb
  · intro r hr
    rw [writeRank_names sep p r cst _ (hws r hr)]
    unfold List.Nodup
    rw [List.pairwise_map]
    have : (ownItems (codelist sep cst) p r).Nodup := by
      have hperm := c01_items_partition (codelist sep cst) p hp
      have : ((List.range p).flatMap fun r => ownItems (codelist sep cst) p r).Nodup := by
        rw [hperm]; exact nodup_codelist sep cst
      exact (List.nodup_flatMap.1 this).1 r (by simpa using hr)
    exact this.imp (fun h e => h (inj _ _ e))
  · intro file
    have hperm := c01_items_partition (codelist sep cst) p hp
    constructor
    · rintro ⟨r, hr, h⟩
      rw [writeRank_names sep p r cst _ (hws r hr)] at h
      obtain ⟨a, ha, rfl⟩ := List.mem_map.1 h
      have : a ∈ codelist sep cst := by
        rw [← hperm]; exact List.mem_flatMap.2 ⟨r, by simpa using hr, ha⟩
      obtain ⟨o, ho, rfl⟩ := (mem_codelist sep cst a).1 this
      exact ⟨o, ho, rfl⟩
    · rintro ⟨o, ho, rfl⟩
      have : o.code sep ∈ codelist sep cst := (mem_codelist sep cst _).2 ⟨o, ho, rfl⟩
      rw [← hperm] at this
      obtain ⟨r, hr, h⟩ := List.mem_flatMap.1 this
      have hr : r < p := by simpa using hr
      refine ⟨r, hr, ?_⟩
      rw [writeRank_names sep p r cst _ (hws r hr)]
      exact List.mem_map.2 ⟨_, h, rfl⟩

/-! ### C86 -/

/-- no wildcards or dots in the codes -/
def Out.PlainCodes (o : Out δ) : Prop :=
  (Plain o.path.net ∧ '.' ∉ o.path.net) ∧ (Plain o.path.sta ∧ '.' ∉ o.path.sta) ∧
  (Plain o.path.cha ∧ '.' ∉ o.path.cha)

theorem writeCode_eq (sep : Bool) (cst : List (Out δ)) (hpl : ∀ o ∈ cst, o.PlainCodes)
    (hcase : ∀ o ∈ cst, ∀ o' ∈ cst, upper (o.code sep) = upper (o'.code sep) → o.code sep = o'.code sep)
    (o : Out δ) (ho : o ∈ cst) :
    writeCode sep cst (o.code sep) = .ok (o.code sep ++ c!".h5",
      cst.filter fun x => decide (x.code sep = o.code sep)) := by
  have hp := hpl o ho
  cases sep with
  | true =>
    unfold writeCode
    rw [if_pos rfl]
    have e : o.code true = o.path.net ++ '.' :: (o.path.sta ++ '.' :: o.path.cha) := by
      simp [Out.code]
    rw [e, splitOn_append _ _ _ hp.1.2, splitOn_append _ _ _ hp.2.1.2, splitOn_eq_single _ _ hp.2.2.2]
    simp only
    congr 2
    · simp
    · apply List.filter_congr
      intro x hx
      rw [Bool.eq_iff_iff, Bool.and_eq_true, Bool.and_eq_true, obsMatch_iff _ _ hp.1.1, obsMatch_iff _ _ hp.2.1.1,
        obsMatch_iff _ _ hp.2.2.1, decide_eq_true_eq, ← e]
      constructor
      · rintro ⟨⟨h1, h2⟩, h3⟩
        apply hcase x hx o ho
        unfold upper at h1 h2 h3
        simp [Out.code, upper, h1, h2, h3]
      · intro h
        have hx' := hpl x hx
        have e' : x.code true = x.path.net ++ '.' :: (x.path.sta ++ '.' :: x.path.cha) := by simp [Out.code]
        have := congrArg (splitOn '.') h
        rw [e, e', splitOn_append _ _ _ hp.1.2, splitOn_append _ _ _ hp.2.1.2, splitOn_eq_single _ _ hp.2.2.2,
          splitOn_append _ _ _ hx'.1.2, splitOn_append _ _ _ hx'.2.1.2, splitOn_eq_single _ _ hx'.2.2.2] at this
        simp only [List.cons.injEq, and_true] at this
        simp [this.1, this.2.1, this.2.2]
  | false =>
    unfold writeCode
    rw [if_neg (by simp)]
    have e : o.code false = o.path.net ++ '.' :: o.path.sta := by
      simp [Out.code]
    rw [e, splitOn_append _ _ _ hp.1.2, splitOn_eq_single _ _ hp.2.1.2]
    simp only
    congr 2
    · simp
    · apply List.filter_congr
      intro x hx
      rw [Bool.eq_iff_iff, Bool.and_eq_true, obsMatch_iff _ _ hp.1.1, obsMatch_iff _ _ hp.2.1.1,
        decide_eq_true_eq, ← e]
      constructor
      · rintro ⟨h1, h2⟩
        apply hcase x hx o ho
        unfold upper at h1 h2
        simp [Out.code, upper, h1, h2]
      · intro h
        have hx' := hpl x hx
        have e' : x.code false = x.path.net ++ '.' :: x.path.sta := by simp [Out.code]
        have := congrArg (splitOn '.') h
        rw [e, e', splitOn_append _ _ _ hp.1.2, splitOn_eq_single _ _ hp.2.1.2,
          splitOn_append _ _ _ hx'.1.2, splitOn_eq_single _ _ hx'.2.1.2] at this
        simp only [List.cons.injEq, and_true] at this
        simp [this.1, this.2]

/-- **C86** (codes that differ in more than upper/lower case) For every stream and
any number of processes the writing succeeds on all of them; for every
correlation there is exactly one process that opens the file of its pair, and
what this process adds to a file are exactly the correlations of the pair, in
order.
Missing: codes that are equal up to case, see `c86_case_violated`, and codes with
dots or wildcards. -/
theorem c86_own_file_partial (sep : Bool) (p : Nat) (hp : 0 < p) (cst : List (Out δ))
    (hpl : ∀ o ∈ cst, o.PlainCodes)
    (hcase : ∀ o ∈ cst, ∀ o' ∈ cst, upper (o.code sep) = upper (o'.code sep) → o.code sep = o'.code sep) :
    ∃ ws : Nat → List (Str × List (Out δ)), (∀ r < p, writeRank sep p r cst = .ok (ws r)) ∧
      (∀ r < p, ∀ w ∈ ws r, w.2 = cst.filter fun o => decide (o.code sep ++ ".h5".toList = w.1)) ∧
      ∀ o ∈ cst, ∃ r, r < p ∧ (∃ w ∈ ws r, o ∈ w.2) ∧ ∀ r' < p, (∃ w ∈ ws r', o ∈ w.2) → r' = r := by
  let W : Nat → List (Str × List (Out δ)) := fun r => (ownItems (codelist sep cst) p r).map fun code =>
    (code ++ c!".h5", cst.filter fun x => decide (x.code sep = code))
  have hperm := c01_items_partition (codelist sep cst) p hp
  have hW : ∀ r < p, writeRank sep p r cst = .ok (W r) := by
    intro r hr
    rw [writeRank_eq]
    apply mapM_ok
    intro code hcode
    have : code ∈ codelist sep cst := by
      rw [← hperm]; exact List.mem_flatMap.2 ⟨r, by simpa using hr, hcode⟩
    obtain ⟨o, ho, rfl⟩ := (mem_codelist sep cst code).1 this
    exact writeCode_eq sep cst hpl hcase o ho
  have hsel : ∀ r < p, ∀ w ∈ W r, w.2 = cst.filter fun o => decide (o.code sep ++ ".h5".toList = w.1) := by
    intro r hr w hw
    obtain ⟨code, hcode, rfl⟩ := List.mem_map.1 hw
    apply List.filter_congr
    intro o _
    apply decide_eq_decide.2
    constructor
    · rintro rfl; rfl
    · exact fun h => List.append_cancel_right h
  refine ⟨W, hW, hsel, ?_⟩
  intro o ho
  have hd := c37_disjoint sep p hp cst W hW
  obtain ⟨r, hr, hf⟩ := (hd.2.2 (o.code sep ++ ".h5".toList)).2 ⟨o, ho, rfl⟩
  obtain ⟨w, hw, hw1⟩ := List.mem_map.1 hf
  have hin : o ∈ w.2 := by
    rw [hsel r hr w hw]
    exact List.mem_filter.2 ⟨ho, by simp [hw1]⟩
  refine ⟨r, hr, ⟨w, hw, hin⟩, ?_⟩
  rintro r' hr' ⟨w', hw', hin'⟩
  by_contra hne
  rw [hsel r' hr' w' hw'] at hin'
  have := (List.mem_filter.1 hin').2
  simp only [decide_eq_true_eq] at this
  refine hd.1 r hr r' hr' (fun e => hne e.symm) w.1 (List.mem_map.2 ⟨w, hw, rfl⟩) ?_
  exact List.mem_map.2 ⟨w', hw', by rw [← this, hw1]⟩

/-- three correlations of two pairs, two processes -/
def exampleOuts : List (Out Nat) :=
  [⟨⟨c!"subdivision", c!"XN-XN", c!"A-B", c!"HHZ-HHZ", c!"t", c!"u"⟩, 1⟩,
   ⟨⟨c!"subdivision", c!"XN-XN", c!"A-C", c!"HHZ-HHZ", c!"t", c!"u"⟩, 2⟩,
   ⟨⟨c!"subdivision", c!"XN-XN", c!"A-B", c!"HHE-HHZ", c!"t", c!"u"⟩, 3⟩]

example : (∀ o ∈ exampleOuts, o.PlainCodes) ∧
    (∀ o ∈ exampleOuts, ∀ o' ∈ exampleOuts, upper (o.code false) = upper (o'.code false) →
      o.code false = o'.code false) ∧
    writeRank false 2 0 exampleOuts = .ok [(c!"XN-XN.A-B.h5", [exampleOuts[0], exampleOuts[2]])] ∧
    writeRank false 2 1 exampleOuts = .ok [(c!"XN-XN.A-C.h5", [exampleOuts[1]])] := by
  unfold Out.PlainCodes Plain
  decide

/-- **C86** is violated: two stations whose codes differ only in case. Each of the
two files receives the correlations of both pairs. -/
theorem c86_case_violated :
    let o (s : Str) (n : Nat) : Out Nat := ⟨⟨c!"subdivision", c!"XN-XN", s, c!"HHZ-HHZ", c!"t", c!"u"⟩, n⟩
    writeRank false 1 0 [o c!"A-B" 1, o c!"A-b" 2] =
      .ok [(c!"XN-XN.A-B.h5", [o c!"A-B" 1, o c!"A-b" 2]), (c!"XN-XN.A-b.h5", [o c!"A-B" 1, o c!"A-b" 2])] := by
  decide

end SeisMIC
