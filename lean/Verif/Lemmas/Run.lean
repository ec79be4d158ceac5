import Verif.Model.Run
import Verif.Lemmas.Combis
import Verif.Lemmas.Existing
import Verif.Lemmas.ListAux
import Verif.Lemmas.Db
import Mathlib.Tactic.Ring

/-! # Lemmas about runs -/

namespace SeisMIC

/-! ### the loop -/

theorem genIncrement_spec {α : Type} (wins : List (Option α)) (acc : List (α × Bool)) (f : Bool) :
    (wins.foldl genStep (acc, f)).1 =
    acc ++ (match wins.filterMap id with
      | [] => []
      | x :: xs => (x, f) :: xs.map fun y => (y, false)) := by
  induction wins generalizing acc f with
  | nil => simp
  | cons w wins ih =>
    cases w with
    | none => simpa [genStep] using ih acc f
    | some x =>
      simp only [List.foldl_cons, genStep, ih, List.filterMap_cons, id]
      cases wins.filterMap id <;> simp

theorem genIncrement_eq {α : Type} (wins : List (Option α)) :
    genIncrement wins = match wins.filterMap id with
      | [] => []
      | x :: xs => (x, true) :: xs.map fun y => (y, false) := by
  unfold genIncrement
  rw [genIncrement_spec]; simp

theorem genIncrement_fst {α : Type} (wins : List (Option α)) :
    (genIncrement wins).map Prod.fst = wins.filterMap id := by
  rw [genIncrement_eq]
  cases wins.filterMap id <;> simp [Function.comp_def]

theorem pxcorr_fold {κ : Type} (ys : List (List κ × Bool)) (ws : List (List κ)) (cst : List κ)
    (hw : [] ∉ ws) :
    let s := ys.foldl pxcorrStep (ws, cst)
    s.1.flatten ++ s.2 = ws.flatten ++ cst ++ (ys.map Prod.fst).flatten ∧ [] ∉ s.1 := by
  induction ys generalizing ws cst with
  | nil => simp [hw]
  | cons y ys ih =>
    simp only [List.foldl_cons]
    by_cases h : y.2 = true ∧ cst ++ y.1 ≠ []
    · have e : pxcorrStep (ws, cst) y = (ws ++ [cst ++ y.1], []) := by
        unfold pxcorrStep; simp only [h.1]; rw [if_pos trivial, if_pos h.2]
      rw [e]
      have := ih (ws ++ [cst ++ y.1]) [] (by
        simp only [List.mem_append, List.mem_singleton, not_or]; exact ⟨hw, fun h' => h.2 h'.symm⟩)
      simp only at this
      refine ⟨this.1.trans ?_, this.2⟩
      simp
    · have e : pxcorrStep (ws, cst) y = (ws, cst ++ y.1) := by
        unfold pxcorrStep; simp only
        by_cases h2 : y.2 = true
        · rw [if_pos h2, if_neg (fun h3 => h ⟨h2, h3⟩)]
        · rw [if_neg h2]
      rw [e]
      have := ih ws (cst ++ y.1) hw
      simp only at this
      exact ⟨this.1.trans (by simp), this.2⟩

/-! ### pairs of indices -/

/-- all pairs of elements of a list, in lexicographic order -/
def prodL {α : Type} (l : List α) : List (α × α) := l.flatMap fun a => l.map fun b => (a, b)

theorem prodL_map {α β : Type} (f : α → β) (l : List α) :
    prodL (l.map f) = (prodL l).map fun p => (f p.1, f p.2) := by
  simp [prodL, List.flatMap_map, List.map_flatMap, Function.comp_def]

theorem filter_flatMap' {α β : Type} (q : β → Bool) (l : List α) (f : α → List β) :
    (l.flatMap f).filter q = l.flatMap fun a => (f a).filter q := by
  induction l with
  | nil => rfl
  | cons a l ih => simp [ih]

theorem flatMap_filter' {α β : Type} (q : α → Bool) (l : List α) (f : α → List β) :
    (l.filter q).flatMap f = l.flatMap fun a => if q a then f a else [] := by
  induction l with
  | nil => rfl
  | cons a l ih => by_cases h : q a = true <;> simp [h, ih]

theorem prodL_filter {α : Type} (q : α → Bool) (l : List α) :
    prodL (l.filter q) = (prodL l).filter fun p => q p.1 && q p.2 := by
  unfold prodL
  rw [filter_flatMap', flatMap_filter']
  congr 1
  funext a
  by_cases h : q a = true
  · rw [if_pos h, List.filter_map]
    congr 1
    apply List.filter_congr
    intro x _; simp [h]
  · rw [if_neg h]
    symm
    rw [List.filter_eq_nil_iff]
    intro x hx
    simp only [List.mem_map] at hx
    obtain ⟨b, _, rfl⟩ := hx
    simp [h]

theorem mem_prodL {α : Type} (l : List α) (p : α × α) : p ∈ prodL l ↔ p.1 ∈ l ∧ p.2 ∈ l := by
  obtain ⟨a, b⟩ := p
  simp [prodL]

theorem range_filter_le (n k : Nat) : (List.range n).filter (fun j => decide (k ≤ j)) = List.range' k (n - k) := by
  induction n with
  | zero => simp
  | succ n ih =>
    rw [List.range_succ, List.filter_append, ih]
    by_cases h : k ≤ n
    · rw [Nat.succ_sub h, List.range'_1_concat]
      simp [h]
    · have : n - k = 0 ∧ n + 1 - k = 0 := by omega
      simp [h, this.1, this.2]

theorem pairsFrom_eq (n : Nat) (f : Nat → Nat) :
    pairsFrom n f = (prodL (List.range n)).filter fun p => decide (f p.1 ≤ p.2) := by
  unfold pairsFrom prodL
  rw [filter_flatMap']
  congr 1
  funext i
  rw [List.filter_map, ← range_filter_le]
  rfl

theorem diag_eq (n : Nat) :
    (List.range n).map (fun i => (i, i)) = (prodL (List.range n)).filter fun p => decide (p.1 = p.2) := by
  unfold prodL
  rw [filter_flatMap', List.map_eq_flatMap]
  have cg : ∀ (l : List Nat) (f g : Nat → List (Nat × Nat)), (∀ i ∈ l, f i = g i) → l.flatMap f = l.flatMap g := by
    intro l f g h
    induction l with
    | nil => rfl
    | cons a l ih => rw [List.flatMap_cons, List.flatMap_cons, h a (by simp), ih (fun i hi => h i (by simp [hi]))]
  apply cg
  intro i hi
  rw [List.filter_map]
  have : (List.range n).filter ((fun p : Nat × Nat => decide (p.1 = p.2)) ∘ fun b => (i, b)) = [i] := by
    have h1 : ((fun p : Nat × Nat => decide (p.1 = p.2)) ∘ fun b => (i, b)) = fun b => decide (i = b) := by
      funext b; rfl
    rw [h1]
    simp only [List.mem_range] at hi
    clear h1
    induction n with
    | zero => omega
    | succ n ih =>
      rw [List.range_succ, List.filter_append]
      by_cases h : i = n
      · subst h
        have : (List.range i).filter (fun b => decide (i = b)) = [] := by
          rw [List.filter_eq_nil_iff]; intro b hb; simp at hb ⊢; omega
        simp [this]
      · rw [ih (by omega)]; simp [h]
  rw [this]; rfl

/-! ### combinations as a filter -/

/-- the order of the positions that a method requires -/
def mrel (method : Str) (i j : Nat) : Bool :=
  if method = c!"betweenStations" ∨ method = c!"betweenComponents" then decide (i + 1 ≤ j)
  else if method = c!"autoComponents" then decide (i = j)
  else if method = c!"allSimpleCombinations" then decide (i ≤ j)
  else true

/-- what a method requires of the traces -/
def mval (method : Str) (rcombis : Option (List Str)) (a b : TrHead) : Bool :=
  if method = c!"betweenStations" then
    decide (a.net ≠ b.net ∨ a.sta ≠ b.sta) && (match rcombis with
      | none => true
      | some r => isInXcombis a b r)
  else if method = c!"betweenComponents" then
    decide (a.net = b.net ∧ a.sta = b.sta ∧ a.cha.getLast? ≠ b.cha.getLast?)
  else true

theorem mrel_1 (i j : Nat) : mrel "betweenStations".toList i j = decide (i + 1 ≤ j) := by
  unfold mrel; rw [if_pos (by decide)]
theorem mrel_2 (i j : Nat) : mrel "betweenComponents".toList i j = decide (i + 1 ≤ j) := by
  unfold mrel; rw [if_pos (by decide)]
theorem mrel_3 (i j : Nat) : mrel "autoComponents".toList i j = decide (i = j) := by
  unfold mrel; rw [if_neg (by decide), if_pos (by decide)]
theorem mrel_4 (i j : Nat) : mrel "allSimpleCombinations".toList i j = decide (i ≤ j) := by
  unfold mrel; rw [if_neg (by decide), if_neg (by decide), if_pos (by decide)]
theorem mrel_5 (i j : Nat) : mrel "allCombinations".toList i j = true := by
  unfold mrel; rw [if_neg (by decide), if_neg (by decide), if_neg (by decide)]
theorem mval_1 (r : Option (List Str)) (a b : TrHead) : mval "betweenStations".toList r a b =
    (decide (a.net ≠ b.net ∨ a.sta ≠ b.sta) && (match r with
      | none => true
      | some r => isInXcombis a b r)) := by
  unfold mval; rw [if_pos (by decide)]
theorem mval_2 (r : Option (List Str)) (a b : TrHead) : mval "betweenComponents".toList r a b =
    decide (a.net = b.net ∧ a.sta = b.sta ∧ a.cha.getLast? ≠ b.cha.getLast?) := by
  unfold mval; rw [if_neg (by decide), if_pos (by decide)]
theorem mval_3 (r : Option (List Str)) (a b : TrHead) : mval "autoComponents".toList r a b = true := by
  unfold mval; rw [if_neg (by decide), if_neg (by decide)]
theorem mval_4 (r : Option (List Str)) (a b : TrHead) : mval "allSimpleCombinations".toList r a b = true := by
  unfold mval; rw [if_neg (by decide), if_neg (by decide)]
theorem mval_5 (r : Option (List Str)) (a b : TrHead) : mval "allCombinations".toList r a b = true := by
  unfold mval; rw [if_neg (by decide), if_neg (by decide)]

abbrev noTr : TrHead := ⟨[], [], [], [], 0⟩

theorem calc_filter (fiss : Int → Str) (st : List TrHead) (ex : ExDict) (method : Str)
    (rcombis : Option (List Str)) (hm : method ∈ methods)
    (hc : method = "betweenComponents".toList → ∀ a ∈ st, a.cha ≠ []) :
    calcCrossCombis fiss st ex method rcombis =
      .ok ((prodL (List.range (isort trLe st).length)).filter fun p => mrel method p.1 p.2 &&
        (mval method rcombis ((isort trLe st).getD p.1 noTr) ((isort trLe st).getD p.2 noTr) &&
        !compareExisting fiss ex ((isort trLe st).getD p.1 noTr) ((isort trLe st).getD p.2 noTr))) := by
  have hc' : method = "betweenComponents".toList → ∀ a ∈ isort trLe st, a.cha ≠ [] :=
    fun h a ha => hc h a (mem_isort.1 ha)
  unfold calcCrossCombis
  simp only
  generalize isort trLe st = S at *
  simp only [methods, List.mem_cons, List.not_mem_nil, or_false] at hm
  rcases hm with rfl | rfl | rfl | rfl | rfl
  · rw [if_pos (by decide), pairsFrom_eq, List.filter_filter]
    congr 1
    apply List.filter_congr
    rintro ⟨i, j⟩ _
    rw [mrel_1, mval_1]
    simp only
    generalize S.getD i _ = a
    generalize S.getD j _ = b
    generalize compareExisting fiss ex a b = c
    by_cases h : a.net ≠ b.net ∨ a.sta ≠ b.sta
    · rw [if_pos h]
      simp only [h, decide_true, Bool.true_and]
      cases rcombis <;> cases c <;> simp [Bool.and_comm]
    · rw [if_neg h]
      simp [h]
  · rw [if_neg (by decide), if_pos (by decide)]
    rw [foldlM_filter _ (fun ij =>
      let tr := S.getD ij.1 ⟨[], [], [], [], 0⟩
      let tr1 := S.getD ij.2 ⟨[], [], [], [], 0⟩
      decide (tr.net = tr1.net ∧ tr.sta = tr1.sta ∧ tr.cha.getLast? ≠ tr1.cha.getLast?) &&
        !compareExisting fiss ex tr tr1)]
    · rw [List.nil_append, pairsFrom_eq, List.filter_filter]
      congr 1
      apply List.filter_congr
      rintro ⟨i, j⟩ _
      rw [mrel_2, mval_2, Bool.and_comm]
    · rintro ⟨i, j⟩ hij acc
      rw [mem_pairsFrom] at hij
      have l1 : i < S.length := by omega
      have l2 : j < S.length := by omega
      have m1 : S.getD i ⟨[], [], [], [], 0⟩ ∈ S := by
        simp only [List.getD, List.getElem?_eq_getElem l1, Option.getD_some]; exact List.getElem_mem _
      have m2 : S.getD j ⟨[], [], [], [], 0⟩ ∈ S := by
        simp only [List.getD, List.getElem?_eq_getElem l2, Option.getD_some]; exact List.getElem_mem _
      have n1 := hc' rfl _ m1
      have n2 := hc' rfl _ m2
      simp only
      generalize S.getD i _ = a at *
      generalize S.getD j _ = b at *
      obtain ⟨x, hx⟩ := Option.ne_none_iff_exists'.1 (mt List.getLast?_eq_none_iff.1 n1)
      obtain ⟨y, hy⟩ := Option.ne_none_iff_exists'.1 (mt List.getLast?_eq_none_iff.1 n2)
      simp only [hx, hy]
      by_cases hh : a.net = b.net ∧ a.sta = b.sta
      · simp only [hh, and_self, if_true]
        by_cases h2 : x ≠ y ∧ ¬ compareExisting fiss ex a b = true
        · rw [if_pos h2, if_pos]; simp [h2.1, h2.2]
        · rw [if_neg h2, if_neg]; simpa using h2
      · rw [if_neg hh, if_neg]; simp; grind
  · rw [if_neg (by decide), if_neg (by decide), if_pos (by decide), diag_eq, List.filter_filter]
    congr 1
    apply List.filter_congr
    rintro ⟨i, j⟩ _
    rw [mrel_3, mval_3, Bool.true_and, Bool.and_comm]
  · rw [if_neg (by decide), if_neg (by decide), if_neg (by decide), if_pos (by decide), pairsFrom_eq,
      List.filter_filter]
    congr 1
    apply List.filter_congr
    rintro ⟨i, j⟩ _
    rw [mrel_4, mval_4, Bool.true_and, Bool.and_comm]
    rfl
  · rw [if_neg (by decide), if_neg (by decide), if_neg (by decide), if_neg (by decide), if_pos (by decide),
      pairsFrom_eq, List.filter_filter]
    congr 1
    apply List.filter_congr
    rintro ⟨i, j⟩ _
    rw [mrel_5, mval_5, Bool.true_and, Bool.and_comm]
    simp

theorem mrel_mono (method : Str) (U : List Nat) (hU : U.Pairwise (· < ·)) (i j : Nat)
    (hi : i < U.length) (hj : j < U.length) :
    mrel method (U.getD i 0) (U.getD j 0) = mrel method i j := by
  have key : ∀ i j, i < U.length → j < U.length → i < j → U.getD i 0 < U.getD j 0 := by
    intro i j hi hj h
    rw [List.pairwise_iff_getElem] at hU
    simpa [List.getD, hi, hj] using hU i j hi hj h
  have k1 := key i j hi hj
  have k2 := key j i hj hi
  have k3 : i = j → U.getD i 0 = U.getD j 0 := fun h => by rw [h]
  unfold mrel
  split
  · exact decide_eq_decide.2 (by omega)
  · split
    · exact decide_eq_decide.2 (by omega)
    · split
      · exact decide_eq_decide.2 (by omega)
      · rfl

/-- removing traces that are in no combination does not change the pairs -/
theorem prune_pairs (method : Str) (S : List TrHead) (Q : TrHead → TrHead → Bool) (used : Nat → Bool)
    (hused : ∀ p ∈ (prodL (List.range S.length)).filter
      (fun p => mrel method p.1 p.2 && Q (S.getD p.1 noTr) (S.getD p.2 noTr)), used p.1 = true ∧ used p.2 = true) :
    let U := (List.range S.length).filter used
    let S' := U.map fun i => S.getD i noTr
    ((prodL (List.range S'.length)).filter
      (fun p => mrel method p.1 p.2 && Q (S'.getD p.1 noTr) (S'.getD p.2 noTr))).map
        (fun p => (S'.getD p.1 noTr, S'.getD p.2 noTr)) =
    ((prodL (List.range S.length)).filter
      (fun p => mrel method p.1 p.2 && Q (S.getD p.1 noTr) (S.getD p.2 noTr))).map
        (fun p => (S.getD p.1 noTr, S.getD p.2 noTr)) := by
  intro U S'
  have hU : U.Pairwise (· < ·) := List.Pairwise.filter _ List.pairwise_lt_range
  have hlen : S'.length = U.length := by simp [S']
  have hget : ∀ i, i < U.length → S'.getD i noTr = S.getD (U.getD i 0) noTr := by
    intro i hi
    simp [S', List.getD, hi]
  have hUr : (List.range U.length).map (fun i => U.getD i 0) = U := by
    apply List.ext_getElem
    · simp
    · intro i h1 h2; simp [List.getD, h2]
  rw [hlen]
  have e1 : (prodL (List.range U.length)).filter
      (fun p => mrel method p.1 p.2 && Q (S'.getD p.1 noTr) (S'.getD p.2 noTr)) =
      (prodL (List.range U.length)).filter ((fun p => mrel method p.1 p.2 &&
        Q (S.getD p.1 noTr) (S.getD p.2 noTr)) ∘ fun p : Nat × Nat => (U.getD p.1 0, U.getD p.2 0)) := by
    apply List.filter_congr
    rintro ⟨i, j⟩ h
    rw [mem_prodL] at h
    simp only [List.mem_range] at h
    simp only [Function.comp_def, mrel_mono method U hU i j h.1 h.2, hget i h.1, hget j h.2]
  rw [e1]
  have e2 : ((prodL (List.range U.length)).filter ((fun p => mrel method p.1 p.2 &&
        Q (S.getD p.1 noTr) (S.getD p.2 noTr)) ∘ fun p : Nat × Nat => (U.getD p.1 0, U.getD p.2 0))).map
        (fun p => (S'.getD p.1 noTr, S'.getD p.2 noTr)) =
      (((prodL (List.range U.length)).filter ((fun p => mrel method p.1 p.2 &&
        Q (S.getD p.1 noTr) (S.getD p.2 noTr)) ∘ fun p : Nat × Nat => (U.getD p.1 0, U.getD p.2 0))).map
        (fun p : Nat × Nat => (U.getD p.1 0, U.getD p.2 0))).map (fun p => (S.getD p.1 noTr, S.getD p.2 noTr)) := by
    rw [List.map_map]
    apply List.map_congr_left
    rintro ⟨i, j⟩ h
    have h := (List.mem_filter.1 h).1
    rw [mem_prodL] at h
    simp only [List.mem_range] at h
    simp only [Function.comp_def, hget i h.1, hget j h.2]
  rw [e2, ← List.filter_map, ← prodL_map (fun i => U.getD i 0), hUr]
  congr 1
  show (prodL ((List.range S.length).filter used)).filter _ = _
  rw [prodL_filter, List.filter_filter]
  apply List.filter_congr
  rintro ⟨i, j⟩ h
  by_cases hq : (mrel method i j && Q (S.getD i noTr) (S.getD j noTr)) = true
  · have := hused (i, j) (List.mem_filter.2 ⟨h, hq⟩)
    simp only at this
    simp [this.1, this.2]
  · simp only [Bool.not_eq_true] at hq
    simp only [hq, Bool.false_and]

/-- the pairs of a window in closed form -/
def pairsOf (method : Str) (S : List TrHead) (Q : TrHead → TrHead → Bool) : List (TrHead × TrHead) :=
  ((prodL (List.range S.length)).filter
    (fun p => mrel method p.1 p.2 && Q (S.getD p.1 noTr) (S.getD p.2 noTr))).map
      (fun p => (S.getD p.1 noTr, S.getD p.2 noTr))

theorem isort_isort (S : List TrHead) : isort trLe (isort trLe S) = isort trLe S :=
  isort_eq_self _ _ (isort_sorted _ trLe_total trLe_trans S)

theorem windowPairs_eq (fiss : Int → Str) (ex : ExDict) (method : Str) (rcombis : Option (List Str))
    (win : List TrHead) (hm : method ∈ methods)
    (hc : method = "betweenComponents".toList → ∀ a ∈ win, a.cha ≠ []) :
    windowPairs fiss ex method rcombis win = .ok (pairsOf method (isort trLe win)
      fun a b => mval method rcombis a b && !compareExisting fiss ex a b) := by
  have hc' : method = "betweenComponents".toList → ∀ a ∈ isort trLe win, a.cha ≠ [] :=
    fun h a ha => hc h a (mem_isort.1 ha)
  have hS := isort_sorted _ trLe_total trLe_trans win
  have e := calc_filter fiss (isort trLe win) ex method rcombis hm hc'
  rw [isort_isort] at e
  unfold windowPairs
  simp only [bind, Except.bind, e]
  clear e
  unfold pairsOf
  generalize isort trLe win = S at *
  split
  · next h => rw [h]; rfl
  · next h =>
    generalize hL : (prodL (List.range S.length)).filter (fun p => mrel method p.1 p.2 &&
      (mval method rcombis (S.getD p.1 noTr) (S.getD p.2 noTr) &&
        !compareExisting fiss ex (S.getD p.1 noTr) (S.getD p.2 noTr))) = L at *
    set used : Nat → Bool := fun i => !(List.contains ((List.range S.length).filter fun i =>
      !(L.any fun p => p.1 == i || p.2 == i)) i) with hu
    have hused : ∀ p ∈ L, used p.1 = true ∧ used p.2 = true := by
      intro p hp
      constructor
      · simp only [hu, List.contains_eq_mem, List.mem_filter, Bool.not_eq_true', decide_eq_false_iff_not, not_and]
        intro _ h2
        rw [List.any_eq_false] at h2
        exact h2 p hp (by simp)
      · simp only [hu, List.contains_eq_mem, List.mem_filter, Bool.not_eq_true', decide_eq_false_iff_not, not_and]
        intro _ h2
        rw [List.any_eq_false] at h2
        exact h2 p hp (by simp)
    set W := ((List.range S.length).filter used).map fun i => S.getD i noTr with hW
    have hsub : W.Sublist S := by
      have h1 : (List.range S.length).map (fun i => S.getD i noTr) = S := by
        apply List.ext_getElem
        · simp
        · intro i h1 h2; simp [List.getD, h2]
      have : W.Sublist ((List.range S.length).map (fun i => S.getD i noTr)) :=
        List.Sublist.map _ List.filter_sublist
      rwa [h1] at this
    have key := prune_pairs method S (fun a b => mval method rcombis a b && !compareExisting fiss ex a b) used
      (by rw [hL]; exact hused)
    simp only at key
    rw [hL] at key
    have e' := calc_filter fiss W ex method rcombis hm (fun h a ha => hc' h a (hsub.subset ha))
    rw [isort_eq_self _ _ (hS.sublist hsub)] at e'
    split
    · next hp =>
      rw [e']
      simp only [pure, Except.pure]
      exact congrArg Except.ok key
    · next hp =>
      have hpn : ((List.range S.length).filter fun i => !(L.any fun p => p.1 == i || p.2 == i)) = [] := by
        simpa using hp
      have hWS : W = S := by
        have : (List.range S.length).filter used = List.range S.length := by
          rw [List.filter_eq_self]
          intro i hi
          simp only [hu, hpn]
          rfl
        rw [hW, this]
        apply List.ext_getElem
        · simp
        · intro i h1 h2; simp [List.getD, h2]
      have goal : (pure (L.map fun p => (W.getD p.1 noTr, W.getD p.2 noTr)) : Except PyErr _) =
        Except.ok (L.map fun p => (S.getD p.1 noTr, S.getD p.2 noTr)) := by
        rw [hWS]; rfl
      exact goal

/-! ### the directory -/

variable {δ : Type}

theorem get_addOne (dir : CorrDir δ) (file : Str) (o : Out δ) (f : Str) (p : HPath) :
    (dir.addOne file o).get f p = (dir.get f p).or (if f = file ∧ p = o.path then some o.val else none) := by
  induction dir with
  | nil =>
    unfold CorrDir.addOne CorrDir.get
    simp only [List.lookup_cons, List.lookup_nil]
    by_cases h : f = file
    · subst h
      simp only [beq_self_eq_true, Option.bind_eq_bind, Option.bind_some, lookup_addOne]
      simp [H5.lookup]
    · have : (f == file) = false := by simpa using h
      simp [this, h]
  | cons x dir ih =>
    obtain ⟨g, h⟩ := x
    unfold CorrDir.addOne
    by_cases hg : g = file
    · subst hg
      rw [if_pos rfl]
      unfold CorrDir.get
      simp only [List.lookup_cons]
      by_cases h : f = g
      · subst h
        simp only [beq_self_eq_true, Option.bind_eq_bind, Option.bind_some, lookup_addOne]
        simp
      · have : (f == g) = false := by simpa using h
        simp [this, h]
    · rw [if_neg hg]
      unfold CorrDir.get at ih ⊢
      simp only [List.lookup_cons]
      by_cases h : f = g
      · subst h
        simp [hg]
      · have : (f == g) = false := by simpa using h
        simp only [this]
        exact ih

theorem get_addAll (dir : CorrDir δ) (l : List (Out δ)) (f : Str) (p : HPath) :
    (dir.addAll l).get f p = (dir.get f p).or
      ((l.find? fun o => decide (f = o.file ∧ p = o.path)).map Out.val) := by
  induction l generalizing dir with
  | nil => simp [CorrDir.addAll]
  | cons o l ih =>
    have : (dir.addAll (o :: l)) = (dir.addOne o.file o).addAll l := rfl
    rw [this, ih, get_addOne, List.find?_cons]
    by_cases h : f = o.file ∧ p = o.path
    · rw [if_pos h]
      simp only [h, and_self, decide_true, Option.map_some]
      cases dir.get o.file o.path <;> simp
    · rw [if_neg h]
      simp only [h, decide_false, Option.or_none]

end SeisMIC
