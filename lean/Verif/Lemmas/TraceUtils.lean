import Verif.Spec.TraceUtils
import Verif.Lemmas.PostCorr
import Mathlib.Data.List.Perm.Basic

/-! # Lemmas about the utilities for traces -/

namespace SeisMIC

/-! ### removing traces -/

theorem filter_erase_neg {α : Type} [DecidableEq α] (p : α → Bool) (l : List α) (x : α) (hx : p x = true) :
    (l.erase x).filter (fun y => !p y) = l.filter (fun y => !p y) := by
  induction l with
  | nil => rfl
  | cons y l ih =>
    rw [List.erase_cons]
    by_cases h : (y == x) = true
    · have : y = x := by simpa using h
      subst this
      rw [if_pos h, List.filter_cons, if_neg (by simp [hx])]
    · rw [if_neg h, List.filter_cons, List.filter_cons, ih]

theorem filter_erase_pos {α : Type} [DecidableEq α] (p : α → Bool) (l : List α) (x : α) (hx : p x = true) :
    (l.erase x).filter p = (l.filter p).erase x := by
  induction l with
  | nil => rfl
  | cons y l ih =>
    rw [List.erase_cons]
    by_cases h : (y == x) = true
    · have : y = x := by simpa using h
      subst this
      rw [if_pos h, List.filter_cons, if_pos hx, List.erase_cons_head]
    · rw [if_neg h, List.filter_cons, List.filter_cons, ih]
      split
      · rw [List.erase_cons, if_neg h]
      · rfl

theorem erase_all {α : Type} [DecidableEq α] (p : α → Bool) (M acc : List α) (hM : ∀ x ∈ M, p x = true)
    (h : (acc.filter p).Perm M) : M.foldl (fun a x => a.erase x) acc = acc.filter (fun y => !p y) := by
  induction M generalizing acc with
  | nil =>
    have hn := List.Perm.eq_nil h
    rw [List.filter_eq_nil_iff] at hn
    simp only [List.foldl_nil]
    rw [List.filter_eq_self.2]
    intro x hx
    have := hn x hx
    simpa using this
  | cons x M ih =>
    have hx : p x = true := hM x (by simp)
    rw [List.foldl_cons, ih (acc.erase x) (fun y hy => hM y (by simp [hy])), filter_erase_neg p acc x hx]
    rw [filter_erase_pos p acc x hx]
    have := h.erase x
    rwa [List.erase_cons_head] at this

theorem removeIf_eq {α : Type} [DecidableEq α] (p : α → Bool) (st : List α) :
    removeIf p st = st.filter (fun y => !p y) := by
  unfold removeIf
  have hfold : ∀ (L acc : List α), L.foldl (fun acc tr => if p tr then acc.erase tr else acc) acc =
      (L.filter p).foldl (fun a x => a.erase x) acc := by
    intro L
    induction L with
    | nil => intro acc; rfl
    | cons x L ih =>
      intro acc
      rw [List.foldl_cons, ih, List.filter_cons]
      split
      · rfl
      · rfl
  rw [hfold]
  exact erase_all p _ _ (fun x hx => (List.mem_filter.1 hx).2) (List.Perm.refl _)

/-! ### runs of masked samples -/

/-- `[k, k + l)` is a maximal run of `true` -/
def IsRun (m : List Bool) (k l : Nat) : Prop :=
  0 < l ∧ k + l ≤ m.length ∧ (∀ i, k ≤ i → i < k + l → m[i]? = some true) ∧ (∀ j, j + 1 = k → m[j]? = some false) ∧
    (k + l < m.length → m[k + l]? = some false)

/-- change points -/
def bounds : Bool → Nat → List Bool → List Nat
  | _, off, [] => [off]
  | prev, off, b :: m => if b != prev then off :: bounds b (off + 1) m else bounds b (off + 1) m

/-- beginnings of runs -/
def runStarts : Bool → Nat → List Bool → List Nat
  | _, _, [] => []
  | prev, off, b :: m => if b && (b != prev) then off :: runStarts b (off + 1) m else runStarts b (off + 1) m

/-- number of leading `true` -/
def lead : List Bool → Nat
  | true :: m => lead m + 1
  | _ => 0

theorem lead_le (m : List Bool) : lead m ≤ m.length := by
  induction m with
  | nil => simp [lead]
  | cons b m ih => cases b <;> simp [lead, ih]

theorem bounds_true (off : Nat) (m : List Bool) :
    bounds true off m = (off + lead m) :: (if lead m = m.length then [] else bounds false (off + lead m) (m.drop (lead m))) := by
  induction m generalizing off with
  | nil => simp [bounds, lead]
  | cons b m ih =>
    cases b with
    | false => simp [bounds, lead]
    | true =>
      simp only [bounds, lead, bne_self_eq_false, Bool.false_eq_true, if_false, List.length_cons, List.drop_succ_cons]
      rw [ih (off + 1)]
      simp only [Nat.add_right_cancel_iff, show off + 1 + lead m = off + (lead m + 1) by omega]

theorem runStarts_true (off : Nat) (m : List Bool) :
    runStarts true off m = runStarts false (off + lead m) (m.drop (lead m)) := by
  induction m generalizing off with
  | nil => simp [runStarts, lead]
  | cons b m ih =>
    cases b with
    | false => simp [runStarts, lead]
    | true =>
      simp only [runStarts, lead, bne_self_eq_false, Bool.and_false, Bool.false_eq_true, if_false, List.drop_succ_cons]
      rw [ih (off + 1), show off + 1 + lead m = off + (lead m + 1) by omega]

theorem everyNth_two_cons {α : Type} (x y : α) (l : List α) : everyNth 2 (x :: y :: l) = x :: everyNth 2 l := by
  unfold everyNth
  have : ((x :: y :: l).length + 2 - 1) / 2 = (l.length + 2 - 1) / 2 + 1 := by simp; omega
  rw [this, List.range_succ_eq_map, List.filterMap_cons]
  simp only [Nat.zero_mul, List.getElem?_cons_zero, List.filterMap_map]
  congr 1
  apply List.filterMap_congr
  intro k _
  simp only [Function.comp]
  rw [show Nat.succ k * 2 = k * 2 + 1 + 1 by omega]
  rfl

theorem everyNth_two_single {α : Type} (x : α) : everyNth 2 [x] = [x] := by
  simp [everyNth, List.range_succ]

/-- the runs with offset -/
def runsAt (off : Nat) (m : List Bool) : List (Nat × Nat) :=
  (runStarts false off m).zip (everyNth 2 (npDiff (bounds false off m)))

theorem runsAt_false (off : Nat) (m : List Bool) : runsAt off (false :: m) = runsAt (off + 1) m := by
  simp [runsAt, runStarts, bounds]

theorem npDiff_cons (a b : Nat) (l : List Nat) : npDiff (a :: b :: l) = (b - a) :: npDiff (b :: l) := by
  simp [npDiff]

theorem runsAt_true (off : Nat) (m : List Bool) :
    runsAt off (true :: m) = (off, lead m + 1) :: runsAt (off + 1 + lead m) (m.drop (lead m)) := by
  unfold runsAt
  simp only [runStarts, bounds]
  rw [if_pos (by decide), if_pos (by decide), runStarts_true, bounds_true]
  by_cases h : lead m = m.length
  · rw [if_pos h, npDiff_cons, h]
    simp [npDiff, runStarts, bounds, everyNth_two_single]
    omega
  · rw [if_neg h]
    have hne : ∃ c tail, bounds false (off + 1 + lead m) (m.drop (lead m)) = c :: tail := by
      have : ∀ p o (l : List Bool), ∃ c tail, bounds p o l = c :: tail := by
        intro p o l
        induction l generalizing p o with
        | nil => exact ⟨_, _, rfl⟩
        | cons b l ih =>
          unfold bounds
          split
          · exact ⟨_, _, rfl⟩
          · exact ih _ _
      exact this _ _ _
    obtain ⟨c, tail, hc⟩ := hne
    rw [hc, npDiff_cons, npDiff_cons, everyNth_two_cons, List.zip_cons_cons]
    congr 2
    omega

theorem drop_lead (m : List Bool) : m.drop (lead m) = [] ∨ ∃ m', m.drop (lead m) = false :: m' := by
  induction m with
  | nil => left; rfl
  | cons b m ih =>
    cases b with
    | false => right; exact ⟨m, rfl⟩
    | true => simpa [lead] using ih

theorem lead_true (m : List Bool) (i : Nat) (h : i < lead m) : m[i]? = some true := by
  induction m generalizing i with
  | nil => simp [lead] at h
  | cons b m ih =>
    cases b with
    | false => simp [lead] at h
    | true =>
      cases i with
      | zero => rfl
      | succ i => simp [lead] at h ⊢; exact ih i h

theorem isRun_false (m : List Bool) (k l : Nat) : IsRun (false :: m) k l ↔ ∃ k', k = k' + 1 ∧ IsRun m k' l := by
  constructor
  · rintro ⟨h1, h2, h3, h4, h5⟩
    cases k with
    | zero =>
      have := h3 0 (le_refl _) (by omega)
      simp at this
    | succ k =>
      refine ⟨k, rfl, h1, by simp at h2; omega, ?_, ?_, ?_⟩
      · intro i hi1 hi2
        have := h3 (i + 1) (by omega) (by omega)
        simpa using this
      · intro j hj
        have := h4 (j + 1) (by omega)
        simpa using this
      · intro h
        have := h5 (by simp; omega)
        rw [show k + 1 + l = (k + l) + 1 by omega] at this
        simpa using this
  · rintro ⟨k, rfl, h1, h2, h3, h4, h5⟩
    refine ⟨h1, by simp; omega, ?_, ?_, ?_⟩
    · intro i hi1 hi2
      cases i with
      | zero => omega
      | succ i => simpa using h3 i (by omega) (by omega)
    · intro j hj
      cases j with
      | zero => rfl
      | succ j => simpa using h4 j (by omega)
    · intro h
      rw [show k + 1 + l = (k + l) + 1 by omega]
      simpa using h5 (by simp at h; omega)

theorem isRun_true (m : List Bool) (k l : Nat) : IsRun (true :: m) k l ↔
    (k = 0 ∧ l = lead m + 1) ∨ ∃ k', k = k' + (1 + lead m) ∧ IsRun (m.drop (lead m)) k' l := by
  have hll := lead_le m
  -- the sample after the leading run
  have hnext : lead m < m.length → m[lead m]? = some false := by
    intro h
    rcases drop_lead m with h0 | ⟨m', h0⟩
    · have := congrArg List.length h0
      simp at this; omega
    · have : (m.drop (lead m))[0]? = some false := by rw [h0]; rfl
      simpa using this
  constructor
  · rintro ⟨h1, h2, h3, h4, h5⟩
    simp only [List.length_cons] at h2 h5
    by_cases hk : k = 0
    · subst hk
      left
      refine ⟨rfl, ?_⟩
      rcases Nat.lt_trichotomy l (lead m + 1) with h | h | h
      · have h6 := h5 (by omega)
        obtain ⟨l', rfl⟩ : ∃ l', l = l' + 1 := ⟨l - 1, by omega⟩
        have h7 := lead_true m l' (by omega)
        simp at h6
        rw [h7] at h6
        simp at h6
      · exact h
      · have h6 := h3 (lead m + 1) (by omega) (by omega)
        have h7 := hnext (by omega)
        simp at h6
        rw [h7] at h6
        simp at h6
    · right
      have hge : 1 + lead m ≤ k := by
        by_contra hc
        obtain ⟨j, rfl⟩ : ∃ j, k = j + 1 := ⟨k - 1, by omega⟩
        have h6 := h4 j rfl
        cases j with
        | zero => simp at h6
        | succ j =>
          simp at h6
          rw [lead_true m j (by omega)] at h6
          simp at h6
      refine ⟨k - (1 + lead m), by omega, h1, by simp; omega, ?_, ?_, ?_⟩
      · intro i hi1 hi2
        have := h3 (lead m + i + 1) (by omega) (by omega)
        simpa using this
      · intro j hj
        have := h4 (lead m + j + 1) (by omega)
        simpa using this
      · intro h
        simp at h
        have := h5 (by omega)
        rw [show k + l = (lead m + (k - (1 + lead m) + l)) + 1 by omega] at this
        simpa using this
  · rintro (⟨rfl, rfl⟩ | ⟨k', rfl, h1, h2, h3, h4, h5⟩)
    · refine ⟨by omega, by simp; omega, ?_, by omega, ?_⟩
      · intro i _ hi
        cases i with
        | zero => rfl
        | succ i => simpa using lead_true m i (by omega)
      · intro h
        simp at h
        have := hnext (by omega)
        simpa using this
    · simp at h2 h5
      have hk' : k' ≠ 0 := by
        rintro rfl
        have h6 := h3 0 (le_refl _) (by omega)
        rcases drop_lead m with h0 | ⟨m', h0⟩
        · rw [h0] at h6; simp at h6
        · rw [h0] at h6; simp at h6
      refine ⟨h1, by simp; omega, ?_, ?_, ?_⟩
      · intro i hi1 hi2
        have := h3 (i - (1 + lead m)) (by omega) (by omega)
        simp at this
        rw [show lead m + (i - (1 + lead m)) = i - 1 by omega] at this
        obtain ⟨i', rfl⟩ : ∃ i', i = i' + 1 := ⟨i - 1, by omega⟩
        simpa using this
      · intro j hj
        have := h4 (k' - 1) (by omega)
        simp at this
        obtain ⟨j', rfl⟩ : ∃ j', j = j' + 1 := ⟨j - 1, by omega⟩
        rw [show lead m + (k' - 1) = j' by omega] at this
        simpa using this
      · intro h
        simp at h
        have := h5 (by omega)
        rw [show k' + (1 + lead m) + l = (lead m + (k' + l)) + 1 by omega]
        simpa using this

theorem mem_runsAt (n : Nat) (m : List Bool) (hn : m.length ≤ n) (off s l : Nat) :
    (s, l) ∈ runsAt off m ↔ ∃ k, s = off + k ∧ IsRun m k l := by
  induction n generalizing m off with
  | zero =>
    have : m = [] := List.length_eq_zero_iff.1 (by omega)
    subst this
    simp [runsAt, runStarts, IsRun]
    omega
  | succ n ih =>
    cases m with
    | nil =>
      simp [runsAt, runStarts, IsRun]
      omega
    | cons b m =>
      simp at hn
      cases b with
      | false =>
        rw [runsAt_false, ih m hn]
        constructor
        · rintro ⟨k, rfl, h⟩
          exact ⟨k + 1, by omega, (isRun_false m _ _).2 ⟨k, rfl, h⟩⟩
        · rintro ⟨k, rfl, h⟩
          obtain ⟨k', rfl, h'⟩ := (isRun_false m _ _).1 h
          exact ⟨k', by omega, h'⟩
      | true =>
        rw [runsAt_true, List.mem_cons, ih (m.drop (lead m)) (by simp; omega)]
        constructor
        · rintro (h | ⟨k, rfl, h⟩)
          · simp only [Prod.mk.injEq] at h
            obtain ⟨rfl, rfl⟩ := h
            exact ⟨0, by omega, (isRun_true m _ _).2 (Or.inl ⟨rfl, rfl⟩)⟩
          · exact ⟨k + (1 + lead m), by omega, (isRun_true m _ _).2 (Or.inr ⟨k, rfl, h⟩)⟩
        · rintro ⟨k, rfl, h⟩
          rcases (isRun_true m _ _).1 h with ⟨rfl, rfl⟩ | ⟨k', rfl, h'⟩
          · left; simp
          · right; exact ⟨k', by omega, h'⟩

theorem whereTrue_cons (b : Bool) (l : List Bool) :
    whereTrue (b :: l) = (if b then [0] else []) ++ (whereTrue l).map (· + 1) := by
  unfold whereTrue
  rw [List.length_cons, List.range_succ_eq_map, List.filter_cons, List.filter_map]
  have : ((fun i => (b :: l).getD i false) ∘ Nat.succ) = fun i => l.getD i false := by
    funext i; simp
  rw [this]
  cases b <;> rfl

theorem whereTrue_bounds (prev : Bool) (off : Nat) (m : List Bool) :
    (whereTrue (List.zipWith (fun a b => a != b) (prev :: m.dropLast) m ++ [true])).map (· + off) = bounds prev off m := by
  induction m generalizing prev off with
  | nil => simp [bounds, whereTrue, List.range_succ]
  | cons b m ih =>
    have h1 : List.zipWith (fun a b => a != b) (prev :: (b :: m).dropLast) (b :: m) =
        (prev != b) :: List.zipWith (fun a b => a != b) (b :: m.dropLast) m := by
      cases m with
      | nil => rfl
      | cons c m => rfl
    rw [h1, List.cons_append, whereTrue_cons, List.map_append, List.map_map]
    have h2 : ((fun x => x + off) ∘ fun x => x + 1) = fun x => x + (off + 1) := by
      funext x; simp only [Function.comp]; omega
    rw [h2, ih b (off + 1)]
    cases b <;> cases prev <;> simp [bounds]

theorem whereTrue_starts (prev : Bool) (off : Nat) (m : List Bool) :
    (whereTrue (List.zipWith (fun a b => a && b) (List.zipWith (fun a b => a != b) (prev :: m.dropLast) m) m)).map (· + off) =
      runStarts prev off m := by
  induction m generalizing prev off with
  | nil => simp [runStarts, whereTrue]
  | cons b m ih =>
    have h1 : List.zipWith (fun a b => a != b) (prev :: (b :: m).dropLast) (b :: m) =
        (prev != b) :: List.zipWith (fun a b => a != b) (b :: m.dropLast) m := by
      cases m with
      | nil => rfl
      | cons c m => rfl
    rw [h1, List.zipWith_cons_cons, whereTrue_cons, List.map_append, List.map_map]
    have h2 : ((fun x => x + off) ∘ fun x => x + 1) = fun x => x + (off + 1) := by
      funext x; simp only [Function.comp]; omega
    rw [h2, ih b (off + 1)]
    cases b <;> cases prev <;> simp [runStarts]

theorem maskRuns_eq (m : List Bool) (hm : m ≠ []) : maskRuns m = runsAt 0 m := by
  have h0 : [m.headD false] ++ List.zipWith (fun a b => a != b) m.dropLast m.tail =
      List.zipWith (fun a b => a != b) (false :: m.dropLast) m := by
    cases m with
    | nil => exact absurd rfl hm
    | cons b m => cases b <;> simp
  unfold maskRuns runsAt
  simp only
  rw [h0, List.dropLast_concat]
  have h1 := whereTrue_bounds false 0 m
  have h2 := whereTrue_starts false 0 m
  simp only [Nat.add_zero, List.map_id'] at h1 h2
  rw [h1, h2]

theorem mem_maskRuns (m : List Bool) (hm : m ≠ []) (s l : Nat) : (s, l) ∈ maskRuns m ↔ IsRun m s l := by
  rw [maskRuns_eq m hm, mem_runsAt m.length m (le_refl _)]
  constructor
  · rintro ⟨k, rfl, h⟩; simpa using h
  · intro h; exact ⟨s, by omega, h⟩

/-! ### interpolation -/

/-- valid samples with their positions -/
def validPairs : Nat → List F → List (Nat × Rat)
  | _, [] => []
  | off, none :: A => validPairs (off + 1) A
  | off, some v :: A => (off, v) :: validPairs (off + 1) A

theorem validPairs_append (off : Nat) (A B : List F) :
    validPairs off (A ++ B) = validPairs off A ++ validPairs (off + A.length) B := by
  induction A generalizing off with
  | nil => rfl
  | cons x A ih =>
    cases x <;> simp [validPairs, ih, show off + 1 + A.length = off + (A.length + 1) by omega]

theorem validPairs_mem (off : Nat) (A : List F) (p : Nat × Rat) (h : p ∈ validPairs off A) :
    off ≤ p.1 ∧ p.1 < off + A.length ∧ A[p.1 - off]? = some (some p.2) := by
  induction A generalizing off with
  | nil => cases h
  | cons x A ih =>
    cases x with
    | none =>
      obtain ⟨h1, h2, h3⟩ := ih (off + 1) h
      refine ⟨by omega, by simp; omega, ?_⟩
      rw [show p.1 - off = (p.1 - (off + 1)) + 1 by omega]
      simpa using h3
    | some v =>
      rcases List.mem_cons.1 h with rfl | h
      · simp
      · obtain ⟨h1, h2, h3⟩ := ih (off + 1) h
        refine ⟨by omega, by simp; omega, ?_⟩
        rw [show p.1 - off = (p.1 - (off + 1)) + 1 by omega]
        simpa using h3

theorem validPairs_none (off : Nat) (A : List F) (h : ∀ x ∈ A, x = none) : validPairs off A = [] := by
  induction A generalizing off with
  | nil => rfl
  | cons x A ih =>
    rw [h x (by simp)]
    exact ih _ (fun y hy => h y (by simp [hy]))

theorem zip_valid (A : List F) :
    ((List.range A.length).filter fun i => !((A.map (·.isNone)).getD i false)).zip (notNan A) = validPairs 0 A := by
  have key : ∀ (A : List F) (off : Nat),
      ((((List.range A.length).filter fun i => !((A.map (·.isNone)).getD i false)).map (· + off)).zip (notNan A)) =
        validPairs off A := by
    intro A
    induction A with
    | nil => intro off; rfl
    | cons x A ih =>
      intro off
      rw [List.length_cons, List.range_succ_eq_map, List.filter_cons, List.filter_map]
      have e : ((fun i => !(((x :: A).map (·.isNone)).getD i false)) ∘ Nat.succ) =
          fun i => !((A.map (·.isNone)).getD i false) := by
        funext i; simp
      rw [e]
      have e2 : ((fun x => x + off) ∘ Nat.succ) = fun x => x + (off + 1) := by
        funext y; simp only [Function.comp]; omega
      cases x with
      | none =>
        simp only [List.map_cons, Option.isNone_none, List.getD_cons_zero, Bool.not_true, Bool.false_eq_true, if_false,
          List.map_map, e2, notNan, List.filterMap_cons, id]
        exact ih (off + 1)
      | some v =>
        simp only [List.map_cons, Option.isNone_some, List.getD_cons_zero, Bool.not_false, if_true,
          List.map_map, e2, notNan, List.filterMap_cons, id, List.zip_cons_cons, validPairs, Nat.zero_add]
        congr 1
        exact ih (off + 1)
  have := key A 0
  simpa using this

theorem npInterp_gap (A : List F) (p i q : Nat) (a b : Rat) (h : InGap A p i q a b) :
    npInterp ((List.range A.length).filter fun i => !((A.map (·.isNone)).getD i false)) (notNan A) i =
      some ((b - a) / ((q : Rat) - p) * ((i : Rat) - p) + a) := by
  obtain ⟨h1, h2, h3, h4, h5⟩ := h
  unfold npInterp
  rw [zip_valid]
  obtain ⟨hp, hpe⟩ := List.getElem?_eq_some_iff.1 h3
  obtain ⟨hq, hqe⟩ := List.getElem?_eq_some_iff.1 h4
  -- split at `p + 1` and at `q`
  have hsplit : A = (A.take p ++ [some a]) ++ ((A.drop (p + 1)).take (q - (p + 1)) ++ (some b :: A.drop (q + 1))) := by
    have e1 : A = A.take p ++ A.drop p := (List.take_append_drop p A).symm
    have e2 : A.drop p = some a :: A.drop (p + 1) := by rw [List.drop_eq_getElem_cons hp, hpe]
    have e3 : A.drop (p + 1) = (A.drop (p + 1)).take (q - (p + 1)) ++ A.drop q := by
      conv_lhs => rw [← List.take_append_drop (q - (p + 1)) (A.drop (p + 1))]
      rw [List.drop_drop, show p + 1 + (q - (p + 1)) = q by omega]
    have e4 : A.drop q = some b :: A.drop (q + 1) := by rw [List.drop_eq_getElem_cons hq, hqe]
    conv_lhs => rw [e1, e2, e3, e4]
    simp
  have hmid : ∀ x ∈ (A.drop (p + 1)).take (q - (p + 1)), x = none := by
    intro x hx
    obtain ⟨k, hk⟩ := List.getElem?_of_mem hx
    have hk' : k < q - (p + 1) := by
      have := (List.getElem?_eq_some_iff.1 hk).1
      simp at this; omega
    rw [List.getElem?_take_of_lt hk', List.getElem?_drop, h5 (p + 1 + k) (by omega) (by omega)] at hk
    exact (Option.some.inj hk).symm
  have hlenp : (A.take p).length = p := by simp; omega
  have hlenm : ((A.drop (p + 1)).take (q - (p + 1))).length = q - (p + 1) := by simp; omega
  have hv : validPairs 0 A = validPairs 0 (A.take p) ++ [(p, a)] ++ ((q, b) :: validPairs (q + 1) (A.drop (q + 1))) := by
    conv_lhs => rw [hsplit]
    rw [validPairs_append, validPairs_append, validPairs_append]
    simp only [List.length_append, List.length_singleton, hlenp, hlenm, Nat.zero_add]
    rw [validPairs_none _ _ hmid]
    simp only [validPairs, List.nil_append, show p + 1 + (q - (p + 1)) = q by omega]
  rw [hv]
  have hb1 : ∀ r ∈ validPairs 0 (A.take p), r.1 < p := by
    intro r hr
    have := (validPairs_mem _ _ _ hr).2.1
    omega
  have hb2 : ∀ r ∈ validPairs (q + 1) (A.drop (q + 1)), q < r.1 := by
    intro r hr
    have := (validPairs_mem _ _ _ hr).1
    omega
  have f1 : ((validPairs 0 (A.take p) ++ [(p, a)] ++ ((q, b) :: validPairs (q + 1) (A.drop (q + 1)))).filter
      fun r => decide (r.1 < i)) = validPairs 0 (A.take p) ++ [(p, a)] := by
    rw [List.filter_append, List.filter_eq_self.2, List.filter_eq_nil_iff.2, List.append_nil]
    · intro r hr
      rcases List.mem_cons.1 hr with rfl | hr
      · simp; omega
      · have := hb2 r hr; simp; omega
    · intro r hr
      rcases List.mem_append.1 hr with hr | hr
      · have := hb1 r hr; simp; omega
      · simp only [List.mem_singleton] at hr
        subst hr; simpa using h1
  have f2 : ((validPairs 0 (A.take p) ++ [(p, a)] ++ ((q, b) :: validPairs (q + 1) (A.drop (q + 1)))).filter
      fun r => decide (i < r.1)) = (q, b) :: validPairs (q + 1) (A.drop (q + 1)) := by
    rw [List.filter_append, List.filter_eq_nil_iff.2, List.filter_eq_self.2, List.nil_append]
    · intro r hr
      rcases List.mem_cons.1 hr with rfl | hr
      · simp; omega
      · have := hb2 r hr; simp; omega
    · intro r hr
      rcases List.mem_append.1 hr with hr | hr
      · have := hb1 r hr; simp; omega
      · simp only [List.mem_singleton] at hr
        subst hr; simp; omega
  rw [f1, f2]
  simp

/-- a sample that is interpolated lies between valid samples -/
theorem npInterp_some (A : List F) (i : Nat) (hi : A[i]? = some none) (v : Rat)
    (h : npInterp ((List.range A.length).filter fun i => !((A.map (·.isNone)).getD i false)) (notNan A) i = some v) :
    (∃ p a, p < i ∧ A[p]? = some (some a)) ∧ ∃ q b, i < q ∧ A[q]? = some (some b) := by
  unfold npInterp at h
  rw [zip_valid] at h
  cases hl : ((validPairs 0 A).filter fun p => decide (p.1 < i)).getLast? with
  | none => rw [hl] at h; simp at h
  | some x =>
    cases hr : ((validPairs 0 A).filter fun p => decide (i < p.1)).head? with
    | none => rw [hl, hr] at h; simp at h
    | some y =>
      have hx := List.mem_filter.1 (List.mem_of_getLast? hl)
      have hy := List.mem_filter.1 (List.mem_of_head? hr)
      obtain ⟨-, -, hx3⟩ := validPairs_mem _ _ _ hx.1
      obtain ⟨-, -, hy3⟩ := validPairs_mem _ _ _ hy.1
      exact ⟨⟨x.1, x.2, by simpa using hx.2, by simpa using hx3⟩, ⟨y.1, y.2, by simpa using hy.2, by simpa using hy3⟩⟩

theorem fold_runs (g : Nat → F) (L : Nat) (runs : List (Nat × Nat)) (A : List F) :
    (runs.foldl (fun A r => if r.2 > L then A
      else A.mapIdx fun i x => if r.1 ≤ i ∧ i < r.1 + r.2 then g i else x) A).length = A.length ∧
    ∀ i : Nat, ((∃ r ∈ runs, r.2 ≤ L ∧ r.1 ≤ i ∧ i < r.1 + r.2) → i < A.length →
        (runs.foldl (fun A r => if r.2 > L then A
          else A.mapIdx fun i x => if r.1 ≤ i ∧ i < r.1 + r.2 then g i else x) A)[i]? = some (g i)) ∧
      ((¬ ∃ r ∈ runs, r.2 ≤ L ∧ r.1 ≤ i ∧ i < r.1 + r.2) →
        (runs.foldl (fun A r => if r.2 > L then A
          else A.mapIdx fun i x => if r.1 ≤ i ∧ i < r.1 + r.2 then g i else x) A)[i]? = A[i]?) := by
  induction runs generalizing A with
  | nil => simp
  | cons r runs ih =>
    simp only [List.foldl_cons]
    by_cases hr : r.2 > L
    · rw [if_pos hr]
      obtain ⟨h1, h2⟩ := ih A
      refine ⟨h1, fun i => ⟨?_, ?_⟩⟩
      · rintro ⟨r', hr', h3⟩ hi
        rcases List.mem_cons.1 hr' with rfl | hr'
        · omega
        · exact (h2 i).1 ⟨r', hr', h3⟩ hi
      · intro h3
        exact (h2 i).2 fun ⟨r', hr', h4⟩ => h3 ⟨r', by simp [hr'], h4⟩
    · rw [if_neg hr]
      obtain ⟨h1, h2⟩ := ih (A.mapIdx fun i x => if r.1 ≤ i ∧ i < r.1 + r.2 then g i else x)
      refine ⟨by rw [h1]; simp, fun i => ⟨?_, ?_⟩⟩
      · intro h3 hi
        by_cases h4 : ∃ r' ∈ runs, r'.2 ≤ L ∧ r'.1 ≤ i ∧ i < r'.1 + r'.2
        · exact (h2 i).1 h4 (by simpa using hi)
        · rw [(h2 i).2 h4]
          obtain ⟨r', hr', h5⟩ := h3
          rcases List.mem_cons.1 hr' with rfl | hr'
          · rw [List.getElem?_mapIdx, List.getElem?_eq_getElem hi, Option.map_some, if_pos h5.2]
          · exact absurd ⟨r', hr', h5⟩ h4
      · intro h3
        rw [(h2 i).2 fun ⟨r', hr', h4⟩ => h3 ⟨r', by simp [hr'], h4⟩, List.getElem?_mapIdx]
        have : ¬ (r.1 ≤ i ∧ i < r.1 + r.2) := fun h4 => h3 ⟨r, by simp, by omega, h4⟩
        cases A[i]? <;> simp [this]

end SeisMIC
