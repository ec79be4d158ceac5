import Verif.Model.StretchMeasure
import Verif.Props.StretchMeasure
import Verif.Props.MultiRef

/-! # Measurements of some of the traces: C156 -/

namespace SeisMIC

noncomputable section

/-! ### auxiliary facts -/

theorem mapM_append_iff {α β ε : Type} (f : α → Except ε β) (A B : List α) (R : List β) :
    (A ++ B).mapM f = .ok R ↔ ∃ RA RB, A.mapM f = .ok RA ∧ B.mapM f = .ok RB ∧ R = RA ++ RB := by
  rw [List.mapM_append]
  cases hA : A.mapM f with
  | error e => simp [bind, Except.bind]
  | ok RA =>
    cases hB : B.mapM f with
    | error e => simp [bind, Except.bind]
    | ok RB => simp [bind, Except.bind, pure, Except.pure, eq_comm]

theorem mapM_cons_iff {α β ε : Type} (f : α → Except ε β) (a : α) (l : List α) (R : List β) :
    (a :: l).mapM f = .ok R ↔ ∃ b t, f a = .ok b ∧ l.mapM f = .ok t ∧ R = b :: t := by
  rw [List.mapM_cons]
  cases hA : f a with
  | error e => simp [bind, Except.bind]
  | ok RA =>
    cases hB : l.mapM f with
    | error e => simp [bind, Except.bind]
    | ok RB => simp [bind, Except.bind, pure, Except.pure, eq_comm]

/-- windows by windows, the results of the traces are those of the two parts -/
theorem mapM_parts {α β ω ε : Type} (tw : List ω) (F : ω → List α → Except ε (List β)) (A B : List α)
    (hF : ∀ w R, F w (A ++ B) = .ok R ↔ ∃ RA RB, F w A = .ok RA ∧ F w B = .ok RB ∧ R = RA ++ RB) (R : List (List β)) :
    tw.mapM (fun w => F w (A ++ B)) = .ok R ↔
      ∃ RA RB, tw.mapM (fun w => F w A) = .ok RA ∧ tw.mapM (fun w => F w B) = .ok RB ∧ R = List.zipWith (· ++ ·) RA RB := by
  induction tw generalizing R with
  | nil =>
    simp only [List.mapM_nil, pure, Except.pure, Except.ok.injEq]
    constructor
    · rintro rfl
      exact ⟨[], [], rfl, rfl, rfl⟩
    · rintro ⟨_, _, rfl, rfl, rfl⟩
      rfl
  | cons w tw ih =>
    rw [mapM_cons_iff]
    constructor
    · rintro ⟨b, t, h1, h2, rfl⟩
      obtain ⟨a1, a2, h3, h4, rfl⟩ := (hF w b).1 h1
      obtain ⟨t1, t2, h5, h6, rfl⟩ := (ih t).1 h2
      exact ⟨a1 :: t1, a2 :: t2, (mapM_cons_iff _ _ _ _).2 ⟨a1, t1, h3, h5, rfl⟩, (mapM_cons_iff _ _ _ _).2 ⟨a2, t2, h4, h6, rfl⟩, rfl⟩
    · rintro ⟨RA, RB, h1, h2, rfl⟩
      obtain ⟨a1, t1, h3, h5, rfl⟩ := (mapM_cons_iff _ _ _ _).1 h1
      obtain ⟨a2, t2, h4, h6, rfl⟩ := (mapM_cons_iff _ _ _ _).1 h2
      exact ⟨a1 ++ a2, _, (hF w _).2 ⟨a1, a2, h3, h4, rfl⟩, (ih _).2 ⟨t1, t2, h5, h6, rfl⟩, rfl⟩

theorem trim_header {α : Type} (M : List (List α)) (s : LagStats) (hM : ∀ row ∈ M, row.length = s.npts) (t0 t1 : Rat) :
    (corrMatTrim M s t0 t1).2 = (corrMatTrim ([] : List (List α)) s t0 t1).2 := by
  cases M with
  | nil => rfl
  | cons x M =>
    have hx : x.length = s.npts := hM x (by simp)
    unfold corrMatTrim
    simp only
    split
    · rfl
    · split
      · rfl
      · simp [pySlice, hx]

theorem trim_append {α : Type} (A B : List (List α)) (s : LagStats) (hA : ∀ row ∈ A, row.length = s.npts)
    (hB : ∀ row ∈ B, row.length = s.npts) (t0 t1 : Rat) :
    (corrMatTrim (A ++ B) s t0 t1).1 = (corrMatTrim A s t0 t1).1 ++ (corrMatTrim B s t0 t1).1 ∧
      (corrMatTrim (A ++ B) s t0 t1).2 = (corrMatTrim A s t0 t1).2 ∧ (corrMatTrim (A ++ B) s t0 t1).2 = (corrMatTrim B s t0 t1).2 := by
  have hAB : ∀ row ∈ A ++ B, row.length = s.npts := by
    intro row hrow
    rcases List.mem_append.1 hrow with h | h
    · exact hA row h
    · exact hB row h
  rw [trim_header _ s hAB, trim_header _ s hA, trim_header _ s hB]
  refine ⟨?_, rfl, rfl⟩
  unfold corrMatTrim
  simp only
  split
  · rfl
  · split
    · rfl
    · exact List.map_append

theorem velocityChange_append (n nref : Nat) (A B : List (List (Option ℝ))) (tw : List (List Int)) (refs : List (List ℝ)) (strvec : List ℝ)
    (sides : Str) (nans : Bool) (R : List (List (Option ℝ × Option ℝ))) :
    velocityChange n nref (A ++ B) tw refs strvec sides nans = .ok R ↔
      ∃ RA RB, velocityChange n nref A tw refs strvec sides nans = .ok RA ∧ velocityChange n nref B tw refs strvec sides nans = .ok RB ∧
        R = List.zipWith (· ++ ·) RA RB := by
  unfold velocityChange
  split
  · simp
  · apply mapM_parts tw fun w M => (do
      let idx ← windowIdx sides n w
      let mask ← maskOf n idx
      if strvec.length ≠ refs.length ∧ refs.length ≠ 1 then .error .valueError
      M.mapM fun row => bestMatch strvec (simRow nans mask refs row))
    intro w R
    cases windowIdx sides n w with
    | error e => simp [bind, Except.bind]
    | ok idx =>
      simp only [bind, Except.bind]
      cases maskOf n idx with
      | error e => simp
      | ok mask =>
        simp only
        split
        · simp
        · exact mapM_append_iff _ _ _ _

/-! ### theorems -/

/-- C156: The velocity changes that are measured with a given reference in a matrix of traces are
those that are measured in any two parts of it, one after the other. So adding correlations
does not change what was measured before. -/
theorem c156_stretch (spline : List ℝ → List ℝ → ℝ → ℝ) (A B : List (List ℝ)) (s : LagStats) (hA : ∀ row ∈ A, row.length = s.npts)
    (hB : ∀ row ∈ B, row.length = s.npts) (ref : List ℝ) (tw : Option (List (List Int))) (range : ℝ) (steps : Nat) (sides : Str)
    (refStats : Option LagStats) (R : List (List (Option ℝ × Option ℝ))) :
    corrMatStretch spline (A ++ B) s (some ref) tw range steps sides refStats = .ok R ↔
      ∃ RA RB, corrMatStretch spline A s (some ref) tw range steps sides refStats = .ok RA ∧
        corrMatStretch spline B s (some ref) tw range steps sides refStats = .ok RB ∧ R = List.zipWith (· ++ ·) RA RB := by
  have ht : (stretchTrim (A ++ B) s sides).1 = (stretchTrim A s sides).1 ++ (stretchTrim B s sides).1 ∧
      (stretchTrim (A ++ B) s sides).2 = (stretchTrim A s sides).2 ∧ (stretchTrim (A ++ B) s sides).2 = (stretchTrim B s sides).2 := by
    unfold stretchTrim
    split <;> exact trim_append A B s hA hB _ _
  unfold corrMatStretch
  simp only [bind, Except.bind, ht.1, ← ht.2.1, ← ht.2.2]
  generalize (stretchTrim (A ++ B) s sides).2 = u
  cases usedWindows sides u.npts tw with
  | error e => simp
  | ok w =>
    simp only [timeStretch, List.map_append]
    exact velocityChange_append _ _ _ _ _ _ _ _ _ _

/-- C156: The same for waveform coherences. -/
theorem c156_coherence (n : Nat) (A B : List (List (Option ℝ))) (tw : List (List Int)) (ref : List ℝ) (sides : Str) (nans : Bool)
    (R : List (List (Option ℝ))) :
    computeWfc n (A ++ B) tw ref sides nans = .ok R ↔
      ∃ RA RB, computeWfc n A tw ref sides nans = .ok RA ∧ computeWfc n B tw ref sides nans = .ok RB ∧ R = List.zipWith (· ++ ·) RA RB := by
  unfold computeWfc
  split
  · simp
  · apply mapM_parts tw fun w M => (do
      let idx ← windowIdx sides n w
      let mask ← maskOf n idx
      pure (M.map fun row => (match rowVals nans row with
        | none => none
        | some f => similarity (maskMul mask f) (maskMul mask ref) : Option ℝ)))
    intro w R
    cases windowIdx sides n w with
    | error e => simp [bind, Except.bind]
    | ok idx =>
      simp only [bind, Except.bind]
      cases maskOf n idx with
      | error e => simp
      | ok mask => simp [pure, Except.pure, eq_comm]

/-- C156: The same for time shifts. -/
theorem c156_shift (spline : List ℝ → List ℝ → ℝ → ℝ) (A B : List (List ℝ)) (s : LagStats) (hA : ∀ row ∈ A, row.length = s.npts)
    (hB : ∀ row ∈ B, row.length = s.npts) (ref : List ℝ) (tw : Option (List (List Rat))) (range : Rat) (steps : Int) (sides : Str)
    (R : List (Option ℝ × Option ℝ)) :
    measureShift spline (A ++ B) s (some ref) tw range steps sides = .ok R ↔
      ∃ RA RB, measureShift spline A s (some ref) tw range steps sides = .ok RA ∧
        measureShift spline B s (some ref) tw range steps sides = .ok RB ∧ R = RA ++ RB := by
  unfold measureShift
  by_cases h1 : steps % 2 = 0
  · simp [if_pos h1]
  rw [if_neg h1, if_neg h1, if_neg h1]
  by_cases h2 : sides ≠ c!"both" ∧ sides ≠ c!"single"
  · simp [if_pos h2]
  rw [if_neg h2, if_neg h2, if_neg h2]
  by_cases h3 : (tw.getD []).any (fun w => w.length != 2) = true
  · simp only [if_pos h3]; simp
  rw [if_neg h3, if_neg h3, if_neg h3]
  by_cases h4 : sides = c!"both" ∧ (tw.getD []).any (fun w => w.any fun t => decide (t < 0)) = true
  · simp only [if_pos h4]; simp
  rw [if_neg h4, if_neg h4, if_neg h4]
  by_cases h5 : ref.length ≠ s.npts
  · simp [h5]
  have hd : ¬ (match some ref with | some r => decide (r.length ≠ s.npts) | none => false) = true := by simpa using h5
  rw [if_neg hd, if_neg hd, if_neg hd]
  have h5 : ref.length = s.npts := not_not.1 h5
  dsimp only
  split
  · rename_i hi lo _ _
    generalize (if sides = c!"both" then -(hi + range) else lo - range) = lo'
    generalize hi + range = hi'
    generalize (List.map (fun w => (w.getD 0 0, w.getD 1 0)) (tw.getD [[s.startLag + range, s.endLag - range]]) : List (Rat × Rat)) = wins
    by_cases g1 : ¬ hi' ≤ s.endLag
    · simp only [if_pos g1]; simp
    rw [if_neg g1, if_neg g1, if_neg g1]
    by_cases g2 : ¬ s.startLag ≤ lo'
    · simp only [if_pos g2]; simp
    rw [if_neg g2, if_neg g2, if_neg g2]
    by_cases g3 : steps < 0
    · simp only [if_pos g3]; simp
    rw [if_neg g3, if_neg g3, if_neg g3]
    have hr : ∀ row ∈ [ref], row.length = s.npts := by simpa using h5
    have hlast : ∀ M : List (List ℝ), (∀ row ∈ M, row.length = s.npts) →
        (corrMatTrim (M ++ [ref]) s lo' hi').1.dropLast = (corrMatTrim M s lo' hi').1 ∧
        (corrMatTrim (M ++ [ref]) s lo' hi').1.getLastD [] = ((corrMatTrim [ref] s lo' hi').1).getLastD [] ∧
        (corrMatTrim (M ++ [ref]) s lo' hi').2 = (corrMatTrim [ref] s lo' hi').2 := by
      intro M hM
      have ht := trim_append M [ref] s hM hr lo' hi'
      have h1 : ∃ r, (corrMatTrim [ref] s lo' hi').1 = [r] := by
        unfold corrMatTrim
        simp only
        split
        · exact ⟨_, rfl⟩
        · split
          · exact ⟨_, rfl⟩
          · exact ⟨_, rfl⟩
      obtain ⟨r, h1⟩ := h1
      rw [ht.1, h1]
      refine ⟨by simp, by simp, ht.2.2⟩
    have hAB : ∀ row ∈ A ++ B, row.length = s.npts := by
      intro row hrow
      rcases List.mem_append.1 hrow with h | h
      · exact hA row h
      · exact hB row h
    simp only [Option.toList_some]
    rw [(hlast (A ++ B) hAB).1, (hlast (A ++ B) hAB).2.1, (hlast (A ++ B) hAB).2.2, (hlast A hA).1, (hlast A hA).2.1, (hlast A hA).2.2,
      (hlast B hB).1, (hlast B hB).2.1, (hlast B hB).2.2, (trim_append A B s hA hB lo' hi').1]
    unfold measureTrimmed
    exact mapM_append_iff _ _ _ _
  · simp

/-- a similarity of one half at one tested stretch only -/
def peakAt (p : Nat) : List (Option ℝ) := (List.range 7).map fun j => some (if j = p then 1 / 2 else 0)

/-- the results with one reference: the best match is the stretch 0 at two times -/
def twoTimes : RefResult := ⟨[some 0, some 0], [some (1 / 2), some (1 / 2)], [peakAt 3, peakAt 3]⟩

/-- a third time with another best match -/
def threeTimes (v : ℝ) (p : Nat) : RefResult :=
  ⟨[some 0, some 0, some v], [some (1 / 2), some (1 / 2), some (1 / 2)], [peakAt 3, peakAt 3, peakAt p]⟩

theorem half_wgt (a b : Option ℝ) : ShiftPoint.wgt ⟨a, b, some (1 / 2), some (1 / 2)⟩ = some (2 / 3) := by
  norm_num [ShiftPoint.wgt, pointWgt, pointVar, maDiv]

theorem solve_two (solve : Nat → List ℝ → List ℝ → List ℝ) (hsolve : IsSolver solve) (d : ℝ) : solve 2 [1, 1] [d, -d] = [d] := by
  have hiff : ∀ x : ℝ, SolvesAlignment 2 [1, 1] [d, -d] [x] ↔ x = d := by
    intro x
    unfold SolvesAlignment
    have hG : createG 2 = [[1], [-1]] := by
      simp [createG, pairsG, rowG, List.range_succ]
    rw [hG]
    constructor
    · intro h
      have := h 0 (by norm_num)
      simp [dotR] at this
      linarith
    · rintro rfl c hc
      have : c = 0 := by omega
      subst this
      simp [dotR]
  obtain ⟨h1, h2⟩ := hsolve 2 [1, 1] [d, -d] ⟨[d], rfl, (hiff d).2 rfl⟩
  cases hs : solve 2 [1, 1] [d, -d] with
  | nil => rw [hs] at h1; cases h1
  | cons x l =>
    rw [hs] at h1 h2
    cases l with
    | cons y l => cases h1
    | nil => rw [(hiff x).1 h2]

theorem roll0 : rollRow 0 (peakAt 3) = peakAt 3 := by rfl

theorem maMean2 (x y : ℝ) : maMean [some x, some y] = some ((x + y) / 2) := by
  have : maMean [some x, some y] = some (meanR [x, y]) := rfl
  rw [this]
  norm_num [meanR]

theorem maMax7 (a b c d e f g : ℝ) : maMaxR [some a, some b, some c, some d, some e, some f, some g] =
    some (max (max (max (max (max (max (max a a) b) c) d) e) f) g) := rfl

theorem combine_two : combineSims [twoTimes, twoTimes] [0, 0] = [peakAt 3, peakAt 3] := by
  have h : ∀ j ∈ List.range 7, maMean [(peakAt 3).getD j none, (peakAt 3).getD j none] = some (if j = 3 then 1 / 2 else 0) := by
    intro j hj
    have : (peakAt 3).getD j none = some (if j = 3 then 1 / 2 else 0) := by
      unfold peakAt
      rw [List.getD_eq_getElem _ _ (by simpa using hj), List.getElem_map, List.getElem_range]
    rw [this, maMean2]
    congr 1
    split <;> norm_num
  unfold combineSims
  simp only [twoTimes, List.headD_cons, List.length_cons, List.length_nil, List.range_succ (n := 1), List.range_succ (n := 0), List.range_zero,
    List.nil_append, List.cons_append, List.map_cons, List.map_nil, List.zipWith_cons_cons, List.zipWith_nil_left, List.getD_cons_zero,
    List.getD_cons_succ, roll0, Nat.reduceAdd]
  have hl : (peakAt 3).length = 7 := by simp [peakAt]
  rw [hl, List.map_congr_left h]
  rfl

theorem combine_three : combineSims [threeTimes 3 6, threeTimes (-3) 0] [-1, 1] =
    [(List.range 7).map fun j => some (if j = 2 ∨ j = 4 then 1 / 4 else 0), (List.range 7).map fun j => some (if j = 2 ∨ j = 4 then 1 / 4 else 0),
      (List.range 7).map fun j => some (if j = 5 ∨ j = 1 then 1 / 4 else 0)] := by
  have h : ∀ p q : Nat, p ≠ q → ∀ j ∈ List.range 7, maMean [(peakAt p).getD j none, (peakAt q).getD j none] = some (if j = p ∨ j = q then 1 / 4 else 0) := by
    intro p q hpq j hj
    have : ∀ p, (peakAt p).getD j none = some (if j = p then 1 / 2 else 0) := by
      intro p
      unfold peakAt
      rw [List.getD_eq_getElem _ _ (by simpa using hj), List.getElem_map, List.getElem_range]
    rw [this, this, maMean2]
    congr 1
    by_cases h1 : j = p
    · rw [if_pos h1, if_neg (by omega), if_pos (.inl h1)]
      norm_num
    · by_cases h2 : j = q
      · rw [if_neg h1, if_pos h2, if_pos (.inr h2)]
        norm_num
      · rw [if_neg h1, if_neg h2, if_neg (by omega)]
        norm_num
  have r1 : rollRow (-1) (peakAt 3) = peakAt 2 := by rfl
  have r2 : rollRow 1 (peakAt 3) = peakAt 4 := by rfl
  have r3 : rollRow (-1) (peakAt 6) = peakAt 5 := by rfl
  have r4 : rollRow 1 (peakAt 0) = peakAt 1 := by rfl
  unfold combineSims
  simp only [threeTimes, List.headD_cons, List.length_cons, List.length_nil, List.range_succ (n := 2), List.range_succ (n := 1),
    List.range_succ (n := 0), List.range_zero, List.nil_append, List.cons_append, List.map_cons, List.map_nil, List.zipWith_cons_cons,
    List.zipWith_nil_left, List.getD_cons_zero, List.getD_cons_succ, r1, r2, r3, r4, Nat.reduceAdd]
  have hl : (peakAt 3).length = 7 := by simp [peakAt]
  rw [hl, List.map_congr_left (h 2 4 (by decide)), List.map_congr_left (h 5 1 (by decide))]

/-- C156 is violated with several references: a third time changes what was measured at the times
before. The correlation at the first time is one half before and one quarter afterwards. -/
theorem c156_references_violated (solve : Nat → List ℝ → List ℝ → List ℝ) (hsolve : IsSolver solve) :
    (∃ l, combineRefs solve [-3, -2, -1, 0, 1, 2, 3] [twoTimes, twoTimes] = .ok l ∧ l.map Prod.fst = [some (1 / 2), some (1 / 2)]) ∧
    ∃ l, combineRefs solve [-3, -2, -1, 0, 1, 2, 3] [threeTimes 3 6, threeTimes (-3) 0] = .ok l ∧
      l.map Prod.fst = [some (1 / 4), some (1 / 4), some (1 / 4)] := by
  have e0 : npAround 0 = 0 := by simpa using npAround_int 0
  have e1 : npAround 1 = 1 := by simpa using npAround_int 1
  have e2 : npAround (-1) = -1 := by simpa using npAround_int (-1)
  constructor
  · have hW : pairWeights [twoTimes, twoTimes] = [1, 1] := by
      simp only [pairWeights, pairsG, List.length_cons, List.length_nil, List.range_succ, List.range_zero]
      norm_num [pairPoints, twoTimes, estCorr, half_wgt, ShiftPoint.corrTerm, List.filter, List.filterMap_cons]
      rw [if_neg (by simp)]
      rfl
    have hD : pairShifts [twoTimes, twoTimes] = [0, -0] := by
      simp only [pairShifts, pairsG, List.length_cons, List.length_nil, List.range_succ, List.range_zero]
      norm_num [pairPoints, twoTimes, estShift, half_wgt, ShiftPoint.term, List.filter, List.filterMap_cons]
      rw [if_neg (by simp)]
      rfl
    have hr : rollSteps solve [-3, -2, -1, 0, 1, 2, 3] [twoTimes, twoTimes] = [0, 0] := by
      unfold rollSteps
      rw [hW, hD]
      simp only [List.length_cons, List.length_nil]
      rw [solve_two solve hsolve]
      norm_num [centreShifts, e0]
    refine ⟨_, by unfold combineRefs; rw [if_neg (by simp), if_neg (by simp), if_neg (by simp [twoTimes]), hr], ?_⟩
    rw [combine_two]
    norm_num [peakAt, List.range_succ, maMax7]
  · have hW : pairWeights [threeTimes 3 6, threeTimes (-3) 0] = [1, 1] := by
      simp only [pairWeights, pairsG, List.length_cons, List.length_nil, List.range_succ, List.range_zero]
      norm_num [pairPoints, threeTimes, estCorr, half_wgt, ShiftPoint.corrTerm, List.filter, List.filterMap_cons]
      rw [if_neg (by simp)]
      rfl
    have hD : pairShifts [threeTimes 3 6, threeTimes (-3) 0] = [2, -2] := by
      simp only [pairShifts, pairsG, List.length_cons, List.length_nil, List.range_succ, List.range_zero]
      norm_num [pairPoints, threeTimes, estShift, half_wgt, ShiftPoint.term, List.filter, List.filterMap_cons]
      rw [if_neg (by simp), if_neg (by simp)]
      exact ⟨rfl, rfl⟩
    have hr : rollSteps solve [-3, -2, -1, 0, 1, 2, 3] [threeTimes 3 6, threeTimes (-3) 0] = [-1, 1] := by
      unfold rollSteps
      rw [hW, hD]
      simp only [List.length_cons, List.length_nil]
      rw [solve_two solve hsolve]
      norm_num [centreShifts, e1, e2]
    refine ⟨_, by unfold combineRefs; rw [if_neg (by simp), if_neg (by simp), if_neg (by simp [threeTimes]), hr], ?_⟩
    rw [combine_three]
    norm_num [peakAt, List.range_succ, maMax7]

/-- Hypotheses of C156: three traces with lags from -1 to 1, measured in two parts. -/
example : (∀ row ∈ [[(1 : ℝ), 2, 3], [0, 2, 4]], row.length = (⟨-1, 3, 1⟩ : LagStats).npts) ∧
    (∀ row ∈ [[(2 : ℝ), 2, 1]], row.length = (⟨-1, 3, 1⟩ : LagStats).npts) := by
  constructor <;> intro row hrow <;> simp only [List.mem_cons, List.not_mem_nil, or_false] at hrow
  · rcases hrow with rfl | rfl <;> rfl
  · subst hrow; rfl

end

end SeisMIC
