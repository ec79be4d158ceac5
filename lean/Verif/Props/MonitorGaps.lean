import Verif.Model.MonitorGaps
import Verif.Props.MeasureParts
import Verif.Props.Reference
import Verif.Props.MonitorDv

/-!
# C171: time windows without data do not influence the results of the others
-/

namespace SeisMIC

noncomputable section

/-! ## Specification -/

/-- the rows that are not entirely `nan` -/
def presentRows (data : List (List (Option ℝ))) : List (List (Option ℝ)) := data.filter fun row => row.any fun x => x.isSome

/-- the row of a time window: `nan` if there are no data -/
def gapRow (n : Nat) : Option (List ℝ) → List (Option ℝ)
  | none => List.replicate n none
  | some row => row.map some

/-- the results of the times with data, at their places; no result (`nan`) at the others -/
def spread {α : Type} : List (Option α) → DvRows → DvRows
  | [], _ => []
  | none :: data, l => (none, none) :: spread data l
  | some _ :: data, l => l.headD (none, none) :: spread data l.tail

/-! ## The reference -/

/-- rows that are `nan` after a function do not count -/
theorem column_filter_map (P : List (Option ℝ) → Bool) (f : List (Option ℝ) → List (Option ℝ)) (data : List (List (Option ℝ)))
    (h : ∀ r ∈ data, P r = false → ∀ x ∈ f r, x = none) (j : Nat) :
    (column ((data.filter P).map f) j).filterMap id = (column (data.map f) j).filterMap id := by
  induction data with
  | nil => rfl
  | cons r data ih =>
    have ih := ih fun r hr => h r (List.mem_cons_of_mem _ hr)
    rw [List.filter_cons]
    split
    · simp only [column, List.map_cons, List.filterMap_cons] at ih ⊢
      rw [ih]
    · rename_i hP
      have hn : (f r).getD j none = none := by
        rw [List.getD_eq_getElem?_getD]
        cases hj : (f r)[j]? with
        | none => rfl
        | some x => exact h r (by simp) (by simpa using hP) x (List.mem_of_getElem? hj)
      simp only [column, List.map_cons, List.filterMap_cons, hn, id] at ih ⊢
      exact ih

theorem not_any_some {row : List (Option ℝ)} (h : (row.any fun x => x.isSome) = false) : ∀ x ∈ row, x = none := by
  intro x hx
  cases x with
  | none => rfl
  | some y =>
    have := (List.any_eq_false.1 h) (some y) hx
    simp at this

theorem simToMean_nan (mean row : List (Option ℝ)) (h : none ∈ row) : simToMean mean row = none := by
  have : allVals row = none := by
    unfold allVals
    induction row with
    | nil => simp at h
    | cons x row ih =>
      rw [List.mapM_cons]
      cases x with
      | none => rfl
      | some x =>
        have hr : none ∈ row := by simpa using h
        simp [ih hr]
  unfold simToMean
  rw [this]
  rfl

/-- **C171** (reference) A reference of any kind that is extracted from a matrix is the same without the rows of the time windows that
have no data. -/
theorem c171_reference (m : Nat) (hm : 0 < m) (data : List (List (Option ℝ))) (hd : ∀ row ∈ data, row.length = m) (method : Str) (p : ℝ) :
    extractTrace m data method p = extractTrace m (presentRows data) method p := by
  have hmean : ∀ f : List (Option ℝ) → List (Option ℝ), (∀ r ∈ data, (r.any fun x => x.isSome) = false → ∀ x ∈ f r, x = none) →
      ((List.range m).map fun j => maMean (column ((presentRows data).map f) j)) = (List.range m).map fun j => maMean (column (data.map f) j) := by
    intro f hf
    refine List.map_congr_left fun j _ => ?_
    unfold maMean
    rw [show (column ((presentRows data).map f) j).filterMap id = _ from column_filter_map _ f data hf j]
  have hid := fun j => column_filter_map (fun row => row.any fun x => x.isSome) id data (fun r _ h => not_any_some h) j
  simp only [List.map_id] at hid
  have hne : [] ∉ data := fun h => by have := hd _ h; simp at this; omega
  have hne' : [] ∉ presentRows data := fun h => hne (List.mem_filter.1 h).1
  have hnan : ∀ r ∈ data, (r.any fun x => x.isSome) = false → normRow r = (r.map fun _ => none) ∧ none ∈ r := by
    intro r hr h
    have h1 := not_any_some h
    cases r with
    | nil => exact absurd hr hne
    | cons x r =>
      have hx := h1 x (by simp)
      subst hx
      refine ⟨?_, by simp⟩
      unfold normRow
      rw [if_pos (by simp)]
  have hnorm := hmean normRow fun r hr h x hx => by
    rw [(hnan r hr h).1] at hx
    obtain ⟨_, _, rfl⟩ := List.mem_map.1 hx
    rfl
  have hsim : ∀ mean, ∀ r ∈ data, (r.any fun x => x.isSome) = false → simToMean mean (normRow r) = none := by
    intro mean r hr h
    apply simToMean_nan
    rw [(hnan r hr h).1]
    obtain ⟨x, hx⟩ := List.exists_mem_of_ne_nil r (fun h0 => hne (h0 ▸ hr))
    exact List.mem_map.2 ⟨x, hx, rfl⟩
  have hfm : ∀ mean, ((presentRows data).map normRow).filterMap (simToMean mean) = (data.map normRow).filterMap (simToMean mean) := by
    intro mean
    unfold presentRows
    clear hid hnorm hmean hnan hne' hd
    induction data with
    | nil => rfl
    | cons r data ih =>
      have ih := ih (fun h => hne (List.mem_cons_of_mem _ h)) fun mean r hr => hsim mean r (List.mem_cons_of_mem _ hr)
      rw [List.filter_cons]
      split
      · simp only [List.map_cons, List.filterMap_cons, ih]
      · rename_i hP
        simp only [List.map_cons, List.filterMap_cons, hsim mean r (by simp) (by simpa using hP)]
        exact ih
  have hsel : ∀ (mean : List (Option ℝ)) (t : ℝ), ((presentRows data).map normRow).filter (fun row => match simToMean mean row with
        | none => false
        | some c => decide (t < c)) = (data.map normRow).filter (fun row => match simToMean mean row with
        | none => false
        | some c => decide (t < c)) := by
    intro mean t
    unfold presentRows
    clear hid hnorm hmean hnan hne' hd hfm
    induction data with
    | nil => rfl
    | cons r data ih =>
      have ih := ih (fun h => hne (List.mem_cons_of_mem _ h)) fun mean r hr => hsim mean r (List.mem_cons_of_mem _ hr)
      by_cases hP : (r.any fun x => x.isSome) = true
      · rw [List.filter_cons_of_pos (p := fun row : List (Option ℝ) => row.any fun x => x.isSome) hP, List.map_cons, List.map_cons, List.filter_cons, List.filter_cons, ih]
      · rw [List.filter_cons_of_neg (p := fun row : List (Option ℝ) => row.any fun x => x.isSome) hP, List.map_cons, List.filter_cons, hsim mean r (by simp) (by simpa using hP)]
        simpa using ih
  have h1 : ((List.range m).map fun j => maMean (column data j)) = (List.range m).map fun j => maMean (column (presentRows data) j) := by
    refine List.map_congr_left fun j _ => ?_
    unfold maMean
    rw [show (column (presentRows data) j).filterMap id = _ from hid j]
  have h2 : ((List.range m).map fun j => maMedian (column data j)) = (List.range m).map fun j => maMedian (column (presentRows data) j) := by
    refine List.map_congr_left fun j _ => ?_
    unfold maMedian
    rw [show (column (presentRows data) j).filterMap id = _ from hid j]
  unfold extractTrace
  rw [h1, h2, mapM_absmaxRow, mapM_absmaxRow, if_neg hne, if_neg hne']
  simp only [bind, Except.bind, hnorm, hfm]
  by_cases h3 : method = c!"similarity_percentile"
  · subst h3
    simp only [reduceIte, show (c!"similarity_percentile" : Str) ≠ c!"mean" by decide, show (c!"similarity_percentile" : Str) ≠ c!"median" by decide,
      show (c!"similarity_percentile" : Str) ≠ c!"norm_mean" by decide]
    cases npPercentile ((data.map normRow).filterMap (simToMean ((List.range m).map fun j => maMean (column (data.map normRow) j)))) p with
    | error e => rfl
    | ok t => exact congrArg (fun l => Except.ok ((List.range m).map fun j => maMean (column l j))) (hsel _ t).symm
  · simp only [if_neg h3]

/-! ## The measurements -/

theorem pySlice_len {α β : Type} (l : List α) (l' : List β) (h : l.length = l'.length) (i j : Option Int) :
    (pySlice l i j).length = (pySlice l' i j).length := by simp [pySlice, h]

/-- all samples are zero -/
def Zero (row : List ℝ) : Prop := ∀ v ∈ row, v = 0

/-- trimming is done row by row -/
theorem trim_form (L : Nat) (s : LagStats) (a b : Rat) : ∃ (f : List ℝ → List ℝ) (u : LagStats),
    (∀ r, Zero r → Zero (f r)) ∧ (∃ L', ∀ r, r.length = L → (f r).length = L') ∧
      ∀ M : List (List ℝ), M ≠ [] → (∀ row ∈ M, row.length = L) → corrMatTrim M s a b = (M.map f, u) := by
  unfold corrMatTrim
  simp only
  split
  · exact ⟨id, s, fun r h => h, ⟨L, fun r h => h⟩, fun M _ _ => by simp⟩
  · split
    · exact ⟨id, s, fun r h => h, ⟨L, fun r h => h⟩, fun M _ _ => by simp⟩
    · refine ⟨fun row => pySlice row (some ((a - s.startLag) * s.sr).floor) (some (((b - s.startLag) * s.sr).floor + 1)),
        ⟨a, (pySlice (List.replicate L ()) (some ((a - s.startLag) * s.sr).floor) (some (((b - s.startLag) * s.sr).floor + 1))).length, s.sr⟩,
        fun r h v hv => h v (List.mem_of_mem_drop (List.mem_of_mem_take hv)),
        ⟨(pySlice (List.replicate L ()) (some ((a - s.startLag) * s.sr).floor) (some (((b - s.startLag) * s.sr).floor + 1))).length,
          fun r h => pySlice_len _ _ (by simpa using h) _ _⟩, fun M hM hL => ?_⟩
      cases M with
      | nil => exact absurd rfl hM
      | cons row M =>
        simp only [List.map_cons]
        rw [pySlice_len row (List.replicate L ()) (by simpa using hL row (by simp))]

theorem stretchTrim_form (L : Nat) (s : LagStats) (sides : Str) : ∃ (f : List ℝ → List ℝ) (u : LagStats),
    (∀ r, Zero r → Zero (f r)) ∧ (∃ L', ∀ r, r.length = L → (f r).length = L') ∧
      ∀ M : List (List ℝ), M ≠ [] → (∀ row ∈ M, row.length = L) → stretchTrim M s sides = (M.map f, u) := by
  unfold stretchTrim
  split <;> exact trim_form L s _ _

theorem similarity_zero (mask : List Bool) (z r : List ℝ) (hz : Zero z) : similarity (maskMul mask z) r = none := by
  have h0 : Zero (maskMul mask z) := by
    intro v hv
    unfold maskMul at hv
    obtain ⟨i, hi, rfl⟩ := List.mem_iff_getElem.1 hv
    rw [List.getElem_zipWith]
    split
    · exact hz _ (List.getElem_mem _)
    · rfl
  have hd : ∀ a b : List ℝ, Zero a → dotR a b = 0 := by
    intro a
    induction a with
    | nil => intro b _; simp [dotR]
    | cons x a ih =>
      intro b ha
      cases b with
      | nil => simp [dotR]
      | cons y b =>
        have h1 := ih b fun v hv => ha v (by simp [hv])
        have h2 := ha x (by simp)
        simp only [dotR, List.zipWith_cons_cons, List.sum_cons] at h1 ⊢
        rw [h1, h2]
        ring
  unfold similarity
  simp [hd _ _ h0]

/-- measurements are done row by row, and there is no result for a row of zeros -/
theorem stretch_form (spline : List ℝ → List ℝ → ℝ → ℝ) (L : Nat) (s : LagStats) (ref : List ℝ) (tw : List Int) (range : ℝ) (steps : Nat)
    (sides : Str) (rs : LagStats) : ∃ G : Except PyErr (List ℝ → Except PyErr (Option ℝ × Option ℝ)),
    (∀ M : List (List ℝ), M ≠ [] → (∀ row ∈ M, row.length = L) →
      corrMatStretch spline M s (some ref) (some [tw]) range steps sides (some rs) =
        (match G with
          | .error e => .error e
          | .ok g => match M.mapM g with
            | .error e => .error e
            | .ok l => .ok [l])) ∧
    ∀ g, G = .ok g → ∀ row out, g row = .ok out → ∀ z, Zero z → g z = .ok (none, none) := by
  obtain ⟨f, u, hf0, _, hf⟩ := stretchTrim_form L s sides
  obtain ⟨trim, htrim⟩ : ∃ trim : Rat × Rat,
    trim = if sides = c!"single" then (0, s.endLag) else (-(min (-s.startLag) s.endLag), min (-s.startLag) s.endLag) := ⟨_, rfl⟩
  obtain ⟨strvec, hstrvec⟩ : ∃ v, v = linspaceR (-range) range steps := ⟨_, rfl⟩
  obtain ⟨refs, hrefs⟩ : ∃ v, v = (corrMatTrim (stretchedRefs spline ref sides strvec) rs trim.1 trim.2).1 := ⟨_, rfl⟩
  refine ⟨if (refs.headD []).length ≠ u.npts then .error .valueError else
    match windowIdx sides u.npts tw with
    | .error e => .error e
    | .ok idx => match maskOf u.npts idx with
      | .error e => .error e
      | .ok mask => if strvec.length ≠ refs.length ∧ refs.length ≠ 1 then .error .valueError
        else .ok fun row => bestMatch strvec (simRow true mask refs ((f row).map some)), ?_, ?_⟩
  · intro M hM hL
    unfold corrMatStretch
    rw [hf M hM hL]
    simp only [usedWindows, bind, Except.bind, Option.getD_some, timeStretch, velocityChange]
    simp only [← htrim, ← hstrvec, ← hrefs]
    by_cases hn : (refs.headD []).length ≠ u.npts
    · rw [if_pos hn, if_pos hn]
    · rw [if_neg hn, if_neg hn, List.mapM_cons, List.mapM_nil]
      simp only [bind, Except.bind, pure, Except.pure]
      cases windowIdx sides u.npts tw with
      | error e => rfl
      | ok idx =>
        simp only
        cases maskOf u.npts idx with
        | error e => rfl
        | ok mask =>
          simp only
          by_cases hc : strvec.length ≠ refs.length ∧ refs.length ≠ 1
          · rw [if_pos hc, if_pos hc]
          · rw [if_neg hc, if_neg hc]
            simp only [List.mapM_map, Function.comp_def]
            generalize List.mapM (fun x => bestMatch strvec (simRow true mask refs (List.map some (f x)))) M = X
            cases X <;> rfl
  · intro g hg row out hrow z hz
    split at hg
    · cases hg
    · split at hg
      · cases hg
      · split at hg
        · cases hg
        · rename_i mask _
          split at hg
          · cases hg
          · cases hg
            simp only [bestMatch, bind, Except.bind] at hrow ⊢
            have hr : refs ≠ [] := by
              intro h
              rw [show simRow true mask refs ((f row).map some) = [] by simp [simRow, h]] at hrow
              simp [npMaxR] at hrow
            have hs : strvec ≠ [] := by
              intro h
              rw [h] at hrow
              cases hn : npMaxR (simRow true mask refs ((f row).map some)) with
              | error e => rw [hn] at hrow; cases hrow
              | ok c => rw [hn] at hrow; simp at hrow
            have hsim : simRow true mask refs ((f z).map some) = refs.map fun _ => none := by
              unfold simRow
              refine List.map_congr_left fun r _ => ?_
              simp only [rowVals, reduceIte, List.map_map]
              apply similarity_zero
              intro v hv
              obtain ⟨x, hx, rfl⟩ := List.mem_map.1 hv
              exact hf0 z hz x hx
            rw [hsim]
            obtain ⟨r, refs', hr'⟩ := List.exists_cons_of_ne_nil hr
            obtain ⟨v, strvec', hs'⟩ := List.exists_cons_of_ne_nil hs
            rw [hr', hs']
            simp [npMaxR, npArgmaxR, List.findIdx_cons]

theorem mapM_len {α β ε : Type} (f : α → Except ε β) (l : List α) (m : List β) (h : l.mapM f = .ok m) : m.length = l.length := by
  induction l generalizing m with
  | nil => cases h; rfl
  | cons a l ih =>
    obtain ⟨b, t, -, h2, rfl⟩ := (mapM_cons_iff _ _ _ _).1 h
    simp [ih t h2]

theorem mapM_spread (g : List ℝ → Except PyErr (Option ℝ × Option ℝ)) (z : List ℝ) (hz : g z = .ok (none, none)) (data : List (Option (List ℝ)))
    (l : DvRows) (h : (data.filterMap id).mapM g = .ok l) : (data.map fun o => o.getD z).mapM g = .ok (spread data l) := by
  induction data generalizing l with
  | nil => rfl
  | cons o data ih =>
    cases o with
    | none =>
      rw [List.map_cons]
      exact (mapM_cons_iff _ _ _ _).2 ⟨_, _, hz, ih l h, rfl⟩
    | some row =>
      obtain ⟨b, t, h1, h2, rfl⟩ := (mapM_cons_iff _ _ _ _).1 h
      exact (mapM_cons_iff _ _ _ _).2 ⟨_, _, h1, ih t h2, rfl⟩

theorem spread_length {α : Type} (data : List (Option α)) (l : DvRows) : (spread data l).length = data.length := by
  induction data generalizing l with
  | nil => rfl
  | cons o data ih => cases o <;> simp [spread, ih]

theorem squeeze_array (l : List (Option ℝ)) (h : 2 ≤ l.length) : squeeze l = .array l := by
  match l, h with
  | _ :: _ :: _, _ => rfl

theorem presentRows_gapRow (n : Nat) (data : List (Option (List ℝ))) :
    presentRows (data.map (gapRow n)) = presentRows ((data.filterMap id).map fun row => row.map some) := by
  induction data with
  | nil => rfl
  | cons o data ih =>
    unfold presentRows at ih ⊢
    cases o with
    | none =>
      rw [List.map_cons, List.filter_cons_of_neg (by simp [gapRow])]
      exact ih
    | some row =>
      simp only [List.map_cons, List.filterMap_cons, id, List.filter_cons, gapRow, ih]

theorem mapM_id_some (row : List ℝ) : (row.map some).mapM id = some row := by
  induction row with
  | nil => rfl
  | cons x row ih => rw [List.map_cons, List.mapM_cons, ih]; rfl

/-- the corrected matrices -/
theorem presentRows_correct (spline : List ℝ → List ℝ → ℝ → ℝ) (s : LagStats) (data : List (Option (List ℝ))) (l : DvRows)
    (hl : l.length = (data.filterMap id).length) :
    presentRows (List.zipWith (fun row v => match v, row.mapM id with
        | some v, some row => (stretchRow spline s row (-1 * v)).map some
        | _, _ => (lagTimes s).map fun _ => (none : Option ℝ)) (data.map (gapRow s.npts)) ((spread data l).map Prod.snd)) =
    presentRows (List.zipWith (fun row v => match v with
        | some v => (stretchRow spline s row (-1 * v)).map some
        | none => (lagTimes s).map fun _ => none) (data.filterMap id) (l.map Prod.snd)) := by
  induction data generalizing l with
  | nil => rfl
  | cons o data ih =>
    cases o with
    | none =>
      unfold presentRows at ih ⊢
      simp only [spread, List.map_cons, List.zipWith_cons_cons]
      rw [List.filter_cons_of_neg (by simp)]
      exact ih l hl
    | some row =>
      cases l with
      | nil => simp at hl
      | cons b l =>
        have ih := ih l (by simpa using hl)
        unfold presentRows at ih ⊢
        simp only [spread, List.map_cons, List.zipWith_cons_cons, List.headD_cons, List.tail_cons, gapRow, mapM_id_some, List.filterMap_cons,
          id, List.filter_cons, ih]
        cases b.2 <;> rfl

theorem corrected (spline : List ℝ → List ℝ → ℝ → ℝ) (s : LagStats) (data : List (Option (List ℝ))) (l : DvRows)
    (hl : l.length = (data.filterMap id).length) : ∃ A B,
    correctStretchGaps spline s c!"stretch" (data.map (gapRow s.npts)) (.array ((spread data l).map Prod.snd)) = .ok A ∧
    correctStretch spline s c!"stretch" (data.filterMap id) (.array (l.map Prod.snd)) = .ok B ∧
    (∀ row ∈ A, row.length = s.npts) ∧ (∀ row ∈ B, row.length = s.npts) ∧ presentRows A = presentRows B := by
  refine ⟨_, _, ?_, ?_, ?_, ?_, presentRows_correct spline s data l hl⟩
  · unfold correctStretchGaps
    rw [if_neg (by simp)]
    exact if_neg (by simp [spread_length])
  · unfold correctStretch
    rw [if_neg (by simp)]
    exact if_neg (by simp [hl])
  · intro row hrow
    obtain ⟨i, hi, rfl⟩ := List.mem_iff_getElem.1 hrow
    rw [List.getElem_zipWith]
    split <;> simp [stretchRow, lagTimes, linspaceR]
  · intro row hrow
    obtain ⟨i, hi, rfl⟩ := List.mem_iff_getElem.1 hrow
    rw [List.getElem_zipWith]
    split <;> simp [stretchRow, lagTimes, linspaceR]

/-- **C171** (velocity) If a change of velocity can be measured in at least two traces, it can be measured if there are time windows without data
between, before or after them: the traces have the same results, the others have none. -/
theorem c171_velocity (spline : List ℝ → List ℝ → ℝ → ℝ) (refOf : List (List (Option ℝ)) → List ℝ) (s : LagStats)
    (hr : ∀ d : List (List (Option ℝ)), (∀ row ∈ d, row.length = s.npts) → refOf d = refOf (presentRows d))
    (data : List (Option (List ℝ))) (hd : ∀ row ∈ data.filterMap id, row.length = s.npts) (h2 : 2 ≤ (data.filterMap id).length)
    (o : DvOptions) (lts : Rat) (tt : Option Rat) (custom : Option (List ℝ)) (res : DvRows)
    (h : computeDv spline refOf (data.filterMap id) s o lts tt custom = .ok res) :
    computeDvGaps spline refOf (data.map (gapRow s.npts)) s o lts tt custom = .ok (spread data res) := by
  have hP : data.filterMap id ≠ [] := by intro h; rw [h] at h2; simp at h2
  have hD : data ≠ [] := by rintro rfl; simp at hP
  let z : List ℝ := List.replicate s.npts 0
  have hz : Zero z := fun v hv => (List.mem_replicate.1 hv).2
  have hZ : ((data.map (gapRow s.npts)).map fun row => row.map fun x => x.getD 0) = data.map fun o => o.getD z := by
    rw [List.map_map]
    refine List.map_congr_left fun o _ => ?_
    cases o <;> simp [gapRow, z, Function.comp_def]
  have hZl : ∀ row ∈ data.map fun o => o.getD z, row.length = s.npts := by
    intro row hrow
    obtain ⟨o, ho, rfl⟩ := List.mem_map.1 hrow
    cases o with
    | none => simp [z]
    | some row => exact hd row (List.mem_filterMap.2 ⟨_, ho, rfl⟩)
  have hgap : ∀ row ∈ data.map (gapRow s.npts), row.length = s.npts := by
    intro row hrow
    obtain ⟨o, ho, rfl⟩ := List.mem_map.1 hrow
    cases o with
    | none => simp [gapRow]
    | some row => simpa [gapRow] using hd row (List.mem_filterMap.2 ⟨_, ho, rfl⟩)
  have href : refOf (data.map (gapRow s.npts)) = refOf ((data.filterMap id).map fun row => row.map some) := by
    rw [hr _ hgap, hr ((data.filterMap id).map fun row => row.map some), presentRows_gapRow]
    intro row hrow
    obtain ⟨r, h, rfl⟩ := List.mem_map.1 hrow
    simpa using hd r h
  unfold computeDv at h
  unfold computeDvGaps
  cases hw : dvWindow o lts tt with
  | error e => rw [hw] at h; cases h
  | ok w =>
    obtain ⟨f, u, hf0, ⟨L', hL'⟩, hf⟩ := trim_form s.npts s (-w.2) w.2
    obtain ⟨f2, u2, -, -, hf2⟩ := stretchTrim_form L' u o.sides
    have hPf : (data.filterMap id).map f ≠ [] := by simpa using hP
    have hZf : (data.map fun o => o.getD z).map f ≠ [] := by simpa using hD
    have hPl : ∀ row ∈ (data.filterMap id).map f, row.length = L' := by
      intro row hrow
      obtain ⟨r, h, rfl⟩ := List.mem_map.1 hrow
      exact hL' r (hd r h)
    have hZl' : ∀ row ∈ (data.map fun o => o.getD z).map f, row.length = L' := by
      intro row hrow
      obtain ⟨r, h, rfl⟩ := List.mem_map.1 hrow
      exact hL' r (hZl r h)
    rw [hw] at h
    rw [href, hZ]
    simp only [bind, Except.bind, hf _ hP hd, hf _ (by simpa using hD) hZl, hf2 _ hPf hPl, hf2 _ hZf hZl'] at h ⊢
    split at h
    · cases h
    · rename_i hn
      rw [if_neg hn]
      generalize custom.getD (refOf ((data.filterMap id).map fun row => row.map some)) = tr at h ⊢
      -- a measurement with and without gaps
      have hm : ∀ (v : LagStats) (ref : List ℝ) (tw : List Int) (dv : List DvRows),
          corrMatStretch spline ((data.filterMap id).map f) v (some ref) (some [tw]) o.range o.steps o.sides (some s) = .ok dv →
          ∃ l, dv = [l] ∧ l.length = (data.filterMap id).length ∧
            corrMatStretch spline ((data.map fun o => o.getD z).map f) v (some ref) (some [tw]) o.range o.steps o.sides (some s) = .ok [spread data l] := by
        intro v ref tw dv hdv
        obtain ⟨G, hG, hG0⟩ := stretch_form spline L' v ref tw o.range o.steps o.sides s
        rw [hG _ hPf hPl] at hdv
        rw [hG _ hZf hZl']
        cases G with
        | error e => cases hdv
        | ok g =>
          simp only [List.mapM_map] at hdv ⊢
          cases hl : (data.filterMap id).mapM (g ∘ f) with
          | error e => rw [hl] at hdv; cases hdv
          | ok l =>
            rw [hl] at hdv
            cases hdv
            refine ⟨l, rfl, mapM_len _ _ _ hl, ?_⟩
            obtain ⟨row, P, hrow⟩ := List.exists_cons_of_ne_nil hP
            rw [hrow] at hl
            obtain ⟨b, t, h1, -, -⟩ := (mapM_cons_iff _ _ _ _).1 hl
            rw [← hrow] at hl
            have := mapM_spread (g ∘ f) z (hG0 g rfl _ _ h1 (f z) (hf0 z hz)) data l hl
            rw [List.mapM_map] at this
            rw [this]
      cases hdv : corrMatStretch spline ((data.filterMap id).map f) u (some tr) (some [arangeInt (w.1 * u.sr) (w.2 * u.sr)]) o.range o.steps
          o.sides (some s) with
      | error e => rw [hdv] at h; cases h
      | ok dv =>
        obtain ⟨l, rfl, hl, hdv'⟩ := hm _ _ _ _ hdv
        rw [hdv] at h
        rw [hdv']
        have hq1 : squeeze (([l].headD []).map Prod.snd) = .array (l.map Prod.snd) := squeeze_array _ (by simpa [hl] using h2)
        have hq2 : squeeze (([spread data l].headD []).map Prod.snd) = .array ((spread data l).map Prod.snd) :=
          squeeze_array _ (by
            have := List.length_filterMap_le id data
            simp only [List.headD_cons, List.length_map, spread_length]
            omega)
        simp only [hq1, hq2] at h ⊢
        obtain ⟨A, B, hA, hB, hAl, hBl, hc⟩ := corrected spline s data l hl
        simp only [hA, hB, show refOf A = refOf B by rw [hr A hAl, hr B hBl, hc]] at h ⊢
        cases hdv2 : corrMatStretch spline ((data.filterMap id).map f) u2 (some (custom.getD (refOf B)))
          (some [arangeInt (w.1 * u.sr) (w.2 * u.sr)]) o.range o.steps o.sides (some s) with
        | error e => rw [hdv2] at h; cases h
        | ok dv =>
          obtain ⟨l2, rfl, hl2, hdv2'⟩ := hm _ _ _ _ hdv2
          rw [hdv2] at h
          rw [hdv2']
          cases h
          rfl

/-- the mean of the traces, zero where there is none -/
def meanRef (n : Nat) (d : List (List (Option ℝ))) : List ℝ := (List.range n).map fun j => (maMean (column d j)).getD 0

/-- the hypothesis about the reference holds for means -/
example (n : Nat) (hn : 0 < n) (d : List (List (Option ℝ))) (hd : ∀ row ∈ d, row.length = n) : meanRef n d = meanRef n (presentRows d) := by
  have h := c171_reference n hn d hd c!"mean" 50
  simp only [extractTrace, reduceIte, Except.ok.injEq] at h
  have := congrArg (List.map fun x => x.getD 0) h
  simpa only [meanRef, List.map_map, Function.comp_def] using this

/-- two traces with one time window without data between them and one after them: measurements are possible, and equal those of the two traces alone -/
example (spline : List ℝ → List ℝ → ℝ → ℝ) (r r' : List ℝ) (h : r.length = 21) (h' : r'.length = 21) :
    ∃ a b, computeDv spline (meanRef 21) [r, r'] (lagsFromTo (-10) 10 1) ⟨0, some 10, 1 / 10, 11, c!"both"⟩ 10 none none = .ok [a, b] ∧
      computeDvGaps spline (meanRef 21) [r.map some, List.replicate 21 none, r'.map some, List.replicate 21 none] (lagsFromTo (-10) 10 1)
        ⟨0, some 10, 1 / 10, 11, c!"both"⟩ 10 none none = .ok [a, (none, none), b, (none, none)] := by
  obtain ⟨res1, out, res, h1, -, -, h2⟩ := c118_result_partial spline (meanRef 21) 1 one_pos 10 10 0 le_rfl (by norm_num) le_rfl le_rfl [r, r']
    (by simp [h, h']) (by simp) (by intro d; simp [meanRef]) none (by simp) ⟨0, some 10, 1 / 10, 11, c!"both"⟩ (by simp) (.inl rfl) 10 none
    (by norm_num) (by norm_num) (by norm_num)
  have hl : res.length = 2 := by simpa using h2.1
  match res, hl with
  | [a, b], _ =>
    refine ⟨a, b, h1, ?_⟩
    exact c171_velocity spline (meanRef 21) (lagsFromTo (-10) 10 1) (by
      intro d hd
      have h := c171_reference 21 (by norm_num) d hd c!"mean" 50
      simp only [extractTrace, reduceIte, Except.ok.injEq] at h
      have := congrArg (List.map fun x => x.getD 0) h
      simpa only [meanRef, List.map_map, Function.comp_def] using this)
      [some r, none, some r', none] (by simp [h, h', lagsFromTo]) (by simp) _ _ _ _ _ h1

end

end SeisMIC
