import Verif.Props.BulkOps
import Verif.Model.Smooth
import Verif.Model.Decay
import Verif.Model.CorrFilter
import Verif.Model.StretchMeasure

/-!
# C147: methods that replace the samples keep the shape of the matrix

The condition `ShapeCalls` of the theorems in `Verif.Props.BulkOps` for each method of `CorrBulk` that is
modelled for real numbers.
-/

namespace SeisMIC

theorem shape_map {α β : Type} (f : List α → List β) (hf : ∀ x, (f x).length = x.length) (data : List (List α)) (s : LagStats)
    (h : Rect data s) : (data.map f).length = data.length ∧ Rect (data.map f) s := by
  refine ⟨by simp, ?_⟩
  intro row hr
  obtain ⟨r, hr', rfl⟩ := List.mem_map.1 hr
  rw [hf]
  exact h r hr'

theorem mapM_rows {α β : Type} (f : List α → Except PyErr (List β)) (hf : ∀ x y, f x = .ok y → y.length = x.length)
    (data : List (List α)) (out : List (List β)) (s : LagStats) (h : Rect data s) (ho : data.mapM f = .ok out) :
    out.length = data.length ∧ Rect out s := by
  induction data generalizing out with
  | nil =>
    cases ho
    exact ⟨rfl, by intro row hr; cases hr⟩
  | cons r data ih =>
    rw [List.mapM_cons] at ho
    cases h1 : f r with
    | error e =>
      rw [h1] at ho
      cases ho
    | ok y =>
      rw [h1] at ho
      cases h2 : data.mapM f with
      | error e =>
        rw [h2] at ho
        cases ho
      | ok ys =>
        rw [h2] at ho
        cases ho
        obtain ⟨i1, i2⟩ := ih ys (fun row hr => h row (by simp [hr])) h2
        refine ⟨by simp [i1], ?_⟩
        intro row hr
        rcases List.mem_cons.1 hr with rfl | hr
        · rw [hf r row h1]
          exact h r (by simp)
        · exact i2 row hr

theorem mapM_same_length {α β : Type} (f : α → Except PyErr β) (l : List α) (out : List β) (h : l.mapM f = .ok out) :
    out.length = l.length := by
  induction l generalizing out with
  | nil =>
    cases h
    rfl
  | cons x l ih =>
    rw [List.mapM_cons] at h
    cases h1 : f x with
    | error e =>
      rw [h1] at h
      cases h
    | ok y =>
      rw [h1] at h
      cases h2 : l.mapM f with
      | error e =>
        rw [h2] at h
        cases h
      | ok ys =>
        rw [h2] at h
        cases h
        simp [ih ys h2]

theorem mapM_id_length {α : Type} (row : List (Option α)) (x : List α) (h : row.mapM id = some x) : x.length = row.length := by
  induction row generalizing x with
  | nil =>
    cases h
    rfl
  | cons a row ih =>
    rw [List.mapM_cons] at h
    cases a with
    | none => cases h
    | some a =>
      cases h2 : row.mapM id with
      | none =>
        rw [h2] at h
        cases h
      | some y =>
        rw [h2] at h
        cases h
        simp [ih y h2]

/-- **C147** `clip` keeps the shape. -/
theorem c147_clip (thres : ℝ) (axis : ClipAxis) : KeepsShape fun data _ => .ok (corrMatClip data thres axis) := by
  intro data s out h ho
  cases ho
  refine ⟨by simp [corrMatClip, clipAt], ?_⟩
  intro row hr
  obtain ⟨i, hi, rfl⟩ := List.mem_mapIdx.1 hr
  simp only [List.length_mapIdx]
  exact h _ (List.getElem_mem _)

/-- **C147** `normalize` keeps the shape. -/
theorem c147_normalize (starttime endtime : Option Rat) (ty : Str) : KeepsShape fun data s => corrMatNormalize data s starttime endtime ty := by
  intro data s out h ho
  have hsome : (data.map fun row => row.map some).length = data.length ∧ Rect (data.map fun row => row.map some) s :=
    shape_map (β := Option ℝ) (fun row => row.map some) (by simp) data s h
  unfold corrMatNormalize at ho
  dsimp only at ho
  split_ifs at ho
  · cases ho
    exact hsome
  · cases ho
    exact hsome
  · cases hn : data.mapM fun row => normFactor ty (pySlice row (starttime.map fun t => ((t - s.startLag) * s.sr).floor)
        (endtime.map fun t => ((t - s.startLag) * s.sr).floor)) with
    | error e =>
      rw [hn] at ho
      cases ho
    | ok norm =>
      rw [hn] at ho
      cases ho
      have hl : norm.length = data.length := mapM_same_length _ data norm hn
      refine ⟨by simp [hl], ?_⟩
      intro row hr
      obtain ⟨i, hi, rfl⟩ := List.mem_iff_getElem.1 hr
      simp only [List.getElem_zipWith]
      have : ∀ m (r : List ℝ), (normDivide m r).length = r.length := by
        intro m r
        cases m <;> simp [normDivide]
      rw [this]
      exact h _ (List.getElem_mem _)

/-- **C147** `correct_decay` keeps the shape. -/
theorem c147_decay (hilb : List ℝ → List ℝ) : KeepsShape (correctDecay hilb) := by
  intro data s out h ho
  unfold correctDecay at ho
  cases he : decayEnvelope hilb data s with
  | error e =>
    rw [he] at ho
    cases ho
  | ok env =>
    rw [he] at ho
    simp only [bind, Except.bind] at ho
    split_ifs at ho
    cases ho
    refine ⟨by simp, ?_⟩
    intro row hr
    obtain ⟨r, hr', rfl⟩ := List.mem_map.1 hr
    simp [h r hr']

/-- **C147** `envelope` keeps the shape. -/
theorem c147_envelope : KeepsShape fun data _ => .ok (corrMatEnvelope data) := by
  intro data s out h ho
  cases ho
  refine shape_map _ ?_ data s h
  intro row
  cases hm : row.mapM id with
  | none => simp
  | some x => simp [analytic, mapM_id_length row x hm]

/-- **C147** `filter` keeps the shape. -/
theorem c147_filter (butter : Nat → List Rat → Except PyErr (List ℝ × List ℝ)) (freqs : List Rat) (order : Nat) :
    KeepsShape fun data s => corrMatFilter butter data s freqs order := by
  intro data s out h ho
  unfold corrMatFilter at ho
  dsimp only at ho
  split_ifs at ho
  cases hb : butter order (freqs.map fun f => f / (s.sr / 2)) with
  | error e =>
    rw [hb] at ho
    cases ho
  | ok ba =>
    rw [hb] at ho
    cases ho
    refine shape_map _ ?_ data s h
    intro row
    unfold zeroPhaseRow
    cases hm : row.mapM id with
    | none => simp
    | some x => simp [zeroPhase, lfilter, mapM_id_length row x hm]

theorem smoothRows_shape (w : Int) (ty : Str) (data : List (List ℝ)) :
    (smoothRows w ty data).1.length = data.length ∧ ∀ n, (∀ row ∈ data, row.length = n) → ∀ row ∈ (smoothRows w ty data).1, row.length = n := by
  induction data with
  | nil => exact ⟨rfl, fun n _ row hr => by cases hr⟩
  | cons r data ih =>
    unfold smoothRows
    split
    · exact ⟨rfl, fun n h => h⟩
    · rename_i y hy
      split_ifs with hl
      · refine ⟨by simp [ih.1], ?_⟩
        intro n h row hr
        rcases List.mem_cons.1 hr with rfl | hr
        · rw [hl]
          exact h r (by simp)
        · exact ih.2 n (fun row hr => h row (by simp [hr])) row hr
      · exact ⟨rfl, fun n h => h⟩

/-- **C147** `smooth` keeps the shape, also if it fails after some rows were replaced. -/
theorem c147_smooth (wsize : Int) (wtype : Str) (axis : Int) :
    KeepsShape fun data s => .ok (corrMatSmooth s.npts data wsize wtype axis).1 := by
  intro data s out h ho
  have ho' : (corrMatSmooth s.npts data wsize wtype axis).1 = out := by simpa using ho
  subst ho'
  have h0 : (data.map fun row => row.map fun x : Option ℝ => x.getD 0).length = data.length ∧
      Rect (data.map fun row => row.map fun x : Option ℝ => x.getD 0) s := shape_map _ (by simp) data s h
  unfold corrMatSmooth
  dsimp only
  split_ifs
  · obtain ⟨h1, h2⟩ := smoothRows_shape wsize wtype (data.map fun row => row.map fun x : Option ℝ => x.getD 0)
    exact ⟨by rw [h1, h0.1], h2 s.npts h0.2⟩
  · obtain ⟨h1, h2⟩ := smoothRows_shape wsize wtype (transposeR s.npts (data.map fun row => row.map fun x : Option ℝ => x.getD 0))
    refine ⟨by simp [transposeR], ?_⟩
    intro row hr
    obtain ⟨j, -, rfl⟩ := List.mem_map.1 hr
    rw [List.length_map, h1]
    simp [transposeR]
  · exact h0

/-- **C147** `taper` keeps the shape. -/
theorem c147_taper (width : Rat) : KeepsShape fun data s => corrMatTaper data s width := by
  intro data s out h ho
  unfold corrMatTaper at ho
  dsimp only at ho
  split_ifs at ho
  · cases ho
    exact ⟨rfl, h⟩
  · cases hc : cosineTaper s.npts (2 * width * s.sr / s.npts) with
    | error e =>
      rw [hc] at ho
      cases ho
    | ok tap =>
      rw [hc] at ho
      cases ho
      have hl : tap.length = s.npts := by
        unfold cosineTaper at hc
        split_ifs at hc <;> (cases hc; simp)
      refine ⟨by simp, ?_⟩
      intro row hr
      obtain ⟨r, hr', rfl⟩ := List.mem_map.1 hr
      simp [h r hr', hl]

theorem mulSlice_length (row : List Rat) (start stop : Nat) (taper y : List Rat) (h : mulSlice row start stop taper = .ok y) :
    y.length = row.length := by
  unfold mulSlice at h
  dsimp only at h
  by_cases hl : taper.length = ((row.drop start).take (stop - start)).length
  · rw [if_pos hl] at h
    cases h
    simp only [List.length_append, List.length_take, List.length_zipWith, List.length_drop, hl]
    omega
  · rw [if_neg hl] at h
    split at h
    · cases h
      simp only [List.length_append, List.length_take, List.length_map, List.length_drop]
      omega
    · cases h

/-- **C147** `taper_center` keeps the shape. -/
theorem c147_taper_center (cosTaper : Nat → List Rat) (width slopeFrac : Rat) :
    KeepsShape fun data s => corrMatTaperCenter cosTaper data s width slopeFrac := by
  intro data s out h ho
  unfold corrMatTaperCenter at ho
  dsimp only at ho
  by_cases h1 : width = 0
  · rw [if_pos h1] at ho
    cases ho
    exact ⟨rfl, h⟩
  rw [if_neg h1] at ho
  by_cases h2 : width < 0
  · rw [if_pos h2] at ho
    cases ho
  rw [if_neg h2] at ho
  by_cases h3 : width > s.npts / s.sr
  · rw [if_pos h3] at ho
    cases ho
  rw [if_neg h3] at ho
  refine mapM_rows _ ?_ data out s h ho
  intro x y hy
  exact mulSlice_length _ _ _ _ _ hy

theorem lagTimes_len (s : LagStats) : (lagTimes s).length = s.npts := by simp [lagTimes, linspaceR]

theorem applyShift_shape (s : LagStats) (data : List (List (Option ℝ))) (vs : List (Option ℝ)) (h : Rect data s) :
    (applyShift s data vs).1.length = data.length ∧ Rect (applyShift s data vs).1 s := by
  induction data generalizing vs with
  | nil => exact ⟨rfl, by intro row hr; cases hr⟩
  | cons r data ih =>
    cases vs with
    | nil => exact ⟨rfl, h⟩
    | cons v vs =>
      obtain ⟨i1, i2⟩ := ih vs (fun row hr => h row (by simp [hr]))
      refine ⟨by simp [applyShift, i1], ?_⟩
      intro row hr
      rcases List.mem_cons.1 hr with rfl | hr
      · simp [lagTimes_len]
      · exact i2 row hr

/-- **C147** `correct_shift` keeps the shape, also if it fails. -/
theorem c147_shift (value : Squeezed) : KeepsShape fun data s => .ok (correctShift s data value).1 := by
  intro data s out h ho
  have ho' : (correctShift s data value).1 = out := by simpa using ho
  subst ho'
  unfold correctShift
  cases value with
  | scalar x =>
    dsimp only
    split_ifs <;> exact ⟨rfl, h⟩
  | array l => exact applyShift_shape s data _ h

/-- **C147** `correct_stretch` keeps the shape. -/
theorem c147_stretch (spline : List ℝ → List ℝ → ℝ → ℝ) (valueType : Str) (value : Squeezed) :
    KeepsShape fun data s => correctStretch spline s valueType data value := by
  intro data s out h ho
  unfold correctStretch at ho
  dsimp only at ho
  by_cases hv : valueType ≠ c!"stretch"
  · rw [if_pos hv] at ho
    cases ho
  rw [if_neg hv] at ho
  cases value with
  | scalar x =>
    dsimp only at ho
    split_ifs at ho with h1
    cases ho
    exact ⟨by simp [h1], by intro row hr; cases hr⟩
  | array l =>
    dsimp only at ho
    split_ifs at ho with h1
    cases ho
    refine ⟨by simp; omega, ?_⟩
    intro row hr
    obtain ⟨i, hi, rfl⟩ := List.mem_iff_getElem.1 hr
    rw [List.getElem_zipWith]
    split
    · simp [stretchRow, lagTimes_len]
    · simp [lagTimes_len]

end SeisMIC
