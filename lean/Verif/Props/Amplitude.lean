import Verif.Lemmas.Amplitude
import Mathlib.Tactic.NormNum

/-!
# C45, C46, C88: normalisation and clipping
-/

namespace SeisMIC

/-! ### C45 -/

/-- the slice used by `corr_mat_normalize` are the samples in the window -/
theorem normSlice (s : LagStats) (hsr : 0 < s.sr) (starttime endtime : Option Rat) (row : List ℝ)
    (hrow : row.length = s.npts) (hs : ∀ t ∈ starttime, s.startLag ≤ t)
    (he : ∀ t ∈ endtime, s.startLag ≤ t ∧ t < s.lag s.npts) :
    pySlice row (starttime.map fun t => ((t - s.startLag) * s.sr).floor)
      (endtime.map fun t => ((t - s.startLag) * s.sr).floor) = samplesWhere row (s.normWindow starttime endtime) := by
  have hlag : ∀ (t : Rat) (i : Nat), s.lag (i + 1) ≤ t ↔ ((i : Int) < ((t - s.startLag) * s.sr).floor) := by
    intro t i
    rw [← Int.add_one_le_iff, le_ratFloor_iff]
    unfold LagStats.lag
    push_cast
    constructor
    · intro h
      have : ((i : Rat) + 1) / s.sr ≤ t - s.startLag := by linarith
      rwa [div_le_iff₀ hsr] at this
    · intro h
      have : ((i : Rat) + 1) / s.sr ≤ t - s.startLag := by rwa [div_le_iff₀ hsr]
      linarith
  have hpos : ∀ t, s.startLag ≤ t → 0 ≤ ((t - s.startLag) * s.sr).floor := by
    intro t ht
    rw [le_ratFloor_iff]
    push_cast
    exact mul_nonneg (by linarith) hsr.le
  have hb : ∀ (k : Int), 0 ≤ k → sliceBound row.length k = min k.toNat row.length := by
    intro k hk
    unfold sliceBound
    rw [if_neg (by omega)]
  unfold pySlice
  cases starttime with
  | none =>
    cases endtime with
    | none =>
      simp only [Option.map_none]
      rw [samplesWhere_slice row 0 row.length (le_refl _)]
      apply samplesWhere_congr
      intro i hi
      simp [LagStats.normWindow, hi]
    | some e =>
      simp only [Option.map_none, Option.map_some]
      have h0 := hpos e (he e rfl).1
      rw [hb _ h0, samplesWhere_slice row 0 _ (Nat.min_le_right _ _)]
      apply samplesWhere_congr
      intro i hi
      simp only [LagStats.normWindow, Option.all_none, Option.all_some, Bool.true_and, Nat.zero_le, decide_true]
      apply decide_eq_decide.2
      rw [hlag]
      omega
  | some t =>
    have h1 := hpos t (hs t rfl)
    cases endtime with
    | none =>
      simp only [Option.map_none, Option.map_some]
      rw [hb _ h1, samplesWhere_slice row _ _ (le_refl _)]
      apply samplesWhere_congr
      intro i hi
      simp only [LagStats.normWindow, Option.all_none, Option.all_some, Bool.and_true, hi, decide_true]
      apply decide_eq_decide.2
      rw [← not_le, hlag]
      omega
    | some e =>
      simp only [Option.map_some]
      have h0 := hpos e (he e rfl).1
      rw [hb _ h0, hb _ h1, samplesWhere_slice row _ _ (Nat.min_le_right _ _)]
      apply samplesWhere_congr
      intro i hi
      simp only [LagStats.normWindow, Option.all_some]
      rw [← Bool.decide_and, ← Bool.decide_and]
      apply decide_eq_decide.2
      have a1 := hlag t i
      have a2 := hlag e i
      rw [a2, ← not_le (a := s.lag (i + 1)), a1]
      omega

/-- positive factor and unit size for one window -/
theorem normFactor_spec (ty : Str) (hty : ty = c!"energy" ∨ ty = c!"abssum" ∨ ty = c!"absmax") (w : List ℝ)
    (hw : w ≠ []) : ∃ m : ℝ, normFactor ty w = .ok (some m) ∧ 0 ≤ m ∧ ((∀ x ∈ w, x = 0) → m = 0) ∧
      ((∃ x ∈ w, x ≠ 0) → 0 < m ∧ UnitSize ty (w.map (· / m))) := by
  have hlen : (0 : ℝ) < w.length := by
    have := List.length_pos_iff.2 hw
    exact_mod_cast this
  rcases hty with rfl | rfl | rfl
  · -- energy
    refine ⟨Real.sqrt (meanR (w.map (· ^ 2))), by simp [normFactor, hw], Real.sqrt_nonneg _, ?_, ?_⟩
    · intro h
      have : w.map (fun x : ℝ => x ^ 2) = w.map (fun _ => (0 : ℝ)) := by
        apply List.map_congr_left
        intro x hx
        simp [h x hx]
      simp [meanR, this]
    · rintro ⟨x, hx, hx0⟩
      have hS : 0 < (w.map fun x : ℝ => x ^ 2).sum := by
        have h0 : 0 ≤ (w.map fun x : ℝ => x ^ 2).sum := by
          apply List.sum_nonneg
          intro y hy
          obtain ⟨z, -, rfl⟩ := List.mem_map.1 hy
          exact sq_nonneg z
        rcases h0.lt_or_eq with h | h
        · exact h
        · have := sum_nonneg_eq_zero w (fun x => x ^ 2) (fun x => sq_nonneg x) h.symm x hx
          exact absurd (pow_eq_zero_iff (two_ne_zero) |>.1 this) hx0
      have hm : 0 < meanR (w.map (· ^ 2)) := by
        unfold meanR
        rw [List.length_map]
        exact div_pos hS hlen
      have hq : 0 < Real.sqrt (meanR (w.map (· ^ 2))) := Real.sqrt_pos.2 hm
      refine ⟨hq, ?_, fun h => absurd h (by decide), fun h => absurd h (by decide)⟩
      intro _
      rw [List.map_map, List.length_map]
      have e : (w.map ((fun x : ℝ => x ^ 2) ∘ fun x => x / Real.sqrt (meanR (w.map (· ^ 2))))) =
          w.map fun x => (fun x : ℝ => x ^ 2) x / meanR (w.map (· ^ 2)) := by
        apply List.map_congr_left
        intro y _
        simp only [Function.comp, div_pow]
        rw [Real.sq_sqrt hm.le]
      rw [e, sum_map_div w (fun x : ℝ => x ^ 2)]
      unfold meanR
      rw [List.length_map]
      field_simp
  · -- abssum
    refine ⟨meanR (w.map (|·|)), by simp [normFactor, hw], ?_, ?_, ?_⟩
    · unfold meanR
      apply div_nonneg _ (by positivity)
      apply List.sum_nonneg
      intro y hy
      obtain ⟨z, -, rfl⟩ := List.mem_map.1 hy
      exact abs_nonneg z
    · intro h
      have : w.map (fun x : ℝ => |x|) = w.map (fun _ => (0 : ℝ)) := by
        apply List.map_congr_left
        intro x hx
        simp [h x hx]
      simp [meanR, this]
    · rintro ⟨x, hx, hx0⟩
      have hS : 0 < (w.map fun x : ℝ => |x|).sum := by
        have h0 : 0 ≤ (w.map fun x : ℝ => |x|).sum := by
          apply List.sum_nonneg
          intro y hy
          obtain ⟨z, -, rfl⟩ := List.mem_map.1 hy
          exact abs_nonneg z
        rcases h0.lt_or_eq with h | h
        · exact h
        · have := sum_nonneg_eq_zero w (fun x => |x|) (fun x => abs_nonneg x) h.symm x hx
          exact absurd (abs_eq_zero.1 this) hx0
      have hm : 0 < meanR (w.map (|·|)) := by
        unfold meanR
        rw [List.length_map]
        exact div_pos hS hlen
      refine ⟨hm, fun h => absurd h (by decide), ?_, fun h => absurd h (by decide)⟩
      intro _
      rw [List.map_map, List.length_map]
      have e : (w.map ((fun x : ℝ => |x|) ∘ fun x => x / meanR (w.map (|·|)))) =
          w.map fun x => (fun x : ℝ => |x|) x / meanR (w.map (|·|)) := by
        apply List.map_congr_left
        intro y _
        simp only [Function.comp, abs_div, abs_of_pos hm]
      rw [e, sum_map_div w (fun x : ℝ => |x|)]
      unfold meanR
      rw [List.length_map]
      field_simp
  · -- absmax
    obtain ⟨m, hm⟩ := maxR_isSome (w.map (|·|)) (by simpa using hw)
    obtain ⟨h1, h2⟩ := maxR_spec _ _ hm
    obtain ⟨y, hy, hym⟩ := List.mem_map.1 h1
    have h3 : ∀ x ∈ w, |x| ≤ m := fun x hx => h2 _ (List.mem_map.2 ⟨x, hx, rfl⟩)
    refine ⟨m, by simp [normFactor, hm], by rw [← hym]; exact abs_nonneg y, ?_, ?_⟩
    · intro h
      rw [← hym, h y hy, abs_zero]
    · rintro ⟨x, hx, hx0⟩
      have hm0 : 0 < m := lt_of_lt_of_le (abs_pos.2 hx0) (h3 x hx)
      refine ⟨hm0, fun h => absurd h (by decide), fun h => absurd h (by decide), fun _ => ⟨?_, ?_⟩⟩
      · intro z hz
        obtain ⟨u, hu, rfl⟩ := List.mem_map.1 hz
        rw [abs_div, abs_of_pos hm0, div_le_one hm0]
        exact h3 u hu
      · refine ⟨y / m, List.mem_map.2 ⟨y, hy, rfl⟩, ?_⟩
        rw [abs_div, abs_of_pos hm0, hym, div_self hm0.ne']

/-- **C45** For the types energy, abssum and absmax and every window inside the
trace that contains a sample: every row is divided by a positive number `m row`.
If the row is zero in the window, it is unchanged; otherwise its samples in the
window have unit size afterwards (root mean square, mean absolute value, or
maximum absolute value one). With both times omitted the window is the whole
trace.
Missing for the full property: `c45_max_violated`, `c45_empty_violated`. -/
theorem c45_normalize_partial (data : List (List ℝ)) (s : LagStats) (hsr : 0 < s.sr) (hd : Rect data s)
    (starttime endtime : Option Rat) (ty : Str)
    (hty : ty = c!"energy" ∨ ty = c!"abssum" ∨ ty = c!"absmax") (hs : ∀ t ∈ starttime, s.startLag ≤ t)
    (he : ∀ t ∈ endtime, s.startLag ≤ t ∧ t < s.lag s.npts)
    (hne : ∃ i < s.npts, s.normWindow starttime endtime i = true) :
    ∃ m : List ℝ → ℝ, corrMatNormalize data s starttime endtime ty =
        .ok (data.map fun row => row.map fun x => some (x / m row)) ∧
      ∀ row ∈ data, 0 < m row ∧
        ((∀ x ∈ samplesWhere row (s.normWindow starttime endtime), x = 0) → m row = 1) ∧
        ((∃ x ∈ samplesWhere row (s.normWindow starttime endtime), x ≠ 0) →
          UnitSize ty (samplesWhere (row.map (· / m row)) (s.normWindow starttime endtime))) := by
  set W : List ℝ → List ℝ := fun row => samplesWhere row (s.normWindow starttime endtime) with hW
  have hWne : ∀ row ∈ data, W row ≠ [] := by
    intro row hr h
    obtain ⟨i, hi, hwi⟩ := hne
    have : row[i]'(by rw [hd row hr]; exact hi) ∈ W row :=
      (mem_samplesWhere _ _ _).2 ⟨i, hwi, List.getElem?_eq_getElem _⟩
    rw [h] at this
    cases this
  have hex : ∀ row : List ℝ, W row ≠ [] → _ := fun row h => normFactor_spec ty hty (W row) h
  choose! f hf using hex
  have hfloor : ∀ t, s.startLag ≤ t → 0 ≤ ((t - s.startLag) * s.sr).floor := by
    intro t ht
    rw [le_ratFloor_iff]
    push_cast
    exact mul_nonneg (by linarith) hsr.le
  have hend : ∀ t, t < s.lag s.npts → ((t - s.startLag) * s.sr).floor < (s.npts : Int) := by
    intro t ht
    rw [ratFloor_lt_iff]
    unfold LagStats.lag at ht
    have : t - s.startLag < s.npts / s.sr := by linarith
    rw [lt_div_iff₀ hsr] at this
    exact_mod_cast this
  refine ⟨fun row => if f row = 0 then 1 else f row, ?_, ?_⟩
  · unfold corrMatNormalize
    simp only
    have c1 : ((starttime.map fun t => ((t - s.startLag) * s.sr).floor).any
        fun k => decide (k ≠ 0) && decide (k < 0)) = false := by
      cases starttime with
      | none => rfl
      | some t =>
        have := hfloor t (hs t rfl)
        simp only [Option.map_some, Option.any_some, Bool.and_eq_false_iff, decide_eq_false_iff_not]
        omega
    have c2 : ((endtime.map fun t => ((t - s.startLag) * s.sr).floor).any
        fun k => decide (k ≠ 0) && decide (k ≥ (s.npts : Int))) = false := by
      cases endtime with
      | none => rfl
      | some t =>
        have := hend t (he t rfl).2
        simp only [Option.map_some, Option.any_some, Bool.and_eq_false_iff, decide_eq_false_iff_not]
        omega
    rw [if_neg (by rw [c1]; decide), if_neg (by rw [c2]; decide)]
    have hmap : (data.mapM fun row => normFactor ty (pySlice row (starttime.map fun t => ((t - s.startLag) * s.sr).floor)
        (endtime.map fun t => ((t - s.startLag) * s.sr).floor))) = .ok (data.map fun row => some (f row)) := by
      apply mapM_ok
      intro row hr
      rw [normSlice s hsr starttime endtime row (hd row hr) hs he]
      exact (hf row (hWne row hr)).1
    rw [hmap]
    simp only [bind, Except.bind, pure, Except.pure]
    congr 1
    clear hmap hWne hd
    induction data with
    | nil => rfl
    | cons row data ih =>
      simp only [List.map_cons, List.zipWith_cons_cons]
      rw [ih]
      rfl
  · intro row hr
    obtain ⟨-, h1, h2, h3⟩ := hf row (hWne row hr)
    refine ⟨?_, ?_, ?_⟩
    · simp only
      split
      · norm_num
      · next h => exact lt_of_le_of_ne h1 (Ne.symm h)
    · intro h
      simp only
      rw [if_pos (h2 h)]
    · intro h
      obtain ⟨h4, h5⟩ := h3 h
      simp only
      rw [if_neg h4.ne', samplesWhere_map]
      exact h5

/-- whole trace: a row and its normalised version -/
example : (∀ t ∈ (none : Option Rat), (⟨-1, 3, 1⟩ : LagStats).startLag ≤ t) ∧
    (∃ i < (⟨-1, 3, 1⟩ : LagStats).npts, (⟨-1, 3, 1⟩ : LagStats).normWindow none none i = true) ∧
    Rect [[1, -2, 0], [0, 0, (0 : ℝ)]] ⟨-1, 3, 1⟩ := by
  refine ⟨by simp, ⟨0, by decide, by decide⟩, ?_⟩
  intro row h
  simp only [List.mem_cons, List.not_mem_nil, or_false] at h
  rcases h with rfl | rfl <;> rfl

/-- **C45** (window outside the trace) If the window begins before the trace or ends
at or after its end, the data are returned unchanged. -/
theorem c45_outside (data : List (List ℝ)) (s : LagStats) (hsr : 0 < s.sr) (hn : 0 < s.npts)
    (starttime endtime : Option Rat) (ty : Str)
    (h : (∃ t ∈ starttime, t < s.startLag) ∨ (∃ t ∈ endtime, s.lag s.npts ≤ t)) :
    corrMatNormalize data s starttime endtime ty = .ok (data.map fun row => row.map some) := by
  unfold corrMatNormalize
  simp only
  rcases h with ⟨t, ht, h⟩ | ⟨t, ht, h⟩
  · obtain rfl : starttime = some t := ht
    have h1 : ((t - s.startLag) * s.sr).floor < 0 := by
      rw [ratFloor_lt_iff]
      push_cast
      exact mul_neg_of_neg_of_pos (by linarith) hsr
    have c1 : (((some t).map fun t => ((t - s.startLag) * s.sr).floor).any
        fun k => decide (k ≠ 0) && decide (k < 0)) = true := by
      simp only [Option.map_some, Option.any_some, Bool.and_eq_true, decide_eq_true_eq]
      omega
    rw [if_pos c1]
    rfl
  · obtain rfl : endtime = some t := ht
    have h1 : (s.npts : Int) ≤ ((t - s.startLag) * s.sr).floor := by
      rw [le_ratFloor_iff]
      unfold LagStats.lag at h
      have : (s.npts : Rat) / s.sr ≤ t - s.startLag := by linarith
      rw [div_le_iff₀ hsr] at this
      exact_mod_cast this
    have c1 : (((some t).map fun t => ((t - s.startLag) * s.sr).floor).any
        fun k => decide (k ≠ 0) && decide (k ≥ (s.npts : Int))) = true := by
      simp only [Option.map_some, Option.any_some, Bool.and_eq_true, decide_eq_true_eq]
      omega
    simp only [c1, if_true]
    split <;> rfl

/-- **C45** (errors) An unknown type raises `ValueError` if there is something to
normalise. -/
theorem c45_unknown (data : List (List ℝ)) (s : LagStats) (ty : Str) (hd : data ≠ [])
    (hty : ty ∉ [c!"energy", c!"abssum", c!"max", c!"absmax"]) :
    corrMatNormalize data s none none ty = .error .valueError := by
  simp only [List.mem_cons, List.not_mem_nil, or_false, not_or] at hty
  cases data with
  | nil => exact absurd rfl hd
  | cons row data =>
    unfold corrMatNormalize
    simp [normFactor, hty.1, hty.2.1, hty.2.2.1, hty.2.2.2, List.mapM_cons, bind, Except.bind]

/-- **C45** is violated for the type max: a trace with negative samples only is
multiplied by a negative number, and its maximum is not one afterwards. -/
theorem c45_max_violated :
    corrMatNormalize [[-1, -2]] ⟨0, 2, 1⟩ none none c!"max" = .ok [[some 1, some 2]] := by
  have h : maxR [(-1 : ℝ), -2] = some (-1) := by simp [maxR]
  simp [corrMatNormalize, normFactor, pySlice, h, normDivide, List.mapM_cons, bind, Except.bind, pure, Except.pure]

/-- **C45** is violated for a window without samples (start equal to end): all data
become NaN. -/
theorem c45_empty_violated :
    corrMatNormalize [[1, 2, 3, 4]] ⟨0, 4, 1⟩ (some 1) (some 1) c!"energy" = .ok [[none, none, none, none]] := by
  have hf : Rat.floor 1 = 1 := by decide
  simp [corrMatNormalize, normFactor, pySlice, sliceBound, hf, normDivide, List.mapM_cons, bind, Except.bind, pure,
    Except.pure]

/-! ### C46 -/

theorem npClip_spec (v x : ℝ) (hv : 0 ≤ v) :
    |npClip (-v) v x| ≤ v ∧ (|x| ≤ v → npClip (-v) v x = x) ∧ (v < x → npClip (-v) v x = v) ∧
      (x < -v → npClip (-v) v x = -v) ∧ npClip (-v) v (npClip (-v) v x) = npClip (-v) v x := by
  have hb : ∀ y, -v ≤ npClip (-v) v y ∧ npClip (-v) v y ≤ v := by
    intro y
    unfold npClip
    exact ⟨le_min (le_max_right _ _) (by linarith), min_le_right _ _⟩
  have hid : ∀ y, |y| ≤ v → npClip (-v) v y = y := by
    intro y hy
    rw [abs_le] at hy
    unfold npClip
    rw [max_eq_left hy.1, min_eq_left hy.2]
  refine ⟨abs_le.2 (hb x), hid x, ?_, ?_, hid _ (abs_le.2 (hb x))⟩
  · intro h
    unfold npClip
    rw [max_eq_left (by linarith), min_eq_right h.le]
  · intro h
    unfold npClip
    rw [max_eq_right h.le, min_eq_left (by linarith)]

theorem stdR_nonneg (l : List ℝ) : 0 ≤ stdR l := Real.sqrt_nonneg _

theorem clipLevel_nonneg (A : List (List ℝ)) (thres : ℝ) (ht : 0 ≤ thres) (axis : ClipAxis) (i j : Nat) :
    0 ≤ clipLevel A thres axis i j := by
  unfold clipLevel
  cases axis <;> exact mul_nonneg ht (stdR_nonneg _)

theorem clipAt_get (v : Nat → Nat → ℝ) (A : List (List ℝ)) (i j : Nat) :
    (clipAt v A)[i]?.bind (fun row => row[j]?) =
      (A[i]?.bind fun row => row[j]?).map (npClip (-v i j) (v i j)) := by
  unfold clipAt
  rw [List.getElem?_mapIdx]
  cases A[i]? with
  | none => rfl
  | some row => simp [List.getElem?_mapIdx]

/-- **C46** (post-processing) With a factor that is not negative: the sample in row
`i` and column `j` of the result does not exceed the level `v` (the factor times
the standard deviation of its row, its column, or the whole matrix) in absolute
value, is the old sample if this does not exceed the level, and is the level with
the sign of the sample otherwise. -/
theorem c46_clip (A : List (List ℝ)) (thres : ℝ) (ht : 0 ≤ thres) (axis : ClipAxis) (i j : Nat) (row : List ℝ) (x : ℝ)
    (hrow : A[i]? = some row) (hx : row[j]? = some x) (v : ℝ)
    (hv : v = thres * match axis with
      | .all => stdR A.flatten
      | .columns => stdR (A.filterMap fun r => r[j]?)
      | .rows => stdR row) :
    ∃ row' y, (corrMatClip A thres axis)[i]? = some row' ∧ row'.length = row.length ∧ row'[j]? = some y ∧ |y| ≤ v ∧
      (|x| ≤ v → y = x) ∧ (v < x → y = v) ∧ (x < -v → y = -v) := by
  have hlev : clipLevel A thres axis i j = v := by
    rw [hv]
    unfold clipLevel
    cases axis <;> simp [List.getD, hrow]
  have h0 : 0 ≤ v := hlev ▸ clipLevel_nonneg A thres ht axis i j
  obtain ⟨h1, h2, h3, h4, -⟩ := npClip_spec v x h0
  refine ⟨row.mapIdx fun j x => npClip (-clipLevel A thres axis i j) (clipLevel A thres axis i j) x, npClip (-v) v x, ?_,
    by simp, ?_, h1, h2, h3, h4⟩
  · unfold corrMatClip clipAt
    rw [List.getElem?_mapIdx, hrow]
    rfl
  · rw [List.getElem?_mapIdx, hx]
    simp [hlev]

/-- **C46** (same level) Clipping the result again at the levels of the first call
changes nothing. -/
theorem c46_same_level (A : List (List ℝ)) (thres : ℝ) (ht : 0 ≤ thres) (axis : ClipAxis) :
    clipAt (clipLevel A thres axis) (corrMatClip A thres axis) = corrMatClip A thres axis := by
  unfold corrMatClip clipAt
  rw [List.mapIdx_mapIdx]
  congr 1
  funext i row
  simp only [Function.comp]
  rw [List.mapIdx_mapIdx]
  congr 1
  funext j x
  exact (npClip_spec _ x (clipLevel_nonneg A thres ht axis i j)).2.2.2.2

/-- **C46** (pre-processing) For a trace with missing samples (NaN): missing
samples stay missing, no sample exceeds the factor times the standard deviation of
the valid samples, samples within this level are unchanged, others get the level
with their sign. -/
theorem c46_td_clip (factor : ℝ) (hf : 0 ≤ factor) (row : List (Option ℝ)) :
    (tdClip factor row).length = row.length ∧ ∀ i : Nat, (row[i]? = some none → (tdClip factor row)[i]? = some none) ∧
      ∀ x : ℝ, row[i]? = some (some x) → ∃ y : ℝ, (tdClip factor row)[i]? = some (some y) ∧
        |y| ≤ factor * stdR (row.filterMap id) ∧ (|x| ≤ factor * stdR (row.filterMap id) → y = x) ∧
        (factor * stdR (row.filterMap id) < x → y = factor * stdR (row.filterMap id)) ∧
        (x < -(factor * stdR (row.filterMap id)) → y = -(factor * stdR (row.filterMap id))) := by
  unfold tdClip
  simp only
  by_cases hv : row.filterMap id = []
  · rw [if_pos hv]
    refine ⟨rfl, fun i => ⟨fun h => h, ?_⟩⟩
    intro x hx
    exfalso
    have : x ∈ row.filterMap id := List.mem_filterMap.2 ⟨some x, List.mem_of_getElem? hx, rfl⟩
    rw [hv] at this
    cases this
  · rw [if_neg hv]
    have h0 : 0 ≤ factor * stdR (row.filterMap id) := mul_nonneg hf (stdR_nonneg _)
    generalize factor * stdR (row.filterMap id) = ts at *
    refine ⟨by simp, fun i => ⟨?_, ?_⟩⟩
    · intro h
      simp [h]
    · intro x hx
      refine ⟨_, by simp only [List.getElem?_map, hx, Option.map_some]; rfl, ?_, ?_, ?_, ?_⟩
      · rw [abs_le]
        by_cases h1 : x > ts
        · rw [if_pos h1, if_neg (by linarith)]; constructor <;> linarith
        · rw [if_neg h1]
          split <;> constructor <;> linarith
      · intro h
        rw [abs_le] at h
        rw [if_neg (show ¬ x > ts by linarith), if_neg (by linarith)]
      · intro h
        rw [if_pos h, if_neg (by linarith)]
      · intro h
        rw [if_neg (show ¬ x > ts by linarith), if_pos h]

/-- the level is not the largest amplitude: a sample is clipped -/
example : stdR [(0 : ℝ), 2] = 1 := by
  have : meanR [(0 : ℝ), 2] = 1 := by norm_num [meanR]
  unfold stdR
  rw [this]
  norm_num [meanR]

/-- **C46** (calling the function again is not clipping at the same level) The level
is computed from the data, so a second call with the same factor clips again: with
factor one the trace (0, 0, 0, 4) gets the level √3, and then a lower one. -/
theorem c46_second_call : ∃ (A : List (List ℝ)), corrMatClip (corrMatClip A 1 .rows) 1 .rows ≠ corrMatClip A 1 .rows := by
  refine ⟨[[0, 0, 0, 4]], ?_⟩
  have hm : meanR [(0 : ℝ), 0, 0, 4] = 1 := by norm_num [meanR]
  have hs : stdR [(0 : ℝ), 0, 0, 4] = Real.sqrt 3 := by
    unfold stdR
    rw [hm]
    norm_num [meanR]
  have h3 : (0 : ℝ) < Real.sqrt 3 := Real.sqrt_pos.2 (by norm_num)
  have h34 : Real.sqrt 3 ≤ 4 := by
    rw [Real.sqrt_le_left (by norm_num)]
    norm_num
  have h1 : corrMatClip [[0, 0, 0, 4]] 1 .rows = [[0, 0, 0, Real.sqrt 3]] := by
    simp [corrMatClip, clipAt, clipLevel, hs, npClip, h3.le, h34]
  have hm2 : meanR [(0 : ℝ), 0, 0, Real.sqrt 3] = Real.sqrt 3 / 4 := by norm_num [meanR]
  have hs2 : stdR [(0 : ℝ), 0, 0, Real.sqrt 3] = 3 / 4 := by
    unfold stdR
    rw [hm2]
    have : meanR (List.map (fun x => (x - Real.sqrt 3 / 4) ^ 2) [0, 0, 0, Real.sqrt 3]) = (3 / 4) ^ 2 := by
      have h := Real.sq_sqrt (show (0 : ℝ) ≤ 3 by norm_num)
      simp only [meanR, List.map_cons, List.map_nil, List.sum_cons, List.sum_nil, List.length_cons, List.length_nil]
      push_cast
      nlinarith
    rw [this]
    exact Real.sqrt_sq (by norm_num)
  rw [h1]
  have hlt : (3 / 4 : ℝ) < Real.sqrt 3 := by
    rw [Real.lt_sqrt (by norm_num)]
    norm_num
  have h2 : corrMatClip [[0, 0, 0, Real.sqrt 3]] 1 .rows = [[0, 0, 0, 3 / 4]] := by
    simp only [corrMatClip, clipAt, clipLevel, List.getD_cons_zero, List.mapIdx_cons, List.mapIdx_nil, hs2, npClip, one_mul]
    rw [max_eq_left (by norm_num), min_eq_left (by norm_num), max_eq_left (by linarith), min_eq_right hlt.le]
  rw [h2]
  intro h
  simp only [List.cons.injEq, and_true, true_and] at h
  linarith

end SeisMIC
