import Verif.Props.Measure

/-!
# C110: measuring time shifts in windows off the sampling grid, in the default window and against the average trace
-/

namespace SeisMIC

/-! ### Specification -/

/-- moving the time axis of the samples and the time together does not change the spline -/
def ShiftInvariant (spline : List ℝ → List ℝ → ℝ → ℝ) : Prop :=
  ∀ (e : ℝ) (ts ys : List ℝ) (x : ℝ), spline (ts.map (· + e)) ys (x + e) = spline ts ys x

/-- the time windows that are used: the given ones, or the whole trace less the largest shift on both ends -/
def IsWindows (s : LagStats) (range : Rat) (tw : Option (List (List Rat))) (wins : List (Rat × Rat)) : Prop :=
  tw = some (wins.map fun w => [w.1, w.2]) ∨ (tw = none ∧ wins = [(s.startLag + range, s.endLag - range)])

/-- the times from `tmin` to `tmax` are those of all windows and `range` seconds around them, on both sides of
zero lag if both sides are used -/
def IsSpan (sides : Str) (wins : List (Rat × Rat)) (range tmin tmax : Rat) : Prop :=
  (∀ w ∈ wins, w.1 ≤ tmax - range ∧ w.2 ≤ tmax - range) ∧ (∃ w ∈ wins, tmax - range = w.1 ∨ tmax - range = w.2) ∧
  (sides = c!"both" → tmin = -tmax) ∧
  (sides ≠ c!"both" → (∀ w ∈ wins, tmin + range ≤ w.1 ∧ tmin + range ≤ w.2) ∧ ∃ w ∈ wins, tmin + range = w.1 ∨ tmin + range = w.2)

/-- the average of traces with `n` samples -/
noncomputable def averageTrace (data : List (List ℝ)) (n : Nat) : List ℝ :=
  (List.range n).map fun j => (data.map fun row => row.getD j 0).sum / (data.length : ℝ)

/-! ### Lemmas -/

theorem pyRound_cases (x : Rat) :
    (pyRound x = x.floor ∧ x - (x.floor : Rat) ≤ 1 / 2) ∨ (pyRound x = x.floor + 1 ∧ 1 / 2 ≤ x - (x.floor : Rat)) := by
  unfold pyRound
  split
  · rename_i h; left; exact ⟨rfl, h.le⟩
  · split
    · rename_i h; right; exact ⟨rfl, h.le⟩
    · rename_i h1 h2
      have h3 : x - (x.floor : Rat) = 1 / 2 := by
        push Not at h1 h2
        exact le_antisymm h2 h1
      split
      · left; exact ⟨rfl, h3.le⟩
      · right; exact ⟨rfl, h3.ge⟩

theorem floor_bounds (x : Rat) : (x.floor : Rat) ≤ x ∧ x < (x.floor : Rat) + 1 := by
  constructor
  · exact Rat.floor_le x
  · exact_mod_cast Rat.lt_floor_add_one x

theorem le_floor_iff (k : Int) (x : Rat) : k ≤ x.floor ↔ (k : Rat) ≤ x := Rat.le_floor_iff

theorem ceil_le_iff' (k : Int) (x : Rat) : x.ceil ≤ k ↔ x ≤ (k : Rat) := Rat.ceil_le_iff

/-- the lags of a window in seconds: from the first sample in it, up to but without the last -/
def secondsLags (sides : Str) (sr t0 t1 : Rat) : List Int := windowLags sides (t0 * sr).ceil (t1 * sr).floor

theorem lagIndices_any (sides : Str) (s : LagStats) (t0 t1 : Rat) :
    lagIndices sides s t0 t1 = (secondsLags sides s.sr t0 t1).map fun k => k - pyRound (s.startLag * s.sr) := rfl

theorem lagTimes_any (sr : Rat) (hsr : 0 < sr) (t : Rat) (lo hi : Int) :
    lagTimes ⟨t, (hi + 1 - lo).toNat, sr⟩ =
      ((intsFrom lo (hi + 1)).map fun k : Int => (k : ℝ) / (sr : ℝ)).map (· + ((t : ℝ) - (lo : ℝ) / (sr : ℝ))) := by
  have hsr' : (sr : ℝ) ≠ 0 := by exact_mod_cast hsr.ne'
  unfold lagTimes linspaceR intsFrom LagStats.endLag
  simp only
  rw [List.map_map, List.map_map]
  refine List.map_congr_left fun i hi' => ?_
  have hi' := List.mem_range.1 hi'
  rw [if_neg (by omega), if_neg hsr.ne']
  simp only [Function.comp_apply]
  push_cast
  rcases Nat.eq_zero_or_pos i with rfl | hi0
  · simp
  · have hn : (((hi + 1 - lo).toNat : Nat) : ℝ) - 1 ≠ 0 := by
      have : (2 : ℝ) ≤ (((hi + 1 - lo).toNat : Nat) : ℝ) := by
        have : 2 ≤ (hi + 1 - lo).toNat := by omega
        exact_mod_cast this
      linarith
    field_simp
    ring

theorem lagCoeff_map (K : List Int) (g : Int → Int) (f r : Int → ℝ) :
    lagCoeff (K.map g) f r = lagCoeff K (fun k => f (g k)) (fun k => r (g k)) := by
  unfold lagCoeff
  simp only [List.map_map, Function.comp_def]

/-- the similarities of one row -/
noncomputable def simsAny (spline : List ℝ → List ℝ → ℝ → ℝ) (sr : Rat) (a : Int) (ref : List ℝ) (lo hi δ : Int) (wins : List (Rat × Rat))
    (sides : Str) (row : Int → ℝ) (tested : List ℝ) : List (Option ℝ) :=
  tested.map fun v => maMean (wins.map fun w => lagCoeff ((secondsLags sides sr w.1 w.2).map (· + δ)) row (shiftedRef spline sr a ref lo hi v))

theorem measureTrimmed_any (spline : List ℝ → List ℝ → ℝ → ℝ) (hsp : ShiftInvariant spline) (sr : Rat) (hsr : 0 < sr) (a lo hi p : Int) (t : Rat)
    (hp : pyRound (t * sr) = p)
    (ref : List ℝ) (data : List (List ℝ)) (wins : List (Rat × Rat)) (range : Rat) (steps : Nat) (sides : Str)
    (hk : ∀ w ∈ wins, ∀ k ∈ secondsLags sides sr w.1 w.2, lo ≤ k + (lo - p) ∧ k + (lo - p) ≤ hi) :
    measureTrimmed spline (data.map fun row => (intsFrom lo (hi + 1)).map (atLag a row)) ((intsFrom lo (hi + 1)).map (atLag a ref))
      ⟨t, (hi + 1 - lo).toNat, sr⟩ wins range steps sides =
    data.mapM fun row => bestMatch (testedShifts (range : ℝ) steps)
      (simsAny spline sr a ref lo hi (lo - p) wins sides (atLag a row) (testedShifts (range : ℝ) steps)) := by
  unfold measureTrimmed
  simp only
  rw [List.mapM_map]
  refine mapM_congr' _ _ _ fun row _ => ?_
  simp only [Function.comp_apply]
  rw [linspaceR_eq]
  have shift : ∀ (x : List ℝ) (k : Int), atLag p x k = atLag lo x (k + (lo - p)) := by
    intro x k
    unfold atLag
    congr 2
    omega
  have hcmp : (wins.mapM fun w =>
      compareRow (shiftedRefMat spline ((intsFrom lo (hi + 1)).map (atLag a ref)) ⟨t, (hi + 1 - lo).toNat, sr⟩
        (testedShifts (range : ℝ) steps)) (lagIndices sides ⟨t, (hi + 1 - lo).toNat, sr⟩ w.1 w.2)
        ((intsFrom lo (hi + 1)).map (atLag a row))) =
      .ok (wins.map fun w => (testedShifts (range : ℝ) steps).map fun v =>
        lagCoeff ((secondsLags sides sr w.1 w.2).map (· + (lo - p))) (atLag a row) (shiftedRef spline sr a ref lo hi v)) := by
    refine mapM_ok wins _ _ fun w hw => ?_
    rw [lagIndices_any]
    simp only [hp]
    rw [compareRow_ok _ _ p (hi + 1 - lo).toNat _ (by simp [length_intsFrom])]
    · congr 1
      unfold shiftedRefMat
      rw [List.map_map]
      refine List.map_congr_left fun v _ => ?_
      simp only [Function.comp_apply]
      rw [lagTimes_any sr hsr t lo hi, lagCoeff_map]
      refine lagCoeff_congr _ _ _ _ _ (fun k hkk => ?_) fun k hkk => ?_
      · rw [shift, atLag_map lo hi _ _ (hk w hw k hkk)]
      · rw [List.map_map, List.map_map, shift, atLag_map lo hi _ _ (hk w hw k hkk)]
        simp only [Function.comp_apply]
        unfold shiftedRef
        refine Eq.trans ?_ (hsp ((t : ℝ) - (lo : ℝ) / (sr : ℝ)) _ _ _)
        congr 1
        ring
    · intro r hr
      unfold shiftedRefMat at hr
      obtain ⟨v, _, rfl⟩ := List.mem_map.1 hr
      rw [List.length_map, lagTimes_any sr hsr t lo hi, List.length_map, List.length_map, length_intsFrom]
    · intro k hkk
      have := hk w hw k hkk
      omega
  simp only [hcmp, bind, Except.bind]
  congr 1
  unfold simsAny testedShifts
  rw [List.map_map]
  refine List.map_congr_left fun k hk' => ?_
  have hk' := List.mem_range.1 hk'
  simp only [Function.comp_apply, List.map_map]
  congr 1
  refine List.map_congr_left fun w _ => ?_
  simp only [Function.comp_apply]
  rw [List.getD_eq_getElem _ _ (by simpa using hk')]
  simp

theorem trim_any (sr : Rat) (hsr : 0 < sr) (a : Int) (n : Nat) (t u : Rat) (rows : List (List ℝ)) (hr : ∀ row ∈ rows, row.length = n)
    (hne : rows ≠ []) (h1 : (a : Rat) ≤ t * sr) (h2 : t ≤ u) (h3 : u * sr < (a + n : Int)) :
    corrMatTrim rows ⟨(a : Rat) / sr, n, sr⟩ t u =
      (rows.map fun row => (intsFrom (t * sr).floor ((u * sr).floor + 1)).map (atLag a row),
        ⟨t, ((u * sr).floor + 1 - (t * sr).floor).toNat, sr⟩) := by
  have e : ∀ x : Rat, ((x - (a : Rat) / sr) * sr).floor = (x * sr).floor - a := by
    intro x
    have : (x - (a : Rat) / sr) * sr = x * sr - (a : Rat) := by field_simp
    rw [this]
    exact Int.floor_sub_intCast (x * sr) a
  have l1 : a ≤ (t * sr).floor := (le_floor_iff _ _).2 h1
  have l2 : (t * sr).floor ≤ (u * sr).floor :=
    (le_floor_iff _ _).2 ((floor_bounds _).1.trans (mul_le_mul_of_nonneg_right h2 hsr.le))
  have l3 : (u * sr).floor < a + n := by
    have := (floor_bounds (u * sr)).1.trans_lt h3
    exact_mod_cast this
  have hm : (rows.map fun row => pySlice row (some ((t * sr).floor - a)) (some ((u * sr).floor - a + 1))) =
      rows.map fun row => (intsFrom (t * sr).floor ((u * sr).floor + 1)).map (atLag a row) :=
    List.map_congr_left fun row h => slice_atLag a _ _ n row (hr row h) l1 l2 l3
  unfold corrMatTrim
  simp only [e]
  rw [if_neg (by omega), if_neg (by omega), hm]
  cases rows with
  | nil => exact absurd rfl hne
  | cons r rs => simp [length_intsFrom]

theorem ends_any (wins : List (Rat × Rat)) (hw : wins ≠ []) :
    ∃ H L : Rat, (wins.flatMap fun w => [w.1, w.2]).max? = some H ∧ (wins.flatMap fun w => [w.1, w.2]).min? = some L ∧
      (∀ w ∈ wins, (L ≤ w.1 ∧ w.1 ≤ H) ∧ L ≤ w.2 ∧ w.2 ≤ H) ∧ (∃ w ∈ wins, L = w.1 ∨ L = w.2) ∧ ∃ w ∈ wins, H = w.1 ∨ H = w.2 := by
  have hne : (wins.flatMap fun w => [w.1, w.2]) ≠ [] := by
    cases wins with
    | nil => exact absurd rfl hw
    | cons w ws => simp
  have form : ∀ x ∈ wins.flatMap (fun w => [w.1, w.2]), ∃ w ∈ wins, x = w.1 ∨ x = w.2 := by
    intro x hx
    obtain ⟨w, hw, hx⟩ := List.mem_flatMap.1 hx
    exact ⟨w, hw, by simpa using hx⟩
  cases hmax : (wins.flatMap fun w => [w.1, w.2]).max? with
  | none => exact absurd (List.max?_eq_none_iff.1 hmax) hne
  | some M =>
    cases hmin : (wins.flatMap fun w => [w.1, w.2]).min? with
    | none => exact absurd (List.min?_eq_none_iff.1 hmin) hne
    | some m =>
      obtain ⟨a1, a2⟩ := List.max?_eq_some_iff.1 hmax
      obtain ⟨b1, b2⟩ := List.min?_eq_some_iff.1 hmin
      refine ⟨M, m, rfl, rfl, fun w hw => ?_, form m b1, form M a1⟩
      have m1 : w.1 ∈ wins.flatMap fun w => [w.1, w.2] := List.mem_flatMap.2 ⟨w, hw, by simp⟩
      have m2 : w.2 ∈ wins.flatMap fun w => [w.1, w.2] := List.mem_flatMap.2 ⟨w, hw, by simp⟩
      exact ⟨⟨b2 _ m1, a2 _ m1⟩, b2 _ m2, a2 _ m2⟩

theorem isSpan_unique (sides : Str) (wins : List (Rat × Rat)) (range t u t' u' : Rat) (h : IsSpan sides wins range t u)
    (h' : IsSpan sides wins range t' u') : t = t' ∧ u = u' := by
  obtain ⟨a1, ⟨w, hw, a2⟩, a3, a4⟩ := h
  obtain ⟨b1, ⟨x, hx, b2⟩, b3, b4⟩ := h'
  have hh : u = u' := by
    have p1 := a1 x hx
    have p2 := b1 w hw
    apply le_antisymm
    · rcases a2 with a2 | a2 <;> linarith [p2.1, p2.2]
    · rcases b2 with b2 | b2 <;> linarith [p1.1, p1.2]
  refine ⟨?_, hh⟩
  by_cases hs : sides = c!"both"
  · rw [a3 hs, b3 hs, hh]
  · obtain ⟨a5, v, hv, a6⟩ := a4 hs
    obtain ⟨b5, z, hz, b6⟩ := b4 hs
    have p1 := a5 z hz
    have p2 := b5 v hv
    apply le_antisymm
    · rcases b6 with b6 | b6 <;> linarith [p1.1, p1.2]
    · rcases a6 with a6 | a6 <;> linarith [p2.1, p2.2]

/-- what has to hold for a measurement to reach the comparison -/
structure Admissible (sr : Rat) (a : Int) (n : Nat) (ref : List ℝ) (tw : Option (List (List Rat))) (wins : List (Rat × Rat)) (range : Rat)
    (steps : Int) (sides : Str) (tmin tmax : Rat) : Prop where
  windows : IsWindows ⟨(a : Rat) / sr, n, sr⟩ range tw wins
  odd : steps % 2 = 1
  pos : 0 < steps
  known : sides = c!"both" ∨ sides = c!"single"
  /-- windows for both sides: none of the given ones is negative, and the default needs a symmetric time axis -/
  mirrored : sides = c!"both" → (tw ≠ none ∧ ∀ w ∈ wins, 0 ≤ w.1 ∧ 0 ≤ w.2) ∨ (tw = none ∧ a + n - 1 = -a)
  len : ref.length = n
  span : IsSpan sides wins range tmin tmax
  begins : (a : Rat) / sr ≤ tmin
  ends : tmax ≤ ((a + n - 1 : Int) : Rat) / sr

theorem isWindows_used (s : LagStats) (range : Rat) (tw : Option (List (List Rat))) (wins : List (Rat × Rat)) (h : IsWindows s range tw wins) :
    ((tw.getD [[s.startLag + range, s.endLag - range]]).map fun w => (w.getD 0 0, w.getD 1 0)) = wins := by
  rcases h with rfl | ⟨rfl, rfl⟩
  · rw [Option.getD_some, List.map_map]
    exact (List.map_congr_left fun w _ => rfl).trans (List.map_id wins)
  · simp

theorem isWindows_exists (s : LagStats) (range : Rat) (tw : Option (List (List Rat))) (h : ¬ (tw.getD []).any (fun w => w.length != 2) = true) :
    ∃ wins, IsWindows s range tw wins := by
  cases tw with
  | none => exact ⟨_, .inr ⟨rfl, rfl⟩⟩
  | some l =>
    refine ⟨l.map fun w => (w.getD 0 0, w.getD 1 0), .inl ?_⟩
    rw [List.map_map]
    congr 1
    conv_lhs => rw [← List.map_id l]
    refine List.map_congr_left fun w hw => ?_
    have hl : w.length = 2 := by
      by_contra hne
      exact h (List.any_eq_true.2 ⟨w, hw, by simpa using hne⟩)
    match w, hl with
    | [x, y], _ => rfl

/-- the times of the span in samples, and the lags that are compared -/
theorem span_facts (sr : Rat) (hsr : 0 < sr) (a : Int) (n : Nat) (ref : List ℝ) (tw : Option (List (List Rat))) (wins : List (Rat × Rat))
    (range : Rat) (hrange : 0 ≤ range) (steps : Int) (sides : Str) (tmin tmax : Rat)
    (h : Admissible sr a n ref tw wins range steps sides tmin tmax) (hn : 0 < n) :
    tmin ≤ tmax ∧ ∀ w ∈ wins, ∀ k ∈ secondsLags sides sr w.1 w.2, tmin * sr ≤ k ∧ k ≤ tmax * sr := by
  obtain ⟨s1, ⟨w0, hw0, s2⟩, s3, s4⟩ := h.span
  have hsum : tw = none → ∀ w ∈ wins, sides = c!"both" → w.1 + w.2 = 0 := by
    intro hno w hw hs
    rcases h.mirrored hs with ⟨c, -⟩ | ⟨-, c⟩
    · exact absurd hno c
    · rcases h.windows with hw' | ⟨-, hw'⟩
      · rw [hno] at hw'; cases hw'
      · rw [hw', List.mem_singleton] at hw
        rw [hw]
        simp only
        rw [endLag_grid sr hsr a n hn, c]
        push_cast
        ring
  have hmir : sides = c!"both" → ∀ w ∈ wins, -w.1 ≤ tmax ∧ 0 ≤ tmax := by
    intro hs w hw
    have q := s1 w hw
    rcases h.mirrored hs with ⟨-, c⟩ | ⟨c, -⟩
    · have := c w hw
      constructor <;> linarith [this.1, this.2, q.1, q.2]
    · have := hsum c w hw hs
      constructor <;> linarith [q.1, q.2]
  constructor
  · by_cases hs : sides = c!"both"
    · have := (hmir hs w0 hw0).2
      rw [s3 hs]; linarith
    · have := (s4 hs).1 w0 hw0
      have q := s1 w0 hw0
      linarith [this.1, q.1]
  · intro w hw k hk
    unfold secondsLags at hk
    rw [mem_windowLags] at hk
    have q := s1 w hw
    have up : ∀ j : Int, j < (w.2 * sr).floor → (j : Rat) ≤ tmax * sr := by
      intro j hj
      have h1 : (j : Rat) ≤ w.2 * sr := (le_floor_iff _ _).1 hj.le
      have h2 : w.2 * sr ≤ tmax * sr := mul_le_mul_of_nonneg_right (by linarith [q.2]) hsr.le
      linarith
    have lowr : ∀ j : Int, (w.1 * sr).ceil ≤ j → w.1 * sr ≤ (j : Rat) := fun j hj => (ceil_le_iff' _ _).1 hj
    by_cases hs : sides = c!"both"
    · have m := hmir hs w hw
      have e := s3 hs
      have m1 : -(w.1 * sr) ≤ tmax * sr := by
        have := mul_le_mul_of_nonneg_right m.1 hsr.le
        linarith
      rcases hk with hk | ⟨-, hk1, hk2⟩
      · refine ⟨?_, up k hk.2⟩
        have := lowr k hk.1
        rw [e, neg_mul]; linarith
      · have u1 := up (-k) hk2
        have u2 := lowr (-k) hk1
        push_cast at u1 u2
        rw [e, neg_mul]
        constructor <;> linarith
    · rcases hk with hk | hk
      · refine ⟨?_, up k hk.2⟩
        have := lowr k hk.1
        have h2 : tmin * sr ≤ w.1 * sr := mul_le_mul_of_nonneg_right (by linarith [((s4 hs).1 w hw).1]) hsr.le
        linarith
      · exact absurd hk.1 hs

theorem measureShift_any (spline : List ℝ → List ℝ → ℝ → ℝ) (hsp : ShiftInvariant spline) (sr : Rat) (hsr : 0 < sr) (a : Int) (n : Nat) (hn : 0 < n)
    (data : List (List ℝ)) (ref : List ℝ) (tw : Option (List (List Rat))) (wins : List (Rat × Rat)) (range : Rat) (hrange : 0 ≤ range)
    (steps : Int) (sides : Str) (tmin tmax : Rat) (hd : ∀ row ∈ data, row.length = n)
    (h : Admissible sr a n ref tw wins range steps sides tmin tmax) :
    measureShift spline data ⟨(a : Rat) / sr, n, sr⟩ (some ref) tw range steps sides =
      data.mapM fun row => bestMatch (testedShifts (range : ℝ) steps.toNat)
        (simsAny spline sr a ref (tmin * sr).floor (tmax * sr).floor ((tmin * sr).floor - pyRound (tmin * sr)) wins sides (atLag a row)
          (testedShifts (range : ℝ) steps.toNat)) := by
  obtain ⟨f1, f2⟩ := span_facts sr hsr a n ref tw wins range hrange steps sides tmin tmax h hn
  have hw : wins ≠ [] := by
    obtain ⟨-, ⟨w, hw, -⟩, -⟩ := h.span
    exact List.ne_nil_of_mem hw
  obtain ⟨H, L, hH, hL, hb, hLm, hHm⟩ := ends_any wins hw
  have he' : IsSpan sides wins range (if sides = c!"both" then -(H + range) else L - range) (H + range) := by
    refine ⟨fun w hw => ?_, ?_, fun hs => ?_, fun hs => ⟨fun w hw => ?_, ?_⟩⟩
    · have := hb w hw; constructor <;> linarith [this.1.2, this.2.2]
    · obtain ⟨w, hwm, hw1⟩ := hHm; exact ⟨w, hwm, by simpa using hw1⟩
    · rw [if_pos hs]
    · have := hb w hw; rw [if_neg hs]; constructor <;> linarith [this.1.1, this.2.1]
    · obtain ⟨w, hwm, hw1⟩ := hLm; exact ⟨w, hwm, by rw [if_neg hs]; simpa using hw1⟩
  obtain ⟨e1, e2⟩ := isSpan_unique _ _ _ _ _ _ _ h.span he'
  have b1 : (a : Rat) ≤ tmin * sr := by
    have := mul_le_mul_of_nonneg_right h.begins hsr.le
    rwa [div_mul_cancel₀ _ hsr.ne'] at this
  have b2 : tmax * sr ≤ ((a + n - 1 : Int) : Rat) := by
    have := mul_le_mul_of_nonneg_right h.ends hsr.le
    rwa [div_mul_cancel₀ _ hsr.ne'] at this
  have hneg : ¬ (sides = c!"both" ∧ ((tw.getD []).any fun w => w.any fun t => decide (t < 0)) = true) := by
    rintro ⟨hs, hany⟩
    rcases h.windows with hw' | ⟨hw', -⟩
    · rcases h.mirrored hs with ⟨-, c⟩ | ⟨c, -⟩
      · rw [hw', Option.getD_some, List.any_map, List.any_eq_true] at hany
        obtain ⟨w, hwm, hx⟩ := hany
        have := c w hwm
        simp only [Function.comp_apply, List.any_cons, List.any_nil, Bool.or_false, Bool.or_eq_true, decide_eq_true_eq] at hx
        rcases hx with hx | hx <;> linarith [this.1, this.2]
      · rw [c] at hw'; cases hw'
    · rw [hw'] at hany; simp at hany
  have hlen : ¬ ((tw.getD []).any fun w => w.length != 2) = true := by
    rcases h.windows with hw' | ⟨hw', -⟩
    · rw [hw']; simp
    · rw [hw']; simp
  unfold measureShift
  rw [if_neg (by have := h.odd; omega), if_neg (by rcases h.known with hs | hs <;> simp [hs]), if_neg hlen, if_neg hneg,
    if_neg (by simpa using h.len)]
  simp only
  have used := isWindows_used ⟨(a : Rat) / sr, n, sr⟩ range tw wins h.windows
  simp only at used
  rw [used, hH, hL]
  simp only
  rw [← e2]
  rw [show (if sides = c!"both" then -tmax else L - range) = tmin by rw [e1, e2]]
  rw [endLag_grid sr hsr a n hn, if_neg (by rw [not_not]; exact h.ends), if_neg (by rw [not_not]; exact h.begins),
    if_neg (by have := h.pos; omega), show (some ref).toList = [ref] from rfl,
    trim_any sr hsr a n tmin tmax (data ++ [ref]) (by
      intro row hr'
      rcases List.mem_append.1 hr' with hr' | hr'
      · exact hd row hr'
      · rw [List.mem_singleton.1 hr']; exact h.len) (by simp) b1 f1 (b2.trans_lt (by push_cast; linarith))]
  simp only [List.map_append, List.map_cons, List.map_nil, List.getLastD_concat, List.dropLast_concat]
  refine measureTrimmed_any spline hsp sr hsr a _ _ _ _ rfl ref data wins range steps.toNat sides fun w hw k hk => ?_
  obtain ⟨k1, k2⟩ := f2 w hw k hk
  have k2' : k ≤ (tmax * sr).floor := (le_floor_iff _ _).2 k2
  have k1' : (tmin * sr).floor ≤ k := by
    have := (floor_bounds (tmin * sr)).1.trans k1
    exact_mod_cast this
  rcases pyRound_cases (tmin * sr) with ⟨p, -⟩ | ⟨p, pf⟩
  · rw [p]; omega
  · rw [p]
    have : (tmin * sr).floor ≠ k := by
      intro hc
      rw [hc] at pf
      linarith
    omega

theorem admissible_of_ok (spline : List ℝ → List ℝ → ℝ → ℝ) (sr : Rat) (hsr : 0 < sr) (a : Int) (n : Nat) (hn : 0 < n)
    (data : List (List ℝ)) (ref : List ℝ) (tw : Option (List (List Rat))) (range : Rat)
    (steps : Int) (sides : Str) (out : List (Option ℝ × Option ℝ)) (hsym : tw = none → sides = c!"both" → a + n - 1 = -a)
    (h : measureShift spline data ⟨(a : Rat) / sr, n, sr⟩ (some ref) tw range steps sides = .ok out) :
    ∃ wins tmin tmax, Admissible sr a n ref tw wins range steps sides tmin tmax := by
  unfold measureShift at h
  split at h
  · cases h
  split at h
  · cases h
  split at h
  · cases h
  split at h
  · cases h
  rename_i c1 c2 c3 c4
  by_cases c5 : ref.length ≠ n
  · simp [c5] at h
  simp only [c5, decide_false, Bool.false_eq_true, if_false] at h
  obtain ⟨wins, hw⟩ := isWindows_exists ⟨(a : Rat) / sr, n, sr⟩ range tw c3
  have used := isWindows_used ⟨(a : Rat) / sr, n, sr⟩ range tw wins hw
  simp only at used
  rw [used] at h
  by_cases hne : wins = []
  · subst hne; cases h
  obtain ⟨H, L, hH, hL, hb, hLm, hHm⟩ := ends_any wins hne
  rw [hH, hL] at h
  simp only at h
  rw [endLag_grid sr hsr a n hn] at h
  generalize hlo : (if sides = c!"both" then -(H + range) else L - range) = lo at h
  split at h
  · cases h
  split at h
  · cases h
  split at h
  · cases h
  rename_i d1 d2 d3
  subst hlo
  refine ⟨wins, _, H + range, hw, by omega, by omega, ?_, fun hs => ?_, not_not.1 c5,
    ⟨fun w hw => ?_, ?_, fun hs => ?_, fun hs => ⟨fun w hw => ?_, ?_⟩⟩, not_not.1 d2, not_not.1 d1⟩
  · by_contra hc
    rw [not_or] at hc
    exact c2 hc
  · by_cases ht : tw = none
    · exact .inr ⟨ht, hsym ht hs⟩
    · refine .inl ⟨ht, fun w hwm => ?_⟩
      rcases hw with hw | ⟨hw, -⟩
      · have key : ∀ x ∈ [w.1, w.2], 0 ≤ x := by
          intro x hx
          by_contra hneg
          refine c4 ⟨hs, ?_⟩
          rw [hw, Option.getD_some, List.any_eq_true]
          refine ⟨[w.1, w.2], List.mem_map.2 ⟨w, hwm, rfl⟩, ?_⟩
          rw [List.any_eq_true]
          exact ⟨x, hx, decide_eq_true (not_le.1 hneg)⟩
        exact ⟨key _ (by simp), key _ (by simp)⟩
      · exact absurd hw ht
  · have := hb w hw; constructor <;> linarith [this.1.2, this.2.2]
  · obtain ⟨w, hwm, hw1⟩ := hHm; exact ⟨w, hwm, by simpa using hw1⟩
  · rw [if_pos hs]
  · have := hb w hw; rw [if_neg hs]; constructor <;> linarith [this.1.1, this.2.1]
  · obtain ⟨w, hwm, hw1⟩ := hLm; exact ⟨w, hwm, by rw [if_neg hs]; simpa using hw1⟩

/-! ### C110 -/

/-- C110: the same for any windows and any range of shifts, whether they lie on the sampling grid or not, and for the
default window. Each trace gets the tested shift with the largest mean correlation coefficient over the windows. The
lags that are compared start with the first sample in the window and end before the last one, but they are taken one
sample too early if the first time that is needed lies more than half a sample after a sample (`δ = -1`). On both sides,
the default window needs a time axis that is symmetric.
Missing for the full property: `c110_one_step_violated`, `c110_end_violated`, `c110_zero_violated` and others. -/
theorem c110_windows_partial (spline : List ℝ → List ℝ → ℝ → ℝ) (hsp : ShiftInvariant spline) (sr : Rat) (hsr : 0 < sr) (a : Int) (n : Nat)
    (hn : 0 < n) (data : List (List ℝ)) (ref : List ℝ) (tw : Option (List (List Rat))) (range : Rat) (hrange : 0 ≤ range)
    (steps : Int) (sides : Str) (out : List (Option ℝ × Option ℝ)) (hd : ∀ row ∈ data, row.length = n)
    (hsym : tw = none → sides = c!"both" → a + n - 1 = -a)
    (h : measureShift spline data ⟨(a : Rat) / sr, n, sr⟩ (some ref) tw range steps sides = .ok out) :
    ∃ (wins : List (Rat × Rat)) (tmin tmax : Rat) (δ : Int), IsWindows ⟨(a : Rat) / sr, n, sr⟩ range tw wins ∧
    IsSpan sides wins range tmin tmax ∧ (a : Rat) / sr ≤ tmin ∧ tmax ≤ ((a + n - 1 : Int) : Rat) / sr ∧
    (tmin * sr - ⌊tmin * sr⌋ < 1 / 2 → δ = 0) ∧ (1 / 2 < tmin * sr - ⌊tmin * sr⌋ → δ = -1) ∧ (δ = 0 ∨ δ = -1) ∧
    out.length = data.length ∧ ∀ (b : Nat) (row : List ℝ), data[b]? = some row → ∃ corr value sims, out[b]? = some (corr, value) ∧
      Spec.IsBest (testedShifts (range : ℝ) steps.toNat) sims corr value ∧
      List.Forall₂ (fun v c => IsMean (wins.filterMap fun w =>
          lagCoeff ((windowLags sides ⌈w.1 * sr⌉ ⌊w.2 * sr⌋).map (· + δ)) (atLag a row)
            (shiftedRef spline sr a ref ⌊tmin * sr⌋ ⌊tmax * sr⌋ v)) c) (testedShifts (range : ℝ) steps.toNat) sims := by
  obtain ⟨wins, tmin, tmax, ha⟩ := admissible_of_ok spline sr hsr a n hn data ref tw range steps sides out hsym h
  rw [measureShift_any spline hsp sr hsr a n hn data ref tw wins range hrange steps sides tmin tmax hd ha] at h
  obtain ⟨g1, g2⟩ := mapM_getElem _ _ _ h
  have hfl : ∀ x : Rat, x.floor = ⌊x⌋ := fun _ => rfl
  have hcl : ∀ x : Rat, x.ceil = ⌈x⌉ := fun x => eq_of_forall_ge_iff fun k => by rw [ceil_le_iff', Int.ceil_le]
  refine ⟨wins, tmin, tmax, (tmin * sr).floor - pyRound (tmin * sr), ha.windows, ha.span, ha.begins, ha.ends, fun hx => ?_, fun hx => ?_, ?_,
    g1, fun b row hb => ?_⟩
  · rw [← hfl] at hx
    rcases pyRound_cases (tmin * sr) with ⟨p, pf⟩ | ⟨p, pf⟩
    · omega
    · linarith
  · rw [← hfl] at hx
    rcases pyRound_cases (tmin * sr) with ⟨p, pf⟩ | ⟨p, pf⟩
    · linarith
    · omega
  · rcases pyRound_cases (tmin * sr) with ⟨p, pf⟩ | ⟨p, pf⟩
    · left; omega
    · right; omega
  obtain ⟨⟨corr, value⟩, e1, e2⟩ := g2 b row hb
  refine ⟨corr, value, _, e2, bestMatch_spec _ _ _ _ e1, ?_⟩
  unfold simsAny
  rw [List.forall₂_map_right_iff, List.forall₂_same]
  intro v _
  have := maMean_eq (wins.map fun w => lagCoeff ((secondsLags sides sr w.1 w.2).map (· + ((tmin * sr).floor - pyRound (tmin * sr)))) (atLag a row)
    (shiftedRef spline sr a ref (tmin * sr).floor (tmax * sr).floor v))
  rw [List.filterMap_map] at this
  simp only [secondsLags, hcl] at this ⊢
  exact this

/-- C110: and such a measurement succeeds if the windows and the shifts lie within the traces. -/
theorem c110_windows_accepted (spline : List ℝ → List ℝ → ℝ → ℝ) (hsp : ShiftInvariant spline) (sr : Rat) (hsr : 0 < sr) (a : Int) (n : Nat)
    (hn : 0 < n) (data : List (List ℝ)) (ref : List ℝ) (tw : Option (List (List Rat))) (wins : List (Rat × Rat)) (range : Rat) (hrange : 0 ≤ range)
    (steps : Int) (sides : Str) (tmin tmax : Rat) (hd : ∀ row ∈ data, row.length = n) (hr : ref.length = n)
    (hwins : IsWindows ⟨(a : Rat) / sr, n, sr⟩ range tw wins) (hst : 0 < steps) (hodd : steps % 2 = 1)
    (hsd : sides = c!"both" ∨ sides = c!"single")
    (hmir : sides = c!"both" → (tw ≠ none ∧ ∀ w ∈ wins, 0 ≤ w.1 ∧ 0 ≤ w.2) ∨ (tw = none ∧ a + n - 1 = -a))
    (hspan : IsSpan sides wins range tmin tmax) (hlo : (a : Rat) / sr ≤ tmin) (hhi : tmax ≤ ((a + n - 1 : Int) : Rat) / sr) :
    ∃ out, measureShift spline data ⟨(a : Rat) / sr, n, sr⟩ (some ref) tw range steps sides = .ok out := by
  rw [measureShift_any spline hsp sr hsr a n hn data ref tw wins range hrange steps sides tmin tmax hd
    ⟨hwins, hodd, hst, hsd, hmir, hr, hspan, hlo, hhi⟩]
  refine mapM_ok_of_forall _ _ fun row _ => bestMatch_ok _ _ ?_ ?_
  · rw [← List.length_pos_iff]
    unfold simsAny
    rw [List.length_map, testedShifts_length]
    omega
  · unfold simsAny
    rw [List.length_map]

open Classical in
/-- there are splines that pass through their samples and do not depend on the origin of the time axis -/
theorem exists_spline : ∃ spline, Interpolates spline ∧ ShiftInvariant spline := by
  refine ⟨fun times values t => values.getD (times.idxOf t) 0, ?_, ?_⟩
  · intro times values i t v hp hl ht hv
    have hi := (List.getElem?_eq_some_iff.1 ht).1
    have hti : times[i] = t := (List.getElem?_eq_some_iff.1 ht).2
    have : times.idxOf t = i := by
      rw [← hti]
      exact List.Nodup.idxOf_getElem (hp.imp fun h => h.ne) i hi
    show values.getD (times.idxOf t) 0 = v
    rw [this, List.getD_eq_getElem?_getD, hv, Option.getD_some]
  · intro e ts ys x
    have : (ts.map (· + e)).idxOf (x + e) = ts.idxOf x := by
      induction ts with
      | nil => rfl
      | cons t ts ih =>
        rw [List.map_cons, List.idxOf_cons, List.idxOf_cons, ih]
        by_cases hx : t = x
        · simp [hx]
        · have h2 : t + e ≠ x + e := fun hc => hx (by linarith)
          rw [beq_false_of_ne hx, beq_false_of_ne h2]
    simp only [this]

/-- a measurement in a window off the sampling grid, and in the default window -/
example (spline : List ℝ → List ℝ → ℝ → ℝ) (hsp : ShiftInvariant spline) :
    (∃ out, measureShift spline [[0, 0, 1, 2, 0, 3, 1, 0, 0]] ⟨((-4 : Int) : Rat) / 1, 9, 1⟩ (some [0, 0, 1, 2, 0, 3, 1, 0, 0])
      (some [[1 / 4, 11 / 4]]) (1 / 3) 3 c!"both" = .ok out) ∧
    ∃ out, measureShift spline [[0, 0, 1, 2, 0, 3, 1, 0, 0]] ⟨((-4 : Int) : Rat) / 1, 9, 1⟩ (some [0, 0, 1, 2, 0, 3, 1, 0, 0])
      none 1 3 c!"both" = .ok out := by
  constructor
  · refine c110_windows_accepted spline hsp 1 (by decide +kernel) (-4) 9 (by decide) _ _ _ [(1 / 4, 11 / 4)] _ (by decide +kernel) 3 _
      (-(37 / 12)) (37 / 12) (by simp) rfl (.inl rfl) (by decide) (by decide) (.inl rfl)
      (fun _ => .inl ⟨by simp, by decide +kernel⟩) ⟨by decide +kernel, ⟨(1 / 4, 11 / 4), by simp, .inr (by decide +kernel)⟩, fun _ => rfl,
        fun h => absurd rfl h⟩ (by decide +kernel) (by decide +kernel)
  · refine c110_windows_accepted spline hsp 1 (by decide +kernel) (-4) 9 (by decide) _ _ _ [(-3, 3)] _ (by decide +kernel) 3 _
      (-4) 4 (by simp) rfl (.inr ⟨rfl, by decide +kernel⟩) (by decide) (by decide) (.inl rfl)
      (fun _ => .inr ⟨rfl, by decide⟩) ⟨by decide +kernel, ⟨(-3, 3), by simp, .inr (by decide +kernel)⟩, fun _ => rfl,
        fun h => absurd rfl h⟩ (by decide +kernel) (by decide +kernel)

/-- C110: without a reference the traces are compared with their average. -/
theorem c110_average (spline : List ℝ → List ℝ → ℝ → ℝ) (data : List (List ℝ)) (s : LagStats) (hne : data ≠ [])
    (hd : ∀ row ∈ data, row.length = s.npts) (tw : Option (List (List Rat))) (range : Rat) (steps : Int) (sides : Str) :
    measureShift spline data s none tw range steps sides =
      measureShift spline data s (some (averageTrace data s.npts)) tw range steps sides := by
  have hal : (averageTrace data s.npts).length = s.npts := by simp [averageTrace]
  have trim : ∀ t u : Rat, corrMatTrim (data ++ [averageTrace data s.npts]) s t u =
      ((corrMatTrim data s t u).1 ++ [(List.range (corrMatTrim data s t u).2.npts).map fun j =>
        meanR ((corrMatTrim data s t u).1.map fun row => row.getD j 0)], (corrMatTrim data s t u).2) := by
    intro t u
    unfold corrMatTrim
    simp only
    split
    · simp [averageTrace, meanR]
    · split
      · simp [averageTrace, meanR]
      · obtain ⟨r, rs, rfl⟩ := List.exists_cons_of_ne_nil hne
        simp only [List.map_cons, List.cons_append, List.map_append, List.map_nil]
        refine congrArg (fun z => (_ :: (_ ++ [z]), _)) ?_
        have e : ∀ row : List ℝ, row.length = s.npts → ∀ j, (pySlice row (some ((t - s.startLag) * s.sr).floor)
            (some (((u - s.startLag) * s.sr).floor + 1))).getD j 0 =
            if j < (sliceBound s.npts (((u - s.startLag) * s.sr).floor + 1)) - sliceBound s.npts ((t - s.startLag) * s.sr).floor then
              row.getD (sliceBound s.npts ((t - s.startLag) * s.sr).floor + j) 0 else 0 := by
          intro row hrow j
          unfold pySlice
          simp only [hrow]
          rw [List.getD_eq_getElem?_getD, List.getElem?_take]
          split
          · rw [List.getElem?_drop, List.getD_eq_getElem?_getD]
          · rfl
        have len : ∀ row : List ℝ, row.length = s.npts → (pySlice row (some ((t - s.startLag) * s.sr).floor)
            (some (((u - s.startLag) * s.sr).floor + 1))).length =
            min (sliceBound s.npts (((u - s.startLag) * s.sr).floor + 1) - sliceBound s.npts ((t - s.startLag) * s.sr).floor)
              (s.npts - sliceBound s.npts ((t - s.startLag) * s.sr).floor) := by
          intro row hrow
          unfold pySlice
          simp only [hrow]
          rw [List.length_take, List.length_drop, hrow]
        refine List.ext_getElem ?_ fun j h1 h2 => ?_
        · rw [len _ hal, List.length_map, List.length_range, len r (hd r (by simp))]
        · rw [len _ hal] at h1
          rw [← List.getD_eq_getElem _ 0, e _ hal, if_pos (by omega), List.getElem_map, List.getElem_range]
          unfold averageTrace meanR
          rw [List.getD_eq_getElem _ _ (by simp; omega), List.getElem_map, List.getElem_range]
          have hm : ((r :: rs).map fun row => row.getD (sliceBound s.npts ((t - s.startLag) * s.sr).floor + j) 0) =
              (pySlice r (some ((t - s.startLag) * s.sr).floor) (some (((u - s.startLag) * s.sr).floor + 1)) ::
                rs.map fun row => pySlice row (some ((t - s.startLag) * s.sr).floor) (some (((u - s.startLag) * s.sr).floor + 1))).map
                fun row => row.getD j 0 := by
            rw [← List.map_cons (f := fun row => pySlice row (some ((t - s.startLag) * s.sr).floor) (some (((u - s.startLag) * s.sr).floor + 1))),
              List.map_map]
            refine List.map_congr_left fun row hrow => ?_
            rw [Function.comp_apply, e row (hd row hrow), if_pos (by omega)]
          rw [hm]
          simp
  unfold measureShift
  simp only [Option.toList_none, Option.toList_some, List.append_nil, trim, List.getLastD_concat, List.dropLast_concat, hal, ne_eq,
    not_true_eq_false, decide_false]

/-- C110 (violated): in a window off the sampling grid the lags can be taken one sample too early. The trace is the
reference (which does not change under the tested shifts) at all lags in the window, but its correlation with the
reference is not one. -/
theorem c110_offgrid_violated (spline : List ℝ → List ℝ → ℝ → ℝ) (hsp : Interpolates spline) (hinv : ShiftInvariant spline) :
    ∃ (row ref : List ℝ) (c : ℝ) (v : Option ℝ),
      (∀ k : Int, (7 / 4 : ℝ) ≤ k → (k : ℝ) ≤ 5 → atLag 0 row k = atLag 0 ref k) ∧ (∀ k : Int, 0 ≤ k → k ≤ 6 → atLag 0 ref k = 1) ∧
      measureShift spline [row] ⟨((0 : Int) : Rat) / 1, 7, 1⟩ (some ref) (some [[7 / 4, 5]]) 1 3 c!"single" = .ok [(some c, v)] ∧ c ≠ 1 := by
  have hone : ∀ k : Int, 0 ≤ k → k ≤ 6 → atLag 0 (List.replicate 7 (1 : ℝ)) k = 1 := by
    intro k h1 h2
    unfold atLag
    rw [List.getD_eq_getElem _ _ (by simp; omega)]
    exact List.getElem_replicate _
  refine ⟨[0, 0, 1, 1, 1, 1, 0], List.replicate 7 1, 2 / Real.sqrt 6, some (-1), fun k h1 h2 => ?_, hone, ?_, ?_⟩
  · have k1 : 2 ≤ k := by
      by_contra hc
      have : (k : ℝ) ≤ 1 := by exact_mod_cast (show k ≤ 1 by omega)
      linarith
    have k2 : k ≤ 5 := by exact_mod_cast h2
    rw [hone k (by omega) (by omega)]
    obtain rfl | rfl | rfl | rfl : k = 2 ∨ k = 3 ∨ k = 4 ∨ k = 5 := by omega
    all_goals rfl
  · have ad : Admissible 1 0 7 (List.replicate 7 (1 : ℝ)) (some [[7 / 4, 5]]) [(7 / 4, 5)] 1 3 c!"single" (3 / 4) 6 :=
      ⟨.inl rfl, by decide, by decide, .inr rfl, fun h => absurd h (by decide), by simp,
        ⟨by decide +kernel, ⟨(7 / 4, 5), by simp, .inr (by decide +kernel)⟩, fun h => absurd h (by decide), fun _ =>
          ⟨by decide +kernel, ⟨(7 / 4, 5), by simp, .inl (by decide +kernel)⟩⟩⟩, by decide +kernel, by decide +kernel⟩
    rw [measureShift_any spline hinv 1 (by decide +kernel) 0 7 (by decide) _ _ _ _ 1 (by decide +kernel) 3 _ _ _ (by simp) ad]
    have ht : testedShifts (((1 : Rat)) : ℝ) (3 : Int).toNat = [-1, 0, 1] := by
      rw [show (3 : Int).toNat = 3 from rfl]
      norm_num [testedShifts, List.range_succ]
    have hcoef : ∀ j : Int, -1 ≤ j → j ≤ 1 → lagCoeff ((secondsLags c!"single" 1 (7 / 4) 5).map (· + (((3 / 4 : Rat) * 1).floor - pyRound (3 / 4 * 1))))
        (atLag 0 [0, 0, 1, 1, 1, 1, 0]) (shiftedRef spline 1 0 (List.replicate 7 1) ((3 / 4 : Rat) * 1).floor ((6 : Rat) * 1).floor (j : ℝ)) =
        some (2 / Real.sqrt 6) := by
      intro j j1 j2
      rw [show (secondsLags c!"single" 1 (7 / 4) 5).map (· + (((3 / 4 : Rat) * 1).floor - pyRound (3 / 4 * 1))) = [1, 2, 3] by decide +kernel,
        show ((3 / 4 : Rat) * 1).floor = 0 by decide +kernel, show ((6 : Rat) * 1).floor = 6 by decide +kernel]
      rw [lagCoeff_congr _ _ (atLag 0 [0, 0, 1, 1, 1, 1, 0]) _ (fun _ => 1) (fun k _ => rfl) (fun k hk => ?_)]
      · have w1 : atLag 0 [0, 0, 1, 1, 1, 1, 0] 1 = 0 := rfl
        have w2 : atLag 0 [0, 0, 1, 1, 1, 1, 0] 2 = 1 := rfl
        have w3 : atLag 0 [0, 0, 1, 1, 1, 1, 0] 3 = 1 := rfl
        norm_num [lagCoeff, w1, w2, w3]
      · have hk' : 1 ≤ k ∧ k ≤ 3 := by
          simp only [List.mem_cons, List.not_mem_nil, or_false] at hk
          omega
        have := shiftedRef_grid spline hsp 1 (by decide +kernel) 0 0 6 (List.replicate 7 1) j k (by omega)
        rw [show ((j : ℝ) / ((1 : Rat) : ℝ)) = j by norm_num] at this
        rw [this]
        exact hone _ (by omega) (by omega)
    have h0 := hcoef 0 (by decide) (by decide)
    have h1 := hcoef 1 (by decide) (by decide)
    have hm := hcoef (-1) (by decide) (by decide)
    rw [Int.cast_zero] at h0
    rw [Int.cast_one] at h1
    rw [Int.cast_neg, Int.cast_one] at hm
    rw [ht]
    simp only [List.mapM_cons, List.mapM_nil, simsAny, List.map_cons, List.map_nil, h0, h1, hm, maMean_one]
    have : bestMatch [-1, 0, 1] [some (2 / Real.sqrt 6), some (2 / Real.sqrt 6), some (2 / Real.sqrt 6)] =
        .ok (some (2 / Real.sqrt 6), some (-1)) := by
      simp [bestMatch, npMaxR, npArgmaxR, bind, Except.bind, List.findIdx_cons]
    rw [this]
    rfl
  · intro h
    rw [div_eq_one_iff_eq (by positivity)] at h
    have h2 := Real.sq_sqrt (show (0 : ℝ) ≤ 6 by norm_num)
    rw [← h] at h2
    norm_num at h2

/-- C110 (violated): on both sides of the default window every lag counts twice, but the two outermost lags once, so that the
coefficient is not the one of the samples in the window. -/
theorem c110_default_violated (spline : List ℝ → List ℝ → ℝ → ℝ) (hsp : Interpolates spline) (hinv : ShiftInvariant spline) :
    ∃ (row ref : List ℝ) (c d : ℝ),
      measureShift spline [row] ⟨((-1 : Int) : Rat) / 1, 3, 1⟩ (some ref) none 0 1 c!"both" = .ok [(some c, some 0)] ∧
      lagCoeff [-1, 0, 1] (atLag (-1) row) (atLag (-1) ref) = some d ∧ c ≠ d := by
  refine ⟨[1, 1, 0], [1, 0, 0], 1 / Real.sqrt 3, 1 / Real.sqrt 2, ?_⟩
  have v1 : atLag (-1) [1, 1, 0] (-1) = 1 := rfl
  have v2 : atLag (-1) [1, 1, 0] 0 = 1 := rfl
  have v3 : atLag (-1) [1, 1, 0] 1 = 0 := rfl
  have u1 : atLag (-1) [1, 0, 0] (-1) = 1 := rfl
  have u2 : atLag (-1) [1, 0, 0] 0 = 0 := rfl
  have u3 : atLag (-1) [1, 0, 0] 1 = 0 := rfl
  refine ⟨?_, ?_, ?_⟩
  · have ad : Admissible 1 (-1) 3 ([1, 0, 0] : List ℝ) none [(-1, 1)] 0 1 c!"both" (-1) 1 :=
      ⟨.inr ⟨rfl, by decide +kernel⟩, by decide, by decide, .inl rfl, fun _ => .inr ⟨rfl, by decide⟩, by simp,
        ⟨by decide +kernel, ⟨(-1, 1), by simp, .inr (by decide +kernel)⟩, fun _ => rfl, fun h => absurd rfl h⟩,
        by decide +kernel, by decide +kernel⟩
    rw [measureShift_any spline hinv 1 (by decide +kernel) (-1) 3 (by decide) _ _ _ _ 0 (by decide +kernel) 1 _ _ _ (by simp) ad]
    have ht : testedShifts (((0 : Rat)) : ℝ) (1 : Int).toNat = [0] := by
      simp [testedShifts]
    have h0 : lagCoeff ((secondsLags c!"both" 1 (-1) 1).map (· + (((-1 : Rat) * 1).floor - pyRound (-1 * 1))))
        (atLag (-1) [1, 1, 0]) (shiftedRef spline 1 (-1) [1, 0, 0] ((-1 : Rat) * 1).floor ((1 : Rat) * 1).floor 0) =
        some (1 / Real.sqrt 3) := by
      rw [show (secondsLags c!"both" 1 (-1) 1).map (· + (((-1 : Rat) * 1).floor - pyRound (-1 * 1))) = [0, 1, -1, 0] by decide +kernel,
        show ((-1 : Rat) * 1).floor = -1 by decide +kernel, show ((1 : Rat) * 1).floor = 1 by decide +kernel]
      rw [lagCoeff_congr _ _ (atLag (-1) [1, 1, 0]) _ (atLag (-1) [1, 0, 0]) (fun k _ => rfl) (fun k hk => ?_)]
      · norm_num [lagCoeff, v1, v2, v3, u1, u2, u3]
      · have hk' : -1 ≤ k ∧ k ≤ 1 := by
          simp only [List.mem_cons, List.not_mem_nil, or_false] at hk
          omega
        have := shiftedRef_grid spline hsp 1 (by decide +kernel) (-1) (-1) 1 [1, 0, 0] 0 k (by omega)
        push_cast at this
        rw [div_one, add_zero] at this
        exact this
    rw [ht]
    simp only [List.mapM_cons, List.mapM_nil, simsAny, List.map_cons, List.map_nil, h0, maMean_one]
    have : bestMatch [0] [some (1 / Real.sqrt 3)] = .ok (some (1 / Real.sqrt 3), some 0) := by
      simp [bestMatch, npMaxR, npArgmaxR, bind, Except.bind, List.findIdx_cons]
    rw [this]
    rfl
  · norm_num [lagCoeff, v1, v2, v3, u1, u2, u3]
  · intro h
    rw [one_div, one_div, inv_inj, Real.sqrt_inj (by norm_num) (by norm_num)] at h
    norm_num at h

/-- C110 (violated): on a time axis that is not symmetric the default window for both sides reaches beyond the samples that
are used. -/
theorem c110_asymmetric_violated (spline : List ℝ → List ℝ → ℝ → ℝ) (row ref : List ℝ) (h1 : row.length = 5) (h2 : ref.length = 5) :
    measureShift spline [row] ⟨-3, 5, 1⟩ (some ref) none 0 1 c!"both" = .error .indexError := by
  match row, h1, ref, h2 with
  | [x0, x1, x2, x3, x4], _, [y0, y1, y2, y3, y4], _ =>
    have hw : ((none : Option (List (List Rat))).getD [[(-3 : Rat) + 0, LagStats.endLag ⟨-3, 5, 1⟩ - 0]]).map
        (fun w => (w.getD 0 0, w.getD 1 0)) = [(-3, 1)] := by decide +kernel
    have hmax : ([(-3, 1)] : List (Rat × Rat)).flatMap (fun w => [w.1, w.2]) = [-3, 1] := rfl
    have h1 : ([-3, 1] : List Rat).max? = some 1 := by decide +kernel
    have h2 : ([-3, 1] : List Rat).min? = some (-3) := by decide +kernel
    have hE : LagStats.endLag ⟨-3, 5, 1⟩ = 1 := by decide +kernel
    have f1 : ((-(1 + 0) - -3 : Rat) * 1).floor = 2 := by decide +kernel
    have f2 : ((1 + 0 - -3 : Rat) * 1).floor = 4 := by decide +kernel
    have ht : corrMatTrim ([[x0, x1, x2, x3, x4]] ++ (some [y0, y1, y2, y3, y4]).toList) ⟨-3, 5, 1⟩ (-(1 + 0)) (1 + 0) =
        ([[x2, x3, x4], [y2, y3, y4]], ⟨-(1 + 0), 3, 1⟩) := by
      unfold corrMatTrim
      simp only [f1, f2]
      rfl
    have hi : lagIndices c!"both" ⟨-(1 + 0), 3, 1⟩ (-3) 1 = [1, 2, 3, 4, -2, -1, 0, 1] := by decide +kernel
    unfold measureShift
    rw [if_neg (by decide), if_neg (by decide), if_neg (by simp), if_neg (by simp), if_neg (by simp)]
    simp only
    rw [hw, hmax, h1, h2]
    simp only [if_true]
    rw [hE, if_neg (by decide +kernel), if_neg (by decide +kernel), ht, if_neg (by decide)]
    simp only [measureTrimmed, List.dropLast, List.mapM_cons, List.mapM_nil, hi]
    simp [compareRow, takeIdx, bind, Except.bind]

end SeisMIC
