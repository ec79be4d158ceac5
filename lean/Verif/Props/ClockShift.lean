import Verif.Model.ClockShift
import Verif.Props.StretchMeasure

/-!
# C131, C132: clock shifts by comparison with delayed references
-/

namespace SeisMIC

/-! ### Specification -/

/-- the reference, whose samples `ref` have lags from `lo` to `hi`, delayed by `v` samples, at lag `l`: its value at lag `l - v`, or the one at its nearest
end if it does not reach that far -/
noncomputable def delayedAt (spline : List ℝ → List ℝ → ℝ → ℝ) (lo hi : Int) (ref : List ℝ) (v : ℝ) (l : Int) : ℝ :=
  spline ((intsFrom lo (hi + 1)).map fun k : Int => (k : ℝ)) ref (max (lo : ℝ) (min (hi : ℝ) (l - v)))

/-- the origin of the time axis is of no importance for the spline -/
def NoOrigin (spline : List ℝ → List ℝ → ℝ → ℝ) : Prop :=
  ∀ times values x c, spline (times.map (· + c)) values (x + c) = spline times values x

/-- the lags that are compared: from the first to the last one -/
def ComparedLags (sides : Str) (a b lo hi : Int) : Prop :=
  (sides = c!"both" ∧ lo = -min a b ∧ hi = min a b) ∨ ((sides = c!"right" ∨ sides = c!"single") ∧ lo = 0 ∧ hi = b)

/-! ### Lemmas -/

theorem shiftIdx_ints (single : Bool) (lo hi : Int) (h : lo ≤ hi) : ∃ c : ℝ,
    shiftIdx single (hi + 1 - lo).toNat = (intsFrom lo (hi + 1)).map fun k : Int => (k : ℝ) + c := by
  have hn : (((hi + 1 - lo).toNat : ℕ) : ℝ) = hi + 1 - lo := by
    have : (((hi + 1 - lo).toNat : ℕ) : Int) = hi + 1 - lo := by omega
    exact_mod_cast this
  cases single with
  | true =>
    refine ⟨-(((lo : ℝ) + hi) / 2), ?_⟩
    unfold shiftIdx intsFrom
    rw [List.map_map]
    refine List.map_congr_left fun i _ => ?_
    simp only [Function.comp, if_true, hn]
    push_cast
    ring
  | false =>
    refine ⟨-(lo : ℝ), ?_⟩
    unfold shiftIdx intsFrom
    rw [List.map_map]
    refine List.map_congr_left fun i _ => ?_
    simp

theorem delayedRefs_ints (spline : List ℝ → List ℝ → ℝ → ℝ) (single : Bool) (lo hi : Int) (h : lo ≤ hi) (ref : List ℝ) (hr : ref.length = (hi + 1 - lo).toNat)
    (shifts : List ℝ) : ∃ c : ℝ, delayedRefs spline ref single shifts = shifts.map fun v => (intsFrom lo (hi + 1)).map fun l : Int =>
      spline (((intsFrom lo (hi + 1)).map fun k : Int => (k : ℝ)).map (· + c)) ref (max (lo : ℝ) (min (hi : ℝ) (l - v)) + c) := by
  obtain ⟨c, hc⟩ := shiftIdx_ints single lo hi h
  refine ⟨c, ?_⟩
  unfold delayedRefs
  rw [hr, hc]
  refine List.map_congr_left fun v _ => ?_
  rw [List.map_map]
  refine List.map_congr_left fun l _ => ?_
  simp only [Function.comp]
  unfold splineConst
  have e : ((intsFrom lo (hi + 1)).map fun k : Int => (k : ℝ) + c) = ((intsFrom lo (hi + 1)).map fun k : Int => (k : ℝ)).map (· + c) := by
    rw [List.map_map]; rfl
  have h1 : ((intsFrom lo (hi + 1)).map fun k : Int => (k : ℝ) + c).headD 0 = lo + c := by
    rw [headD_eq_getElem _ _ (by rw [List.length_map, length_intsFrom]; omega), List.getElem_map, getElem_intsFrom]
    simp
  have h2 : ((intsFrom lo (hi + 1)).map fun k : Int => (k : ℝ) + c).getLastD 0 = hi + c := by
    rw [getLastD_eq_getElem _ _ (by rw [List.length_map, length_intsFrom]; omega), List.getElem_map, getElem_intsFrom, List.length_map, length_intsFrom]
    have : lo + (((hi + 1 - lo).toNat - 1 : Nat) : Int) = hi := by omega
    rw [this]
  rw [h1, h2, e, ← max_add_add_right, ← min_add_add_right]
  congr 3
  ring

/-- the comparison, if the delayed references are `G v` -/
theorem shift_core (spline : List ℝ → List ℝ → ℝ → ℝ) (sr : Rat) (hsr : 0 < sr) (a b : Int) (ha : 0 ≤ a) (hb : 0 ≤ b) (sides : Str) (lo hi : Int)
    (hk : ComparedLags sides a b lo hi) (data : List (List ℝ)) (hd : ∀ row ∈ data, row.length = (b + 1 - -a).toNat) (ref : List ℝ)
    (href : ref.length = (b + 1 - -a).toNat)
    (w : List Int) (hw : w ≠ []) (hwm : ∀ k ∈ w, 0 ≤ k ∧ k ≤ hi) (range : ℝ) (steps : Nat) (hst : 0 < steps) (G : ℝ → Int → ℝ)
    (hrefs : delayedRefs spline (rowAt (-a) lo hi ref) (decide (sides ≠ c!"both")) (testedShifts range steps) =
      (testedShifts range steps).map fun v => (intsFrom lo (hi + 1)).map (G v)) :
    ∃ res, corrMatShift spline data (lagsFromTo (-a) b sr) (some ref) (some [w]) range steps sides = .ok [res] ∧
      res.length = data.length ∧ ∀ (i : Nat) (row : List ℝ), data[i]? = some row → ∃ corr value, res[i]? = some (corr, value) ∧
        Spec.IsBest (testedShifts range steps)
          ((testedShifts range steps).map fun v => coeffAt (lagSet sides lo hi w) (atLag (-a) row) (G v)) corr value := by
  have hlohi : lo ≤ hi := by rcases hk with ⟨_, rfl, rfl⟩ | ⟨_, rfl, rfl⟩ <;> omega
  have hrows : ∀ row ∈ data ++ [ref], row.length = (b + 1 - -a).toNat := by
    intro row hrow
    rcases List.mem_append.1 hrow with h | h
    · exact hd row h
    · rw [List.mem_singleton.1 h]; exact href
  have htrim : shiftTrim (data ++ [ref]) (lagsFromTo (-a) b sr) sides = (.ok ((data ++ [ref]).map (rowAt (-a) lo hi)), lagsFromTo lo hi sr) := by
    have := c113_clock_shift_partial (-a) b (by omega) hb sr hsr (data ++ [ref]) hrows (by simp)
    rw [neg_neg] at this
    rcases hk with ⟨rfl, rfl, rfl⟩ | ⟨hs, rfl, rfl⟩
    · exact this.2
    · exact this.1 sides hs.symm
  set sides' : Str := if decide (sides ≠ c!"both") = true then c!"single" else c!"both" with hs'
  have hset' : lagSet sides lo hi w = lagSet sides' lo hi w := by
    rcases hk with ⟨rfl, _, _⟩ | ⟨rfl | rfl, _, _⟩ <;> rfl
  have hk' : (sides' = c!"both" ∧ lo = -min a b ∧ hi = min a b) ∨ (sides' = c!"single" ∧ lo = 0 ∧ hi = b) := by
    rcases hk with ⟨rfl, h1, h2⟩ | ⟨rfl | rfl, h1, h2⟩
    · exact .inl ⟨rfl, h1, h2⟩
    · exact .inr ⟨rfl, h1, h2⟩
    · exact .inr ⟨rfl, h1, h2⟩
  rw [hset']
  clear_value sides'
  have htl : (testedShifts range steps).length = steps := testedShifts_length _ _
  have htne : testedShifts range steps ≠ [] := by
    intro h
    rw [h] at htl
    simp at htl
    omega
  have hn : (lagsFromTo lo hi sr).npts = (hi + 1 - lo).toNat := rfl
  set refs := (testedShifts range steps).map fun v => (intsFrom lo (hi + 1)).map (G v) with hrefs2
  set n := (hi + 1 - lo).toNat with hndef
  have hne2 : refs ≠ [] := by rw [hrefs2]; simpa using htne
  have hrl2 : ∀ r ∈ refs, r.length = n := by
    intro r hr
    rw [hrefs2] at hr
    obtain ⟨v, _, rfl⟩ := List.mem_map.1 hr
    rw [List.length_map, length_intsFrom]
  obtain ⟨mask, hmask, hset⟩ := c48_window_partial sides' n w hw
    (by rcases hk' with ⟨rfl, _⟩ | ⟨rfl, _⟩ <;> simp) (by
    intro k hk2
    have := hwm k hk2
    refine ⟨this.1, ?_⟩
    rcases hk' with ⟨rfl, rfl, rfl⟩ | ⟨rfl, rfl, rfl⟩
    · rw [if_neg (by decide)]
      omega
    · rw [if_pos rfl]
      omega)
  obtain ⟨res, h1, h2, h3⟩ := velocityChange_window n (data.map (rowAt (-a) lo hi)) w refs (testedShifts range steps) sides' mask hmask
    (by
      intro r hr
      obtain ⟨r', _, rfl⟩ := List.mem_map.1 hr
      exact length_rowAt _ _ _ _) hrl2 (by rw [hrefs2]; simp) hne2
  refine ⟨res, ?_, by simpa using h2, fun i row hi' => ?_⟩
  · unfold corrMatShift timeShiftEstimate
    simp only
    rw [if_neg (by rw [href]; simp [lagsFromTo]), htrim]
    simp only [bind, Except.bind, ← hs']
    rw [show linspaceR (-range) range steps = testedShifts range steps from linspaceR_tested range steps]
    simp only [List.map_append, List.map_cons, List.map_nil, List.dropLast_concat, List.getLastD_concat, length_rowAt]
    rw [hrefs, hn]
    exact h1
  · obtain ⟨corr, value, g1, g2⟩ := h3 i (rowAt (-a) lo _ row) (by rw [List.getElem?_map, hi']; rfl)
    refine ⟨corr, value, g1, ?_⟩
    rw [hrefs2, List.map_map] at g2
    refine cast (congrArg (fun l => Spec.IsBest _ l corr value) (List.map_congr_left fun v _ => ?_)) g2
    simp only [Function.comp]
    rw [hset]
    refine coeff_lags _ _ lo _ ?_ ?_ _ _
    · intro j hj
      unfold Spec.lagWindow at hj
      have := Finset.mem_range.1 (Finset.mem_filter.1 hj).1
      omega
    · intro g
      rcases hk' with ⟨rfl, rfl, rfl⟩ | ⟨rfl, rfl, rfl⟩
      · exact sum_lagSet_two c!"both" (.inl rfl) _ (by omega) w g n rfl
      · exact sum_lagSet_single _ w g n rfl

/-- the comparison for a reference that has the samples of a function -/
theorem shift_function (spline : List ℝ → List ℝ → ℝ → ℝ) (P : (ℝ → ℝ) → Prop) (hsp : Reproduces spline P) (f : ℝ → ℝ) (hf : ∀ c, P fun x => f (x - c))
    (sr : Rat) (hsr : 0 < sr) (a b : Int) (ha : 0 ≤ a) (hb : 0 ≤ b) (sides : Str) (lo hi : Int) (hk : ComparedLags sides a b lo hi) (h4 : lo + 3 ≤ hi)
    (data : List (List ℝ)) (hd : ∀ row ∈ data, row.length = (b + 1 - -a).toNat)
    (w : List Int) (hw : w ≠ []) (hwm : ∀ k ∈ w, 0 ≤ k ∧ k ≤ hi) (range : ℝ) (steps : Nat) (hst : 0 < steps) :
    ∃ res, corrMatShift spline data (lagsFromTo (-a) b sr) (some ((intsFrom (-a) (b + 1)).map fun k : Int => f k)) (some [w]) range steps sides = .ok [res] ∧
      res.length = data.length ∧ ∀ (i : Nat) (row : List ℝ), data[i]? = some row → ∃ corr value, res[i]? = some (corr, value) ∧
        Spec.IsBest (testedShifts range steps) ((testedShifts range steps).map fun u => coeffAt (lagSet sides lo hi w) (atLag (-a) row)
          fun l : Int => f (max (lo : ℝ) (min (hi : ℝ) (l - u)))) corr value := by
  have hlohi : lo ≤ hi := by omega
  have hin : -a ≤ lo ∧ hi ≤ b := by rcases hk with ⟨_, rfl, rfl⟩ | ⟨_, rfl, rfl⟩ <;> omega
  refine shift_core spline sr hsr a b ha hb sides lo hi hk data hd ((intsFrom (-a) (b + 1)).map fun k : Int => f k)
    (by rw [List.length_map, length_intsFrom]) w hw hwm range steps hst (fun u l => f (max (lo : ℝ) (min (hi : ℝ) (l - u)))) ?_
  rw [rowAt_map (-a) b lo hi hin.1 hin.2]
  obtain ⟨d, hd⟩ := delayedRefs_ints spline (decide (sides ≠ c!"both")) lo hi hlohi ((intsFrom lo (hi + 1)).map fun k : Int => f k)
    (by rw [List.length_map, length_intsFrom]) (testedShifts range steps)
  rw [hd]
  refine List.map_congr_left fun u _ => List.map_congr_left fun l _ => ?_
  have hh : (((intsFrom lo (hi + 1)).map fun k : Int => (k : ℝ)).map (· + d)).headD 0 = lo + d := by
    rw [headD_eq_getElem _ _ (by rw [List.length_map, List.length_map, length_intsFrom]; omega), List.getElem_map, List.getElem_map, getElem_intsFrom]
    simp
  have hl : (((intsFrom lo (hi + 1)).map fun k : Int => (k : ℝ)).map (· + d)).getLastD 0 = hi + d := by
    rw [getLastD_eq_getElem _ _ (by rw [List.length_map, List.length_map, length_intsFrom]; omega), List.getElem_map, List.getElem_map, getElem_intsFrom,
      List.length_map, List.length_map, length_intsFrom]
    have : lo + (((hi + 1 - lo).toNat - 1 : Nat) : Int) = hi := by omega
    rw [this]
  have hle : (lo : ℝ) ≤ hi := by exact_mod_cast hlohi
  have := hsp (((intsFrom lo (hi + 1)).map fun k : Int => (k : ℝ)).map (· + d)) (fun x => f (x - d)) (max (lo : ℝ) (min (hi : ℝ) (l - u)) + d)
    (by rw [List.length_map, List.length_map, length_intsFrom]; omega)
    (by
      rw [List.pairwise_map]
      exact (pairwise_ints lo (hi + 1)).imp fun h => by linarith) (hf d)
    (by rw [hh]; have := le_max_left (lo : ℝ) (min (hi : ℝ) (l - u)); linarith)
    (by rw [hl]; have := max_le hle (min_le_left (hi : ℝ) (l - u)); linarith)
  have hv : (((intsFrom lo (hi + 1)).map fun k : Int => (k : ℝ)).map (· + d)).map (fun x => f (x - d)) = (intsFrom lo (hi + 1)).map fun k : Int => f k := by
    rw [List.map_map, List.map_map]
    refine List.map_congr_left fun k _ => ?_
    simp
  rw [hv, add_sub_cancel_right] at this
  exact this

/-! ### C131 -/

/-- **C131** (the best shift). The traces and the reference have samples at lags from `-a` to `b`. For each trace the value is the first one of the tested
delays (in samples) for which the correlation coefficient of the trace with the delayed reference on the time window `w` is largest, and this
coefficient is returned with it; both are undefined if one of the coefficients is. The reference is the part at the compared lags. -/
theorem c131_best (spline : List ℝ → List ℝ → ℝ → ℝ) (hsp : NoOrigin spline) (sr : Rat) (hsr : 0 < sr) (a b : Int) (ha : 0 ≤ a) (hb : 0 ≤ b) (sides : Str)
    (lo hi : Int) (hk : ComparedLags sides a b lo hi) (data : List (List ℝ)) (hd : ∀ row ∈ data, row.length = (b + 1 - -a).toNat) (ref : List ℝ)
    (href : ref.length = (b + 1 - -a).toNat) (w : List Int) (hw : w ≠ []) (hwm : ∀ k ∈ w, 0 ≤ k ∧ k ≤ hi) (range : ℝ) (steps : Nat) (hst : 0 < steps) :
    ∃ res, corrMatShift spline data (lagsFromTo (-a) b sr) (some ref) (some [w]) range steps sides = .ok [res] ∧
      res.length = data.length ∧ ∀ (i : Nat) (row : List ℝ), data[i]? = some row → ∃ corr value, res[i]? = some (corr, value) ∧
        Spec.IsBest (testedShifts range steps) ((testedShifts range steps).map fun v =>
          coeffAt (lagSet sides lo hi w) (atLag (-a) row) (delayedAt spline lo hi (rowAt (-a) lo hi ref) v)) corr value := by
  have hlohi : lo ≤ hi := by rcases hk with ⟨_, rfl, rfl⟩ | ⟨_, rfl, rfl⟩ <;> omega
  refine shift_core spline sr hsr a b ha hb sides lo hi hk data hd ref href w hw hwm range steps hst _ ?_
  obtain ⟨c, hc⟩ := delayedRefs_ints spline (decide (sides ≠ c!"both")) lo hi hlohi (rowAt (-a) lo hi ref) (length_rowAt _ _ _ _) (testedShifts range steps)
  rw [hc]
  refine List.map_congr_left fun v _ => List.map_congr_left fun l _ => ?_
  unfold delayedAt
  exact hsp _ _ _ _

/-- **C131** (the right shift). The reference has the samples of a function `f` that the spline reproduces, and a trace agrees on the time window with a
multiple of `f` delayed by one of the tested shifts `v`. Nothing vanishes on the window. Then the correlation is one; and if no other tested shift gives a
multiple of the trace, the value is `v`. Missing: delays by which values of the reference are needed that are outside of the compared lags
(`c131_edge_violated`). -/
theorem c131_found_partial (spline : List ℝ → List ℝ → ℝ → ℝ) (P : (ℝ → ℝ) → Prop) (hsp : Reproduces spline P) (f : ℝ → ℝ) (hf : ∀ c, P fun x => f (x - c))
    (sr : Rat) (hsr : 0 < sr) (a b : Int) (ha : 0 ≤ a) (hb : 0 ≤ b) (sides : Str) (lo hi : Int) (hk : ComparedLags sides a b lo hi) (h4 : lo + 3 ≤ hi)
    (data : List (List ℝ)) (hd : ∀ row ∈ data, row.length = (b + 1 - -a).toNat)
    (w : List Int) (hw : w ≠ []) (hwm : ∀ k ∈ w, 0 ≤ k ∧ k ≤ hi) (range : ℝ) (steps : Nat) (hst : 0 < steps)
    (i : Nat) (row : List ℝ) (hi' : data[i]? = some row) (v : ℝ) (hv : v ∈ testedShifts range steps) (c : ℝ) (hc : 0 < c)
    (hrow : ∀ l ∈ lagSet sides lo hi w, (lo : ℝ) ≤ l - v ∧ l - v ≤ hi ∧ atLag (-a) row l = c * f (l - v))
    (hnz : ∃ l ∈ lagSet sides lo hi w, atLag (-a) row l ≠ 0)
    (hrz : ∀ u ∈ testedShifts range steps, ∃ l ∈ lagSet sides lo hi w, f (max (lo : ℝ) (min (hi : ℝ) (l - u))) ≠ 0) :
    ∃ res u, corrMatShift spline data (lagsFromTo (-a) b sr) (some ((intsFrom (-a) (b + 1)).map fun k : Int => f k)) (some [w]) range steps sides = .ok [res] ∧
      res[i]? = some (some 1, some u) ∧ u ∈ testedShifts range steps ∧
      ((∀ u ∈ testedShifts range steps, (∃ d > 0, ∀ l ∈ lagSet sides lo hi w,
        atLag (-a) row l = d * f (max (lo : ℝ) (min (hi : ℝ) (l - u)))) → u = v) → u = v) := by
  obtain ⟨res, h1, h2, h3⟩ := shift_function spline P hsp f hf sr hsr a b ha hb sides lo hi hk h4 data hd w hw hwm range steps hst
  obtain ⟨corr, value, g1, g2⟩ := h3 i row hi'
  have hcl : ∀ l ∈ lagSet sides lo hi w, max (lo : ℝ) (min (hi : ℝ) (l - v)) = l - v := by
    intro l hl
    obtain ⟨e1, e2, -⟩ := hrow l hl
    rw [min_eq_right e2, max_eq_right e1]
  obtain ⟨e1, u, hu, e2, e3⟩ := isBest_one _ (fun v => coeffAt (lagSet sides lo hi w) (atLag (-a) row) fun l : Int => f (max (lo : ℝ) (min (hi : ℝ) (l - v)))) v hv
    ((coeffAt_one _ _ _ hnz (hrz v hv)).2.2 ⟨c, hc, fun l hl => by rw [hcl l hl]; exact (hrow l hl).2.2⟩)
    (fun u hu => by
      obtain ⟨c', hc'⟩ := (coeffAt_one _ _ _ hnz (hrz u hu)).1
      exact ⟨c', hc', coeffAt_le _ _ _ _ hc'⟩) corr value g2
  refine ⟨res, u, h1, by rw [g1, e1, e2], hu, fun huniq => huniq u hu ?_⟩
  exact (coeffAt_one _ _ _ hnz (hrz u hu)).2.1 e3

/-- the reference `l + 10` at lags from -5 to 5, and a trace that is this reference delayed by one sample; the tested shifts are -1 and 1 -/
example : ∃ spline, ∃ res, corrMatShift spline [(intsFrom (-5) (5 + 1)).map fun l : Int => ((l : ℝ) - 1) + 10] (lagsFromTo (-5) 5 2)
    (some ((intsFrom (-5) (5 + 1)).map fun l : Int => (l : ℝ) + 10)) (some [[0, 1]]) 1 2 c!"both" = .ok [res] ∧ res[0]? = some (some 1, some (1 : ℝ)) := by
  obtain ⟨spline, hsp⟩ := exists_reproduces_cubics
  have ht : testedShifts 1 2 = [-1, 1] := by
    unfold testedShifts
    simp [List.range_succ]
    norm_num
  have hL : lagSet c!"both" (-5) 5 [0, 1] = {-1, 0, 1} := by
    unfold lagSet
    decide
  have hat : ∀ l ∈ ({-1, 0, 1} : Finset Int), atLag (-5) ((intsFrom (-5) (5 + 1)).map fun l : Int => ((l : ℝ) - 1) + 10) l = ((l : ℝ) - 1) + 10 := by
    intro l hl
    simp only [Finset.mem_insert, Finset.mem_singleton] at hl
    rcases hl with rfl | rfl | rfl <;> simp [atLag, intsFrom, List.range_succ]
  obtain ⟨res, u, h1, h2, h3, h4⟩ := c131_found_partial spline Cubics hsp (fun x => x + 10) (fun c => ⟨10 - c, 1, 0, 0, fun x => by ring⟩) 2 (by norm_num) 5 5
    (by norm_num) (by norm_num) c!"both" (-5) 5 (.inl ⟨rfl, rfl, rfl⟩) (by norm_num) [(intsFrom (-5) (5 + 1)).map fun l : Int => ((l : ℝ) - 1) + 10]
    (by simp [length_intsFrom]) [0, 1] (by simp) (by simp) 1 2 (by norm_num) 0 _ rfl 1 (by rw [ht]; simp) 1 one_pos
    (by
      intro l hl
      rw [hL] at hl
      rw [hat l hl]
      simp only [Finset.mem_insert, Finset.mem_singleton] at hl
      rcases hl with rfl | rfl | rfl <;> norm_num)
    ⟨0, by rw [hL]; decide, by rw [hat 0 (by decide)]; norm_num⟩
    (by
      intro u hu
      refine ⟨0, by rw [hL]; decide, ?_⟩
      rw [ht] at hu
      simp only [List.mem_cons, List.not_mem_nil, or_false] at hu
      rcases hu with rfl | rfl <;> norm_num)
  refine ⟨spline, res, h1, ?_⟩
  rw [h2, h4]
  intro u hu ⟨d, hd, hdl⟩
  rw [ht] at hu
  simp only [List.mem_cons, List.not_mem_nil, or_false] at hu
  rcases hu with rfl | rfl
  · exfalso
    have e0 := hdl 0 (by rw [hL]; decide)
    have e1 := hdl 1 (by rw [hL]; decide)
    rw [hat 0 (by decide)] at e0
    rw [hat 1 (by decide)] at e1
    norm_num at e0 e1
    linarith
  · rfl

/-- a spline without origin: the sample before -/
example : NoOrigin fun times values x => values.getD ((times.filter fun t => decide (t < x)).length) 0 := by
  intro times values x c
  simp only
  rw [List.filter_map, List.length_map]
  congr 3
  funext t
  simp

theorem cubics_shift (f : ℝ → ℝ) (hf : Cubics f) (c : ℝ) : Cubics fun x => f (x - c) := by
  obtain ⟨c0, c1, c2, c3, h⟩ := hf
  refine ⟨c0 - c1 * c + c2 * c ^ 2 - c3 * c ^ 3, c1 - 2 * c2 * c + 3 * c3 * c ^ 2, c2 - 3 * c3 * c, c3, fun x => ?_⟩
  simp only [h]
  ring

/-- **C131** (violated). On the positive side the reference is delayed as if it began at lag zero, although it has samples at negative lags. Here it has the
samples `l + 1` at the lags `l` from -1 to 3, and a trace is exactly this reference delayed by one sample; the tested shifts are -1 and 1, and the result
is -1. -/
theorem c131_edge_violated (spline : List ℝ → List ℝ → ℝ → ℝ) (hsp : Reproduces spline Cubics) (sr : Rat) (hsr : 0 < sr) :
    testedShifts 1 2 = [-1, 1] ∧ ∃ (res : List (Option ℝ × Option ℝ)) (corr : ℝ), corrMatShift spline [(intsFrom (-1) (3 + 1)).map fun l : Int => ((l : ℝ) - 1) + 1] (lagsFromTo (-1) 3 sr)
      (some ((intsFrom (-1) (3 + 1)).map fun l : Int => (l : ℝ) + 1)) (some [[0, 1]]) 1 2 c!"right" = .ok [res] ∧
      res[0]? = some (some corr, some (-1 : ℝ)) := by
  have ht : testedShifts 1 2 = [-1, 1] := by
    unfold testedShifts
    simp [List.range_succ]
    norm_num
  refine ⟨ht, ?_⟩
  obtain ⟨res, h1, h2, h3⟩ := shift_function spline Cubics hsp (fun x => x + 1) (fun c => cubics_shift (fun x => x + 1) ⟨1, 1, 0, 0, fun x => by ring⟩ c) sr hsr
    1 3 (by norm_num) (by norm_num) c!"right" 0 3 (.inr ⟨.inl rfl, rfl, rfl⟩) (by norm_num) [(intsFrom (-1) (3 + 1)).map fun l : Int => ((l : ℝ) - 1) + 1]
    (by simp [length_intsFrom]) [0, 1] (by simp) (by simp) 1 2 (by norm_num)
  obtain ⟨corr, value, g1, g2⟩ := h3 0 _ rfl
  have hL : lagSet c!"right" 0 3 [0, 1] = {0, 1} := by
    unfold lagSet
    decide
  have hat : ∀ l ∈ ({0, 1} : Finset Int), atLag (-1) ((intsFrom (-1) (3 + 1)).map fun l : Int => ((l : ℝ) - 1) + 1) l = l := by
    intro l hl
    simp only [Finset.mem_insert, Finset.mem_singleton] at hl
    rcases hl with rfl | rfl <;> simp [atLag, intsFrom, List.range_succ]
  rw [ht, hL] at g2
  have hf : ∀ G : Int → ℝ, G 0 ^ 2 + G 1 ^ 2 ≠ 0 → coeffAt {0, 1} (atLag (-1) ((intsFrom (-1) (3 + 1)).map fun l : Int => ((l : ℝ) - 1) + 1)) G =
      some (G 1 / Real.sqrt (G 0 ^ 2 + G 1 ^ 2)) := by
    intro G hG
    unfold coeffAt
    have h01 : (0 : Int) ∉ ({1} : Finset Int) := by decide
    rw [Finset.sum_insert h01, Finset.sum_insert h01, Finset.sum_insert h01, Finset.sum_singleton, Finset.sum_singleton, Finset.sum_singleton,
      hat 0 (by decide), hat 1 (by decide)]
    rw [if_neg (by rw [not_or]; exact ⟨by norm_num, hG⟩)]
    norm_num
  simp only [List.map_cons, List.map_nil] at g2
  rw [hf _ (by norm_num), hf _ (by norm_num)] at g2
  norm_num at g2
  obtain ⟨k, c, v, e1, e2, e3, e4, e5, -⟩ := g2.2 (by simp)
  refine ⟨res, c, h1, ?_⟩
  rw [g1, e3, e4]
  have hk : k = 0 ∨ k = 1 := by
    have := (List.getElem?_eq_some_iff.1 e2).1
    simp at this
    omega
  rcases hk with rfl | rfl
  · simp at e2
    rw [← e2]
  · exfalso
    have := e5 0 _ rfl
    simp only [List.getElem?_cons_succ, List.getElem?_cons_zero, Option.some.injEq] at e1
    rw [← e1, ← one_div, div_le_div_iff₀ (by positivity) (by positivity), one_mul] at this
    have h13 : Real.sqrt 13 < 3 * Real.sqrt 2 := by
      rw [Real.sqrt_lt' (by positivity), mul_pow, Real.sq_sqrt (by norm_num)]
      norm_num
    linarith

/-- **C131** (violated). The shift that is found is the one by which the trace is later than the reference, but `correct_shift` takes the opposite
(see C111): it delays the trace by the same shift again. Here the sampling rate is 1 Hz; otherwise the units differ as well. -/
theorem c131_correction_violated (s : LagStats) (hsr : s.sr = 1) (hn : 2 ≤ s.npts) (data : List (List ℝ)) (hd : ∀ row ∈ data, row.length = s.npts)
    (ref : List ℝ) (delays : List Int) (hl : delays.length = data.length) (hone : delays.length ≠ 1)
    (hdel : ∀ (b : Nat) (row : List ℝ) (j : Int), data[b]? = some row → delays[b]? = some j →
      ∀ k : Nat, k < s.npts → 0 ≤ (k : Int) - j → (k : Int) - j < s.npts → row[k]? = ref[((k : Int) - j).toNat]?) :
    ∃ out, correctShift s (data.map fun row => row.map some) (squeeze (delays.map fun j : Int => some (j : ℝ))) = (out, none) ∧
      ∀ (b : Nat) (row : List ℝ) (j : Int), data[b]? = some row → delays[b]? = some j → ∃ new, out[b]? = some new ∧
        ∀ i : Nat, i < s.npts → 0 ≤ (i : Int) - j → (i : Int) - j < s.npts → 0 ≤ (i : Int) - 2 * j → (i : Int) - 2 * j < s.npts →
          new[i]? = some ref[((i : Int) - 2 * j).toNat]? := by
  obtain ⟨out, h1, h2, h3⟩ := c111_shift s (by rw [hsr]; norm_num) hn data hd delays hl hone
  rw [hsr] at h1
  simp only [Rat.cast_one, div_one] at h1
  refine ⟨out, h1, fun b row j hb hj => ?_⟩
  obtain ⟨new, g1, g2, g3, -⟩ := h3 b row j hb hj
  refine ⟨new, g1, fun i hi h4 h5 h6 h7 => ?_⟩
  rw [g3 i hi h4 h5]
  have e : ((((i : Int) - j).toNat : Nat) : Int) = (i : Int) - j := by omega
  have := hdel b row j hb hj ((i : Int) - j).toNat (by omega) (by omega) (by omega)
  rw [this, e, show (i : Int) - j - j = i - 2 * j by ring]

/-- **C131**: other sides and references of another length are refused -/
theorem c131_refused (spline : List ℝ → List ℝ → ℝ → ℝ) (data : List (List ℝ)) (s : LagStats) (ref : List ℝ) (tw : Option (List (List Int))) (range : ℝ) (steps : Nat)
    (sides : Str) :
    (ref.length ≠ s.npts → corrMatShift spline data s (some ref) tw range steps sides = .error .valueError) ∧
    (sides ≠ c!"both" → sides ≠ c!"right" → sides ≠ c!"single" → ∀ r : Option (List ℝ), corrMatShift spline data s r tw range steps sides = .error .valueError) := by
  refine ⟨fun h => ?_, fun h1 h2 h3 r => ?_⟩
  · unfold corrMatShift
    simp only
    rw [if_pos h]
  · have ht : ∀ d : List (List ℝ), (shiftTrim d s sides).1 = .error .valueError := by
      intro d
      unfold shiftTrim
      simp only
      rw [if_neg (by tauto)]
    unfold corrMatShift
    cases r with
    | none => simp only [ht, bind, Except.bind]
    | some r =>
      simp only [ht, bind, Except.bind]
      split <;> rfl

/-! ### C132 -/

theorem interpZero_between (c : ℝ) (row : List ℝ) (x : ℝ) (m : Nat) (hm : m + 1 < row.length) (h1 : (m : ℝ) ≤ x) (h2 : x ≤ m + 1) :
    interpZero c row (c + x) = row.getD m 0 + (row.getD (m + 1) 0 - row.getD m 0) * (x - m) := by
  unfold interpZero
  have hm' : ((m : ℝ) + 1) ≤ row.length - 1 := by
    have : ((m + 1 + 1 : Nat) : ℝ) ≤ row.length := by exact_mod_cast hm
    push_cast at this
    linarith
  have h0 : (0 : ℝ) ≤ m := by positivity
  rw [if_neg (by rw [not_or, not_lt, not_lt]; constructor <;> linarith)]
  simp only [add_sub_cancel_left]
  have hc1 : (m : Int) ≤ ⌈x⌉ := by
    have : (m : ℝ) ≤ ⌈x⌉ := h1.trans (Int.le_ceil x)
    exact_mod_cast this
  have hc2 : ⌈x⌉ ≤ (m : Int) + 1 := by
    rw [Int.ceil_le]
    push_cast
    exact h2
  rcases (by omega : ⌈x⌉ = (m : Int) ∨ ⌈x⌉ = (m : Int) + 1) with h | h
  · have hx : x = m := by
      have := Int.le_ceil x
      rw [h] at this
      push_cast at this
      linarith
    rw [h]
    cases m with
    | zero =>
      have : (min (max ((0 : Nat) : Int) 1) ((row.length : Int) - 1)).toNat - 1 = 0 := by omega
      rw [this]
      push_cast
      ring
    | succ m =>
      have : (min (max ((m + 1 : Nat) : Int) 1) ((row.length : Int) - 1)).toNat - 1 = m := by omega
      rw [this, hx]
      push_cast
      ring
  · have : (min (max ⌈x⌉ 1) ((row.length : Int) - 1)).toNat - 1 = m := by omega
    rw [this]
    ring

theorem interpZero_outside (c : ℝ) (row : List ℝ) (x : ℝ) (h : x < 0 ∨ (row.length : ℝ) - 1 < x) : interpZero c row (c + x) = 0 := by
  unfold interpZero
  rw [if_pos (by rcases h with h | h; · left; linarith
                 · right; linarith)]

theorem shiftApply_row (n : Nat) (data rows : List (List ℝ)) (single : Bool) (i : Nat) (row d : List ℝ) (hi : data[i]? = some row) (hv : rows[i]? = some d) (k : Nat)
    (hk : k < n) (hrl : row.length = n) (v : ℝ) (hd : (if d.length = 1 then d.headD 0 else d.getD k 0) = v) (new : List ℝ)
    (hnew : ((List.range data.length).map fun i => match data[i]?, rows[i]? with
      | some row, some d => (List.range n).map fun k : Nat => interpZero (if single then 0 else -(((n : ℝ) - 1) / 2)) row
          ((if single then 0 else -(((n : ℝ) - 1) / 2)) + k - (if d.length = 1 then d.headD 0 else d.getD k 0))
      | _, _ => List.replicate n 0)[i]? = some new) :
    new.length = n ∧ (((k : ℝ) - v < 0 ∨ (n : ℝ) - 1 < k - v) → new[k]? = some 0) ∧
      ∀ m : Nat, m + 1 < n → (m : ℝ) ≤ k - v → (k : ℝ) - v ≤ m + 1 →
        new[k]? = some (row.getD m 0 + (row.getD (m + 1) 0 - row.getD m 0) * ((k : ℝ) - v - m)) := by
  have hlt := (List.getElem?_eq_some_iff.1 hi).1
  rw [List.getElem?_map, List.getElem?_range hlt, Option.map_some, hi, hv, Option.some.injEq] at hnew
  simp only at hnew
  rw [← hnew, List.getElem?_map, List.getElem?_range hk, Option.map_some, hd, add_sub_assoc]
  refine ⟨by simp, fun h => ?_, fun m hm h1 h2 => ?_⟩
  · rw [interpZero_outside _ row _ (by rw [hrl]; exact h)]
  · rw [interpZero_between _ row _ m (by omega) h1 h2]

/-- **C132**. Sample `k` of a trace that is shifted by `v` samples is the one at `k - v`: zero outside of the trace, and a linear interpolation between
two samples. It does not matter if the traces have one side or two. Missing: fewer shifts than traces (`c132_fewer_violated`). -/
theorem c132_shift_partial (n : Nat) (data : List (List ℝ)) (hd : ∀ row ∈ data, row.length = n) (shifts : List ℝ) (single : Bool) :
    ∃ out, timeShiftApply n data (.one shifts) single = .ok out ∧ out.length = data.length ∧
      ∀ (i : Nat) (row new : List ℝ) (v : ℝ), data[i]? = some row → shifts[i]? = some v → out[i]? = some new →
        ∀ k : Nat, k < n → new.length = n ∧ (((k : ℝ) - v < 0 ∨ (n : ℝ) - 1 < k - v) → new[k]? = some 0) ∧
          ∀ m : Nat, m + 1 < n → (m : ℝ) ≤ k - v → (k : ℝ) - v ≤ m + 1 →
            new[k]? = some (row.getD m 0 + (row.getD (m + 1) 0 - row.getD m 0) * ((k : ℝ) - v - m)) := by
  refine ⟨_, rfl, by simp, fun i row new v hi hv hnew k hk => ?_⟩
  refine shiftApply_row n data (shifts.map fun v => [v]) single i row [v] hi (by rw [List.getElem?_map, hv]; rfl) k hk
    (hd row (List.mem_of_getElem? hi)) v (by simp) new hnew

/-- **C132** (varying shifts). With a matrix of shifts, each sample has its own shift. -/
theorem c132_varying (n : Nat) (hn : 2 ≤ n) (data : List (List ℝ)) (hd : ∀ row ∈ data, row.length = n) (shifts : List (List ℝ)) (hl : shifts.length = data.length)
    (hs : ∀ d ∈ shifts, d.length = n) (single : Bool) :
    ∃ out, timeShiftApply n data (.two n shifts) single = .ok out ∧ out.length = data.length ∧
      ∀ (i : Nat) (row new d : List ℝ), data[i]? = some row → shifts[i]? = some d → out[i]? = some new →
        ∀ (k : Nat) (v : ℝ), d[k]? = some v → new.length = n ∧ (((k : ℝ) - v < 0 ∨ (n : ℝ) - 1 < k - v) → new[k]? = some 0) ∧
          ∀ m : Nat, m + 1 < n → (m : ℝ) ≤ k - v → (k : ℝ) - v ≤ m + 1 →
            new[k]? = some (row.getD m 0 + (row.getD (m + 1) 0 - row.getD m 0) * ((k : ℝ) - v - m)) := by
  refine ⟨_, by unfold timeShiftApply; simp only; rw [if_neg (by simpa using hl), if_neg (by simp)], by simp, fun i row new d hi hv hnew k v hk => ?_⟩
  have hdl := hs d (List.mem_of_getElem? hv)
  have hkn := (List.getElem?_eq_some_iff.1 hk).1
  refine shiftApply_row n data shifts single i row d hi hv k (by omega) (hd row (List.mem_of_getElem? hi)) v (by
    rw [if_neg (by omega), List.getD_eq_getElem?_getD, hk]; rfl) new hnew

/-- **C132** (one shift for each trace in a matrix of one column) -/
theorem c132_column (n : Nat) (data : List (List ℝ)) (shifts : List ℝ) (hl : shifts.length = data.length) (single : Bool) :
    timeShiftApply n data (.two 1 (shifts.map fun v => [v])) single = timeShiftApply n data (.one shifts) single := by
  unfold timeShiftApply
  simp only
  rw [if_neg (by simpa using hl), if_neg (by omega)]

/-- **C132**: matrices of shifts that do not fit are refused -/
theorem c132_refused (n : Nat) (data shifts : List (List ℝ)) (columns : Nat) (single : Bool)
    (h : shifts.length ≠ data.length ∨ (1 < columns ∧ columns ≠ n)) : timeShiftApply n data (.two columns shifts) single = .error .valueError := by
  unfold timeShiftApply
  simp only
  by_cases h1 : shifts.length ≠ data.length
  · rw [if_pos h1]
  · rw [if_neg h1, if_pos (by tauto)]

/-- **C132** (a whole number of samples). Sample `k` becomes sample `k - j` of the trace, and zero where the trace does not reach; in particular a shift
by zero changes nothing.
Missing for the full property: `c132_fewer_violated`, `c132_estimate_violated`. -/
theorem c132_whole_partial (n : Nat) (hn : 2 ≤ n) (data : List (List ℝ)) (hd : ∀ row ∈ data, row.length = n) (shifts : List Int) (hl : shifts.length = data.length)
    (single : Bool) :
    timeShiftApply n data (.one (shifts.map fun j : Int => (j : ℝ))) single =
      .ok (List.zipWith (fun row j => (List.range n).map fun k : Nat => if 0 ≤ (k : Int) - j ∧ (k : Int) - j < n then row.getD ((k : Int) - j).toNat 0 else 0) data shifts) := by
  obtain ⟨out, h1, h2, h3⟩ := c132_shift_partial n data hd (shifts.map fun j : Int => (j : ℝ)) single
  rw [h1]
  congr 1
  refine List.ext_getElem (by simp [h2, hl]) fun i hi1 hi2 => ?_
  rw [List.getElem_zipWith]
  have hid : i < data.length := by omega
  have key := h3 i data[i] out[i] (shifts[i]'(by omega)) (List.getElem?_eq_getElem hid)
    (by rw [List.getElem?_map, List.getElem?_eq_getElem (by omega)]; rfl) (List.getElem?_eq_getElem hi1)
  have hlen := (key 0 (by omega)).1
  refine List.ext_getElem (by rw [hlen]; simp) fun k hk1 hk2 => ?_
  rw [hlen] at hk1
  rw [List.getElem_map, List.getElem_range]
  obtain ⟨-, g1, g2⟩ := key k hk1
  rw [List.getElem?_eq_getElem (by omega), Option.some.injEq] at g1
  simp only [List.getElem?_eq_getElem (show k < out[i].length by omega), Option.some.injEq] at g2
  set j := shifts[i]'(by omega)
  by_cases hin : 0 ≤ (k : Int) - j ∧ (k : Int) - j < n
  · rw [if_pos hin]
    obtain ⟨p, hp⟩ : ∃ p : Nat, (k : Int) - j = p := ⟨((k : Int) - j).toNat, by omega⟩
    have hpr : (k : ℝ) - j = p := by exact_mod_cast hp
    rw [hp, Int.toNat_natCast]
    by_cases hlast : p + 1 < n
    · rw [g2 p hlast (by rw [hpr]) (by rw [hpr]; linarith), hpr]
      ring
    · obtain ⟨q, rfl⟩ : ∃ q, p = q + 1 := ⟨p - 1, by omega⟩
      rw [g2 q (by omega) (by rw [hpr]; push_cast; linarith) (by rw [hpr]; push_cast; linarith), hpr]
      push_cast
      ring
  · rw [if_neg hin]
    refine g1 ?_
    rcases (by omega : (k : Int) - j < 0 ∨ (n : Int) ≤ (k : Int) - j) with h | h
    · left
      exact_mod_cast h
    · right
      have : (n : ℝ) ≤ (k : ℝ) - j := by exact_mod_cast h
      linarith

/-- **C132** (violated): with fewer shifts than traces the other traces become zero, without an error -/
theorem c132_fewer_violated (n : Nat) (row : List ℝ) (single : Bool) : timeShiftApply n [row] (.one []) single = .ok [List.replicate n 0] := by
  simp [timeShiftApply]

/-- **C132** (violated): the shifts that `time_shift_estimate` measures (see C131) are not those that `time_shift_apply` removes: it delays a trace that
is later than the reference by the same shift again. -/
theorem c132_estimate_violated (n : Nat) (hn : 2 ≤ n) (ref : List ℝ) (j : Int) (single : Bool) :
    timeShiftApply n [(List.range n).map fun k : Nat => atLag 0 ref ((k : Int) - j)] (.one [(j : ℝ)]) single =
      .ok [(List.range n).map fun k : Nat => if 0 ≤ (k : Int) - j ∧ (k : Int) - j < n then atLag 0 ref ((k : Int) - 2 * j) else 0] := by
  have := c132_whole_partial n hn [(List.range n).map fun k : Nat => atLag 0 ref ((k : Int) - j)] (by simp) [j] rfl single
  rw [List.map_cons, List.map_nil] at this
  rw [this]
  congr 1
  simp only [List.zipWith_cons_cons, List.zipWith_nil_left, List.cons.injEq, and_true]
  refine List.map_congr_left fun k _ => ?_
  by_cases h : 0 ≤ (k : Int) - j ∧ (k : Int) - j < n
  · rw [if_pos h, if_pos h, List.getD_eq_getElem _ _ (by simp; omega), List.getElem_map, List.getElem_range]
    congr 1
    omega
  · rw [if_neg h, if_neg h]

/-- two traces, shifted in opposite directions -/
example : timeShiftApply 3 [[1, 2, 3], [4, 5, 6]] (.one [((1 : Int) : ℝ), ((-1 : Int) : ℝ)]) false = .ok [[0, 1, 2], [5, 6, 0]] := by
  have := c132_whole_partial 3 (by norm_num) [[1, 2, 3], [4, 5, 6]] (by simp) [1, -1] rfl false
  rw [List.map_cons, List.map_cons, List.map_nil] at this
  rw [this]
  simp [List.range_succ]

end SeisMIC
