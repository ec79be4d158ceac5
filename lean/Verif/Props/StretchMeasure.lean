import Verif.Model.StretchMeasure
import Verif.Props.Heap
import Verif.Props.Measure
import Verif.Props.MultiRef

/-!
# C116, C117: measuring and correcting stretches
-/

namespace SeisMIC

/-! ### Specification -/

/-- the lags from `lo` to `hi` (in samples) that belong to the time window `w` on the requested side or sides -/
noncomputable def lagSet (sides : Str) (lo hi : Int) (w : List Int) : Finset Int :=
  (Finset.Icc lo hi).filter fun l => if sides = c!"both" then |l| ∈ w else if sides = c!"left" then -l ∈ w else l ∈ w

/-- normalised correlation coefficient of two traces, given as functions of the lag, on a set of lags; undefined if one of them
vanishes there -/
noncomputable def coeffAt (L : Finset Int) (f r : Int → ℝ) : Option ℝ :=
  if ∑ l ∈ L, f l ^ 2 = 0 ∨ ∑ l ∈ L, r l ^ 2 = 0 then none
  else some ((∑ l ∈ L, f l * r l) / Real.sqrt ((∑ l ∈ L, f l ^ 2) * ∑ l ∈ L, r l ^ 2))

/-- the reference, whose samples have lags from `lo` to `hi`, stretched by `v`, at lag `l`: its value at lag `l * exp (-v)`, and zero
if it does not reach that far -/
noncomputable def stretchedAt (spline : List ℝ → List ℝ → ℝ → ℝ) (lo hi : Int) (ref : List ℝ) (v : ℝ) (l : Int) : ℝ :=
  if (lo : ℝ) ≤ l * Real.exp (-v) ∧ l * Real.exp (-v) ≤ hi then
    spline ((intsFrom lo (hi + 1)).map fun k : Int => (k : ℝ)) ref (l * Real.exp (-v))
  else 0

/-- the tested stretches: `steps` values from `-range` to `range` -/
noncomputable abbrev testedStretches (range : ℝ) (steps : Nat) : List ℝ := testedShifts range steps

/-- the spline through the samples of a function of the class `P` is this function, between the first and the last sample. A cubic
spline does so for cubic polynomials. -/
def Reproduces (spline : List ℝ → List ℝ → ℝ → ℝ) (P : (ℝ → ℝ) → Prop) : Prop :=
  ∀ (times : List ℝ) (f : ℝ → ℝ) (x : ℝ), 4 ≤ times.length → times.Pairwise (· < ·) → P f → times.headD 0 ≤ x → x ≤ times.getLastD 0 →
    spline times (times.map f) x = f x

/-! ### Lemmas -/

theorem linspaceR_tested (range : ℝ) (steps : Nat) : linspaceR (-range) range steps = testedStretches range steps := by
  unfold linspaceR testedStretches testedShifts
  refine List.map_congr_left fun k _ => ?_
  rw [show range - -range = 2 * range by ring]

theorem intsFrom_head (lo hi : Int) (h : lo ≤ hi) : ((intsFrom lo (hi + 1)).map fun k : Int => (k : ℝ)).headD 0 = lo := by
  rw [headD_eq_getElem _ _ (by rw [List.length_map, length_intsFrom]; omega), List.getElem_map, getElem_intsFrom]
  simp

theorem getLastD_eq_getElem {α : Type*} (l : List α) (d : α) (h : 0 < l.length) : l.getLastD d = l[l.length - 1] := by
  rw [List.getLastD_eq_getLast?, List.getLast?_eq_getElem?, List.getElem?_eq_getElem (by omega)]
  rfl

theorem intsFrom_last (lo hi : Int) (h : lo ≤ hi) : ((intsFrom lo (hi + 1)).map fun k : Int => (k : ℝ)).getLastD 0 = hi := by
  rw [getLastD_eq_getElem _ _ (by rw [List.length_map, length_intsFrom]; omega), List.getElem_map, getElem_intsFrom]
  simp only [List.length_map, length_intsFrom]
  have : lo + (((hi + 1 - lo).toNat - 1 : Nat) : Int) = hi := by omega
  rw [this]

theorem splineZeros_ints (spline : List ℝ → List ℝ → ℝ → ℝ) (lo hi : Int) (h : lo ≤ hi) (ref : List ℝ) (v : ℝ) (l : Int) :
    splineZeros spline ((intsFrom lo (hi + 1)).map fun k : Int => (k : ℝ)) ref (l * Real.exp (-v)) = stretchedAt spline lo hi ref v l := by
  unfold splineZeros stretchedAt
  rw [intsFrom_head lo hi h, intsFrom_last lo hi h]

theorem timeIdx_two (sides : Str) (hs : sides ≠ c!"single") (E : Int) (hE : 0 ≤ E) (n : Nat) (hn : n = (E + 1 - -E).toNat) :
    timeIdx sides n = (intsFrom (-E) (E + 1)).map fun k : Int => (k : ℝ) := by
  unfold timeIdx intsFrom
  rw [List.map_map, ← hn]
  refine List.map_congr_left fun i _ => ?_
  have : (n : ℝ) = 2 * (E : ℝ) + 1 := by
    have : (n : Int) = 2 * E + 1 := by omega
    exact_mod_cast congrArg (fun z : Int => (z : ℝ)) this
  simp only [Function.comp, if_neg hs]
  rw [this]
  push_cast
  ring

theorem timeIdx_single (E : Int) (n : Nat) (hn : n = (E + 1 - 0).toNat) :
    timeIdx c!"single" n = (intsFrom 0 (E + 1)).map fun k : Int => (k : ℝ) := by
  unfold timeIdx intsFrom
  rw [List.map_map, ← hn]
  refine List.map_congr_left fun i _ => ?_
  simp

theorem sum_lagSet_two (sides : Str) (hs : sides = c!"both" ∨ sides = c!"left" ∨ sides = c!"right") (m : Int) (hm : 0 ≤ m) (w : List Int) (g : Int → ℝ)
    (n : Nat) (hn : n = (m + 1 - -m).toNat) :
    ∑ i ∈ Spec.lagWindow sides n w, g (-m + i) = ∑ l ∈ lagSet sides (-m) m w, g l := by
  have hc : ((n : Int) - 1) / 2 = m := by omega
  refine Finset.sum_nbij' (fun i : Nat => -m + (i : Int)) (fun l => (l + m).toNat) ?_ ?_ ?_ ?_ ?_
  · intro i hi
    unfold Spec.lagWindow at hi
    simp only [hc] at hi
    rw [Finset.mem_filter, Finset.mem_range] at hi
    unfold lagSet
    rw [Finset.mem_filter, Finset.mem_Icc]
    refine ⟨by omega, ?_⟩
    rcases hs with rfl | rfl | rfl
    · have := hi.2
      rw [if_pos rfl] at this ⊢
      rwa [show -m + (i : Int) = (i : Int) - m by ring]
    · have := hi.2
      rw [if_neg (by decide), if_pos rfl] at this ⊢
      rwa [show -(-m + (i : Int)) = m - (i : Int) by ring]
    · have := hi.2
      rw [if_neg (by decide), if_neg (by decide), if_pos rfl] at this
      rw [if_neg (by decide), if_neg (by decide)]
      rwa [show -m + (i : Int) = (i : Int) - m by ring]
  · intro l hl
    unfold lagSet at hl
    rw [Finset.mem_filter, Finset.mem_Icc] at hl
    unfold Spec.lagWindow
    simp only [hc]
    rw [Finset.mem_filter, Finset.mem_range]
    have ht : (((l + m).toNat : Nat) : Int) = l + m := by omega
    refine ⟨by omega, ?_⟩
    rw [ht]
    rcases hs with rfl | rfl | rfl
    · have := hl.2
      rw [if_pos rfl] at this ⊢
      rwa [show l + m - m = l by ring]
    · have := hl.2
      rw [if_neg (by decide), if_pos rfl] at this ⊢
      rwa [show m - (l + m) = -l by ring]
    · have := hl.2
      rw [if_neg (by decide), if_neg (by decide)] at this
      rw [if_neg (by decide), if_neg (by decide), if_pos rfl]
      rwa [show l + m - m = l by ring]
  · intro i _
    simp
  · intro l hl
    unfold lagSet at hl
    rw [Finset.mem_filter, Finset.mem_Icc] at hl
    omega
  · intro i _
    rfl

theorem sum_lagSet_single (m : Int) (w : List Int) (g : Int → ℝ) (n : Nat) (hn : n = (m + 1 - 0).toNat) :
    ∑ i ∈ Spec.lagWindow c!"single" n w, g (0 + i) = ∑ l ∈ lagSet c!"single" 0 m w, g l := by
  refine Finset.sum_nbij' (fun i : Nat => 0 + (i : Int)) (fun l => l.toNat) ?_ ?_ ?_ ?_ ?_
  · intro i hi
    unfold Spec.lagWindow at hi
    rw [Finset.mem_filter, Finset.mem_range, if_neg (by decide), if_neg (by decide), if_neg (by decide)] at hi
    unfold lagSet
    rw [Finset.mem_filter, Finset.mem_Icc, if_neg (by decide), if_neg (by decide), zero_add]
    exact ⟨by omega, hi.2⟩
  · intro l hl
    unfold lagSet at hl
    rw [Finset.mem_filter, Finset.mem_Icc, if_neg (by decide), if_neg (by decide)] at hl
    unfold Spec.lagWindow
    rw [Finset.mem_filter, Finset.mem_range, if_neg (by decide), if_neg (by decide), if_neg (by decide)]
    exact ⟨by omega, by rw [show ((l.toNat : Nat) : Int) = l by omega]; exact hl.2⟩
  · intro i _
    simp
  · intro l hl
    unfold lagSet at hl
    rw [Finset.mem_filter, Finset.mem_Icc] at hl
    omega
  · intro i _
    rfl

/-- coefficients of samples and of lags -/
theorem coeff_lags (W : Finset Nat) (L : Finset Int) (lo hi : Int) (hW : ∀ i ∈ W, (i : Int) < hi + 1 - lo)
    (hsum : ∀ g : Int → ℝ, ∑ i ∈ W, g (lo + i) = ∑ l ∈ L, g l) (F R : Int → ℝ) :
    Spec.coeff W ((intsFrom lo (hi + 1)).map F) ((intsFrom lo (hi + 1)).map R) = coeffAt L F R := by
  have hg : ∀ G : Int → ℝ, ∀ i ∈ W, ((intsFrom lo (hi + 1)).map G).getD i 0 = G (lo + i) := by
    intro G i hi'
    have := hW i hi'
    rw [List.getD_eq_getElem _ _ (by rw [List.length_map, length_intsFrom]; omega), List.getElem_map, getElem_intsFrom]
  have e : ∀ G : Int → ℝ, Spec.energyOn W ((intsFrom lo (hi + 1)).map G) = ∑ l ∈ L, G l ^ 2 := by
    intro G
    unfold Spec.energyOn
    rw [← hsum]
    exact Finset.sum_congr rfl fun i hi' => by rw [hg G i hi']
  have e2 : ∑ i ∈ W, ((intsFrom lo (hi + 1)).map F).getD i 0 * ((intsFrom lo (hi + 1)).map R).getD i 0 = ∑ l ∈ L, F l * R l := by
    rw [← hsum fun l => F l * R l]
    exact Finset.sum_congr rfl fun i hi' => by rw [hg F i hi', hg R i hi']
  unfold Spec.coeff coeffAt
  rw [e, e, e2]

/-- a single window -/
theorem velocityChange_window (n : Nat) (mat : List (List ℝ)) (w : List Int) (refs : List (List ℝ)) (tested : List ℝ) (sides : Str)
    (mask : List Bool) (hmask : windowMask sides n w = .ok mask) (hmat : ∀ row ∈ mat, row.length = n) (href : ∀ r ∈ refs, r.length = n)
    (hl : tested.length = refs.length) (hne : refs ≠ []) :
    ∃ res, velocityChange n n (mat.map fun row => row.map some) [w] refs tested sides true = .ok [res] ∧ res.length = mat.length ∧
      ∀ (b : Nat) (row : List ℝ), mat[b]? = some row → ∃ corr value, res[b]? = some (corr, value) ∧
        Spec.IsBest tested (refs.map fun r => Spec.coeff (maskSet mask) row r) corr value := by
  obtain ⟨idx, hidx, hm⟩ : ∃ idx, windowIdx sides n w = .ok idx ∧ maskOf n idx = .ok mask := by
    unfold windowMask at hmask
    cases h : windowIdx sides n w with
    | error e => rw [h] at hmask; cases hmask
    | ok idx => rw [h] at hmask; exact ⟨idx, rfl, hmask⟩
  have hex : ∃ res, (mat.map fun row => row.map some).mapM (fun row => bestMatch tested (simRow true mask refs row)) = .ok res := by
    refine mapM_ok_of_forall _ _ fun row _ => bestMatch_ok _ _ ?_ ?_
    · unfold simRow
      simpa using hne
    · unfold simRow
      simp [hl]
  obtain ⟨res, hres⟩ := hex
  have hvc : velocityChange n n (mat.map fun row => row.map some) [w] refs tested sides true = .ok [res] := by
    unfold velocityChange
    rw [if_neg (by simp)]
    simp only [List.mapM_cons, List.mapM_nil, hidx, bind, Except.bind, hm]
    rw [if_neg (by simp [hl])]
    simp only [pure, Except.pure]
    rw [hres]
  have hlen : res.length = mat.length := by
    have := (mapM_getElem _ _ _ hres).1
    simpa using this
  refine ⟨res, hvc, hlen, fun b row hb => ?_⟩
  obtain ⟨mask', res', corr, value, h1, h2, h3, h4, -⟩ := c47_best n n _ _ refs tested sides true _ (by
    intro r hr
    obtain ⟨r', hr', rfl⟩ := List.mem_map.1 hr
    rw [List.length_map]
    exact hmat r' hr') href hvc 0 b w (row.map some) rfl (by rw [List.getElem?_map, hb]; rfl) (.inl rfl)
  rw [hmask] at h1
  obtain rfl := Except.ok.inj h1
  simp only [List.getElem?_cons_zero, Option.some.injEq] at h2
  subst h2
  have : (row.map some).map (fun x => x.getD 0) = row := by simp
  rw [this] at h4
  exact ⟨corr, value, h3, h4⟩

theorem length_rowAt (a lo hi : Int) (row : List ℝ) : (rowAt a lo hi row).length = (hi + 1 - lo).toNat := by
  unfold rowAt
  rw [List.length_map, length_intsFrom]

theorem stretchedRefs_lags (spline : List ℝ → List ℝ → ℝ → ℝ) (lo hi : Int) (h : lo ≤ hi) (ref : List ℝ) (sides : Str) (stretches : List ℝ)
    (ht : timeIdx sides ref.length = (intsFrom lo (hi + 1)).map fun k : Int => (k : ℝ)) :
    stretchedRefs spline ref sides stretches = stretches.map fun v => (intsFrom lo (hi + 1)).map (stretchedAt spline lo hi ref v) := by
  unfold stretchedRefs
  rw [ht]
  refine List.map_congr_left fun v _ => ?_
  rw [List.map_map]
  exact List.map_congr_left fun l _ => splineZeros_ints spline lo hi h ref v l

theorem rowAt_map (lo hi lo' hi' : Int) (h1 : lo ≤ lo') (h2 : hi' ≤ hi) (F : Int → ℝ) :
    rowAt lo lo' hi' ((intsFrom lo (hi + 1)).map F) = (intsFrom lo' (hi' + 1)).map F := by
  unfold rowAt
  refine List.map_congr_left fun l hl => ?_
  have := (mem_intsFrom _ _ _).1 hl
  unfold atLag
  rw [List.getD_eq_getElem _ _ (by rw [List.length_map, length_intsFrom]; omega), List.getElem_map, getElem_intsFrom]
  congr 1
  omega

/-- the lags that remain of the traces: the first and the last one -/
def KeptLags (sides : Str) (a b lo hi : Int) : Prop :=
  ((sides = c!"both" ∨ sides = c!"left" ∨ sides = c!"right") ∧ lo = -min a b ∧ hi = min a b) ∨ (sides = c!"single" ∧ lo = 0 ∧ hi = b)

/-- the comparison, if the stretched references after trimming are `G v` -/
theorem stretch_core (spline : List ℝ → List ℝ → ℝ → ℝ) (sr : Rat) (hsr : 0 < sr) (a b : Int) (ha : 0 ≤ a) (hb : 0 ≤ b) (sides : Str) (lo hi : Int)
    (hk : KeptLags sides a b lo hi) (data : List (List ℝ)) (hd : ∀ row ∈ data, row.length = (b + 1 - -a).toNat) (hne : data ≠ []) (ref : List ℝ)
    (w : List Int) (hw : w ≠ []) (hwm : ∀ k ∈ w, 0 ≤ k ∧ k ≤ hi) (range : ℝ) (steps : Nat) (hst : 0 < steps) (refStats : Option LagStats) (G : ℝ → Int → ℝ)
    (hrefs : (corrMatTrim (stretchedRefs spline ref sides (testedStretches range steps)) (refStats.getD (lagsFromTo lo hi sr)) ((lo : Rat) / sr)
      ((hi : Rat) / sr)).1 = (testedStretches range steps).map fun v => (intsFrom lo (hi + 1)).map (G v)) :
    ∃ res, corrMatStretch spline data (lagsFromTo (-a) b sr) (some ref) (some [w]) range steps sides refStats = .ok [res] ∧
      res.length = data.length ∧ ∀ (i : Nat) (row : List ℝ), data[i]? = some row → ∃ corr value, res[i]? = some (corr, value) ∧
        Spec.IsBest (testedStretches range steps)
          ((testedStretches range steps).map fun v => coeffAt (lagSet sides lo hi w) (atLag (-a) row) (G v)) corr value := by
  have hlohi : lo ≤ hi := by rcases hk with ⟨_, rfl, rfl⟩ | ⟨_, rfl, rfl⟩ <;> omega
  have htrim : stretchTrim data (lagsFromTo (-a) b sr) sides = (data.map (rowAt (-a) lo hi), lagsFromTo lo hi sr) ∧
      (if sides = c!"single" then ((0 : Rat), (lagsFromTo (-a) b sr).endLag) else
        (-(min (-(lagsFromTo (-a) b sr).startLag) (lagsFromTo (-a) b sr).endLag), min (-(lagsFromTo (-a) b sr).startLag) (lagsFromTo (-a) b sr).endLag)) =
      ((lo : Rat) / sr, (hi : Rat) / sr) := by
    rcases hk with ⟨hs, rfl, rfl⟩ | ⟨rfl, rfl, rfl⟩
    · have hss : sides ≠ c!"single" := by rcases hs with rfl | rfl | rfl <;> decide
      have := stretchTrim_both (-a) b sr hsr data hd hne (by omega) hb sides hss
      rw [neg_neg] at this
      refine ⟨this, ?_⟩
      rw [if_neg hss, min_lags (-a) b sr hsr (by omega), neg_neg]
      push_cast
      rw [neg_div]
    · refine ⟨stretchTrim_single (-a) hi sr hsr data hd hne (by omega) hb, ?_⟩
      rw [if_pos rfl, endLag_lags (-a) hi sr hsr (by omega)]
      simp
  have htl : (testedStretches range steps).length = steps := testedShifts_length _ _
  have htne : testedStretches range steps ≠ [] := by
    intro h
    rw [h] at htl
    simp at htl
    omega
  have hn : (lagsFromTo lo hi sr).npts = (hi + 1 - lo).toNat := rfl
  set refs := (testedStretches range steps).map fun v => (intsFrom lo (hi + 1)).map (G v) with hrefs2
  set n := (hi + 1 - lo).toNat with hndef
  have hne2 : refs ≠ [] := by rw [hrefs2]; simpa using htne
  have hrl2 : ∀ r ∈ refs, r.length = n := by
    intro r hr
    rw [hrefs2] at hr
    obtain ⟨v, _, rfl⟩ := List.mem_map.1 hr
    rw [List.length_map, length_intsFrom]
  have hhead : (refs.headD []).length = n := by
    rw [headD_eq_getElem _ _ (List.length_pos_iff.2 hne2)]
    exact hrl2 _ (List.getElem_mem _)
  obtain ⟨mask, hmask, hset⟩ := c48_window_partial sides n w hw
    (by rcases hk with ⟨rfl | rfl | rfl, _⟩ | ⟨rfl, _⟩ <;> simp) (by
    intro k hk'
    have := hwm k hk'
    refine ⟨this.1, ?_⟩
    rcases hk with ⟨hs, rfl, rfl⟩ | ⟨rfl, rfl, rfl⟩
    · rw [if_neg (by rcases hs with rfl | rfl | rfl <;> decide)]
      omega
    · rw [if_pos rfl]
      omega)
  obtain ⟨res, h1, h2, h3⟩ := velocityChange_window n (data.map (rowAt (-a) lo hi)) w refs (testedStretches range steps) sides mask hmask
    (by
      intro r hr
      obtain ⟨r', _, rfl⟩ := List.mem_map.1 hr
      exact length_rowAt _ _ _ _) hrl2 (by rw [hrefs2]; simp) hne2
  refine ⟨res, ?_, by simpa using h2, fun i row hi => ?_⟩
  · unfold corrMatStretch timeStretch usedWindows
    simp only [bind, Except.bind]
    rw [htrim.2, htrim.1, linspaceR_tested]
    simp only
    rw [hrefs]
    simp only [hn, hhead]
    exact h1
  · obtain ⟨corr, value, g1, g2⟩ := h3 i (rowAt (-a) lo _ row) (by rw [List.getElem?_map, hi]; rfl)
    refine ⟨corr, value, g1, ?_⟩
    rw [hrefs2, List.map_map] at g2
    refine cast (congrArg (fun l => Spec.IsBest _ l corr value) (List.map_congr_left fun v _ => ?_)) g2
    simp only [Function.comp]
    rw [hset]
    refine coeff_lags _ _ lo _ ?_ ?_ _ _
    · intro j hj
      unfold Spec.lagWindow at hj
      have := Finset.mem_range.1 (Finset.mem_filter.1 hj).1
      omega
    · intro g
      rcases hk with ⟨hs, rfl, rfl⟩ | ⟨rfl, rfl, rfl⟩
      · exact sum_lagSet_two sides hs _ (by omega) w g n rfl
      · exact sum_lagSet_single _ w g n rfl

/-- trimming of stretched references with a matching header -/
theorem trim_refs (spline : List ℝ → List ℝ → ℝ → ℝ) (sr : Rat) (hsr : 0 < sr) (L H lo hi o : Int) (ref : List ℝ)
    (sides : Str) (hL : timeIdx sides ref.length = (intsFrom (L - o) (H - o + 1)).map fun k : Int => (k : ℝ)) (h1 : L ≤ lo) (h2 : lo ≤ hi) (h3 : hi ≤ H)
    (tested : List ℝ) (hne : tested ≠ []) :
    (corrMatTrim (stretchedRefs spline ref sides tested) (lagsFromTo L H sr) ((lo : Rat) / sr) ((hi : Rat) / sr)).1 =
      tested.map fun v => (intsFrom lo (hi + 1)).map fun l => stretchedAt spline (L - o) (H - o) ref v (l - o) := by
  have hs := stretchedRefs_lags spline (L - o) (H - o) (by omega) ref sides tested hL
  have hs' : stretchedRefs spline ref sides tested = tested.map fun v => (intsFrom L (H + 1)).map fun l => stretchedAt spline (L - o) (H - o) ref v (l - o) := by
    rw [hs]
    refine List.map_congr_left fun v _ => ?_
    unfold intsFrom
    rw [List.map_map, List.map_map, show H - o + 1 - (L - o) = H + 1 - L by ring]
    refine List.map_congr_left fun k _ => ?_
    simp only [Function.comp]
    rw [show L - o + (k : Int) = L + (k : Int) - o by ring]
  rw [hs', trim_lags L H lo hi sr hsr _ (by
    intro r hr
    obtain ⟨v, _, rfl⟩ := List.mem_map.1 hr
    rw [List.length_map, length_intsFrom]) (by simpa using hne) h1 h2 h3]
  simp only [List.map_map]
  exact List.map_congr_left fun v _ => rowAt_map L H lo hi h1 h3 _

/-- trimming of stretched references with the header of the trimmed data: the first samples -/
theorem trim_refs_none (spline : List ℝ → List ℝ → ℝ → ℝ) (sr : Rat) (hsr : 0 < sr) (L H lo hi o : Int) (ref : List ℝ)
    (sides : Str) (hL : timeIdx sides ref.length = (intsFrom (L - o) (H - o + 1)).map fun k : Int => (k : ℝ)) (h2 : lo ≤ hi) (h3 : hi - lo ≤ H - L)
    (tested : List ℝ) :
    (corrMatTrim (stretchedRefs spline ref sides tested) (lagsFromTo lo hi sr) ((lo : Rat) / sr) ((hi : Rat) / sr)).1 =
      tested.map fun v => (intsFrom lo (hi + 1)).map fun l => stretchedAt spline (L - o) (H - o) ref v (l - lo + L - o) := by
  have hs := stretchedRefs_lags spline (L - o) (H - o) (by omega) ref sides tested hL
  rw [hs]
  have e1 : (((lo : Rat) / sr - (lagsFromTo lo hi sr).startLag) * (lagsFromTo lo hi sr).sr).floor = 0 := by
    simp [lagsFromTo]
    rfl
  have e2 : (((hi : Rat) / sr - (lagsFromTo lo hi sr).startLag) * (lagsFromTo lo hi sr).sr).floor = hi - lo := by
    have : ((hi : Rat) / sr - (lagsFromTo lo hi sr).startLag) * (lagsFromTo lo hi sr).sr = ((hi - lo : Int) : Rat) := by
      unfold lagsFromTo
      simp only
      push_cast
      rw [← sub_div, div_mul_cancel₀ _ hsr.ne']
    rw [this]
    exact Rat.floor_intCast _
  unfold corrMatTrim
  simp only [e1, e2]
  rw [if_neg (by omega), if_neg (by simp only [lagsFromTo]; omega)]
  simp only [List.map_map]
  refine List.map_congr_left fun v _ => ?_
  simp only [Function.comp]
  unfold pySlice sliceBound
  refine List.ext_getElem ?_ ?_
  · simp only [List.length_take, List.length_drop, List.length_map, length_intsFrom]
    split <;> split <;> omega
  · intro k hk1 hk2
    simp only [List.getElem_take, List.getElem_drop, List.getElem_map, getElem_intsFrom]
    congr 1
    simp
    ring

theorem tested_ne (range : ℝ) (steps : Nat) (hst : 0 < steps) : testedStretches range steps ≠ [] := by
  intro h
  have : (testedStretches range steps).length = steps := testedShifts_length _ _
  rw [h] at this
  simp at this
  omega

theorem coeffAt_congr (L : Finset Int) (f r r' : Int → ℝ) (h : ∀ l ∈ L, r l = r' l) : coeffAt L f r = coeffAt L f r' := by
  have h1 : ∑ l ∈ L, r l ^ 2 = ∑ l ∈ L, r' l ^ 2 := Finset.sum_congr rfl fun l hl => by rw [h l hl]
  have h2 : ∑ l ∈ L, f l * r l = ∑ l ∈ L, f l * r' l := Finset.sum_congr rfl fun l hl => by rw [h l hl]
  unfold coeffAt
  rw [h1, h2]

theorem coeffAt_le (L : Finset Int) (f r : Int → ℝ) (c : ℝ) (h : coeffAt L f r = some c) : c ≤ 1 := by
  unfold coeffAt at h
  split at h
  · cases h
  · rename_i hn
    rw [not_or] at hn
    rw [← Option.some.inj h]
    have hf := lt_of_le_of_ne (Finset.sum_nonneg fun l _ => sq_nonneg (f l)) (Ne.symm hn.1)
    have hr := lt_of_le_of_ne (Finset.sum_nonneg fun l _ => sq_nonneg (r l)) (Ne.symm hn.2)
    rw [div_le_one (Real.sqrt_pos.2 (mul_pos hf hr))]
    exact Real.le_sqrt_of_sq_le (Finset.sum_mul_sq_le_sq_mul_sq L f r)

/-- the coefficient is one exactly for positive multiples -/
theorem coeffAt_one (L : Finset Int) (f r : Int → ℝ) (hf : ∃ l ∈ L, f l ≠ 0) (hr : ∃ l ∈ L, r l ≠ 0) :
    (∃ c, coeffAt L f r = some c) ∧ (coeffAt L f r = some 1 ↔ ∃ c > 0, ∀ l ∈ L, f l = c * r l) := by
  have pos : ∀ g : Int → ℝ, (∃ l ∈ L, g l ≠ 0) → 0 < ∑ l ∈ L, g l ^ 2 := by
    rintro g ⟨l, hl, hg⟩
    exact lt_of_lt_of_le (by positivity : 0 < g l ^ 2) (Finset.single_le_sum (fun i _ => sq_nonneg (g i)) hl)
  have pf := pos f hf
  have pr := pos r hr
  have he : coeffAt L f r = some ((∑ l ∈ L, f l * r l) / Real.sqrt ((∑ l ∈ L, f l ^ 2) * ∑ l ∈ L, r l ^ 2)) := by
    unfold coeffAt
    rw [if_neg (by rw [not_or]; exact ⟨pf.ne', pr.ne'⟩)]
  refine ⟨⟨_, he⟩, ?_⟩
  rw [he, Option.some.injEq, div_eq_one_iff_eq (Real.sqrt_pos.2 (mul_pos pf pr)).ne']
  constructor
  · intro h
    have hpos : 0 < ∑ l ∈ L, f l * r l := by rw [h]; exact Real.sqrt_pos.2 (mul_pos pf pr)
    have hsq : (∑ l ∈ L, f l * r l) ^ 2 = (∑ l ∈ L, f l ^ 2) * ∑ l ∈ L, r l ^ 2 := by
      rw [h, Real.sq_sqrt (mul_pos pf pr).le]
    refine ⟨(∑ l ∈ L, f l * r l) / ∑ l ∈ L, r l ^ 2, div_pos hpos pr, ?_⟩
    set c := (∑ l ∈ L, f l * r l) / ∑ l ∈ L, r l ^ 2 with hc
    have hz : ∑ l ∈ L, (f l - c * r l) ^ 2 = 0 := by
      have e : ∑ l ∈ L, (f l - c * r l) ^ 2 = ∑ l ∈ L, f l ^ 2 - 2 * c * ∑ l ∈ L, f l * r l + c ^ 2 * ∑ l ∈ L, r l ^ 2 := by
        rw [Finset.mul_sum, Finset.mul_sum, ← Finset.sum_sub_distrib, ← Finset.sum_add_distrib]
        exact Finset.sum_congr rfl fun l _ => by ring
      have e2 : c * ∑ l ∈ L, r l ^ 2 = ∑ l ∈ L, f l * r l := by rw [hc, div_mul_cancel₀ _ pr.ne']
      have e3 : c * ∑ l ∈ L, f l * r l = ∑ l ∈ L, f l ^ 2 := by
        rw [hc, div_mul_eq_mul_div, ← sq, hsq, mul_div_cancel_right₀ _ pr.ne']
      rw [e]
      have : c ^ 2 * ∑ l ∈ L, r l ^ 2 = c * (c * ∑ l ∈ L, r l ^ 2) := by ring
      rw [this, e2, e3, mul_assoc, e3]
      ring
    intro l hl
    have := (Finset.sum_eq_zero_iff_of_nonneg fun i _ => sq_nonneg (f i - c * r i)).1 hz l hl
    have := pow_eq_zero_iff (two_ne_zero) |>.1 this
    linarith
  · rintro ⟨c, hc, h⟩
    have e1 : ∑ l ∈ L, f l * r l = c * ∑ l ∈ L, r l ^ 2 := by
      rw [Finset.mul_sum]
      exact Finset.sum_congr rfl fun l hl => by rw [h l hl]; ring
    have e2 : ∑ l ∈ L, f l ^ 2 = c ^ 2 * ∑ l ∈ L, r l ^ 2 := by
      rw [Finset.mul_sum]
      exact Finset.sum_congr rfl fun l hl => by rw [h l hl]; ring
    rw [e1, e2, show c ^ 2 * (∑ l ∈ L, r l ^ 2) * ∑ l ∈ L, r l ^ 2 = (c * ∑ l ∈ L, r l ^ 2) ^ 2 by ring, Real.sqrt_sq (mul_pos hc pr).le]

/-- the best match if there is exactly one tested value with coefficient one -/
theorem isBest_one (tested : List ℝ) (sims : ℝ → Option ℝ) (v : ℝ) (hv : v ∈ tested) (h1 : sims v = some 1)
    (hle : ∀ u ∈ tested, ∃ c, sims u = some c ∧ c ≤ 1) (corr value : Option ℝ) (hb : Spec.IsBest tested (tested.map sims) corr value) :
    corr = some 1 ∧ ∃ u ∈ tested, value = some u ∧ sims u = some 1 := by
  have hn : none ∉ tested.map sims := by
    intro h
    obtain ⟨u, hu, he⟩ := List.mem_map.1 h
    obtain ⟨c, hc, _⟩ := hle u hu
    rw [hc] at he
    cases he
  obtain ⟨k, c, u, hk, hku, rfl, rfl, hmax, -⟩ := hb.2 hn
  have hum : u ∈ tested := List.mem_of_getElem? hku
  rw [List.getElem?_map, hku, Option.map_some, Option.some.injEq] at hk
  obtain ⟨j, hj⟩ := List.getElem?_of_mem hv
  have g1 := hmax j 1 (by rw [List.getElem?_map, hj, Option.map_some, h1])
  obtain ⟨c', hc', hle'⟩ := hle u hum
  rw [hk, Option.some.injEq] at hc'
  have : c = 1 := le_antisymm (hc' ▸ hle') g1
  subst this
  exact ⟨rfl, u, hum, rfl, hk⟩

theorem pairwise_ints (lo hi : Int) : ((intsFrom lo hi).map fun k : Int => (k : ℝ)).Pairwise (· < ·) := by
  unfold intsFrom
  rw [List.map_map, List.pairwise_map]
  refine List.Pairwise.imp_of_mem ?_ List.pairwise_lt_range
  intro x y _ _ h
  simp only [Function.comp]
  push_cast
  have : (x : ℝ) < y := by exact_mod_cast h
  linarith

theorem stretchedAt_reproduces (spline : List ℝ → List ℝ → ℝ → ℝ) (P : (ℝ → ℝ) → Prop) (hsp : Reproduces spline P) (f : ℝ → ℝ) (hf : P f) (lo hi : Int)
    (h : lo + 3 ≤ hi) (v : ℝ) (l : Int) :
    stretchedAt spline lo hi ((intsFrom lo (hi + 1)).map fun k : Int => f k) v l =
      if (lo : ℝ) ≤ l * Real.exp (-v) ∧ l * Real.exp (-v) ≤ hi then f (l * Real.exp (-v)) else 0 := by
  unfold stretchedAt
  split
  · rename_i hr
    have := hsp ((intsFrom lo (hi + 1)).map fun k : Int => (k : ℝ)) f (l * Real.exp (-v)) (by rw [List.length_map, length_intsFrom]; omega)
      (pairwise_ints _ _) hf (by rw [intsFrom_head _ _ (by omega)]; exact hr.1) (by rw [intsFrom_last _ _ (by omega)]; exact hr.2)
    rw [List.map_map] at this
    exact this
  · rfl

/-! ### C116 -/

/-- **C116** (both sides, left or right side). The bulk has lags from `-a` to `b`, the reference lags from `-E` to `E`, at least up to the
smaller one of `a` and `b`. For each trace the result is the best match among the tested stretches: the correlation coefficients on the
lags of the time window of the trace with the reference stretched about zero lag, that is the reference at lag `l * exp (-v)` for
stretch `v`, zero where it does not reach. -/
theorem c116_best (spline : List ℝ → List ℝ → ℝ → ℝ) (sr : Rat) (hsr : 0 < sr) (a b E : Int) (ha : 0 ≤ a) (hb : 0 ≤ b) (hmE : min a b ≤ E)
    (data : List (List ℝ)) (hd : ∀ row ∈ data, row.length = (b + 1 - -a).toNat) (hne : data ≠ []) (ref : List ℝ) (href : ref.length = (E + 1 - -E).toNat)
    (w : List Int) (hw : w ≠ []) (hwm : ∀ k ∈ w, 0 ≤ k ∧ k ≤ min a b) (range : ℝ) (steps : Nat) (hst : 0 < steps) (sides : Str)
    (hs : sides = c!"both" ∨ sides = c!"left" ∨ sides = c!"right") :
    ∃ res, corrMatStretch spline data (lagsFromTo (-a) b sr) (some ref) (some [w]) range steps sides (some (lagsFromTo (-E) E sr)) = .ok [res] ∧
      res.length = data.length ∧ ∀ (i : Nat) (row : List ℝ), data[i]? = some row → ∃ corr value, res[i]? = some (corr, value) ∧
        Spec.IsBest (testedStretches range steps) ((testedStretches range steps).map fun v =>
          coeffAt (lagSet sides (-min a b) (min a b) w) (atLag (-a) row) (stretchedAt spline (-E) E ref v)) corr value :=
  stretch_core spline sr hsr a b ha hb sides _ _ (.inl ⟨hs, rfl, rfl⟩) data hd hne ref w hw hwm range steps hst _ _ (by
    have hss : sides ≠ c!"single" := by rcases hs with rfl | rfl | rfl <;> decide
    have := trim_refs spline sr hsr (-E) E (-min a b) (min a b) 0 ref sides (by simpa using timeIdx_two sides hss E (by omega) ref.length href)
      (by omega) (by omega) hmE (testedStretches range steps) (tested_ne range steps hst)
    simpa using this)

/-- **C116** (`single`). The same for positive lags only, if the reference has lags from zero to `E`.
Missing for the full property: `c116_single_violated`, `c116_single_value_violated`, `c116_no_header_violated` and others. -/
theorem c116_best_single_partial (spline : List ℝ → List ℝ → ℝ → ℝ) (sr : Rat) (hsr : 0 < sr) (a b E : Int) (ha : 0 ≤ a) (hb : 0 ≤ b) (hbE : b ≤ E)
    (data : List (List ℝ)) (hd : ∀ row ∈ data, row.length = (b + 1 - -a).toNat) (hne : data ≠ []) (ref : List ℝ) (href : ref.length = (E + 1 - 0).toNat)
    (w : List Int) (hw : w ≠ []) (hwm : ∀ k ∈ w, 0 ≤ k ∧ k ≤ b) (range : ℝ) (steps : Nat) (hst : 0 < steps) :
    ∃ res, corrMatStretch spline data (lagsFromTo (-a) b sr) (some ref) (some [w]) range steps c!"single" (some (lagsFromTo 0 E sr)) = .ok [res] ∧
      res.length = data.length ∧ ∀ (i : Nat) (row : List ℝ), data[i]? = some row → ∃ corr value, res[i]? = some (corr, value) ∧
        Spec.IsBest (testedStretches range steps) ((testedStretches range steps).map fun v =>
          coeffAt (lagSet c!"single" 0 b w) (atLag (-a) row) (stretchedAt spline 0 E ref v)) corr value :=
  stretch_core spline sr hsr a b ha hb c!"single" _ _ (.inr ⟨rfl, rfl, rfl⟩) data hd hne ref w hw hwm range steps hst _ _ (by
    have := trim_refs spline sr hsr 0 E 0 b 0 ref c!"single" (by simpa using timeIdx_single E ref.length href)
      (by omega) (by omega) hbE (testedStretches range steps) (tested_ne range steps hst)
    simpa using this)

/-- **C116** (the right stretch). The reference consists of samples of a function `f` that the spline reproduces, and a trace agrees on
the time window with a multiple of `f` at `l * exp (-v)`, for a tested stretch `v`, with all these lags inside the reference. No trace or
stretched reference vanishes on the window. Then the correlation is one; and if no other tested stretch gives a multiple of the trace,
the value is `v`. -/
theorem c116_found (spline : List ℝ → List ℝ → ℝ → ℝ) (P : (ℝ → ℝ) → Prop) (hsp : Reproduces spline P) (f : ℝ → ℝ) (hf : P f)
    (sr : Rat) (hsr : 0 < sr) (a b E : Int) (ha : 0 ≤ a) (hb : 0 ≤ b) (hmE : min a b ≤ E) (hE : 2 ≤ E)
    (data : List (List ℝ)) (hd : ∀ row ∈ data, row.length = (b + 1 - -a).toNat) (hne : data ≠ [])
    (w : List Int) (hw : w ≠ []) (hwm : ∀ k ∈ w, 0 ≤ k ∧ k ≤ min a b) (range : ℝ) (steps : Nat) (hst : 0 < steps) (sides : Str)
    (hs : sides = c!"both" ∨ sides = c!"left" ∨ sides = c!"right")
    (i : Nat) (row : List ℝ) (hi : data[i]? = some row) (v : ℝ) (hv : v ∈ testedStretches range steps) (c : ℝ) (hc : 0 < c)
    (hrow : ∀ l ∈ lagSet sides (-min a b) (min a b) w, |(l : ℝ) * Real.exp (-v)| ≤ E ∧ atLag (-a) row l = c * f (l * Real.exp (-v)))
    (hnz : ∃ l ∈ lagSet sides (-min a b) (min a b) w, atLag (-a) row l ≠ 0)
    (hrz : ∀ u ∈ testedStretches range steps, ∃ l ∈ lagSet sides (-min a b) (min a b) w, |(l : ℝ) * Real.exp (-u)| ≤ E ∧ f (l * Real.exp (-u)) ≠ 0) :
    ∃ res u, corrMatStretch spline data (lagsFromTo (-a) b sr) (some ((intsFrom (-E) (E + 1)).map fun k : Int => f k)) (some [w]) range steps sides
        (some (lagsFromTo (-E) E sr)) = .ok [res] ∧ res[i]? = some (some 1, some u) ∧ u ∈ testedStretches range steps ∧
      ((∀ u ∈ testedStretches range steps, (∃ d > 0, ∀ l ∈ lagSet sides (-min a b) (min a b) w,
        atLag (-a) row l = d * if |(l : ℝ) * Real.exp (-u)| ≤ E then f (l * Real.exp (-u)) else 0) → u = v) → u = v) := by
  have hst' : ∀ u l, stretchedAt spline (-E) E ((intsFrom (-E) (E + 1)).map fun k : Int => f k) u l =
      if |(l : ℝ) * Real.exp (-u)| ≤ E then f (l * Real.exp (-u)) else 0 := by
    intro u l
    rw [stretchedAt_reproduces spline P hsp f hf (-E) E (by omega)]
    congr 1
    rw [abs_le]
    push_cast
    rfl
  obtain ⟨res, h1, h2, h3⟩ := c116_best spline sr hsr a b E ha hb hmE data hd hne ((intsFrom (-E) (E + 1)).map fun k : Int => f k)
    (by rw [List.length_map, length_intsFrom]) w hw hwm range steps hst sides hs
  obtain ⟨corr, value, g1, g2⟩ := h3 i row hi
  have hex : ∀ u ∈ testedStretches range steps, ∃ l ∈ lagSet sides (-min a b) (min a b) w,
      stretchedAt spline (-E) E ((intsFrom (-E) (E + 1)).map fun k : Int => f k) u l ≠ 0 := by
    intro u hu
    obtain ⟨l, hl, h4, h5⟩ := hrz u hu
    exact ⟨l, hl, by rw [hst', if_pos h4]; exact h5⟩
  obtain ⟨e1, u, hu, e2, e3⟩ := isBest_one _ (fun v => coeffAt (lagSet sides (-min a b) (min a b) w) (atLag (-a) row)
      (stretchedAt spline (-E) E ((intsFrom (-E) (E + 1)).map fun k : Int => f k) v)) v hv
    ((coeffAt_one _ _ _ hnz (hex v hv)).2.2 ⟨c, hc, fun l hl => by
      rw [hst', if_pos (hrow l hl).1]
      exact (hrow l hl).2⟩)
    (fun u hu => by
      obtain ⟨c', hc'⟩ := (coeffAt_one _ _ _ hnz (hex u hu)).1
      exact ⟨c', hc', coeffAt_le _ _ _ _ hc'⟩) corr value g2
  refine ⟨res, u, h1, by rw [g1, e1, e2], hu, fun huniq => huniq u hu ?_⟩
  obtain ⟨d, hd0, hd1⟩ := (coeffAt_one _ _ _ hnz (hex u hu)).2.1 e3
  exact ⟨d, hd0, fun l hl => by rw [hd1 l hl, hst']⟩

/-- a cubic spline through four samples or more reproduces polynomials of degree three and less; here: any interpolation method that
does so -/
abbrev Cubics (f : ℝ → ℝ) : Prop := ∃ c0 c1 c2 c3 : ℝ, ∀ x, f x = c0 + c1 * x + c2 * x ^ 2 + c3 * x ^ 3

/-- there is such a method -/
theorem exists_reproduces (P : (ℝ → ℝ) → Prop) (hP : ∀ f g, P f → P g → ∀ times : List ℝ, 4 ≤ times.length → times.Pairwise (· < ·) →
    times.map f = times.map g → f = g) : ∃ spline, Reproduces spline P := by
  classical
  refine ⟨fun times values x => if h : ∃ f, P f ∧ times.map f = values then h.choose x else 0, fun times f x h4 hp hf _ _ => ?_⟩
  have h : ∃ g, P g ∧ times.map g = times.map f := ⟨f, hf, rfl⟩
  simp only [dif_pos h]
  rw [hP _ f h.choose_spec.1 hf times h4 hp h.choose_spec.2]

theorem cubics_unique (f g : ℝ → ℝ) (hf : Cubics f) (hg : Cubics g) (times : List ℝ) (h4 : 4 ≤ times.length) (hp : times.Pairwise (· < ·))
    (h : times.map f = times.map g) : f = g := by
  obtain ⟨c0, c1, c2, c3, hf⟩ := hf
  obtain ⟨d0, d1, d2, d3, hg⟩ := hg
  match times, h4 with
  | t1 :: t2 :: t3 :: t4 :: rest, _ =>
    simp only [List.map_cons, List.cons.injEq, hf, hg] at h
    simp only [List.pairwise_cons, List.mem_cons] at hp
    obtain ⟨e1, e2, e3, e4, -⟩ := h
    have l12 := hp.1 t2 (.inl rfl)
    have l13 := hp.1 t3 (.inr (.inl rfl))
    have l14 := hp.1 t4 (.inr (.inr (.inl rfl)))
    have l23 := hp.2.1 t3 (.inl rfl)
    have l24 := hp.2.1 t4 (.inr (.inl rfl))
    have l34 := hp.2.2.1 t4 (.inl rfl)
    have n12 : t2 - t1 ≠ 0 := (sub_pos.2 l12).ne'
    have n13 : t3 - t1 ≠ 0 := (sub_pos.2 l13).ne'
    have n14 : t4 - t1 ≠ 0 := (sub_pos.2 l14).ne'
    have n23 : t3 - t2 ≠ 0 := (sub_pos.2 l23).ne'
    have n24 : t4 - t2 ≠ 0 := (sub_pos.2 l24).ne'
    have n34 : t4 - t3 ≠ 0 := (sub_pos.2 l34).ne'
    have a2 : (c1 - d1) + (c2 - d2) * (t2 + t1) + (c3 - d3) * (t2 ^ 2 + t2 * t1 + t1 ^ 2) = 0 :=
      (mul_eq_zero.1 (show (t2 - t1) * _ = 0 by linear_combination e2 - e1)).resolve_left n12
    have a3 : (c1 - d1) + (c2 - d2) * (t3 + t1) + (c3 - d3) * (t3 ^ 2 + t3 * t1 + t1 ^ 2) = 0 :=
      (mul_eq_zero.1 (show (t3 - t1) * _ = 0 by linear_combination e3 - e1)).resolve_left n13
    have a4 : (c1 - d1) + (c2 - d2) * (t4 + t1) + (c3 - d3) * (t4 ^ 2 + t4 * t1 + t1 ^ 2) = 0 :=
      (mul_eq_zero.1 (show (t4 - t1) * _ = 0 by linear_combination e4 - e1)).resolve_left n14
    have b3 : (c2 - d2) + (c3 - d3) * (t3 + t2 + t1) = 0 :=
      (mul_eq_zero.1 (show (t3 - t2) * _ = 0 by linear_combination a3 - a2)).resolve_left n23
    have b4 : (c2 - d2) + (c3 - d3) * (t4 + t2 + t1) = 0 :=
      (mul_eq_zero.1 (show (t4 - t2) * _ = 0 by linear_combination a4 - a2)).resolve_left n24
    have z3 : c3 - d3 = 0 := (mul_eq_zero.1 (show (t4 - t3) * _ = 0 by linear_combination b4 - b3)).resolve_left n34
    have z2 : c2 - d2 = 0 := by rw [z3] at b3; linear_combination b3
    have z1 : c1 - d1 = 0 := by rw [z3, z2] at a2; linear_combination a2
    have z0 : c0 - d0 = 0 := by linear_combination e1 - t1 * z1 - t1 ^ 2 * z2 - t1 ^ 3 * z3
    funext x
    rw [hf, hg]
    linear_combination z0 + x * z1 + x ^ 2 * z2 + x ^ 3 * z3

/-- the hypothesis on the spline can be met -/
theorem exists_reproduces_cubics : ∃ spline, Reproduces spline Cubics := exists_reproduces _ cubics_unique

/-- **C116** (not satisfied: `single` with a two-sided reference). If the reference has lags from `-E` to `E`, as has every reference
extracted from a bulk with both sides, it is stretched about its first sample: for stretch `v` the sample at lag `l` of the trace is
compared with the reference at lag `(l + E) * exp (-v) - E`. -/
theorem c116_single_violated (spline : List ℝ → List ℝ → ℝ → ℝ) (P : (ℝ → ℝ) → Prop) (hsp : Reproduces spline P) (f : ℝ → ℝ) (E : Int)
    (hf : P fun x => f (x - E)) (sr : Rat) (hsr : 0 < sr) (a b : Int) (ha : 0 ≤ a) (hb : 0 ≤ b) (hbE : b ≤ E) (hE : 2 ≤ E)
    (data : List (List ℝ)) (hd : ∀ row ∈ data, row.length = (b + 1 - -a).toNat) (hne : data ≠ [])
    (w : List Int) (hw : w ≠ []) (hwm : ∀ k ∈ w, 0 ≤ k ∧ k ≤ b) (range : ℝ) (steps : Nat) (hst : 0 < steps) :
    ∃ res, corrMatStretch spline data (lagsFromTo (-a) b sr) (some ((intsFrom (-E) (E + 1)).map fun k : Int => f k)) (some [w]) range steps c!"single"
        (some (lagsFromTo (-E) E sr)) = .ok [res] ∧
      res.length = data.length ∧ ∀ (i : Nat) (row : List ℝ), data[i]? = some row → ∃ corr value, res[i]? = some (corr, value) ∧
        Spec.IsBest (testedStretches range steps) ((testedStretches range steps).map fun v =>
          coeffAt (lagSet c!"single" 0 b w) (atLag (-a) row) fun l =>
            if ((l : ℝ) + E) * Real.exp (-v) - E ≤ E then f (((l : ℝ) + E) * Real.exp (-v) - E) else 0) corr value := by
  obtain ⟨res, h1, h2, h3⟩ := stretch_core spline sr hsr a b ha hb c!"single" _ _ (.inr ⟨rfl, rfl, rfl⟩) data hd hne
    ((intsFrom (-E) (E + 1)).map fun k : Int => f k) w hw hwm range steps hst (some (lagsFromTo (-E) E sr))
    (fun v l => stretchedAt spline (-E - -E) (E - -E) ((intsFrom (-E) (E + 1)).map fun k : Int => f k) v (l - -E))
    (trim_refs spline sr hsr (-E) E 0 b (-E) _ c!"single" (by
      have := timeIdx_single (2 * E) ((intsFrom (-E) (E + 1)).map fun k : Int => f k).length (by rw [List.length_map, length_intsFrom]; congr 1; ring)
      rw [this]
      congr 2 <;> ring)
      (by omega) (by omega) hbE (testedStretches range steps) (tested_ne range steps hst))
  refine ⟨res, h1, h2, fun i row hi => ?_⟩
  obtain ⟨corr, value, g1, g2⟩ := h3 i row hi
  refine ⟨corr, value, g1, cast (congrArg (fun l => Spec.IsBest _ l corr value) (List.map_congr_left fun v _ => ?_)) g2⟩
  have e : ∀ l ∈ lagSet c!"single" 0 b w, stretchedAt spline (-E - -E) (E - -E) ((intsFrom (-E) (E + 1)).map fun k : Int => f k) v (l - -E) =
      if ((l : ℝ) + E) * Real.exp (-v) - E ≤ E then f (((l : ℝ) + E) * Real.exp (-v) - E) else 0 := by
    intro l hl
    have hl0 := (Finset.mem_Icc.1 (Finset.mem_filter.1 hl).1).1
    have hrew : ((intsFrom (-E) (E + 1)).map fun k : Int => f k) = (intsFrom 0 (2 * E + 1)).map fun k : Int => (fun x => f (x - E)) k := by
      unfold intsFrom
      rw [List.map_map, List.map_map, show E + 1 - -E = 2 * E + 1 - 0 by ring]
      refine List.map_congr_left fun k _ => ?_
      simp only [Function.comp]
      push_cast
      congr 1
      ring
    rw [hrew, show -E - -E = 0 by ring, show E - -E = 2 * E by ring, stretchedAt_reproduces spline P hsp _ hf 0 (2 * E) (by omega)]
    have hp : (0 : ℝ) ≤ ((l - -E : Int) : ℝ) * Real.exp (-v) := by
      apply mul_nonneg _ (Real.exp_pos _).le
      exact_mod_cast (by omega : 0 ≤ l - -E)
    have hcond : ((((0 : Int) : ℝ) ≤ ((l - -E : Int) : ℝ) * Real.exp (-v) ∧ ((l - -E : Int) : ℝ) * Real.exp (-v) ≤ ((2 * E : Int) : ℝ))) ↔
        ((l : ℝ) + E) * Real.exp (-v) - E ≤ E := by
      push_cast at hp ⊢
      rw [sub_neg_eq_add] at hp ⊢
      constructor
      · rintro ⟨_, h⟩; linarith
      · intro h; exact ⟨hp, by linarith⟩
    simp only [hcond]
    push_cast
    rw [sub_neg_eq_add]
  exact coeffAt_congr _ _ _ _ e

theorem isBest_const (tested : List ℝ) (sims : ℝ → Option ℝ) (c : ℝ) (h : ∀ u ∈ tested, sims u = some c) (v : ℝ) (h0 : tested[0]? = some v)
    (corr value : Option ℝ) (hb : Spec.IsBest tested (tested.map sims) corr value) : corr = some c ∧ value = some v := by
  have hn : none ∉ tested.map sims := by
    intro h'
    obtain ⟨u, hu, he⟩ := List.mem_map.1 h'
    rw [h u hu] at he
    cases he
  obtain ⟨k, c', u, hk, hku, rfl, rfl, hmax, hfirst⟩ := hb.2 hn
  have hc : ∀ (j : Nat) (c'' : ℝ), (tested.map sims)[j]? = some (some c'') → c'' = c := by
    intro j c'' hj
    rw [List.getElem?_map] at hj
    obtain ⟨u', hu', he⟩ := Option.map_eq_some_iff.1 hj
    rw [h u' (List.mem_of_getElem? hu')] at he
    exact (Option.some.inj he).symm
  have hk0 : k = 0 := by
    by_contra hk0
    have := hfirst 0 c (by omega) (by rw [List.getElem?_map, h0, Option.map_some, h v (List.mem_of_getElem? h0)])
    rw [hc k c' hk] at this
    exact lt_irrefl _ this
  subst hk0
  rw [h0] at hku
  exact ⟨by rw [hc 0 c' hk], by rw [Option.some.inj hku]⟩

theorem coeffAt_scale (L : Finset Int) (f r : Int → ℝ) (c : ℝ) (hc : 0 < c) : coeffAt L f (fun l => c * r l) = coeffAt L f r := by
  have e1 : ∑ l ∈ L, (c * r l) ^ 2 = c ^ 2 * ∑ l ∈ L, r l ^ 2 := by
    rw [Finset.mul_sum]
    exact Finset.sum_congr rfl fun l _ => by ring
  have e2 : ∑ l ∈ L, f l * (c * r l) = c * ∑ l ∈ L, f l * r l := by
    rw [Finset.mul_sum]
    exact Finset.sum_congr rfl fun l _ => by ring
  unfold coeffAt
  rw [e1, e2, mul_left_comm, Real.sqrt_mul (sq_nonneg c), Real.sqrt_sq hc.le, mul_div_mul_left _ _ hc.ne']
  have : c ^ 2 * ∑ l ∈ L, r l ^ 2 = 0 ↔ ∑ l ∈ L, r l ^ 2 = 0 := by
    rw [mul_eq_zero, or_iff_right (pow_ne_zero 2 hc.ne')]
  simp only [this]

theorem tested_first (range : ℝ) (steps : Nat) (hst : 2 ≤ steps) : (testedStretches range steps)[0]? = some (-range) := by
  unfold testedStretches testedShifts
  rw [List.getElem?_map, List.getElem?_range (by omega)]
  simp

/-- **C116** (not satisfied: `single` with a two-sided reference, example). For the reference with the values `l + E` at lags `l` the
measured stretch is `-range` for every trace that does not vanish on the window, in particular for a trace that is the reference itself,
or the reference stretched about zero lag by any other value. -/
theorem c116_single_value_violated (spline : List ℝ → List ℝ → ℝ → ℝ) (hsp : Reproduces spline Cubics) (E : Int)
    (sr : Rat) (hsr : 0 < sr) (a b : Int) (ha : 0 ≤ a) (hb : 0 ≤ b) (hbE : b ≤ E) (hE : 2 ≤ E)
    (data : List (List ℝ)) (hd : ∀ row ∈ data, row.length = (b + 1 - -a).toNat) (hne : data ≠ [])
    (w : List Int) (hw : w ≠ []) (hwm : ∀ k ∈ w, 0 ≤ k ∧ k ≤ b) (range : ℝ) (steps : Nat) (hst : 2 ≤ steps)
    (hin : ∀ k ∈ w, ∀ v ∈ testedStretches range steps, ((k : ℝ) + E) * Real.exp (-v) ≤ 2 * E)
    (i : Nat) (row : List ℝ) (hi : data[i]? = some row) (hnz : ∃ k ∈ w, atLag (-a) row k ≠ 0) :
    ∃ res corr, corrMatStretch spline data (lagsFromTo (-a) b sr) (some ((intsFrom (-E) (E + 1)).map fun k : Int => (k : ℝ) + E)) (some [w]) range steps
        c!"single" (some (lagsFromTo (-E) E sr)) = .ok [res] ∧ res[i]? = some (some corr, some (-range)) := by
  obtain ⟨res, h1, h2, h3⟩ := c116_single_violated spline Cubics hsp (fun x => x + E) E ⟨0, 1, 0, 0, fun x => by ring⟩ sr hsr a b ha hb hbE hE data hd hne
    w hw hwm range steps (by omega)
  obtain ⟨corr, value, g1, g2⟩ := h3 i row hi
  have hnz' : ∃ l ∈ lagSet c!"single" 0 b w, atLag (-a) row l ≠ 0 := by
    obtain ⟨k, hk, hk'⟩ := hnz
    refine ⟨k, ?_, hk'⟩
    unfold lagSet
    rw [Finset.mem_filter, Finset.mem_Icc, if_neg (by decide), if_neg (by decide)]
    exact ⟨hwm k hk, hk⟩
  have hrz : ∃ l ∈ lagSet c!"single" 0 b w, (l : ℝ) + E ≠ 0 := by
    obtain ⟨l, hl, _⟩ := hnz'
    refine ⟨l, hl, ?_⟩
    have hl0 := (Finset.mem_Icc.1 (Finset.mem_filter.1 hl).1).1
    have : (0 : ℝ) < ((l + E : Int) : ℝ) := by exact_mod_cast (by omega : 0 < l + E)
    push_cast at this
    exact this.ne'
  obtain ⟨⟨c, hc⟩, -⟩ := coeffAt_one (lagSet c!"single" 0 b w) (atLag (-a) row) (fun l => (l : ℝ) + E) hnz' hrz
  obtain ⟨r1, r2⟩ := isBest_const _ _ c (fun u hu => by
    rw [coeffAt_congr _ _ _ (fun l : Int => Real.exp (-u) * ((l : ℝ) + E)) (by
      intro l hl
      have hlw := (Finset.mem_filter.1 hl).2
      rw [if_neg (by decide), if_neg (by decide)] at hlw
      have := hin l hlw u hu
      rw [if_pos (by linarith)]
      ring), coeffAt_scale _ _ _ _ (Real.exp_pos _), hc]) (-range) (tested_first range steps hst) corr value g2
  exact ⟨res, c, h1, by rw [g1, r1, r2]⟩

/-- **C116** (not satisfied: no header of the reference). A reference with more lags than the traces, from `-E` to `E`, is not trimmed
about zero lag but to its first samples: the sample at lag `l` is compared with the stretched reference at lag `l - (E - min a b)`. -/
theorem c116_no_header_violated (spline : List ℝ → List ℝ → ℝ → ℝ) (sr : Rat) (hsr : 0 < sr) (a b E : Int) (ha : 0 ≤ a) (hb : 0 ≤ b) (hmE : min a b ≤ E)
    (data : List (List ℝ)) (hd : ∀ row ∈ data, row.length = (b + 1 - -a).toNat) (hne : data ≠ []) (ref : List ℝ) (href : ref.length = (E + 1 - -E).toNat)
    (w : List Int) (hw : w ≠ []) (hwm : ∀ k ∈ w, 0 ≤ k ∧ k ≤ min a b) (range : ℝ) (steps : Nat) (hst : 0 < steps) (sides : Str)
    (hs : sides = c!"both" ∨ sides = c!"left" ∨ sides = c!"right") :
    ∃ res, corrMatStretch spline data (lagsFromTo (-a) b sr) (some ref) (some [w]) range steps sides none = .ok [res] ∧
      res.length = data.length ∧ ∀ (i : Nat) (row : List ℝ), data[i]? = some row → ∃ corr value, res[i]? = some (corr, value) ∧
        Spec.IsBest (testedStretches range steps) ((testedStretches range steps).map fun v =>
          coeffAt (lagSet sides (-min a b) (min a b) w) (atLag (-a) row) fun l => stretchedAt spline (-E) E ref v (l - (E - min a b))) corr value :=
  stretch_core spline sr hsr a b ha hb sides _ _ (.inl ⟨hs, rfl, rfl⟩) data hd hne ref w hw hwm range steps hst none _ (by
    have hss : sides ≠ c!"single" := by rcases hs with rfl | rfl | rfl <;> decide
    have := trim_refs_none spline sr hsr (-E) E (-min a b) (min a b) 0 ref sides (by simpa using timeIdx_two sides hss E (by omega) ref.length href)
      (by omega) (by omega) (testedStretches range steps)
    simp only [sub_zero] at this
    rw [show (none : Option LagStats).getD (lagsFromTo (-min a b) (min a b) sr) = lagsFromTo (-min a b) (min a b) sr from rfl, this]
    refine List.map_congr_left fun v _ => List.map_congr_left fun l _ => ?_
    congr 1
    ring)

/-- **C116** (not satisfied: late windows). If the window lies so late that the reference compressed most does not reach it, there is no
result at all, for no trace, although other tested stretches can be compared. -/
theorem c116_late_violated (spline : List ℝ → List ℝ → ℝ → ℝ) (sr : Rat) (hsr : 0 < sr) (a b E : Int) (ha : 0 ≤ a) (hb : 0 ≤ b) (hmE : min a b ≤ E)
    (data : List (List ℝ)) (hd : ∀ row ∈ data, row.length = (b + 1 - -a).toNat) (hne : data ≠ []) (ref : List ℝ) (href : ref.length = (E + 1 - -E).toNat)
    (w : List Int) (hw : w ≠ []) (hwm : ∀ k ∈ w, 0 ≤ k ∧ k ≤ min a b) (range : ℝ) (steps : Nat) (hst : 2 ≤ steps) (sides : Str)
    (hs : sides = c!"both" ∨ sides = c!"left" ∨ sides = c!"right") (hlate : ∀ k ∈ w, (E : ℝ) < k * Real.exp range) :
    ∃ res, corrMatStretch spline data (lagsFromTo (-a) b sr) (some ref) (some [w]) range steps sides (some (lagsFromTo (-E) E sr)) = .ok [res] ∧
      res = data.map fun _ => (none, none) := by
  obtain ⟨res, h1, h2, h3⟩ := c116_best spline sr hsr a b E ha hb hmE data hd hne ref href w hw hwm range steps (by omega) sides hs
  refine ⟨res, h1, List.ext_getElem? fun i => ?_⟩
  rw [List.getElem?_map]
  cases hi : data[i]? with
  | none =>
    rw [Option.map_none, List.getElem?_eq_none_iff, h2]
    exact List.getElem?_eq_none_iff.1 hi
  | some row =>
    obtain ⟨corr, value, g1, g2⟩ := h3 i row hi
    have := g2.1 (List.mem_map.2 ⟨-range, List.mem_of_getElem? (tested_first range steps hst), ?_⟩)
    · rw [g1, this.1, this.2, Option.map_some]
    · unfold coeffAt
      refine if_pos (.inr (Finset.sum_eq_zero fun l hl => ?_))
      unfold stretchedAt
      rw [neg_neg, if_neg]
      · simp
      · have hl' := (Finset.mem_filter.1 hl).2
        have hpos : (0 : ℝ) < Real.exp range := Real.exp_pos _
        push_cast
        rintro ⟨q1, q2⟩
        rcases hs with rfl | rfl | rfl
        · rw [if_pos rfl] at hl'
          have := hlate _ hl'
          push_cast at this
          rcases abs_cases (l : ℝ) with ⟨ha, _⟩ | ⟨ha, _⟩
          · rw [ha] at this; linarith
          · rw [ha] at this; linarith
        · rw [if_neg (by decide), if_pos rfl] at hl'
          have := hlate _ hl'
          push_cast at this
          linarith
        · rw [if_neg (by decide), if_neg (by decide)] at hl'
          have := hlate _ hl'
          linarith

theorem velocityChange_length (n nref : Nat) (mat : List (List (Option ℝ))) (tw : List (List Int)) (refs : List (List ℝ)) (tested : List ℝ) (sides : Str)
    (rm : Bool) (res : List (List (Option ℝ × Option ℝ))) (h : velocityChange n nref mat tw refs tested sides rm = .ok res) : res.length = tw.length := by
  unfold velocityChange at h
  split at h
  · cases h
  · exact (mapM_getElem _ _ _ h).1

/-- **C116** (not satisfied: several windows). With two time windows or more there is no result for `both` and `left`; for `right` and
`single` there are as many results as the first window has samples. -/
theorem c116_windows_violated (spline : List ℝ → List ℝ → ℝ → ℝ) (data : List (List ℝ)) (s : LagStats) (ref : List ℝ) (k : Int) (w w' : List Int)
    (ws : List (List Int)) (range : ℝ) (steps : Nat) (refStats : Option LagStats) :
    (∀ sides, sides = c!"both" ∨ sides = c!"left" →
      corrMatStretch spline data s (some ref) (some ((k :: w) :: w' :: ws)) range steps sides refStats = .error .indexError) ∧
    (∀ sides res, sides = c!"right" ∨ sides = c!"single" →
      corrMatStretch spline data s (some ref) (some ((k :: w) :: w' :: ws)) range steps sides refStats = .ok res → res.length = (k :: w).length) := by
  constructor
  · intro sides hs
    have hu : ∀ n, usedWindows sides n (some ((k :: w) :: w' :: ws)) = .error .indexError := by
      intro n
      show scalarWindows sides (k :: w) = _
      unfold scalarWindows
      rw [if_pos ⟨hs, by simp⟩]
    unfold corrMatStretch
    simp only [bind, Except.bind, hu]
  · intro sides res hs h
    have hns : ¬ ((sides = c!"both" ∨ sides = c!"left") ∧ (k :: w) ≠ []) := by
      rintro ⟨h', _⟩
      rcases hs with rfl | rfl <;> revert h' <;> decide
    have hu : ∀ n, usedWindows sides n (some ((k :: w) :: w' :: ws)) = .ok ((k :: w).map fun k => [k]) := by
      intro n
      show scalarWindows sides (k :: w) = _
      unfold scalarWindows
      rw [if_neg hns]
    unfold corrMatStretch at h
    simp only [bind, Except.bind, hu] at h
    have := velocityChange_length _ _ _ _ _ _ _ _ _ h
    simpa using this

/-- **C116** (not satisfied: no time window). The documentation says that the full time range is used; the outermost lags on both sides
are not: the window has the lags from zero to the last but one. -/
theorem c116_default_violated (spline : List ℝ → List ℝ → ℝ → ℝ) (sr : Rat) (hsr : 0 < sr) (a b : Int) (ha : 0 < a) (hb : 0 < b)
    (data : List (List ℝ)) (hd : ∀ row ∈ data, row.length = (b + 1 - -a).toNat) (hne : data ≠ []) (ref : List ℝ)
    (range : ℝ) (steps : Nat) (sides : Str) (hs : sides = c!"both" ∨ sides = c!"left" ∨ sides = c!"right") (refStats : Option LagStats) :
    corrMatStretch spline data (lagsFromTo (-a) b sr) (some ref) none range steps sides refStats =
      corrMatStretch spline data (lagsFromTo (-a) b sr) (some ref) (some [intsFrom 0 (min a b)]) range steps sides refStats := by
  have hss : sides ≠ c!"single" := by rcases hs with rfl | rfl | rfl <;> decide
  have htrim := stretchTrim_both (-a) b sr hsr data hd hne (by omega) hb.le sides hss
  have hdef : defaultWindow sides (lagsFromTo (-(min (- -a) b)) (min (- -a) b) sr).npts = .ok [intsFrom 0 (min a b)] := by
    unfold defaultWindow timeWindows
    rw [if_neg hss]
    have : (((lagsFromTo (-(min (- -a) b)) (min (- -a) b) sr).npts / 2 : Nat) : Int) = min a b := by
      unfold lagsFromTo
      simp only [neg_neg]
      omega
    rw [this]
    simp only [List.length_cons, List.length_nil, List.any_cons, List.any_nil, Bool.or_false]
    rw [if_neg (by simp), if_neg (by simp; omega)]
    unfold intsFrom
    simp
  unfold corrMatStretch usedWindows
  simp only [htrim]
  simp only [hdef]

/-- the hypotheses of `c116_found` and of uniqueness can be met: reference `1 + l` at lags from -10 to 10, trace `1 + l * exp (-1)` at
lags from -2 to 2, window of lags 1 and 2, tested stretches -1, 0 and 1 -/
example (spline : List ℝ → List ℝ → ℝ → ℝ) (hsp : Reproduces spline Cubics) :
    ∃ res, corrMatStretch spline [(intsFrom (-2) 3).map fun k : Int => 1 + (k : ℝ) * Real.exp (-1)] (lagsFromTo (-2) 2 1)
        (some ((intsFrom (-10) 11).map fun k : Int => 1 + (k : ℝ))) (some [[1, 2]]) 1 3 c!"right" (some (lagsFromTo (-10) 10 1)) = .ok [res] ∧
      res[0]? = some (some 1, some 1) := by
  have hset : ∀ l ∈ lagSet c!"right" (-min (2 : Int) 2) (min 2 2) [1, 2], l = 1 ∨ l = 2 := by
    intro l hl
    have := (Finset.mem_filter.1 hl).2
    rw [if_neg (by decide), if_neg (by decide)] at this
    simpa using this
  have hmem : ∀ l : Int, l = 1 ∨ l = 2 → l ∈ lagSet c!"right" (-min (2 : Int) 2) (min 2 2) [1, 2] := by
    rintro l (rfl | rfl) <;> unfold lagSet <;> rw [Finset.mem_filter, Finset.mem_Icc, if_neg (by decide), if_neg (by decide)] <;> simp
  have htest : ∀ u, u ∈ testedStretches 1 3 ↔ u = -1 ∨ u = 0 ∨ u = 1 := by
    intro u
    unfold testedStretches testedShifts
    simp [List.range_succ]
    norm_num
  have e3 : Real.exp 1 < 5 := by
    have h := Real.add_one_le_exp (-(1 / 2 : ℝ))
    have h2 : Real.exp 1 * (Real.exp (-(1 / 2 : ℝ)) * Real.exp (-(1 / 2 : ℝ))) = 1 := by
      rw [← Real.exp_add, ← Real.exp_add]
      norm_num
    have h3 : (1 : ℝ) / 4 ≤ Real.exp (-(1 / 2 : ℝ)) * Real.exp (-(1 / 2 : ℝ)) := by nlinarith
    nlinarith [Real.exp_pos 1]
  have hexp : ∀ u, u = -1 ∨ u = 0 ∨ u = (1 : ℝ) → 0 < Real.exp (-u) ∧ Real.exp (-u) < 5 := by
    rintro u (rfl | rfl | rfl)
    · rw [neg_neg]; exact ⟨Real.exp_pos _, e3⟩
    · simp
    · exact ⟨Real.exp_pos _, by
        have : Real.exp (-1) ≤ Real.exp 0 := Real.exp_le_exp.2 (by norm_num)
        rw [Real.exp_zero] at this
        linarith⟩
  have hlt : ∀ u, u = -1 ∨ u = 0 ∨ u = (1 : ℝ) → ∀ l : Int, l = 1 ∨ l = 2 → |(l : ℝ) * Real.exp (-u)| ≤ ((10 : Int) : ℝ) := by
    intro u hu l hl
    obtain ⟨q1, q2⟩ := hexp u hu
    rcases hl with rfl | rfl
    · rw [abs_of_nonneg (by push_cast; linarith)]; push_cast; linarith
    · rw [abs_of_nonneg (by push_cast; linarith)]; push_cast; linarith
  have hat : ∀ l : Int, l = 1 ∨ l = 2 → atLag (-2) ((intsFrom (-2) 3).map fun k : Int => 1 + (k : ℝ) * Real.exp (-1)) l = 1 + (l : ℝ) * Real.exp (-1) := by
    rintro l (rfl | rfl) <;> simp [atLag, intsFrom, List.range_succ]
  obtain ⟨res, u, h1, h2, h3, h4⟩ := c116_found spline Cubics hsp (fun x => 1 + x) ⟨1, 1, 0, 0, fun x => by ring⟩ 1 (by norm_num) 2 2 10
    (by norm_num) (by norm_num) (by norm_num) (by norm_num) [(intsFrom (-2) 3).map fun k : Int => 1 + (k : ℝ) * Real.exp (-1)]
    (by intro r hr; rw [List.mem_singleton.1 hr, List.length_map, length_intsFrom]; rfl) (by simp) [1, 2] (by simp) (by simp) 1 3 (by norm_num) c!"right" (by simp)
    0 _ rfl 1 ((htest 1).2 (by simp)) 1 one_pos
    (fun l hl => ⟨hlt 1 (by simp) l (hset l hl), by rw [hat l (hset l hl), one_mul]⟩)
    ⟨1, hmem 1 (.inl rfl), by
      rw [hat 1 (.inl rfl)]
      have := Real.exp_pos (-1)
      push_cast
      linarith [this]⟩
    (fun u hu => ⟨1, hmem 1 (.inl rfl), hlt u ((htest u).1 hu) 1 (.inl rfl), by
      have := (hexp u ((htest u).1 hu)).1
      push_cast
      linarith⟩)
  have hu1 : u = 1 := by
    apply h4
    rintro u' hu' ⟨d, hd0, hd⟩
    have g1 := hd 1 (hmem 1 (.inl rfl))
    have g2 := hd 2 (hmem 2 (.inr rfl))
    rw [hat 1 (.inl rfl), if_pos (hlt u' ((htest u').1 hu') 1 (.inl rfl))] at g1
    rw [hat 2 (.inr rfl), if_pos (hlt u' ((htest u').1 hu') 2 (.inr rfl))] at g2
    push_cast at g1 g2
    have hd1 : d = 1 := by linarith
    subst hd1
    have : Real.exp (-1) = Real.exp (-u') := by linarith
    have := Real.exp_injective this
    linarith
  subst hu1
  exact ⟨res, h1, h2⟩

/-- the hypotheses of `c116_late_violated` can be met: lag 10 of a trace and a reference of lags from -10 to 10 -/
example : ∀ k ∈ [(10 : Int)], (((10 : Int)) : ℝ) < k * Real.exp (1 / 100) := by
  intro k hk
  rw [List.mem_singleton.1 hk]
  have : 1 < Real.exp (1 / 100 : ℝ) := Real.one_lt_exp_iff.2 (by norm_num)
  push_cast
  linarith

/-- the hypotheses of `c116_single_value_violated` can be met: window of lags from zero to two of ten -/
example : ∀ k ∈ [(0 : Int), 1, 2], ∀ v ∈ testedStretches (1 / 10) 3, ((k : ℝ) + ((10 : Int) : ℝ)) * Real.exp (-v) ≤ 2 * ((10 : Int) : ℝ) := by
  intro k hk v hv
  have hv' : -v ≤ 1 / 10 := by
    have := (c110_tested (1 / 10) 1 (by norm_num)).2.2.2.2 v hv
    have h2 := neg_abs_le v
    rw [abs_of_pos (by norm_num : (0 : ℝ) < 1 / 10)] at this
    linarith
  have h1 : Real.exp (-v) ≤ 10 / 9 := by
    have h := Real.add_one_le_exp v
    rw [Real.exp_neg, inv_le_comm₀ (Real.exp_pos _) (by norm_num)]
    linarith
  have h0 := Real.exp_pos (-v)
  simp only [List.mem_cons, List.not_mem_nil, or_false] at hk
  rcases hk with rfl | rfl | rfl <;> push_cast <;> linarith

/-! ### C117 -/

/-- the samples at lags from `lo` to `hi` of a function of time -/
noncomputable def samplesOf (f : ℝ → ℝ) (sr : Rat) (lo hi : Int) : List ℝ := (intsFrom lo (hi + 1)).map fun k : Int => f ((k : ℝ) / sr)

theorem stretchRow_samples (spline : List ℝ → List ℝ → ℝ → ℝ) (P : (ℝ → ℝ) → Prop) (hsp : Reproduces spline P) (g : ℝ → ℝ) (hg : P g) (sr : Rat) (hsr : 0 < sr)
    (lo hi : Int) (h : lo + 3 ≤ hi) (v : ℝ) :
    stretchRow spline (lagsFromTo lo hi sr) (samplesOf g sr lo hi) (-1 * v) =
      samplesOf (fun t => if (lo : ℝ) / sr ≤ t * Real.exp v ∧ t * Real.exp v ≤ (hi : ℝ) / sr then g (t * Real.exp v) else 0) sr lo hi := by
  unfold stretchRow samplesOf
  have ht : lagTimes (lagsFromTo lo hi sr) = (intsFrom lo (hi + 1)).map fun k : Int => (k : ℝ) / (sr : ℝ) := lagTimes_eq sr hsr lo hi
  have hhead : ((intsFrom lo (hi + 1)).map fun k : Int => (k : ℝ) / (sr : ℝ)).headD 0 = (lo : ℝ) / sr := by
    rw [headD_eq_getElem _ _ (by rw [List.length_map, length_intsFrom]; omega), List.getElem_map, getElem_intsFrom]
    simp
  have hlast : ((intsFrom lo (hi + 1)).map fun k : Int => (k : ℝ) / (sr : ℝ)).getLastD 0 = (hi : ℝ) / sr := by
    rw [getLastD_eq_getElem _ _ (by rw [List.length_map, length_intsFrom]; omega), List.getElem_map, getElem_intsFrom]
    simp only [List.length_map, length_intsFrom]
    rw [show lo + (((hi + 1 - lo).toNat - 1 : Nat) : Int) = hi by omega]
  rw [ht, List.map_map]
  refine List.map_congr_left fun k _ => ?_
  simp only [Function.comp]
  unfold splineZeros
  rw [hhead, hlast, show -(-1 * v) = v by ring]
  split
  · rename_i hr
    have := hsp ((intsFrom lo (hi + 1)).map fun k : Int => (k : ℝ) / (sr : ℝ)) g ((k : ℝ) / sr * Real.exp v) (by rw [List.length_map, length_intsFrom]; omega)
      (pairwise_times sr hsr _ _) hg (by rw [hhead]; exact hr.1) (by rw [hlast]; exact hr.2)
    rw [List.map_map] at this
    exact this
  · rfl

/-- **C117** (restored). Each trace of the bulk is a function `f i` stretched by `v i`, that is, its sample at time `t` is
`f i (t * exp (-(v i)))`, and the spline reproduces it. Correcting with the stretches `v` gives `f i` at all lag times for which the trace
reaches to the stretched time, and zero at the others. There are no fewer values than traces and they are not a single one.
Missing for the full property: `c117_one_trace_violated`. -/
theorem c117_restored_partial (spline : List ℝ → List ℝ → ℝ → ℝ) (P : (ℝ → ℝ) → Prop) (hsp : Reproduces spline P) (sr : Rat) (hsr : 0 < sr)
    (lo hi : Int) (h : lo + 3 ≤ hi) (fs : List (ℝ → ℝ)) (vs : List ℝ) (hlen : fs.length ≤ vs.length)
    (hf : ∀ (i : Nat) (f : ℝ → ℝ) (v : ℝ), fs[i]? = some f → vs[i]? = some v → P fun t => f (t * Real.exp (-v))) :
    correctStretch spline (lagsFromTo lo hi sr) c!"stretch"
        (List.zipWith (fun f v => samplesOf (fun t => f (t * Real.exp (-v))) sr lo hi) fs vs) (.array (vs.map some)) =
      .ok (List.zipWith (fun f v => (samplesOf (fun t => if (lo : ℝ) / sr ≤ t * Real.exp v ∧ t * Real.exp v ≤ (hi : ℝ) / sr then f t else 0) sr lo hi).map some)
        fs vs) := by
  unfold correctStretch
  rw [if_neg (by simp)]
  simp only [List.length_zipWith, List.length_map]
  rw [if_neg (by omega)]
  congr 1
  refine List.ext_getElem (by simp [hlen]) fun i hi1 hi2 => ?_
  have hi1' : i < vs.length := by simp at hi2; omega
  have hi2' : i < fs.length := by simp at hi2; omega
  simp only [List.getElem_zipWith, List.getElem_map]
  rw [stretchRow_samples spline P hsp _ (hf i _ _ (List.getElem?_eq_getElem hi2') (List.getElem?_eq_getElem hi1')) sr hsr lo hi h]
  congr 1
  unfold samplesOf
  refine List.map_congr_left fun k _ => ?_
  simp only
  split
  · rw [mul_assoc, ← Real.exp_add, add_neg_cancel, Real.exp_zero, mul_one]
  · rfl

/-- **C117** (no change). A stretch of zero leaves a trace as it is, if the spline passes through the samples. -/
theorem c117_zero (spline : List ℝ → List ℝ → ℝ → ℝ) (hsp : Interpolates spline) (sr : Rat) (hsr : 0 < sr)
    (lo hi : Int) (data : List (List ℝ)) (hd : ∀ row ∈ data, row.length = (hi + 1 - lo).toNat) (vs : List (Option ℝ)) (hlen : data.length ≤ vs.length)
    (i : Nat) (row : List ℝ) (hi' : data[i]? = some row) (hv : vs[i]? = some (some 0)) :
    ∃ out, correctStretch spline (lagsFromTo lo hi sr) c!"stretch" data (.array vs) = .ok out ∧ out.length = data.length ∧ out[i]? = some (row.map some) := by
  refine ⟨_, by unfold correctStretch; rw [if_neg (by simp)]; simp only; rw [if_neg (by omega)], by simp [hlen], ?_⟩
  rw [List.getElem?_zipWith, hi', hv]
  simp only [Option.some.injEq]
  congr 1
  have hrl := hd row (List.mem_of_getElem? hi')
  have ht : lagTimes (lagsFromTo lo hi sr) = (intsFrom lo (hi + 1)).map fun k : Int => (k : ℝ) / (sr : ℝ) := lagTimes_eq sr hsr lo hi
  have hpw := pairwise_times sr hsr lo (hi + 1)
  have hlt : (lagTimes (lagsFromTo lo hi sr)).length = row.length := by rw [ht, List.length_map, length_intsFrom, hrl]
  unfold stretchRow splineZeros
  simp only [show -(-1 * (0 : ℝ)) = 0 by ring, Real.exp_zero, mul_one]
  refine List.ext_getElem (by rw [List.length_map, hlt]) fun j hj1 hj2 => ?_
  refine (List.getElem_map ..).trans ((if_pos ?_).trans ?_)
  rotate_left
  · exact hsp _ _ j _ _ (by rw [ht]; exact hpw) hlt.symm (List.getElem?_eq_getElem (by omega)) (List.getElem?_eq_getElem hj2)
  · have hlen' : (intsFrom lo (hi + 1)).length = row.length := by rw [length_intsFrom, hrl]
    have hsr' : (0 : ℝ) < sr := by exact_mod_cast hsr
    have hj0 : j < (lagTimes (lagsFromTo lo hi sr)).length := by omega
    show _ ≤ (lagTimes (lagsFromTo lo hi sr))[j]'hj0 ∧ (lagTimes (lagsFromTo lo hi sr))[j]'hj0 ≤ _
    generalize hx : (lagTimes (lagsFromTo lo hi sr))[j]'hj0 = x
    have hx' : x = ((lo + (j : Int) : Int) : ℝ) / sr := by
      rw [← hx]
      simp only [ht, List.getElem_map, getElem_intsFrom]
    clear hx
    subst hx'
    rw [ht, headD_eq_getElem _ _ (by rw [List.length_map]; omega), getLastD_eq_getElem _ _ (by rw [List.length_map]; omega)]
    simp only [List.getElem_map, getElem_intsFrom, List.length_map]
    refine ⟨div_le_div_of_nonneg_right ?_ hsr'.le, div_le_div_of_nonneg_right ?_ hsr'.le⟩
    · exact_mod_cast (by omega : lo + ((0 : Nat) : Int) ≤ lo + (j : Int))
    · exact_mod_cast (by omega : lo + (j : Int) ≤ lo + (((intsFrom lo (hi + 1)).length - 1 : Nat) : Int))

/-- **C117** (not satisfied: one trace). The values of a measurement on a single trace are a scalar, and it cannot be corrected. -/
theorem c117_one_trace_violated (spline : List ℝ → List ℝ → ℝ → ℝ) (s : LagStats) (row : List ℝ) (v : Option ℝ) :
    correctStretch spline s c!"stretch" [row] (squeeze [v]) = .error .indexError := rfl

/-- **C117** (other arguments). A change that holds no stretches, or fewer values than traces, is refused. -/
theorem c117_refused (spline : List ℝ → List ℝ → ℝ → ℝ) (s : LagStats) (t : Str) (data : List (List ℝ)) (vs : List (Option ℝ)) :
    (t ≠ c!"stretch" → correctStretch spline s t data (.array vs) = .error .valueError) ∧
    (vs.length < data.length → correctStretch spline s c!"stretch" data (.array vs) = .error .indexError) := by
  constructor
  · intro h
    unfold correctStretch
    rw [if_pos h]
  · intro h
    unfold correctStretch
    rw [if_neg (by simp)]
    simp only
    rw [if_pos h]

theorem correctStretch_array (spline : List ℝ → List ℝ → ℝ → ℝ) (s : LagStats) (data : List (List ℝ)) (vs : List (Option ℝ)) (h : ¬ vs.length < data.length) :
    correctStretch spline s c!"stretch" data (.array vs) = .ok (List.zipWith (fun row v => match v with
      | some v => (stretchRow spline s row (-1 * v)).map some
      | none => (lagTimes s).map fun _ => none) data vs) := by
  unfold correctStretch
  rw [if_neg (by simp)]
  exact if_neg h

/-- **C117** (no measurement). A trace whose value is undefined is undefined at all lags afterwards; values beyond the number of traces have
no effect. -/
theorem c117_undefined (spline : List ℝ → List ℝ → ℝ → ℝ) (sr : Rat) (hsr : 0 < sr) (lo hi : Int) (data : List (List ℝ)) (vs more : List (Option ℝ))
    (hlen : data.length = vs.length) :
    correctStretch spline (lagsFromTo lo hi sr) c!"stretch" data (.array (vs ++ more)) = correctStretch spline (lagsFromTo lo hi sr) c!"stretch" data (.array vs) ∧
    ∀ i : Nat, vs[i]? = some none → ∃ out, correctStretch spline (lagsFromTo lo hi sr) c!"stretch" data (.array vs) = .ok out ∧
      out[i]? = some (List.replicate (hi + 1 - lo).toNat none) := by
  constructor
  · rw [correctStretch_array _ _ _ _ (by rw [List.length_append]; omega), correctStretch_array _ _ _ _ (by omega)]
    congr 1
    refine List.ext_getElem (by simp only [List.length_zipWith, List.length_append]; omega) fun i h1 h2 => ?_
    have : i < vs.length := by rw [List.length_zipWith] at h2; omega
    simp only [List.getElem_zipWith, List.getElem_append_left this]
  · intro i hi'
    refine ⟨_, by unfold correctStretch; rw [if_neg (by simp)]; simp only; rw [if_neg (by omega)], ?_⟩
    have hiv : i < vs.length := (List.getElem?_eq_some_iff.1 hi').1
    rw [List.getElem?_zipWith, hi', List.getElem?_eq_getElem (by omega)]
    simp only [Option.some.injEq]
    have ht : lagTimes (lagsFromTo lo hi sr) = (intsFrom lo (hi + 1)).map fun k : Int => (k : ℝ) / (sr : ℝ) := lagTimes_eq sr hsr lo hi
    rw [List.map_const', ht, List.length_map, length_intsFrom]

/-- **C117** (measured again). The traces have lags from `-e` to `e`; trace `i` is the reference `f` stretched by `v`. After the correction
by `v` the measurement on a window of lags that the stretched trace reaches gives correlation one; and stretch zero, if no other tested
stretch of the reference is a multiple of the reference on the window.
Missing for the full property: `c117_one_trace_violated`. -/
theorem c117_remeasured_partial (spline : List ℝ → List ℝ → ℝ → ℝ) (P : (ℝ → ℝ) → Prop) (hsp : Reproduces spline P) (f : ℝ → ℝ) (sr : Rat) (hsr : 0 < sr) (e : Int) (he : 2 ≤ e)
    (vs : List ℝ) (hvs : 2 ≤ vs.length) (hP : P f) (hf : ∀ v ∈ vs, P fun t => f (t * Real.exp (-v) * sr))
    (w : List Int) (hw : w ≠ []) (hwm : ∀ k ∈ w, 0 ≤ k ∧ k ≤ e) (range : ℝ) (steps : Nat) (hst : 0 < steps) (h0 : 0 ∈ testedStretches range steps) (sides : Str)
    (hs : sides = c!"both" ∨ sides = c!"left" ∨ sides = c!"right") (i : Nat) (v : ℝ) (hv : vs[i]? = some v)
    (hreach : ∀ k ∈ w, (k : ℝ) * Real.exp v ≤ e)
    (hnz : ∃ l ∈ lagSet sides (-e) e w, f l ≠ 0)
    (hrz : ∀ u ∈ testedStretches range steps, ∃ l ∈ lagSet sides (-e) e w, |(l : ℝ) * Real.exp (-u)| ≤ e ∧ f (l * Real.exp (-u)) ≠ 0) :
    ∃ out : List (List ℝ), correctStretch spline (lagsFromTo (-e) e sr) c!"stretch"
        (vs.map fun v => samplesOf (fun t => f (t * Real.exp (-v) * sr)) sr (-e) e) (squeeze (vs.map some)) = .ok (out.map fun row => row.map some) ∧
      ∃ res u, corrMatStretch spline out (lagsFromTo (-e) e sr) (some ((intsFrom (-e) (e + 1)).map fun k : Int => f k)) (some [w]) range steps sides
        (some (lagsFromTo (-e) e sr)) = .ok [res] ∧ res[i]? = some (some 1, some u) ∧
      ((∀ u ∈ testedStretches range steps, (∃ d > 0, ∀ l ∈ lagSet sides (-e) e w,
        f l = d * if |(l : ℝ) * Real.exp (-u)| ≤ e then f (l * Real.exp (-u)) else 0) → u = 0) → u = 0) := by
  have hsr' : (sr : ℝ) ≠ 0 := by exact_mod_cast hsr.ne'
  have hsrp : (0 : ℝ) < sr := by exact_mod_cast hsr
  have hsq : squeeze (vs.map some) = .array (vs.map some) := by
    match vs, hvs with
    | _ :: _ :: _, _ => rfl
  let outRow : ℝ → List ℝ := fun v => samplesOf (fun t => if ((-e : Int) : ℝ) / sr ≤ t * Real.exp v ∧ t * Real.exp v ≤ (e : ℝ) / sr then f (t * sr) else 0) sr (-e) e
  have hc := c117_restored_partial spline P hsp sr hsr (-e) e (by omega) (vs.map fun _ => fun t => f (t * sr)) vs (by simp) (by
    intro j g u hg hu
    rw [List.getElem?_map, hu, Option.map_some] at hg
    rw [← Option.some.inj hg]
    exact hf u (List.mem_of_getElem? hu))
  have hz : ∀ (F : (ℝ → ℝ) → ℝ → List ℝ), List.zipWith F (vs.map fun _ => fun t => f (t * sr)) vs = vs.map fun v => F (fun t => f (t * sr)) v := by
    intro F
    refine List.ext_getElem (by simp) fun j _ _ => by simp
  have hz' : ∀ (F : (ℝ → ℝ) → ℝ → List (Option ℝ)), List.zipWith F (vs.map fun _ => fun t => f (t * sr)) vs = vs.map fun v => F (fun t => f (t * sr)) v := by
    intro F
    refine List.ext_getElem (by simp) fun j _ _ => by simp
  rw [hz, hz'] at hc
  refine ⟨vs.map outRow, ?_, ?_⟩
  · rw [hsq, hc, List.map_map]
    rfl
  have hlm : lagSet sides (-min e e) (min e e) w = lagSet sides (-e) e w := by rw [min_self]
  have hat : ∀ l ∈ lagSet sides (-e) e w, atLag (-e) (outRow v) l = f l := by
    intro l hl
    obtain ⟨hl1, hl2⟩ := Finset.mem_filter.1 hl
    have hl1 := Finset.mem_Icc.1 hl1
    have hle : |(l : ℝ)| * Real.exp v ≤ e := by
      have key : |l| ∈ w ∨ -l ∈ w ∨ l ∈ w := by
        rcases hs with rfl | rfl | rfl
        · rw [if_pos rfl] at hl2; exact .inl hl2
        · rw [if_neg (by decide), if_pos rfl] at hl2; exact .inr (.inl hl2)
        · rw [if_neg (by decide), if_neg (by decide)] at hl2; exact .inr (.inr hl2)
      rcases key with h | h | h
      · have := hreach _ h
        push_cast at this
        exact this
      · have := hreach _ h
        have hn := (hwm _ h).1
        rw [abs_of_nonpos (by exact_mod_cast (by omega : l ≤ 0))]
        push_cast at this
        exact this
      · have := hreach _ h
        have hn := (hwm _ h).1
        rw [abs_of_nonneg (by exact_mod_cast hn)]
        exact this
    have hle2 : |(l : ℝ) * Real.exp v| ≤ e := by rw [abs_mul, abs_of_pos (Real.exp_pos v)]; exact hle
    rw [abs_le] at hle2
    show atLag (-e) (samplesOf _ sr (-e) e) l = f l
    unfold atLag samplesOf
    rw [List.getD_eq_getElem _ _ (by rw [List.length_map, length_intsFrom]; omega), List.getElem_map, getElem_intsFrom,
      show -e + (((l - -e).toNat : Nat) : Int) = l by omega]
    beta_reduce
    rw [if_pos]
    · rw [div_mul_cancel₀ _ hsr']
    · rw [div_mul_eq_mul_div]
      push_cast
      exact ⟨div_le_div_of_nonneg_right hle2.1 hsrp.le, div_le_div_of_nonneg_right hle2.2 hsrp.le⟩
  obtain ⟨res, u, r1, r2, r3, r4⟩ := c116_found spline P hsp f hP sr hsr e e e (by omega) (by omega) (by simp) he (vs.map outRow) (by
      intro r hr
      obtain ⟨v', _, rfl⟩ := List.mem_map.1 hr
      show (samplesOf _ sr (-e) e).length = _
      unfold samplesOf
      rw [List.length_map, length_intsFrom]) (by
      intro h
      rw [List.map_eq_nil_iff] at h
      rw [h] at hvs
      simp at hvs) w hw (by rw [min_self]; exact hwm) range steps hst sides hs i (outRow v) (by rw [List.getElem?_map, hv]; rfl) 0 h0 1 one_pos
    (by
      rw [hlm]
      intro l hl
      rw [hat l hl, neg_zero, Real.exp_zero, mul_one, one_mul]
      refine ⟨?_, rfl⟩
      have := Finset.mem_Icc.1 (Finset.mem_filter.1 hl).1
      rw [abs_le]
      exact ⟨by exact_mod_cast this.1, by exact_mod_cast this.2⟩)
    (by
      rw [hlm]
      obtain ⟨l, hl, hl'⟩ := hnz
      exact ⟨l, hl, by rw [hat l hl]; exact hl'⟩)
    (by rw [hlm]; exact hrz)
  refine ⟨res, u, r1, r2, fun huniq => r4 ?_⟩
  rw [hlm]
  rintro u' hu' ⟨d, hd0, hd⟩
  exact huniq u' hu' ⟨d, hd0, fun l hl => by rw [← hat l hl]; exact hd l hl⟩

/-- the hypotheses of `c117_remeasured_partial` on the reference, the stretches and the window can be met: reference `1 + l` of lags from -10
to 10, two traces, window of lags 1 and 2 -/
example : (∀ v ∈ [(1 : ℝ) / 2, 1], Cubics fun t => (1 + t * Real.exp (-v) * ((1 : Rat) : ℝ))) ∧ (0 : ℝ) ∈ testedStretches 1 3 ∧
    ∀ k ∈ [(1 : Int), 2], (k : ℝ) * Real.exp (1 / 2) ≤ ((10 : Int) : ℝ) := by
  refine ⟨fun v _ => ⟨1, Real.exp (-v), 0, 0, fun x => by push_cast; ring⟩, (c110_tested 1 1 one_pos).1, ?_⟩
  have h := Real.add_one_le_exp (-(1 / 2 : ℝ))
  have h2 : Real.exp (1 / 2) * Real.exp (-(1 / 2 : ℝ)) = 1 := by
    rw [← Real.exp_add]
    norm_num
  have h3 : Real.exp (1 / 2 : ℝ) ≤ 2 := by nlinarith [Real.exp_pos (1 / 2 : ℝ)]
  intro k hk
  simp only [List.mem_cons, List.not_mem_nil, or_false] at hk
  rcases hk with rfl | rfl <;> push_cast <;> linarith

end SeisMIC
