import Verif.Model.MorePlot
import Verif.Props.PlotCorr
import Verif.Props.HeaderStore

/-!
# C179 (axes), C186 and C187: axes of figures, maps and figures of single correlations
-/

namespace SeisMIC

/-! ## C179: axes -/

/-- **C179** (part) The figure with lines over time: the lines are in the order of time, and the line of a trace has for
each sample the point at its lag and at the start time plus the amplitude times 100000 seconds times the scaling
(1 if the scaling is zero). If all
traces have the same lags, the axis goes from the first to the last lag unless limits are given. -/
theorem c179_section_time (st : List PlotTr) (scaling : Rat) (hne : st ≠ []) (L : List Rat) (hL : ∀ t ∈ st, t.lags = L)
    (a b : Rat) (ha : L.head? = some a) (hb : L.getLast? = some b) (lim : Option (Rat × Rat)) :
    ∃ st' lines, plotSectStart st scaling lim = .ok (st', lines, lim.getD (a, b)) ∧ st'.Perm st ∧ (st'.map PlotTr.start).Pairwise (· ≤ ·) ∧
      lines.length = st'.length ∧
      ∀ (i : Nat) (t : PlotTr), st'[i]? = some t → ∃ line, lines[i]? = some line ∧ line.length = min t.lags.length t.data.length ∧
        ∀ (k : Nat) (l y : Rat), t.lags[k]? = some l → t.data[k]? = some y →
          line[k]? = some (l, (t.start : Rat) / 10 ^ 9 + 100000 * (if scaling = 0 then 1 else scaling) * y) := by
  have hp := sortCst_perm .corrStart st
  unfold plotSectStart
  cases hl : (sortCst .corrStart st).getLast? with
  | none =>
    rw [List.getLast?_eq_none_iff] at hl
    rw [hl] at hp
    exact absurd (List.nil_perm.1 hp) hne
  | some last =>
    have hm := hL last (hp.subset (List.mem_of_getLast? hl))
    have hlim : lagLimits lim last.lags = .ok (lim.getD (a, b)) := by
      unfold lagLimits
      cases lim with
      | some l => rfl
      | none => simp [hm, ha, hb]
    simp only [hl, hlim, Except.map]
    refine ⟨_, _, rfl, hp, sortCst_start st, by simp, fun i t ht => ⟨_, by rw [List.getElem?_map, ht, Option.map_some], by simp, fun k l y hk hy => ?_⟩⟩
    rw [List.getElem?_zip_eq_some]
    refine ⟨hk, ?_⟩
    rw [List.getElem?_map, hy, Option.map_some]
    generalize (if scaling = 0 then (1 : Rat) else scaling) = c
    congr 1
    norm_num
    ring

example : ([-1, 0, 1] : List Rat).head? = some (-1) ∧ ([-1, 0, 1] : List Rat).getLast? = some 1 := by decide

/-- **C179** (part) The lag axis of the figure with lines over distance: if all traces have the same lags and the farthest
station is not to the west, the axis goes from the first to the last lag.
Missing for the full property: `c179_axis_violated`, `c179_lags_violated`, `c179_west_violated`. -/
theorem c179_axis_partial (st : List PlotTr) (scaling : Rat) (hne : st ≠ []) (L : List Rat) (hL : ∀ t ∈ st, t.lags = L)
    (a b : Rat) (ha : L.head? = some a) (hb : L.getLast? = some b) (heast : ∀ t ∈ st, (∀ u ∈ st, u.dist ≤ t.dist) → t.az < 180) :
    ∃ st' lines, plotSectDist st scaling none = .ok (st', lines, (a, b)) ∧ sectDist st scaling = .ok (st', lines) := by
  have hp := sortCst_perm .dist st
  have hnil : sortCst .dist st ≠ [] := by
    intro h; rw [h] at hp; exact hne (List.nil_perm.1 hp)
  have hlast := List.getLast?_eq_some_getLast hnil
  have hmem := List.getLast_mem hnil
  have hm := hL _ (hp.subset hmem)
  have haz := heast _ (hp.subset hmem) (fun u hu => by
    have hs := sortCst_dist st
    rw [List.pairwise_map] at hs
    have hu' := hp.symm.subset hu
    rw [← List.dropLast_append_getLast hnil] at hu' hs
    rcases List.mem_append.1 hu' with h | h
    · exact (List.pairwise_append.1 hs).2.2 u h _ (by simp)
    · rw [List.mem_singleton.1 h])
  have ht : sectDistTimes st = L := by
    unfold sectDistTimes
    rw [hlast]
    simp only
    rw [if_neg (not_le.2 haz), hm]
  have hsd : ∃ r, sectDist st scaling = .ok r := by
    unfold sectDist
    have : (sortCst .dist st).isEmpty = false := by simpa using hnil
    simp only [this, Bool.false_eq_true, if_false]
    exact ⟨_, rfl⟩
  obtain ⟨r, hr⟩ := hsd
  refine ⟨r.1, r.2, ?_, hr⟩
  unfold plotSectDist
  rw [hr, ht]
  simp [bind, Except.bind, pure, Except.pure, lagLimits, ha, hb]

example : (⟨c!"N", c!"A", c!"Z", 1, 2, 90, [-1, 0, 1], [4, 5, 6]⟩ : PlotTr).az < 180 := by decide +kernel

/-- **C179** (negation of a part) If the farthest station is to the west, its lags with the opposite sign are the limits of
the axis: the axis goes from right to left, for every set of increasing lags. -/
theorem c179_axis_violated (n : Str) (lags data : List Rat) (a b : Rat) (ha : lags.head? = some a) (hb : lags.getLast? = some b) (hab : a < b)
    (scaling : Rat) :
    ∃ st' lines lo hi, plotSectDist [⟨n, n, n, 1, 5, 270, lags, data⟩] scaling none = .ok (st', lines, (lo, hi)) ∧ hi < lo := by
  have hw : (180 : Rat) ≤ 270 := by norm_num
  have ht : sectDistTimes [⟨n, n, n, 1, 5, 270, lags, data⟩] = lags.map fun x => -1 * x := by
    simp [sectDistTimes, sortCst, isort, insertSorted, hw]
  have hsd : ∃ r, sectDist [⟨n, n, n, 1, 5, 270, lags, data⟩] scaling = .ok r := by
    unfold sectDist
    simp [sortCst, isort, insertSorted]
  obtain ⟨r, hr⟩ := hsd
  refine ⟨r.1, r.2, -a, -b, ?_, by linarith⟩
  unfold plotSectDist
  rw [hr, ht]
  simp [bind, Except.bind, pure, Except.pure, lagLimits, ha, hb]

/-! ## C186: the map -/

theorem axis_min_spec (l : List Rat) : ∀ a, l.foldl min a ≤ a ∧ (∀ b ∈ l, l.foldl min a ≤ b) ∧ (l.foldl min a = a ∨ l.foldl min a ∈ l) := by
  induction l with
  | nil => simp
  | cons c l ih =>
    intro a
    obtain ⟨h1, h2, h3⟩ := ih (min a c)
    simp only [List.foldl_cons]
    refine ⟨h1.trans (min_le_left _ _), fun b hb => ?_, ?_⟩
    · rcases List.mem_cons.1 hb with rfl | hb
      · exact h1.trans (min_le_right _ _)
      · exact h2 b hb
    · rcases h3 with h | h
      · rw [h]
        rcases min_choice a c with h | h
        · exact Or.inl h
        · exact Or.inr (by rw [h]; simp)
      · exact Or.inr (List.mem_cons_of_mem _ h)

theorem axis_max_spec (l : List Rat) : ∀ a, a ≤ l.foldl max a ∧ (∀ b ∈ l, b ≤ l.foldl max a) ∧ (l.foldl max a = a ∨ l.foldl max a ∈ l) := by
  induction l with
  | nil => simp
  | cons c l ih =>
    intro a
    obtain ⟨h1, h2, h3⟩ := ih (max a c)
    simp only [List.foldl_cons]
    refine ⟨(le_max_left _ _).trans h1, fun b hb => ?_, ?_⟩
    · rcases List.mem_cons.1 hb with rfl | hb
      · exact (le_max_right _ _).trans h1
      · exact h2 b hb
    · rcases h3 with h | h
      · rw [h]
        rcases max_choice a c with h | h
        · exact Or.inl h
        · exact Or.inr (by rw [h]; simp)
      · exact Or.inr (List.mem_cons_of_mem _ h)

theorem axisLimits_eq (l : List Rat) (a b : Rat) (ha : a ∈ l) (hb : b ∈ l) (hl : ∀ c ∈ l, a ≤ c ∧ c ≤ b) : axisLimits l = .ok (a, b) := by
  cases l with
  | nil => cases ha
  | cons c l =>
    unfold axisLimits
    obtain ⟨h1, h2, h3⟩ := axis_min_spec l c
    obtain ⟨g1, g2, g3⟩ := axis_max_spec l c
    have m1 : l.foldl min c ∈ c :: l := by rcases h3 with h | h <;> simp [h]
    have m2 : l.foldl max c ∈ c :: l := by rcases g3 with h | h <;> simp [h]
    have e1 : l.foldl min c = a := by
      refine le_antisymm ?_ (hl _ m1).1
      rcases List.mem_cons.1 ha with rfl | h
      · exact h1
      · exact h2 a h
    have e2 : l.foldl max c = b := by
      refine le_antisymm (hl _ m2).2 ?_
      rcases List.mem_cons.1 hb with rfl | h
      · exact g1
      · exact g2 b h
    simp only [e1, e2]

theorem gridAxis_getElem? (x res : Rat) (k : Nat) (q : Rat) (h : (gridAxis x res)[k]? = some q) : q = k * res ∧ k < (gridAxis x res).length := by
  have hk := (List.getElem?_eq_some_iff.1 h).1
  refine ⟨?_, hk⟩
  unfold gridAxis at h hk
  rw [List.length_map, List.length_range] at hk
  rw [List.getElem?_map, List.getElem?_range hk] at h
  simpa using h.symm

theorem axisLimits_grid (x res : Rat) (hres : 0 < res) (hn : 1 < (gridAxis x res).length) :
    axisLimits (gridAxis x res) = .ok (0, ((gridAxis x res).length - 1) * res) := by
  have hget : ∀ k : Nat, k < (gridAxis x res).length → ((k : Rat) * res) ∈ gridAxis x res := by
    intro k hk
    have := (gridAxis_getElem? x res k _ (List.getElem?_eq_getElem hk)).1
    rw [← this]; exact List.getElem_mem hk
  refine axisLimits_eq _ _ _ (by simpa using hget 0 (by omega)) ?_ fun c hc => ?_
  · have := hget ((gridAxis x res).length - 1) (by omega)
    rwa [Nat.cast_sub (by omega), Nat.cast_one] at this
  · obtain ⟨k, hk⟩ := List.mem_iff_getElem?.1 hc
    obtain ⟨rfl, hlt⟩ := gridAxis_getElem? x res k c hk
    have : (k : Rat) ≤ (gridAxis x res).length - 1 := by
      have : ((k + 1 : Nat) : Rat) ≤ (gridAxis x res).length := by exact_mod_cast hlt
      push_cast at this; linarith
    exact ⟨by positivity, mul_le_mul_of_nonneg_right this hres.le⟩

/-- **C186** The map of a grid shows the change of each grid point (times -100: in percent, and positive for a faster
medium) in a pixel that contains this grid point, for all sizes and resolutions with at least two points in each
direction. North is at the top, east on the right, and the pixels of points farther east lie farther to the right. -/
theorem c186_map (x y res : Rat) (hres : 0 < res) (vel : List (List F)) (hx : 1 < (gridAxis x res).length) (hy : 1 < (gridAxis y res).length)
    (hrows : vel.length = (gridAxis y res).length) :
    ∃ im, gridPlot (gridAxis x res) (gridAxis y res) (some vel) = .ok im ∧ im.left < im.right ∧ im.bottom < im.top ∧
      im.rows.length = vel.length ∧
      ∀ (i j : Nat) (px py : Rat) (row : List F) (v : F), (gridAxis x res)[i]? = some px → (gridAxis y res)[j]? = some py →
        vel[j]? = some row → row[i]? = some v → ∃ r shown, im.rows[r]? = some shown ∧ shown[i]? = some (v.map fun q => -100 * q) ∧
          (im.pixel (gridAxis x res).length r i).1.1 ≤ px ∧ px ≤ (im.pixel (gridAxis x res).length r i).1.2 ∧
          (im.pixel (gridAxis x res).length r i).2.2 ≤ py ∧ py ≤ (im.pixel (gridAxis x res).length r i).2.1 ∧
          ∀ i', i < i' → (im.pixel (gridAxis x res).length r i).1.2 ≤ (im.pixel (gridAxis x res).length r i').1.1 := by
  have hnx : (1 : Rat) < (gridAxis x res).length := by exact_mod_cast hx
  have hny : (1 : Rat) < (gridAxis y res).length := by exact_mod_cast hy
  refine ⟨⟨vel.reverse.map fun r => r.map fun a => a.map fun q => -100 * q, 0, ((gridAxis x res).length - 1) * res, 0,
      ((gridAxis y res).length - 1) * res⟩, by simp only [gridPlot, axisLimits_grid x res hres hx, axisLimits_grid y res hres hy, bind, Except.bind, pure, Except.pure],
    ?_, ?_, by simp, ?_⟩
  · exact mul_pos (by linarith) hres
  · exact mul_pos (by linarith) hres
  intro i j px py row v hi hj hrow hv
  obtain ⟨rfl, hix⟩ := gridAxis_getElem? x res i px hi
  obtain ⟨rfl, hjy⟩ := gridAxis_getElem? y res j py hj
  have p1 := pixel_contains (((gridAxis x res).length - 1) * res) (mul_pos (by linarith) hres).le _ i hx hix
  have p2 := pixel_contains (((gridAxis y res).length - 1) * res) (mul_pos (by linarith) hres).le _ j hy hjy
  have e1 : ((gridAxis x res).length - 1) * res * i / ((gridAxis x res).length - 1 : Rat) = i * res := by
    have : ((gridAxis x res).length - 1 : Rat) ≠ 0 := by linarith
    field_simp
  have e2 : ((gridAxis y res).length - 1) * res * j / ((gridAxis y res).length - 1 : Rat) = j * res := by
    have : ((gridAxis y res).length - 1 : Rat) ≠ 0 := by linarith
    field_simp
  rw [e1] at p1
  rw [e2] at p2
  refine ⟨vel.length - 1 - j, row.map fun a => a.map fun q => -100 * q, ?_, by rw [List.getElem?_map, hv]; rfl, ?_, ?_, ?_, ?_, ?_⟩
  · rw [List.getElem?_map, List.getElem?_reverse (by omega), show vel.length - 1 - (vel.length - 1 - j) = j by omega, hrow]
    rfl
  · simp only [Image.pixel, sub_zero, zero_add]; exact p1.1
  · simp only [Image.pixel, sub_zero, zero_add]; exact p1.2
  · simp only [Image.pixel, List.length_map, List.length_reverse, hrows]
    have : (((gridAxis y res).length - 1 - j : Nat) : Rat) = (gridAxis y res).length - 1 - j := by
      rw [Nat.cast_sub (by omega), Nat.cast_sub (by omega)]; simp
    rw [this]
    have : ((gridAxis y res).length - 1 : Rat) * res + (0 - (((gridAxis y res).length - 1 : Rat) * res)) * ((gridAxis y res).length - 1 - j + 1) / (gridAxis y res).length
        = (((gridAxis y res).length - 1 : Rat) * res) * j / (gridAxis y res).length := by
      have : ((gridAxis y res).length : Rat) ≠ 0 := by linarith
      field_simp; ring
    rw [this]; exact p2.1
  · simp only [Image.pixel, List.length_map, List.length_reverse, hrows]
    have : (((gridAxis y res).length - 1 - j : Nat) : Rat) = (gridAxis y res).length - 1 - j := by
      rw [Nat.cast_sub (by omega), Nat.cast_sub (by omega)]; simp
    rw [this]
    have : ((gridAxis y res).length - 1 : Rat) * res + (0 - (((gridAxis y res).length - 1 : Rat) * res)) * ((gridAxis y res).length - 1 - j) / (gridAxis y res).length
        = (((gridAxis y res).length - 1 : Rat) * res) * (j + 1) / (gridAxis y res).length := by
      have : ((gridAxis y res).length : Rat) ≠ 0 := by linarith
      field_simp; ring
    rw [this]; exact p2.2
  · intro i' hi'
    simp only [Image.pixel]
    have h0 : (0 : Rat) ≤ ((gridAxis x res).length - 1) * res - 0 := by
      have := mul_pos (by linarith : (0 : Rat) < (gridAxis x res).length - 1) hres; linarith
    have h1 : ((i : Rat) + 1) ≤ i' := by exact_mod_cast hi'
    have : (((gridAxis x res).length - 1) * res - 0) * ((i : Rat) + 1) / (gridAxis x res).length ≤
        (((gridAxis x res).length - 1) * res - 0) * (i' : Rat) / (gridAxis x res).length :=
      div_le_div_of_nonneg_right (mul_le_mul_of_nonneg_left h1 h0) (by linarith)
    linarith

example : gridAxis 2 1 = [0, 1, 2] := by decide +kernel

/-- **C186** (negation of a part) The pixels are smaller than the cells of the grid, so that a station may be marked on the
pixel of another cell than its own: on a grid with three points in a distance of one kilometre, the station at 0.6 km
belongs to the second grid point, but lies inside the pixel of the first one. -/
theorem c186_station_violated (vel : List (List F)) :
    ∃ im, gridPlot (gridAxis 2 1) (gridAxis 2 1) (some vel) = .ok im ∧
      argminQ ((gridAxis 2 1).map fun c => (c - 3 / 5) * (c - 3 / 5)) = 1 ∧
      ∀ r, (im.pixel 3 r 0).1.1 < 3 / 5 ∧ 3 / 5 < (im.pixel 3 r 0).1.2 := by
  have h : gridAxis 2 1 = [0, 1, 2] := by decide +kernel
  have h1 : axisLimits [0, 1, 2] = .ok (0, 2) := by decide +kernel
  refine ⟨⟨vel.reverse.map fun r => r.map fun a => a.map fun q => -100 * q, 0, 2, 0, 2⟩,
    by simp only [gridPlot, h, h1, bind, Except.bind, pure, Except.pure], by rw [h]; decide +kernel, fun r => ?_⟩
  constructor <;> norm_num [Image.pixel]

/-- **C186** (part) Before the first inversion there is no map, but an exception. -/
theorem c186_before (xs ys : List Rat) : gridPlot xs ys none = .error .attributeError := rfl

/-! ## C187: figures of single correlations -/

/-- **C187** (part) The figure of a correlation has for each sample the point at its lag and amplitude; the horizontal axis
has the given limits, or goes from the first to the last lag, so that all points with amplitudes between -1 and 1
(correlation coefficients) are visible.
Missing for the full property: `c187_visible_violated`, `c187_files_violated`. -/
theorem c187_line_partial (lags data : List Rat) (hlen : lags.length = data.length) (hne : lags ≠ []) (hsort : lags.Pairwise (· ≤ ·))
    (tlim : Option (Rat × Rat)) :
    ∃ fig, plotCtr lags data tlim = .ok fig ∧ fig.points.length = lags.length ∧ (∀ l, tlim = some l → fig.xlim = l) ∧
      ∀ (k : Nat) (l v : Rat), lags[k]? = some l → data[k]? = some v → fig.points[k]? = some (l, v) ∧
        (tlim = none → |v| ≤ 1 → fig.xlim.1 ≤ l ∧ l ≤ fig.xlim.2 ∧ fig.ylim.1 ≤ v ∧ v ≤ fig.ylim.2) := by
  have hfirst := List.head?_eq_some_head hne
  have hlast := List.getLast?_eq_some_getLast hne
  unfold plotCtr
  rw [if_neg (by simpa using hlen)]
  have hlim : lagLimits tlim lags = .ok (tlim.getD (lags.head hne, lags.getLast hne)) := by
    unfold lagLimits
    cases tlim with
    | some l => rfl
    | none => simp [hfirst, hlast]
  rw [hlim]
  refine ⟨_, rfl, by simp [hlen], ?_, fun k l v hk hv => ⟨by rw [List.getElem?_zip_eq_some]; exact ⟨hk, hv⟩, fun ht hab => ?_⟩⟩
  · rintro l rfl; rfl
  · subst ht
    simp only [Option.getD_none]
    obtain ⟨hkl, rfl⟩ := List.getElem?_eq_some_iff.1 hk
    have hp := List.pairwise_iff_getElem.1 hsort
    have hv' := abs_le.1 hab
    refine ⟨?_, ?_, hv'.1, hv'.2⟩
    · rw [List.head_eq_getElem]
      rcases Nat.eq_zero_or_pos k with rfl | h
      · exact le_rfl
      · exact hp 0 k _ hkl h
    · rw [List.getLast_eq_getElem]
      rcases Nat.lt_or_ge k (lags.length - 1) with h | h
      · exact hp k _ hkl _ h
      · have : k = lags.length - 1 := by omega
        subst this; exact le_rfl

example : ([-1, 0, 1] : List Rat).Pairwise (· ≤ ·) := by decide +kernel

/-- **C187** (negation of a part) The vertical axis always goes from -1 to 1: any sample of a correlation that is not
normalised and exceeds one is not visible. -/
theorem c187_visible_violated (lags data : List Rat) (tlim : Option (Rat × Rat)) (fig : LineFigure) (h : plotCtr lags data tlim = .ok fig)
    (v : Rat) (hv : 1 < |v|) : v < fig.ylim.1 ∨ fig.ylim.2 < v := by
  unfold plotCtr at h
  split at h
  · cases h
  · cases hl : lagLimits tlim lags with
    | error e => rw [hl] at h; cases h
    | ok l =>
      rw [hl] at h
      cases h
      rcases lt_abs.1 hv with h | h
      · exact Or.inr h
      · exact Or.inl (by show v < -1; linarith)

theorem length_stamp (t : Int) : (stamp t).length = 15 := by
  simp [stamp, length_fixedDigits]

theorem civil_bounds (t : Int) (ht : InYears t) :
    0 ≤ (civilOf (t / 1000)).year ∧ (civilOf (t / 1000)).year < 10000 ∧ (civilOf (t / 1000)).month < 100 ∧ (civilOf (t / 1000)).day < 100 ∧
      ((civilOf (t / 1000)).us : Int) < dayUs ∧ (civilOf (t / 1000)).abs = t / 1000 := by
  obtain ⟨h0, h1⟩ := ht
  obtain ⟨c1, c2, c3, c4, c5, c6, c7, c8⟩ := civilOf_spec (t / 1000) (by omega)
  have hm := (monthLength_pos (civilOf (t / 1000)).year (civilOf (t / 1000)).month).2
  refine ⟨by omega, ?_, by omega, by omega, c6, c7⟩
  apply Int.lt_of_not_ge
  intro hge
  have hle : daysBeforeYear 10000 ≤ daysBeforeYear (civilOf (t / 1000)).year := by
    rcases Int.lt_or_eq_of_le hge with h | h
    · have := daysBeforeYear_lt _ _ h; have := (yearLength_pos 10000).1; omega
    · rw [← h]
  unfold dayUs at *
  omega

/-- the time of a name is that of the correlation, to the second -/
theorem stamp_eq (t u : Int) (ht : InYears t) (hu : InYears u) : stamp t = stamp u ↔ t / 10 ^ 9 = u / 10 ^ 9 := by
  obtain ⟨a0, a1, a2, a3, a4, a5⟩ := civil_bounds t ht
  obtain ⟨b0, b1, b2, b3, b4, b5⟩ := civil_bounds u hu
  constructor
  · intro h
    unfold stamp at h
    simp only [List.append_assoc] at h
    have l4 : ∀ a b : Nat, (fixedDigits 4 a).length = (fixedDigits 4 b).length := by simp [length_fixedDigits]
    have l2 : ∀ a b : Nat, (fixedDigits 2 a).length = (fixedDigits 2 b).length := by simp [length_fixedDigits]
    obtain ⟨e1, h⟩ := List.append_inj h (l4 _ _)
    obtain ⟨e2, h⟩ := List.append_inj h (l2 _ _)
    obtain ⟨e3, h⟩ := List.append_inj h (l2 _ _)
    obtain ⟨_, h⟩ := List.append_inj h rfl
    obtain ⟨e4, h⟩ := List.append_inj h (l2 _ _)
    obtain ⟨e5, e6⟩ := List.append_inj h (l2 _ _)
    unfold dayUs at a4 b4
    have f1 := fixedDigits_inj (w := 4) (by omega) (by omega) e1
    have f2 := fixedDigits_inj (w := 2) (by omega) (by omega) e2
    have f3 := fixedDigits_inj (w := 2) (by omega) (by omega) e3
    have f4 := fixedDigits_inj (w := 2) (by omega) (by omega) e4
    have f5 := fixedDigits_inj (w := 2) (by omega) (by omega) e5
    have f6 := fixedDigits_inj (w := 2) (by omega) (by omega) e6
    have hy : (civilOf (t / 1000)).year = (civilOf (u / 1000)).year := by omega
    have hd : (civilOf (t / 1000)).dayNo = (civilOf (u / 1000)).dayNo := by
      unfold Civil.dayNo; rw [hy, f2, f3]
    unfold Civil.abs dayUs at a5 b5
    rw [hd] at a5
    omega
  · intro h
    have hus : t / 1000 / 1000000 = u / 1000 / 1000000 := by omega
    -- same day
    have hday : t / 1000 / dayUs = u / 1000 / dayUs := by unfold dayUs; omega
    have hsec : (civilOf (t / 1000)).us / 1000000 = (civilOf (u / 1000)).us / 1000000 := by
      have e : ∀ v : Int, (civilOf v).us = (v % dayUs).toNat := fun _ => rfl
      rw [e, e]; unfold dayUs; omega
    have hdate : (civilOf (t / 1000)).year = (civilOf (u / 1000)).year ∧ (civilOf (t / 1000)).month = (civilOf (u / 1000)).month ∧
        (civilOf (t / 1000)).day = (civilOf (u / 1000)).day := by
      unfold civilOf
      rw [hday]
      exact ⟨rfl, rfl, rfl⟩
    unfold stamp
    simp only
    rw [hdate.1, hdate.2.1, hdate.2.2, hsec]

/-- **C187** (part) The figures of two correlations are written to the same file of a directory if and only if they have the
same identifier and start in the same second; correlations that start in different seconds never replace each other.
Missing for the full property: `c187_visible_violated`, `c187_files_violated`. -/
theorem c187_files_partial (id id' : Str) (t u : Int) (ht : InYears t) (hu : InYears u) :
    ctrFile id t = ctrFile id' u ↔ id = id' ∧ t / 10 ^ 9 = u / 10 ^ 9 := by
  rw [← stamp_eq t u ht hu]
  unfold ctrFile
  constructor
  · intro h
    have h1 := List.append_cancel_right h
    obtain ⟨e1, e2⟩ := List.append_inj' h1 (by simp [length_stamp])
    exact ⟨List.append_cancel_right e1, e2⟩
  · rintro ⟨rfl, h⟩; rw [h]

/-- **C187** (part) The name of the file begins with the identifier and has the extension of the format. -/
theorem c187_name (id : Str) (t : Int) : id <+: ctrFile id t ∧ c!".pdf" <:+ ctrFile id t := by
  unfold ctrFile
  exact ⟨⟨c!"_" ++ stamp t ++ c!".pdf", by simp⟩, ⟨id ++ c!"_" ++ stamp t, rfl⟩⟩

example : ctrFile c!"A-A.B-C..Z-Z" 63082281600000000000 = c!"A-A.B-C..Z-Z_20000101T000000.pdf" := by decide +kernel

/-- **C187** (negation of a part) Of two correlations that start in the same second (half a second apart) only one figure
remains. -/
theorem c187_files_violated (id : Str) :
    ∃ t u, InYears t ∧ InYears u ∧ t ≠ u ∧ ctrFile id t = ctrFile id u :=
  ⟨0, 500000000, by decide, by decide, by decide, (c187_files_partial id id 0 500000000 (by decide) (by decide)).2 ⟨rfl, by decide⟩⟩

end SeisMIC
