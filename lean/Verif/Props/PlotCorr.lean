import Verif.Props.PlotDv
import Verif.Lemmas.Glob
import Mathlib.Tactic.Linarith
import Mathlib.Tactic.FieldSimp
import Mathlib.Tactic.Ring
import Mathlib.Tactic.NormNum

/-!
# C178, C179, C180: figures of several velocity changes and of correlations
-/

namespace SeisMIC

/-! ## C178: several velocity changes in one figure -/

/-- what is shown of a value: minus the value or its modulus -/
def wantedValue (plotAbs : Bool) (v : F) : F := v.map fun x => if plotAbs then |x| else -x

/-- the curve that belongs to a velocity change -/
def wantedCurve (plotAbs : Bool) (d : DvCurve) : DrawnCurve := ⟨d.station, d.starts.zip (d.value.map (wantedValue plotAbs))⟩

theorem shownValue_eq : shownValue = wantedValue := by
  funext plotAbs v
  cases v with
  | none => cases plotAbs <;> rfl
  | some x =>
    cases plotAbs
    · rfl
    · simp only [shownValue, wantedValue, F.abs, Option.map_some, if_true, Option.some.injEq]
      rcases lt_or_ge x 0 with h | h
      · rw [if_neg (by linarith), abs_of_neg h]
      · rw [abs_of_nonneg h]
        split <;> linarith

theorem multiDvLoop_read (read : Str → Option DvCurve) (d : Str → DvCurve) (fs : List Str) (h : ∀ f ∈ fs, read f = some (d f)) (prev : Option DvCurve) :
    multiDvLoop read prev fs = .ok (fs.map d) := by
  induction fs generalizing prev with
  | nil => rfl
  | cons f fs ih =>
    rw [multiDvLoop, h f (by simp), Option.some_or]
    simp only
    rw [ih (fun g hg => h g (by simp [hg]))]
    rfl

/-- each entry twice -/
def twice {α : Type} (l : List α) : List α := l.flatMap fun x => [x, x]

theorem twice_get {α : Type} (l : List α) (k : Nat) : (twice l)[k]? = l[k / 2]? := by
  induction l generalizing k with
  | nil => simp [twice]
  | cons a l ih =>
    have : twice (a :: l) = a :: a :: twice l := rfl
    rw [this]
    match k with
    | 0 => rfl
    | 1 => rfl
    | k + 2 =>
      rw [show (k + 2) / 2 = k / 2 + 1 by omega]
      simpa using ih k

theorem twice_length {α : Type} (l : List α) : (twice l).length = 2 * l.length := by
  induction l with
  | nil => rfl
  | cons a l ih =>
    have : twice (a :: l) = a :: a :: twice l := rfl
    rw [this, List.length_cons, List.length_cons, ih, List.length_cons]
    omega

theorem twice_sorted (l : List Rat) (h : l.Pairwise (· ≤ ·)) : (twice l).Pairwise (· ≤ ·) := by
  induction l with
  | nil => exact List.Pairwise.nil
  | cons a l ih =>
    have e : twice (a :: l) = a :: a :: twice l := rfl
    obtain ⟨h1, h2⟩ := List.pairwise_cons.1 h
    have h3 : ∀ x ∈ twice l, a ≤ x := by
      intro x hx
      obtain ⟨y, hy, hxy⟩ := List.mem_flatMap.1 hx
      simp at hxy
      exact hxy ▸ h1 y hy
    rw [e]
    refine List.Pairwise.cons (fun x hx => ?_) (List.Pairwise.cons h3 (ih h2))
    rcases List.mem_cons.1 hx with rfl | hx
    · exact le_rfl
    · exact h3 x hx

theorem isort_twice (l : List Rat) : isort (fun a b : Rat => decide (a ≤ b)) (twice l) = twice (isort (fun a b : Rat => decide (a ≤ b)) l) := by
  have hs : ∀ v : List Rat, (isort (fun a b : Rat => decide (a ≤ b)) v).Pairwise (· ≤ ·) := fun v =>
    (isort_sorted (fun a b : Rat => decide (a ≤ b)) (by intro a b h; simp at *; exact h.le) (by intro a b c h1 h2; simp at *; exact h1.trans h2) v).imp (by simp)
  refine List.Perm.eq_of_pairwise (le := (· ≤ ·)) (fun a b _ _ => le_antisymm) (hs _) (twice_sorted _ (hs _)) ?_
  exact (isort_perm _ _).trans (((isort_perm _ l).symm).flatMap_right _)

theorem notNan_twice (l : List F) : notNan (twice l) = twice (notNan l) := by
  induction l with
  | nil => rfl
  | cons a l ih =>
    have e : twice (a :: l) = a :: a :: twice l := rfl
    rw [e]
    cases a with
    | none => simpa [notNan] using ih
    | some a =>
      have : notNan (some a :: l) = a :: notNan l := rfl
      rw [this]
      have e2 : twice (a :: notNan l) = a :: a :: twice (notNan l) := rfl
      rw [e2, ← ih]
      rfl

/-- the median does not change if each value is counted twice -/
theorem nanmedian_twice (l : List F) : nanmedian (twice l) = nanmedian l := by
  unfold nanmedian
  rw [notNan_twice]
  cases hl : notNan l with
  | nil => rfl
  | cons a v =>
    have e2 : twice (a :: v) = a :: a :: twice v := rfl
    rw [e2]
    simp only
    rw [← e2, isort_twice]
    congr 1
    obtain ⟨s, hs⟩ : ∃ s, s = isort (fun a b : Rat => decide (a ≤ b)) (a :: v) := ⟨_, rfl⟩
    have hpos : 0 < s.length := by rw [hs, length_isort]; simp
    rw [← hs]
    unfold middleQ
    rw [twice_length]
    simp only [List.getD_eq_getElem?_getD, twice_get]
    rw [if_neg (by omega)]
    rw [show 2 * s.length / 2 = s.length by omega]
    split
    · rename_i h
      rw [show (s.length - 1) / 2 = s.length / 2 by omega]
      ring
    · rename_i h
      rw [show (s.length - 1) / 2 = s.length / 2 - 1 by omega]

/-- **C178** (part) If all selected files can be read, the figure has exactly one curve for each entry of the list of
selected files, in this order: minus the value (or its modulus) at each start time.
Missing for the full property: `c178_filters_violated`, `c178_damaged_violated`, `c178_times_violated`. -/
theorem c178_curves_partial (read : Str → Option DvCurve) (d : Str → DvCurve) (found : List Str) (filt : Option (List Str)) (plotAbs : Bool)
    (hne : multiFiles found filt ≠ []) (h : ∀ f ∈ multiFiles found filt, read f = some (d f) ∧ (d f).starts.length = (d f).value.length) :
    plotMultipleDv read found filt plotAbs false = .ok ((multiFiles found filt).map fun f => wantedCurve plotAbs (d f), none) := by
  unfold plotMultipleDv
  simp only [shownValue_eq]
  rw [multiDvLoop_read read d _ (fun f hf => (h f hf).1)]
  simp only [bind, Except.bind]
  have h1 : (((multiFiles found filt).map d).any fun d => decide (d.starts.length ≠ d.value.length)) = false := by
    rw [List.any_eq_false]
    intro x hx
    obtain ⟨f, hf, rfl⟩ := List.mem_map.1 hx
    simpa using (h f hf).2
  rw [h1]
  cases hl : ((multiFiles found filt).map d).getLast? with
  | none => exact absurd (List.map_eq_nil_iff.1 (List.getLast?_eq_none_iff.1 hl)) hne
  | some x =>
    simp only [Bool.false_eq_true, if_false, pure, Except.pure, List.map_map]
    rfl

/-- **C178** (part) The selected files: without a filter all, otherwise those that match one of the filters. -/
theorem c178_selected (found : List Str) (f : Str) :
    (f ∈ multiFiles found none ↔ f ∈ found) ∧
      ∀ fs, f ∈ multiFiles found (some fs) ↔ f ∈ found ∧ ∃ p ∈ fs, fnmatch f (c!"*" ++ p ++ c!"*") = true := by
  refine ⟨Iff.rfl, fun fs => ?_⟩
  simp only [multiFiles, List.mem_flatMap, List.mem_filter]
  constructor
  · rintro ⟨p, hp, hf, hm⟩
    exact ⟨hf, p, hp, hm⟩
  · rintro ⟨hf, p, hp, hm⟩
    exact ⟨p, hp, hf, hm⟩

/-- **C178** (part) A filter without wildcards selects the files whose path contains it. -/
theorem c178_plain (found : List Str) (f p : Str) (hp : Plain p) : f ∈ multiFiles found (some [p]) ↔ f ∈ found ∧ ∃ u v, f = u ++ p ++ v := by
  rw [(c178_selected found f).2]
  refine and_congr_right fun _ => ?_
  constructor
  · rintro ⟨q, hq, hm⟩
    obtain rfl := List.mem_singleton.1 hq
    rw [show c!"*" ++ q ++ c!"*" = '*' :: (q ++ ['*']) from rfl, fnmatch_star] at hm
    obtain ⟨u, w, rfl, hw⟩ := hm
    obtain ⟨v, rfl⟩ := (fnmatch_prefix w q hp).1 hw
    exact ⟨u, v, by simp⟩
  · rintro ⟨u, v, rfl⟩
    refine ⟨p, by simp, ?_⟩
    rw [show c!"*" ++ p ++ c!"*" = '*' :: (p ++ ['*']) from rfl, fnmatch_star]
    exact ⟨u, p ++ v, by simp, (fnmatch_prefix _ p hp).2 ⟨v, rfl⟩⟩

/-- **C178** (part) The median curve, for files with the same start times: at each time it is the median of the values
that are shown for this time, each file counted once, and it ignores missing values.
Missing for the full property: `c178_filters_violated`, `c178_damaged_violated`, `c178_times_violated`. -/
theorem c178_median_partial (read : Str → Option DvCurve) (d : Str → DvCurve) (found : List Str) (filt : Option (List Str)) (plotAbs : Bool)
    (starts : List Int) (hne : multiFiles found filt ≠ [])
    (h : ∀ f ∈ multiFiles found filt, read f = some (d f) ∧ (d f).starts = starts ∧ (d f).value.length = starts.length) :
    ∃ med, plotMultipleDv read found filt plotAbs true = .ok ((multiFiles found filt).map fun f => wantedCurve plotAbs (d f), some (starts.zip med)) ∧
      med.length = starts.length ∧
      ∀ j, j < starts.length → med[j]? = some (nanmedian ((multiFiles found filt).map fun f => wantedValue plotAbs ((d f).value.getD j none))) := by
  obtain ⟨fs, hfs⟩ : ∃ fs, fs = multiFiles found filt := ⟨_, rfl⟩
  rw [← hfs] at h hne
  have hcol : ∀ j, column ((fs.map d).flatMap fun d => [d.value.map (wantedValue plotAbs), d.value.map (wantedValue plotAbs)]) j
      = twice (fs.map fun f => ((d f).value.map (wantedValue plotAbs)).getD j none) := by
    intro j
    clear h hne hfs
    induction fs with
    | nil => rfl
    | cons f fs ih =>
      have : column (((f :: fs).map d).flatMap fun d => [d.value.map (wantedValue plotAbs), d.value.map (wantedValue plotAbs)]) j =
        ((d f).value.map (wantedValue plotAbs)).getD j none :: ((d f).value.map (wantedValue plotAbs)).getD j none ::
          column ((fs.map d).flatMap fun d => [d.value.map (wantedValue plotAbs), d.value.map (wantedValue plotAbs)]) j := rfl
      rw [this, ih]
      rfl
  have hn : ((((fs.map d).flatMap fun d => [d.value.map (wantedValue plotAbs), d.value.map (wantedValue plotAbs)]).head?).map List.length).getD 0 = starts.length := by
    cases fs with
    | nil => exact absurd rfl hne
    | cons f fs => simpa using (h f (by simp)).2.2
  have hall : (((fs.map d).flatMap fun d => [d.value.map (wantedValue plotAbs), d.value.map (wantedValue plotAbs)]).all fun v => decide (v.length = starts.length)) = true := by
    rw [List.all_eq_true]
    intro v hv
    obtain ⟨x, hx, hv⟩ := List.mem_flatMap.1 hv
    obtain ⟨f, hf, rfl⟩ := List.mem_map.1 hx
    simp at hv
    simpa [hv] using (h f hf).2.2
  refine ⟨(List.range starts.length).map fun j => nanmedian (column ((fs.map d).flatMap fun d => [d.value.map (wantedValue plotAbs), d.value.map (wantedValue plotAbs)]) j), ?_, by simp, fun j hj => ?_⟩
  · unfold plotMultipleDv
    simp only [shownValue_eq]
    rw [← hfs, multiDvLoop_read read d _ (fun f hf => (h f hf).1)]
    simp only [bind, Except.bind]
    have h1 : ((fs.map d).any fun d => decide (d.starts.length ≠ d.value.length)) = false := by
      rw [List.any_eq_false]
      intro x hx
      obtain ⟨f, hf, rfl⟩ := List.mem_map.1 hx
      simpa [(h f hf).2.1] using (h f hf).2.2.symm
    rw [h1]
    cases hl : (fs.map d).getLast? with
    | none => exact absurd (List.map_eq_nil_iff.1 (List.getLast?_eq_none_iff.1 hl)) hne
    | some x =>
      obtain ⟨f, hf, rfl⟩ := List.mem_map.1 (List.mem_of_getLast? hl)
      simp only [Bool.false_eq_true, if_false, if_true, pure, Except.pure, List.map_map, medianCurve, hn, hall, (h f hf).2.1]
      rfl
  · rw [List.getElem?_map, List.getElem?_range hj, Option.map_some, hcol, nanmedian_twice, ← hfs]
    congr 2
    refine List.map_congr_left fun f hf => ?_
    have : j < (d f).value.length := by rw [(h f hf).2.2]; exact hj
    simp [List.getD_eq_getElem?_getD, this]

/-- the hypotheses of `c178_median_partial` are met by two files -/
example : plotMultipleDv (fun f => if f = c!"a.npz" then some ⟨c!"A", [1, 2], [some 1, none]⟩ else some ⟨c!"B", [1, 2], [some 3, some (-4)]⟩) [c!"a.npz", c!"b.npz"] none false true
    = .ok ([⟨c!"A", [(1, some (-1)), (2, none)]⟩, ⟨c!"B", [(1, some (-3)), (2, some 4)]⟩], some [(1, some (-2)), (2, some 4)]) := by decide +kernel

/-- **C178** (negation of a part) A file that matches two filters is drawn twice. -/
theorem c178_filters_violated (f a b : Str) (dv : DvCurve) (hl : dv.starts.length = dv.value.length)
    (ha : fnmatch f (c!"*" ++ a ++ c!"*") = true) (hb : fnmatch f (c!"*" ++ b ++ c!"*") = true) :
    plotMultipleDv (fun _ => some dv) [f] (some [a, b]) false false = .ok ([wantedCurve false dv, wantedCurve false dv], none) := by
  have : multiFiles [f] (some [a, b]) = [f, f] := by
    simp only [multiFiles, List.flatMap_cons, List.flatMap_nil, List.append_nil, List.filter_cons, List.filter_nil, ha, hb, if_true]
    rfl
  have h := c178_curves_partial (fun _ => some dv) (fun _ => dv) [f] (some [a, b]) false (by rw [this]; simp) (fun _ _ => ⟨rfl, hl⟩)
  rw [this] at h
  exact h

example : fnmatch c!"DV-GR-FUR.npz" (c!"*" ++ c!"GR" ++ c!"*") = true ∧ fnmatch c!"DV-GR-FUR.npz" (c!"*" ++ c!"FUR" ++ c!"*") = true := by decide

/-- **C178** (negation of a part) A damaged file should be skipped. Instead the curve of the file before it is drawn a
second time, and if the damaged file comes first there is no figure, but an `UnboundLocalError`. -/
theorem c178_damaged_violated (read : Str → Option DvCurve) (good bad : Str) (dv : DvCurve) (hg : read good = some dv) (hb : read bad = none)
    (hl : dv.starts.length = dv.value.length) :
    plotMultipleDv read [good, bad] none false false = .ok ([wantedCurve false dv, wantedCurve false dv], none) ∧
      plotMultipleDv read [bad, good] none false false = .error .unboundLocalError := by
  constructor
  · simp [plotMultipleDv, shownValue_eq, multiFiles, multiDvLoop, hg, hb, bind, Except.bind, Except.map, hl, pure, Except.pure, wantedCurve]
  · simp [plotMultipleDv, multiFiles, multiDvLoop, hb, bind, Except.bind]

/-- **C178** (negation of a part) The start times are not compared: the median of curves of different times is drawn at
the times of the last file. -/
theorem c178_times_violated : plotMultipleDv (fun f => if f = c!"a.npz" then some ⟨c!"A", [1], [some 2]⟩ else some ⟨c!"B", [100], [some 4]⟩) [c!"a.npz", c!"b.npz"] none false true
    = .ok ([⟨c!"A", [(1, some (-2))]⟩, ⟨c!"B", [(100, some (-4))]⟩], some [(100, some (-3))]) := by decide +kernel

/-! ## C179: figures of correlations -/

theorem sortCst_perm (k : SortBy) (st : List PlotTr) : (sortCst k st).Perm st := by
  unfold sortCst
  cases k <;> exact (isort_perm _ _).trans ((isort_perm _ _).trans ((isort_perm _ _).trans (isort_perm _ _)))

theorem sortCst_start (st : List PlotTr) : ((sortCst .corrStart st).map PlotTr.start).Pairwise (· ≤ ·) := by
  rw [List.pairwise_map]
  exact (isort_sorted (fun a b : PlotTr => decide (a.start ≤ b.start)) (by intro a b h; simp at *; exact h.le)
    (by intro a b c h1 h2; simp at *; exact h1.trans h2) _).imp (by simp)

theorem sortCst_dist (st : List PlotTr) : ((sortCst .dist st).map PlotTr.dist).Pairwise (· ≤ ·) := by
  rw [List.pairwise_map]
  exact (isort_sorted (fun a b : PlotTr => decide (a.dist ≤ b.dist)) (by intro a b h; simp at *; exact h.le)
    (by intro a b c h1 h2; simp at *; exact h1.trans h2) _).imp (by simp)

theorem meshRows_ok (st : List PlotTr) (rows : List (List Rat)) (L : List Rat) (hst : ∀ t ∈ st, t.lags = L ∧ t.data.length = L.length)
    (hne : st ≠ []) (hrows : ∀ r ∈ rows, r.length = L.length) : meshRows st rows = .ok rows := by
  unfold meshRows
  cases st with
  | nil => exact absurd rfl hne
  | cons t st =>
    rw [if_pos]
    rw [List.all_eq_true]
    intro r hr
    have h1 := (hst t (by simp)).2
    simp [h1, hrows r hr]

/-- **C179** (part) The figure of correlations over time, for traces with the same lag times: the rows are a reordering of
the stream of the user, which is sorted in place, in the order of time; each row has the start time and the data of
its trace, and sample `k` is drawn at lag `k` of the axis.
Missing for the full property: `c179_axis_violated`, `c179_lags_violated`, `c179_west_violated`. -/
theorem c179_time_partial (st : List PlotTr) (L : List Rat) (hne : st ≠ []) (hst : ∀ t ∈ st, t.lags = L ∧ t.data.length = L.length) :
    ∃ st' mesh, heatStart st = .ok (st', mesh) ∧ st'.Perm st ∧ mesh.y.Pairwise (· ≤ ·) ∧ mesh.x = L ∧
      mesh.y = st'.map PlotTr.start ∧ mesh.rows = st'.map PlotTr.data := by
  have hp := sortCst_perm .corrStart st
  have hst' : ∀ t ∈ sortCst .corrStart st, t.lags = L ∧ t.data.length = L.length := fun t ht => hst t (hp.subset ht)
  unfold heatStart
  cases hl : (sortCst .corrStart st).getLast? with
  | none =>
    rw [List.getLast?_eq_none_iff] at hl
    rw [hl] at hp
    exact absurd (List.nil_perm.1 hp) hne
  | some last =>
    have hm := List.mem_of_getLast? hl
    simp only [hl]
    rw [meshRows_ok _ _ L hst' (List.ne_nil_of_mem hm) (by
      intro r hr
      obtain ⟨t, ht, rfl⟩ := List.mem_map.1 hr
      exact (hst' t ht).2)]
    exact ⟨_, _, rfl, hp, sortCst_start st, (hst' last hm).1, rfl, rfl⟩

/-- **C179** (negation of a part) The lag times are not compared: for two traces with the same number of samples but
different lags there is a figure, and the earlier one is drawn at the lag times of the later one. -/
theorem c179_lags_violated (n : Str) (x y : Rat) (a b : Rat) :
    heatStart [⟨n, n, n, 1, 0, 0, [x], [a]⟩, ⟨n, n, n, 2, 0, 0, [y], [b]⟩] =
      .ok ([⟨n, n, n, 1, 0, 0, [x], [a]⟩, ⟨n, n, n, 2, 0, 0, [y], [b]⟩], ⟨[y], [1, 2], [[a], [b]]⟩) := by
  simp [heatStart, sortCst, isort, insertSorted, meshRows, Except.map]

/-- where the sample of a trace at lag `l` should be drawn: correlations with a station to the west (azimuth from 180
degrees on) are turned around -/
def wantedLag (t : PlotTr) (l : Rat) : Rat := if 180 ≤ t.az then -l else l

/-- **C179** (part) The coloured figure of correlations over distance, for traces with the same lag times, which are
symmetric to zero: the rows are in the order of distance, and each sample of each trace is drawn in the row of its
trace at its lag, which changes its sign for stations to the west.
Missing for the full property: `c179_axis_violated`, `c179_lags_violated`, `c179_west_violated`. -/
theorem c179_distance_partial (st : List PlotTr) (L : List Rat) (hne : st ≠ []) (hst : ∀ t ∈ st, t.lags = L ∧ t.data.length = L.length)
    (hsym : L.reverse = L.map fun x => -x) :
    ∃ st' mesh, heatDist st = .ok (st', mesh) ∧ st'.Perm st ∧ mesh.y.Pairwise (· ≤ ·) ∧ mesh.y = st'.map PlotTr.dist ∧ mesh.x = L ∧
      mesh.rows.length = st'.length ∧
      ∀ (i : Nat) (t : PlotTr), st'[i]? = some t → ∃ row, mesh.rows[i]? = some row ∧ row.length = L.length ∧
        ∀ (k : Nat) (l y : Rat), t.lags[k]? = some l → t.data[k]? = some y → ∃ k' : Nat, mesh.x[k']? = some (wantedLag t l) ∧ row[k']? = some y := by
  have hp := sortCst_perm .dist st
  have hst' : ∀ t ∈ sortCst .dist st, t.lags = L ∧ t.data.length = L.length := fun t ht => hst t (hp.subset ht)
  unfold heatDist
  cases hl : (sortCst .dist st).head? with
  | none =>
    rw [List.head?_eq_none_iff] at hl
    rw [hl] at hp
    exact absurd (List.nil_perm.1 hp) hne
  | some t0 =>
    have hm := List.mem_of_head? hl
    simp only [hl]
    rw [meshRows_ok _ _ L hst' (List.ne_nil_of_mem hm) (by
      intro r hr
      obtain ⟨t, ht, rfl⟩ := List.mem_map.1 hr
      split
      · rw [List.length_reverse]; exact (hst' t ht).2
      · exact (hst' t ht).2)]
    refine ⟨_, _, rfl, hp, sortCst_dist st, rfl, (hst' t0 hm).1, by simp, fun i t ht => ?_⟩
    obtain ⟨e1, e2⟩ := hst' t (List.mem_of_getElem? ht)
    refine ⟨_, by rw [List.getElem?_map, ht, Option.map_some], ?_, fun k l y hk hy => ?_⟩
    · split
      · rw [List.length_reverse]; exact e2
      · exact e2
    · simp only [(hst' t0 hm).1]
      rw [e1] at hk
      have hkl : k < L.length := (List.getElem?_eq_some_iff.1 hk).1
      unfold wantedLag
      by_cases haz : 180 ≤ t.az
      · rw [if_pos haz, if_pos haz]
        refine ⟨L.length - 1 - k, ?_, ?_⟩
        · have h1 : L.reverse[k]? = L[L.length - 1 - k]? := List.getElem?_reverse hkl
          rw [← h1, hsym, List.getElem?_map, hk]
          rfl
        · rw [List.getElem?_reverse (by omega), e2, show L.length - 1 - (L.length - 1 - k) = k by omega]
          exact hy
      · rw [if_neg haz, if_neg haz]
        exact ⟨k, hk, hy⟩

/-- **C179** (negation of a part) For lags that are not symmetric the coloured figure is wrong for stations to the west:
with the lags 0, 1 and 2 the data of lag 0 are drawn at lag 2. -/
theorem c179_west_violated (n : Str) (a b c : Rat) :
    heatDist [⟨n, n, n, 1, 5, 270, [0, 1, 2], [a, b, c]⟩] = .ok ([⟨n, n, n, 1, 5, 270, [0, 1, 2], [a, b, c]⟩], ⟨[0, 1, 2], [5], [[c, b, a]]⟩) := by
  have : (180 : Rat) ≤ 270 := by norm_num
  simp [heatDist, sortCst, isort, insertSorted, meshRows, Except.map, this]

/-- **C179** (part) The figure with lines over distance is right for all lag times: the line of a trace has for each sample
the point at its lag, which changes its sign for stations to the west, and at the distance plus the scaled amplitude. -/
theorem c179_section (st : List PlotTr) (scaling : Rat) (hs : scaling ≠ 0) (hne : st ≠ []) :
    ∃ st' lines, sectDist st scaling = .ok (st', lines) ∧ st'.Perm st ∧ (st'.map PlotTr.dist).Pairwise (· ≤ ·) ∧ lines.length = st'.length ∧
      ∀ (i : Nat) (t : PlotTr), st'[i]? = some t → ∃ line, lines[i]? = some line ∧ line.length = min t.lags.length t.data.length ∧
        ∀ (k : Nat) (l y : Rat), t.lags[k]? = some l → t.data[k]? = some y → line[k]? = some (wantedLag t l, t.dist + 4 * scaling * y) := by
  have hp := sortCst_perm .dist st
  unfold sectDist
  have hn : (sortCst .dist st).isEmpty = false := by
    cases h : sortCst .dist st with
    | nil => rw [h] at hp; exact absurd (List.nil_perm.1 hp) hne
    | cons a l => rfl
  simp only [hn, Bool.false_eq_true, if_false, if_neg hs]
  refine ⟨_, _, rfl, hp, sortCst_dist st, by simp, fun i t ht => ⟨_, by rw [List.getElem?_map, ht, Option.map_some], ?_, fun k l y hk hy => ?_⟩⟩
  · split <;> simp
  · rw [List.getElem?_zip_eq_some]
    unfold wantedLag
    refine ⟨?_, ?_⟩
    · split <;> simp [hk]
    · rw [List.getElem?_map, hy, Option.map_some]
      congr 1
      ring

/-- the hypotheses of the theorems are met: two stations, one to the west, lags -1, 0 and 1 -/
example : heatDist [⟨c!"N", c!"B", c!"Z", 1, 5, 270, [-1, 0, 1], [1, 2, 3]⟩, ⟨c!"N", c!"A", c!"Z", 1, 2, 90, [-1, 0, 1], [4, 5, 6]⟩]
    = .ok ([⟨c!"N", c!"A", c!"Z", 1, 2, 90, [-1, 0, 1], [4, 5, 6]⟩, ⟨c!"N", c!"B", c!"Z", 1, 5, 270, [-1, 0, 1], [1, 2, 3]⟩],
      ⟨[-1, 0, 1], [2, 5], [[4, 5, 6], [3, 2, 1]]⟩) := by decide +kernel

example : ([-1, 0, 1] : List Rat).reverse = ([-1, 0, 1] : List Rat).map fun x => -x := by decide +kernel

/-! ## C180: the image of a matrix of correlations -/

theorem diff2_iff (starts : List Int) : ((diff2 starts).any (· ≠ 0)) = false ↔
    ∃ d : Int, ∀ (i : Nat) (s : Int) (s0 : Int), starts[0]? = some s0 → starts[i]? = some s → s = s0 + i * d := by
  match starts with
  | [] => simp [diff2]
  | [a] =>
    refine ⟨fun _ => ⟨0, fun i s s0 h0 hs => ?_⟩, fun _ => rfl⟩
    cases i <;> simp_all
  | [a, b] =>
    refine ⟨fun _ => ⟨b - a, fun i s s0 h0 hs => ?_⟩, fun _ => rfl⟩
    match i with
    | 0 => simp_all
    | 1 => simp at h0 hs; subst h0 hs; push_cast; ring
    | i + 2 => simp at hs
  | a :: b :: c :: l =>
    have ih := diff2_iff (b :: c :: l)
    rw [diff2, List.any_cons, Bool.or_eq_false_iff, ih]
    constructor
    · rintro ⟨h1, d, hd⟩
      have hc := hd 1 c b rfl rfl
      simp at h1 hc
      refine ⟨d, fun i s s0 h0 hs => ?_⟩
      simp at h0
      subst h0
      cases i with
      | zero => simp at hs; simp [hs]
      | succ i =>
        have := hd i s b rfl (by simpa using hs)
        rw [this]
        push_cast
        have : b = a + d := by linarith
        rw [this]
        ring
    · rintro ⟨d, hd⟩
      have hb := hd 1 b a rfl rfl
      have hc := hd 2 c a rfl rfl
      push_cast at hb hc
      refine ⟨by simp; linarith, d, fun i s s0 h0 hs => ?_⟩
      simp at h0
      subst h0
      have := hd (i + 1) s a rfl (by simpa using hs)
      rw [this, hb]
      push_cast
      ring
  termination_by starts.length

/-- **C180** (part) A matrix of correlations is drawn if and only if it has rows and their start times have a constant
distance; otherwise there is no figure, but an exception. -/
theorem c180_regular (starts : List Int) (data : List (List F)) (startLag endLag : Rat) :
    (∃ im, plotCorrBulk starts data startLag endLag = .ok im) ↔
      starts ≠ [] ∧ ∃ d : Int, ∀ (i : Nat) (s : Int) (s0 : Int), starts[0]? = some s0 → starts[i]? = some s → s = s0 + i * d := by
  rw [← diff2_iff]
  unfold plotCorrBulk
  cases hd : (diff2 starts).any (· ≠ 0) with
  | true => simp
  | false =>
    simp only [Bool.false_eq_true, if_false, and_true]
    cases starts with
    | nil => simp
    | cons a l =>
      cases hl : (a :: l).getLast? with
      | none => simp at hl
      | some t => simp

/-- **C180** (part) In the figure of a matrix with sorted start times each value is drawn in a pixel that contains the start
time of its row and the lag of its column, and the rows go from the top to the bottom. -/
theorem c180_pixel (starts : List Int) (data : List (List F)) (startLag endLag : Rat) (im : Image) (h : plotCorrBulk starts data startLag endLag = .ok im)
    (hdata : data.length = starts.length) (hn : 1 < starts.length) (hsort : starts.Pairwise (· ≤ ·))
    (lags : List Rat) (hm : 1 < lags.length) (hlags : ∀ (k : Nat) (l : Rat), lags[k]? = some l → l = startLag + (endLag - startLag) * k / (lags.length - 1))
    (hle : startLag ≤ endLag) (i k : Nat) (t : Int) (row : List F) (l : Rat) (ht : starts[i]? = some t) (hrow : data[i]? = some row) (hl : lags[k]? = some l) :
    im.rows[i]? = some row ∧ (im.pixel lags.length i k).1.1 ≤ l ∧ l ≤ (im.pixel lags.length i k).1.2 ∧
      (im.pixel lags.length i k).2.1 ≤ t ∧ t ≤ (im.pixel lags.length i k).2.2 ∧ im.top ≤ im.bottom := by
  have hreg := (c180_regular starts data startLag endLag).1 ⟨im, h⟩
  obtain ⟨_, d, hd⟩ := hreg
  unfold plotCorrBulk at h
  split at h
  · cases h
  cases hx0 : starts.head? with
  | none => rw [List.head?_eq_none_iff.1 hx0] at hn; simp at hn
  | some t0 =>
    cases hx1 : starts.getLast? with
    | none => rw [List.getLast?_eq_none_iff.1 hx1] at hn; simp at hn
    | some t1 =>
      simp only [hx0, hx1] at h
      cases h
      rw [List.head?_eq_getElem?] at hx0
      rw [List.getLast?_eq_getElem?] at hx1
      have e1 := hd _ t1 t0 hx0 hx1
      have e2 := hd i t t0 hx0 ht
      have hi : i < starts.length := (List.getElem?_eq_some_iff.1 ht).1
      have hk : k < lags.length := (List.getElem?_eq_some_iff.1 hl).1
      have h01 : t0 ≤ t1 := by
        obtain ⟨p0, q0⟩ := List.getElem?_eq_some_iff.1 hx0
        obtain ⟨p1, q1⟩ := List.getElem?_eq_some_iff.1 hx1
        have := List.pairwise_iff_getElem.1 hsort 0 (starts.length - 1) p0 p1 (by omega)
        rwa [q0, q1] at this
      have h01' : (t0 : Rat) ≤ t1 := by exact_mod_cast h01
      have h2 : (0 : Rat) < (starts.length : Rat) - 1 := by
        have : (1 : Rat) < starts.length := by exact_mod_cast hn
        linarith
      have et : (t : Rat) = t0 + (t1 - t0) * i / (starts.length - 1) := by
        have e1' : (t1 : Rat) = t0 + ((starts.length - 1 : Nat) : Rat) * d := by exact_mod_cast e1
        have e2' : (t : Rat) = t0 + (i : Rat) * d := by exact_mod_cast e2
        rw [Nat.cast_sub (by omega), Nat.cast_one] at e1'
        rw [e1', e2']
        field_simp
        ring
      have p1 := pixel_contains ((t1 : Rat) - t0) (by linarith) starts.length i hn hi
      have p2 := pixel_contains (endLag - startLag) (by linarith) lags.length k hm hk
      have el := hlags k l hl
      refine ⟨hrow, ?_, ?_, ?_, ?_, h01'⟩
      · simp only [Image.pixel]; rw [el]; linarith [p2.1]
      · simp only [Image.pixel]; rw [el]; linarith [p2.2]
      · simp only [Image.pixel, hdata]; rw [et]; linarith [p1.1]
      · simp only [Image.pixel, hdata]; rw [et]; linarith [p1.2]

example : ∃ im, plotCorrBulk [0, 10, 20] [[some 1, none, some 2], [some 3, some 4, some 5], [some 6, some 7, some 8]] (-1) 1 = .ok im := ⟨_, rfl⟩

example : plotCorrBulk [0, 10, 30] [[some 1], [some 2], [some 3]] (-1) 1 = .error .notImplementedError := by decide +kernel

end SeisMIC
