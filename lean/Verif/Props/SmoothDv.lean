import Verif.Model.SmoothDv
import Verif.Props.AverageDv
import Verif.Props.TraceUtils
import Verif.Props.Stretch

/-!
# C134: smoothing of a similarity matrix
-/

namespace SeisMIC

/-! ### Specification -/

/-- the similarities for stretch `j` at the times that are at most `h` times away from time `i`, without NaN and without those below the threshold -/
def nearSims (sim : List (List F)) (below : Option Rat) (h i j : Nat) : List Rat :=
  (notNan (samplesWhere (column sim j) fun k => decide (k ≤ i + h) && decide (i ≤ k + h))).filter fun v => below.all fun c => decide (c ≤ v)

/-- the mean of numbers, NaN if there is none -/
def meanOrNan (l : List Rat) : F := if l = [] then none else some (l.sum / l.length)

/-! ### Lemmas -/

theorem nanmean_eq (l : List F) : nanmean l = meanOrNan (notNan l) := by
  unfold nanmean meanOrNan
  cases notNan l <;> simp

theorem column_pySlice (data : List (List F)) (a b : Option Int) (j : Nat) : column (pySlice data a b) j = pySlice (column data j) a b := by
  unfold column pySlice
  cases a <;> cases b <;> simp [List.map_take, List.map_drop]

theorem nanMovingAvCols_get (ncol : Nat) (data : List (List F)) (h i j : Nat) (hi : i < data.length) (hj : j < ncol) :
    ∃ row, (nanMovingAvCols ncol data h)[i]? = some row ∧ row.length = ncol ∧ row[j]? = (nanMovingAv (column data j) h)[i]? := by
  unfold nanMovingAvCols nanMovingAv
  rw [List.getElem?_map, List.getElem?_range hi]
  refine ⟨_, rfl, by simp, ?_⟩
  rw [List.getElem?_map, List.getElem?_range hj, List.getElem?_map, List.getElem?_range (by simpa [column] using hi)]
  simp only [Option.map_some]
  rw [column_pySlice]

theorem column_excludeBelow (sim : List (List F)) (c : Rat) (j : Nat) : column (excludeBelow sim c) j = (column sim j).map (belowToNan c) := by
  unfold column excludeBelow
  rw [List.map_map, List.map_map]
  refine List.map_congr_left fun row _ => ?_
  simp only [Function.comp_apply, List.getD_eq_getElem?_getD, List.getElem?_map]
  cases row[j]? <;> simp [belowToNan]

theorem notNan_exclude (l : List F) (c : Rat) : notNan (l.map (belowToNan c)) = (notNan l).filter fun v => decide (c ≤ v) := by
  induction l with
  | nil => rfl
  | cons x l ih =>
    cases x with
    | none => exact ih
    | some v =>
      have e : notNan (some v :: l) = v :: notNan l := rfl
      rw [List.map_cons, e]
      by_cases h : v < c
      · rw [show belowToNan c (some v) = none by simp [belowToNan, h], List.filter_cons_of_neg (by simpa using h), ← ih]
        rfl
      · rw [show belowToNan c (some v) = some v by simp [belowToNan, h], List.filter_cons_of_pos (by simpa using h), ← ih]
        rfl

theorem column_length (A : List (List F)) (j : Nat) : (column A j).length = A.length := by simp [column]

/-! ### C134 -/

/-- **C134** (smoothed similarities). For every matrix, window length and threshold the similarity of time `i` and stretch `j` becomes the mean of the
similarities of this stretch at the times at most half a window away that are not NaN and not below the threshold, and NaN if there is none. The shape, the
stretches and the description are kept. -/
theorem c134_smoothed (d : Dv) (ncol winLen : Nat) (below : Option Rat) (hn : 0 < ncol) (hax : d.axis.length = ncol) :
    ∃ out, smoothSimMat d ncol winLen below = .ok out ∧ out.sim.length = d.sim.length ∧
      (∀ i j, i < d.sim.length → j < ncol → ∃ row, out.sim[i]? = some row ∧ row.length = ncol ∧
        row[j]? = some (meanOrNan (nearSims d.sim below (winLen / 2) i j))) ∧
      out = { d with sim := out.sim, corr := out.corr, value := out.value } := by
  have hval : ∀ sm : List (List F), (∀ row ∈ sm, row.length = ncol) →
      sm.mapM (firstBest d.axis) = .ok (sm.map fun row => d.axis[argmaxR (row.map nan0)]?) := by
    intro sm hsm
    refine mapM_ok _ _ _ fun row hrow => ?_
    have hl := hsm row hrow
    obtain ⟨h, -, -⟩ := argmaxR_spec (row.map nan0) (by
      intro h0
      rw [List.map_eq_nil_iff] at h0
      rw [h0] at hl
      simp at hl
      omega)
    rw [List.length_map] at h
    unfold firstBest
    rw [List.getElem?_eq_getElem (by omega)]
  have hrows : ∀ (data : List (List F)) (h : Nat), ∀ row ∈ nanMovingAvCols ncol data h, row.length = ncol := by
    intro data h row hrow
    obtain ⟨i, -, rfl⟩ := List.mem_map.1 hrow
    simp
  refine ⟨⟨d.network, d.station, d.channel, d.method, d.valueType, d.axis, _, _, _⟩, by
    unfold smoothSimMat
    simp only [bind, Except.bind, if_neg (by omega : ¬ ncol = 0), hval _ (hrows _ _), pure, Except.pure]
    rfl, ?_, fun i j hi hj => ?_, rfl⟩
  · cases below <;> simp [nanMovingAvCols, excludeBelow]
  cases below with
  | none =>
    obtain ⟨row, h1, h2, h3⟩ := nanMovingAvCols_get ncol d.sim (winLen / 2) i j hi hj
    refine ⟨row, h1, h2, ?_⟩
    rw [h3, (c72_moving_average _ _).2 i (by rw [column_length]; exact hi), nanmean_eq]
    unfold nearSims
    simp
  | some c =>
    obtain ⟨row, h1, h2, h3⟩ := nanMovingAvCols_get ncol (excludeBelow d.sim c) (winLen / 2) i j (by simpa [excludeBelow] using hi) hj
    refine ⟨row, h1, h2, ?_⟩
    rw [h3, (c72_moving_average _ _).2 i (by rw [column_length]; simpa [excludeBelow] using hi), nanmean_eq, column_excludeBelow, samplesWhere_map,
      notNan_exclude]
    unfold nearSims
    simp

/-- **C134** (best stretch). For each time the new correlation is the largest smoothed similarity. If the smoothed similarities of this time have no NaN, or
their maximum is positive, the new value is the first stretch at which it is attained. Missing: the other times, see `c134_negative_violated` and
`c134_empty_violated`. -/
theorem c134_best_partial (d : Dv) (ncol winLen : Nat) (below : Option Rat) (out : Dv) (h : smoothSimMat d ncol winLen below = .ok out) (i : Nat)
    (row : List F) (hi : out.sim[i]? = some row) :
    ∃ corr, out.corr[i]? = some corr ∧ Spec.NanMax row corr ∧ ∀ c, corr = some c → (none ∉ row ∨ 0 < c) →
      ∃ (k : Nat) (v : Rat), d.axis[k]? = some v ∧ out.value[i]? = some (some v) ∧ row[k]? = some (some c) ∧ ∀ j < k, row[j]? ≠ some (some c) := by
  unfold smoothSimMat at h
  by_cases hn : ncol = 0
  · simp [bind, Except.bind, hn, throw, throwThe, MonadExceptOf.throw] at h
  simp only [bind, Except.bind, if_neg hn, pure, Except.pure] at h
  split at h
  · cases h
  rename_i value hv
  cases h
  refine ⟨nanmax row, by simp only [List.getElem?_map]; simp only at hi; rw [hi]; rfl, nanmax_spec row, fun c hc hcond => ?_⟩
  obtain ⟨hmem, hmax⟩ := (nanmax_spec row).2 c hc
  have hne : row.map nan0 ≠ [] := by
    intro h0
    rw [List.map_eq_nil_iff] at h0
    rw [h0] at hmem; cases hmem
  obtain ⟨hlt, hle, hfirst⟩ := argmaxR_spec (row.map nan0) hne
  have hlt' : argmaxR (row.map nan0) < row.length := by simpa using hlt
  have hge : c ≤ (row.map nan0)[argmaxR (row.map nan0)] := hle c (List.mem_map.2 ⟨some c, hmem, rfl⟩)
  have hk : row[argmaxR (row.map nan0)]? = some (some c) := by
    rw [List.getElem?_eq_getElem hlt']
    rw [List.getElem_map] at hge
    cases hr : row[argmaxR (row.map nan0)] with
    | none =>
      rw [hr] at hge
      rcases hcond with hcn | hcp
      · exact absurd (hr ▸ List.getElem_mem hlt') hcn
      · simp only [nan0, Option.getD_none] at hge
        linarith
    | some x =>
      rw [hr] at hge
      have h1 : c ≤ x := hge
      have h2 := hmax x (hr ▸ List.getElem_mem hlt')
      rw [le_antisymm h2 h1]
  obtain ⟨v, hv1, hv2⟩ := (mapM_getElem _ _ _ hv).2 i row hi
  unfold firstBest at hv1
  split at hv1
  · rename_i v' hv'
    cases hv1
    refine ⟨argmaxR (row.map nan0), v', hv', hv2, hk, fun j hj hrj => ?_⟩
    have h1 := hfirst j hj
    rw [List.getElem_map, List.getElem_map] at h1
    have h3 : row[j] = some c := by
      rw [List.getElem?_eq_getElem (by omega)] at hrj
      exact Option.some.inj hrj
    have h4 : row[argmaxR (row.map nan0)] = some c := by
      rw [List.getElem?_eq_getElem hlt'] at hk
      exact Option.some.inj hk
    rw [h3, h4] at h1
    exact lt_irrefl _ h1
  · cases hv1

/-- **C134** (violated). With a NaN among negative similarities the value is the stretch of the NaN. -/
theorem c134_negative_violated :
    let d : Dv := ⟨c!"A", c!"S", c!"Z", c!"m", c!"stretch", [1, 2], [[some (-1/2), none]], [some 1], [some (-1/2)]⟩
    smoothSimMat d 2 1 none = .ok { d with value := [some 2], corr := [some (-1/2)] } := by
  decide +kernel

/-- **C134** (violated). At a time without similarities in its window the correlation is NaN, but the value is a number, the first stretch. -/
theorem c134_empty_violated (d : Dv) (ncol winLen : Nat) (below : Option Rat) (out : Dv) (h : smoothSimMat d ncol winLen below = .ok out) (i : Nat)
    (row : List F) (hi : out.sim[i]? = some row) (hrow : ∀ x ∈ row, x = none) :
    out.corr[i]? = some none ∧ ∃ v : Rat, d.axis[0]? = some v ∧ out.value[i]? = some (some v) := by
  unfold smoothSimMat at h
  by_cases hn : ncol = 0
  · simp [bind, Except.bind, hn, throw, throwThe, MonadExceptOf.throw] at h
  simp only [bind, Except.bind, if_neg hn, pure, Except.pure] at h
  split at h
  · cases h
  rename_i value hv
  cases h
  refine ⟨?_, ?_⟩
  · simp only [List.getElem?_map]
    simp only at hi
    rw [hi, Option.map_some, (nanmax_spec row).1.2 hrow]
  obtain ⟨v, hv1, hv2⟩ := (mapM_getElem _ _ _ hv).2 i row hi
  have h0 : argmaxR (row.map nan0) = 0 := by
    by_cases hr : row = []
    · rw [hr]; rfl
    obtain ⟨hlt, -, hfirst⟩ := argmaxR_spec (row.map nan0) (by simpa using hr)
    by_contra hc
    have h1 := hfirst 0 (by omega)
    rw [List.length_map] at hlt
    rw [List.getElem_map, List.getElem_map, hrow _ (List.getElem_mem _), hrow _ (List.getElem_mem _)] at h1
    exact lt_irrefl _ h1
  unfold firstBest at hv1
  rw [h0] at hv1
  split at hv1
  · rename_i v' hv'
    cases hv1
    exact ⟨v', hv', hv2⟩
  · cases hv1

/-- **C134** (violated). The window length is documented in samples. For an even one the window has one sample more: with length two, the similarity is the mean
of three times. -/
theorem c134_window_violated (d : Dv) (hax : d.axis = [1]) (a b c : Rat) (hd : d.sim = [[some a], [some b], [some c]]) (m : Nat) :
    ∃ out out', smoothSimMat d 1 (2 * m) none = .ok out ∧ smoothSimMat d 1 (2 * m + 1) none = .ok out' ∧ out = out' ∧
      (m = 1 → out.sim[1]? = some [some ((a + b + c) / 3)]) := by
  obtain ⟨out, h1, -, h3, -⟩ := c134_smoothed d 1 (2 * m) none (by norm_num) (by rw [hax]; rfl)
  have he : smoothSimMat d 1 (2 * m + 1) none = smoothSimMat d 1 (2 * m) none := by
    unfold smoothSimMat
    rw [show (2 * m + 1) / 2 = 2 * m / 2 by omega]
  refine ⟨out, out, h1, by rw [he, h1], rfl, fun hm => ?_⟩
  obtain ⟨row, g1, g2, g3⟩ := h3 1 0 (by rw [hd]; simp) (by norm_num)
  obtain ⟨x, rfl⟩ := List.length_eq_one_iff.1 g2
  rw [g1]
  simp only [List.getElem?_cons_zero, Option.some.injEq] at g3
  rw [g3, hm]
  have : nearSims d.sim none 1 1 0 = [a, b, c] := by
    rw [hd]
    rfl
  rw [show 2 * 1 / 2 = 1 by norm_num, this]
  unfold meanOrNan
  simp
  ring

/-- **C134**: a matrix without columns is a `ValueError`. -/
theorem c134_refused (d : Dv) (winLen : Nat) (below : Option Rat) : smoothSimMat d 0 winLen below = .error .valueError := rfl

/-- similarities at three times, one of them below the threshold -/
example :
    let d : Dv := ⟨c!"A", c!"S", c!"Z", c!"m", c!"stretch", [1, 2], [[some (1/2), some 0], [none, some (1/4)], [some (3/4), some 1]], [some 1, some 2, some 2],
      [some (1/2), some (1/4), some 1]⟩
    smoothSimMat d 2 3 (some (1/8)) = .ok { d with
      sim := [[some (1/2), some (1/4)], [some (5/8), some (5/8)], [some (3/4), some (5/8)]], value := [some 1, some 1, some 1],
      corr := [some (1/2), some (5/8), some (3/4)] } := by
  decide +kernel

end SeisMIC
