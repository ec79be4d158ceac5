import Verif.Model.BulkOps
import Verif.Spec.PostCorr
import Verif.Props.Again
import Mathlib.LinearAlgebra.Pi
import Mathlib.Algebra.Module.Rat
import Mathlib.Tactic.SplitIfs
import Mathlib.Tactic.Ring
import Mathlib.Tactic.Linarith

/-!
# C169: averaging in time and linear processing of the lag axis can be done in either order

`resample` averages the correlations of each time window. `mirror`, `trim`, `resample_time_axis` and other linear functions of each
correlation can be called before or after it: the bulk is the same, if each correlation either has no `nan` or is missing as a whole.
-/

namespace SeisMIC

variable {V : Type}

/-- a correlation without `nan`, or one that is missing as a whole -/
def Whole (row : List F) : Prop := (∀ v ∈ row, v ≠ none) ∨ (∀ v ∈ row, v = none)

/-- the function `f` of a correlation of `n` samples: a linear function of the samples, and `nan` for a missing correlation -/
def LinearRow (n m : Nat) (f : List F → List F) : Prop :=
  ∃ L : (Fin n → ℚ) →ₗ[ℚ] (Fin m → ℚ), (∀ x, f (List.ofFn fun i => some (x i)) = List.ofFn fun j => some (L x j)) ∧
    f (List.replicate n none) = List.replicate m none

/-- `scipy.signal.resample` (post_corr_process.py:636): linear, and `nan` if there is a `nan` in the argument -/
def LinearResample (fft : Nat → List F → List F) : Prop :=
  ∀ n len, (∃ L : (Fin n → ℚ) →ₗ[ℚ] (Fin len → ℚ), ∀ x, fft len (List.ofFn fun i => some (x i)) = List.ofFn fun j => some (L x j)) ∧
    ∀ row : List F, none ∈ row → fft len row = List.replicate len none

/-- the calls the property is about, for a lag axis: `mirror`, `trim`, `resample_time_axis`, and any linear function of each correlation -/
def LinearCall (lag : LagStats) : BulkCall → Prop
  | .mirror => True
  | .trim _ _ => True
  | .resampleTimeAxis _ => True
  | .values f => ∃ g, LinearRow lag.npts lag.npts g ∧ ∀ data, f data lag = .ok (data.map g)
  | _ => False

/-! ## Lemmas -/

/-- a missing correlation or one without `nan` -/
def rowOf {n : Nat} : Option (Fin n → ℚ) → List F
  | none => List.replicate n none
  | some x => List.ofFn fun i => some (x i)

/-- mean of the correlations that are not missing -/
def meanOpt {n : Nat} (os : List (Option (Fin n → ℚ))) : Option (Fin n → ℚ) :=
  match os.filterMap id with
  | [] => none
  | g => some ((g.length : ℚ)⁻¹ • g.sum)

theorem whole_rowOf {row : List F} {n : Nat} (hn : row.length = n) (h : Whole row) : ∃ o : Option (Fin n → ℚ), row = rowOf o := by
  subst hn
  rcases h with h | h
  · refine ⟨some fun i => (row[i]).getD 0, ?_⟩
    refine List.ext_getElem (by simp [rowOf]) fun i h1 h2 => ?_
    have := h row[i] (List.getElem_mem _)
    simp only [rowOf, List.getElem_ofFn]
    cases hv : row[i] with
    | none => exact absurd hv this
    | some v => simp
  · exact ⟨none, List.eq_replicate_iff.2 ⟨rfl, h⟩⟩

theorem rows_rowOf {data : List (List F)} {n : Nat} (h : ∀ r ∈ data, r.length = n ∧ Whole r) :
    ∃ os : List (Option (Fin n → ℚ)), data = os.map rowOf := by
  induction data with
  | nil => exact ⟨[], rfl⟩
  | cons r data ih =>
    obtain ⟨o, ho⟩ := whole_rowOf (h r (by simp)).1 (h r (by simp)).2
    obtain ⟨os, hos⟩ := ih fun r' hr => h r' (List.mem_cons_of_mem _ hr)
    exact ⟨o :: os, by simp [ho, hos]⟩

theorem rowOf_length {n : Nat} (o : Option (Fin n → ℚ)) : (rowOf o).length = n := by
  cases o <;> simp [rowOf]

theorem rowOf_whole {n : Nat} (o : Option (Fin n → ℚ)) : Whole (rowOf o) := by
  cases o with
  | none => exact .inr fun v hv => List.eq_of_mem_replicate hv
  | some x =>
    refine .inl fun v hv => ?_
    obtain ⟨i, rfl⟩ := (List.mem_ofFn' _ _).1 hv
    simp

theorem rowOf_getD {n : Nat} (o : Option (Fin n → ℚ)) (j : Fin n) : (rowOf o).getD j none = o.map fun x => x j := by
  cases o <;> simp [rowOf, List.getD_eq_getElem?_getD]

theorem notNan_column {n : Nat} (os : List (Option (Fin n → ℚ))) (j : Fin n) :
    notNan (column (os.map rowOf) j) = (os.filterMap id).map fun x => x j := by
  rw [List.map_filterMap]
  simp only [notNan, column, List.map_map, List.filterMap_map]
  refine List.filterMap_congr fun o _ => ?_
  exact rowOf_getD o j

theorem sum_apply_fin {n : Nat} (g : List (Fin n → ℚ)) (j : Fin n) : g.sum j = (g.map fun x => x j).sum := by
  induction g with
  | nil => rfl
  | cons x g ih => simp [ih]

theorem nanmean_column {n : Nat} (os : List (Option (Fin n → ℚ))) (j : Fin n) :
    nanmean (column (os.map rowOf) j) = (meanOpt os).map fun x => x j := by
  unfold nanmean meanOpt
  rw [notNan_column]
  cases os.filterMap id with
  | nil => rfl
  | cons x g =>
    simp only [List.map_cons, Option.map_some, Pi.smul_apply, smul_eq_mul, sum_apply_fin]
    simp [div_eq_inv_mul]

theorem average_rowOf {n : Nat} (os : List (Option (Fin n → ℚ))) :
    ((List.range n).map fun j => nanmean (column (os.map rowOf) j)) = rowOf (meanOpt os) := by
  refine List.ext_getElem (by simp [rowOf_length]) fun j h1 h2 => ?_
  have hj : j < n := by simpa using h1
  have h3 := nanmean_column os ⟨j, hj⟩
  have h4 := rowOf_getD (meanOpt os) ⟨j, hj⟩
  simp only at h3 h4
  rw [List.getD_eq_getElem _ _ h2] at h4
  simp only [List.getElem_map, List.getElem_range]
  rw [h3, h4]

theorem meanOpt_one {n : Nat} (o : Option (Fin n → ℚ)) : meanOpt [o] = o := by
  cases o <;> simp [meanOpt]

theorem meanOpt_map {n m : Nat} (L : (Fin n → ℚ) →ₗ[ℚ] (Fin m → ℚ)) (os : List (Option (Fin n → ℚ))) :
    meanOpt (os.map (Option.map L)) = (meanOpt os).map L := by
  have h : (os.map (Option.map L)).filterMap id = (os.filterMap id).map L := by
    rw [List.map_filterMap, List.filterMap_map]
    rfl
  unfold meanOpt
  rw [h]
  cases hg : os.filterMap id with
  | nil => rfl
  | cons x g =>
    simp only [List.map_cons, Option.map_some, map_smul, map_list_sum, List.length_cons, List.length_map]

theorem LinearRow.rowOf {n m : Nat} {f : List F → List F} (h : LinearRow n m f) :
    ∃ L : (Fin n → ℚ) →ₗ[ℚ] (Fin m → ℚ), ∀ o, f (rowOf o) = SeisMIC.rowOf (o.map L) := by
  obtain ⟨L, h1, h2⟩ := h
  refine ⟨L, fun o => ?_⟩
  cases o with
  | none => exact h2
  | some x => exact h1 x

theorem LinearRow.id (n : Nat) : LinearRow n n _root_.id := ⟨LinearMap.id, fun _ => rfl, rfl⟩

theorem LinearRow.comp {n m k : Nat} {f g : List F → List F} (hf : LinearRow n m f) (hg : LinearRow m k g) :
    LinearRow n k fun r => g (f r) := by
  obtain ⟨L, h1, h2⟩ := hf
  obtain ⟨M, h3, h4⟩ := hg
  exact ⟨M ∘ₗ L, fun x => by simp only [h1, h3]; rfl, by simp only [h2, h4]⟩

/-- functions that select samples are linear -/
theorem LinearRow.select {n m : Nat} {f : List F → List F} (σ : Fin m → Fin n)
    (h : ∀ x : Fin n → F, f (List.ofFn x) = List.ofFn fun j => x (σ j)) : LinearRow n m f := by
  refine ⟨LinearMap.funLeft ℚ ℚ σ, fun x => by rw [h]; rfl, ?_⟩
  have := h fun _ => none
  simpa using this

theorem linear_reverse (n : Nat) : LinearRow n n List.reverse :=
  .select (fun j => ⟨n - 1 - j, by omega⟩) fun x => by
    refine List.ext_getElem (by simp) fun i h1 h2 => ?_
    simp

theorem linear_take (n k : Nat) : LinearRow n (min k n) (List.take k) :=
  .select (fun j => ⟨j, by omega⟩) fun x => by
    refine List.ext_getElem (by simp) fun i h1 h2 => ?_
    simp

theorem linear_drop (n k : Nat) : LinearRow n (n - k) (List.drop k) :=
  .select (fun j => ⟨k + j, by omega⟩) fun x => by
    refine List.ext_getElem (by simp) fun i h1 h2 => ?_
    simp

theorem linear_dropLast (n : Nat) : LinearRow n (n - 1) List.dropLast :=
  .select (fun j => ⟨j, by omega⟩) fun x => by
    refine List.ext_getElem (by simp) fun i h1 h2 => ?_
    simp

theorem mul_lt_of_lt_ceil {n f k : Nat} (hf : 0 < f) (h : k < (n + f - 1) / f) : k * f < n := by
  have h1 : (k + 1) * f ≤ n + f - 1 := (Nat.le_div_iff_mul_le hf).1 h
  rw [Nat.add_mul, Nat.one_mul] at h1
  omega

theorem everyNth_eq {α : Type} (f : Nat) (hf : 0 < f) (l : List α) :
    everyNth f l = (List.finRange ((l.length + f - 1) / f)).map fun k => l[k.1 * f]'(mul_lt_of_lt_ceil hf k.2) := by
  unfold everyNth
  rw [← List.map_coe_finRange_eq_range, List.filterMap_map, ← List.filterMap_eq_map]
  refine List.filterMap_congr fun k _ => ?_
  simp [List.getElem?_eq_getElem (mul_lt_of_lt_ceil hf k.2)]

theorem linear_everyNth (n f : Nat) (hf : 0 < f) : LinearRow n ((n + f - 1) / f) (everyNth f) :=
  .select (fun j => ⟨j * f, mul_lt_of_lt_ceil hf j.2⟩) fun x => by
    rw [everyNth_eq f hf]
    refine List.ext_getElem (by simp) fun i h1 h2 => ?_
    simp

/-- the rows of one time window -/
def binRows {α : Type} (data : List α) (otime : List Int) (s e : Int) : List α :=
  ((otime.zip data).filter fun td => decide (s ≤ td.1) && decide (td.1 < e)).map Prod.snd

theorem binRows_map {α β : Type} (f : α → β) (data : List α) (otime : List Int) (s e : Int) :
    binRows (data.map f) otime s e = (binRows data otime s e).map f := by
  unfold binRows
  rw [List.zip_map_right, List.filter_map, List.map_map, List.map_map]
  rfl

theorem resampleBin_rowOf {n : Nat} (os : List (Option (Fin n → ℚ))) (otime : List Int) (s e : Int) :
    resampleBin n (os.map rowOf) otime s e = rowOf (meanOpt (binRows os otime s e)) := by
  have h : binRows (os.map rowOf) otime s e = (binRows os otime s e).map rowOf := binRows_map _ _ _ _ _
  unfold resampleBin
  show (match binRows (os.map rowOf) otime s e with
    | [] => List.replicate n none
    | [row] => row
    | ind => (List.range n).map fun j => nanmean (column ind j)) = _
  rw [h]
  match hb : binRows os otime s e with
  | [] => rfl
  | [o] => simp [meanOpt_one]
  | o :: o' :: l =>
    have := average_rowOf (o :: o' :: l)
    simpa only [List.map_cons] using this

theorem resampleBin_linear {n m : Nat} {f : List F → List F} (hf : LinearRow n m f) {data : List (List F)}
    (hd : ∀ r ∈ data, r.length = n ∧ Whole r) (otime : List Int) (s e : Int) :
    resampleBin m (data.map f) otime s e = f (resampleBin n data otime s e) := by
  obtain ⟨os, rfl⟩ := rows_rowOf hd
  obtain ⟨L, hL⟩ := hf.rowOf
  have h : (os.map rowOf).map f = (os.map (Option.map L)).map rowOf := by
    simp only [List.map_map]
    exact List.map_congr_left fun o _ => hL o
  rw [h, resampleBin_rowOf, resampleBin_rowOf, hL, binRows_map, meanOpt_map]

theorem resampleBin_length_whole {n : Nat} {data : List (List F)} (hd : ∀ r ∈ data, r.length = n ∧ Whole r) (otime : List Int)
    (s e : Int) : (resampleBin n data otime s e).length = n ∧ Whole (resampleBin n data otime s e) := by
  obtain ⟨os, rfl⟩ := rows_rowOf hd
  rw [resampleBin_rowOf]
  exact ⟨rowOf_length _, rowOf_whole _⟩

theorem LinearRow.congr {n m : Nat} {f g : List F → List F} (hf : LinearRow n m f) (h : ∀ r, r.length = n → g r = f r) :
    LinearRow n m g := by
  obtain ⟨L, h1, h2⟩ := hf
  exact ⟨L, fun x => by rw [h _ (by simp), h1], by rw [h _ (by simp), h2]⟩

theorem linear_pySlice (n : Nat) (a b : Int) :
    LinearRow n (pySlice (List.replicate n ()) (some a) (some b)).length (fun r => pySlice r (some a) (some b)) := by
  have h := (linear_drop n (sliceBound n a)).comp (linear_take (n - sliceBound n a) (sliceBound n b - sliceBound n a))
  have hm : (pySlice (List.replicate n ()) (some a) (some b)).length
      = min (sliceBound n b - sliceBound n a) (n - sliceBound n a) := by simp [pySlice]
  rw [hm]
  exact h.congr fun r hr => by simp [pySlice, hr]

/-- `mirrorRow` as a linear map -/
def mirrorMap (n a c : Nat) (h1 : 1 ≤ a) (h3 : 1 ≤ c) (h2 : a + c = n + 1) : (Fin n → ℚ) →ₗ[ℚ] (Fin (max a c) → ℚ) where
  toFun x i := (if i.1 < min a c then 1 / 2 else 1) *
    ((if h : i.1 < c then x ⟨a - 1 + i.1, by omega⟩ else 0) + (if h : i.1 < a then x ⟨a - 1 - i.1, by omega⟩ else 0))
  map_add' x y := by
    funext i
    simp only [Pi.add_apply]
    split_ifs <;> ring
  map_smul' k x := by
    funext i
    simp only [Pi.smul_apply, smul_eq_mul, RingHom.id_apply]
    split_ifs <;> ring

theorem linear_mirrorRow (n a c : Nat) (h1 : 1 ≤ a) (h3 : 1 ≤ c) (h2 : a + c = n + 1) :
    LinearRow n (max a c) (fun r => mirrorRow r a c) := by
  refine ⟨mirrorMap n a c h1 h3 h2, fun x => ?_, ?_⟩
  · refine List.ext_getElem (by simp [mirrorRow]) fun i hi1 hi2 => ?_
    have hi : i < max a c := by simpa using hi2
    simp only [mirrorRow, List.getElem_map, List.getElem_range, List.getElem_ofFn, mirrorMap, LinearMap.coe_mk, AddHom.coe_mk]
    by_cases hc : i < c <;> by_cases ha : i < a
    · have e1 : a - 1 + i < n := by omega
      have e2 : a - 1 - i < n := by omega
      have hb : i < min a c := by omega
      simp only [hc, ha, hb, if_true, dif_pos, List.getD_eq_getElem?_getD, List.getElem?_ofFn, e1, e2, Option.getD_some]
      simp [F.add, F.div, div_eq_inv_mul]
    · have e1 : a - 1 + i < n := by omega
      have hb : ¬ i < min a c := by omega
      simp only [hc, ha, hb, if_true, if_false, dif_pos, dif_neg, not_false_iff, List.getD_eq_getElem?_getD, List.getElem?_ofFn, e1,
        Option.getD_some]
      simp
    · have e2 : a - 1 - i < n := by omega
      have hb : ¬ i < min a c := by omega
      simp only [hc, ha, hb, if_true, if_false, dif_pos, dif_neg, not_false_iff, List.getD_eq_getElem?_getD, List.getElem?_ofFn, e2,
        Option.getD_some]
      simp [F.add]
    · omega
  · refine List.ext_getElem (by simp [mirrorRow]) fun i hi1 hi2 => ?_
    have hi : i < max a c := by simpa using hi2
    have hg : ∀ k, (List.replicate n (none : F)).getD k none = none := by
      intro k
      rw [List.getD_eq_getElem?_getD, List.getElem?_replicate]
      split_ifs <;> rfl
    simp only [mirrorRow, List.getElem_map, List.getElem_range, hg, List.getElem_replicate]
    by_cases hc : i < c <;> by_cases ha : i < a
    · simp [hc, ha, F.add, F.div]
    · simp [hc, ha]
    · simp [hc, ha, F.add]
    · omega

theorem linear_fft {filt : List F → List F} {fft : Nat → List F → List F} (hfilt : ∀ n, LinearRow n n filt) (hfft : LinearResample fft)
    (n zeros len num : Nat) (h0 : n = 0 → num = 0) :
    LinearRow n (min num len) (fun r => (fft len (filt r ++ List.replicate zeros (some 0))).take num) := by
  obtain ⟨L, h1, h2⟩ := hfilt n
  obtain ⟨⟨M, h3⟩, h4⟩ := hfft (n + zeros) len
  -- appended zeros
  let Z : (Fin n → ℚ) →ₗ[ℚ] (Fin (n + zeros) → ℚ) :=
    { toFun := fun x i => if h : i.1 < n then x ⟨i.1, h⟩ else 0
      map_add' := fun x y => by funext i; simp only [Pi.add_apply]; split_ifs <;> simp
      map_smul' := fun k x => by funext i; simp only [Pi.smul_apply, smul_eq_mul, RingHom.id_apply]; split_ifs <;> simp }
  have hZ : ∀ x : Fin n → ℚ, (List.ofFn fun i => (some (x i) : F)) ++ List.replicate zeros (some 0) = List.ofFn fun i => some (Z x i) := by
    intro x
    refine List.ext_getElem (by simp) fun i hi1 hi2 => ?_
    by_cases hi : i < n
    · rw [List.getElem_append_left (by simpa using hi)]
      simp [Z, hi]
    · rw [List.getElem_append_right (by simpa using hi)]
      simp [Z, hi]
  refine ⟨LinearMap.funLeft ℚ ℚ (fun j : Fin (min num len) => (⟨j.1, by omega⟩ : Fin len)) ∘ₗ M ∘ₗ Z ∘ₗ L, fun x => ?_, ?_⟩
  · simp only [h1, hZ, h3]
    refine List.ext_getElem (by simp) fun i hi1 hi2 => ?_
    simp [LinearMap.funLeft_apply]
  · simp only [h2]
    rcases Nat.eq_zero_or_pos n with hn | hn
    · simp [h0 hn]
    · rw [h4 _ (List.mem_append_left _ (List.mem_replicate.2 ⟨by omega, rfl⟩)), List.take_replicate]

theorem linear_decimate {filt : List F → List F} (hfilt : ∀ n, LinearRow n n filt) (n k : Nat) (hk : 0 < k) :
    LinearRow n (everyNth k (List.replicate n ())).dropLast.length
      (fun r => (everyNth k (filt (filt r).reverse).reverse).dropLast) := by
  have hm : (everyNth k (List.replicate n ())).dropLast.length = (n + k - 1) / k - 1 := by
    rw [everyNth_eq k hk]; simp
  rw [hm]
  exact ((((((hfilt n).comp (linear_reverse n)).comp (hfilt n)).comp (linear_reverse n)).comp (linear_everyNth n k hk)).comp
    (linear_dropLast _))

theorem LinearRow.length {n m : Nat} {f : List F → List F} (hf : LinearRow n m f) {r : List F} (hr : r.length = n) (hw : Whole r) :
    (f r).length = m := by
  obtain ⟨o, rfl⟩ := whole_rowOf hr hw
  obtain ⟨L, hL⟩ := hf.rowOf
  rw [hL, rowOf_length]

/-- the rows that the property is about -/
def Bulk.WholeRows (b : Bulk V) : Prop := ∀ r ∈ b.data, r.length = b.stats.lag.npts ∧ Whole r

/-- what a call does: one function for all correlations, and a new lag axis, both of which depend on the lag axis only -/
structure RowWise (fuel : Nat) (filt : List F → List F) (fft : Nat → List F → List F) (lag : LagStats) (c : BulkCall)
    (f : List F → List F) (lag' : LagStats) (g : BulkStats V → BulkStats V) : Prop where
  linear : LinearRow lag.npts lag'.npts f
  header : g = (fun s => s.setLag lag') ∨ (g = id ∧ lag' = lag)
  call : ∀ b : Bulk V, b.stats.lag = lag → b.WholeRows → b.call fuel filt fft c = .ok ⟨b.data.map f, g b.stats⟩

theorem rowWise_or_error (fuel : Nat) {filt : List F → List F} {fft : Nat → List F → List F} (hfilt : ∀ n, LinearRow n n filt)
    (hfft : LinearResample fft) (lag : LagStats) (hsr : 0 < lag.sr) (c : BulkCall) (hc : LinearCall lag c) :
    (∃ f lag', ∃ g : BulkStats V → BulkStats V, RowWise fuel filt fft lag c f lag' g) ∨
      ∃ e, ∀ b : Bulk V, b.stats.lag = lag → b.call fuel filt fft c = .error e := by
  match c, hc with
  | .values f, hc =>
    obtain ⟨g, hg, hd⟩ := hc
    refine .inl ⟨g, lag, id, hg, .inr ⟨rfl, rfl⟩, fun b hb _ => ?_⟩
    simp only [Bulk.call, hb, hd]
    rfl
  | .mirror, _ =>
    by_cases hz : -(lag.startLag * lag.sr) ≤ 0
    · refine .inl ⟨id, lag, _, LinearRow.id _, .inl rfl, fun b hb _ => ?_⟩
      simp [Bulk.call, hb, corrMatMirror, hz]
    by_cases he : lag.endLag ≤ 0
    · refine .inl ⟨id, lag, _, LinearRow.id _, .inl rfl, fun b hb _ => ?_⟩
      simp [Bulk.call, hb, corrMatMirror, he]
    by_cases hd : (-(lag.startLag * lag.sr)).den ≠ 1
    · refine .inr ⟨.typeError, fun b hb => ?_⟩
      simp only [Bulk.call, hb, corrMatMirror]
      rw [if_neg hz, if_neg he, if_pos hd]
    · -- lag zero is one of the samples
      have hz' : 0 < -(lag.startLag * lag.sr) := not_le.1 hz
      have he' : 0 < lag.endLag := not_le.1 he
      have ha1 : 1 ≤ (-(lag.startLag * lag.sr) + 1).floor.toNat := by
        have h : (1 : Int) ≤ (-(lag.startLag * lag.sr) + 1).floor := Rat.le_floor_iff.2 (by push_cast; linarith)
        omega
      have ha2 : (-(lag.startLag * lag.sr) + 1).floor.toNat ≤ lag.npts := by
        have h1 : ((-(lag.startLag * lag.sr) + 1).floor : Rat) ≤ -(lag.startLag * lag.sr) + 1 := Rat.floor_le _
        have h2 : -(lag.startLag * lag.sr) + 1 ≤ lag.npts := by
          unfold LagStats.endLag at he'
          rw [if_neg hsr.ne'] at he'
          by_cases hn : lag.npts = 0
          · rw [if_pos hn] at he'
            have : 0 < lag.startLag * lag.sr := mul_pos (by linarith) hsr
            linarith
          · rw [if_neg hn] at he'
            have h3 := mul_pos he' hsr
            rw [add_mul, mul_assoc, one_div, inv_mul_cancel₀ hsr.ne'] at h3
            linarith
        have h3 : ((-(lag.startLag * lag.sr) + 1).floor : Rat) ≤ ((lag.npts : Int) : Rat) := by
          push_cast; linarith
        have h4 := Int.cast_le.1 h3
        omega
      refine .inl ⟨_, ⟨0, max (-(lag.startLag * lag.sr) + 1).floor.toNat
          (lag.npts - (-(lag.startLag * lag.sr) + 1).floor.toNat + 1), lag.sr⟩, _,
        linear_mirrorRow lag.npts _ _ ha1 (by omega) (by omega), .inl rfl, fun b hb _ => ?_⟩
      simp only [Bulk.call, hb, corrMatMirror]
      rw [if_neg hz, if_neg he, if_neg hd]
  | .trim a e, _ =>
    by_cases h1 : ((a - lag.startLag) * lag.sr).floor < 0
    · refine .inl ⟨id, lag, _, LinearRow.id _, .inl rfl, fun b hb _ => ?_⟩
      simp [Bulk.call, hb, corrMatTrim, h1]
    by_cases h2 : ((e - lag.startLag) * lag.sr).floor ≥ lag.npts
    · refine .inl ⟨id, lag, _, LinearRow.id _, .inl rfl, fun b hb _ => ?_⟩
      simp only [Bulk.call, hb, corrMatTrim]
      rw [if_neg h1, if_pos h2]
      simp
    · have hl := linear_pySlice lag.npts ((a - lag.startLag) * lag.sr).floor (((e - lag.startLag) * lag.sr).floor + 1)
      refine .inl ⟨_, { lag with npts := _, startLag := a }, _, hl, .inl rfl, fun b hb hw => ?_⟩
      simp only [Bulk.call, hb, corrMatTrim]
      rw [if_neg h1, if_neg h2]
      cases hdat : b.data with
      | nil => rfl
      | cons r l =>
        have hr := hw r (by simp [hdat])
        have := hl.length (hb ▸ hr.1) hr.2
        simp only [List.map_cons, this]
  | .resampleTimeAxis freq, _ =>
    cases hdf : decimationFactor lag.sr freq with
    | some k =>
      have hcall : ∀ b : Bulk V, b.stats.lag = lag → decimationFactor b.stats.base.samplingRate freq = some k := by
        intro b hb
        rw [← hdf, ← hb]; rfl
      by_cases hk : k < 1
      · refine .inr ⟨.valueError, fun b hb => ?_⟩
        simp only [Bulk.call, hcall b hb, hb, corrMatDecimate, if_pos hk]
        rfl
      by_cases hk1 : k = 1
      · refine .inl ⟨id, lag, _, LinearRow.id _, .inl rfl, fun b hb _ => ?_⟩
        simp only [Bulk.call, hcall b hb, hb, corrMatDecimate, if_neg hk, if_pos hk1]
        simp [bind, Except.bind, pure, Except.pure]
      · have hl := linear_decimate hfilt lag.npts k.toNat (by omega)
        refine .inl ⟨_, { lag with npts := _, sr := lag.sr / k }, _, hl, .inl rfl, fun b hb hw => ?_⟩
        simp only [Bulk.call, hcall b hb, hb, corrMatDecimate, if_neg hk, if_neg hk1, List.map_map]
        cases hdat : b.data with
        | nil => rfl
        | cons r l =>
          have hr := hw r (by simp [hdat])
          have := hl.length (hb ▸ hr.1) hr.2
          simp only [List.map_cons, Function.comp_apply, bind, Except.bind, pure, Except.pure, this]
          rfl
    | none =>
      have hcall : ∀ b : Bulk V, b.stats.lag = lag → decimationFactor b.stats.base.samplingRate freq = none := by
        intro b hb
        rw [← hdf, ← hb]; rfl
      match hp : resampleTimePlan fuel lag freq with
      | none =>
        refine .inl ⟨id, lag, id, LinearRow.id _, .inr ⟨rfl, rfl⟩, fun b hb _ => ?_⟩
        simp [Bulk.call, hcall b hb, hb, corrMatResampleTime, hp]
      | some (.error e) =>
        refine .inr ⟨e, fun b hb => ?_⟩
        simp [Bulk.call, hcall b hb, hb, corrMatResampleTime, hp]
      | some (.ok none) =>
        refine .inl ⟨id, lag, _, LinearRow.id _, .inl rfl, fun b hb _ => ?_⟩
        simp [Bulk.call, hcall b hb, hb, corrMatResampleTime, hp]
      | some (.ok (some (zeros, len, num))) =>
        have h0 : (lag.npts = 0 → num = 0) ∧ num ≤ len := by
          unfold resampleTimePlan at hp
          split_ifs at hp
          · cases hp
          · cases hp
          dsimp only at hp
          split at hp
          · cases hp
          · cases hp
          · simp only [Option.some.injEq, Except.ok.injEq, Prod.mk.injEq] at hp
            obtain ⟨-, h2, h3⟩ := hp
            exact ⟨fun hn => by rw [← h3, hn]; simp [show Rat.floor 0 = 0 from rfl], by omega⟩
        have hl := linear_fft hfilt hfft lag.npts zeros len num h0.1
        rw [Nat.min_eq_left h0.2] at hl
        refine .inl ⟨_, { lag with npts := num, sr := freq }, _, hl, .inl rfl, fun b hb _ => ?_⟩
        simp [Bulk.call, hcall b hb, hb, corrMatResampleTime, hp]

/-- `resample` of a bulk: an exception, or the averages, and new times; which of them depends on the times only -/
theorem resample_cases (fuel : Nat) (filt : List F → List F) (fft : Nat → List F → List F) (cs ce st en : List Int) :
    (∃ et, ∀ b : Bulk V, b.stats.corrStart = cs → b.stats.corrEnd = ce → b.call fuel filt fft (.resample st en) =
        .ok ⟨(st.zip et).map fun w => resampleBin b.stats.lag.npts b.data cs w.1 w.2,
          { b.stats with corrStart := st, corrEnd := et }⟩) ∨
      ∃ e, ∀ b : Bulk V, b.stats.corrStart = cs → b.stats.corrEnd = ce → b.call fuel filt fft (.resample st en) = .error e := by
  by_cases h1 : en ≠ [] ∧ en.length ≠ st.length
  · refine .inr ⟨.valueError, fun b _ _ => ?_⟩
    simp only [Bulk.call, corrMatResample, if_pos h1]
    rfl
  match st, h1 with
  | [], h1 =>
    refine .inr ⟨.indexError, fun b _ _ => ?_⟩
    simp only [Bulk.call, corrMatResample, if_neg h1]
    rfl
  | [s], h1 =>
    by_cases h2 : en ≠ []
    · refine .inl ⟨en, fun b hs he => ?_⟩
      simp only [Bulk.call, corrMatResample, if_neg h1, if_pos h2, hs]
      rfl
    · cases hl : ce.getLast? with
      | none =>
        refine .inr ⟨.indexError, fun b hs he => ?_⟩
        simp only [Bulk.call, corrMatResample, if_neg h1, if_neg h2, he, hl]
        rfl
      | some e =>
        refine .inl ⟨[e], fun b hs he => ?_⟩
        simp only [Bulk.call, corrMatResample, if_neg h1, if_neg h2, he, hs, hl]
        rfl
  | s0 :: s1 :: st, h1 =>
    by_cases h2 : en ≠ []
    · refine .inl ⟨en, fun b hs he => ?_⟩
      simp only [Bulk.call, corrMatResample, if_neg h1, if_pos h2, hs]
      rfl
    · refine .inl ⟨(s0 :: s1 :: st).map fun s => s + (s1 - s0), fun b hs he => ?_⟩
      simp only [Bulk.call, corrMatResample, if_neg h1, if_neg h2, hs]
      rfl

/-! ## The property -/

/-- **C169**: a bulk whose correlations have no `nan`, or are missing as a whole. First the linear call, then `resample`; or first `resample`,
then the linear call: one yields a bulk if and only if the other does, and the bulks are equal, samples and header. -/
theorem c169_order (fuel : Nat) {filt : List F → List F} {fft : Nat → List F → List F} (hfilt : ∀ n, LinearRow n n filt)
    (hfft : LinearResample fft) (b : Bulk V) (hw : b.WholeRows) (hsr : 0 < b.stats.lag.sr) (c : BulkCall)
    (hc : LinearCall b.stats.lag c) (st en : List Int) (b3 : Bulk V) :
    (do let b1 ← b.call fuel filt fft c; b1.call fuel filt fft (.resample st en)) = .ok b3 ↔
      (do let b2 ← b.call fuel filt fft (.resample st en); b2.call fuel filt fft c) = .ok b3 := by
  rcases resample_cases (V := V) fuel filt fft b.stats.corrStart b.stats.corrEnd st en with ⟨et, hr⟩ | ⟨er, hr⟩
  · rcases rowWise_or_error (V := V) fuel hfilt hfft b.stats.lag hsr c hc with ⟨f, lag', g, h⟩ | ⟨e, h⟩
    · have hb2 : Bulk.WholeRows (V := V) ⟨(st.zip et).map fun w => resampleBin b.stats.lag.npts b.data b.stats.corrStart w.1 w.2,
          { b.stats with corrStart := st, corrEnd := et }⟩ := by
        intro r hr
        obtain ⟨w, -, rfl⟩ := List.mem_map.1 hr
        exact resampleBin_length_whole hw _ _ _
      have hg : (g b.stats).lag = lag' ∧ (g b.stats).corrStart = b.stats.corrStart ∧ (g b.stats).corrEnd = b.stats.corrEnd ∧
          g { b.stats with corrStart := st, corrEnd := et } = { g b.stats with corrStart := st, corrEnd := et } := by
        rcases h.header with rfl | ⟨rfl, rfl⟩
        · exact ⟨setLag_lag _ _, rfl, rfl, rfl⟩
        · exact ⟨rfl, rfl, rfl, rfl⟩
      rw [h.call b rfl hw, hr b rfl rfl]
      simp only [bind, Except.bind]
      rw [hr ⟨b.data.map f, g b.stats⟩ hg.2.1 hg.2.2.1, h.call ⟨_, { b.stats with corrStart := st, corrEnd := et }⟩ rfl hb2]
      simp only [hg.1, hg.2.2.2, List.map_map]
      have : (st.zip et).map (fun w => resampleBin lag'.npts (b.data.map f) b.stats.corrStart w.1 w.2) =
          (st.zip et).map (f ∘ fun w => resampleBin b.stats.lag.npts b.data b.stats.corrStart w.1 w.2) :=
        List.map_congr_left fun w _ => resampleBin_linear h.linear hw _ _ _
      rw [this]
    · rw [h b rfl, hr b rfl rfl]
      simp only [bind, Except.bind]
      rw [h ⟨_, { b.stats with corrStart := st, corrEnd := et }⟩ rfl]
  · rcases rowWise_or_error (V := V) fuel hfilt hfft b.stats.lag hsr c hc with ⟨f, lag', g, h⟩ | ⟨e, h⟩
    · rw [h.call b rfl hw, hr b rfl rfl]
      simp only [bind, Except.bind]
      have hg : (g b.stats).corrStart = b.stats.corrStart ∧ (g b.stats).corrEnd = b.stats.corrEnd := by
        rcases h.header with rfl | ⟨rfl, rfl⟩ <;> exact ⟨rfl, rfl⟩
      rw [hr _ hg.1 hg.2]
    · rw [h b rfl, hr b rfl rfl]
      simp [bind, Except.bind]

/-! ## Cases -/

/-- a resampling that meets the condition: the samples are cut or zeros appended -/
def cutOrPad (len : Nat) (row : List F) : List F :=
  if none ∈ row then List.replicate len none else (List.range len).map fun j => row.getD j (some 0)

theorem cutOrPad_linear : LinearResample cutOrPad := by
  refine fun n len => ⟨⟨{ toFun := fun x j => if h : j.1 < n then x ⟨j.1, h⟩ else 0, map_add' := ?_, map_smul' := ?_ }, fun x => ?_⟩, ?_⟩
  · intro x y; funext i; simp only [Pi.add_apply]; split_ifs <;> simp
  · intro k x; funext i; simp only [Pi.smul_apply, smul_eq_mul, RingHom.id_apply]; split_ifs <;> simp
  · have h : none ∉ List.ofFn fun i => some (x i) := by
      intro h
      obtain ⟨i, hi⟩ := (List.mem_ofFn' _ _).1 h
      simp at hi
    rw [cutOrPad, if_neg h]
    refine List.ext_getElem (by simp) fun i h1 h2 => ?_
    simp only [List.getElem_map, List.getElem_range, List.getElem_ofFn, LinearMap.coe_mk, AddHom.coe_mk,
      List.getD_eq_getElem?_getD, List.getElem?_ofFn]
    split_ifs <;> simp
  · intro row h
    rw [cutOrPad, if_pos h]

/-- `bulk23` meets the conditions of `c169_order`, and the calls do something: both are averaged, and mirrored -/
example : bulk23.WholeRows ∧ 0 < bulk23.stats.lag.sr ∧ (∀ n, LinearRow n n id) ∧ LinearResample cutOrPad ∧
    LinearCall bulk23.stats.lag .mirror ∧
    (bulk23.calls 0 id cutOrPad [.mirror, .resample [0] [30]]).data = [[some (7 / 2), some (7 / 2)]] ∧
    (bulk23.calls 0 id cutOrPad [.resample [0] [30], .mirror]).data = [[some (7 / 2), some (7 / 2)]] := by
  refine ⟨?_, by decide +kernel, LinearRow.id, cutOrPad_linear, trivial, by decide +kernel, by decide +kernel⟩
  intro r hr
  have h : ∀ r ∈ bulk23.data, r.length = bulk23.stats.lag.npts ∧ ∀ v ∈ r, v ≠ none := by decide +kernel
  exact ⟨(h r hr).1, .inl (h r hr).2⟩

/-- multiplying each correlation by a number is one of the linear functions -/
example (k : ℚ) (lag : LagStats) : LinearCall lag (.values fun data _ => .ok (data.map fun r => r.map (F.mul (some k)))) :=
  ⟨fun r => r.map (F.mul (some k)), ⟨k • LinearMap.id, fun x => by simp [List.map_ofFn, Function.comp_def, F.mul],
    by simp [F.mul]⟩, fun _ => rfl⟩

/-- With a single missing sample the order does matter: `mirror` loses the sample at the other side, too. -/
example : ∃ b : Bulk Nat, b.stats = bulk23.stats ∧ b.data = [[none, some 2, some 3], [some 4, some 5, some 6]] ∧
    (b.calls 0 id cutOrPad [.mirror, .resample [0] [30]]).data = [[some (7 / 2), some 5]] ∧
    (b.calls 0 id cutOrPad [.resample [0] [30], .mirror]).data = [[some (7 / 2), some (17 / 4)]] :=
  ⟨⟨[[none, some 2, some 3], [some 4, some 5, some 6]], bulk23.stats⟩, rfl, rfl, by decide +kernel, by decide +kernel⟩

/-- With a function that is not linear, too: absolute values. -/
example : ∃ b : Bulk Nat, b.stats = bulk23.stats ∧ b.data = [[some 1, some 1, some 1], [some (-1), some (-1), some 1]] ∧
    (b.calls 0 id cutOrPad [.values fun d _ => .ok (d.map fun r => r.map F.abs), .resample [0] [30]]).data = [[some 1, some 1, some 1]] ∧
    (b.calls 0 id cutOrPad [.resample [0] [30], .values fun d _ => .ok (d.map fun r => r.map F.abs)]).data =
      [[some 0, some 0, some 1]] :=
  ⟨⟨[[some 1, some 1, some 1], [some (-1), some (-1), some 1]], bulk23.stats⟩, rfl, rfl, by decide +kernel, by decide +kernel⟩

end SeisMIC
