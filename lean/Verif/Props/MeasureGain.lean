import Verif.Model.StretchMeasure
import Verif.Props.Gain
import Verif.Props.StretchMeasure

/-! # The amplitude of the correlations and the measurements: C155 -/

namespace SeisMIC

noncomputable section

/-! ### specification -/

/-- the interpolation of a trace with another amplitude is the interpolation with this amplitude -/
def SplineLinear (spline : List ℝ → List ℝ → ℝ → ℝ) : Prop :=
  ∀ a times values x, spline times (scaleBy a values) x = a * spline times values x

/-! ### auxiliary facts -/

/-- the second trace is the first one with another amplitude, and with the sign of `ε` -/
def Louder (ε : ℝ) (x y : List ℝ) : Prop := ∃ c : ℝ, 0 < ε * c ∧ y = scaleBy c x

theorem same_sign {ε a b : ℝ} (ha : 0 < ε * a) (hb : 0 < ε * b) : 0 < a * b := by
  have h : 0 < ε * a * (ε * b) := mul_pos ha hb
  have h2 : ε * a * (ε * b) = ε ^ 2 * (a * b) := by ring
  rw [h2] at h
  exact pos_of_mul_pos_right h (sq_nonneg ε)

theorem dotR_scale (a b : ℝ) (x y : List ℝ) : dotR (scaleBy a x) (scaleBy b y) = a * b * dotR x y := by
  unfold dotR
  induction x generalizing y with
  | nil => simp [scaleBy]
  | cons u x ih =>
    cases y with
    | nil => simp [scaleBy]
    | cons v y =>
      have := ih y
      simp only [scaleBy, List.map_cons, List.zipWith_cons_cons, List.sum_cons] at this ⊢
      rw [this]
      ring

theorem similarity_louder {ε : ℝ} {x x' y y' : List ℝ} (hx : Louder ε x x') (hy : Louder ε y y') : similarity x' y' = similarity x y := by
  obtain ⟨a, ha, rfl⟩ := hx
  obtain ⟨b, hb, rfl⟩ := hy
  unfold similarity
  rw [dotR_scale, dotR_scale, dotR_scale]
  have h1 : a * a * dotR x x * (b * b * dotR y y) = (a * b) ^ 2 * (dotR x x * dotR y y) := by ring
  have h2 : Real.sqrt ((a * b) ^ 2 * (dotR x x * dotR y y)) = a * b * Real.sqrt (dotR x x * dotR y y) := by
    rw [Real.sqrt_mul (sq_nonneg _), Real.sqrt_sq (same_sign ha hb).le]
  simp only [h1, h2]
  have hab : a * b ≠ 0 := (same_sign ha hb).ne'
  simp only [mul_eq_zero, hab, false_or]
  rw [mul_div_mul_left _ _ hab]

theorem maskMul_scale (mask : List Bool) (a : ℝ) (x : List ℝ) : maskMul mask (scaleBy a x) = scaleBy a (maskMul mask x) := by
  unfold maskMul
  induction mask generalizing x with
  | nil => simp [scaleBy]
  | cons m mask ih =>
    cases x with
    | nil => simp [scaleBy]
    | cons u x =>
      have := ih x
      simp only [scaleBy, List.map_cons, List.zipWith_cons_cons] at this ⊢
      rw [this]
      cases m <;> simp

theorem maskMul_louder {ε : ℝ} (mask : List Bool) {x y : List ℝ} (h : Louder ε x y) : Louder ε (maskMul mask x) (maskMul mask y) := by
  obtain ⟨a, ha, rfl⟩ := h
  exact ⟨a, ha, maskMul_scale mask a x⟩

theorem louder_refl {ε : ℝ} (hε : ε ≠ 0) : Louder ε [] [] := ⟨ε, mul_self_pos.2 hε, rfl⟩

theorem louder_length {ε : ℝ} {x y : List ℝ} (h : Louder ε x y) : y.length = x.length := by
  obtain ⟨a, _, rfl⟩ := h
  exact scaleBy_length a x

theorem louder_gains {ε : ℝ} (g : List ℝ) (hg : ∀ a ∈ g, 0 < ε * a) (data : List (List ℝ)) (hl : g.length = data.length) :
    List.Forall₂ (Louder ε) data (withGains g data) := by
  induction data generalizing g with
  | nil => simp [withGains]
  | cons x data ih =>
    cases g with
    | nil => simp at hl
    | cons a g =>
      exact .cons ⟨a, hg a (by simp), rfl⟩ (ih g (fun b hb => hg b (by simp [hb])) (by simpa using hl))

theorem map_forall₂ {α β γ : Type} {R : α → β → Prop} {l : List α} {l' : List β} (h : List.Forall₂ R l l') (f : α → γ) (f' : β → γ)
    (hf : ∀ a b, R a b → f' b = f a) : l'.map f' = l.map f := by
  induction h with
  | nil => rfl
  | cons hab _ ih => simp [hf _ _ hab, ih]

theorem mapM_forall₂ {α β γ : Type} {R : α → β → Prop} {l : List α} {l' : List β} (h : List.Forall₂ R l l') (f : α → Except PyErr γ)
    (f' : β → Except PyErr γ) (hf : ∀ a b, R a b → f' b = f a) : l'.mapM f' = l.mapM f := by
  induction h with
  | nil => rfl
  | cons hab _ ih => rw [List.mapM_cons, List.mapM_cons, hf _ _ hab, ih]

theorem forall₂_map' {α β γ δ : Type} {R : α → β → Prop} {S : γ → δ → Prop} {l : List α} {l' : List β} (h : List.Forall₂ R l l')
    (f : α → γ) (f' : β → δ) (hf : ∀ a b, R a b → S (f a) (f' b)) : List.Forall₂ S (l.map f) (l'.map f') := by
  induction h with
  | nil => exact .nil
  | cons hab _ ih => exact .cons (hf _ _ hab) ih

theorem pySlice_louder {ε : ℝ} {x y : List ℝ} (h : Louder ε x y) (a b : Option Int) : Louder ε (pySlice x a b) (pySlice y a b) := by
  obtain ⟨c, hc, rfl⟩ := h
  refine ⟨c, hc, ?_⟩
  unfold pySlice
  simp only [scaleBy_length]
  simp [scaleBy, List.map_take, List.map_drop]

theorem corrMatTrim_louder {ε : ℝ} {A B : List (List ℝ)} (h : List.Forall₂ (Louder ε) A B) (s : LagStats) (t0 t1 : Rat) :
    List.Forall₂ (Louder ε) (corrMatTrim A s t0 t1).1 (corrMatTrim B s t0 t1).1 ∧ (corrMatTrim B s t0 t1).2 = (corrMatTrim A s t0 t1).2 := by
  unfold corrMatTrim
  simp only
  split
  · exact ⟨h, rfl⟩
  · split
    · exact ⟨h, rfl⟩
    · refine ⟨forall₂_map' h _ _ fun a b hab => pySlice_louder hab _ _, ?_⟩
      cases h with
      | nil => rfl
      | cons hab _ => simp only [List.map_cons, louder_length (pySlice_louder hab _ _)]

theorem stretchTrim_louder {ε : ℝ} {A B : List (List ℝ)} (h : List.Forall₂ (Louder ε) A B) (s : LagStats) (sides : Str) :
    List.Forall₂ (Louder ε) (stretchTrim A s sides).1 (stretchTrim B s sides).1 ∧ (stretchTrim B s sides).2 = (stretchTrim A s sides).2 := by
  unfold stretchTrim
  split <;> exact corrMatTrim_louder h _ _ _

theorem velocityChange_louder {ε : ℝ} (n nref : Nat) {A B refs refs' : List (List ℝ)} (h : List.Forall₂ (Louder ε) A B)
    (hr : List.Forall₂ (Louder ε) refs refs') (tw : List (List Int)) (strvec : List ℝ) (sides : Str) :
    velocityChange n nref (B.map fun row => row.map some) tw refs' strvec sides true =
      velocityChange n nref (A.map fun row => row.map some) tw refs strvec sides true := by
  unfold velocityChange
  split
  · rfl
  · congr 1
    funext ctw
    cases windowIdx sides n ctw with
    | error e => rfl
    | ok idx =>
      simp only [bind, Except.bind]
      cases maskOf n idx with
      | error e => rfl
      | ok mask =>
        simp only [hr.length_eq]
        split
        · rfl
        apply mapM_forall₂ (forall₂_map' (S := fun a b => ∃ x y, Louder ε x y ∧ a = x.map some ∧ b = y.map some) h _ _
          fun a b hab => ⟨a, b, hab, rfl, rfl⟩)
        rintro _ _ ⟨x, y, hxy, rfl, rfl⟩
        congr 1
        unfold simRow
        apply map_forall₂ hr
        intro r r' hrr
        have hv : ∀ z : List ℝ, rowVals true (z.map some) = some z := by
          intro z
          simp [rowVals]
        rw [hv, hv]
        exact similarity_louder (maskMul_louder _ hxy) (maskMul_louder _ hrr)

theorem stretchedRefs_louder {ε : ℝ} (spline : List ℝ → List ℝ → ℝ → ℝ) (hsp : SplineLinear spline) {ref ref' : List ℝ} (h : Louder ε ref ref')
    (sides : Str) (stretches : List ℝ) :
    List.Forall₂ (Louder ε) (stretchedRefs spline ref sides stretches) (stretchedRefs spline ref' sides stretches) := by
  obtain ⟨c, hc, rfl⟩ := h
  unfold stretchedRefs
  rw [scaleBy_length]
  induction stretches with
  | nil => exact .nil
  | cons v l ih =>
    refine .cons ⟨c, hc, ?_⟩ ih
    simp only [scaleBy, List.map_map]
    apply List.map_congr_left
    intro t _
    simp only [Function.comp_apply, splineZeros]
    have := hsp c (timeIdx sides ref.length) ref (t * Real.exp (-v))
    unfold scaleBy at this
    rw [this]
    split <;> simp

theorem timeStretch_louder {ε : ℝ} (spline : List ℝ → List ℝ → ℝ → ℝ) (hsp : SplineLinear spline) (n : Nat) {A B : List (List ℝ)}
    (h : List.Forall₂ (Louder ε) A B) {ref ref' : List ℝ} (hr : Louder ε ref ref') (tw : List (List Int)) (range : ℝ) (steps : Nat)
    (sides : Str) (trim : Rat × Rat) (rs : LagStats) :
    timeStretch spline n B ref' tw range steps sides trim rs = timeStretch spline n A ref tw range steps sides trim rs := by
  unfold timeStretch
  simp only
  have h1 := (corrMatTrim_louder (stretchedRefs_louder spline hsp hr sides (linspaceR (-range) range steps)) rs trim.1 trim.2).1
  rw [velocityChange_louder n _ h h1]
  congr 1
  generalize (corrMatTrim (stretchedRefs spline ref sides (linspaceR (-range) range steps)) rs trim.1 trim.2).1 = X at h1
  generalize (corrMatTrim (stretchedRefs spline ref' sides (linspaceR (-range) range steps)) rs trim.1 trim.2).1 = Y at h1
  cases h1 with
  | nil => rfl
  | cons hab _ => simp [louder_length hab]

theorem maMean_scale (c : ℝ) (l : List (Option ℝ)) : maMean (l.map (Option.map (c * ·))) = (maMean l).map (c * ·) := by
  have hf : (l.map (Option.map (c * ·))).filterMap id = scaleBy c (l.filterMap id) := by
    induction l with
    | nil => rfl
    | cons a l ih =>
      cases a with
      | none => simpa using ih
      | some x => simp only [List.map_cons, Option.map_some, List.filterMap_cons_some (f := id) (b := c * x) rfl,
          List.filterMap_cons_some (f := id) (b := x) rfl, ih, scaleBy]
  unfold maMean
  rw [hf]
  cases h : l.filterMap id with
  | nil => rfl
  | cons a m =>
    have := meanR_scale c (a :: m)
    simp only [scaleBy, List.map_cons, Option.map_some] at this ⊢
    rw [this]

theorem getD_scaleBy (c : ℝ) (x : List ℝ) (j : Nat) : (scaleBy c x).getD j 0 = c * x.getD j 0 := by
  unfold scaleBy
  rw [List.getD_eq_getElem?_getD, List.getD_eq_getElem?_getD, List.getElem?_map]
  cases x[j]? <;> simp

theorem trim_scale (A : List (List ℝ)) (c : ℝ) (s : LagStats) (t0 t1 : Rat) :
    corrMatTrim (A.map (scaleBy c)) s t0 t1 = ((corrMatTrim A s t0 t1).1.map (scaleBy c), (corrMatTrim A s t0 t1).2) := by
  have hsl : ∀ (x : List ℝ) a b, pySlice (scaleBy c x) a b = scaleBy c (pySlice x a b) := by
    intro x a b
    unfold pySlice
    simp only [scaleBy_length]
    simp [scaleBy, List.map_take, List.map_drop]
  unfold corrMatTrim
  simp only
  split
  · rfl
  · split
    · rfl
    · simp only [List.map_map, Function.comp_def, hsl]
      cases A with
      | nil => rfl
      | cons x A => simp [scaleBy_length]

theorem forall₂_common {ε : ℝ} (c : ℝ) (hc : 0 < ε * c) (A : List (List ℝ)) : List.Forall₂ (Louder ε) A (A.map (scaleBy c)) := by
  induction A with
  | nil => exact .nil
  | cons x A ih => exact .cons ⟨c, hc, rfl⟩ ih

/-! ### theorems -/

theorem stretch_any {ε : ℝ} (spline : List ℝ → List ℝ → ℝ → ℝ) (hsp : SplineLinear spline) (data : List (List ℝ)) (s : LagStats) (ref : List ℝ)
    (tw : Option (List (List Int))) (range : ℝ) (steps : Nat) (sides : Str) (refStats : Option LagStats)
    (g : List ℝ) (hg : ∀ a ∈ g, 0 < ε * a) (hl : g.length = data.length) (c : ℝ) (hc : 0 < ε * c) :
    corrMatStretch spline (withGains g data) s (some (scaleBy c ref)) tw range steps sides refStats =
      corrMatStretch spline data s (some ref) tw range steps sides refStats := by
  have ht := stretchTrim_louder (louder_gains g hg data hl) s sides
  unfold corrMatStretch
  simp only [ht.2, bind, Except.bind]
  split
  · rfl
  · exact timeStretch_louder spline hsp _ ht.1 ⟨c, hc, rfl⟩ _ _ _ _ _ _

/-- C155: If a reference is given, the velocity changes and correlations that are measured do not
depend on the amplitudes of the traces, each of which may change by its own factor, nor on the
amplitude of the reference. -/
theorem c155_stretch (spline : List ℝ → List ℝ → ℝ → ℝ) (hsp : SplineLinear spline) (data : List (List ℝ)) (s : LagStats) (ref : List ℝ)
    (tw : Option (List (List Int))) (range : ℝ) (steps : Nat) (sides : Str) (refStats : Option LagStats)
    (g : List ℝ) (hg : ∀ a ∈ g, 0 < a) (hl : g.length = data.length) (c : ℝ) (hc : 0 < c) :
    corrMatStretch spline (withGains g data) s (some (scaleBy c ref)) tw range steps sides refStats =
      corrMatStretch spline data s (some ref) tw range steps sides refStats :=
  stretch_any (ε := 1) spline hsp data s ref tw range steps sides refStats g (fun a ha => by simpa using hg a ha) hl c (by simpa using hc)

theorem stretch_mean_any {ε : ℝ} (spline : List ℝ → List ℝ → ℝ → ℝ) (hsp : SplineLinear spline) (data : List (List ℝ)) (s : LagStats)
    (tw : Option (List (List Int))) (range : ℝ) (steps : Nat) (sides : Str) (refStats : Option LagStats) (c : ℝ) (hc : 0 < ε * c) :
    corrMatStretch spline (data.map (scaleBy c)) s none tw range steps sides refStats =
      corrMatStretch spline data s none tw range steps sides refStats := by
  have ht : stretchTrim (data.map (scaleBy c)) s sides = ((stretchTrim data s sides).1.map (scaleBy c), (stretchTrim data s sides).2) := by
    unfold stretchTrim
    split <;> exact trim_scale _ _ _ _ _
  unfold corrMatStretch
  simp only [ht]
  generalize (stretchTrim data s sides).1 = D
  generalize (stretchTrim data s sides).2 = t
  have hmean : ((List.range t.npts).map fun j => maMean (column ((D.map (scaleBy c)).map fun row => row.map some) j)) =
      ((List.range t.npts).map fun j => maMean (column (D.map fun row => row.map some) j)).map (Option.map (c * ·)) := by
    rw [List.map_map (g := Option.map (c * ·))]
    apply List.map_congr_left
    intro j _
    rw [Function.comp_apply, ← maMean_scale]
    congr 1
    unfold column
    simp only [List.map_map]
    apply List.map_congr_left
    intro x _
    simp only [Function.comp_apply, scaleBy]
    rw [List.getD_eq_getElem?_getD, List.getD_eq_getElem?_getD, List.getElem?_map, List.getElem?_map, List.getElem?_map]
    cases x[j]? <;> rfl
  unfold extractTrace
  simp only [if_true, bind, Except.bind, hmean]
  split
  · rfl
  · apply timeStretch_louder spline hsp _ (forall₂_common c hc D)
    refine ⟨c, hc, ?_⟩
    simp only [scaleBy, List.map_map]
    apply List.map_congr_left
    intro j _
    simp only [Function.comp_apply]
    cases maMean (column (D.map fun row => row.map some) j) <;> simp

/-- C155: Without a reference, which is the mean of the traces then, they do not depend on a
common factor of all amplitudes, such as the unit. -/
theorem c155_stretch_mean (spline : List ℝ → List ℝ → ℝ → ℝ) (hsp : SplineLinear spline) (data : List (List ℝ)) (s : LagStats)
    (tw : Option (List (List Int))) (range : ℝ) (steps : Nat) (sides : Str) (refStats : Option LagStats) (c : ℝ) (hc : 0 < c) :
    corrMatStretch spline (data.map (scaleBy c)) s none tw range steps sides refStats =
      corrMatStretch spline data s none tw range steps sides refStats :=
  stretch_mean_any (ε := 1) spline hsp data s tw range steps sides refStats c (by simpa using hc)

theorem coherence_any {ε : ℝ} (n : Nat) (data : List (List ℝ)) (tw : List (List Int)) (ref : List ℝ) (sides : Str) (nans : Bool)
    (g : List ℝ) (hg : ∀ a ∈ g, 0 < ε * a) (hl : g.length = data.length) (c : ℝ) (hc : 0 < ε * c) :
    computeWfc n ((withGains g data).map fun row => row.map some) tw (scaleBy c ref) sides nans =
      computeWfc n (data.map fun row => row.map some) tw ref sides nans := by
  unfold computeWfc
  rw [scaleBy_length]
  split
  · rfl
  · congr 1
    funext ctw
    cases windowIdx sides n ctw with
    | error e => rfl
    | ok idx =>
      simp only [bind, Except.bind]
      cases maskOf n idx with
      | error e => rfl
      | ok mask =>
        simp only [pure, Except.pure, List.map_map]
        congr 1
        apply map_forall₂ (louder_gains g hg data hl)
        intro x y hxy
        have hv : ∀ z : List ℝ, rowVals nans (z.map some) = some z := by
          intro z
          unfold rowVals
          cases nans with
          | true => simp
          | false =>
            simp only [Bool.false_eq_true, if_false]
            induction z with
            | nil => rfl
            | cons a z ih => rw [List.map_cons, List.mapM_cons, ih]; rfl
        simp only [Function.comp_apply, hv]
        exact similarity_louder (maskMul_louder _ hxy) (maskMul_louder _ ⟨c, hc, rfl⟩)

/-- C155: The waveform coherence does not depend on the amplitudes either. -/
theorem c155_coherence (n : Nat) (data : List (List ℝ)) (tw : List (List Int)) (ref : List ℝ) (sides : Str) (nans : Bool)
    (g : List ℝ) (hg : ∀ a ∈ g, 0 < a) (hl : g.length = data.length) (c : ℝ) (hc : 0 < c) :
    computeWfc n ((withGains g data).map fun row => row.map some) tw (scaleBy c ref) sides nans =
      computeWfc n (data.map fun row => row.map some) tw ref sides nans :=
  coherence_any (ε := 1) n data tw ref sides nans g (fun a ha => by simpa using hg a ha) hl c (by simpa using hc)

theorem takeIdx_scale (c : ℝ) (x : List ℝ) (idx : List Int) : takeIdx (scaleBy c x) idx = (takeIdx x idx).map (scaleBy c) := by
  unfold takeIdx
  simp only [scaleBy_length, getD_scaleBy]
  induction idx with
  | nil => rfl
  | cons k idx ih =>
    rw [List.mapM_cons, List.mapM_cons, ih]
    generalize List.mapM (m := Except PyErr) _ idx = R
    split_ifs <;> cases R <;> rfl

theorem compareRow_louder {ε : ℝ} {refs refs' : List (List ℝ)} (hr : List.Forall₂ (Louder ε) refs refs') (idx : List Int) {x y : List ℝ}
    (h : Louder ε x y) : compareRow refs' idx y = compareRow refs idx x := by
  obtain ⟨c, hc, rfl⟩ := h
  unfold compareRow
  rw [takeIdx_scale]
  cases takeIdx x idx with
  | error e => rfl
  | ok f =>
    simp only [Except.map, bind, Except.bind]
    apply mapM_forall₂ hr
    rintro r _ ⟨d, hd, rfl⟩
    rw [takeIdx_scale]
    cases takeIdx r idx with
    | error e => rfl
    | ok q => simp only [Except.map]; rw [similarity_louder ⟨c, hc, rfl⟩ ⟨d, hd, rfl⟩]

theorem shiftedRefMat_louder {ε : ℝ} (spline : List ℝ → List ℝ → ℝ → ℝ) (hsp : SplineLinear spline) {ref ref' : List ℝ} (h : Louder ε ref ref')
    (s : LagStats) (shifts : List ℝ) : List.Forall₂ (Louder ε) (shiftedRefMat spline ref s shifts) (shiftedRefMat spline ref' s shifts) := by
  obtain ⟨c, hc, rfl⟩ := h
  unfold shiftedRefMat
  induction shifts with
  | nil => exact .nil
  | cons v l ih =>
    refine .cons ⟨c, hc, ?_⟩ ih
    simp only [hsp c]
    simp only [scaleBy, List.map_map, Function.comp_def]

theorem measureTrimmed_louder {ε : ℝ} (spline : List ℝ → List ℝ → ℝ → ℝ) (hsp : SplineLinear spline) {A B : List (List ℝ)}
    (h : List.Forall₂ (Louder ε) A B) {ref ref' : List ℝ} (hr : Louder ε ref ref') (s : LagStats) (wins : List (Rat × Rat)) (range : Rat)
    (steps : Nat) (sides : Str) :
    measureTrimmed spline B ref' s wins range steps sides = measureTrimmed spline A ref s wins range steps sides := by
  unfold measureTrimmed
  apply mapM_forall₂ h
  intro x y hxy
  have : (fun w : Rat × Rat => compareRow (shiftedRefMat spline ref' s (linspaceR (-(range : ℝ)) (range : ℝ) steps)) (lagIndices sides s w.1 w.2) y) =
      fun w => compareRow (shiftedRefMat spline ref s (linspaceR (-(range : ℝ)) (range : ℝ) steps)) (lagIndices sides s w.1 w.2) x :=
    funext fun w => compareRow_louder (shiftedRefMat_louder spline hsp hr s _) _ hxy
  rw [this]

theorem forall₂_append_one {R : List ℝ → List ℝ → Prop} {A B : List (List ℝ)} (h : List.Forall₂ R A B) {x y : List ℝ} (hxy : R x y) :
    List.Forall₂ R (A ++ [x]) (B ++ [y]) := by
  induction h with
  | nil => exact .cons hxy .nil
  | cons hab _ ih => exact .cons hab ih

theorem forall₂_dropLast {R : List ℝ → List ℝ → Prop} {A B : List (List ℝ)} (h : List.Forall₂ R A B) :
    List.Forall₂ R A.dropLast B.dropLast := by
  induction h with
  | nil => exact .nil
  | cons hab h ih =>
    cases h with
    | nil => exact .nil
    | cons h1 h2 => simp only [List.dropLast_cons_cons]; exact .cons hab ih

theorem forall₂_getLastD {ε : ℝ} (hε : ε ≠ 0) {A B : List (List ℝ)} (h : List.Forall₂ (Louder ε) A B) : Louder ε (A.getLastD []) (B.getLastD []) := by
  induction h with
  | nil => exact louder_refl hε
  | cons hab h ih =>
    cases h with
    | nil => exact hab
    | cons h1 h2 => simpa [List.getLastD] using ih

theorem shift_any {ε : ℝ} (spline : List ℝ → List ℝ → ℝ → ℝ) (hsp : SplineLinear spline) (data : List (List ℝ)) (s : LagStats) (ref : List ℝ)
    (tw : Option (List (List Rat))) (range : Rat) (steps : Int) (sides : Str)
    (g : List ℝ) (hg : ∀ a ∈ g, 0 < ε * a) (hl : g.length = data.length) (c : ℝ) (hc : 0 < ε * c) :
    measureShift spline (withGains g data) s (some (scaleBy c ref)) tw range steps sides =
      measureShift spline data s (some ref) tw range steps sides := by
  unfold measureShift
  simp only [scaleBy_length, Option.toList_some]
  split
  · rfl
  split
  · rfl
  split
  · rfl
  split
  · rfl
  split
  · rfl
  split
  · rename_i hi lo _ _
    generalize (if sides = c!"both" then -(hi + range) else lo - range) = lo'
    split
    · rfl
    split
    · rfl
    split
    · rfl
    · have h := forall₂_append_one (louder_gains g hg data hl) (show Louder ε ref (scaleBy c ref) from ⟨c, hc, rfl⟩)
      have ht := corrMatTrim_louder h s lo' (hi + range)
      rw [ht.2]
      exact measureTrimmed_louder spline hsp (forall₂_dropLast ht.1) (forall₂_getLastD (by rintro rfl; simp at hc) ht.1) _ _ _ _ _
  · rfl

/-- C155: The time shifts that are measured with a reference do not depend on the amplitudes of the
traces and of the reference. -/
theorem c155_shift (spline : List ℝ → List ℝ → ℝ → ℝ) (hsp : SplineLinear spline) (data : List (List ℝ)) (s : LagStats) (ref : List ℝ)
    (tw : Option (List (List Rat))) (range : Rat) (steps : Int) (sides : Str)
    (g : List ℝ) (hg : ∀ a ∈ g, 0 < a) (hl : g.length = data.length) (c : ℝ) (hc : 0 < c) :
    measureShift spline (withGains g data) s (some (scaleBy c ref)) tw range steps sides =
      measureShift spline data s (some ref) tw range steps sides :=
  shift_any (ε := 1) spline hsp data s ref tw range steps sides g (fun a ha => by simpa using hg a ha) hl c (by simpa using hc)

theorem shift_mean_any {ε : ℝ} (spline : List ℝ → List ℝ → ℝ → ℝ) (hsp : SplineLinear spline) (data : List (List ℝ)) (s : LagStats)
    (tw : Option (List (List Rat))) (range : Rat) (steps : Int) (sides : Str) (c : ℝ) (hc : 0 < ε * c) :
    measureShift spline (data.map (scaleBy c)) s none tw range steps sides = measureShift spline data s none tw range steps sides := by
  unfold measureShift
  refine if_congr Iff.rfl rfl (if_congr Iff.rfl rfl (if_congr Iff.rfl rfl (if_congr Iff.rfl rfl (if_congr Iff.rfl rfl ?_))))
  dsimp only [Option.toList_none]
  split
  · rename_i hi lo _ _
    generalize (if sides = c!"both" then -(hi + range) else lo - range) = lo'
    split
    · rfl
    split
    · rfl
    split
    · rfl
    · rw [List.append_nil, List.append_nil, trim_scale]
      generalize corrMatTrim data s lo' (hi + range) = t
      apply measureTrimmed_louder spline hsp (forall₂_common c hc t.1)
      refine ⟨c, hc, ?_⟩
      simp only [scaleBy, List.map_map]
      apply List.map_congr_left
      intro j _
      simp only [Function.comp_apply]
      rw [← meanR_scale]
      congr 1
      simp only [scaleBy, List.map_map]
      apply List.map_congr_left
      intro x _
      exact getD_scaleBy c x j
  · rfl

/-- C155: The time shifts that are measured without a reference do not depend on a common factor of
all amplitudes. -/
theorem c155_shift_mean (spline : List ℝ → List ℝ → ℝ → ℝ) (hsp : SplineLinear spline) (data : List (List ℝ)) (s : LagStats)
    (tw : Option (List (List Rat))) (range : Rat) (steps : Int) (sides : Str) (c : ℝ) (hc : 0 < c) :
    measureShift spline (data.map (scaleBy c)) s none tw range steps sides = measureShift spline data s none tw range steps sides :=
  shift_mean_any (ε := 1) spline hsp data s tw range steps sides c (by simpa using hc)

/-- Hypotheses of C155: an interpolation that is linear in the values and reproduces constants at
least: the nearest sample before; and traces of a bulk with own gains. -/
example : SplineLinear (fun times values x => values.getD ((times.filter fun t => decide (t ≤ x)).length - 1) 0) ∧
    (∀ a ∈ [(2 : ℝ), 1 / 3], 0 < a) ∧ withGains [2, 1 / 3] [[1, 4, 2], [3, 0, 6]] = [[2, 8, 4], [1, 0, 2]] := by
  refine ⟨fun a t v x => getD_scaleBy a v _, ?_, ?_⟩
  · intro a ha
    simp only [List.mem_cons, List.not_mem_nil, or_false] at ha
    rcases ha with rfl | rfl <;> norm_num
  · norm_num [withGains, scaleBy]

end

end SeisMIC
