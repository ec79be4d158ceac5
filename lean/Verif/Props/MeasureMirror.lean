import Verif.Props.MeasureGain

/-!
# C158: the order of the two stations does not influence what is measured

Exchanging the stations of a pair mirrors its correlations in time (C10).
-/

namespace SeisMIC

/-- the side of the mirrored correlation on which the same waves arrive -/
def mirrorSide (sides : Str) : Str :=
  if sides = c!"left" then c!"right" else if sides = c!"right" then c!"left" else sides

/-- lags from `-m` to `m` samples -/
def Centred (s : LagStats) (m : Nat) : Prop := s.npts = 2 * m + 1 ∧ 0 < s.sr ∧ s.startLag = -(m / s.sr)

/-- interpolating the mirrored samples gives the mirrored function -/
def SplineMirror (spline : List ℝ → List ℝ → ℝ → ℝ) : Prop :=
  ∀ times values x, times.length = values.length →
    spline (times.reverse.map fun t => -t) values.reverse (-x) = spline times values x

/-- the time windows are inside the trace -/
def WindowsInside (m : Nat) (tw : List (List Int)) : Prop := ∀ w ∈ tw, w ≠ [] ∧ ∀ k ∈ w, 0 ≤ k ∧ k ≤ m

/-! ### sums -/

theorem mapM_same {α β : Type} {l : List α} {f g : α → Except PyErr β} (h : ∀ x ∈ l, f x = g x) : l.mapM f = l.mapM g := by
  induction l with
  | nil => rfl
  | cons a l ih => rw [List.mapM_cons, List.mapM_cons, h a (by simp), ih (fun x hx => h x (by simp [hx]))]

theorem mapM_after_map {α β γ : Type} (l : List α) (f : α → β) (g : β → Except PyErr γ) :
    (l.map f).mapM g = l.mapM fun a => g (f a) := by
  induction l with
  | nil => rfl
  | cons a l ih => rw [List.map_cons, List.mapM_cons, List.mapM_cons, ih]

theorem zipWith_reverse' {α β γ : Type} (f : α → β → γ) (a : List α) (b : List β) (h : a.length = b.length) :
    List.zipWith f a.reverse b.reverse = (List.zipWith f a b).reverse := by
  rw [List.reverse_zipWith h]

theorem dotR_reverse (a b : List ℝ) (h : a.length = b.length) : dotR a.reverse b.reverse = dotR a b := by
  unfold dotR
  rw [zipWith_reverse' _ a b h, List.sum_reverse]

theorem similarity_reverse (a b : List ℝ) (h : a.length = b.length) : similarity a.reverse b.reverse = similarity a b := by
  unfold similarity
  rw [dotR_reverse a a rfl, dotR_reverse b b rfl, dotR_reverse a b h]

theorem maskMul_reverse (mask : List Bool) (row : List ℝ) (h : mask.length = row.length) :
    maskMul mask.reverse row.reverse = (maskMul mask row).reverse := zipWith_reverse' _ mask row h

theorem maskMul_length' (mask : List Bool) (row : List ℝ) (h : mask.length = row.length) :
    (maskMul mask row).length = mask.length := by
  simp [maskMul, h]

/-! ### windows -/

theorem centerP_odd (m : Nat) : centerP (2 * m + 1) = m := by
  unfold centerP; push_cast; omega

theorem maskOf_inside (n : Nat) (idx : List Int) (h : ∀ k ∈ idx, 0 ≤ k ∧ k < n) :
    maskOf n idx = .ok ((List.range n).map fun i : Nat => decide ((i : Int) ∈ idx)) := by
  unfold maskOf
  rw [if_neg]
  · congr 1
    apply List.map_congr_left
    intro i hi
    have hi : i < n := by simpa using hi
    rw [Bool.eq_iff_iff, List.any_eq_true, decide_eq_true_eq]
    constructor
    · rintro ⟨k, hk, h'⟩
      have := h k hk
      rw [Bool.or_eq_true, decide_eq_true_eq, decide_eq_true_eq] at h'
      rcases h' with rfl | h'
      · exact hk
      · omega
    · intro hi'
      exact ⟨i, hi', by simp⟩
  · rw [List.any_eq_true]
    rintro ⟨k, hk, h'⟩
    have := h k hk
    rw [Bool.or_eq_true, decide_eq_true_eq, decide_eq_true_eq] at h'
    omega

/-- the indices of a window -/
theorem windowIdx_mem (m : Nat) (sides : Str) (w : List Int) (hw : w ≠ [])
    (hs : sides = c!"both" ∨ sides = c!"left" ∨ sides = c!"right") :
    ∃ idx, windowIdx sides (2 * m + 1) w = .ok idx ∧ ∀ i, i ∈ idx ↔
      ∃ k ∈ w, (sides ≠ c!"right" ∧ i = m - k) ∨ (sides ≠ c!"left" ∧ i = m + k) := by
  unfold windowIdx
  simp only [centerP_odd]
  rcases hs with rfl | rfl | rfl
  · rw [if_pos rfl]
    cases w with
    | nil => exact absurd rfl hw
    | cons k0 rest =>
      simp only
      by_cases h0 : k0 = 0
      · rw [if_pos h0]
        refine ⟨_, rfl, fun i => ?_⟩
        subst h0
        simp only [List.mem_append, List.mem_map, List.mem_reverse, List.mem_cons]
        constructor
        · rintro (⟨k, hk, rfl⟩ | ⟨k, hk, rfl⟩)
          · exact ⟨k, hk, .inl ⟨by decide, rfl⟩⟩
          · exact ⟨k, .inr hk, .inr ⟨by decide, rfl⟩⟩
        · rintro ⟨k, hk, ⟨_, rfl⟩ | ⟨_, rfl⟩⟩
          · exact .inl ⟨k, hk, rfl⟩
          · rcases hk with rfl | hk
            · exact .inl ⟨0, .inl rfl, by omega⟩
            · exact .inr ⟨k, hk, rfl⟩
      · rw [if_neg h0]
        refine ⟨_, rfl, fun i => ?_⟩
        rw [List.mem_append, List.mem_map, List.mem_map]
        constructor
        · rintro (⟨k, hk, rfl⟩ | ⟨k, hk, rfl⟩)
          · exact ⟨k, List.mem_reverse.1 hk, .inl ⟨by decide, rfl⟩⟩
          · exact ⟨k, hk, .inr ⟨by decide, rfl⟩⟩
        · rintro ⟨k, hk, ⟨_, rfl⟩ | ⟨_, rfl⟩⟩
          · exact .inl ⟨k, List.mem_reverse.2 hk, rfl⟩
          · exact .inr ⟨k, hk, rfl⟩
  · rw [if_neg (by decide), if_pos rfl]
    refine ⟨_, rfl, fun i => ?_⟩
    rw [List.mem_map]
    constructor
    · rintro ⟨k, hk, rfl⟩
      exact ⟨k, List.mem_reverse.1 hk, .inl ⟨by decide, rfl⟩⟩
    · rintro ⟨k, hk, ⟨_, rfl⟩ | ⟨h, _⟩⟩
      · exact ⟨k, List.mem_reverse.2 hk, rfl⟩
      · exact absurd rfl h
  · rw [if_neg (by decide), if_neg (by decide), if_pos rfl]
    refine ⟨_, rfl, fun i => ?_⟩
    rw [List.mem_map]
    constructor
    · rintro ⟨k, hk, rfl⟩
      exact ⟨k, hk, .inr ⟨by decide, rfl⟩⟩
    · rintro ⟨k, hk, ⟨h, _⟩ | ⟨_, rfl⟩⟩
      · exact absurd rfl h
      · exact ⟨k, hk, rfl⟩

theorem mirrorSide_cases {sides : Str} (hs : sides = c!"both" ∨ sides = c!"left" ∨ sides = c!"right") :
    (mirrorSide sides = c!"both" ∨ mirrorSide sides = c!"left" ∨ mirrorSide sides = c!"right") ∧
    (mirrorSide sides ≠ c!"right" ↔ sides ≠ c!"left") ∧ (mirrorSide sides ≠ c!"left" ↔ sides ≠ c!"right") := by
  rcases hs with rfl | rfl | rfl <;> decide

theorem reverse_range_map {α : Type} (m : Nat) (f : Nat → α) :
    ((List.range (2 * m + 1)).map f).reverse = (List.range (2 * m + 1)).map fun i => f (2 * m - i) := by
  apply List.ext_getElem
  · simp
  · intro i h1 h2
    simp only [List.length_map, List.length_range] at h2
    simp only [List.getElem_reverse, List.getElem_map, List.getElem_range, List.length_map, List.length_range]
    congr 1

/-- the mask of the mirrored side is the mirrored mask -/
theorem mask_mirror (m : Nat) (sides : Str) (w : List Int) (hs : sides = c!"both" ∨ sides = c!"left" ∨ sides = c!"right")
    (hw : w ≠ []) (hin : ∀ k ∈ w, 0 ≤ k ∧ k ≤ m) :
    ∃ mask : List Bool, mask.length = 2 * m + 1 ∧
      (windowIdx sides (2 * m + 1) w >>= maskOf (2 * m + 1)) = .ok mask ∧
      (windowIdx (mirrorSide sides) (2 * m + 1) w >>= maskOf (2 * m + 1)) = .ok mask.reverse := by
  obtain ⟨hs', hr, hl⟩ := mirrorSide_cases hs
  obtain ⟨idx, e, hidx⟩ := windowIdx_mem m sides w hw hs
  obtain ⟨idx', e', hidx'⟩ := windowIdx_mem m (mirrorSide sides) w hw hs'
  have b : ∀ k ∈ idx, 0 ≤ k ∧ k < ((2 * m + 1 : Nat) : Int) := by
    intro i hi
    obtain ⟨k, hk, ⟨_, rfl⟩ | ⟨_, rfl⟩⟩ := (hidx i).1 hi <;> have := hin k hk <;> omega
  have b' : ∀ k ∈ idx', 0 ≤ k ∧ k < ((2 * m + 1 : Nat) : Int) := by
    intro i hi
    obtain ⟨k, hk, ⟨_, rfl⟩ | ⟨_, rfl⟩⟩ := (hidx' i).1 hi <;> have := hin k hk <;> omega
  refine ⟨(List.range (2 * m + 1)).map fun i : Nat => decide ((i : Int) ∈ idx), by simp, ?_, ?_⟩
  · rw [e]
    exact maskOf_inside _ _ b
  · rw [e']
    refine (maskOf_inside _ _ b').trans ?_
    rw [reverse_range_map]
    congr 1
    apply List.map_congr_left
    intro i hi
    have hi : i < 2 * m + 1 := by simpa using hi
    rw [Bool.eq_iff_iff, decide_eq_true_eq, decide_eq_true_eq, hidx, hidx']
    constructor
    · rintro ⟨k, hk, ⟨h, h'⟩ | ⟨h, h'⟩⟩
      · exact ⟨k, hk, .inr ⟨hr.1 h, by omega⟩⟩
      · exact ⟨k, hk, .inl ⟨hl.1 h, by omega⟩⟩
    · rintro ⟨k, hk, ⟨h, h'⟩ | ⟨h, h'⟩⟩
      · exact ⟨k, hk, .inr ⟨hl.2 h, by omega⟩⟩
      · exact ⟨k, hk, .inl ⟨hr.2 h, by omega⟩⟩

/-! ### the comparison with the stretched references -/

theorem rowVals_some (b : Bool) (z : List ℝ) : rowVals b (z.map some) = some z := by
  unfold rowVals
  cases b with
  | true => simp [List.map_map, Function.comp_def]
  | false =>
    rw [if_neg (by simp)]
    induction z with
    | nil => rfl
    | cons a z ih => simp_all [List.mapM_cons]

theorem velocityChange_mirror (m nref : Nat) (data refs : List (List ℝ)) (tw : List (List Int)) (strvec : List ℝ) (sides : Str)
    (hd : ∀ x ∈ data, x.length = 2 * m + 1) (hr : ∀ x ∈ refs, x.length = 2 * m + 1)
    (hs : sides = c!"both" ∨ sides = c!"left" ∨ sides = c!"right") (hw : WindowsInside m tw) :
    velocityChange (2 * m + 1) nref ((data.map List.reverse).map fun row => row.map some) tw (refs.map List.reverse) strvec
      (mirrorSide sides) true =
    velocityChange (2 * m + 1) nref (data.map fun row => row.map some) tw refs strvec sides true := by
  unfold velocityChange
  split
  · rfl
  · apply mapM_same
    intro w hwm
    obtain ⟨mask, hm, e, e'⟩ := mask_mirror m sides w hs (hw w hwm).1 (hw w hwm).2
    have l : ∀ {β : Type} (X : Except PyErr (List Int)) (g : List Bool → Except PyErr β),
        (X >>= fun idx => maskOf (2 * m + 1) idx >>= g) = ((X >>= maskOf (2 * m + 1)) >>= g) := by
      intro β X g; cases X <;> rfl
    rw [l, l, e, e']
    simp only [bind, Except.bind]
    rw [List.length_map]
    split
    · rfl
    · rw [List.map_map, mapM_after_map, mapM_after_map]
      apply mapM_same
      intro row hrow
      simp only [Function.comp_apply]
      congr 1
      unfold simRow
      rw [List.map_map]
      apply List.map_congr_left
      intro r hrm
      simp only [Function.comp_apply]
      rw [rowVals_some, rowVals_some]
      simp only
      have h1 : mask.length = row.length := by rw [hm, hd row hrow]
      have h2 : mask.length = r.length := by rw [hm, hr r hrm]
      rw [maskMul_reverse mask row h1, maskMul_reverse mask r h2,
        similarity_reverse _ _ (by rw [maskMul_length' _ _ h1, maskMul_length' _ _ h2])]

theorem timeIdx_mirror (sides : Str) (hs : sides ≠ c!"single") (m : Nat) :
    (timeIdx sides (2 * m + 1)).reverse.map (fun t => -t) = timeIdx sides (2 * m + 1) := by
  unfold timeIdx
  rw [reverse_range_map, List.map_map]
  apply List.map_congr_left
  intro i hi
  have hi : i ≤ 2 * m := by have : i < 2 * m + 1 := by simpa using hi
                            omega
  simp only [Function.comp_apply, if_neg hs]
  push_cast [Nat.cast_sub hi]
  ring

theorem timeIdx_sides {sides sides' : Str} (h : sides ≠ c!"single") (h' : sides' ≠ c!"single") (n : Nat) :
    timeIdx sides' n = timeIdx sides n := by
  unfold timeIdx
  simp only [if_neg h, if_neg h']

theorem headD_getLastD_mirror (l : List ℝ) (h : l.reverse.map (fun t => -t) = l) : l.headD 0 = -l.getLastD 0 := by
  have e : l.head? = l.getLast?.map fun t => -t := by
    conv_lhs => rw [← h]
    rw [List.head?_map, List.head?_reverse]
  rw [List.headD_eq_head?_getD, List.getLastD_eq_getLast?, e]
  cases l.getLast? <;> simp

theorem splineZeros_mirror (spline : List ℝ → List ℝ → ℝ → ℝ) (hsp : SplineMirror spline) (times values : List ℝ) (x : ℝ)
    (hl : times.length = values.length) (ht : times.reverse.map (fun t => -t) = times) :
    splineZeros spline times values.reverse (-x) = splineZeros spline times values x := by
  unfold splineZeros
  have h1 := headD_getLastD_mirror times ht
  have h2 := hsp times values x hl
  rw [ht] at h2
  rw [h2]
  refine if_congr ?_ rfl rfl
  rw [h1]
  constructor <;> rintro ⟨a, b⟩ <;> constructor <;> linarith

theorem stretchedRefs_mirror (spline : List ℝ → List ℝ → ℝ → ℝ) (hsp : SplineMirror spline) (m : Nat) (ref : List ℝ)
    (hl : ref.length = 2 * m + 1) (sides : Str) (hs : sides ≠ c!"single") (stretches : List ℝ) :
    stretchedRefs spline ref.reverse sides stretches = (stretchedRefs spline ref sides stretches).map List.reverse := by
  unfold stretchedRefs
  rw [List.map_map]
  apply List.map_congr_left
  intro v _
  rw [Function.comp_apply, List.length_reverse, hl]
  have ht := timeIdx_mirror sides hs m
  have hlen : (timeIdx sides (2 * m + 1)).length = ref.length := by simp [timeIdx, hl]
  conv_rhs => rw [← List.map_reverse]
  conv_lhs => rw [show (timeIdx sides (2 * m + 1)).map (fun t =>
      splineZeros spline (timeIdx sides (2 * m + 1)) ref.reverse (t * Real.exp (-v))) =
    ((timeIdx sides (2 * m + 1)).reverse.map (fun t => -t)).map (fun t =>
      splineZeros spline (timeIdx sides (2 * m + 1)) ref.reverse (t * Real.exp (-v))) by rw [ht]]
  rw [List.map_map]
  apply List.map_congr_left
  intro t _
  rw [Function.comp_apply, neg_mul]
  exact splineZeros_mirror spline hsp _ ref _ hlen ht

theorem centred_endLag (s : LagStats) (m : Nat) (h : Centred s m) : s.endLag = m / s.sr := by
  obtain ⟨h1, h2, h3⟩ := h
  unfold LagStats.endLag
  rw [h1, h3, if_neg (by omega), if_neg (ne_of_gt h2)]
  push_cast
  field_simp
  ring

theorem pySlice_all {α : Type} (l : List α) (n : Nat) (h : l.length = n) : pySlice l (some 0) (some (n : Int)) = l := by
  subst h
  simp only [pySlice, sliceBound]
  rw [if_neg (by omega), if_neg (by omega)]
  simp

theorem trim_centred {α : Type} (data : List (List α)) (s : LagStats) (m : Nat) (h : Centred s m)
    (hd : ∀ x ∈ data, x.length = 2 * m + 1) :
    corrMatTrim data s (-(min (-s.startLag) s.endLag)) (min (-s.startLag) s.endLag) = (data, s) := by
  rw [centred_endLag s m h]
  obtain ⟨h1, h2, h3⟩ := h
  have e1 : min (-s.startLag) (m / s.sr) = m / s.sr := by rw [h3]; simp
  rw [e1]
  have e2 : (-(m / s.sr) - s.startLag) * s.sr = 0 := by rw [h3]; ring
  have e3 : (m / s.sr - s.startLag) * s.sr = ((2 * m : Nat) : Int) := by
    rw [h3]; push_cast; field_simp; ring
  unfold corrMatTrim
  rw [e2, e3, Rat.floor_intCast, show (0 : Rat) = ((0 : Int) : Rat) by simp, Rat.floor_intCast]
  simp only
  rw [if_neg (by omega), if_neg (by rw [h1]; push_cast; omega)]
  have e4 : data.map (fun row => pySlice row (some 0) (some (((2 * m : Nat) : Int) + 1))) = data := by
    conv_rhs => rw [← List.map_id data]
    apply List.map_congr_left
    intro x hx
    exact pySlice_all x (2 * m + 1) (hd x hx)
  rw [e4]
  refine Prod.ext rfl ?_
  cases data with
  | nil =>
    simp only
    have := pySlice_all (List.replicate s.npts ()) (2 * m + 1) (by simp [h1])
    push_cast at this ⊢
    rw [this, ← h3]
    simp
  | cons x data =>
    simp only [hd x (by simp), ← h3, ← h1]

theorem stretchedRefs_length (spline : List ℝ → List ℝ → ℝ → ℝ) (ref : List ℝ) (sides : Str) (stretches : List ℝ) :
    ∀ x ∈ stretchedRefs spline ref sides stretches, x.length = ref.length := by
  intro x hx
  unfold stretchedRefs at hx
  obtain ⟨v, _, rfl⟩ := List.mem_map.1 hx
  simp [timeIdx]

theorem stretchedRefs_sides (spline : List ℝ → List ℝ → ℝ → ℝ) (ref : List ℝ) {sides sides' : Str} (h : sides ≠ c!"single")
    (h' : sides' ≠ c!"single") (stretches : List ℝ) :
    stretchedRefs spline ref sides' stretches = stretchedRefs spline ref sides stretches := by
  unfold stretchedRefs
  simp only [timeIdx_sides h h']

theorem timeStretch_mirror (spline : List ℝ → List ℝ → ℝ → ℝ) (hsp : SplineMirror spline) (m : Nat) (s : LagStats) (hc : Centred s m)
    (data : List (List ℝ)) (hd : ∀ x ∈ data, x.length = 2 * m + 1) (ref : List ℝ) (hr : ref.length = 2 * m + 1)
    (tw : List (List Int)) (hw : WindowsInside m tw) (range : ℝ) (steps : Nat) (sides : Str)
    (hs : sides = c!"both" ∨ sides = c!"left" ∨ sides = c!"right") :
    timeStretch spline (2 * m + 1) (data.map List.reverse) ref.reverse tw range steps (mirrorSide sides)
      (-(min (-s.startLag) s.endLag), min (-s.startLag) s.endLag) s =
    timeStretch spline (2 * m + 1) data ref tw range steps sides
      (-(min (-s.startLag) s.endLag), min (-s.startLag) s.endLag) s := by
  have hn : ∀ {x : Str}, (x = c!"both" ∨ x = c!"left" ∨ x = c!"right") → x ≠ c!"single" := by
    rintro x (rfl | rfl | rfl) <;> decide
  have h1 := hn hs
  have h2 := hn (mirrorSide_cases hs).1
  unfold timeStretch
  simp only
  rw [stretchedRefs_sides spline _ h1 h2, stretchedRefs_mirror spline hsp m ref hr sides h1]
  have hl : ∀ x ∈ stretchedRefs spline ref sides (linspaceR (-range) range steps), x.length = 2 * m + 1 := by
    intro x hx
    rw [stretchedRefs_length spline ref sides _ x hx, hr]
  rw [trim_centred _ s m hc hl, trim_centred _ s m hc (by
    intro x hx
    obtain ⟨y, hy, rfl⟩ := List.mem_map.1 hx
    rw [List.length_reverse, hl y hy])]
  simp only
  have : (((stretchedRefs spline ref sides (linspaceR (-range) range steps)).map List.reverse).headD []).length =
      ((stretchedRefs spline ref sides (linspaceR (-range) range steps)).headD []).length := by
    cases stretchedRefs spline ref sides (linspaceR (-range) range steps) <;> simp
  rw [this]
  exact velocityChange_mirror m _ data _ tw _ sides hd hl hs hw

theorem usedWindows_mirror (m : Nat) (sides : Str) (hs : sides = c!"both" ∨ sides = c!"left" ∨ sides = c!"right")
    (tw : Option (List (List Int))) (hw : ∀ ws, tw = some ws → ∃ w, ws = [w] ∧ w ≠ [] ∧ ∀ k ∈ w, 0 ≤ k ∧ k ≤ m) :
    usedWindows (mirrorSide sides) (2 * m + 1) tw = usedWindows sides (2 * m + 1) tw ∧
    ∀ ws, usedWindows sides (2 * m + 1) tw = .ok ws → WindowsInside m ws := by
  have hn : ∀ {x : Str}, (x = c!"both" ∨ x = c!"left" ∨ x = c!"right") → x ≠ c!"single" := by
    rintro x (rfl | rfl | rfl) <;> decide
  have h1 := hn hs
  have h2 := hn (mirrorSide_cases hs).1
  cases tw with
  | none =>
    unfold usedWindows defaultWindow
    simp only [if_neg h1, if_neg h2, true_and]
    have e : (2 * m + 1) / 2 = m := by omega
    rw [e]
    intro ws h
    unfold timeWindows at h
    simp only [List.length_cons, List.length_nil, ne_eq, not_true_eq_false, if_false, List.any_cons, List.any_nil,
      Bool.or_false, decide_eq_true_eq] at h
    split at h
    · cases h
    · next hm =>
      simp only [List.zipWith_cons_cons, List.zipWith_nil_left, Except.ok.injEq] at h
      subst h
      intro w hw
      simp only [List.mem_singleton] at hw
      subst hw
      refine ⟨?_, ?_⟩
      · simp only [ne_eq, List.map_eq_nil_iff, List.range_eq_nil]
        omega
      · intro k hk
        obtain ⟨i, hi, rfl⟩ := List.mem_map.1 hk
        simp at hi
        omega
  | some ws =>
    obtain ⟨w, rfl, hne, hin⟩ := hw ws rfl
    refine ⟨rfl, ?_⟩
    intro ws h
    simp only [usedWindows, Except.ok.injEq] at h
    subst h
    intro v hv
    simp only [List.mem_singleton] at hv
    subst hv
    exact ⟨hne, hin⟩

theorem column_mirror (m : Nat) (data : List (List ℝ)) (hd : ∀ x ∈ data, x.length = 2 * m + 1) (j : Nat) (hj : j ≤ 2 * m) :
    column ((data.map List.reverse).map fun row => row.map some) j = column (data.map fun row => row.map some) (2 * m - j) := by
  unfold column
  simp only [List.map_map]
  apply List.map_congr_left
  intro x hx
  simp only [Function.comp_apply]
  rw [List.getD_eq_getElem?_getD, List.getD_eq_getElem?_getD, List.getElem?_map, List.getElem?_map,
    List.getElem?_reverse (by rw [hd x hx]; omega), hd x hx]
  congr 3

/-- C158: The velocity changes and correlations that are measured on both sides are the same for the mirrored correlations with
the mirrored reference, or without a given reference. Those of the left side become those of the right side and vice versa. -/
theorem c158_stretch (spline : List ℝ → List ℝ → ℝ → ℝ) (hsp : SplineMirror spline) (m : Nat) (s : LagStats) (hc : Centred s m)
    (data : List (List ℝ)) (hd : ∀ x ∈ data, x.length = 2 * m + 1) (ref : Option (List ℝ)) (hr : ∀ r, ref = some r → r.length = 2 * m + 1)
    (tw : Option (List (List Int))) (hw : ∀ ws, tw = some ws → ∃ w, ws = [w] ∧ w ≠ [] ∧ ∀ k ∈ w, 0 ≤ k ∧ k ≤ m)
    (range : ℝ) (steps : Nat) (sides : Str) (hs : sides = "both".toList ∨ sides = "left".toList ∨ sides = "right".toList)
    (refStats : Option LagStats) (hrs : refStats = none ∨ refStats = some s) :
    corrMatStretch spline (data.map List.reverse) s (ref.map List.reverse) tw range steps (mirrorSide sides) refStats =
      corrMatStretch spline data s ref tw range steps sides refStats := by
  have hn : ∀ {x : Str}, (x = c!"both" ∨ x = c!"left" ∨ x = c!"right") → x ≠ c!"single" := by
    rintro x (rfl | rfl | rfl) <;> decide
  have h1 := hn hs
  have h2 := hn (mirrorSide_cases hs).1
  have hd' : ∀ x ∈ data.map List.reverse, x.length = 2 * m + 1 := by
    intro x hx
    obtain ⟨y, hy, rfl⟩ := List.mem_map.1 hx
    rw [List.length_reverse, hd y hy]
  have hg : refStats.getD s = s := by rcases hrs with rfl | rfl <;> rfl
  obtain ⟨hu, hin⟩ := usedWindows_mirror m sides hs tw hw
  unfold corrMatStretch stretchTrim
  simp only [if_neg h1, if_neg h2]
  rw [trim_centred _ s m hc hd, trim_centred _ s m hc hd']
  simp only [hc.1, hg]
  rw [hu]
  have fin : ∀ r : List ℝ, r.length = 2 * m + 1 →
      (usedWindows sides (2 * m + 1) tw >>= fun w => timeStretch spline (2 * m + 1) (data.map List.reverse) r.reverse w range steps
        (mirrorSide sides) (-(min (-s.startLag) s.endLag), min (-s.startLag) s.endLag) s) =
      (usedWindows sides (2 * m + 1) tw >>= fun w => timeStretch spline (2 * m + 1) data r w range steps sides
        (-(min (-s.startLag) s.endLag), min (-s.startLag) s.endLag) s) := by
    intro r hr
    cases hcase : usedWindows sides (2 * m + 1) tw with
    | error e => rfl
    | ok ws => exact timeStretch_mirror spline hsp m s hc data hd r hr ws (hin ws hcase) range steps sides hs
  cases ref with
  | some r => exact fin r (hr r rfl)
  | none =>
    simp only [Option.map_none]
    unfold extractTrace
    rw [if_pos rfl, if_pos rfl]
    have e : ((List.range (2 * m + 1)).map fun j => maMean (column ((data.map List.reverse).map fun row => row.map some) j)) =
        ((List.range (2 * m + 1)).map fun j => maMean (column (data.map fun row => row.map some) j)).reverse := by
      rw [reverse_range_map]
      apply List.map_congr_left
      intro j hj
      rw [column_mirror m data hd j (by have : j < 2 * m + 1 := by simpa using hj
                                        omega)]
    rw [e]
    simp only [bind, Except.bind]
    rw [List.map_reverse]
    exact fin _ (by simp)

/-- C158: The same for the waveform coherence. -/
theorem c158_coherence (m : Nat) (data : List (List ℝ)) (hd : ∀ x ∈ data, x.length = 2 * m + 1) (ref : List ℝ)
    (hr : ref.length = 2 * m + 1) (tw : List (List Int)) (hw : WindowsInside m tw) (sides : Str)
    (hs : sides = "both".toList ∨ sides = "left".toList ∨ sides = "right".toList) (nans : Bool) :
    computeWfc (2 * m + 1) ((data.map List.reverse).map fun row => row.map some) tw ref.reverse (mirrorSide sides) nans =
      computeWfc (2 * m + 1) (data.map fun row => row.map some) tw ref sides nans := by
  unfold computeWfc
  rw [List.length_reverse]
  split
  · rfl
  · apply mapM_same
    intro w hwm
    obtain ⟨mask, hm, e, e'⟩ := mask_mirror m sides w hs (hw w hwm).1 (hw w hwm).2
    have l : ∀ {β : Type} (X : Except PyErr (List Int)) (g : List Bool → Except PyErr β),
        (X >>= fun idx => maskOf (2 * m + 1) idx >>= g) = ((X >>= maskOf (2 * m + 1)) >>= g) := by
      intro β X g; cases X <;> rfl
    rw [l, l, e, e']
    simp only [bind, Except.bind, pure, Except.pure, List.map_map]
    congr 1
    apply List.map_congr_left
    intro row hrow
    simp only [Function.comp_apply]
    rw [rowVals_some, rowVals_some]
    simp only
    have h1 : mask.length = row.length := by rw [hm, hd row hrow]
    have h2 : mask.length = ref.length := by rw [hm, hr]
    rw [maskMul_reverse mask row h1, maskMul_reverse mask ref h2,
      similarity_reverse _ _ (by rw [maskMul_length' _ _ h1, maskMul_length' _ _ h2])]

/-! ### the hypotheses are met -/

/-- linear interpolation of samples with distance 1 -/
noncomputable def linearSpline (times values : List ℝ) (x : ℝ) : ℝ :=
  (List.zipWith (fun t v => v * max 0 (1 - |x - t|)) times values).sum

theorem linearSpline_mirror : SplineMirror linearSpline := by
  intro times values x h
  unfold linearSpline
  rw [List.zipWith_map_left, zipWith_reverse' _ _ _ h, List.sum_reverse]
  congr 2
  funext t v
  rw [show -x - -t = -(x - t) by ring, abs_neg]

/-- Correlations with lags from -2 s to 2 s: header, windows, interpolation and lengths satisfy the hypotheses. -/
example : Centred ⟨-2, 5, 1⟩ 2 ∧ SplineMirror linearSpline ∧ WindowsInside 2 [[0, 1], [1, 2]] ∧
    (∀ x ∈ [[1, 2, 3, 5, 4], [0, 1, 3, 2, (0 : ℝ)]], x.length = 2 * 2 + 1) ∧ mirrorSide c!"left" = c!"right" ∧
    mirrorSide c!"both" = c!"both" := by
  refine ⟨⟨rfl, by norm_num, by norm_num⟩, linearSpline_mirror, by unfold WindowsInside; decide, by simp, by decide, by decide⟩

/-- A window that leaves the trace on the left side is taken from the other end, so the two sides differ there:
the hypothesis about the windows is needed. -/
example :
    (windowIdx "left".toList 5 [3] >>= maskOf 5) = .ok [false, false, false, false, true] ∧
    (windowIdx "right".toList 5 [3] >>= maskOf 5) = .error .indexError := by
  decide

end SeisMIC
