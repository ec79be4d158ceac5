import Verif.Props.Wfc

/-!
# C120, C121: the waveform coherences of all bands, windows and components
-/

namespace SeisMIC

/-! ### Specification -/

/-- the requested frequency bands: `freq_min` and `freq_max` are numbers or lists -/
def requestedBands (o : WfcOptions) : List (Rat × Rat) := o.freqMin.toList.zip o.freqMax.toList

/-- the requested lapse time windows: a number for the length is valid for all windows -/
def requestedWindows (o : WfcOptions) : List (Rat × Rat) :=
  match o.twLen with
  | .num x => o.twStart.toList.map fun t => (t, x)
  | .list l => o.twStart.toList.zip l

/-- the options have fitting lengths -/
def FittingOptions (o : WfcOptions) : Prop :=
  o.freqMin.toList.length = o.freqMax.toList.length ∧ ∀ l, o.twLen = .list l → l.length = o.twStart.toList.length

/-- the result for one band and one window, computed from the bulk `cb` alone -/
def single {β : Type} (prep : Rat → Rat → β → Except PyErr β) (window : β → WfcParams → Except PyErr Wfc) (cb : β) (band tw : Rat × Rat) : Except PyErr Wfc :=
  prep band.1 band.2 cb >>= fun cb' => window cb' ⟨band.1, band.2, tw.1, tw.2⟩

/-! ### Lemmas -/

theorem zip_replicate {α β : Type} (l : List α) (x : β) : l.zip (List.replicate l.length x) = l.map fun t => (t, x) := by
  induction l with
  | nil => rfl
  | cons a l ih => rw [List.length_cons, List.replicate_succ, List.zip_cons_cons, ih]; rfl

theorem toList_list (l : List Rat) : (NumOpt.list l).toList = l := rfl

/-- the options after the normalisation -/
theorem wfcNormalise_ok (o : WfcOptions) (h : FittingOptions o) : ∃ o', wfcNormalise o = .ok o' ∧
    requestedBands o' = requestedBands o ∧ requestedWindows o' = requestedWindows o ∧ FittingOptions o' ∧ wfcNormalise o' = .ok o' ∧
    o'.twStart.toList.zip o'.twLen.toList = requestedWindows o := by
  obtain ⟨fmin, fmax, ts, tl⟩ := o
  obtain ⟨h1, h2⟩ := h
  simp only at h1 h2
  cases tl with
  | num x =>
    refine ⟨⟨.list fmin.toList, .list fmax.toList, .list ts.toList, .list (List.replicate ts.toList.length x)⟩, ?_, rfl, zip_replicate _ _, ⟨h1, ?_⟩, ?_,
      zip_replicate _ _⟩
    · unfold wfcNormalise
      simp only [bind, Except.bind]
      rw [if_neg (by simp [h1])]
    · rintro l hl
      rw [← NumOpt.list.inj hl]
      simp [NumOpt.toList]
    · unfold wfcNormalise
      simp [toList_list, h1]
  | list l =>
    have hl : l.length = ts.toList.length := h2 l rfl
    refine ⟨⟨.list fmin.toList, .list fmax.toList, .list ts.toList, .list l⟩, ?_, rfl, rfl, ⟨h1, ?_⟩, ?_, rfl⟩
    · unfold wfcNormalise
      simp only [bind, Except.bind]
      rw [if_neg (by simp [h1]), if_neg (by simp [hl])]
    · rintro l' hl'
      rw [← NumOpt.list.inj hl']
      simpa [NumOpt.toList] using hl
    · unfold wfcNormalise
      simp [toList_list, h1, hl]

/-- bands that can all be prepared, followed by others -/
theorem wfcBands_append {β : Type} (prep : Rat → Rat → β → Except PyErr β) (window : β → WfcParams → Except PyErr Wfc) (bac : β)
    (tws good rest : List (Rat × Rat)) (hg : ∀ b ∈ good, b.1 < b.2 ∧ ∃ cb, prep b.1 b.2 bac = .ok cb) :
    wfcBands prep window bac tws bac (good ++ rest) =
      (good.flatMap (fun b => tws.filterMap fun tw => (single prep window bac b tw).toOption) ++ (wfcBands prep window bac tws bac rest).1,
        (wfcBands prep window bac tws bac rest).2) := by
  induction good with
  | nil => simp
  | cons b good ih =>
    obtain ⟨hb, cb, hcb⟩ := hg b (by simp)
    have hs : ∀ tw, single prep window bac b tw = window cb ⟨b.1, b.2, tw.1, tw.2⟩ := by
      intro tw
      unfold single
      rw [hcb]
      rfl
    rw [List.cons_append, List.flatMap_cons]
    show wfcBands prep window bac tws bac ((b.1, b.2) :: (good ++ rest)) = _
    conv_lhs => unfold wfcBands
    rw [if_neg (not_le.2 hb), hcb]
    simp only
    rw [ih fun b' hb' => hg b' (by simp [hb'])]
    simp only [List.append_assoc, hs]

/-! ### C120 -/

/-- **C120** (all bands and windows). If all bands are valid, the results are exactly those of all combinations of requested bands and windows that can be computed, band by
band; each is computed from the original bulk, so none depends on the other bands and windows, and a window that fails does not affect the others.
Missing for the full property: `c120_band_violated`, `c120_save_violated`. -/
theorem c120_results_partial {β : Type} (prep : Rat → Rat → β → Except PyErr β) (window : β → WfcParams → Except PyErr Wfc) (cb : β) (o : WfcOptions)
    (ho : FittingOptions o) (hb : ∀ b ∈ requestedBands o, b.1 < b.2 ∧ ∃ cb', prep b.1 b.2 cb = .ok cb') :
    computeWaveformCoherence prep window cb o =
      ((requestedBands o).flatMap fun b => (requestedWindows o).filterMap fun tw => (single prep window cb b tw).toOption, none) := by
  obtain ⟨o', h1, h2, -, -, -, h6⟩ := wfcNormalise_ok o ho
  unfold computeWaveformCoherence
  rw [h1]
  simp only
  rw [h6]
  have := wfcBands_append prep window cb (requestedWindows o) (requestedBands o) [] hb
  rw [List.append_nil] at this
  rw [show o'.freqMin.toList.zip o'.freqMax.toList = requestedBands o from h2, this]
  simp [wfcBands]

/-- **C120** (membership). A coherence is among the results if and only if it is that of a requested band and a requested window.
Missing for the full property: `c120_band_violated`, `c120_save_violated`. -/
theorem c120_mem_partial {β : Type} (prep : Rat → Rat → β → Except PyErr β) (window : β → WfcParams → Except PyErr Wfc) (cb : β) (o : WfcOptions)
    (ho : FittingOptions o) (hb : ∀ b ∈ requestedBands o, b.1 < b.2 ∧ ∃ cb', prep b.1 b.2 cb = .ok cb') (w : Wfc) :
    w ∈ (computeWaveformCoherence prep window cb o).1 ↔ ∃ b ∈ requestedBands o, ∃ tw ∈ requestedWindows o, single prep window cb b tw = .ok w := by
  rw [c120_results_partial prep window cb o ho hb]
  simp only [List.mem_flatMap, List.mem_filterMap]
  constructor
  · rintro ⟨b, hb', tw, htw, h⟩
    refine ⟨b, hb', tw, htw, ?_⟩
    cases hs : single prep window cb b tw with
    | error e => rw [hs] at h; cases h
    | ok w' => rw [hs] at h; rw [← Option.some.inj h]
  · rintro ⟨b, hb', tw, htw, h⟩
    exact ⟨b, hb', tw, htw, by rw [h]; rfl⟩

/-- **C120** (repeated calls). The call replaces the options by lists. For the next combination of stations the options request the same bands and windows, and they are
not changed any more. -/
theorem c120_options {β : Type} (prep : Rat → Rat → β → Except PyErr β) (window : β → WfcParams → Except PyErr Wfc) (cb : β) (o o' : WfcOptions)
    (h : wfcNormalise o = .ok o') : wfcNormalise o' = .ok o' ∧ requestedBands o' = requestedBands o ∧ requestedWindows o' = requestedWindows o ∧
      computeWaveformCoherence prep window cb o' = computeWaveformCoherence prep window cb o := by
  have ho : FittingOptions o := by
    unfold wfcNormalise at h
    simp only [bind, Except.bind] at h
    split at h
    · cases h
    rename_i h1
    refine ⟨by simpa using h1, fun l hl => ?_⟩
    rw [hl] at h
    simp only at h
    split at h
    · cases h
    rename_i h2
    simpa using h2
  obtain ⟨o'', h1, h2, h3, -, h5, -⟩ := wfcNormalise_ok o ho
  rw [h] at h1
  obtain rfl := Except.ok.inj h1
  refine ⟨h5, h2, h3, ?_⟩
  unfold computeWaveformCoherence
  rw [h, h5]

/-- **C120** (invalid options). Lists whose lengths do not fit are refused with a `ValueError`, and there is no result. -/
theorem c120_refused {β : Type} (prep : Rat → Rat → β → Except PyErr β) (window : β → WfcParams → Except PyErr Wfc) (cb : β) (o : WfcOptions)
    (ho : ¬ FittingOptions o) : computeWaveformCoherence prep window cb o = ([], some .valueError) := by
  have : wfcNormalise o = .error .valueError := by
    unfold wfcNormalise
    simp only [bind, Except.bind]
    split
    · rfl
    rename_i h1
    rw [ne_eq, not_not] at h1
    cases htl : o.twLen with
    | num x =>
      exfalso
      refine ho ⟨h1, ?_⟩
      intro l hl
      rw [htl] at hl
      cases hl
    | list l =>
      simp only
      split
      · rfl
      rename_i h2
      rw [ne_eq, not_not] at h2
      exfalso
      refine ho ⟨h1, ?_⟩
      intro l' hl'
      rw [htl] at hl'
      rw [← NumOpt.list.inj hl', h2]
  unfold computeWaveformCoherence
  rw [this]

/-- **C120** (not satisfied: an invalid band). An error in one band, here `freq_max <= freq_min`, is raised only when the band is reached: the bands before are computed, all bands after it are
lost, although they are valid. -/
theorem c120_band_violated {β : Type} (prep : Rat → Rat → β → Except PyErr β) (window : β → WfcParams → Except PyErr Wfc) (cb : β) (o : WfcOptions)
    (ho : FittingOptions o) (good rest : List (Rat × Rat)) (bad : Rat × Rat) (hbands : requestedBands o = good ++ bad :: rest) (hbad : bad.2 ≤ bad.1)
    (hb : ∀ b ∈ good, b.1 < b.2 ∧ ∃ cb', prep b.1 b.2 cb = .ok cb') :
    computeWaveformCoherence prep window cb o =
      (good.flatMap fun b => (requestedWindows o).filterMap fun tw => (single prep window cb b tw).toOption, some .valueError) := by
  obtain ⟨o', h1, h2, -, -, -, h6⟩ := wfcNormalise_ok o ho
  unfold computeWaveformCoherence
  rw [h1]
  simp only
  rw [h6, show o'.freqMin.toList.zip o'.freqMax.toList = requestedBands o from h2, hbands,
    wfcBands_append prep window cb (requestedWindows o) good (bad :: rest) hb]
  have : wfcBands prep window cb (requestedWindows o) cb (bad :: rest) = ([], some .valueError) := by
    show wfcBands prep window cb (requestedWindows o) cb ((bad.1, bad.2) :: rest) = _
    unfold wfcBands
    rw [if_pos hbad]
  rw [this]
  simp

/-- **C120** (not satisfied: files that cannot be written). With `save_comps` a coherence that was computed is discarded if its file cannot be written, for example because the process with
rank zero, which creates the directory, has not done so yet: the error is only logged. -/
theorem c120_save_violated (refOf : List (List (Option ℝ)) → Except PyErr (List (List (Option ℝ)))) (codes : Str × Str × Str)
    (data : List (List (Option ℝ))) (s : LagStats) (p : WfcParams) (w : Wfc) : wfcWindow refOf codes true false data s p ≠ .ok w := by
  intro h
  unfold wfcWindow at h
  simp only [bind, Except.bind] at h
  split at h
  · cases h
  split at h
  · cases h
  split at h
  · cases h
  simp at h

/-- the hypotheses of the theorems can be met: two bands, two windows of the same length -/
example : FittingOptions ⟨.list [1, 2], .list [3, 4], .list [5, 10], .num 20⟩ ∧
    requestedBands ⟨.list [1, 2], .list [3, 4], .list [5, 10], .num 20⟩ = [(1, 3), (2, 4)] ∧
    requestedWindows ⟨.list [1, 2], .list [3, 4], .list [5, 10], .num 20⟩ = [(5, 20), (10, 20)] ∧
    ∀ b ∈ requestedBands ⟨.list [1, 2], .list [3, 4], .list [5, 10], .num 20⟩, b.1 < b.2 := by
  refine ⟨⟨rfl, by simp⟩, rfl, rfl, ?_⟩
  intro b hb
  simp only [requestedBands, NumOpt.toList, List.zip_cons_cons, List.zip_nil_right, List.mem_cons, List.not_mem_nil, or_false] at hb
  rcases hb with rfl | rfl <;> norm_num

end SeisMIC
