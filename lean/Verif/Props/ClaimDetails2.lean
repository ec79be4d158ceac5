import Verif.Props.Muting
import Verif.Props.Archive
import Verif.Props.AverageDv
import Verif.Props.PostCorr2
import Verif.Model.BulkOps
import Verif.Lemmas.DbRead

/-!
# Details of claims, continued

Theorems that pin down values which the other theorems of the same claims leave open: found by changing the model (seeded/LOG.jsonl).
-/

namespace SeisMIC

/-! ### C44: the header after resampling -/

/-- C44: after resampling, the header has the new sampling rate and the old start lag, and the number of samples is the largest one that fits into the old
duration. -/
theorem c44_header (fuel : Nat) (filt : List F → List F) (fft : Nat → List F → List F) (data out : List (List F)) (s s' : LagStats) (freq : Rat)
    (hsr : 0 < s.sr) (hf : 0 < freq) (h : corrMatResampleTime fuel filt fft data s freq = some (.ok (out, s'))) :
    s'.sr = freq ∧ s'.startLag = s.startLag ∧ (s'.npts : Rat) / freq ≤ s.npts / s.sr ∧ (s.npts : Rat) / s.sr < (s'.npts + 1) / freq := by
  unfold corrMatResampleTime at h
  cases hp : resampleTimePlan fuel s freq with
  | none => rw [hp] at h; cases h
  | some r =>
    rw [hp] at h
    match r, hp, h with
    | .error e, _, h => simp at h
    | .ok none, hp, h =>
      simp only [Option.some.injEq, Except.ok.injEq, Prod.mk.injEq] at h
      obtain ⟨-, rfl⟩ := h
      have he : freq = s.sr := by
        unfold resampleTimePlan at hp
        split at hp
        · cases hp
        · split at hp
          · assumption
          · simp only at hp
            cases hs : search s.npts ((s.npts : Rat) / s.sr * freq).floor.toNat s.sr freq fuel <;> rw [hs] at hp <;> simp at hp
      subst he
      refine ⟨rfl, rfl, le_refl _, ?_⟩
      rw [div_lt_div_iff_of_pos_right hf]
      linarith
    | .ok (some (a, b, n)), hp, h =>
      simp only [Option.some.injEq, Except.ok.injEq, Prod.mk.injEq] at h
      obtain ⟨-, rfl⟩ := h
      obtain ⟨-, -, -, h1, h2⟩ := c44_durations s freq hsr hf fuel a b n hp
      exact ⟨rfl, rfl, h1, h2⟩

/-- 10 samples at 5 Hz to 2 Hz -/
example : ∃ out, corrMatResampleTime 100 id (fun n x => (x ++ List.replicate n (some 0)).take n) [List.replicate 10 (some 1)] ⟨0, 10, 5⟩ 2 =
    some (.ok (out, ⟨0, 4, 2⟩)) := by
  have : resampleTimePlan 100 ⟨0, 10, 5⟩ 2 = some (.ok (some (10, 8, 4))) := by decide +kernel
  unfold corrMatResampleTime
  rw [this]
  exact ⟨_, rfl⟩

/-! ### C78: thresholds -/

/-- C78: a threshold that is given is used as it is, and the factor has no effect. Without one, the threshold for a trace is the standard deviation of its filtered
samples, times the factor if there is one: the same samples are muted as with this threshold. -/
theorem c78_threshold (filt : List ℝ → List ℝ) (row : List ℝ) (npts : Nat) (sr : Rat) (tap : Rat) (ext : Bool) (f t : ℝ) :
    let mean := (filt row).sum / (filt row).length
    let std := Real.sqrt (((filt row).map fun x => (x - mean) ^ 2).sum / (filt row).length)
    mute filt [row] npts sr ⟨tap, some t, some f, ext⟩ = mute filt [row] npts sr ⟨tap, some t, none, ext⟩ ∧
    mute filt [row] npts sr ⟨tap, none, some f, ext⟩ = mute filt [row] npts sr ⟨tap, some (std * f), none, ext⟩ ∧
    mute filt [row] npts sr ⟨tap, none, none, ext⟩ = mute filt [row] npts sr ⟨tap, some std, none, ext⟩ := by
  intro mean std
  have hs : stdR (filt row) = std := by
    simp [stdR, meanR, std, mean]
  have key : ∀ a b : MuteArgs, a.taperLen = b.taperLen → a.extendGaps = b.extendGaps → a.thres (filt row) = b.thres (filt row) →
      mute filt [row] npts sr a = mute filt [row] npts sr b := by
    rintro ⟨a1, a2, a3, a4⟩ ⟨b1, b2, b3, b4⟩ h1 h2 h3
    simp only at h1 h2
    subst h1 h2
    simp only [mute, muteWeights, List.map_cons, List.map_nil, h3]
  refine ⟨key _ _ rfl rfl rfl, key _ _ rfl rfl ?_, key _ _ rfl rfl ?_⟩
  · simp [MuteArgs.thres, hs]
  · simp [MuteArgs.thres, hs]

/-! ### C63: holes -/

theorem hasGap_iff (delta : Int) : ∀ u : List Int, u.Pairwise (· < ·) →
    (hasGap delta u = false ↔ ∀ a ∈ u, (∃ b ∈ u, a < b) → ∃ b ∈ u, a < b ∧ b ≤ a + delta)
  | [], _ => by simp [hasGap]
  | [a], _ => by simp [hasGap]
  | a :: b :: l, h => by
    have h' := (List.pairwise_cons.1 h)
    have ih := hasGap_iff delta (b :: l) h'.2
    have hb := (List.pairwise_cons.1 h'.2).1
    rw [hasGap, Bool.or_eq_false_iff, ih, decide_eq_false_iff_not]
    constructor
    · rintro ⟨h1, h2⟩ c hc ⟨d, hd, hcd⟩
      rcases List.mem_cons.1 hc with rfl | hc
      · exact ⟨b, by simp, h'.1 b (by simp), by omega⟩
      · have hd' : d ∈ b :: l := by
          rcases List.mem_cons.1 hd with he | hd
          · have := h'.1 c (by assumption); omega
          · exact hd
        obtain ⟨e, he, h3⟩ := h2 c hc ⟨d, hd', hcd⟩
        exact ⟨e, List.mem_cons_of_mem _ he, h3⟩
    · intro H
      constructor
      · obtain ⟨e, he, h3, h4⟩ := H a (by simp) ⟨b, by simp, h'.1 b (by simp)⟩
        have : b ≤ e := by
          rcases List.mem_cons.1 he with rfl | he
          · omega
          · rcases List.mem_cons.1 he with rfl | he
            · omega
            · exact (hb e he).le
        omega
      · rintro c hc ⟨d, hd, hcd⟩
        obtain ⟨e, he, h3, h4⟩ := H c (List.mem_cons_of_mem _ hc) ⟨d, List.mem_cons_of_mem _ hd, hcd⟩
        rcases List.mem_cons.1 he with rfl | he
        · have := h'.1 c hc; omega
        · exact ⟨e, he, h3, h4⟩

/-- C63: samples are added to an existing file of a day exactly if the old and the new samples together have no hole, that is, each of them but the last has a
successor at most one sampling interval later. Otherwise nothing is stored and an exception is raised. -/
theorem c63_holes (delta : Int) (fs : DayFiles) (day : Int) (piece old : List Int) (hf : fs day = some old) :
    let all := old ++ piece
    ((∃ fs', sdsWrite delta fs day piece = .ok fs') ↔ ∀ a ∈ all, (∃ b ∈ all, a < b) → ∃ b ∈ all, a < b ∧ b ≤ a + delta) ∧
    (¬ (∃ fs', sdsWrite delta fs day piece = .ok fs') → sdsWrite delta fs day piece = .error .notImplementedError) := by
  intro all
  have hm : ∀ x, x ∈ isort (fun a b => decide (a ≤ b)) all.eraseDups ↔ x ∈ all := fun x => by rw [mem_isort, List.mem_eraseDups]
  have hs : (isort (fun a b : Int => decide (a ≤ b)) all.eraseDups).Pairwise (· < ·) := by
    have h1 := isort_sorted (fun a b : Int => decide (a ≤ b)) (by intro a b; simp; omega) (by intro a b c; simp; omega) all.eraseDups
    have h2 : (isort (fun a b : Int => decide (a ≤ b)) all.eraseDups).Nodup := (isort_perm _ _).nodup_iff.2 (nodup_eraseDups _)
    exact (h1.and h2).imp fun h => by have := h.1; have := h.2; simp at *; omega
  have hg := hasGap_iff delta _ hs
  simp only [hm] at hg
  rw [← hg]
  unfold sdsWrite
  rw [hf]
  simp only [show old ++ piece = all from rfl]
  cases hasGap delta (isort (fun a b => decide (a ≤ b)) all.eraseDups) <;> simp

/-- samples every 10 ms: one that is missing is a hole -/
example : ¬ ∀ a ∈ ([0, 10] ++ [30] : List Int), (∃ b ∈ ([0, 10] ++ [30] : List Int), a < b) → ∃ b ∈ ([0, 10] ++ [30] : List Int), a < b ∧ b ≤ a + 10 := by
  decide

/-! ### C51: results of other sizes -/

/-- C51: results whose similarity matrix has another number of rows or columns than that of the first one, or other stretches, have no effect on the average. -/
theorem c51_sizes (d0 : Dv) (rest : List Dv) (sc : Bool) (hm : ∀ d ∈ rest, d.method = d0.method) :
    averageComponents (d0 :: rest) sc = averageComponents (d0 :: rest.filter fun d =>
      decide (d.sim.length = d0.sim.length ∧ (d.sim.headD []).length = (d0.sim.headD []).length ∧ d.axis = d0.axis)) sc := by
  classical
  unfold averageComponents
  simp only
  rw [(selectDvs_spec d0 (d0 :: rest)).2 (by simpa using hm), (selectDvs_spec d0 (d0 :: rest.filter _)).2 (by
    intro d hd
    rcases List.mem_cons.1 hd with rfl | hd
    · rfl
    · exact hm d (List.mem_filter.1 hd).1)]
  congr 2
  rw [List.filter_cons, List.filter_cons, List.filter_filter]
  have : (rest.filter fun d => decide (Dv.Usable d0 d)) = rest.filter fun d => decide (Dv.Usable d0 d) &&
      decide (d.sim.length = d0.sim.length ∧ (d.sim.headD []).length = (d0.sim.headD []).length ∧ d.axis = d0.axis) := by
    refine List.filter_congr fun d _ => ?_
    by_cases hu : Dv.Usable d0 d
    · have h1 := hu.2.1
      simp only [shapeOf, Prod.mk.injEq] at h1
      simp only [hu, decide_true, Bool.true_and, eq_comm (a := true), decide_eq_true_eq]
      exact ⟨h1.1, h1.2, hu.2.2⟩
    · simp [hu]
  rw [← this]

end SeisMIC
