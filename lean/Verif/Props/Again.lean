import Verif.Props.BulkOps
import Verif.Props.Amplitude
import Verif.Props.Muting
import Verif.Props.StreamSelect
import Verif.Props.TraceUtils
import Verif.Props.Detrend
import Verif.Props.ShiftWindow
import Verif.Props.Wfc
import Verif.Props.TdNorm
import Mathlib.Tactic.Positivity

/-!
# C161: repeating a processing step changes nothing
-/

namespace SeisMIC

variable {V : Type}

/-! ### steps on a bulk -/

theorem setLag_lag (b : BulkStats V) (l : LagStats) : (b.setLag l).lag = l := by
  simp [BulkStats.setLag, BulkStats.lag, CorrStats.refresh]

theorem setLag_setLag (b : BulkStats V) (l l' : LagStats) : (b.setLag l).setLag l' = b.setLag l' := by
  simp [BulkStats.setLag, CorrStats.refresh]

/-- **C161** (mirroring) Mirroring a bulk that was mirrored changes nothing: neither
the samples nor any entry of the header. -/
theorem c161_mirror (fuel : Nat) (filt : List F → List F) (fft : Nat → List F → List F) (b b' : Bulk V)
    (h : b.call fuel filt fft .mirror = .ok b') : b'.call fuel filt fft .mirror = .ok b' := by
  simp only [Bulk.call] at h ⊢
  cases hm : corrMatMirror b.data b.stats.lag with
  | none => rw [hm] at h; cases h
  | some r =>
    obtain ⟨data, s⟩ := r
    rw [hm] at h
    cases h
    have key : corrMatMirror data s = some (data, s) := by
      unfold corrMatMirror at hm
      simp only at hm
      split at hm
      · rename_i h1
        cases hm
        unfold corrMatMirror
        simp only
        rw [if_pos h1]
      · split at hm
        · rename_i h1 h2
          cases hm
          unfold corrMatMirror
          simp only
          rw [if_neg h1, if_pos h2]
        · split at hm
          · cases hm
          · cases hm
            unfold corrMatMirror
            simp only
            rw [if_pos (by simp)]
    simp only [setLag_lag, key, setLag_setLag]

theorem trim_again (data : List (List F)) (s : LagStats) (hr : Rect data s) (a e : Rat) (hae : a ≤ e) (hsr : 0 ≤ s.sr)
    (k : Int) (hk : (a - s.startLag) * s.sr = k) :
    corrMatTrim (corrMatTrim data s a e).1 (corrMatTrim data s a e).2 a e = corrMatTrim data s a e := by
  by_cases h1 : ((a - s.startLag) * s.sr).floor < 0
  · have : corrMatTrim data s a e = (data, s) := by unfold corrMatTrim; simp only; rw [if_pos h1]
    rw [this, this]
  by_cases h2 : ((e - s.startLag) * s.sr).floor ≥ s.npts
  · have : corrMatTrim data s a e = (data, s) := by unfold corrMatTrim; simp only; rw [if_neg h1, if_pos h2]
    rw [this, this]
  have hfl : ((a - s.startLag) * s.sr).floor = k := by rw [hk]; exact Rat.floor_intCast k
  rw [hfl] at h1
  obtain ⟨i, rfl⟩ : ∃ i : Nat, k = i := ⟨k.toNat, by omega⟩
  have hle : (i : Int) ≤ ((e - s.startLag) * s.sr).floor := by
    rw [le_ratFloor_iff, Int.cast_natCast, ← Int.cast_natCast, ← hk]
    exact mul_le_mul_of_nonneg_right (sub_le_sub_right hae _) hsr
  obtain ⟨j, hj⟩ : ∃ j : Nat, ((e - s.startLag) * s.sr).floor = j := ⟨_, (Int.toNat_of_nonneg (by omega)).symm⟩
  rw [hj] at h2 hle
  have hij : i ≤ j := by omega
  have hjn : j < s.npts := by omega
  have hsl : ∀ row : List F, pySlice row (some (i : Int)) (some ((j : Int) + 1)) = (row.take (j + 1)).drop i := by
    intro row
    exact pySlice_entries row i (j + 1)
  have hlen : ∀ row ∈ data, ((row.take (j + 1)).drop i).length = j + 1 - i := by
    intro row hrow
    have := hr row hrow
    simp only [List.length_drop, List.length_take]; omega
  have e1 : corrMatTrim data s a e = (data.map fun row => (row.take (j + 1)).drop i, ⟨a, j + 1 - i, s.sr⟩) := by
    unfold corrMatTrim
    simp only [hfl, hj]
    rw [if_neg (by omega), if_neg (by omega)]
    simp only [hsl]
    cases data with
    | nil =>
      simp only [List.map_nil]
      have : pySlice (List.replicate s.npts ()) (some (i : Int)) (some ((j : Int) + 1)) = _ := pySlice_entries _ i (j + 1)
      rw [this]
      simp only [entriesBetween, List.length_drop, List.length_take, List.length_replicate]
      congr 2
      omega
    | cons row data =>
      simp only [List.map_cons]
      rw [hlen row (by simp)]
  rw [e1]
  have f0 : ((a - a) * s.sr).floor = 0 := by rw [sub_self, zero_mul]; decide
  have f1 : ((e - a) * s.sr).floor = ((j - i : Nat) : Int) := by
    have : (e - a) * s.sr = (e - s.startLag) * s.sr - (i : Int) := by rw [← hk]; ring
    have h3 : Rat.floor ((e - s.startLag) * s.sr - (i : Int)) = Rat.floor ((e - s.startLag) * s.sr) - (i : Int) :=
      Int.floor_sub_intCast ((e - s.startLag) * s.sr) (i : Int)
    rw [this, h3, hj]
    omega
  have hsl' : ∀ row : List F, row.length = j + 1 - i → pySlice row (some 0) (some (((j - i : Nat) : Int) + 1)) = row := by
    intro row hrow
    have := pySlice_entries row 0 (j - i + 1)
    rw [show ((0 : Nat) : Int) = 0 from rfl] at this
    push_cast at this ⊢
    rw [this]
    simp only [entriesBetween, List.drop_zero]
    exact List.take_of_length_le (by omega)
  unfold corrMatTrim
  simp only [f0, f1]
  rw [if_neg (by omega), if_neg (by omega)]
  have hm : ((data.map fun row => (row.take (j + 1)).drop i).map fun row =>
      pySlice row (some 0) (some (((j - i : Nat) : Int) + 1))) = data.map fun row => (row.take (j + 1)).drop i := by
    rw [List.map_map]
    exact List.map_congr_left fun row hrow => hsl' _ (hlen row hrow)
  rw [hm]
  cases data with
  | nil =>
    simp only [List.map_nil]
    have := pySlice_entries (List.replicate (j + 1 - i) ()) 0 (j - i + 1)
    rw [show ((0 : Nat) : Int) = 0 from rfl] at this
    push_cast at this ⊢
    rw [this]
    simp only [entriesBetween, List.drop_zero, List.length_take, List.length_replicate]
    congr 2
    omega
  | cons row data =>
    simp only [List.map_cons]
    rw [hlen row (by simp)]

/-- **C161** (trimming) Trimming a bulk again to the same lags changes nothing, if the
first lag is that of a sample. -/
theorem c161_trim (fuel : Nat) (filt : List F → List F) (fft : Nat → List F → List F) (b : Bulk V)
    (hb : b.Consistent) (a e : Rat) (hae : a ≤ e) (hsr : 0 ≤ b.stats.base.samplingRate)
    (hk : ∃ k : Int, (a - b.stats.base.startLag) * b.stats.base.samplingRate = k) :
    ∃ b', b.call fuel filt fft (.trim a e) = .ok b' ∧ b'.call fuel filt fft (.trim a e) = .ok b' := by
  obtain ⟨k, hk⟩ := hk
  refine ⟨_, rfl, ?_⟩
  simp only [Bulk.call, setLag_lag, setLag_setLag, trim_again b.data b.stats.lag hb.rect a e hae hsr k hk]

/-- **C161** (resampling in time) Resampling a bulk again to the same bins changes
nothing, if every bin ends before the next one starts. -/
theorem c161_resample (fuel : Nat) (filt : List F → List F) (fft : Nat → List F → List F) (b b' : Bulk V)
    (st en : List Int) (h : b.call fuel filt fft (.resample st en) = .ok b')
    (hlen : ∀ p ∈ st.zip b'.stats.corrEnd, p.1 < p.2)
    (hdis : (st.zip b'.stats.corrEnd).Pairwise fun p q => p.2 ≤ q.1) :
    b'.call fuel filt fft (.resample st en) = .ok b' := by
  simp only [Bulk.call] at h ⊢
  -- the ends of the bins
  have hshape : ∀ (data : List (List F)) (otime oend : List Int) (m : Nat) (r : List (List F) × List Int × List Int),
      corrMatResample m data otime oend st en = .ok r → r.2.1 = st ∧ r.1 = (st.zip r.2.2).map (fun p => resampleBin m data otime p.1 p.2) ∧
      ∀ (data' : List (List F)) (otime' : List Int), corrMatResample m data' otime' r.2.2 st en =
        .ok ((st.zip r.2.2).map (fun p => resampleBin m data' otime' p.1 p.2), st, r.2.2) := by
    intro data otime oend m r hr
    unfold corrMatResample at hr
    simp only [bind, Except.bind] at hr
    split at hr
    · cases hr
    rename_i hc
    simp only [pure, Except.pure] at hr
    cases st with
    | nil => cases hr
    | cons s0 rest =>
      cases rest with
      | nil =>
        simp only at hr
        by_cases hen : en ≠ []
        · rw [if_pos hen] at hr
          cases hr
          refine ⟨rfl, rfl, fun data' otime' => ?_⟩
          unfold corrMatResample
          simp only [bind, Except.bind, pure, Except.pure]
          rw [if_neg hc, if_pos hen]
        · rw [if_neg hen] at hr
          cases hl : oend.getLast? with
          | none => rw [hl] at hr; cases hr
          | some x =>
            rw [hl] at hr
            cases hr
            refine ⟨rfl, rfl, fun data' otime' => ?_⟩
            unfold corrMatResample
            simp only [bind, Except.bind, pure, Except.pure]
            rw [if_neg hc, if_neg hen]
            rfl
      | cons s1 rest =>
        simp only at hr
        by_cases hen : en ≠ []
        · rw [if_pos hen] at hr
          cases hr
          refine ⟨rfl, rfl, fun data' otime' => ?_⟩
          unfold corrMatResample
          simp only [bind, Except.bind, pure, Except.pure]
          rw [if_neg hc, if_pos hen]
        · rw [if_neg hen] at hr
          cases hr
          refine ⟨rfl, rfl, fun data' otime' => ?_⟩
          unfold corrMatResample
          simp only [bind, Except.bind, pure, Except.pure]
          rw [if_neg hc, if_neg hen]
  cases hr : corrMatResample b.stats.lag.npts b.data b.stats.corrStart b.stats.corrEnd st en with
  | error e => rw [hr] at h; cases h
  | ok r =>
    rw [hr] at h
    cases h
    obtain ⟨h1, h2, h3⟩ := hshape _ _ _ _ _ hr
    obtain ⟨rows, st', en'⟩ := r
    simp only at h1 h2 h3 hlen hdis ⊢
    subst h1
    have hlag : ({ b.stats with corrStart := st', corrEnd := en' } : BulkStats V).lag = b.stats.lag := rfl
    rw [hlag, h3]
    simp only [bind, Except.bind, pure, Except.pure]
    congr 2
    -- every bin contains its own row only
    have key : ∀ (f : Int × Int → List F) (z : List (Int × Int)), z.Pairwise (fun p q => p.2 ≤ q.1) → (∀ p ∈ z, p.1 < p.2) →
        ∀ p ∈ z, (((z.map Prod.fst).zip (z.map f)).filter fun td => decide (p.1 ≤ td.1) && decide (td.1 < p.2)).map Prod.snd = [f p] := by
      intro f z hd hl p hp
      obtain ⟨u, v, rfl⟩ := List.append_of_mem hp
      have hu : ∀ q ∈ u, q.1 < p.1 := fun q hq => by
        have := (List.pairwise_append.1 hd).2.2 q hq p (by simp)
        have := hl q (by simp [hq])
        omega
      have hv : ∀ q ∈ v, p.2 ≤ q.1 := fun q hq =>
        (List.pairwise_cons.1 (List.pairwise_append.1 hd).2.1).1 q hq
      rw [List.zip_map', List.filter_map, List.map_map]
      simp only [List.filter_append, List.filter_cons, Function.comp_def]
      rw [List.filter_eq_nil_iff.2 (show ∀ q ∈ u, ¬ _ from ?_), List.filter_eq_nil_iff.2 (show ∀ q ∈ v, ¬ _ from ?_)]
      · have := hl p (by simp)
        simp [this]
      · intro q hq
        have := hv q hq
        simp only [Bool.and_eq_true, decide_eq_true_eq, not_and]; omega
      · intro q hq
        have := hu q hq
        simp only [Bool.and_eq_true, decide_eq_true_eq, not_and]; omega
    rw [h2]
    have hz : (st'.zip en').map Prod.fst = st' := by
      apply List.map_fst_zip
      unfold corrMatResample at hr
      simp only [bind, Except.bind] at hr
      split at hr
      · cases hr
      rename_i hc
      simp only [pure, Except.pure] at hr
      cases st' with
      | nil => cases hr
      | cons s0 rest =>
        cases rest with
        | nil =>
          simp only at hr
          by_cases hen : en ≠ []
          · rw [if_pos hen] at hr
            cases hr
            have := not_and.1 hc hen
            rw [not_not] at this
            omega
          · rw [if_neg hen] at hr
            cases hl : b.stats.corrEnd.getLast? with
            | none => rw [hl] at hr; cases hr
            | some x => rw [hl] at hr; cases hr; simp
        | cons s1 rest =>
          simp only at hr
          by_cases hen : en ≠ []
          · rw [if_pos hen] at hr
            cases hr
            have := not_and.1 hc hen
            rw [not_not] at this
            omega
          · rw [if_neg hen] at hr
            cases hr
            simp
    apply List.map_congr_left
    intro p hp
    have := key (fun p => resampleBin b.stats.lag.npts b.data b.stats.corrStart p.1 p.2) _ hdis hlen p hp
    rw [hz] at this
    unfold resampleBin
    simp only
    simp only [resampleBin] at this
    rw [this]

theorem decimate_one (filt : List F → List F) (data : List (List F)) (s : LagStats) :
    corrMatDecimate filt data s 1 = .ok (data, s) := by
  unfold corrMatDecimate
  rw [if_neg (by decide), if_pos rfl]

theorem axis_again (fuel : Nat) (filt : List F → List F) (fft : Nat → List F → List F) (b : Bulk V) (s : LagStats)
    (data : List (List F)) (freq : Rat) (hf : freq ≠ 0) (hs : s.sr = freq) :
    (⟨data, b.stats.setLag s⟩ : Bulk V).call fuel filt fft (.resampleTimeAxis freq) = .ok ⟨data, b.stats.setLag s⟩ := by
  have hd : decimationFactor (b.stats.setLag s).base.samplingRate freq = some 1 := by
    have : (b.stats.setLag s).base.samplingRate = freq := by rw [← hs]; rfl
    rw [this]
    unfold decimationFactor
    rw [div_self hf]
    decide
  simp only [Bulk.call, hd]
  rw [decimate_one]
  simp only [bind, Except.bind, pure, Except.pure, setLag_lag, setLag_setLag]

/-- **C161** (resampling the lags) Resampling the lag axis again to the same frequency
changes nothing. -/
theorem c161_axis (fuel : Nat) (filt : List F → List F) (fft : Nat → List F → List F) (b b' : Bulk V) (freq : Rat)
    (hf : freq ≠ 0) (h : b.call fuel filt fft (.resampleTimeAxis freq) = .ok b') :
    b'.call fuel filt fft (.resampleTimeAxis freq) = .ok b' := by
  have h0 := h
  simp only [Bulk.call] at h
  cases hd : decimationFactor b.stats.base.samplingRate freq with
  | some factor =>
    rw [hd] at h
    simp only [bind, Except.bind] at h
    cases hr : corrMatDecimate filt b.data b.stats.lag factor with
    | error e => rw [hr] at h; cases h
    | ok r =>
      rw [hr] at h
      cases h
      refine axis_again fuel filt fft b r.2 r.1 freq hf ?_
      unfold decimationFactor at hd
      split at hd
      · rename_i hfl
        cases hd
        unfold corrMatDecimate at hr
        split at hr
        · cases hr
        rename_i hge
        have hsr : b.stats.lag.sr = b.stats.base.samplingRate := rfl
        have h1 : b.stats.base.samplingRate / (b.stats.base.samplingRate / freq) = freq := by
          have : b.stats.base.samplingRate ≠ 0 := by
            intro h0
            rw [h0, zero_div] at hge
            exact hge (by decide)
          field_simp
        split at hr
        · rename_i h1'
          cases hr
          rw [h1', Int.cast_one] at hfl
          rw [hfl, div_one] at h1
          exact h1
        · cases hr
          show b.stats.lag.sr / _ = freq
          rw [← hfl, hsr]
          exact h1
      · cases hd
  | none =>
    rw [hd] at h
    simp only at h
    cases hr : corrMatResampleTime fuel filt fft b.data b.stats.lag freq with
    | none =>
      rw [hr] at h
      cases h
      exact h0
    | some r =>
      rw [hr] at h
      cases r with
      | error e => cases h
      | ok r =>
        cases h
        refine axis_again fuel filt fft b r.2 r.1 freq hf ?_
        unfold corrMatResampleTime at hr
        cases hp : resampleTimePlan fuel b.stats.lag freq with
        | none => rw [hp] at hr; cases hr
        | some p =>
          rw [hp] at hr
          cases p with
          | error e => cases hr
          | ok p =>
            cases p with
            | none =>
              cases hr
              unfold resampleTimePlan at hp
              split at hp
              · cases hp
              · split at hp
                · rename_i h2; exact h2.symm
                · simp only at hp
                  split at hp <;> cases hp
            | some p =>
              cases hr
              rfl

theorem selectBool_sublist_all (p : Int → Int → Bool) (a b : List Int) :
    List.zipWith p (selectBool (List.zipWith p a b) a) (selectBool (List.zipWith p a b) b) =
      List.replicate (selectBool (List.zipWith p a b) a).length true := by
  induction a generalizing b with
  | nil => simp [selectBool]
  | cons x a ih =>
    cases b with
    | nil => simp [selectBool]
    | cons y b =>
      have ih := ih b
      simp only [selectBool] at ih
      simp only [selectBool, List.zipWith_cons_cons, List.zip_cons_cons, List.filterMap_cons]
      cases hp : p x y with
      | false => simpa using ih
      | true => simp [hp, List.replicate_succ, ih]

theorem selectBool_true {α : Type} (n : Nat) (l : List α) (h : l.length ≤ n) :
    selectBool (List.replicate n true) l = l := by
  induction l generalizing n with
  | nil => simp [selectBool]
  | cons x l ih =>
    cases n with
    | zero => simp at h
    | succ n =>
      have := ih n (by simpa using h)
      simp only [selectBool] at this
      simp [selectBool, List.replicate_succ, this]

theorem selectBool_length_le {α β : Type} (ii : List Bool) (l : List α) (m : List β) (h : l.length ≤ m.length) :
    (selectBool ii l).length ≤ (selectBool ii m).length := by
  induction ii generalizing l m with
  | nil => simp [selectBool]
  | cons i ii ih =>
    cases l with
    | nil => simp [selectBool]
    | cons x l =>
      cases m with
      | nil => simp at h
      | cons y m =>
        have := ih l m (by simpa using h)
        simp only [selectBool] at this
        cases i <;> simp [selectBool, this]

/-- **C161** (cutting a period) Cutting the same period out of the result again
changes nothing, if the result has not exactly one correlation. -/
theorem c161_slice (fuel : Nat) (filt : List F → List F) (fft : Nat → List F → List F) (b b' : Bulk V)
    (hb : b.Aligned) (lo hi : Int) (part : Bool) (h : b.call fuel filt fft (.slice lo hi part) = .ok b')
    (hone : b'.data.length ≠ 1) : b'.call fuel filt fft (.slice lo hi part) = .ok b' := by
  simp only [Bulk.call, Bulk.slice, bind, Except.bind] at h ⊢
  cases hi' : sliceIndex b.stats lo hi part with
  | error e => rw [hi'] at h; cases h
  | ok ii =>
    rw [hi'] at h
    simp only at h
    split at h
    · cases h
    cases h
    obtain ⟨p, hp, hii⟩ : ∃ p : Int → Int → Bool, (∀ s : BulkStats V, sliceIndex s lo hi part = .ok (List.zipWith p s.corrStart s.corrEnd)) ∧
        ii = List.zipWith p b.stats.corrStart b.stats.corrEnd := by
      unfold sliceIndex at hi'
      split at hi'
      · cases hi'
      rename_i hlt
      cases part with
      | true =>
        cases hi'
        exact ⟨_, fun s => by unfold sliceIndex; rw [if_neg hlt, if_pos rfl], rfl⟩
      | false =>
        cases hi'
        exact ⟨_, fun s => by unfold sliceIndex; rw [if_neg hlt, if_neg (by simp)], rfl⟩
    rw [hp]
    simp only at hone ⊢
    rw [hii] at hone ⊢
    have hall := selectBool_sublist_all p b.stats.corrStart b.stats.corrEnd
    rw [hall]
    have l1 : b.stats.corrStart.length = b.data.length := hb.1
    have hl : ∀ {α : Type} (l : List α), l.length = b.data.length →
        (selectBool (List.zipWith p b.stats.corrStart b.stats.corrEnd) l).length =
        (selectBool (List.zipWith p b.stats.corrStart b.stats.corrEnd) b.stats.corrStart).length := by
      intro α l hl
      exact Nat.le_antisymm (selectBool_length_le _ _ _ (by omega)) (selectBool_length_le _ _ _ (by omega))
    rw [if_neg (by rw [List.length_replicate, ← hl b.data rfl]; exact hone)]
    simp only [pure, Except.pure]
    rw [selectBool_true _ _ (by rw [hl b.data rfl]), selectBool_true _ _ (Nat.le_refl _),
      selectBool_true _ _ (by rw [hl b.stats.corrEnd hb.stop]), selectBool_true _ _ (by rw [hl b.stats.location hb.loc])]
    congr 3
    cases hc : b.stats.channel with
    | none => rfl
    | some c =>
      simp only [Option.map_some]
      rw [selectBool_true _ _ (by rw [hl c (hb.cha c hc)])]

/-! ### amplitudes -/

theorem normFactor_div (ty : Str) (hty : ty = c!"energy" ∨ ty = c!"abssum" ∨ ty = c!"absmax") (w : List ℝ) (c m : ℝ) (hc : 0 < c)
    (h : normFactor ty w = .ok (some m)) : normFactor ty (w.map (· / c)) = .ok (some (m / c)) := by
  unfold normFactor at h ⊢
  rcases hty with rfl | rfl | rfl
  · rw [if_pos (by decide)] at h ⊢
    by_cases hw : w = []
    · rw [if_pos hw] at h; simp at h
    rw [if_neg hw] at h
    rw [if_neg (by simpa using hw), List.map_map]
    cases h
    congr 2
    have : w.map ((fun x => x ^ 2) ∘ fun x => x / c) = (w.map (· ^ 2)).map fun x => x / c ^ 2 := by
      rw [List.map_map]
      exact List.map_congr_left fun x _ => by simp [div_pow]
    rw [this, meanR_div, Real.sqrt_div' _ (by positivity), Real.sqrt_sq hc.le]
  · rw [if_neg (by decide), if_pos (by decide)] at h ⊢
    by_cases hw : w = []
    · rw [if_pos hw] at h; simp at h
    rw [if_neg hw] at h
    rw [if_neg (by simpa using hw), List.map_map]
    cases h
    congr 2
    have : w.map ((fun x => |x|) ∘ fun x => x / c) = (w.map (|·|)).map fun x => x / c := by
      rw [List.map_map]
      exact List.map_congr_left fun x _ => by simp [abs_div, abs_of_pos hc]
    rw [this, meanR_div]
  · rw [if_neg (by decide), if_neg (by decide), if_neg (by decide), if_pos (by decide)] at h ⊢
    rw [List.map_map]
    have : w.map ((fun x => |x|) ∘ fun x => x / c) = (w.map (|·|)).map fun x => c⁻¹ * x := by
      rw [List.map_map]
      exact List.map_congr_left fun x _ => by simp [abs_div, abs_of_pos hc]; ring
    rw [this, maxR_scale c⁻¹ (by positivity)]
    cases hm : maxR (w.map (|·|)) with
    | none => rw [hm] at h; cases h
    | some v =>
      rw [hm] at h
      cases h
      simp only [Option.map_some]
      congr 2
      ring

theorem normalise_row (ty : Str) (hty : ty = c!"energy" ∨ ty = c!"abssum" ∨ ty = c!"absmax") (start stop : Option Int)
    (row r : List ℝ) (m : Option ℝ) (hm : normFactor ty (pySlice row start stop) = .ok m)
    (h : normDivide m row = r.map some) :
    ∃ m', normFactor ty (pySlice r start stop) = .ok m' ∧ normDivide m' r = r.map some := by
  cases m with
  | none =>
    cases row with
    | nil =>
      simp only [normDivide, List.map_nil] at h
      have hr : r = [] := List.map_eq_nil_iff.1 h.symm
      subst hr
      exact ⟨none, hm, rfl⟩
    | cons x row =>
      cases r with
      | nil => simp [normDivide] at h
      | cons y r => simp [normDivide] at h
  | some v =>
    set c : ℝ := if v = 0 then 1 else v with hc
    have hr : r = row.map (· / c) := by
      simp only [normDivide] at h
      have : (row.map (· / c)).map some = r.map some := by rw [← h, List.map_map]; rfl
      exact (List.map_injective_iff.2 (Option.some_injective ℝ) this).symm
    have hw : pySlice row start stop ≠ [] := by
      intro hw
      rw [hw] at hm
      unfold normFactor at hm
      rcases hty with rfl | rfl | rfl
      · rw [if_pos (by decide), if_pos rfl] at hm; simp at hm
      · rw [if_neg (by decide), if_pos (by decide), if_pos rfl] at hm; simp at hm
      · rw [if_neg (by decide), if_neg (by decide), if_neg (by decide), if_pos (by decide)] at hm; simp [maxR] at hm
    have hv : 0 ≤ v := by
      obtain ⟨m, h1, h2, -⟩ := normFactor_spec ty hty _ hw
      rw [hm] at h1
      cases h1
      exact h2
    have hcp : 0 < c := by
      rw [hc]
      split
      · exact one_pos
      · rename_i h0; exact lt_of_le_of_ne hv (Ne.symm h0)
    refine ⟨some (v / c), ?_, ?_⟩
    · rw [hr, pySlice_map]
      exact normFactor_div ty hty _ c v hcp hm
    · simp only [normDivide]
      apply List.map_congr_left
      intro x _
      congr 1
      by_cases h0 : v = 0
      · rw [h0, zero_div, if_pos rfl, div_one]
      · have : c = v := by rw [hc, if_neg h0]
        rw [this, div_self h0, if_neg one_ne_zero, div_one]

/-- **C161** (normalisation) Normalising again, in the same window by the energy, the
mean or the largest amplitude, changes nothing. -/
theorem c161_normalise (data rows : List (List ℝ)) (s : LagStats) (starttime endtime : Option Rat) (ty : Str)
    (hty : ty = c!"energy" ∨ ty = c!"abssum" ∨ ty = c!"absmax")
    (h : corrMatNormalize data s starttime endtime ty = .ok (rows.map fun row => row.map some)) :
    corrMatNormalize rows s starttime endtime ty = .ok (rows.map fun row => row.map some) := by
  unfold corrMatNormalize at h ⊢
  simp only [bind, Except.bind, pure, Except.pure] at h ⊢
  split
  · rfl
  rename_i h1
  rw [if_neg h1] at h
  split
  · rfl
  rename_i h2
  rw [if_neg h2] at h
  cases hn : data.mapM fun row => normFactor ty (pySlice row (starttime.map fun t => ((t - s.startLag) * s.sr).floor)
      (endtime.map fun t => ((t - s.startLag) * s.sr).floor)) with
  | error e => rw [hn] at h; cases h
  | ok norm =>
    rw [hn] at h
    simp only [Except.ok.injEq] at h
    have key : ∃ norm', (rows.mapM fun row => normFactor ty (pySlice row (starttime.map fun t => ((t - s.startLag) * s.sr).floor)
        (endtime.map fun t => ((t - s.startLag) * s.sr).floor))) = .ok norm' ∧
        List.zipWith normDivide norm' rows = rows.map fun row => row.map some := by
      clear h1 h2
      induction data generalizing rows norm with
      | nil =>
        rw [List.mapM_nil] at hn
        cases hn
        simp only [List.zipWith_nil_left] at h
        have : rows = [] := List.map_eq_nil_iff.1 h.symm
        subst this
        exact ⟨[], rfl, rfl⟩
      | cons row data ih =>
        rw [List.mapM_cons] at hn
        simp only [bind, Except.bind, pure, Except.pure] at hn
        split at hn
        · cases hn
        rename_i m hm
        split at hn
        · cases hn
        rename_i norm1 hn1
        cases hn
        rw [List.zipWith_cons_cons] at h
        cases rows with
        | nil => simp at h
        | cons r rows =>
          rw [List.map_cons, List.cons.injEq] at h
          obtain ⟨m', h3, h4⟩ := normalise_row ty hty _ _ row r m hm h.1
          obtain ⟨norm', h5, h6⟩ := ih rows norm1 hn1 h.2
          refine ⟨m' :: norm', ?_, ?_⟩
          · rw [List.mapM_cons, h3, h5]; rfl
          · rw [List.zipWith_cons_cons, List.map_cons, h4, h6]
    obtain ⟨norm', h3, h4⟩ := key
    rw [h3]
    simp only [h4]

/-- **C161** (signs, standard deviation) Repeating the one-bit normalisation or the
normalisation by the standard deviation changes nothing. -/
theorem c161_td (row : List ℝ) :
    signBit (signBit row) = signBit row ∧ normalizeStd (normalizeStd row) = normalizeStd row := by
  constructor
  · unfold signBit
    rw [List.map_map]
    apply List.map_congr_left
    intro x _
    simp only [Function.comp_apply, npSign]
    split
    · rw [if_pos one_pos]
    · split
      · rw [if_neg (by norm_num), if_pos (by norm_num)]
      · rw [if_neg (by norm_num), if_neg (by norm_num)]
  · by_cases h : stdR row = 0
    · have : normalizeStd row = row := by
        unfold normalizeStd
        simp [h]
      rw [this, this]
    · have hp : 0 < stdR row := lt_of_le_of_ne (stdR_nonneg row) (Ne.symm h)
      have h1 : normalizeStd row = row.map fun x => x / stdR row := by
        unfold normalizeStd
        rw [if_neg h]
      rw [h1]
      unfold normalizeStd
      rw [stdR_div row _ hp, div_self h, if_neg one_ne_zero, List.map_map]
      exact List.map_congr_left fun x _ => by simp

/-- **C161** (mean) Removing the mean again changes nothing, also with gaps. -/
theorem c161_demean {n : Nat} (qr : 2 ≤ n → QR (trendMatrix n)) (m : Option Str) (hm : m = none ∨ m = some c!"qr")
    (A B : List (Fin n → Option ℝ)) (h : (detrend qr ⟨m, some c!"constant"⟩ A).1 = .ok B) :
    (detrend qr ⟨m, some c!"constant"⟩ B).1 = .ok B := by
  obtain ⟨B', h1, h2⟩ := c123_constant qr m hm A
  rw [h1] at h
  cases h
  obtain ⟨C, h3, h4⟩ := c123_constant qr m hm B
  rw [h3]
  -- the mean of the result is zero
  suffices hBC : B = C by rw [hBC]
  clear h1 h3
  induction h2 generalizing C with
  | nil => cases h4; rfl
  | cons hab _ ih =>
    rename_i a b l1 l2 _
    cases h4 with
    | cons hbc hrest =>
      rename_i c l3
      congr 1
      · obtain ⟨-, hb⟩ := hab
        obtain ⟨⟨x, hx⟩, hc⟩ := hbc
        have e : (List.ofFn c).filterMap id = ((List.ofFn b).filterMap id).map (· - x) := by
          have : List.ofFn c = (List.ofFn b).map fun y => y.map (· - x) := by
            rw [List.map_ofFn]
            congr 1
            funext k
            exact hx k
          rw [this, List.filterMap_map, List.map_filterMap]
          congr 1
        rw [e] at hc
        by_cases hl : (List.ofFn b).filterMap id = []
        · funext k
          rw [hx k]
          have : b k = none := by
            by_contra hne
            obtain ⟨v, hv⟩ := Option.ne_none_iff_exists'.1 hne
            have : v ∈ (List.ofFn b).filterMap id := List.mem_filterMap.2 ⟨b k, by simp, hv⟩
            rw [hl] at this
            cases this
          rw [this]; rfl
        · have hx0 : x = 0 := by
            have : (((List.ofFn b).filterMap id).map (· - x)).sum =
                ((List.ofFn b).filterMap id).sum - ((List.ofFn b).filterMap id).length * x := by
              generalize (List.ofFn b).filterMap id = l
              induction l with
              | nil => simp
              | cons y l ih => simp only [List.map_cons, List.sum_cons, ih, List.length_cons]; push_cast; ring
            rw [this, hb, zero_sub, neg_eq_zero, mul_eq_zero] at hc
            rcases hc with hc | hc
            · exact absurd (List.length_eq_zero_iff.1 (by exact_mod_cast hc)) hl
            · exact hc
          funext k
          rw [hx k, hx0]
          cases b k <;> simp
      · exact ih l3 hrest

/-- **C161** (trend) Removing the linear trend of traces without gaps again changes nothing. -/
theorem c161_detrend {n : Nat} (h2 : 2 ≤ n) (qr : 2 ≤ n → QR (trendMatrix n)) (m : Option Str)
    (hm : m = none ∨ m = some c!"qr") (ty : Option Str) (ht : ty = none ∨ ty = some c!"linear")
    (A : List (Fin n → ℝ)) (B : List (Fin n → Option ℝ)) (h : (detrend qr ⟨m, ty⟩ (A.map valid)).1 = .ok B) :
    (detrend qr ⟨m, ty⟩ B).1 = .ok B :=
  (c123_trend_partial h2 qr ⟨m, ty⟩ hm ht A (fun _ => 0) (fun _ => 0)).2 B h

/-- **C161** (whitening) Whitening spectra again changes nothing. -/
theorem c161_whitening (joint : Bool) (B C : List (List ℂ)) (h : spectralWhitening joint B = .ok C) :
    spectralWhitening joint C = .ok C := by
  classical
  have hset : ∀ l : List ℂ, (l.set 0 0).set 0 0 = l.set 0 0 := fun l => by cases l <;> rfl
  have hC : ∃ D : List (List ℂ), C = D.map fun row => row.set 0 0 := by
    unfold spectralWhitening at h
    simp only at h
    split at h
    · cases h
    · cases h; exact ⟨_, rfl⟩
  have hlen : C.length = B.length := by
    unfold spectralWhitening at h
    simp only at h
    split at h
    · cases h
    · cases h
      rw [List.length_map]
      split
      · rfl
      · rw [List.length_zipWith]
        unfold whitenAbs
        cases joint <;> simp
  obtain ⟨D, rfl⟩ := hC
  have hD : (D.map fun row => row.set 0 (0 : ℂ)).map (fun row => row.set 0 0) = D.map fun row => row.set 0 0 := by
    rw [List.map_map]
    exact List.map_congr_left fun row _ => hset row
  unfold spectralWhitening at h ⊢
  simp only at h ⊢
  rw [hlen]
  split
  · rename_i hj
    rw [if_pos hj] at h
    cases h
  · congr 1
    split
    · exact hD
    · rename_i hno
      -- no row has samples
      have hempty : ∀ row ∈ D, row = [] := by
        intro row hrow
        by_contra hne
        apply hno
        obtain ⟨i, hi, rfl⟩ := List.getElem_of_mem hrow
        have hz : ∀ r ∈ D.map fun row => row.set 0 (0 : ℂ), (r.map fun z => ‖z‖).getD 0 0 = 0 := by
          intro r hr
          obtain ⟨d, _, rfl⟩ := List.mem_map.1 hr
          cases d <;> simp
        have hpos : 0 < ((D[i]).set 0 (0 : ℂ)).length := by
          rw [List.length_set]; exact List.length_pos_iff.2 hne
        unfold whitenAbs
        cases joint with
        | false =>
          refine ⟨((D[i]).set 0 0).map fun z => ‖z‖, ?_, ?_⟩
          · simp only [Bool.false_eq_true, if_false]
            exact List.mem_map.2 ⟨_, List.mem_map.2 ⟨_, hrow, rfl⟩, rfl⟩
          · have := hz _ (List.mem_map.2 ⟨_, hrow, rfl⟩)
            rw [List.getD_eq_getElem _ _ (by simpa using hpos)] at this
            rw [← this]
            exact List.getElem_mem _
        | true =>
          simp only [if_true]
          refine ⟨_, List.mem_mapIdx.2 ⟨i, by simpa using hi, rfl⟩, ?_⟩
          refine List.mem_mapIdx.2 ⟨0, by simpa using hpos, ?_⟩
          have : ∀ r ∈ (((D.map fun row => row.set 0 (0 : ℂ)).map fun row => row.map fun z => ‖z‖).drop (i / 3 * 3)).take 3, r.getD 0 0 = 0 := by
            intro r hr
            obtain ⟨q, hq, rfl⟩ := List.mem_map.1 (List.mem_of_mem_drop (List.mem_of_mem_take hr))
            exact hz q hq
          rw [List.sum_eq_zero]
          · simp
          · intro x hx
            obtain ⟨r, hr, rfl⟩ := List.mem_map.1 hx
            exact this r hr
      have hD0 : (D.map fun row => row.set 0 (0 : ℂ)) = D.map fun _ => [] :=
        List.map_congr_left fun row hrow => by rw [hempty row hrow]; rfl
      rw [hD0]
      have hl : (whitenAbs joint (D.map fun _ => ([] : List ℂ))).length = D.length := by
        unfold whitenAbs
        cases joint <;> simp
      apply List.ext_getElem
      · rw [List.length_map, List.length_zipWith, hl, List.length_map, Nat.min_self]
      · intro k h1 h2
        simp only [List.getElem_map, List.getElem_zipWith, List.zipWith_nil_left]
        rfl

/-! ### selections of a stream -/

/-- **C161** (selections) Selecting again what was selected, dropping again what was
dropped, and removing duplicates, short or empty traces again changes nothing. -/
theorem c161_select [DecidableEq V] (st : List (CTr V)) (a b : Int) (flag : Bool) (utcs : List Int) (ws : List Wave) (len : Rat) :
    selectCorrTime (selectCorrTime st a b flag) a b flag = selectCorrTime st a b flag ∧
    selectTime (selectTime st a b flag) a b flag = selectTime st a b flag ∧
    popAtUtcs (popAtUtcs st utcs) utcs = popAtUtcs st utcs ∧
    removeDuplicates (removeDuplicates st) = removeDuplicates st ∧
    discardShortTraces (discardShortTraces ws len) len = discardShortTraces ws len ∧
    getValidTraces (getValidTraces ws) = getValidTraces ws := by
  refine ⟨?_, ?_, ?_, ?_, ?_, ?_⟩
  · unfold selectCorrTime
    simp only
    have hs := isort_sorted startLe startLe_total startLe_trans st
    cases flag with
    | true =>
      simp only [if_true]
      rw [isort_eq_self _ _ (hs.filter _), List.filter_filter]
      simp
    | false =>
      simp only [Bool.false_eq_true, if_false]
      rw [isort_eq_self _ _ (hs.filter _), List.filter_filter]
      simp
  · unfold selectTime
    rw [List.filter_filter]
    simp
  · unfold popAtUtcs
    rw [List.filter_filter]
    simp
  · have h := (c25_sublist st).2.1
    generalize removeDuplicates st = l at h
    have key : ∀ (l acc : List (CTr V)), (acc ++ l).Pairwise (fun a b => a.pyEq b = false) →
        l.foldl (fun acc ctr => if acc.any fun x => x.pyEq ctr then acc else acc ++ [ctr]) acc = acc ++ l := by
      intro l
      induction l with
      | nil => intro acc _; simp
      | cons x l ih =>
        intro acc hp
        rw [List.foldl_cons, if_neg]
        · rw [ih (acc ++ [x]) (by simpa using hp)]
          simp
        · intro hany
          obtain ⟨y, hy, hyx⟩ := List.any_eq_true.1 hany
          have := (List.pairwise_append.1 hp).2.2 y hy x (by simp)
          rw [this] at hyx
          cases hyx
    exact key l [] (by simpa using h)
  · rw [c70_discard_short, c70_discard_short, List.filter_filter]
    simp
  · rw [c71_valid_traces, c71_valid_traces, List.filter_filter]
    simp

/-! ### the conditions are met, and they are needed -/

/-- mirroring `bulk23` changes it, and the result can be mirrored again -/
example : ∃ b' : Bulk Nat, bulk23.call 0 id (fun _ x => x) .mirror = .ok b' ∧ b' ≠ bulk23 ∧
    b'.call 0 id (fun _ x => x) .mirror = .ok b' :=
  ⟨(bulk23.calls 0 id (fun _ x => x) [.mirror]), by decide +kernel, by decide +kernel, by decide +kernel⟩

/-- `bulk23` meets the conditions of `c161_trim` -/
example : bulk23.Consistent ∧ (0 : Rat) ≤ 1 ∧ 0 ≤ bulk23.stats.base.samplingRate ∧
    ∃ k : Int, (0 - bulk23.stats.base.startLag) * bulk23.stats.base.samplingRate = k :=
  ⟨bulk23_ok.1, by decide +kernel, by decide +kernel, 1, by decide +kernel⟩

/-- The first lag has to be on a sample: if it is between two samples, the second call drops one more. -/
example : (bulk23.calls 0 id (fun _ x => x) [.trim (-1 / 2) 1]).data = [[some 1, some 2, some 3], [some 4, some 5, some 6]] ∧
    (bulk23.calls 0 id (fun _ x => x) [.trim (-1 / 2) 1, .trim (-1 / 2) 1]).data = [[some 1, some 2], [some 4, some 5]] := by
  decide +kernel

/-- bins that meet the conditions of `c161_resample` -/
example : ∃ b' : Bulk Nat, bulk23.call 0 id (fun _ x => x) (.resample [0, 12] [12, 30]) = .ok b' ∧
    (∀ p ∈ [0, 12].zip b'.stats.corrEnd, p.1 < p.2) ∧ (([0, 12].zip b'.stats.corrEnd).Pairwise fun p q => p.2 ≤ q.1) ∧
    b'.stats.corrEnd = [12, 30] ∧ b'.data = [[some (5 / 2), some (7 / 2), some (9 / 2)], [none, none, none]] :=
  ⟨bulk23.calls 0 id (fun _ x => x) [.resample [0, 12] [12, 30]], by decide +kernel, by decide +kernel, by decide +kernel,
    by decide +kernel, by decide +kernel⟩

/-- Bins that overlap are averaged again. -/
example : (bulk23.calls 0 id (fun _ x => x) [.resample [0, 10] [20, 20]]).data ≠
    (bulk23.calls 0 id (fun _ x => x) [.resample [0, 10] [20, 20], .resample [0, 10] [20, 20]]).data := by
  decide +kernel

/-- every second lag -/
example : ∃ b' : Bulk Nat, bulk23.call 0 id (fun _ x => x) (.resampleTimeAxis (1 / 2)) = .ok b' ∧
    b'.data = [[some 1], [some 4]] :=
  ⟨bulk23.calls 0 id (fun _ x => x) [.resampleTimeAxis (1 / 2)], by decide +kernel, by decide +kernel⟩

/-- a period with both correlations; with one the second call raises an error -/
example : bulk23.Aligned ∧ (∃ b' : Bulk Nat, bulk23.call 0 id (fun _ x => x) (.slice 0 20 true) = .ok b' ∧ b'.data.length ≠ 1) ∧
    (∃ b' : Bulk Nat, bulk23.call 0 id (fun _ x => x) (.slice 0 10 false) = .ok b' ∧ b'.data.length = 1 ∧
      b'.call 0 id (fun _ x => x) (.slice 0 10 false) = .error .typeError) :=
  ⟨bulk23_ok.2.1, ⟨bulk23.calls 0 id (fun _ x => x) [.slice 0 20 true], by decide +kernel, by decide +kernel⟩,
    ⟨bulk23.calls 0 id (fun _ x => x) [.slice 0 10 false], by decide +kernel, by decide +kernel, by decide +kernel⟩⟩

/-- a matrix is normalised by its largest amplitude -/
example : corrMatNormalize [[1, -2, 0]] ⟨-1, 3, 1⟩ none none c!"absmax" =
    .ok ([[1 / 2, -1, 0]].map fun row => row.map some) := by
  have h : maxR (List.map (|·|) [(1 : ℝ), -2, 0]) = some 2 := by
    norm_num [maxR]
  simp only [corrMatNormalize, bind, Except.bind, pure, Except.pure, List.mapM_cons, List.mapM_nil]
  rw [if_neg (by simp), if_neg (by simp)]
  have e : pySlice [(1 : ℝ), -2, 0] none none = [1, -2, 0] := rfl
  have e2 : normFactor c!"absmax" [(1 : ℝ), -2, 0] = .ok (some 2) := by
    unfold normFactor
    rw [if_neg (by decide), if_neg (by decide), if_neg (by decide), if_pos (by decide), h]
  simp only [Option.map_none, e, e2]
  norm_num [normDivide]

/-- By its largest sample (`max`) a negative trace changes its sign each time. -/
example : normFactor c!"max" [(-2 : ℝ), -4] = .ok (some (-2)) ∧ normDivide (some (-2)) [-2, -4] = [some 1, some 2] ∧
    normFactor c!"max" [(1 : ℝ), 2] = .ok (some 2) ∧ normDivide (some 2) [1, 2] = [some (1 / 2), some 1] := by
  refine ⟨?_, ?_, ?_, ?_⟩
  · unfold normFactor
    rw [if_neg (by decide), if_neg (by decide), if_pos (by decide)]
    norm_num [maxR]
  · norm_num [normDivide]
  · unfold normFactor
    rw [if_neg (by decide), if_neg (by decide), if_pos (by decide)]
    norm_num [maxR]
  · norm_num [normDivide]

/-- the mean of a trace with a gap is removed -/
example : ∃ B, (detrend (n := 3) (fun h => Classical.choice (qr_exists h)) ⟨none, some c!"constant"⟩
    [fun k => if k = 1 then none else some (k : ℝ)]).1 = .ok B :=
  ⟨_, congrArg Prod.fst (c123_constant _ none (Or.inl rfl) _).choose_spec.1⟩

/-- spectra can be whitened -/
example : spectralWhitening false [[1, 5]] = .ok [[0, 1]] := c77_block_violated.1

/-- each selection drops something -/
example : (selectCorrTime [exTr c!"A-A" 20 30 [], exTr c!"A-A" 0 10 []] 0 15 true).length = 1 ∧
    (popAtUtcs [exTr c!"A-A" 0 10 [], exTr c!"A-A" 10 20 []] [5]).length = 1 ∧
    (removeDuplicates [exTr c!"A-A" 0 10 [some 1], exTr c!"A-A" 0 10 [some 1]]).length = 1 ∧
    (discardShortTraces [⟨c!"a", 1, false, [some 1]⟩, ⟨c!"b", 1, false, [some 1, some 2]⟩] 1).length = 1 ∧
    (getValidTraces [⟨c!"a", 1, true, [none, none]⟩, ⟨c!"b", 1, true, [none, some 2]⟩]).length = 1 := by
  decide +kernel

end SeisMIC
