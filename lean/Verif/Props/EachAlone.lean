import Verif.Spec.EachAlone
import Verif.Props.BulkOps
import Verif.Props.Amplitude
import Verif.Props.Muting
import Verif.Props.Wfc
import Verif.Model.Decay
import Verif.Model.CorrFilter
import Verif.Model.Smooth
import Verif.Model.StretchApply
import Verif.Model.StretchMeasure
import Verif.Model.ClockShift
import Verif.Model.TdNorm

/-!
# C162: every correlation is processed on its own
-/

namespace SeisMIC

variable {V : Type}

/-! ### Lemmas -/

theorem alone_map {α β : Type} (g : α → β) (f : List α → Except PyErr (List β)) (rows : List α)
    (h : ∀ l, f l = .ok (l.map g)) : ProcessedAlone f rows := by
  intro out ho
  rw [h] at ho
  cases ho
  refine ⟨by simp, fun i row hr => ⟨g row, by simp [hr], by rw [h]; rfl⟩⟩

theorem mapM_alone {α β : Type} (g : α → Except PyErr β) (rows : List α) (out : List β) (h : rows.mapM g = .ok out) :
    out.length = rows.length ∧ ∀ (i : Nat) (row : α), rows[i]? = some row → ∃ r, out[i]? = some r ∧ g row = .ok r := by
  induction rows generalizing out with
  | nil => cases h; simp
  | cons x l ih =>
    rw [List.mapM_cons] at h
    cases hx : g x with
    | error e => rw [hx] at h; cases h
    | ok y =>
      rw [hx] at h
      cases hl : l.mapM g with
      | error e => rw [hl] at h; cases h
      | ok l' =>
        rw [hl] at h
        cases h
        obtain ⟨h1, h2⟩ := ih l' hl
        refine ⟨by simp [h1], ?_⟩
        intro i row hr
        cases i with
        | zero =>
          simp only [List.getElem?_cons_zero, Option.some.injEq] at hr
          subst hr
          exact ⟨y, by simp, hx⟩
        | succ i => simpa using h2 i row (by simpa using hr)

theorem alone_mapM {α β : Type} (g : α → Except PyErr β) (f : List α → Except PyErr (List β)) (rows : List α)
    (h : ∀ l, f l = l.mapM g) : ProcessedAlone f rows := by
  intro out ho
  rw [h] at ho
  obtain ⟨h1, h2⟩ := mapM_alone g rows out ho
  refine ⟨h1, fun i row hr => ?_⟩
  obtain ⟨r, hr1, hr2⟩ := h2 i row hr
  refine ⟨r, hr1, ?_⟩
  rw [h, List.mapM_cons, hr2]
  rfl

theorem alone_error {α β : Type} (f : List α → Except PyErr (List β)) (rows : List α) (e : PyErr) (h : f rows = .error e) :
    ProcessedAlone f rows := by
  intro out ho
  rw [h] at ho
  cases ho

theorem alone_id {α : Type} (f : List α → Except PyErr (List α)) (rows : List α) (h : ∀ l, f l = .ok l) : ProcessedAlone f rows :=
  alone_map id f rows fun l => by rw [h, List.map_id]

/-! ### Correlations -/

/-- **C162** (lag axis) Trimming, mirroring, decimating and resampling the lag axis: each correlation becomes what it becomes alone, with the
same header. -/
theorem c162_lags (data : List (List F)) (s : LagStats) (hr : Rect data s) (a e freq : Rat) (factor : Int) (fuel : Nat)
    (filt : List F → List F) (hf : ∀ x, (filt x).length = x.length) (fft : Nat → List F → List F) :
    ProcessedAloneH (fun d => .ok (corrMatTrim d s a e)) data ∧
    ProcessedAloneH (fun d => (corrMatMirror d s).elim (.error .typeError) .ok) data ∧
    ProcessedAloneH (fun d => corrMatDecimate filt d s factor) data ∧
    ProcessedAloneH (fun d => (corrMatResampleTime fuel filt fft d s freq).getD (.error .valueError)) data := by
  have hone : ∀ (i : Nat) (row : List F), data[i]? = some row → Rect [row] s := by
    intro i row h r hr'
    rw [List.mem_singleton.1 hr']
    exact hr row (List.mem_of_getElem? h)
  refine ⟨?_, ?_, ?_, ?_⟩
  · intro out s' h
    simp only [Except.ok.injEq] at h
    have hlen := (rect_trim data s a e hr).1
    have hrect := (rect_trim data s a e hr).2
    rw [h] at hlen hrect
    refine ⟨hlen, fun i row hrow => ?_⟩
    have h1 := (rect_trim [row] s a e (hone i row hrow)).2
    unfold corrMatTrim at h h1 ⊢
    simp only at h h1 ⊢
    split
    · rename_i h2
      rw [if_pos h2] at h
      cases h
      exact ⟨row, hrow, rfl⟩
    · rename_i h2
      rw [if_neg h2] at h h1
      split
      · rename_i h3
        rw [if_pos h3] at h
        cases h
        exact ⟨row, hrow, rfl⟩
      · rename_i h3
        rw [if_neg h3] at h h1
        cases h
        refine ⟨pySlice row _ _, by rw [List.getElem?_map, hrow]; rfl, ?_⟩
        congr 2
        simp only [List.map_cons, List.map_nil, LagStats.mk.injEq, true_and, and_true]
        have := hrect (pySlice row (some ((a - s.startLag) * s.sr).floor) (some (((e - s.startLag) * s.sr).floor + 1)))
          (List.mem_map.2 ⟨row, List.mem_of_getElem? hrow, rfl⟩)
        exact this
  · intro out s' h
    unfold corrMatMirror at h ⊢
    simp only at h ⊢
    by_cases h1 : -(s.startLag * s.sr) ≤ 0
    · simp only [if_pos h1] at h ⊢
      cases h; exact ⟨rfl, fun i row hrow => ⟨row, hrow, rfl⟩⟩
    · simp only [if_neg h1] at h ⊢
      by_cases h2 : s.endLag ≤ 0
      · simp only [if_pos h2] at h ⊢
        cases h; exact ⟨rfl, fun i row hrow => ⟨row, hrow, rfl⟩⟩
      · simp only [if_neg h2] at h ⊢
        by_cases h3 : (-(s.startLag * s.sr)).den ≠ 1
        · simp only [if_pos h3] at h
          cases h
        · simp only [if_neg h3] at h ⊢
          cases h
          exact ⟨by simp, fun i row hrow => ⟨_, by rw [List.getElem?_map, hrow]; rfl, rfl⟩⟩
  · intro out s' h
    simp only at h
    obtain ⟨hlen, hrect⟩ := rect_decimate filt hf data s factor out s' hr h
    refine ⟨hlen, fun i row hrow => ?_⟩
    unfold corrMatDecimate at h ⊢
    simp only at h ⊢
    split
    · rename_i h1; rw [if_pos h1] at h; cases h
    · rename_i h1
      rw [if_neg h1] at h
      split
      · rename_i h2
        rw [if_pos h2] at h
        cases h
        exact ⟨row, hrow, rfl⟩
      · rename_i h2
        rw [if_neg h2] at h
        cases h
        have hm : (data.map filt)[i]? = some (filt row) := by rw [List.getElem?_map, hrow]; rfl
        refine ⟨(everyNth factor.toNat (filt (filt row).reverse).reverse).dropLast, by rw [List.getElem?_map, hm]; rfl, ?_⟩
        congr 2
        simp only [List.map_cons, List.map_nil, LagStats.mk.injEq, true_and, and_true]
        have := hrect (everyNth factor.toNat (filt (filt row).reverse).reverse).dropLast
          (List.mem_map.2 ⟨filt row, List.mem_map.2 ⟨row, List.mem_of_getElem? hrow, rfl⟩, rfl⟩)
        exact this
  · intro out s' h
    unfold corrMatResampleTime at h ⊢
    simp only at h ⊢
    split at h
    · cases h
    · cases h
    · cases h; exact ⟨rfl, fun i row hrow => ⟨row, hrow, rfl⟩⟩
    · cases h
      exact ⟨by simp, fun i row hrow => ⟨_, by rw [List.getElem?_map, hrow]; rfl, rfl⟩⟩

/-- **C162** (amplitudes) Normalising, clipping (each row with its own level), tapering at the ends and in the centre, filtering, and taking
the envelope: each correlation becomes what it becomes alone. -/
theorem c162_values (data : List (List ℝ)) (gaps : List (List (Option ℝ))) (dataQ : List (List Rat)) (s : LagStats)
    (starttime endtime : Option Rat) (ty : Str) (thres : ℝ) (width slope : Rat) (cosTaper : Nat → List Rat)
    (butter : Nat → List Rat → Except PyErr (List ℝ × List ℝ)) (freqs : List Rat) (order : Nat) :
    ProcessedAlone (fun d => corrMatNormalize d s starttime endtime ty) data ∧
    ProcessedAlone (fun d => .ok (corrMatClip d thres .rows)) data ∧
    ProcessedAlone (fun d => corrMatTaper d s width) gaps ∧
    ProcessedAlone (fun d => corrMatTaperCenter cosTaper d s width slope) dataQ ∧
    ProcessedAlone (fun d => corrMatFilter butter d s freqs order) gaps ∧
    ProcessedAlone (fun d => .ok (corrMatEnvelope d)) gaps := by
  refine ⟨?_, ?_, ?_, ?_, ?_, ?_⟩
  · unfold corrMatNormalize
    simp only [bind, Except.bind, pure, Except.pure]
    split
    · exact alone_map _ _ _ fun _ => rfl
    · split
      · exact alone_map _ _ _ fun _ => rfl
      · intro out ho
        simp only at ho
        split at ho
        · cases ho
        rename_i norm hn
        cases ho
        obtain ⟨h1, h2⟩ := mapM_alone _ data norm hn
        refine ⟨by simp [h1], fun i row hrow => ?_⟩
        obtain ⟨m, hm, hg⟩ := h2 i row hrow
        refine ⟨normDivide m row, by rw [List.getElem?_zipWith, hm, hrow], ?_⟩
        beta_reduce
        rw [List.mapM_cons, hg]
        rfl
  · intro out ho
    cases ho
    refine ⟨by simp [corrMatClip, clipAt], fun i row hrow => ?_⟩
    obtain ⟨hi, hrow⟩ := List.getElem?_eq_some_iff.1 hrow
    subst hrow
    refine ⟨_, by rw [corrMatClip, clipAt, List.getElem?_mapIdx, List.getElem?_eq_getElem hi]; rfl, ?_⟩
    simp [corrMatClip, clipAt, clipLevel, hi]
  · unfold corrMatTaper
    split
    · exact alone_id _ _ fun _ => rfl
    · split
      · exact alone_error _ _ _ rfl
      · simp only [bind, Except.bind]
        split
        · exact alone_error _ _ _ rfl
        · exact alone_map _ _ _ fun _ => rfl
  · unfold corrMatTaperCenter
    split
    · exact alone_id _ _ fun _ => rfl
    · split
      · exact alone_error _ _ _ rfl
      · split
        · exact alone_error _ _ _ rfl
        · exact alone_mapM _ _ _ fun _ => rfl
  · unfold corrMatFilter
    split
    · exact alone_error _ _ _ rfl
    · simp only [bind, Except.bind]
      split
      · exact alone_error _ _ _ rfl
      · exact alone_map _ _ _ fun _ => rfl
  · exact alone_map _ _ _ fun _ => rfl

theorem smoothRows_alone (w : Int) (ty : Str) (rows out : List (List ℝ)) (h : smoothRows w ty rows = (out, none)) :
    out.length = rows.length ∧ ∀ (i : Nat) (row : List ℝ), rows[i]? = some row →
      ∃ r, out[i]? = some r ∧ smoothRows w ty [row] = ([r], none) := by
  induction rows generalizing out with
  | nil => cases h; simp
  | cons x l ih =>
    rw [smoothRows] at h
    cases hx : smooth1 x w ty with
    | error e => rw [hx] at h; cases h
    | ok y =>
      rw [hx] at h
      simp only at h
      split at h
      · rename_i hl
        cases hs : smoothRows w ty l with
        | mk o err =>
        rw [hs] at h
        cases h
        obtain ⟨h1, h2⟩ := ih o hs
        refine ⟨by simp [h1], ?_⟩
        intro i row hrow
        cases i with
        | zero =>
          simp only [List.getElem?_cons_zero, Option.some.injEq] at hrow
          subst hrow
          refine ⟨y, by simp, ?_⟩
          rw [smoothRows, hx]
          simp only [if_pos hl]
          rfl
        | succ i => simpa using h2 i row (by simpa using hrow)
      · cases h

/-- **C162** (smoothing over the lags) Each correlation becomes what it becomes alone. -/
theorem c162_smooth (m : Nat) (gaps : List (List (Option ℝ))) (wsize : Int) (wtype : Str) :
    ProcessedAlone (fun d => match corrMatSmooth m d wsize wtype 0 with
      | (out, none) => .ok out
      | (_, some e) => .error e) gaps := by
  intro out ho
  simp only [corrMatSmooth, if_true] at ho
  cases hs : smoothRows wsize wtype (gaps.map fun row => row.map fun x => x.getD 0) with
  | mk o err =>
  rw [hs] at ho
  cases err with
  | some e => cases ho
  | none =>
    cases ho
    obtain ⟨h1, h2⟩ := smoothRows_alone _ _ _ _ hs
    refine ⟨by simpa using h1, fun i row hrow => ?_⟩
    obtain ⟨r, h3, h4⟩ := h2 i (row.map fun x => x.getD 0) (by rw [List.getElem?_map, hrow]; rfl)
    refine ⟨r, h3, ?_⟩
    simp only [corrMatSmooth, if_true, List.map_cons, List.map_nil]
    rw [h4]

/-- **C162** (corrections) Applying one stretch or shift for each correlation: the correlation becomes what it becomes alone with its value. -/
theorem c162_correct (spline : List ℝ → List ℝ → ℝ → ℝ) (n : Nat) (data : List (List ℝ)) (s : LagStats) (values : List ℝ)
    (gaps : List (Option ℝ)) (single : Bool) (hlen : values.length = data.length) (hgaps : gaps.length = data.length) :
    ProcessedAlone (fun d => (timeStretchApply spline n (d.map Prod.fst) (d.map Prod.snd) single).1) (data.zip values) ∧
    ProcessedAlone (fun d => timeShiftApply n (d.map Prod.fst) (.one (d.map Prod.snd)) single) (data.zip values) ∧
    ProcessedAlone (fun d => correctStretch spline s c!"stretch" (d.map Prod.fst) (.array (d.map Prod.snd))) (data.zip gaps) ∧
    (data.zip values).map Prod.fst = data ∧ (data.zip values).map Prod.snd = values ∧
    (data.zip gaps).map Prod.fst = data ∧ (data.zip gaps).map Prod.snd = gaps := by
  refine ⟨?_, ?_, ?_, List.map_fst_zip (by omega), List.map_snd_zip (by omega), List.map_fst_zip (by omega), List.map_snd_zip (by omega)⟩
  · unfold timeStretchApply
    cases cosineTaper n (1 / 20) with
    | error e => exact alone_error _ _ _ rfl
    | ok tap =>
      refine alone_map (fun p : List ℝ × ℝ => (applyIdx single n).map fun t =>
        spline (applyIdx single n) (List.zipWith (· * ·) p.1 tap) (t * Real.exp p.2)) _ _ fun l => ?_
      simp only [List.length_map, lt_irrefl, if_false, List.map_map]
      congr 1
      rw [List.zipWith_map, List.zipWith_self]
      rfl
  · unfold timeShiftApply
    refine alone_map (fun p : List ℝ × ℝ => (List.range n).map fun k : Nat => interpZero (if single then 0 else -(((n : ℝ) - 1) / 2)) p.1
      ((if single then 0 else -(((n : ℝ) - 1) / 2)) + k - p.2)) _ _ fun l => ?_
    simp only [List.length_map, List.map_map]
    congr 1
    apply List.ext_getElem
    · simp
    · intro i h1 h2
      simp only [List.length_map, List.length_range] at h1
      simp [h1]
  · unfold correctStretch
    simp only [ne_eq, not_true_eq_false, if_false]
    refine alone_map (fun p : List ℝ × Option ℝ => match p.2 with
        | some v => (stretchRow spline s p.1 (-1 * v)).map some
        | none => (lagTimes s).map fun _ => none) _ _ fun l => ?_
    simp only [List.length_map, lt_irrefl, if_false]
    congr 1
    rw [List.zipWith_map, List.zipWith_self]
    rfl

/-! ### Any sequence of steps -/

theorem getSlice_one {b : Bulk V} {i : Nat} {row : List F} (h : b.data[i]? = some row) : (b.getSlice i (i + 1)).data = [row] := by
  obtain ⟨hi, hr⟩ := List.getElem?_eq_some_iff.1 h
  simp only [Bulk.getSlice]
  rw [List.drop_take, Nat.add_sub_cancel_left, List.drop_eq_getElem_cons hi, hr]
  rfl

theorem getSlice_eq {b b' : Bulk V} {i : Nat} {r : List F} (hr : b'.data[i]? = some r)
    (h1 : b'.stats.corrStart = b.stats.corrStart) (h2 : b'.stats.corrEnd = b.stats.corrEnd) (h3 : b'.stats.location = b.stats.location)
    (h4 : b'.stats.channel = b.stats.channel) (row : List F) (hrow : b.data[i]? = some row) (base : CorrStats V) (hb : b'.stats.base = base) :
    b'.getSlice i (i + 1) = ⟨[r], { (b.getSlice i (i + 1)).stats with base := base }⟩ := by
  have e1 := getSlice_one hr
  have e2 := getSlice_one hrow
  simp only [Bulk.getSlice] at e1 e2 ⊢
  rw [e1, e2, h1, h2, h3, h4, hb]
  rfl

/-- one step -/
theorem call_alone (fuel : Nat) (filt : List F → List F) (hf : ∀ x, (filt x).length = x.length) (fft : Nat → List F → List F)
    (b b' : Bulk V) (hb : b.Consistent) (c : BulkCall) (hl : c.lagOnly = true)
    (hc : ∀ f, c = .values f → KeepsShape f ∧ ∀ s rows, ProcessedAlone (fun d => f d s) rows)
    (h : b.call fuel filt fft c = .ok b') (i : Nat) (hi : i < b.data.length) :
    (b.getSlice i (i + 1)).call fuel filt fft c = .ok (b'.getSlice i (i + 1)) := by
  obtain ⟨row, hrow⟩ : ∃ row, b.data[i]? = some row := ⟨_, List.getElem?_eq_getElem hi⟩
  have hdata := getSlice_one hrow
  have hlag : (b.getSlice i (i + 1)).stats.lag = b.stats.lag := rfl
  have hsr : (b.getSlice i (i + 1)).stats.base.samplingRate = b.stats.base.samplingRate := rfl
  obtain ⟨htrim, hmir, -, -⟩ := c162_lags b.data b.stats.lag hb.rect 0 0 0 0 fuel filt hf fft
  cases c with
  | resample _ _ => cases hl
  | slice _ _ _ => cases hl
  | getSlice _ _ => cases hl
  | selectTime _ _ _ => cases hl
  | values f =>
    simp only [Bulk.call, bind, Except.bind, pure, Except.pure] at h ⊢
    rw [hdata, hlag]
    split at h
    · cases h
    rename_i out ho
    cases h
    obtain ⟨-, h2⟩ := (hc f rfl).2 b.stats.lag b.data out ho
    obtain ⟨r, hr1, hr2⟩ := h2 i row hrow
    simp only at hr2
    rw [hr2]
    simp only
    rw [getSlice_eq (b := b) (b' := ⟨out, b.stats⟩) hr1 rfl rfl rfl rfl row hrow _ rfl]
    rfl
  | mirror =>
    simp only [Bulk.call] at h ⊢
    rw [hdata, hlag]
    cases hm : corrMatMirror b.data b.stats.lag with
    | none => rw [hm] at h; cases h
    | some p =>
      obtain ⟨out, s'⟩ := p
      rw [hm] at h
      cases h
      obtain ⟨-, h2⟩ := hmir out s' (by simp only [hm]; rfl)
      obtain ⟨r, hr1, hr2⟩ := h2 i row hrow
      cases hm1 : corrMatMirror [row] b.stats.lag with
      | none => simp only [hm1] at hr2; cases hr2
      | some q =>
        simp only [hm1] at hr2
        cases hr2
        rw [getSlice_eq (b := b) (b' := ⟨out, b.stats.setLag s'⟩) hr1 rfl rfl rfl rfl row hrow _ rfl]
        rfl
  | trim a e =>
    simp only [Bulk.call] at h ⊢
    rw [hdata, hlag]
    cases h
    obtain ⟨-, h2⟩ := (c162_lags b.data b.stats.lag hb.rect a e 0 0 fuel filt hf fft).1 _ _ rfl
    obtain ⟨r, hr1, hr2⟩ := h2 i row hrow
    simp only [Except.ok.injEq] at hr2
    rw [hr2, getSlice_eq (b := b) (b' := ⟨(corrMatTrim b.data b.stats.lag a e).1, b.stats.setLag (corrMatTrim b.data b.stats.lag a e).2⟩)
      hr1 rfl rfl rfl rfl row hrow _ rfl]
    rfl
  | resampleTimeAxis freq =>
    simp only [Bulk.call] at h ⊢
    rw [hdata, hlag, hsr]
    cases hd : decimationFactor b.stats.base.samplingRate freq with
    | some factor =>
      rw [hd] at h
      simp only [bind, Except.bind, pure, Except.pure] at h ⊢
      split at h
      · cases h
      rename_i p hp
      obtain ⟨out, s'⟩ := p
      cases h
      obtain ⟨-, h2⟩ := (c162_lags b.data b.stats.lag hb.rect 0 0 0 factor fuel filt hf fft).2.2.1 out s' hp
      obtain ⟨r, hr1, hr2⟩ := h2 i row hrow
      simp only at hr2
      rw [hr2]
      simp only
      rw [getSlice_eq (b := b) (b' := ⟨out, b.stats.setLag s'⟩) hr1 rfl rfl rfl rfl row hrow _ rfl]
      rfl
    | none =>
      rw [hd] at h
      simp only at h ⊢
      cases hm : corrMatResampleTime fuel filt fft b.data b.stats.lag freq with
      | none =>
        rw [hm] at h
        cases h
        have : corrMatResampleTime fuel filt fft [row] b.stats.lag freq = none := by
          unfold corrMatResampleTime at hm ⊢
          split at hm <;> first | rfl | cases hm
        rw [this]
      | some p =>
        rw [hm] at h
        cases p with
        | error e => cases h
        | ok p =>
          obtain ⟨out, s'⟩ := p
          cases h
          obtain ⟨-, h2⟩ := (c162_lags b.data b.stats.lag hb.rect 0 0 freq 0 fuel filt hf fft).2.2.2 out s' (by simp only [hm]; rfl)
          obtain ⟨r, hr1, hr2⟩ := h2 i row hrow
          cases hm1 : corrMatResampleTime fuel filt fft [row] b.stats.lag freq with
          | none => simp only [hm1] at hr2; cases hr2
          | some q =>
            simp only [hm1, Option.getD_some] at hr2
            subst hr2
            simp only
            rw [getSlice_eq (b := b) (b' := ⟨out, b.stats.setLag s'⟩) hr1 rfl rfl rfl rfl row hrow _ rfl]
            rfl

/-- **C162** (any sequence) After any sequence of processing steps that all succeed, correlation `i` of the bulk is what the same steps make
of a bulk with correlation `i` only, with the same header. -/
theorem c162_calls (fuel : Nat) (filt : List F → List F) (hf : ∀ x, (filt x).length = x.length) (fft : Nat → List F → List F)
    (hfft : ∀ n x, (fft n x).length = n) (b b' : Bulk V) (hb : b.Consistent) (cs : List BulkCall) (hl : ∀ c ∈ cs, c.lagOnly = true)
    (hc : ∀ f, .values f ∈ cs → KeepsShape f ∧ ∀ s rows, ProcessedAlone (fun d => f d s) rows)
    (h : cs.foldlM (fun b c => b.call fuel filt fft c) b = .ok b') (i : Nat) (hi : i < b.data.length) :
    cs.foldlM (fun b c => b.call fuel filt fft c) (b.getSlice i (i + 1)) = .ok (b'.getSlice i (i + 1)) := by
  induction cs generalizing b with
  | nil => cases h; rfl
  | cons c cs ih =>
    rw [List.foldlM_cons] at h ⊢
    cases hstep : b.call fuel filt fft c with
    | error e => rw [hstep] at h; cases h
    | ok b1 =>
      rw [hstep] at h
      rw [call_alone fuel filt hf fft b b1 hb c (hl c (by simp)) (fun f hf' => hc f (by simp [hf'])) hstep i hi]
      obtain ⟨h1, -, h2⟩ := call_consistent fuel filt hf fft hfft b b1 hb c (fun f hf' => (hc f (by simp [hf'])).1) hstep
      exact ih b1 h1 (fun c' hc' => hl c' (by simp [hc'])) (fun f hf' => hc f (by simp [hf'])) h
        (by rw [(h2 (hl c (by simp))).1]; exact hi)

/-! ### Measurements -/

theorem windows_alone {α β γ : Type} (tw : List γ) (mask : γ → Except PyErr β) (g : β → α → Except PyErr V) (rows : List α) :
    MeasuredAlone (fun d => tw.mapM fun w => do
      let m ← mask w
      d.mapM (g m)) rows := by
  intro out ho
  simp only at ho ⊢
  induction tw generalizing out with
  | nil => cases ho; exact ⟨by simp, fun _ _ _ => rfl⟩
  | cons w tw ih =>
    rw [List.mapM_cons] at ho
    cases hm : mask w with
    | error e => rw [hm] at ho; cases ho
    | ok m =>
      rw [hm] at ho
      simp only [bind, Except.bind] at ho
      cases hv : rows.mapM (g m) with
      | error e => rw [hv] at ho; cases ho
      | ok vals =>
        rw [hv] at ho
        simp only at ho
        split at ho
        · cases ho
        rename_i rest hrest
        cases ho
        obtain ⟨h1, h2⟩ := mapM_alone _ _ _ hv
        obtain ⟨h3, h4⟩ := ih rest hrest
        refine ⟨?_, fun i row hrow => ?_⟩
        · intro v hv
          rcases List.mem_cons.1 hv with rfl | hv
          · exact h1
          · exact h3 v hv
        · obtain ⟨r, hr1, hr2⟩ := h2 i row hrow
          have h5 := h4 i row hrow
          have hd : (vals.drop i).take 1 = [r] := by
            obtain ⟨hi, hr⟩ := List.getElem?_eq_some_iff.1 hr1
            rw [List.drop_eq_getElem_cons hi, hr]
            rfl
          rw [List.mapM_cons, hm, List.map_cons, hd]
          simp only [bind, Except.bind] at h5 ⊢
          rw [List.mapM_cons, hr2]
          simp only [bind, Except.bind, List.mapM_nil, pure, Except.pure] at h5 ⊢
          rw [h5]

/-- **C162** (measurements) Comparing correlations with given references (stretching, shifting or the waveform coherence): the values of each
correlation are those that are measured for it alone. -/
theorem c162_measure (n nref : Nat) (gaps : List (List (Option ℝ))) (tw : List (List Int)) (strref : List (List ℝ)) (strvec refcorr : List ℝ)
    (sides : Str) (removeNans : Bool) :
    MeasuredAlone (fun d => velocityChange n nref d tw strref strvec sides removeNans) gaps ∧
    MeasuredAlone (fun d => computeWfc n d tw refcorr sides removeNans) gaps := by
  constructor
  · unfold velocityChange
    split
    · intro out ho; cases ho
    · have := windows_alone tw (fun ctw => do
        let idx ← windowIdx sides n ctw
        let mask ← maskOf n idx
        if strvec.length ≠ strref.length ∧ strref.length ≠ 1 then .error .valueError
        pure mask) (fun mask row => bestMatch strvec (simRow removeNans mask strref row)) gaps
      convert this using 4
      simp only [bind, Except.bind, pure, Except.pure]
      cases windowIdx sides n _ with
      | error e => rfl
      | ok idx =>
        simp only
        cases maskOf n idx with
        | error e => rfl
        | ok mask =>
          simp only
          split <;> rfl
  · unfold computeWfc
    split
    · intro out ho; cases ho
    · have := windows_alone tw (fun ctw => do
        let idx ← windowIdx sides n ctw
        maskOf n idx) (fun mask row => .ok (match rowVals removeNans row with
          | none => none
          | some f => similarity (maskMul mask f) (maskMul mask refcorr))) gaps
      convert this using 4
      simp only [bind, Except.bind, pure, Except.pure]
      cases windowIdx sides n _ with
      | error e => rfl
      | ok idx =>
        simp only
        cases maskOf n idx with
        | error e => rfl
        | ok mask =>
          simp only
          rename_i d _
          induction d with
          | nil => rfl
          | cons x l ih => rw [List.mapM_cons, ← ih]; rfl

theorem trim_rows {α : Type} (s : LagStats) (a e : Rat) :
    ∃ (g : List α → List α) (s' : LagStats), ∀ data : List (List α), data ≠ [] → Rect data s → corrMatTrim data s a e = (data.map g, s') := by
  by_cases h1 : ((a - s.startLag) * s.sr).floor < 0
  · exact ⟨id, s, fun data _ _ => by unfold corrMatTrim; simp only [if_pos h1, List.map_id]⟩
  by_cases h2 : ((e - s.startLag) * s.sr).floor ≥ s.npts
  · exact ⟨id, s, fun data _ _ => by unfold corrMatTrim; simp only [if_neg h1, if_pos h2, List.map_id]⟩
  refine ⟨fun row => pySlice row (some ((a - s.startLag) * s.sr).floor) (some (((e - s.startLag) * s.sr).floor + 1)),
    { s with
      npts := (pySlice (List.replicate s.npts ()) (some ((a - s.startLag) * s.sr).floor) (some (((e - s.startLag) * s.sr).floor + 1))).length
      startLag := a }, ?_⟩
  intro data hne hr
  cases data with
  | nil => exact absurd rfl hne
  | cons row data =>
    unfold corrMatTrim
    simp only [if_neg h1, if_neg h2, List.map_cons]
    congr 2
    have : (List.replicate s.npts ()) = row.map fun _ => () := by
      rw [← hr row (by simp)]
      exact (List.map_const' ..).symm
    rw [this, pySlice_map, List.length_map]

theorem measured_map {α β γ : Type} (f : List β → Except PyErr (List (List γ))) (g : α → β) (rows : List α)
    (h : MeasuredAlone f (rows.map g)) : MeasuredAlone (fun d => f (d.map g)) rows := by
  intro out ho
  obtain ⟨h1, h2⟩ := h out ho
  exact ⟨fun v hv => by rw [h1 v hv, List.length_map], fun i row hrow => h2 i (g row) (by rw [List.getElem?_map, hrow]; rfl)⟩

/-- **C162** (whole measurements) Measuring the stretch or the clock shift of correlations against a given reference: the value and the similarity of
each correlation are those that are measured for it alone. -/
theorem c162_reference (spline : List ℝ → List ℝ → ℝ → ℝ) (data : List (List ℝ)) (s : LagStats) (hr : Rect data s) (ref : List ℝ)
    (tw : Option (List (List Int))) (range : ℝ) (steps : Nat) (sides : Str) (refStats : Option LagStats) (hne : data ≠ []) :
    MeasuredAlone (fun d => corrMatStretch spline d s (some ref) tw range steps sides refStats) data ∧
    MeasuredAlone (fun d => corrMatShift spline d s (some ref) tw range steps sides) data := by
  have hone : ∀ (i : Nat) (row : List ℝ), data[i]? = some row → Rect [row] s := by
    intro i row h r hr'
    rw [List.mem_singleton.1 hr']
    exact hr row (List.mem_of_getElem? h)
  have lift : ∀ (f f' : List (List ℝ) → Except PyErr (List (List (Option ℝ × Option ℝ)))), (∀ d, d ≠ [] → Rect d s → f d = f' d) →
      MeasuredAlone f' data → MeasuredAlone f data := by
    intro f f' heq h out ho
    rw [heq data hne hr] at ho
    obtain ⟨h1, h2⟩ := h out ho
    refine ⟨h1, fun i row hrow => ?_⟩
    rw [heq [row] (by simp) (hone i row hrow)]
    exact h2 i row hrow
  constructor
  · obtain ⟨g, s', hg⟩ : ∃ (g : List ℝ → List ℝ) (s' : LagStats), ∀ d, d ≠ [] → Rect d s → stretchTrim d s sides = (d.map g, s') := by
      unfold stretchTrim
      split
      · exact trim_rows s 0 s.endLag
      · exact trim_rows s _ _
    refine lift _ (fun d => do
      let w ← usedWindows sides s'.npts tw
      timeStretch spline s'.npts (d.map g) ref w range steps sides
        (if sides = c!"single" then (0, s.endLag) else (-(min (-s.startLag) s.endLag), min (-s.startLag) s.endLag)) (refStats.getD s')) ?_ ?_
    · intro d hd1 hd2
      unfold corrMatStretch
      simp only [hg d hd1 hd2]
      rfl
    · simp only [bind, Except.bind]
      cases usedWindows sides s'.npts tw with
      | error e => intro out ho; cases ho
      | ok w =>
        simp only [timeStretch, List.map_map]
        exact measured_map (fun d => velocityChange _ _ d _ _ _ _ _) _ _ (c162_measure _ _ _ _ _ _ [] _ _).1
  · unfold corrMatShift
    simp only
    by_cases hl : ref.length ≠ s.npts
    · simp only [if_pos hl]
      intro out ho; cases ho
    · simp only [if_neg hl]
      rw [not_not] at hl
      obtain ⟨g, s', hg⟩ : ∃ (g : List ℝ → List ℝ) (s' : LagStats), ∀ d, d ≠ [] → Rect d s → shiftTrim d s sides =
          (if sides = c!"both" ∨ sides = c!"right" ∨ sides = c!"single" then .ok (d.map g) else .error .valueError, s') := by
        unfold shiftTrim
        simp only
        by_cases hx : sides = c!"single" ∨ sides = c!"right"
        · obtain ⟨g, s', h⟩ := trim_rows (α := ℝ) s 0 s.endLag
          exact ⟨g, s', fun d h1 h2 => by rw [if_pos hx, h d h1 h2]⟩
        · obtain ⟨g, s', h⟩ := trim_rows (α := ℝ) s (-(min (-s.startLag) s.endLag)) (min (-s.startLag) s.endLag)
          exact ⟨g, s', fun d h1 h2 => by rw [if_neg hx, h d h1 h2]⟩
      by_cases hs : sides = c!"both" ∨ sides = c!"right" ∨ sides = c!"single"
      · simp only [if_pos hs] at hg
        refine lift _ (fun d => timeShiftEstimate spline s'.npts (d.map g) (g ref) tw range steps (decide (sides ≠ c!"both"))) ?_ ?_
        · intro d hd1 hd2
          have : Rect (d ++ [ref]) s := by
            intro row hrow
            rcases List.mem_append.1 hrow with h | h
            · exact hd2 row h
            · rw [List.mem_singleton.1 h]; exact hl
          simp only [hg (d ++ [ref]) (by simp) this, bind, Except.bind, List.map_append, List.map_cons, List.map_nil, List.dropLast_concat,
            List.getLastD_concat]
        · unfold timeShiftEstimate
          simp only [bind, Except.bind]
          have hv : ∀ w : List (List Int), MeasuredAlone (fun d : List (List ℝ) => velocityChange s'.npts (g ref).length
              ((d.map g).map fun row => row.map some) w (delayedRefs spline (g ref) (decide (sides ≠ c!"both")) (linspaceR (-range) range steps))
              (linspaceR (-range) range steps) (if decide (sides ≠ c!"both") = true then c!"single" else c!"both") true) data := by
            intro w
            simp only [List.map_map]
            exact measured_map (fun d => velocityChange _ _ d _ _ _ _ _) _ _ (c162_measure _ _ _ _ _ _ [] _ _).1
          cases tw with
          | some w => exact hv w
          | none =>
            simp only
            cases defaultWindow (if decide (sides ≠ c!"both") = true then c!"single" else c!"both") s'.npts with
            | error e => intro out ho; cases ho
            | ok w => exact hv w
      · simp only [if_neg hs] at hg
        refine lift _ (fun _ => .error .valueError) ?_ ?_
        · intro d hd1 hd2
          have : Rect (d ++ [ref]) s := by
            intro row hrow
            rcases List.mem_append.1 hrow with h | h
            · exact hd2 row h
            · rw [List.mem_singleton.1 h]; exact hl
          simp only [hg (d ++ [ref]) (by simp) this]
          rfl
        · intro out ho; cases ho

/-! ### Waveforms -/

/-- **C162** (preprocessing in the time domain) Muting, the running normalisation, clipping, one-bit normalisation and normalisation by the
standard deviation treat every trace as if it were alone. -/
theorem c162_td (filt : List ℝ → List ℝ) (A : List (List ℝ)) (gaps : List (List (Option ℝ))) (npts : Nat) (sr windowLength : Rat)
    (args : MuteArgs) (factor : ℝ) :
    ProcessedAlone (fun d => mute filt d npts sr args) A ∧
    ProcessedAlone (fun d => tdNormalization filt npts sr windowLength d) gaps ∧
    ProcessedAlone (fun d => .ok (d.map (tdClip factor))) gaps ∧
    ProcessedAlone (fun d => .ok (d.map signBit)) A ∧
    ProcessedAlone (fun d => .ok (d.map normalizeStd)) A := by
  refine ⟨?_, ?_, alone_map _ _ _ fun _ => rfl, alone_map _ _ _ fun _ => rfl, alone_map _ _ _ fun _ => rfl⟩
  · unfold mute
    split
    · exact alone_error _ _ _ rfl
    · simp only
      split
      · exact alone_map _ _ _ fun _ => rfl
      · split
        · exact alone_error _ _ _ rfl
        · exact alone_map _ _ _ fun _ => rfl
  · intro out ho
    unfold tdNormalization at ho ⊢
    simp only at ho ⊢
    split at ho
    · cases ho
    · rename_i h1
      split at ho
      · cases ho
      · rename_i h2
        cases ho
        refine ⟨by simp, fun i row hrow => ⟨_, by rw [List.getElem?_map, hrow]; rfl, ?_⟩⟩
        rw [if_neg h1, if_neg]
        · rfl
        · rintro ⟨h3, -⟩
          exact h2 ⟨h3, fun h => by rw [h] at hrow; cases hrow⟩

/-! ### the conditions are met, and where correlations do influence each other -/

/-- a sequence of steps on `bulk23`; the second correlation alone -/
example : ∃ b' : Bulk Nat, [BulkCall.mirror, .values (fun d _ => .ok (d.map fun row => row.map fun x => x.map (· * 2))), .trim 0 (1 / 2)].foldlM
      (fun b c => b.call 0 id (fun n _ => List.replicate n none) c) bulk23 = .ok b' ∧ b'.data = [[some 4], [some 10]] ∧
    [BulkCall.mirror, .values (fun d _ => .ok (d.map fun row => row.map fun x => x.map (· * 2))), .trim 0 (1 / 2)].foldlM
      (fun b c => b.call 0 id (fun n _ => List.replicate n none) c) (bulk23.getSlice 1 2) = .ok (b'.getSlice 1 2) :=
  ⟨bulk23.calls 0 id (fun n _ => List.replicate n none) [.mirror, .values (fun d _ => .ok (d.map fun row => row.map fun x => x.map (· * 2))),
    .trim 0 (1 / 2)], by decide +kernel, by decide +kernel, by decide +kernel⟩

/-- the step in it meets the condition of `c162_calls` -/
example : KeepsShape (fun (d : List (List F)) (_ : LagStats) => .ok (d.map fun row => row.map fun x => x.map (· * 2))) ∧
    ∀ (s : LagStats) (rows : List (List F)),
      ProcessedAlone (fun d => (fun (d : List (List F)) (_ : LagStats) => .ok (d.map fun row => row.map fun x => x.map (· * 2))) d s) rows := by
  refine ⟨?_, fun s rows => alone_map _ _ _ fun _ => rfl⟩
  intro data s out hr h
  cases h
  refine ⟨by simp, fun row hrow => ?_⟩
  obtain ⟨r, hr', rfl⟩ := List.mem_map.1 hrow
  simpa using hr r hr'

/-- two correlations with three samples meet the conditions of `c162_reference` and, with two values, of `c162_correct` -/
example : Rect [[1, -2, 0], [0, 0, (3 : ℝ)]] ⟨-1, 3, 1⟩ ∧ [[1, -2, 0], [0, 0, (3 : ℝ)]] ≠ [] ∧
    [(1 : ℝ), 2].length = [[1, -2, 0], [0, 0, (3 : ℝ)]].length ∧ [some (1 : ℝ), none].length = [[1, -2, 0], [0, 0, (3 : ℝ)]].length := by
  refine ⟨?_, by simp, rfl, rfl⟩
  intro row h
  simp only [List.mem_cons, List.not_mem_nil, or_false] at h
  rcases h with rfl | rfl <;> rfl

/-- With one level for all correlations, the others have an influence: alone, this one is clipped to zero. -/
example : ¬ ProcessedAlone (fun d => .ok (corrMatClip d (1 / 2) .all)) [[(1 : ℝ)], [-1]] := by
  intro h
  obtain ⟨-, h2⟩ := h _ rfl
  obtain ⟨r, h3, h4⟩ := h2 0 [1] rfl
  have e1 : stdR [(1 : ℝ), -1] = 1 := by norm_num [stdR, meanR]
  have e2 : stdR [(1 : ℝ)] = 0 := by norm_num [stdR, meanR]
  have h5 : corrMatClip [[(1 : ℝ)], [-1]] (1 / 2) .all = [[1 / 2], [-1 / 2]] := by
    norm_num [corrMatClip, clipAt, clipLevel, e1, npClip]
  have h6 : corrMatClip [[(1 : ℝ)]] (1 / 2) .all = [[0]] := by
    norm_num [corrMatClip, clipAt, clipLevel, e2, npClip]
  rw [h5] at h3
  simp only [h6, Except.ok.injEq, List.cons.injEq, and_true] at h4
  simp only [List.getElem?_cons_zero, Option.some.injEq] at h3
  rw [← h3] at h4
  norm_num at h4

/-- Whitening is done for all traces or for none. -/
example : ¬ ProcessedAlone (fun d => spectralWhitening false d) [[1, 5], [0, 0]] := by
  intro h
  obtain ⟨-, h2⟩ := h _ c77_block_violated.2
  obtain ⟨r, h3, h4⟩ := h2 0 [1, 5] rfl
  simp only at h4
  rw [c77_block_violated.1] at h4
  simp only [List.getElem?_cons_zero, Option.some.injEq] at h3
  rw [← h3] at h4
  norm_num at h4

end SeisMIC
