import Verif.Model.BulkOps
import Verif.Spec.PostCorr
import Verif.Props.Bulk
import Mathlib.Tactic.SplitIfs

/-!
# C147: header and data of a bulk fit together after any sequence of calls
-/

namespace SeisMIC

variable {V : Type}

/-! ### Specification -/

/-- the header describes the matrix: one start and end time for each row, as many samples in each row as the header says, and the lag
axis ends after these samples -/
structure Bulk.Consistent (b : Bulk V) : Prop where
  start : b.stats.corrStart.length = b.data.length
  stop : b.stats.corrEnd.length = b.data.length
  npts : 0 ≤ b.stats.base.npts
  rows : ∀ row ∈ b.data, (row.length : Int) = b.stats.base.npts
  endLag : b.stats.base.endLag = b.stats.base.startLag +
    (if b.stats.base.npts = 0 then 0 else ((b.stats.base.npts - 1 : Int) : Rat) * b.stats.base.delta)
  delta : b.stats.base.delta = if b.stats.base.samplingRate = 0 then 0 else 1 / b.stats.base.samplingRate

/-- the codes have one entry for each row, too, and the number of traces is that of the rows -/
def Bulk.Described (b : Bulk V) : Prop := b.Aligned ∧ b.stats.ntrcs = b.data.length

/-- a function of a matrix keeps the number of rows and columns -/
def KeepsShape {α β : Type} (f : List (List α) → LagStats → Except PyErr (List (List β))) : Prop :=
  ∀ data s out, Rect data s → f data s = .ok out → out.length = data.length ∧ Rect out s

/-- all calls of methods that only replace samples keep the shape -/
def ShapeCalls (cs : List BulkCall) : Prop := ∀ f, BulkCall.values f ∈ cs → KeepsShape f

/-- in-place methods that leave the axis of the times alone -/
def BulkCall.lagOnly : BulkCall → Bool
  | .values _ | .mirror | .trim _ _ | .resampleTimeAxis _ => true
  | _ => false

/-- calls after which the codes are right -/
def BulkCall.keepsCodes : BulkCall → Bool
  | .resample _ _ | .slice _ _ _ => false
  | _ => true

/-! ### Lemmas -/

theorem Bulk.Consistent.rect {b : Bulk V} (h : b.Consistent) : Rect b.data b.stats.lag := by
  intro row hr
  have := h.rows row hr
  show row.length = b.stats.base.npts.toNat
  omega

theorem consistent_setLag (b : Bulk V) (data : List (List F)) (l : LagStats) (h1 : b.stats.corrStart.length = data.length)
    (h2 : b.stats.corrEnd.length = data.length) (hr : Rect data l) : (⟨data, b.stats.setLag l⟩ : Bulk V).Consistent where
  start := h1
  stop := h2
  npts := by simp [BulkStats.setLag, CorrStats.refresh]
  rows := by
    intro row hrow
    have := hr row hrow
    simp [BulkStats.setLag, CorrStats.refresh, this]
  endLag := by simp [BulkStats.setLag, CorrStats.refresh]
  delta := by simp [BulkStats.setLag, CorrStats.refresh]

theorem rect_trim {α : Type} (data : List (List α)) (s : LagStats) (a e : Rat) (h : Rect data s) :
    (corrMatTrim data s a e).1.length = data.length ∧ Rect (corrMatTrim data s a e).1 (corrMatTrim data s a e).2 := by
  unfold corrMatTrim
  dsimp only
  by_cases h1 : ((a - s.startLag) * s.sr).floor < 0
  · rw [if_pos h1]
    exact ⟨rfl, h⟩
  rw [if_neg h1]
  by_cases h2 : ((e - s.startLag) * s.sr).floor ≥ (s.npts : Int)
  · rw [if_pos h2]
    exact ⟨rfl, h⟩
  rw [if_neg h2]
  refine ⟨by simp, ?_⟩
  intro row hrow
  obtain ⟨r, hr, rfl⟩ := List.mem_map.1 hrow
  cases data with
  | nil => cases hr
  | cons r0 rest =>
    have e0 := h r0 (by simp)
    have e1 := h r hr
    simp only [List.map_cons]
    simp only [pySlice, List.length_take, List.length_drop, e0, e1]

theorem rect_mirror (data : List (List F)) (s : LagStats) (out : List (List F)) (s' : LagStats) (h : Rect data s)
    (he : corrMatMirror data s = some (out, s')) : out.length = data.length ∧ Rect out s' := by
  unfold corrMatMirror at he
  dsimp only at he
  split_ifs at he
  · cases he
    exact ⟨rfl, h⟩
  · cases he
    exact ⟨rfl, h⟩
  · cases he
    refine ⟨by simp, ?_⟩
    intro row hrow
    obtain ⟨r, -, rfl⟩ := List.mem_map.1 hrow
    simp [mirrorRow]

theorem everyNth_length {α β : Type} (f : Nat) (l : List α) (l' : List β) (h : l.length = l'.length) :
    (everyNth f l).length = (everyNth f l').length := by
  unfold everyNth
  rw [h]
  induction List.range ((l'.length + f - 1) / f) with
  | nil => rfl
  | cons i is ih =>
    by_cases hi : i * f < l'.length
    · have h1 : l[i * f]? = some l[i * f] := List.getElem?_eq_getElem _
      have h2 : l'[i * f]? = some l'[i * f] := List.getElem?_eq_getElem _
      simp only [List.filterMap_cons, h1, h2, List.length_cons, ih]
    · have h1 : l[i * f]? = none := List.getElem?_eq_none (by omega)
      have h2 : l'[i * f]? = none := List.getElem?_eq_none (by omega)
      simp only [List.filterMap_cons, h1, h2, ih]

theorem rect_decimate {α : Type} (filt : List α → List α) (hf : ∀ x, (filt x).length = x.length) (data : List (List α)) (s : LagStats)
    (factor : Int) (out : List (List α)) (s' : LagStats) (h : Rect data s) (he : corrMatDecimate filt data s factor = .ok (out, s')) :
    out.length = data.length ∧ Rect out s' := by
  unfold corrMatDecimate at he
  by_cases h1 : factor < 1
  · rw [if_pos h1] at he
    cases he
  rw [if_neg h1] at he
  by_cases h2 : factor = 1
  · rw [if_pos h2] at he
    cases he
    exact ⟨rfl, h⟩
  rw [if_neg h2] at he
  dsimp only at he
  cases he
  refine ⟨by simp, ?_⟩
  intro row hrow
  rw [List.map_map] at hrow ⊢
  obtain ⟨r, hr, rfl⟩ := List.mem_map.1 hrow
  cases data with
  | nil => cases hr
  | cons r0 rest =>
    have e0 := h r0 (by simp)
    have e1 := h r hr
    simp only [List.map_cons, Function.comp_apply, List.length_dropLast]
    congr 1
    apply everyNth_length
    simp [hf, e0, e1]

theorem rect_resampleTime (fuel : Nat) (filt : List F → List F) (fft : Nat → List F → List F) (hfft : ∀ n x, (fft n x).length = n)
    (data : List (List F)) (s : LagStats) (freq : Rat) (out : List (List F)) (s' : LagStats) (h : Rect data s)
    (he : corrMatResampleTime fuel filt fft data s freq = some (.ok (out, s'))) : out.length = data.length ∧ Rect out s' := by
  unfold corrMatResampleTime at he
  split at he
  · cases he
  · cases he
  · cases he
    exact ⟨rfl, h⟩
  · rename_i zeros len num hp
    cases he
    refine ⟨by simp, ?_⟩
    have hlen : num ≤ len := by
      unfold resampleTimePlan at hp
      by_cases h1 : freq > s.sr
      · rw [if_pos h1] at hp
        cases hp
      rw [if_neg h1] at hp
      by_cases h2 : freq = s.sr
      · rw [if_pos h2] at hp
        cases hp
      rw [if_neg h2] at hp
      dsimp only at hp
      split at hp
      · cases hp
      · cases hp
      · cases hp
        omega
    intro row hrow
    obtain ⟨r, -, rfl⟩ := List.mem_map.1 hrow
    simp [hfft, hlen]

theorem resample_lengths (m : Nat) (data : List (List F)) (otime oend st en : List Int) (r : List (List F) × List Int × List Int)
    (h : corrMatResample m data otime oend st en = .ok r) (hd : ∀ row ∈ data, row.length = m) :
    r.2.1.length = r.1.length ∧ r.2.2.length = r.1.length ∧ ∀ row ∈ r.1, row.length = m := by
  have hrow : ∀ s e, (resampleBin m data otime s e).length = m := by
    intro s e
    unfold resampleBin
    dsimp only
    split
    · simp
    · rename_i row heq
      have : row ∈ ((otime.zip data).filter fun td => decide (s ≤ td.1) && decide (td.1 < e)).map Prod.snd := by
        rw [heq]
        simp
      obtain ⟨x, hx, rfl⟩ := List.mem_map.1 this
      exact hd _ (List.of_mem_zip (List.mem_filter.1 hx).1).2
    · simp
  have hfin : ∀ etime : List Int, etime.length = st.length →
      (pure ((st.zip etime).map (fun b => resampleBin m data otime b.1 b.2), st, etime) : Except PyErr _) = .ok r →
      r.2.1.length = r.1.length ∧ r.2.2.length = r.1.length ∧ ∀ row ∈ r.1, row.length = m := by
    intro etime hl hr
    cases hr
    refine ⟨by simp [hl], by simp [hl], ?_⟩
    intro row hrow'
    obtain ⟨x, -, rfl⟩ := List.mem_map.1 hrow'
    exact hrow _ _
  unfold corrMatResample at h
  by_cases hc : en ≠ [] ∧ en.length ≠ st.length
  · rw [if_pos hc] at h
    cases h
  rw [if_neg hc] at h
  have hen : en ≠ [] → en.length = st.length := fun h1 => by
    by_contra h2
    exact hc ⟨h1, h2⟩
  cases st with
  | nil => cases h
  | cons s0 st =>
    cases st with
    | nil =>
      by_cases he : en ≠ []
      · simp only [if_pos he] at h
        exact hfin en (hen he) h
      · simp only [if_neg he] at h
        cases hg : oend.getLast? with
        | none =>
          rw [hg] at h
          cases h
        | some e =>
          rw [hg] at h
          exact hfin [e] rfl h
    | cons s1 st =>
      by_cases he : en ≠ []
      · simp only [if_pos he] at h
        exact hfin en (hen he) h
      · simp only [if_neg he] at h
        exact hfin _ (by simp) h

theorem mem_selectBool {α : Type} (ii : List Bool) (l : List α) (x : α) (h : x ∈ selectBool ii l) : x ∈ l := by
  unfold selectBool at h
  obtain ⟨p, hp, hx⟩ := List.mem_filterMap.1 h
  split_ifs at hx
  cases hx
  exact (List.of_mem_zip hp).2

/-- what `create_corr_bulk` makes of well-formed traces -/
theorem createBulk_facts (st : List (CTr V)) (hst : ∀ tr ∈ st, tr.Wf) (vc : Bool) (b : Bulk V) (h : createBulk st none vc = .ok b) :
    b.Consistent ∧ b.Described := by
  unfold createBulk at h
  dsimp only at h
  cases st with
  | nil => cases h
  | cons first rest =>
    dsimp only at h
    split_ifs at h with hall
    have hfirst : first ∈ (first :: rest).filter fun tr => tr.stats.samplingRate = first.stats.samplingRate := by simp
    generalize hsel : ((first :: rest).filter fun tr => tr.stats.samplingRate = first.stats.samplingRate) = sel at h hall hfirst
    have hsel0 : ∃ rest', sel = first :: rest' := by
      rw [← hsel]
      exact ⟨rest.filter fun tr => tr.stats.samplingRate = first.stats.samplingRate, by simp⟩
    obtain ⟨rest', hrest⟩ := hsel0
    subst hrest
    cases hcs : convertStatlist (((first :: rest').map fun tr => tr.stats)) vc with
    | error e =>
      rw [hcs] at h
      cases h
    | ok bs =>
      rw [hcs] at h
      cases h
      obtain ⟨f1, f2, f3, f4, f5, f6⟩ := c31_fields _ _ _ _ hcs
      obtain ⟨w1, w2⟩ := hst first (by simp)
      rw [List.all_eq_true] at hall
      refine ⟨⟨?_, ?_, ?_, ?_, ?_, ?_⟩, ⟨?_, ?_, ?_, ?_⟩, ?_⟩
      · simp [f1]
      · simp [f2]
      · show 0 ≤ bs.base.npts
        rw [f5, w1]
        omega
      · intro row hrow
        obtain ⟨tr, ht, rfl⟩ := List.mem_map.1 hrow
        have := hall tr ht
        simp only [decide_eq_true_eq] at this
        show _ = bs.base.npts
        rw [this, f5]
      · show bs.base.endLag = _
        rw [f5]
        show first.stats.endLag = first.stats.startLag +
          (if first.stats.npts = 0 then 0 else ((first.stats.npts - 1 : Int) : Rat) * first.stats.delta)
        rw [← w2]
        simp [CorrStats.refresh]
      · show bs.base.delta = _
        rw [f5]
        show first.stats.delta = if first.stats.samplingRate = 0 then 0 else 1 / first.stats.samplingRate
        rw [← w2]
        simp [CorrStats.refresh]
      · simp [f1]
      · simp [f2]
      · simp [f3]
      · intro l hl
        rw [f4] at hl
        split_ifs at hl
        cases hl
        simp
      · simp [f6]

theorem createStream_wf (b : Bulk V) (st : List (CTr V)) (h : createStream b = .ok st) : ∀ tr ∈ st, tr.Wf := by
  unfold createStream at h
  intro tr ht
  have key : ∀ (l : List (List F × Nat)) (out : List (CTr V)), (l.mapM fun x : List F × Nat =>
      match b.stats.row x.2 with
      | some s => (.ok ⟨{ s with npts := x.1.length }.refresh, x.1⟩ : Except PyErr (CTr V))
      | none => .error .indexError) = .ok out → ∀ tr ∈ out, tr.Wf := by
    intro l
    induction l with
    | nil =>
      intro out h
      cases h
      simp
    | cons x l ih =>
      intro out h
      rw [List.mapM_cons] at h
      cases hr : b.stats.row x.2 with
      | none =>
        simp only [hr] at h
        cases h
      | some s =>
        simp only [hr] at h
        generalize hm : (l.mapM fun x : List F × Nat =>
          match b.stats.row x.2 with
          | some s => (.ok ⟨{ s with npts := x.1.length }.refresh, x.1⟩ : Except PyErr (CTr V))
          | none => .error .indexError) = r at h
        cases r with
        | error e => cases h
        | ok out' =>
          cases h
          intro tr ht
          rcases List.mem_cons.1 ht with rfl | ht
          · exact ⟨rfl, rfl⟩
          · exact ih out' hm tr ht
  exact key _ _ h tr ht

theorem mem_selectCorrTime' (st : List (CTr V)) (s e : Int) (p : Bool) (tr : CTr V) (h : tr ∈ selectCorrTime st s e p) : tr ∈ st := by
  unfold selectCorrTime at h
  dsimp only at h
  split_ifs at h
  · exact mem_isort.1 (List.mem_filter.1 h).1
  · exact mem_isort.1 (List.mem_filter.1 h).1

theorem createStream_rows (b : Bulk V) (h : b.Aligned) :
    ∃ st, createStream b = .ok st ∧ st.map CTr.row = b.rows ∧ ∀ tr ∈ st, tr.Wf := by
  have hex : ∀ i, ∃ tr : CTr V, i < b.data.length → b.getItem i = .ok tr ∧ b.rows[i]? = some tr.row ∧ tr.Wf := by
    intro i
    by_cases hi : i < b.data.length
    · obtain ⟨tr, htr⟩ := c32_item b h i hi
      exact ⟨tr, fun _ => htr⟩
    · exact ⟨⟨.default, []⟩, fun h => absurd h hi⟩
  choose g hg using hex
  refine ⟨(List.range b.data.length).map g, ?_, ?_, ?_⟩
  · unfold createStream
    apply mapM_zipIdx_ok
    intro i hi
    have := (hg i hi).1
    unfold Bulk.getItem at this
    rw [List.getElem?_eq_getElem hi] at this
    cases hr : b.stats.row i with
    | none =>
      rw [hr] at this
      cases this
    | some s =>
      rw [hr] at this
      simpa [hr] using this
  · apply List.ext_getElem?
    intro i
    by_cases hi : i < b.data.length
    · rw [(hg i hi).2.1]
      simp [hi]
    · rw [List.getElem?_eq_none (by simpa using hi), List.getElem?_eq_none (by rw [rows_length b h]; omega)]
  · intro tr ht
    obtain ⟨i, hi, rfl⟩ := List.mem_map.1 ht
    exact (hg i (List.mem_range.1 hi)).2.2

theorem call_consistent (fuel : Nat) (filt : List F → List F) (hf : ∀ x, (filt x).length = x.length) (fft : Nat → List F → List F)
    (hfft : ∀ n x, (fft n x).length = n) (b b' : Bulk V) (hb : b.Consistent) (c : BulkCall) (hc : ∀ f, c = .values f → KeepsShape f)
    (h : b.call fuel filt fft c = .ok b') :
    b'.Consistent ∧ (c.keepsCodes = true → b.Described → b'.Described) ∧
    (c.lagOnly = true → b'.data.length = b.data.length ∧ b'.stats.corrStart = b.stats.corrStart ∧ b'.stats.corrEnd = b.stats.corrEnd ∧
      b'.stats.location = b.stats.location ∧ b'.stats.channel = b.stats.channel ∧ b'.stats.ntrcs = b.stats.ntrcs) := by
  -- new data and lag axis
  have hset : ∀ (data : List (List F)) (l : LagStats), data.length = b.data.length → Rect data l →
      (⟨data, b.stats.setLag l⟩ : Bulk V).Consistent ∧ (b.Described → (⟨data, b.stats.setLag l⟩ : Bulk V).Described) := by
    intro data l hl hr
    refine ⟨consistent_setLag b data l (by rw [hl]; exact hb.start) (by rw [hl]; exact hb.stop) hr, fun hd => ?_⟩
    refine ⟨⟨?_, ?_, ?_, ?_⟩, ?_⟩
    · simpa [BulkStats.setLag, hl] using hd.1.start
    · simpa [BulkStats.setLag, hl] using hd.1.stop
    · simpa [BulkStats.setLag, hl] using hd.1.loc
    · intro ch hch
      rw [hl]
      exact hd.1.cha ch hch
    · simpa [BulkStats.setLag, hl] using hd.2
  cases c with
  | values f =>
    unfold Bulk.call at h
    dsimp only at h
    cases hv : f b.data b.stats.lag with
    | error e =>
      rw [hv] at h
      cases h
    | ok data =>
      rw [hv] at h
      cases h
      obtain ⟨h1, h2⟩ := hc f rfl _ _ _ hb.rect hv
      refine ⟨⟨?_, ?_, hb.npts, ?_, hb.endLag, hb.delta⟩, fun _ hd => ⟨⟨?_, ?_, ?_, ?_⟩, ?_⟩, fun _ => ⟨h1, rfl, rfl, rfl, rfl, rfl⟩⟩
      · rw [h1]; exact hb.start
      · rw [h1]; exact hb.stop
      · intro row hr
        have := h2 row hr
        have h0 := hb.npts
        change row.length = b.stats.base.npts.toNat at this
        show _ = b.stats.base.npts
        omega
      · rw [h1]; exact hd.1.start
      · rw [h1]; exact hd.1.stop
      · rw [h1]; exact hd.1.loc
      · intro l hl
        rw [h1]; exact hd.1.cha l hl
      · rw [h1]; exact hd.2
  | mirror =>
    unfold Bulk.call at h
    dsimp only at h
    cases hm : corrMatMirror b.data b.stats.lag with
    | none =>
      rw [hm] at h
      cases h
    | some r =>
      obtain ⟨data, s⟩ := r
      rw [hm] at h
      cases h
      obtain ⟨h1, h2⟩ := rect_mirror _ _ _ _ hb.rect hm
      obtain ⟨i1, i2⟩ := hset data s h1 h2
      exact ⟨i1, fun _ => i2, fun _ => ⟨h1, rfl, rfl, rfl, rfl, rfl⟩⟩
  | trim a e =>
    unfold Bulk.call at h
    cases h
    obtain ⟨h1, h2⟩ := rect_trim b.data b.stats.lag a e hb.rect
    obtain ⟨i1, i2⟩ := hset _ _ h1 h2
    exact ⟨i1, fun _ => i2, fun _ => ⟨h1, rfl, rfl, rfl, rfl, rfl⟩⟩
  | resample st en =>
    unfold Bulk.call at h
    dsimp only at h
    cases hm : corrMatResample b.stats.lag.npts b.data b.stats.corrStart b.stats.corrEnd st en with
    | error e =>
      rw [hm] at h
      cases h
    | ok r =>
      rw [hm] at h
      cases h
      obtain ⟨h1, h2, h3⟩ := resample_lengths _ _ _ _ _ _ _ hm hb.rect
      refine ⟨⟨h1, h2, hb.npts, ?_, hb.endLag, hb.delta⟩, by simp [BulkCall.keepsCodes], by simp [BulkCall.lagOnly]⟩
      intro row hr
      have := h3 row hr
      have h0 := hb.npts
      change row.length = b.stats.base.npts.toNat at this
      show _ = b.stats.base.npts
      omega
  | resampleTimeAxis freq =>
    unfold Bulk.call at h
    dsimp only at h
    cases hd : decimationFactor b.stats.base.samplingRate freq with
    | some factor =>
      rw [hd] at h
      dsimp only at h
      cases hm : corrMatDecimate filt b.data b.stats.lag factor with
      | error e =>
        rw [hm] at h
        cases h
      | ok r =>
        obtain ⟨data, s⟩ := r
        rw [hm] at h
        cases h
        obtain ⟨h1, h2⟩ := rect_decimate filt hf _ _ _ _ _ hb.rect hm
        obtain ⟨i1, i2⟩ := hset data s h1 h2
        exact ⟨i1, fun _ => i2, fun _ => ⟨h1, rfl, rfl, rfl, rfl, rfl⟩⟩
    | none =>
      rw [hd] at h
      dsimp only at h
      cases hm : corrMatResampleTime fuel filt fft b.data b.stats.lag freq with
      | none =>
        rw [hm] at h
        cases h
        exact ⟨hb, fun _ hd => hd, fun _ => ⟨rfl, rfl, rfl, rfl, rfl, rfl⟩⟩
      | some r =>
        rw [hm] at h
        cases r with
        | error e => cases h
        | ok r =>
          obtain ⟨data, s⟩ := r
          cases h
          obtain ⟨h1, h2⟩ := rect_resampleTime fuel filt fft hfft _ _ _ _ _ hb.rect hm
          obtain ⟨i1, i2⟩ := hset data s h1 h2
          exact ⟨i1, fun _ => i2, fun _ => ⟨h1, rfl, rfl, rfl, rfl, rfl⟩⟩
  | slice s e p =>
    unfold Bulk.call at h
    dsimp only at h
    unfold Bulk.slice at h
    cases hi : sliceIndex b.stats s e p with
    | error e =>
      rw [hi] at h
      cases h
    | ok ii =>
      rw [hi] at h
      by_cases h1 : ii.length = 1
      · simp only [bind, Except.bind, if_pos h1] at h
        cases h
      · simp only [bind, Except.bind, if_neg h1] at h
        cases h
        refine ⟨⟨?_, ?_, hb.npts, ?_, hb.endLag, hb.delta⟩, by simp [BulkCall.keepsCodes], by simp [BulkCall.lagOnly]⟩
        · exact selectBool_length _ _ _ hb.start
        · exact selectBool_length _ _ _ hb.stop
        · intro row hr
          exact hb.rows row (mem_selectBool _ _ _ hr)
  | getSlice lo hi =>
    unfold Bulk.call at h
    cases h
    refine ⟨⟨?_, ?_, hb.npts, ?_, hb.endLag, hb.delta⟩, ?_, by simp [BulkCall.lagOnly]⟩
    · simp [Bulk.getSlice, hb.start]
    · simp [Bulk.getSlice, hb.stop]
    · intro row hr
      exact hb.rows row (List.mem_of_mem_take (List.mem_of_mem_drop hr))
    · intro _ hd
      refine ⟨⟨?_, ?_, ?_, ?_⟩, rfl⟩
      · simp [Bulk.getSlice, hb.start]
      · simp [Bulk.getSlice, hb.stop]
      · simp [Bulk.getSlice, hd.1.loc]
      · intro l hl
        simp only [Bulk.getSlice, Option.map_eq_some_iff] at hl
        obtain ⟨l0, h0, rfl⟩ := hl
        simp [Bulk.getSlice, hd.1.cha l0 h0]
  | selectTime s e p =>
    unfold Bulk.call at h
    dsimp only at h
    unfold Bulk.selectCorrTime at h
    cases hs : createStream b with
    | error e =>
      rw [hs] at h
      cases h
    | ok st =>
      rw [hs] at h
      have := createBulk_facts (selectCorrTime st s e p) (fun tr ht => createStream_wf b st hs tr (mem_selectCorrTime' _ _ _ _ _ ht)) true b' h
      exact ⟨this.1, fun _ _ => this.2, by simp [BulkCall.lagOnly]⟩

theorem calls_ok (fuel : Nat) (filt : List F → List F) (fft : Nat → List F → List F) (b b' : Bulk V) (c : BulkCall) (cs : List BulkCall)
    (h : b.call fuel filt fft c = .ok b') : b.calls fuel filt fft (c :: cs) = b'.calls fuel filt fft cs := by
  simp [Bulk.calls, h]

theorem calls_error (fuel : Nat) (filt : List F → List F) (fft : Nat → List F → List F) (b : Bulk V) (e : PyErr) (c : BulkCall)
    (cs : List BulkCall) (h : b.call fuel filt fft c = .error e) : b.calls fuel filt fft (c :: cs) = b.calls fuel filt fft cs := by
  simp [Bulk.calls, h]

/-! ### C147 -/

/-- **C147** After any sequence of calls of the methods of a bulk, in any order and with any arguments, whether they fail or not, the
header describes the matrix: there is a start and an end time for each row, each row has the number of samples in the header, and the
lag axis ends with the last sample. -/
theorem c147_matrix (fuel : Nat) (filt : List F → List F) (hf : ∀ x, (filt x).length = x.length) (fft : Nat → List F → List F)
    (hfft : ∀ n x, (fft n x).length = n) (b : Bulk V) (hb : b.Consistent) (cs : List BulkCall) (hcs : ShapeCalls cs) :
    (b.calls fuel filt fft cs).Consistent := by
  induction cs generalizing b with
  | nil => exact hb
  | cons c cs ih =>
    have hcs' : ShapeCalls cs := fun f hc => hcs f (by simp [hc])
    cases h : b.call fuel filt fft c with
    | error e =>
      rw [calls_error _ _ _ _ _ _ _ h]
      exact ih b hb hcs'
    | ok b' =>
      rw [calls_ok _ _ _ _ _ _ _ h]
      exact ih b' (call_consistent fuel filt hf fft hfft b b' hb c (fun f hc => hcs f (by simp [hc])) h).1 hcs'

/-- **C147** Full statement: after any sequence of calls, also the codes in the header have one entry per row and the number of traces is
that of the rows, so that the bulk can be converted to a stream.
Proved for sequences without `resample` and `slice`. Missing: these two, see `c147_resample_violated` and `c32_ntrcs_violated`. -/
theorem c147_codes_partial (fuel : Nat) (filt : List F → List F) (hf : ∀ x, (filt x).length = x.length) (fft : Nat → List F → List F)
    (hfft : ∀ n x, (fft n x).length = n) (b : Bulk V) (hb : b.Consistent) (hd : b.Described) (cs : List BulkCall) (hcs : ShapeCalls cs)
    (hk : ∀ c ∈ cs, c.keepsCodes = true) :
    let out := b.calls fuel filt fft cs
    out.Described ∧ ∃ st, createStream out = .ok st ∧ st.map CTr.row = out.rows ∧ st.length = out.data.length ∧ ∀ tr ∈ st, tr.Wf := by
  have hdesc : (b.calls fuel filt fft cs).Described := by
    induction cs generalizing b with
    | nil => exact hd
    | cons c cs ih =>
      have hcs' : ShapeCalls cs := fun f hc => hcs f (by simp [hc])
      have hk' : ∀ c ∈ cs, c.keepsCodes = true := fun c hc => hk c (by simp [hc])
      cases h : b.call fuel filt fft c with
      | error e =>
        rw [calls_error _ _ _ _ _ _ _ h]
        exact ih b hb hd hcs' hk'
      | ok b' =>
        obtain ⟨h1, h2, -⟩ := call_consistent fuel filt hf fft hfft b b' hb c (fun f hc => hcs f (by simp [hc])) h
        rw [calls_ok _ _ _ _ _ _ _ h]
        exact ih b' h1 (h2 (hk c (by simp)) hd) hcs' hk'
  obtain ⟨st, h1, h2, h3⟩ := createStream_rows _ hdesc.1
  refine ⟨hdesc, st, h1, h2, ?_, h3⟩
  rw [← rows_length _ hdesc.1, ← h2, List.length_map]

/-- **C147** Methods that change samples or the lag axis leave the description of the rows alone: row for row the same start and end
times and codes. -/
theorem c147_rows_kept (fuel : Nat) (filt : List F → List F) (hf : ∀ x, (filt x).length = x.length) (fft : Nat → List F → List F)
    (hfft : ∀ n x, (fft n x).length = n) (b : Bulk V) (hb : b.Consistent) (cs : List BulkCall) (hcs : ShapeCalls cs)
    (hk : ∀ c ∈ cs, c.lagOnly = true) :
    let out := b.calls fuel filt fft cs
    out.data.length = b.data.length ∧ out.stats.corrStart = b.stats.corrStart ∧ out.stats.corrEnd = b.stats.corrEnd ∧
      out.stats.location = b.stats.location ∧ out.stats.channel = b.stats.channel ∧ out.stats.ntrcs = b.stats.ntrcs := by
  induction cs generalizing b with
  | nil => exact ⟨rfl, rfl, rfl, rfl, rfl, rfl⟩
  | cons c cs ih =>
    have hcs' : ShapeCalls cs := fun f hc => hcs f (by simp [hc])
    have hk' : ∀ c ∈ cs, c.lagOnly = true := fun c hc => hk c (by simp [hc])
    cases h : b.call fuel filt fft c with
    | error e =>
      rw [calls_error _ _ _ _ _ _ _ h]
      exact ih b hb hcs' hk'
    | ok b' =>
      rw [calls_ok _ _ _ _ _ _ _ h]
      obtain ⟨h1, -, h2⟩ := call_consistent fuel filt hf fft hfft b b' hb c (fun f hc => hcs f (by simp [hc])) h
      obtain ⟨a1, a2, a3, a4, a5, a6⟩ := h2 (hk c (by simp))
      obtain ⟨i1, i2, i3, i4, i5, i6⟩ := ih b' h1 hcs' hk'
      exact ⟨i1.trans a1, i2.trans a2, i3.trans a3, i4.trans a4, i5.trans a5, i6.trans a6⟩

/-- a bulk with two correlations of three samples each; location codes 00 and 01 -/
def bulk23 : Bulk Nat :=
  ⟨[[some 1, some 2, some 3], [some 4, some 5, some 6]],
    ⟨{ (CorrStats.default : CorrStats Nat) with npts := 3, startLag := -1 }.refresh, [0, 10], [10, 20], [c!"00", c!"01"], none, 2⟩⟩

theorem bulk23_ok : bulk23.Consistent ∧ bulk23.Described := by
  refine ⟨⟨rfl, rfl, by decide, by decide, by decide +kernel, by decide +kernel⟩, ⟨rfl, rfl, rfl, ?_⟩, rfl⟩
  intro l h
  cases h

/-- trimming, mirroring and taking the second row -/
example : bulk23.calls 0 id (fun n _ => List.replicate n none) [.mirror, .trim 0 (1 / 2), .getSlice 1 2] =
    ⟨[[some 5]], { bulk23.stats with
      base := { bulk23.stats.base with npts := 1, startLag := 0 }.refresh, corrStart := [10], corrEnd := [20], location := [c!"01"]
      ntrcs := 1 }⟩ := by
  decide +kernel

/-- **C147 is violated** by `resample`: the location codes and the number of traces stay those of the old matrix. With more bins than
correlations the bulk cannot be converted to a stream any more. -/
theorem c147_resample_violated (fuel : Nat) (filt : List F → List F) (fft : Nat → List F → List F) :
    let out := bulk23.calls fuel filt fft [.resample [0, 5, 10] []]
    out.data.length = 3 ∧ out.stats.ntrcs = 2 ∧ createStream out = .error .indexError := by
  change let out := bulk23.calls 0 id (fun _ x => x) [.resample [0, 5, 10] []]
    out.data.length = 3 ∧ out.stats.ntrcs = 2 ∧ createStream out = .error .indexError
  decide +kernel

/-- **C147 is violated** by `resample`: with fewer bins the rows get the codes of other correlations. -/
theorem c147_other_codes_violated (fuel : Nat) (filt : List F → List F) (fft : Nat → List F → List F) :
    let out := bulk23.calls fuel filt fft [.resample [10] [20]]
    out.data = [[some 4, some 5, some 6]] ∧
      bulk23.rows.map (fun r => (r.loc, r.data)) = [(c!"00", [some 1, some 2, some 3]), (c!"01", [some 4, some 5, some 6])] ∧
      (createStream out).toOption.map (fun st => st.map fun tr => (tr.stats.location, tr.data)) =
        some [(c!"00", [some 4, some 5, some 6])] := by
  change let out := bulk23.calls 0 id (fun _ x => x) [.resample [10] [20]]
    out.data = [[some 4, some 5, some 6]] ∧
      bulk23.rows.map (fun r => (r.loc, r.data)) = [(c!"00", [some 1, some 2, some 3]), (c!"01", [some 4, some 5, some 6])] ∧
      (createStream out).toOption.map (fun st => st.map fun tr => (tr.stats.location, tr.data)) =
        some [(c!"00", [some 4, some 5, some 6])]
  decide +kernel

end SeisMIC
