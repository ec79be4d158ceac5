import Verif.Lemmas.Bulk
import Verif.Props.StreamSelect

/-!
# C30–C32: conversion between streams and bulks, slices of bulks
-/

namespace SeisMIC

variable {V : Type}

theorem sameImmutables_iff (vc : Bool) (a b : CorrStats V) : sameImmutables vc a b = true ↔ Alike vc a b := by
  unfold sameImmutables Alike
  have hg : sameGeo a b = true ↔ (a.geo.isSome → b.geo.isSome → a.geo = b.geo) := by
    unfold sameGeo
    cases a.geo <;> cases b.geo <;> simp
  have hc : (vc || decide (a.channel = b.channel)) = true ↔ (vc = false → a.channel = b.channel) := by
    cases vc <;> simp
  rw [Bool.and_eq_true, hc, Bool.and_eq_true, hg]
  simp only [Bool.and_eq_true, decide_eq_true_eq]
  tauto

/-- **C31** A bulk header can be built iff the fields that must not vary are
equal to those of the first trace; otherwise there is a `ValueError`. -/
theorem c31_iff (s : CorrStats V) (l : List (CorrStats V)) (vc : Bool) :
    ((∃ b, convertStatlist (s :: l) vc = .ok b) ↔ ∀ t ∈ l, Alike vc s t) ∧
    ((¬ ∀ t ∈ l, Alike vc s t) → convertStatlist (s :: l) vc = .error .valueError) := by
  have key : ((s :: l).all fun t => sameImmutables vc s t) = true ↔ ∀ t ∈ l, Alike vc s t := by
    rw [List.all_eq_true]
    simp only [sameImmutables_iff, List.mem_cons, forall_eq_or_imp]
    have : Alike vc s s := ⟨rfl, rfl, rfl, rfl, rfl, rfl, fun _ _ => rfl, fun _ => rfl⟩
    simp [this]
  unfold convertStatlist
  by_cases h : ((s :: l).all fun t => sameImmutables vc s t) = true
  · simp only [h, ↓reduceIte]
    exact ⟨⟨fun _ => key.1 h, fun _ => ⟨_, rfl⟩⟩, fun hn => absurd (key.1 h) hn⟩
  · simp only [h]
    refine ⟨⟨?_, fun hn => absurd (key.2 hn) h⟩, fun _ => rfl⟩
    rintro ⟨b, hb⟩
    simp at hb

/-- **C31** The varying fields become lists with one entry per trace in order,
the others are those of the first trace, and the number of traces is that of
the list. -/
theorem c31_fields (s : CorrStats V) (l : List (CorrStats V)) (vc : Bool) (b : BulkStats V)
    (h : convertStatlist (s :: l) vc = .ok b) :
    b.corrStart = (s :: l).map (fun t => t.corrStart) ∧ b.corrEnd = (s :: l).map (fun t => t.corrEnd) ∧
    b.location = (s :: l).map (fun t => t.location) ∧
    b.channel = (if vc then some ((s :: l).map fun t => t.channel) else none) ∧
    b.base = s ∧ b.ntrcs = (s :: l).length := by
  unfold convertStatlist at h
  simp only at h
  split at h
  · cases h
    exact ⟨rfl, rfl, rfl, rfl, rfl, rfl⟩
  · simp at h

/-- **C31** If all traces have coordinates, success means that all fields that
must not vary agree between any two traces. -/
theorem c31_pairwise (s : CorrStats V) (l : List (CorrStats V)) (vc : Bool) (b : BulkStats V)
    (hg : ∀ t ∈ s :: l, t.geo.isSome = true)
    (h : convertStatlist (s :: l) vc = .ok b) : ∀ t ∈ s :: l, ∀ u ∈ s :: l, Alike vc t u := by
  have ha := (c31_iff s l vc).1.1 ⟨b, h⟩
  have ha' : ∀ t ∈ s :: l, Alike vc s t := by
    intro t ht
    rcases List.mem_cons.1 ht with rfl | ht
    · exact ⟨rfl, rfl, rfl, rfl, rfl, rfl, fun _ _ => rfl, fun _ => rfl⟩
    · exact ha t ht
  intro t ht u hu
  obtain ⟨a1, a2, a3, a4, a5, a6, a7, a8⟩ := ha' t ht
  obtain ⟨b1, b2, b3, b4, b5, b6, b7, b8⟩ := ha' u hu
  have hs := hg s (by simp)
  exact ⟨a1.symm.trans b1, a2.symm.trans b2, a3.symm.trans b3, a4.symm.trans b4, a5.symm.trans b5,
    a6.symm.trans b6, fun _ _ => (a7 hs (hg t ht)).symm.trans (b7 hs (hg u hu)),
    fun hv => (a8 hv).symm.trans (b8 hv)⟩

example : ∀ t ∈ [(exTr c!"A-A" 0 10 [some 1]).stats, (exTr c!"A-A" 10 20 [some 2]).stats],
    sameImmutables true (exTr c!"A-A" 0 10 [some 1]).stats t = true := by decide +kernel

/-- **C31** If the first trace has no coordinates, traces with different
coordinates are mixed. -/
theorem c31_missing_coordinates_violated : ∃ (s t u : CorrStats Nat) (b : BulkStats Nat),
    convertStatlist [s, t, u] true = .ok b ∧ t.geo.isSome = true ∧ u.geo.isSome = true ∧ t.geo ≠ u.geo := by
  refine ⟨.default, { (CorrStats.default : CorrStats Nat) with geo := some (⟨0, 0, 0⟩, ⟨0, 0, 0⟩, 0, 0, 0) },
    { (CorrStats.default : CorrStats Nat) with geo := some (⟨1, 0, 0⟩, ⟨0, 0, 0⟩, 0, 0, 0) }, _, rfl, rfl, rfl, ?_⟩
  decide +kernel

/-! ### C30 -/

theorem mapM_zipIdx_ok {α β ε : Type} (l : List α) (f : α × Nat → Except ε β) (g : Nat → β)
    (h : ∀ i (hi : i < l.length), f (l[i], i) = .ok (g i)) :
    l.zipIdx.mapM f = .ok ((List.range l.length).map g) := by
  have : ∀ x ∈ l.zipIdx, f x = .ok (g x.2) := by
    rintro ⟨a, i⟩ hx
    obtain ⟨h1, h2⟩ := List.mem_zipIdx' hx
    rw [h2]
    exact h i h1
  rw [mapM_ok _ _ _ this]
  congr 1
  rw [show (fun x : α × Nat => g x.2) = g ∘ Prod.snd from rfl, ← List.map_map, List.zipIdx_map_snd, List.range_eq_range']

/-- **C30** Converting a stream to a bulk and back gives the traces with the
sampling rate of the first one, in the same order, with the same samples, time
windows, codes and lag times; `calib`, the coordinates and additional header
entries are those of the first trace.
Missing for the full property: `c30_extra_violated`. -/
theorem c30_round_trip_partial (first : CTr V) (st : List (CTr V))
    (hwf : ∀ tr ∈ first :: st, tr.Wf)
    (ha : ∀ tr ∈ st, tr.stats.samplingRate = first.stats.samplingRate → Alike true first.stats tr.stats) :
    ∃ b, createBulk (first :: st) none true = .ok b ∧
      createStream b = .ok (((first :: st).filter fun tr => tr.stats.samplingRate = first.stats.samplingRate).map
        fun tr => ⟨{ tr.stats with calib := first.stats.calib, geo := first.stats.geo, extra := first.stats.extra },
          tr.data⟩) := by
  set sel := (first :: st).filter fun tr => tr.stats.samplingRate = first.stats.samplingRate with hsel
  have hsel' : sel = first :: st.filter fun tr => tr.stats.samplingRate = first.stats.samplingRate := by
    rw [hsel]; simp
  have hal : ∀ tr ∈ sel, Alike true first.stats tr.stats ∧ tr.Wf := by
    intro tr ht
    rw [hsel, List.mem_filter] at ht
    refine ⟨?_, hwf tr ht.1⟩
    rcases List.mem_cons.1 ht.1 with rfl | hm
    · exact ⟨rfl, rfl, rfl, rfl, rfl, rfl, fun _ _ => rfl, fun _ => rfl⟩
    · exact ha tr hm (by simpa using ht.2)
  obtain ⟨bs, hbs⟩ := (c31_iff first.stats
    ((st.filter fun tr => tr.stats.samplingRate = first.stats.samplingRate).map (·.stats)) true).1.2 (by
      intro t ht
      obtain ⟨tr, htr, rfl⟩ := List.mem_map.1 ht
      exact (hal tr (by rw [hsel']; exact List.mem_cons_of_mem _ htr)).1)
  have hconv : convertStatlist (sel.map (·.stats)) true = .ok bs := by
    rw [hsel', List.map_cons]; exact hbs
  obtain ⟨f1, f2, f3, f4, f5, -⟩ := c31_fields _ _ _ _ hbs
  rw [← List.map_cons (f := fun tr : CTr V => tr.stats), ← hsel'] at f1 f2 f3 f4
  refine ⟨⟨sel.map (·.data), bs⟩, ?_, ?_⟩
  · unfold createBulk
    simp only [← hsel]
    have hlen : (sel.all fun tr => decide ((tr.data.length : Int) = first.stats.npts)) = true := by
      rw [List.all_eq_true]
      intro tr ht
      obtain ⟨h1, h2⟩ := hal tr ht
      simp only [decide_eq_true_eq]
      rw [h1.1, h2.1]
    rw [if_pos hlen, hconv]
    rfl
  · unfold createStream
    have hrow : ∀ i (hi : i < sel.length), bs.row i = some { first.stats with
        corrStart := sel[i].stats.corrStart, corrEnd := sel[i].stats.corrEnd
        location := sel[i].stats.location, channel := sel[i].stats.channel } := by
      intro i hi
      unfold BulkStats.row
      rw [f1, f2, f3, f4, f5]
      simp [hi]
    rw [mapM_zipIdx_ok _ _ (fun i => if hi : i < sel.length then
      ⟨{ sel[i].stats with calib := first.stats.calib, geo := first.stats.geo, extra := first.stats.extra }, sel[i].data⟩
      else first)]
    · congr 1
      apply List.ext_getElem
      · simp
      · intro i h1 h2
        simp at h1
        simp [h1]
    · intro i hi
      simp only [List.length_map] at hi
      simp only [List.getElem_map, hrow i hi, hi, ↓reduceDIte]
      obtain ⟨h1, h2⟩ := hal sel[i] (List.getElem_mem hi)
      obtain ⟨a1, a2, a3, a4, a5, a6, a7, a8⟩ := h1
      obtain ⟨w1, w2⟩ := h2
      congr 2
      generalize sel[i] = tr at *
      rw [← w1]
      obtain ⟨s, d⟩ := tr
      simp only at *
      clear hrow hal hwf ha hbs hconv f1 f2 f3 f4 f5 hsel hsel' w1 hi
      clear_value sel
      obtain ⟨b1, b2, b3, b4, b5, b6, b7, b8, b9, b10, b11, b12, b13, b14, b15, b16⟩ := s
      simp only [CorrStats.refresh, CorrStats.mk.injEq] at *
      simp_all
      obtain ⟨w, -, -, w'⟩ := w2
      rw [← w', ← w]
      split_ifs <;> simp

example : (∀ tr ∈ [exTr c!"A-A" 0 10 [some 1], exTr c!"A-A" 10 20 [some 2]], tr.Wf) ∧
    sameImmutables true (exTr c!"A-A" 0 10 [some 1]).stats (exTr c!"A-A" 10 20 [some 2]).stats = true := by
  decide +kernel

/-- **C30** Additional header entries of later traces are replaced by those of
the first. -/
theorem c30_extra_violated : ∃ (st : List (CTr Nat)) (b : Bulk Nat) (st' : List (CTr Nat)),
    (∀ tr ∈ st, tr.Wf) ∧ createBulk st none true = .ok b ∧ createStream b = .ok st' ∧ st' ≠ st := by
  refine ⟨[exTr c!"A-A" 0 10 [some 1], { (exTr c!"A-A" 10 20 [some 2]) with
      stats := { (exTr c!"A-A" 10 20 [some 2]).stats with extra := [(c!"k", 1)] } }],
    ⟨[[some 1], [some 2]], ⟨(exTr c!"A-A" 0 10 [some 1]).stats, [0, 10], [10, 20], [[], []],
      some [c!"HHZ-HHZ", c!"HHZ-HHZ"], 2⟩⟩, [exTr c!"A-A" 0 10 [some 1], exTr c!"A-A" 10 20 [some 2]],
    by decide +kernel, by decide +kernel, by decide +kernel, by decide +kernel⟩

/-- **C30** A stream of traces that cannot be in one matrix is rejected. -/
theorem c30_rejects (first : CTr V) (st : List (CTr V)) (vc : Bool) (tr : CTr V) (ht : tr ∈ st)
    (hr : tr.stats.samplingRate = first.stats.samplingRate)
    (hbad : (tr.data.length : Int) ≠ first.stats.npts ∨ ¬ Alike vc first.stats tr.stats) :
    createBulk (first :: st) none vc = .error .valueError := by
  unfold createBulk
  simp only
  split
  · rename_i hall
    have hm : tr ∈ (first :: st).filter fun tr => tr.stats.samplingRate = first.stats.samplingRate := by
      simp [ht, hr]
    rcases hbad with hb | hb
    · rw [List.all_eq_true] at hall
      have := hall tr hm
      simp only [decide_eq_true_eq] at this
      exact absurd this hb
    · have hc := (c31_iff first.stats
        ((st.filter fun tr => tr.stats.samplingRate = first.stats.samplingRate).map (·.stats)) vc).2 (by
          intro hn
          apply hb
          apply hn
          exact List.mem_map.2 ⟨tr, by simp [ht, hr], rfl⟩)
      have : ((first :: st).filter fun tr => tr.stats.samplingRate = first.stats.samplingRate).map (·.stats)
          = first.stats :: (st.filter fun tr => tr.stats.samplingRate = first.stats.samplingRate).map (·.stats) := by
        simp
      rw [this, hc]
      rfl
  · rfl

/-- **C30** A conversion that succeeds yields one row per trace with the sampling
rate of the first one, in order. -/
theorem c30_rows (first : CTr V) (st : List (CTr V)) (vc : Bool) (b : Bulk V)
    (h : createBulk (first :: st) none vc = .ok b) :
    b.Aligned ∧ b.stats.ntrcs = b.data.length ∧
    b.rows = ((first :: st).filter fun tr => tr.stats.samplingRate = first.stats.samplingRate).map CTr.row := by
  unfold createBulk at h
  simp only at h
  set sel := (first :: st).filter fun tr => tr.stats.samplingRate = first.stats.samplingRate with hsel
  have hsel' : sel = first :: st.filter fun tr => tr.stats.samplingRate = first.stats.samplingRate := by
    rw [hsel]; simp
  split at h
  · have hm : sel.map (fun tr => tr.stats) = first.stats ::
        (st.filter fun tr => tr.stats.samplingRate = first.stats.samplingRate).map (·.stats) := by
      rw [hsel', List.map_cons]
    cases hc : convertStatlist (sel.map (·.stats)) vc with
    | error e => rw [hc] at h; simp [bind, Except.bind] at h
    | ok bs =>
      rw [hc] at h
      simp only [bind, Except.bind, pure, Except.pure, Except.ok.injEq] at h
      subst h
      have hal := (c31_iff first.stats
        ((st.filter fun tr => tr.stats.samplingRate = first.stats.samplingRate).map (·.stats)) vc).1.1 ⟨bs, by
          rw [← hm]; exact hc⟩
      rw [hm] at hc
      obtain ⟨f1, f2, f3, f4, f5, f6⟩ := c31_fields _ _ _ _ hc
      rw [← hm] at f1 f2 f3 f4 f6
      have hal' : Bulk.Aligned ⟨sel.map (·.data), bs⟩ := by
        constructor
        · simp [f1]
        · simp [f2]
        · simp [f3]
        · intro l hl
          simp only at hl
          rw [f4] at hl
          cases vc
          · simp at hl
          · simp only [↓reduceIte, Option.some.injEq] at hl
            rw [← hl]; simp
      refine ⟨hal', by simp [f6], ?_⟩
      have hch : Bulk.channels ⟨sel.map (·.data), bs⟩ = sel.map fun tr => tr.stats.channel := by
        unfold Bulk.channels
        simp only [f4, f5]
        cases vc
        · simp only [Bool.false_eq_true, ↓reduceIte, List.length_map]
          symm
          rw [List.eq_replicate_iff]
          refine ⟨by simp, ?_⟩
          intro c hc'
          obtain ⟨tr, ht, rfl⟩ := List.mem_map.1 hc'
          rw [hsel'] at ht
          rcases List.mem_cons.1 ht with rfl | ht
          · rfl
          · exact ((hal _ (List.mem_map.2 ⟨tr, ht, rfl⟩)).2.2.2.2.2.2.2 rfl).symm
        · simp
      unfold Bulk.rows
      rw [hch]
      simp only [f1, f2, f3]
      clear_value sel
      clear hsel hsel' hch hal' f1 f2 f3 f4 f6 hm
      rename_i hx
      clear hx
      induction sel with
      | nil => rfl
      | cons a l ih => simpa [CTr.row] using ih
  · simp [throw, throwThe, MonadExceptOf.throw] at h

/-! ### C32 -/

/-- **C32** Slicing a bulk keeps exactly the rows whose window is in the range,
and every row keeps its own header entries.
Missing for the full property: `c32_single_row_violated`, `c32_ntrcs_violated`. -/
theorem c32_slice_partial (b : Bulk V) (h : b.Aligned) (s e : Int) (p : Bool) (hse : s < e)
    (hn : b.data.length ≠ 1) :
    ∃ b', b.slice s e p = .ok b' ∧ b'.Aligned ∧ b'.stats.base = b.stats.base ∧
      b'.rows = b.rows.filter fun r => decide (r.inRange s e p) := by
  have hi := sliceIndex_eq b h s e p hse
  have hl := rows_length b h
  have hch := channels_length b h
  unfold Bulk.slice
  rw [hi]
  simp only [bind, Except.bind, List.length_map, hl, hn, ↓reduceIte, pure, Except.pure]
  refine ⟨_, rfl, ?_, rfl, ?_⟩
  · constructor
    · exact selectBool_length _ _ _ h.start
    · exact selectBool_length _ _ _ h.stop
    · exact selectBool_length _ _ _ h.loc
    · intro l hl
      simp only [Option.map_eq_some_iff] at hl
      obtain ⟨l', hl', rfl⟩ := hl
      exact selectBool_length _ _ _ (h.cha l' hl')
  · generalize hii : b.rows.map (fun r => decide (r.inRange s e p)) = ii
    have hc : Bulk.channels (V := V) ⟨selectBool ii b.data, { b.stats with
        corrStart := selectBool ii b.stats.corrStart
        corrEnd := selectBool ii b.stats.corrEnd
        location := selectBool ii b.stats.location
        channel := b.stats.channel.map (selectBool ii) }⟩ = selectBool ii b.channels := by
      unfold Bulk.channels
      cases hcc : b.stats.channel with
      | none => exact (selectBool_replicate _ _ _).symm
      | some l => rfl
    unfold Bulk.rows
    rw [hc]
    simp only
    rw [selectBool_zip _ _ _ (h.start.trans h.stop.symm), selectBool_zip _ _ _ hch,
      selectBool_zip _ _ _ (by rw [List.length_zip, hch, h.loc]; simp),
      selectBool_zip _ _ _ (by simp [h.start, h.stop, h.loc, hch]), ← selectBool_map]
    change selectBool ii b.rows = List.filter _ b.rows
    rw [← hii, selectBool_filter]

/-- **C32** An empty or reversed range is a `ValueError`. -/
theorem c32_range_error (b : Bulk V) (s e : Int) (p : Bool) (h : e ≤ s) :
    b.slice s e p = .error .valueError := by
  unfold Bulk.slice sliceIndex
  rw [if_pos h]
  rfl

/-- a bulk for the examples -/
def exBulk : Bulk Nat :=
  ⟨[[some 1], [some 2], [some 3]], ⟨.default, [0, 10, 20], [10, 20, 30], [[], [], []], none, 3⟩⟩

example : exBulk.Aligned ∧ ∃ b', exBulk.slice 12 25 true = .ok b' ∧ b'.data = [[some 2], [some 3]] :=
  ⟨⟨rfl, rfl, rfl, by intro l h; cases h⟩, _, rfl, by decide +kernel⟩

/-- **C32** A bulk with a single correlation cannot be sliced. -/
theorem c32_single_row_violated : ∃ b : Bulk Nat, b.Aligned ∧ b.slice 0 10 true = .error .typeError :=
  ⟨⟨[[some 1]], ⟨.default, [0], [10], [[]], none, 1⟩⟩, ⟨rfl, rfl, rfl, by intro l h; cases h⟩, rfl⟩

/-- **C32** The header entry for the number of traces is not updated. -/
theorem c32_ntrcs_violated : ∃ (b b' : Bulk Nat), b.Aligned ∧ b.stats.ntrcs = b.data.length ∧
    b.slice 12 25 true = .ok b' ∧ b'.stats.ntrcs ≠ b'.data.length :=
  ⟨exBulk, _, ⟨rfl, rfl, rfl, by intro l h; cases h⟩, rfl, rfl, by decide⟩

/-- **C32** A slice of indices keeps exactly these rows and the number of
traces is updated. -/
theorem c32_index_slice (b : Bulk V) (h : b.Aligned) (lo hi : Nat) :
    (b.getSlice lo hi).Aligned ∧ (b.getSlice lo hi).rows = (b.rows.take hi).drop lo ∧
      (b.getSlice lo hi).stats.ntrcs = (b.getSlice lo hi).data.length := by
  have hch := channels_length b h
  refine ⟨?_, ?_, rfl⟩
  · constructor
    · simp [Bulk.getSlice, h.start]
    · simp [Bulk.getSlice, h.stop]
    · simp [Bulk.getSlice, h.loc]
    · intro l hl
      simp only [Bulk.getSlice, Option.map_eq_some_iff] at hl
      obtain ⟨l', hl', rfl⟩ := hl
      simp [Bulk.getSlice, h.cha l' hl']
  · have hc : (b.getSlice lo hi).channels = (b.channels.take hi).drop lo := by
      unfold Bulk.channels Bulk.getSlice
      cases hcc : b.stats.channel with
      | none => simp [List.take_replicate, List.drop_replicate, Nat.min_def]
      | some l => rfl
    have hz : ∀ {α β : Type} (a : List α) (c : List β),
        ((a.take hi).drop lo).zip ((c.take hi).drop lo) = ((a.zip c).take hi).drop lo := by
      intro α β a c
      simp only [List.zip, List.take_zipWith, List.drop_zipWith]
    unfold Bulk.rows
    rw [hc]
    simp only [Bulk.getSlice, hz, List.map_drop, List.map_take]

/-- **C32** A single index gives the correlation of this row. -/
theorem c32_item (b : Bulk V) (h : b.Aligned) (i : Nat) (hi : i < b.data.length) :
    ∃ tr, b.getItem i = .ok tr ∧ b.rows[i]? = some tr.row ∧ tr.Wf := by
  have hch := channels_length b h
  have h1 : i < b.stats.corrStart.length := by rw [h.start]; exact hi
  have h2 : i < b.stats.corrEnd.length := by rw [h.stop]; exact hi
  have h3 : i < b.stats.location.length := by rw [h.loc]; exact hi
  have h4 : i < b.channels.length := by rw [hch]; exact hi
  have hrow : b.stats.row i = some { b.stats.base with
      corrStart := b.stats.corrStart[i], corrEnd := b.stats.corrEnd[i]
      location := b.stats.location[i], channel := b.channels[i] } := by
    unfold BulkStats.row
    cases hcc : b.stats.channel with
    | none => simp [Bulk.channels, hcc, h1, h2, h3]
    | some l =>
      have hl := h.cha l hcc
      simp [Bulk.channels, hcc, hl, hi, h1, h2, h3]
  refine ⟨⟨{ { b.stats.base with
      corrStart := b.stats.corrStart[i], corrEnd := b.stats.corrEnd[i]
      location := b.stats.location[i], channel := b.channels[i] } with npts := b.data[i].length }.refresh, b.data[i]⟩,
    ?_, ?_, ?_⟩
  · unfold Bulk.getItem
    rw [hrow, List.getElem?_eq_getElem hi]
  · unfold Bulk.rows
    simp [h1, h2, h3, h4, hi, CTr.row, CorrStats.refresh]
  · exact ⟨rfl, rfl⟩

end SeisMIC
