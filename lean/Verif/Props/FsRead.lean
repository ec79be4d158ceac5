import Verif.Model.FsRead
import Verif.Props.FileStructure
import Verif.Lemmas.Sort
import Verif.Lemmas.Glob
import Verif.Lemmas.ListAux
import Verif.Lemmas.DbRead
import Mathlib.Tactic.Choose
import Mathlib.Tactic.Set
import Mathlib.Tactic.Positivity
import Mathlib.Tactic.Ring
import Mathlib.Tactic.Linarith
import Mathlib.Algebra.Order.Ring.Int

/-!
# C141: the data of a period are read from the file system
-/

namespace SeisMIC

/-! ### Specification -/

/-- a stream or a file has a sample of the channel `i` at the time `t` -/
def HasSample (st : List FsTrace) (i : Str) (t : Int) : Prop := ∃ tr ∈ st, tr.id = i ∧ t ∈ tr.times

/-- An archive with one or more files for each section of length `s`: the files of section `d` contain samples between the beginning of the section and the
beginning of the next one. The samples of a trace are in order. Within a file the first trace has the first sample, and the last trace the last one. The traces of a
channel have the same sampling interval. -/
structure FsArchive (D : Int → List (List FsTrace)) (rate : Str → Int) (s : Int) : Prop where
  samples : ∀ d, ∀ f ∈ D d, ∀ tr ∈ f, tr.times ≠ [] ∧ tr.times.Pairwise (· < ·) ∧ ∀ t ∈ tr.times, d * s ≤ t ∧ t ≤ (d + 1) * s
  rates : ∀ d, ∀ f ∈ D d, ∀ tr ∈ f, tr.delta = rate tr.id
  ordered : ∀ d, ∀ f ∈ D d, ∃ a b, f.head? = some a ∧ f.getLast? = some b ∧
    ∀ tr ∈ f, ∀ t ∈ tr.times, (∃ t0, a.times.head? = some t0 ∧ t0 ≤ t) ∧ ∃ t1, b.times.getLast? = some t1 ∧ t ≤ t1

/-- the sample of channel `i` at time `t` is in a file with samples before the end and with samples after the start; it is in the period if data are trimmed -/
def InPeriod (D : Int → List (List FsTrace)) (start stop : Int) (trim : Bool) (i : Str) (t : Int) : Prop :=
  ∃ d, ∃ f ∈ D d, HasSample f i t ∧ (∃ j u, HasSample f j u ∧ u < stop) ∧ (∃ j v, HasSample f j v ∧ start < v) ∧
    (trim = true → start ≤ t ∧ t ≤ stop)

/-! ### Merging -/

/-- traces that can be merged -/
def Mergeable (rate : Str → Int) (st : List FsTrace) : Prop := ∀ tr ∈ st, tr.times ≠ [] ∧ tr.delta = rate tr.id

/-- the merged trace -/
def mergedTrace (rate : Str → Int) (st : List FsTrace) (i : Str) : FsTrace :=
  ⟨i, rate i, isort (fun a b => decide (a ≤ b)) ((st.filter fun tr => decide (tr.id = i)).flatMap FsTrace.times).eraseDups⟩

theorem mergeId_ok (rate : Str → Int) (st : List FsTrace) (h : Mergeable rate st) (i : Str) (hi : i ∈ st.map FsTrace.id) :
    mergeId st i = .ok (mergedTrace rate st i) := by
  unfold mergeId mergedTrace
  simp only
  obtain ⟨tr0, h0, e0⟩ := List.mem_map.1 hi
  have hm : tr0 ∈ st.filter fun tr => decide (tr.id = i) := List.mem_filter.2 ⟨h0, by simpa using e0⟩
  have hall : ∀ tr ∈ st.filter (fun tr => decide (tr.id = i)), tr.delta = rate i := by
    intro tr ht
    obtain ⟨a, b⟩ := List.mem_filter.1 ht
    rw [(h tr a).2, of_decide_eq_true b]
  generalize st.filter (fun tr => decide (tr.id = i)) = g at hm hall
  cases g with
  | nil => cases hm
  | cons tr l =>
    simp only
    rw [if_pos, hall tr (by simp)]
    rw [List.all_eq_true]
    intro x hx
    rw [hall x hx, hall tr (by simp)]
    simp

theorem mem_mergedTrace (rate : Str → Int) (st : List FsTrace) (i : Str) (t : Int) : t ∈ (mergedTrace rate st i).times ↔ HasSample st i t := by
  unfold mergedTrace HasSample
  simp only [mem_isort, List.mem_eraseDups, List.mem_flatMap, List.mem_filter, decide_eq_true_eq]
  constructor
  · rintro ⟨tr, ⟨a, b⟩, c⟩; exact ⟨tr, a, b, c⟩
  · rintro ⟨tr, a, b, c⟩; exact ⟨tr, ⟨a, b⟩, c⟩

theorem sorted_isort_dedup (l : List Int) : (isort (fun a b => decide (a ≤ b)) l.eraseDups).Pairwise (· < ·) := by
  have h1 := isort_sorted (fun a b : Int => decide (a ≤ b)) (fun a b h => by simp at h ⊢; omega) (fun a b c h h' => by simp at h h' ⊢; omega) l.eraseDups
  have h2 : (isort (fun a b : Int => decide (a ≤ b)) l.eraseDups).Nodup := (isort_perm _ _).nodup_iff.2 (nodup_eraseDups _)
  exact (h1.and h2).imp fun ⟨a, b⟩ => by have := of_decide_eq_true a; omega

/-- a merged stream: one trace for each channel, with samples in order -/
def Merged (rate : Str → Int) (st : List FsTrace) : Prop :=
  Mergeable rate st ∧ (st.map FsTrace.id).Nodup ∧ ∀ tr ∈ st, tr.times.Pairwise (· < ·)

theorem mergeStream_ok (le : Str → Str → Bool) (rate : Str → Int) (st : List FsTrace) (h : Mergeable rate st) :
    ∃ st', mergeStream le st = .ok st' ∧ Merged rate st' ∧ ∀ i t, HasSample st' i t ↔ HasSample st i t := by
  refine ⟨_, mapM_ok _ _ (mergedTrace rate st) fun i hi => mergeId_ok rate st h i ?_, ⟨?_, ?_, ?_⟩, ?_⟩
  · rw [mem_isort, List.mem_eraseDups] at hi; exact hi
  · intro tr ht
    obtain ⟨i, hi, rfl⟩ := List.mem_map.1 ht
    refine ⟨?_, rfl⟩
    rw [mem_isort, List.mem_eraseDups] at hi
    obtain ⟨tr, h0, rfl⟩ := List.mem_map.1 hi
    obtain ⟨t, ht⟩ := List.exists_mem_of_ne_nil _ (h tr h0).1
    exact List.ne_nil_of_mem ((mem_mergedTrace rate st tr.id t).2 ⟨tr, h0, rfl, ht⟩)
  · rw [List.map_map, show FsTrace.id ∘ mergedTrace rate st = id from rfl, List.map_id]
    exact (isort_perm _ _).nodup_iff.2 (nodup_eraseDups _)
  · intro tr ht
    obtain ⟨i, hi, rfl⟩ := List.mem_map.1 ht
    exact sorted_isort_dedup _
  · intro i t
    constructor
    · rintro ⟨tr, ht, rfl, h2⟩
      obtain ⟨i, hi, rfl⟩ := List.mem_map.1 ht
      exact (mem_mergedTrace rate st i t).1 h2
    · intro hh
      refine ⟨mergedTrace rate st i, List.mem_map.2 ⟨i, ?_, rfl⟩, rfl, (mem_mergedTrace rate st i t).2 hh⟩
      rw [mem_isort, List.mem_eraseDups]
      obtain ⟨tr, a, b, c⟩ := hh
      exact List.mem_map.2 ⟨tr, a, b⟩

theorem hasSample_append (a b : List FsTrace) (i : Str) (t : Int) : HasSample (a ++ b) i t ↔ HasSample a i t ∨ HasSample b i t := by
  unfold HasSample
  simp only [List.mem_append, or_and_right, exists_or]

theorem mem_cutTraces (start stop : Int) (f : List FsTrace) (tr : FsTrace) :
    tr ∈ cutTraces start stop f ↔ tr.times ≠ [] ∧ ∃ tr0 ∈ f, tr = { tr0 with times := tr0.times.filter fun t => decide (start ≤ t) && decide (t ≤ stop) } := by
  unfold cutTraces
  rw [List.mem_filter, List.mem_map]
  constructor
  · rintro ⟨⟨a, b, rfl⟩, c⟩; exact ⟨by simpa using c, a, b, rfl⟩
  · rintro ⟨c, a, b, e⟩; exact ⟨⟨a, b, e.symm⟩, by simpa using c⟩

theorem hasSample_cut (start stop : Int) (f : List FsTrace) (i : Str) (t : Int) :
    HasSample (cutTraces start stop f) i t ↔ HasSample f i t ∧ start ≤ t ∧ t ≤ stop := by
  constructor
  · rintro ⟨tr, ht, hi, h2⟩
    obtain ⟨-, tr0, h0, rfl⟩ := (mem_cutTraces _ _ _ _).1 ht
    simp only [List.mem_filter, Bool.and_eq_true, decide_eq_true_eq] at h2
    exact ⟨⟨tr0, h0, hi, h2.1⟩, h2.2⟩
  · rintro ⟨⟨tr, ht, hi, h2⟩, h3, h4⟩
    have hm : t ∈ tr.times.filter fun t => decide (start ≤ t) && decide (t ≤ stop) := by
      rw [List.mem_filter]; simp [h2, h3, h4]
    exact ⟨_, (mem_cutTraces _ _ _ _).2 ⟨List.ne_nil_of_mem hm, tr, ht, rfl⟩, hi, hm⟩

theorem mergeable_cut (rate : Str → Int) (start stop : Int) (f : List FsTrace) (h : ∀ tr ∈ f, tr.delta = rate tr.id) :
    Mergeable rate (cutTraces start stop f) := by
  intro tr ht
  obtain ⟨h1, tr0, h0, rfl⟩ := (mem_cutTraces _ _ _ _).1 ht
  exact ⟨h1, h tr0 h0⟩

/-! ### One section -/

/-- the samples of one section that are read -/
def InSection (D : Int → List (List FsTrace)) (start stop : Int) (trim : Bool) (d : Int) (i : Str) (t : Int) : Prop :=
  ∃ f ∈ D d, HasSample f i t ∧ (∃ j u, HasSample f j u ∧ u < stop) ∧ (∃ j v, HasSample f j v ∧ start < v) ∧
    (trim = true → start ≤ t ∧ t ≤ stop)

theorem fileSpan_ok (D : Int → List (List FsTrace)) (rate : Str → Int) (s : Int) (hA : FsArchive D rate s) (d : Int) (f : List FsTrace) (hf : f ∈ D d) :
    ∃ sp, fileSpan f = .ok sp ∧ ∀ start stop : Int, (sp.1 < stop ∧ start < sp.2) ↔
      (∃ j u, HasSample f j u ∧ u < stop) ∧ (∃ j v, HasSample f j v ∧ start < v) := by
  obtain ⟨a, b, ha, hb, ho⟩ := hA.ordered d f hf
  have ham : a ∈ f := List.mem_of_head? ha
  have hbm : b ∈ f := List.mem_of_getLast? hb
  refine ⟨(a.first, b.last), by unfold fileSpan; rw [ha, hb], ?_⟩
  have hna := (hA.samples d f hf a ham).1
  have hnb := (hA.samples d f hf b hbm).1
  have e1 : a.times.head? = some a.first := by
    unfold FsTrace.first
    cases h : a.times with
    | nil => exact absurd h hna
    | cons x l => rfl
  have e2 : b.times.getLast? = some b.last := by
    unfold FsTrace.last
    cases h : b.times.getLast? with
    | none => exact absurd (List.getLast?_eq_none_iff.1 h) hnb
    | some x => rfl
  intro start stop
  constructor
  · rintro ⟨h1, h2⟩
    exact ⟨⟨a.id, a.first, ⟨a, ham, rfl, List.mem_of_head? e1⟩, h1⟩, b.id, b.last, ⟨b, hbm, rfl, List.mem_of_getLast? e2⟩, h2⟩
  · rintro ⟨⟨j, u, ⟨tr, ht, -, hu⟩, h1⟩, k, v, ⟨tr', ht', -, hv⟩, h2⟩
    obtain ⟨⟨t0, g1, g2⟩, -⟩ := ho tr ht u hu
    obtain ⟨-, t1, g3, g4⟩ := ho tr' ht' v hv
    rw [e1] at g1
    rw [e2] at g3
    cases g1
    cases g3
    exact ⟨by simp only; omega, by simp only; omega⟩

theorem readPattern_ok (le : Str → Str → Bool) (D : Int → List (List FsTrace)) (rate : Str → Int) (s : Int) (hA : FsArchive D rate s) (d start stop : Int)
    (trim : Bool) : ∃ st, readPattern le (D d) start stop trim = .ok st ∧ Merged rate st ∧ ∀ i t, HasSample st i t ↔ InSection D start stop trim d i t := by
  choose! sp hsp1 hsp2 using fun f (hf : f ∈ D d) => fileSpan_ok D rate s hA d f hf
  unfold readPattern
  rw [mapM_ok _ _ sp hsp1]
  simp only [bind, Except.bind]
  set st0 := ((D d).zip ((D d).map sp)).flatMap fun fs : List FsTrace × Int × Int =>
    if fs.2.1 < stop ∧ start < fs.2.2 then (if trim then cutTraces start stop fs.1 else fs.1) else [] with hst0
  have hz : (D d).zip ((D d).map sp) = (D d).map fun f => (f, sp f) := by
    conv_lhs => rw [← List.map_id (D d)]
    rw [List.map_map, List.zip_map']
    rfl
  have hmem : ∀ tr, tr ∈ st0 ↔ ∃ f ∈ D d, ((∃ j u, HasSample f j u ∧ u < stop) ∧ (∃ j v, HasSample f j v ∧ start < v)) ∧
      tr ∈ (if trim then cutTraces start stop f else f) := by
    intro tr
    rw [hst0, hz, List.mem_flatMap]
    constructor
    · rintro ⟨fs, h1, h2⟩
      obtain ⟨f, hf, rfl⟩ := List.mem_map.1 h1
      split at h2
      · rename_i h
        exact ⟨f, hf, (hsp2 f hf start stop).1 h, h2⟩
      · cases h2
    · rintro ⟨f, hf, h1, h2⟩
      refine ⟨_, List.mem_map.2 ⟨f, hf, rfl⟩, ?_⟩
      rw [if_pos ((hsp2 f hf start stop).2 h1)]
      exact h2
  have hM : Mergeable rate st0 := by
    intro tr ht
    obtain ⟨f, hf, -, h2⟩ := (hmem tr).1 ht
    cases trim with
    | true => exact mergeable_cut rate start stop f (hA.rates d f hf) tr h2
    | false => exact ⟨(hA.samples d f hf tr h2).1, hA.rates d f hf tr h2⟩
  obtain ⟨st', h1, h2, h3⟩ := mergeStream_ok le rate st0 hM
  rw [h1]
  refine ⟨st', rfl, h2, fun i t => (h3 i t).trans ?_⟩
  constructor
  · rintro ⟨tr, ht, hi, htt⟩
    obtain ⟨f, hf, ⟨g1, g2⟩, g3⟩ := (hmem tr).1 ht
    cases trim with
    | true =>
      obtain ⟨k1, k2⟩ := (hasSample_cut start stop f i t).1 ⟨tr, g3, hi, htt⟩
      exact ⟨f, hf, k1, g1, g2, fun _ => k2⟩
    | false => exact ⟨f, hf, ⟨tr, g3, hi, htt⟩, g1, g2, nofun⟩
  · rintro ⟨f, hf, hs, g1, g2, g3⟩
    cases trim with
    | true =>
      obtain ⟨tr, k1, k2, k3⟩ := (hasSample_cut start stop f i t).2 ⟨hs, g3 rfl⟩
      exact ⟨tr, (hmem tr).2 ⟨f, hf, ⟨g1, g2⟩, k1⟩, k2, k3⟩
    | false =>
      obtain ⟨tr, k1, k2, k3⟩ := hs
      exact ⟨tr, (hmem tr).2 ⟨f, hf, ⟨g1, g2⟩, k1⟩, k2, k3⟩

/-! ### The neighbouring sections -/

theorem year_le_of_abs (a b : Civil) (ha : a.Valid) (hb : b.Valid) (h : a.abs ≤ b.abs) : a.year ≤ b.year := by
  by_contra hlt
  have ba := dayNo_bounds a ha
  have bb := dayNo_bounds b hb
  have h1 := daysBeforeYear_lt b.year a.year (by omega)
  have h2 := daysBeforeYear_succ b.year
  have := abs_lt_of_dayNo b a hb.2.2.2.2.2.2 (by omega)
  omega

theorem size_pos (u : TimeUnit) (s : Int) (h : u.size = some s) : 0 < s := by
  cases u <;> simp only [TimeUnit.size, Option.some.injEq, reduceCtorEq] at h <;> subst h <;> decide

theorem adjacent_ok (fs : List (List Str)) (p : Str) (u : TimeUnit) (s : Int) (t : Civil) (inc : Int) (hp : LastTime fs p) (hu : unitOf p = some u)
    (hs : u.size = some s) (hinc : inc = 1 ∨ inc = -1) (ht : t.Valid) (h2 : 2 ≤ t.year) (h9 : t.year ≤ 9998) :
    ∃ t', adjacentTime t inc fs = .ok t' ∧ t'.Valid ∧ t'.abs = t.abs + inc * s := by
  have hm : u ≠ .month := by rintro rfl; cases hs
  have hy : u ≠ .year := by rintro rfl; cases hs
  obtain ⟨t', h⟩ := (c65_built_partial fs p u t inc hp hu hinc ht ⟨h2, h9⟩).1 hm hy
  obtain ⟨hv, hM, -⟩ := c65_moved_partial fs p u t t' inc hp hu hy hinc ht h
  refine ⟨t', h, hv, ?_⟩
  unfold Moved at hM
  cases u <;> first
    | exact absurd rfl hm
    | exact absurd rfl hy
    | (obtain ⟨s', e, h'⟩ := hM; rw [hs] at e; cases e; exact h')

/-- the files of a time are the files of its section -/
def Sectioned (W : FsWorld) (id : Str) (fs : List (List Str)) (D : Int → List (List FsTrace)) (s : Int) : Prop :=
  ∀ t : Civil, t.Valid → ∃ path, currentPattern W.strftime id t fs = .ok path ∧ W.glob path = D (t.abs / s)

theorem isShort_false (stop : Int) (rate : Str → Int) (st : List FsTrace) (h : Mergeable rate st) (hn : isShort stop st ≠ true) :
    ∃ i t, HasSample st i t ∧ stop ≤ t := by
  unfold isShort at hn
  cases hh : st.head? with
  | none => rw [hh] at hn; exact absurd rfl hn
  | some tr =>
    rw [hh] at hn
    have hn : ¬ tr.last < stop := fun h => hn (decide_eq_true h)
    have hm := List.mem_of_head? hh
    refine ⟨tr.id, tr.last, ⟨tr, hm, rfl, ?_⟩, by omega⟩
    unfold FsTrace.last
    cases hl : tr.times.getLast? with
    | none => exact absurd (List.getLast?_eq_none_iff.1 hl) (h tr hm).1
    | some x => exact List.mem_of_getLast? hl

theorem ediv_add_mul (a s k : Int) (hs : 0 < s) : (a + k * s) / s = a / s + k := by
  rw [Int.add_mul_ediv_right _ _ (by omega)]

/-- a section with a sample that is read lies between the sections of the start and of the end -/
theorem inSection_bounds (D : Int → List (List FsTrace)) (rate : Str → Int) (s : Int) (hs : 0 < s) (hA : FsArchive D rate s) (start stop : Int) (trim : Bool)
    (d : Int) (i : Str) (t : Int) (h : InSection D start stop trim d i t) : start / s ≤ d ∧ d * s < stop := by
  obtain ⟨f, hf, -, ⟨j, u, ⟨tr, a1, -, a2⟩, hu⟩, ⟨k, v, ⟨tr', b1, -, b2⟩, hv⟩, -⟩ := h
  have h1 := (hA.samples d f hf tr a1).2.2 u a2
  have h2 := (hA.samples d f hf tr' b1).2.2 v b2
  have h3 : start < (d + 1) * s := by omega
  have := Int.ediv_lt_of_lt_mul hs h3
  omega

theorem fsLoop_ok (W : FsWorld) (id : Str) (fs : List (List Str)) (p : Str) (u : TimeUnit) (s : Int) (hp : LastTime fs p) (hu : unitOf p = some u)
    (hs : u.size = some s) (start stop : Civil) (hv : start.Valid) (hv' : stop.Valid) (hy : 2 ≤ start.year) (hy' : stop.year ≤ 9998)
    (D : Int → List (List FsTrace)) (rate : Str → Int) (hD : Sectioned W id fs D s) (hA : FsArchive D rate s) (trim : Bool) (n : Nat) :
    ∀ (k : Nat) (st : List FsTrace) (this : Civil), this.Valid → this.abs = start.abs + k * s → Merged rate st →
      (∀ i t, HasSample st i t → ∃ d ≤ start.abs / s + k, InSection D start.abs stop.abs trim d i t) →
      (∀ i t, ∀ d ≤ start.abs / s + k, InSection D start.abs stop.abs trim d i t → HasSample st i t) →
      stop.abs - this.abs ≤ n * s →
      ∃ st', (∀ fuel, n ≤ fuel → fsLoop W id fs start stop trim fuel st this = .ok (some st')) ∧ Merged rate st' ∧
        ∀ i t, HasSample st' i t ↔ InPeriod D start.abs stop.abs trim i t := by
  have hs0 := size_pos u s hs
  have hdone : ∀ (k : Nat) (st : List FsTrace) (this : Civil), this.abs = start.abs + k * s → Merged rate st →
      (∀ i t, HasSample st i t → ∃ d ≤ start.abs / s + k, InSection D start.abs stop.abs trim d i t) →
      (∀ i t, ∀ d ≤ start.abs / s + k, InSection D start.abs stop.abs trim d i t → HasSample st i t) →
      ¬ (isShort stop.abs st = true ∧ this.abs < stop.abs) → ∀ i t, HasSample st i t ↔ InPeriod D start.abs stop.abs trim i t := by
    intro k st this hth hM hsound hcomp hc i t
    constructor
    · intro h
      obtain ⟨d, -, h⟩ := hsound i t h
      exact ⟨d, h⟩
    · rintro ⟨d, hd⟩
      apply hcomp i t d _ hd
      obtain ⟨-, h2⟩ := inSection_bounds D rate s hs0 hA _ _ _ d i t hd
      rw [not_and_or] at hc
      rcases hc with hc | hc
      · obtain ⟨j, v, hj, hjv⟩ := isShort_false stop.abs rate st hM.1 hc
        obtain ⟨d', hd', f, hf, ⟨tr, a1, -, a2⟩, -⟩ := hsound j v hj
        have := ((hA.samples d' f hf tr a1).2.2 v a2).2
        have h3 : d * s < (d' + 1) * s := by omega
        have := lt_of_mul_lt_mul_right h3 hs0.le
        omega
      · have h3 : d * s ≤ start.abs + k * s := by omega
        have := Int.le_ediv_of_mul_le hs0 h3
        rw [ediv_add_mul _ _ _ hs0] at this
        exact this
  induction n with
  | zero =>
    intro k st this hthv hth hM hsound hcomp hle
    have hc : ¬ (isShort stop.abs st = true ∧ this.abs < stop.abs) := by rintro ⟨-, h⟩; simp at hle; omega
    refine ⟨st, fun fuel _ => ?_, hM, hdone k st this hth hM hsound hcomp hc⟩
    unfold fsLoop
    rw [if_neg hc]
  | succ n ih =>
    intro k st this hthv hth hM hsound hcomp hle
    by_cases hc : isShort stop.abs st = true ∧ this.abs < stop.abs
    · have hky : (0 : Int) ≤ k * s := by positivity
      have y1 := year_le_of_abs start this hv hthv (by omega)
      have y2 := year_le_of_abs this stop hthv hv' (by omega)
      obtain ⟨t', h1, h2, h3⟩ := adjacent_ok fs p u s this 1 hp hu hs (Or.inl rfl) hthv (by omega) (by omega)
      obtain ⟨path, g1, g2⟩ := hD t' h2
      have h3' : t'.abs = start.abs + ((k + 1 : Nat) : Int) * s := by push_cast; rw [h3, hth]; ring
      obtain ⟨new, r1, r2, r3⟩ := readPattern_ok W.le D rate s hA (t'.abs / s) start.abs stop.abs trim
      have hdiv : t'.abs / s = start.abs / s + ((k + 1 : Nat) : Int) := by rw [h3', ediv_add_mul _ _ _ hs0]
      obtain ⟨st2, m1, m2, m3⟩ := mergeStream_ok W.le rate (st ++ new) (by
        intro tr ht
        rcases List.mem_append.1 ht with h | h
        · exact hM.1 tr h
        · exact r2.1 tr h)
      have hne : t' ≠ start := by
        rintro rfl
        have : (0 : Int) < ((k + 1 : Nat) : Int) * s := by positivity
        omega
      obtain ⟨st', e1, e2, e3⟩ := ih (k + 1) st2 t' h2 h3' m2 (by
        intro i t h
        rw [m3, hasSample_append] at h
        rcases h with h | h
        · obtain ⟨d, hd, hh⟩ := hsound i t h
          exact ⟨d, by push_cast; omega, hh⟩
        · exact ⟨t'.abs / s, by rw [hdiv], (r3 i t).1 h⟩) (by
        intro i t d hd h
        rw [m3, hasSample_append]
        rcases Int.lt_or_le (start.abs / s + k) d with hlt | hge
        · right
          rw [r3, hdiv, show start.abs / s + ((k + 1 : Nat) : Int) = d by push_cast at hd ⊢; omega]
          exact h
        · exact Or.inl (hcomp i t d hge h)) (by push_cast at hle; rw [h3]; linarith)
      refine ⟨st', fun fuel hf => ?_, e2, e3⟩
      obtain ⟨m, rfl⟩ : ∃ m, fuel = m + 1 := ⟨fuel - 1, by omega⟩
      unfold fsLoop
      rw [if_pos hc]
      simp only [h1, bind, Except.bind, g1, FsWorld.read, g2, r1, if_neg hne, m1]
      exact e1 m (by omega)
    · refine ⟨st, fun fuel _ => ?_, hM, hdone k st this hth hM hsound hcomp hc⟩
      unfold fsLoop
      rw [if_neg hc]

/-! ### C141 -/

theorem selectId_sub (id : Str) (st : List FsTrace) (i : Str) (t : Int) :
    HasSample (selectId id st) i t ↔ HasSample st i t ∧ fnmatch (i.map Char.toUpper) (id.map Char.toUpper) = true := by
  unfold HasSample selectId
  simp only [List.mem_filter]
  constructor
  · rintro ⟨tr, ⟨a, b⟩, rfl, c⟩; exact ⟨⟨tr, a, rfl, c⟩, b⟩
  · rintro ⟨⟨tr, a, rfl, c⟩, b⟩; exact ⟨tr, ⟨a, b⟩, rfl, c⟩

/-- **C141** (part) Reading a period from an archive with files for sections of equal length (days for the SeisComP data structure, hours, half days) terminates without
an error. It returns one trace for each channel that the requested id matches. The traces contain, in order and without repetition, exactly the samples of the
files that have samples before the end and after the start of the period, and only samples of the period if data are trimmed. So all samples strictly within
the period are returned (`c141_inside`). Missing: a sample exactly at the start or the end (`c141_end_violated`, `c141_start_violated`), other archives
(`c141_order_violated`, `c141_rates_violated`, `c141_year_violated`). -/
theorem c141_period_partial (W : FsWorld) (id : Str) (fs : List (List Str)) (p : Str) (u : TimeUnit) (s : Int) (hp : LastTime fs p) (hu : unitOf p = some u)
    (hs : u.size = some s) (start stop : Civil) (hv : start.Valid) (hv' : stop.Valid) (hy : 2 ≤ start.year) (hy1 : start.year ≤ 9998) (hy' : stop.year ≤ 9998)
    (D : Int → List (List FsTrace)) (rate : Str → Int) (hD : Sectioned W id fs D s) (hA : FsArchive D rate s) (trim : Bool) :
    ∃ st, (∀ fuel : Nat, (stop.abs - start.abs) / s < fuel → readFs W id fs start stop trim fuel = .ok (some st)) ∧
      (st.map FsTrace.id).Nodup ∧ (∀ tr ∈ st, tr.times ≠ [] ∧ tr.times.Pairwise (· < ·) ∧ tr.delta = rate tr.id) ∧
      ∀ i t, HasSample st i t ↔ fnmatch (i.map Char.toUpper) (id.map Char.toUpper) = true ∧ InPeriod D start.abs stop.abs trim i t := by
  have hs0 := size_pos u s hs
  obtain ⟨path, g1, g2⟩ := hD start hv
  obtain ⟨st0, r1, r2, r3⟩ := readPattern_ok W.le D rate s hA (start.abs / s) start.abs stop.abs trim
  -- the previous section adds nothing that is not in the period
  have hprev : ∃ st1, fsPrevious W id fs start stop trim st0 = .ok st1 ∧ Merged rate st1 ∧
      ∀ i t, HasSample st1 i t ↔ InSection D start.abs stop.abs trim (start.abs / s) i t := by
    unfold fsPrevious
    split
    · obtain ⟨t', h1, h2, h3⟩ := adjacent_ok fs p u s start (-1) hp hu hs (Or.inr rfl) hv hy hy1
      obtain ⟨path', g1', g2'⟩ := hD t' h2
      obtain ⟨new, n1, n2, n3⟩ := readPattern_ok W.le D rate s hA (t'.abs / s) start.abs stop.abs trim
      obtain ⟨st2, m1, m2, m3⟩ := mergeStream_ok W.le rate (st0 ++ new) (by
        intro tr ht
        rcases List.mem_append.1 ht with h | h
        · exact r2.1 tr h
        · exact n2.1 tr h)
      refine ⟨st2, ?_, m2, fun i t => ?_⟩
      · simp only [h1, bind, Except.bind, g1', FsWorld.read, g2', n1, m1]
      · rw [m3, hasSample_append, r3, n3]
        constructor
        · rintro (h | h)
          · exact h
          · have := (inSection_bounds D rate s hs0 hA _ _ _ _ i t h).1
            rw [h3, ediv_add_mul _ _ _ hs0] at this
            omega
        · exact Or.inl
    · exact ⟨st0, rfl, r2, r3⟩
  obtain ⟨st1, p1, p2, p3⟩ := hprev
  obtain ⟨st', e1, e2, e3⟩ := fsLoop_ok W id fs p u s hp hu hs start stop hv hv' hy hy' D rate hD hA trim
    ((stop.abs - start.abs) / s + 1).toNat 0 st1 start hv (by simp) p2
    (by intro i t h; exact ⟨start.abs / s, by simp, (p3 i t).1 h⟩)
    (by
      intro i t d hd h
      have := (inSection_bounds D rate s hs0 hA _ _ _ _ i t h).1
      rw [show d = start.abs / s by simp at hd; omega] at h
      exact (p3 i t).2 h)
    (by
      have h1 := Int.lt_ediv_add_one_mul_self (stop.abs - start.abs) hs0
      have h2 : (stop.abs - start.abs) / s + 1 ≤ (((stop.abs - start.abs) / s + 1).toNat : Int) := Int.self_le_toNat _
      have := Int.mul_le_mul_of_nonneg_right h2 hs0.le
      omega)
  set st2 := if trim then cutTraces start.abs stop.abs st' else st' with hst2
  have hst2' : (st2.map FsTrace.id).Nodup ∧ (∀ tr ∈ st2, tr.times ≠ [] ∧ tr.times.Pairwise (· < ·) ∧ tr.delta = rate tr.id) ∧
      ∀ i t, HasSample st2 i t ↔ InPeriod D start.abs stop.abs trim i t := by
    cases trim with
    | false => exact ⟨e2.2.1, fun tr h => ⟨(e2.1 tr h).1, e2.2.2 tr h, (e2.1 tr h).2⟩, e3⟩
    | true =>
      rw [if_pos rfl] at hst2
      rw [hst2]
      refine ⟨?_, ?_, fun i t => ?_⟩
      · apply List.Nodup.sublist _ e2.2.1
        unfold cutTraces
        refine (List.Sublist.map _ List.filter_sublist).trans ?_
        rw [List.map_map]
        exact List.Sublist.refl _
      · intro tr ht
        obtain ⟨h1, tr0, h0, rfl⟩ := (mem_cutTraces _ _ _ _).1 ht
        exact ⟨h1, (e2.2.2 tr0 h0).filter _, (e2.1 tr0 h0).2⟩
      · rw [hasSample_cut, e3]
        constructor
        · exact And.left
        · intro h
          obtain ⟨d, f, hf, a, b, c, e⟩ := h
          exact ⟨⟨d, f, hf, a, b, c, e⟩, e rfl⟩
  refine ⟨selectId id st2, fun fuel hf => ?_, ?_, ?_, fun i t => ?_⟩
  · unfold readFs
    simp only [g1, bind, Except.bind, FsWorld.read, g2, r1, p1, e1 fuel (by omega)]
    rfl
  · exact List.Nodup.sublist (List.Sublist.map _ List.filter_sublist) hst2'.1
  · exact fun tr h => hst2'.2.1 tr (List.mem_filter.1 h).1
  · rw [selectId_sub, hst2'.2.2, and_comm]

/-- **C141** Every sample of the archive strictly within the period is one of those samples. -/
theorem c141_inside (D : Int → List (List FsTrace)) (start stop d : Int) (f : List FsTrace) (hf : f ∈ D d) (i : Str) (t : Int) (h : HasSample f i t)
    (h1 : start < t) (h2 : t < stop) (trim : Bool) : InPeriod D start stop trim i t :=
  ⟨d, f, hf, h, ⟨i, t, h, h2⟩, ⟨i, t, h, h1⟩, fun _ => ⟨h1.le, h2.le⟩⟩

/-- **C141** (ids) An id without wildcards selects the channels with the same id, without regard to case. -/
theorem c141_select (id : Str) (h : ∀ c ∈ id.map Char.toUpper, c ≠ '*' ∧ c ≠ '?' ∧ c ≠ '[') (i : Str) :
    fnmatch (i.map Char.toUpper) (id.map Char.toUpper) = true ↔ i.map Char.toUpper = id.map Char.toUpper := by
  generalize i.map Char.toUpper = x
  generalize id.map Char.toUpper = y at h
  unfold fnmatch
  induction y generalizing x with
  | nil => rw [toks_nil, tmatch_nil]
  | cons c y ih =>
    rw [toks_lit c y (h c (by simp)), tmatch_lit]
    constructor
    · rintro ⟨v, rfl, hv⟩
      rw [(ih v (fun c hc => h c (List.mem_cons_of_mem _ hc))).1 hv]
    · rintro rfl
      exact ⟨y, rfl, (ih y (fun c hc => h c (List.mem_cons_of_mem _ hc))).2 rfl⟩

/-- **C141** (violated). A sample exactly at the end of the period is not returned if it is the first one of its file, for example the sample at midnight for a period that ends
at midnight. -/
theorem c141_end_violated (W : FsWorld) (id : Str) (fs : List (List Str)) (p : Str) (u : TimeUnit) (s : Int) (hp : LastTime fs p) (hu : unitOf p = some u)
    (hs : u.size = some s) (start stop : Civil) (hv : start.Valid) (hv' : stop.Valid) (hy : 2 ≤ start.year) (hy1 : start.year ≤ 9998) (hy' : stop.year ≤ 9998)
    (D : Int → List (List FsTrace)) (rate : Str → Int) (hD : Sectioned W id fs D s) (hA : FsArchive D rate s) (trim : Bool) (i : Str)
    (hf : ∀ d, ∀ f ∈ D d, HasSample f i stop.abs → ∀ j v, HasSample f j v → stop.abs ≤ v) :
    ∃ st, (∀ fuel : Nat, (stop.abs - start.abs) / s < fuel → readFs W id fs start stop trim fuel = .ok (some st)) ∧ ¬ HasSample st i stop.abs := by
  obtain ⟨st, h1, -, -, h2⟩ := c141_period_partial W id fs p u s hp hu hs start stop hv hv' hy hy1 hy' D rate hD hA trim
  refine ⟨st, h1, fun h => ?_⟩
  obtain ⟨-, d, f, hfd, a, ⟨j, v, b, c⟩, -⟩ := (h2 i stop.abs).1 h
  have := hf d f hfd a j v b
  omega

/-- **C141** (violated). A sample exactly at the start of the period is not returned if it is the last one of its file. -/
theorem c141_start_violated (W : FsWorld) (id : Str) (fs : List (List Str)) (p : Str) (u : TimeUnit) (s : Int) (hp : LastTime fs p) (hu : unitOf p = some u)
    (hs : u.size = some s) (start stop : Civil) (hv : start.Valid) (hv' : stop.Valid) (hy : 2 ≤ start.year) (hy1 : start.year ≤ 9998) (hy' : stop.year ≤ 9998)
    (D : Int → List (List FsTrace)) (rate : Str → Int) (hD : Sectioned W id fs D s) (hA : FsArchive D rate s) (trim : Bool) (i : Str)
    (hf : ∀ d, ∀ f ∈ D d, HasSample f i start.abs → ∀ j v, HasSample f j v → v ≤ start.abs) :
    ∃ st, (∀ fuel : Nat, (stop.abs - start.abs) / s < fuel → readFs W id fs start stop trim fuel = .ok (some st)) ∧ ¬ HasSample st i start.abs := by
  obtain ⟨st, h1, -, -, h2⟩ := c141_period_partial W id fs p u s hp hu hs start stop hv hv' hy hy1 hy' D rate hD hA trim
  refine ⟨st, h1, fun h => ?_⟩
  obtain ⟨-, d, f, hfd, a, -, ⟨j, v, b, c⟩, -⟩ := (h2 i start.abs).1 h
  have := hf d f hfd a j v b
  omega

/-- **C141** (violated). If the traces of a file are not in order, samples in the middle of the period are not read. -/
theorem c141_order_violated (le : Str → Str → Bool) (i : Str) :
    let f : List FsTrace := [⟨i, 1, [10, 11, 12]⟩, ⟨i, 1, [0, 1]⟩]
    HasSample f i 11 ∧ readPattern le [f] 5 20 true = .ok [] :=
  ⟨⟨_, List.mem_cons_self, rfl, by simp⟩, rfl⟩

/-- **C141** (violated). If the sampling rate of a channel changes within a day, the data of this day are left out without an error. If it changes from one day to the
next, the request fails. -/
theorem c141_rates_violated (le : Str → Str → Bool) (i : Str) :
    (let f : List FsTrace := [⟨i, 1, [1, 2, 3]⟩, ⟨i, 2, [5, 7]⟩]
     HasSample f i 2 ∧ readPattern le [f] 0 10 true = .ok []) ∧
    ∃ a b, readPattern le [[⟨i, 1, [1, 2, 3]⟩]] 0 10 true = .ok a ∧ readPattern le [[⟨i, 2, [5, 7]⟩]] 0 10 true = .ok b ∧
      mergeStream le (a ++ b) = .error .obsPyError := by
  refine ⟨⟨⟨_, List.mem_cons_self, rfl, by simp⟩, ?_⟩, [⟨i, 1, [1, 2, 3]⟩], [⟨i, 2, [5, 7]⟩], ?_, ?_, ?_⟩
  all_goals
    simp [readPattern, mergeStream, mergeId, fileSpan, FsTrace.first, FsTrace.last, cutTraces, isort, insertSorted, List.eraseDups_cons, bind, Except.bind, pure,
      Except.pure]

/-- **C141** (violated). With yearly files a period that reaches into the next year can't be read: the files of all previous years are searched, and then a ValueError is raised. -/
theorem c141_year_violated (W : FsWorld) (id : Str) (fs : List (List Str)) (p : Str) (hp : LastTime fs p) (hu : unitOf p = some .year) (start stop : Civil)
    (hv : start.Valid) (hlt : start.abs < stop.abs) (D : Int → List (List FsTrace))
    (hD : ∀ t : Civil, t.Valid → ∃ path, currentPattern W.strftime id t fs = .ok path ∧ W.glob path = D t.year)
    (hold : ∀ y < start.year, D y = []) (tr : FsTrace) (hthis : D start.year = [[tr]]) (hpos : tr.times.Pairwise (· < ·))
    (hbeg : ∃ t ∈ tr.times, start.abs < t ∧ t ≤ start.abs + tr.delta) (hend : ∀ t ∈ tr.times, t < stop.abs) (fuel : Nat) (hf : start.year ≤ fuel) :
    readFs W id fs start stop true fuel = .error .valueError := by
  -- the loop
  have hloop : ∀ (n : Nat) (st : List FsTrace) (this : Civil), this.Valid → this.year ≤ n → this.year ≤ start.year → this.abs ≤ start.abs →
      Mergeable (fun _ => tr.delta) st → (∀ i t, HasSample st i t → t < stop.abs) → fsLoop W id fs start stop true n st this = .error .valueError := by
    intro n
    induction n with
    | zero =>
      intro st this h1 h2
      have := h1.1
      omega
    | succ n ih =>
      intro st this h1 h2 h3 h4 h5 h6
      have hc : isShort stop.abs st = true ∧ this.abs < stop.abs := by
        refine ⟨?_, by omega⟩
        by_contra hn
        obtain ⟨i, t, a, b⟩ := isShort_false stop.abs _ st h5 hn
        have := h6 i t a
        omega
      unfold fsLoop
      rw [if_pos hc]
      simp only [bind, Except.bind]
      cases ha : adjacentTime this 1 fs with
      | error e =>
        rw [adjacentTime_eq this 1 fs p (Or.inl rfl) hp, shiftTime_eq this 1 p _ hu] at ha
        unfold shiftUnit mkCivil at ha
        simp only at ha
        split at ha
        · cases ha
        · cases ha; rfl
      | ok t' =>
        obtain ⟨hm1, hm2, -⟩ := c65_year_violated fs p this t' 1 hp hu (Or.inl rfl) h1 ha
        have hv' : t'.Valid := by
          rw [adjacentTime_eq this 1 fs p (Or.inl rfl) hp, shiftTime_eq this 1 p _ hu] at ha
          exact (mkCivil_ok _ _ _ _ _ ha).2
        obtain ⟨path, g1, g2⟩ := hD t' hv'
        have hy : t'.year = this.year - 1 := hm1.1
        have habs := hm2 rfl
        have hne : t' ≠ start := by rintro rfl; omega
        obtain ⟨st', m1, m2, m3⟩ := mergeStream_ok W.le (fun _ => tr.delta) (st ++ []) (by rw [List.append_nil]; exact h5)
        have hr : readPattern W.le [] start.abs stop.abs true = .ok [] := rfl
        simp only [g1, if_neg hne, FsWorld.read, g2, hold t'.year (by omega), hr, m1]
        refine ih st' t' hv' (by push_cast at h2; omega) (by omega) (by omega) m2.1 ?_
        intro i t h
        rw [m3, List.append_nil] at h
        exact h6 i t h
  obtain ⟨path, g1, g2⟩ := hD start hv
  obtain ⟨t0, ht0, hb1, hb2⟩ := hbeg
  have hcut : t0 ∈ tr.times.filter fun t => decide (start.abs ≤ t) && decide (t ≤ stop.abs) := by
    rw [List.mem_filter]
    have := hend t0 ht0
    simp only [Bool.and_eq_true, decide_eq_true_eq]
    exact ⟨ht0, by omega, by omega⟩
  have hfirst : ∀ (l : List Int), l.Pairwise (· < ·) → ∀ t ∈ l, l.head?.getD 0 ≤ t := by
    intro l h t ht
    cases l with
    | nil => cases ht
    | cons a l =>
      rcases List.mem_cons.1 ht with rfl | ht
      · exact le_refl _
      · exact ((List.pairwise_cons.1 h).1 t ht).le
  have hlast : start.abs < tr.last := by
    have hm : ∀ (l : List Int), l.Pairwise (· < ·) → ∀ t ∈ l, t ≤ l.getLast?.getD 0 := by
      intro l h t ht
      have hne := List.ne_nil_of_mem ht
      rw [List.getLast?_eq_some_getLast hne, Option.getD_some]
      obtain ⟨k, hk, rfl⟩ := List.mem_iff_getElem.1 ht
      rw [List.getLast_eq_getElem]
      rcases Nat.lt_or_ge k (l.length - 1) with h' | h'
      · exact (List.pairwise_iff_getElem.1 h k (l.length - 1) hk (by omega) h').le
      · apply le_of_eq; congr 1; omega
    have := hm tr.times hpos t0 ht0
    unfold FsTrace.last
    omega
  have hmem : tr.times.filter (fun t => decide (start.abs ≤ t) && decide (t ≤ stop.abs)) ≠ [] := List.ne_nil_of_mem hcut
  have hsp : tr.first < stop.abs ∧ start.abs < tr.last := by
    refine ⟨?_, hlast⟩
    have := hfirst tr.times hpos t0 ht0
    have := hend t0 ht0
    unfold FsTrace.first
    omega
  set tr' : FsTrace := { tr with times := tr.times.filter fun t => decide (start.abs ≤ t) && decide (t ≤ stop.abs) } with htr'
  have hc : cutTraces start.abs stop.abs [tr] = [tr'] := by
    unfold cutTraces
    rw [List.map_cons, List.map_nil, List.filter_cons, if_pos (by simpa using hmem), List.filter_nil]
  have hM : Mergeable (fun _ => tr.delta) [tr'] := by
    intro x hx
    rw [List.mem_singleton] at hx
    subst hx
    exact ⟨hmem, rfl⟩
  have hmerge : mergeStream W.le [tr'] = .ok [mergedTrace (fun _ => tr.delta) [tr'] tr.id] := by
    have h1 : isort W.le ([tr'].map FsTrace.id).eraseDups = [tr.id] := rfl
    unfold mergeStream
    rw [h1, mapM_ok [tr.id] _ (mergedTrace (fun _ => tr.delta) [tr']) (fun i hi => mergeId_ok _ _ hM i (by simpa using hi))]
    rfl
  set st0 := [mergedTrace (fun _ => tr.delta) [tr'] tr.id] with hst0
  have hr : readPattern W.le [[tr]] start.abs stop.abs true = .ok st0 := by
    unfold readPattern
    have : [[tr]].mapM fileSpan = .ok [(tr.first, tr.last)] := rfl
    rw [this]
    simp only [bind, Except.bind, List.zip_cons_cons, List.zip_nil_right, List.flatMap_cons, List.flatMap_nil, List.append_nil, if_pos hsp, if_true, hc, hmerge]
  have hs0 : ∀ i t, HasSample st0 i t → t < stop.abs := by
    rintro i t ⟨x, hx, -, ht⟩
    rw [hst0, List.mem_singleton] at hx
    subst hx
    obtain ⟨y, hy, -, ht⟩ := (mem_mergedTrace _ _ _ _).1 ht
    rw [List.mem_singleton] at hy
    subst hy
    exact hend t (List.mem_filter.1 ht).1
  have hM0 : Mergeable (fun _ => tr.delta) st0 := by
    intro x hx
    rw [hst0, List.mem_singleton] at hx
    subst hx
    exact ⟨List.ne_nil_of_mem ((mem_mergedTrace _ _ _ _).2 ⟨tr', List.mem_singleton.2 rfl, rfl, hcut⟩), rfl⟩
  have hlate : isLate start.abs st0 = false := by
    unfold isLate
    rw [hst0, List.head?_cons]
    simp only [decide_eq_false_iff_not, not_lt]
    have h1 : t0 ∈ (mergedTrace (fun _ => tr.delta) [tr'] tr.id).times := (mem_mergedTrace _ _ _ _).2 ⟨tr', List.mem_singleton.2 rfl, rfl, hcut⟩
    have h2 := hfirst _ (sorted_isort_dedup _) t0 h1
    have h3 : (mergedTrace (fun _ => tr.delta) [tr'] tr.id).delta = tr.delta := rfl
    rw [h3]
    unfold FsTrace.first
    have h4 : (mergedTrace (fun _ => tr.delta) [tr'] tr.id).times.head?.getD 0 ≤ t0 := h2
    omega
  unfold readFs
  simp only [g1, bind, Except.bind, FsWorld.read, g2, hthis, hr, fsPrevious, hlate, Bool.false_eq_true, if_false]
  rw [hloop fuel st0 start hv hf (le_refl _) (le_refl _) hM0 hs0]

/-! ### The hypotheses -/

/-- **C141** (SeisComP data structure) For an archive with the files `base/YEAR/NET/STA/CHA.D/NET.STA.LOC.CHA.D.YEAR.DAY` the sections are the days. -/
theorem c141_sds (W : FsWorld) (base n s l c : Str) (D : Int → List (List FsTrace)) (hn : '.' ∉ n) (hs : '.' ∉ s) (hl : '.' ∉ l) (hc : '.' ∉ c)
    (hst : ∀ t x, '%' ∉ x → W.strftime t x = x) (hb : '%' ∉ base ∧ base ≠ [] ∧ base.getLast? ≠ some '/')
    (hne : ∀ t, ∀ x ∈ [W.strftime t c!"%Y", n, s, c], x ≠ [] ∧ '/' ∉ x)
    (hW : ∀ t : Civil, t.Valid → W.glob (joinWith c!"/" [base, W.strftime t c!"%Y", n, s, c ++ c!".D",
        joinWith c!"." [n, s, l, c, c!"D", W.strftime t c!"%Y", W.strftime t c!"%j"]]) = D t.dayNo) :
    Sectioned W (n ++ '.' :: (s ++ '.' :: (l ++ '.' :: c))) (sdsStructure base) D dayUs ∧ LastTime (sdsStructure base) c!"%j" ∧
      unitOf c!"%j" = some .day ∧ TimeUnit.day.size = some dayUs := by
  refine ⟨fun t ht => ⟨_, c66_sds W.strftime base n s l c t hn hs hl hc (hst t) hb (hne t), ?_⟩, lastTime_sds base, rfl, rfl⟩
  rw [hW t ht, (abs_bounds t ht).2.2]

/-- the files of a station with a sample every hour -/
def hourlyFiles (i : Str) (d : Int) : List (List FsTrace) := [[⟨i, hourUs, (List.range 24).map fun k : Nat => d * dayUs + (k : Int) * hourUs⟩]]

theorem mem_hourly (d t : Int) : t ∈ ((List.range 24).map fun k : Nat => d * dayUs + (k : Int) * hourUs) ↔ ∃ k : Nat, k < 24 ∧ t = d * dayUs + (k : Int) * hourUs := by
  simp only [List.mem_map, List.mem_range]
  constructor <;> rintro ⟨k, a, b⟩ <;> exact ⟨k, a, b.symm⟩

theorem hourly_archive (i : Str) : FsArchive (hourlyFiles i) (fun _ => hourUs) dayUs := by
  have hu : dayUs = 24 * hourUs := by decide
  have hh : (0 : Int) < hourUs := by decide
  refine ⟨?_, ?_, ?_⟩
  · intro d f hf tr ht
    simp only [hourlyFiles, List.mem_singleton] at hf
    subst hf
    rw [List.mem_singleton] at ht
    subst ht
    refine ⟨by simp, ?_, ?_⟩
    · rw [List.pairwise_map]
      refine List.pairwise_lt_range.imp fun {a b} h => ?_
      have : ((a : Int) + 1) * hourUs ≤ b * hourUs := Int.mul_le_mul_of_nonneg_right (by omega) hh.le
      linarith
    · intro t ht
      obtain ⟨k, hk, rfl⟩ := (mem_hourly d t).1 ht
      have h0 : (0 : Int) ≤ k * hourUs := Int.mul_nonneg (by omega) hh.le
      have h1 : (k : Int) * hourUs ≤ 24 * hourUs := Int.mul_le_mul_of_nonneg_right (by omega) hh.le
      constructor
      · omega
      · rw [show (d + 1) * dayUs = d * dayUs + dayUs by ring, hu]; omega
  · intro d f hf tr ht
    simp only [hourlyFiles, List.mem_singleton] at hf
    subst hf
    rw [List.mem_singleton] at ht
    subst ht
    rfl
  · intro d f hf
    simp only [hourlyFiles, List.mem_singleton] at hf
    subst hf
    refine ⟨_, _, rfl, rfl, ?_⟩
    intro tr ht t htt
    rw [List.mem_singleton] at ht
    subst ht
    obtain ⟨k, hk, rfl⟩ := (mem_hourly d t).1 htt
    refine ⟨⟨d * dayUs + ((0 : Nat) : Int) * hourUs, rfl, ?_⟩, d * dayUs + ((23 : Nat) : Int) * hourUs, rfl, ?_⟩
    · have h0 : (0 : Int) ≤ k * hourUs := Int.mul_nonneg (by omega) hh.le
      push_cast
      omega
    · have h1 : (k : Int) * hourUs ≤ (23 : Nat) * hourUs := Int.mul_le_mul_of_nonneg_right (by omega) hh.le
      omega

/-- An archive of a channel in the SeisComP data structure: all hypotheses of `c141_period_partial` and of `c141_end_violated`, for a period of two days. The names of the days
are simplified to a number of `~`. -/
example :
    let id := c!"AB" ++ '.' :: (c!"X" ++ '.' :: (c!"00" ++ '.' :: c!"HHZ"))
    let W : FsWorld := ⟨fun t x => if x = c!"%Y" then c!"2015" else if x = c!"%j" then List.replicate t.dayNo.toNat '~' else x,
      fun p => hourlyFiles id ((p.filter (· = '~')).length : Nat), fun _ _ => true⟩
    ∃ D rate, Sectioned W id (sdsStructure c!"archive") D dayUs ∧ FsArchive D rate dayUs ∧
      (⟨2015, 5, 1, 0⟩ : Civil).Valid ∧ (⟨2015, 5, 3, 0⟩ : Civil).Valid ∧
      (∀ d, ∀ f ∈ D d, HasSample f id (⟨2015, 5, 3, 0⟩ : Civil).abs → ∀ j v, HasSample f j v → (⟨2015, 5, 3, 0⟩ : Civil).abs ≤ v) ∧
      ∃ d, ∃ f ∈ D d, HasSample f id (⟨2015, 5, 3, 0⟩ : Civil).abs := by
  intro id W
  refine ⟨hourlyFiles id, fun _ => hourUs, ?_, hourly_archive id, by decide, by decide, ?_, ?_⟩
  · refine (c141_sds W c!"archive" c!"AB" c!"X" c!"00" c!"HHZ" (hourlyFiles id) (by decide) (by decide) (by decide) (by decide) ?_ (by decide) ?_ ?_).1
    · intro t x hx
      simp only [W]
      rw [if_neg (by rintro rfl; exact hx (by decide)), if_neg (by rintro rfl; exact hx (by decide))]
    · intro t x hx
      have h0 : W.strftime t c!"%Y" = c!"2015" := rfl
      rw [h0] at hx
      revert x
      decide
    · intro t ht
      have h0 : W.strftime t c!"%Y" = c!"2015" := rfl
      have h1 : W.strftime t c!"%j" = List.replicate t.dayNo.toNat '~' := rfl
      have h2 : 0 ≤ t.dayNo := by
        have := dayNo_bounds t ht
        have h3 := daysBeforeMonth_nonneg t.year t.month ht.2.2.1
        have h4 : daysBeforeYear 1 ≤ daysBeforeYear t.year := by
          rcases Int.lt_or_le 1 t.year with h | h
          · have := daysBeforeYear_lt 1 t.year h
            have := yearLength_pos 1
            omega
          · rw [show t.year = 1 by have := ht.1; omega]
        have : daysBeforeYear 1 = 0 := by decide
        omega
      rw [h0, h1]
      show hourlyFiles id _ = _
      congr 1
      simp only [joinWith, List.filter_append, List.filter_replicate, List.length_append]
      simp
      omega
  · rintro d f hf ⟨tr, ht, -, h⟩ j v ⟨tr', ht', -, h'⟩
    simp only [hourlyFiles, List.mem_singleton] at hf
    subst hf
    rw [List.mem_singleton] at ht ht'
    subst ht ht'
    obtain ⟨k, hk, e⟩ := (mem_hourly d _).1 h
    obtain ⟨k', hk', rfl⟩ := (mem_hourly d _).1 h'
    have e2 : (⟨2015, 5, 3, 0⟩ : Civil).abs = 735720 * dayUs := by decide
    rw [e2] at e ⊢
    simp only [dayUs, hourUs] at e ⊢
    omega
  · exact ⟨735720, _, List.mem_singleton.2 rfl, _, List.mem_singleton.2 rfl, rfl, (mem_hourly _ _).2 ⟨0, by omega, by decide⟩⟩

/-- Yearly files, two samples in December and a period that ends in February: all hypotheses of `c141_year_violated`. -/
example :
    let id := c!"AB.X.00.HHZ"
    let start : Civil := ⟨2014, 12, 1, 0⟩
    let tr : FsTrace := ⟨id, hourUs, [start.abs + hourUs, start.abs + 2 * hourUs]⟩
    let D : Int → List (List FsTrace) := fun y => if y = 2014 then [[tr]] else []
    let W : FsWorld := ⟨fun t _ => List.replicate t.year.toNat '~', fun p => D (p.length : Nat), fun _ _ => true⟩
    readFs W id [[c!"%Y"]] start ⟨2015, 2, 1, 0⟩ true 2014 = .error .valueError := by
  intro id start tr D W
  refine c141_year_violated W id [[c!"%Y"]] c!"%Y" ⟨[], [], rfl, by decide, by simp⟩ rfl start ⟨2015, 2, 1, 0⟩ (by decide) (by decide) D ?_ ?_ tr rfl ?_
    ⟨start.abs + hourUs, by simp [tr], by decide, by decide⟩ ?_ 2014 (by decide)
  · intro t ht
    have hx : (List.replicate t.year.toNat '~').head? ≠ some '/' := by
      rw [List.head?_replicate]
      split <;> simp
    refine ⟨List.replicate t.year.toNat '~', ?_, ?_⟩
    · unfold currentPattern patternFrom levelName
      rw [fsTranslate_other _ _ _ _ (by decide)]
      simp only [bind, Except.bind, levelName, pure, Except.pure, patternFrom, pathJoin, List.append_nil, W]
      rw [if_neg hx, if_pos (Or.inl trivial)]
      rfl
    · show D _ = D _
      rw [List.length_replicate]
      congr 1
      have := ht.1
      omega
  · intro y hy
    show (if y = 2014 then _ else _) = _
    have hs : start.year = 2014 := rfl
    rw [if_neg (by omega)]
  · exact List.pairwise_pair.2 (by decide)
  · intro t ht
    simp only [tr, List.mem_cons, List.not_mem_nil, or_false] at ht
    rcases ht with rfl | rfl <;> decide

end SeisMIC
