import Verif.Lemmas.Sort
import Verif.Model.Spectrogram

/-!
# C68: spectral time series
-/

namespace SeisMIC

variable {φ σ : Type}

/-! ### Specification -/

/-- the time and the spectrum of every window for which a spectrum could be computed -/
def allSpectra (streams : List (SpecStream φ σ)) : List (Int × σ) :=
  streams.flatMap fun s => (s.getD []).filterMap fun w => w.spec.map fun x => (w.time, x)

/-- no two of these windows have the same time -/
def DistinctTimes (streams : List (SpecStream φ σ)) : Prop := ((allSpectra streams).map Prod.fst).Nodup

/-- the first process finds at least one frequency axis -/
def FirstHasSpectrum (streams : List (SpecStream φ σ)) (size : Nat) : Prop :=
  ∃ (i : Nat) (ws : List (SpecWin φ σ)), streams[i]? = some (some ws) ∧ i % size = 0 ∧ ∃ w ∈ ws, w.freq.isSome

/-- all frequency axes are the same -/
def SameAxis (streams : List (SpecStream φ σ)) (f : φ) : Prop :=
  ∀ s ∈ streams, ∀ ws, s = some ws → ∀ w ∈ ws, ∀ g, w.freq = some g → g = f

/-! ### Lemmas -/

theorem hasDup_false (l : List Int) : hasDup l = false ↔ l.Nodup := by
  induction l with
  | nil => simp [hasDup]
  | cons t l ih =>
    unfold hasDup
    rw [Bool.or_eq_false_iff, ih, List.nodup_cons, Bool.eq_false_iff, ne_eq, List.contains_iff_mem]

theorem filterMap_flatMap' {α β γ : Type} (f : α → List β) (g : β → Option γ) (l : List α) :
    (l.flatMap f).filterMap g = l.flatMap fun a => (f a).filterMap g := by
  induction l with
  | nil => rfl
  | cons a l ih => simp only [List.flatMap_cons, List.filterMap_append, ih]

theorem procSpectra_eq (streams : List (SpecStream φ σ)) (size rank : Nat) :
    procSpectra streams size rank = allSpectra (procStreams streams size rank) := by
  unfold procSpectra windowsOf allSpectra
  rw [filterMap_flatMap']

/-- distributing over the ranks -/
theorem ranks_perm {α β : Type} (g : α → List β) (size : Nat) (hs : 0 < size) (l : List (α × Nat)) :
    ((List.range size).flatMap fun r => (l.filter fun x => decide (x.2 % size = r)).flatMap fun x => g x.1).Perm
      (l.flatMap fun x => g x.1) := by
  induction l with
  | nil => simp
  | cons x l ih =>
    rw [List.flatMap_cons]
    refine List.Perm.trans ?_ (List.Perm.append_left (g x.1) ih)
    have key : ∀ n, ((List.range n).flatMap fun r => ((x :: l).filter fun y => decide (y.2 % size = r)).flatMap fun y => g y.1).Perm
        ((if x.2 % size < n then g x.1 else []) ++
          (List.range n).flatMap fun r => (l.filter fun y => decide (y.2 % size = r)).flatMap fun y => g y.1) := by
      intro n
      induction n with
      | zero => simp
      | succ n ihn =>
        rw [List.range_succ, List.flatMap_append, List.flatMap_append]
        simp only [List.flatMap_cons, List.flatMap_nil, List.append_nil]
        refine (ihn.append_right _).trans ?_
        by_cases hx : x.2 % size = n
        · rw [List.filter_cons_of_pos (by simpa using hx), List.flatMap_cons, if_neg (by omega), if_pos (by omega)]
          simp only [List.nil_append]
          rw [← List.append_assoc, ← List.append_assoc]
          exact List.Perm.append_right _ List.perm_append_comm
        · rw [List.filter_cons_of_neg (by simpa using hx)]
          have : (x.2 % size < n + 1) ↔ (x.2 % size < n) := by omega
          simp only [this, List.append_assoc]
          exact List.Perm.refl _
    have := key size
    rwa [if_pos (Nat.mod_lt _ hs)] at this

theorem all_perm (streams : List (SpecStream φ σ)) (size : Nat) (hs : 0 < size) :
    ((List.range size).flatMap fun r => procSpectra streams size r).Perm (allSpectra streams) := by
  have h := ranks_perm (fun s : SpecStream φ σ => (s.getD []).filterMap fun w => w.spec.map fun x => (w.time, x)) size hs streams.zipIdx
  have e1 : (streams.zipIdx.flatMap fun x => (x.1.getD []).filterMap fun w => w.spec.map fun y => (w.time, y)) = allSpectra streams := by
    unfold allSpectra
    rw [← List.flatMap_map (f := Prod.fst) (g := fun s : SpecStream φ σ => (s.getD []).filterMap fun w => w.spec.map fun y => (w.time, y)),
      List.zipIdx_map_fst]
  rw [e1] at h
  refine List.Perm.trans (List.Perm.of_eq ?_) h
  congr 1
  funext r
  rw [procSpectra_eq]
  unfold allSpectra procStreams
  rw [List.flatMap_map]

theorem procFreq_some (streams : List (SpecStream φ σ)) (size : Nat) (h : FirstHasSpectrum streams size) :
    ∃ f, procFreq streams size 0 = some f := by
  obtain ⟨i, ws, hi, hm, w, hw, hf⟩ := h
  unfold procFreq
  cases hl : ((windowsOf (procStreams streams size 0)).filterMap fun w => w.freq).getLast? with
  | some f => exact ⟨f, rfl⟩
  | none =>
    exfalso
    rw [List.getLast?_eq_none_iff] at hl
    obtain ⟨f, hf⟩ := Option.isSome_iff_exists.1 hf
    have : f ∈ (windowsOf (procStreams streams size 0)).filterMap fun w => w.freq := by
      rw [List.mem_filterMap]
      refine ⟨w, ?_, hf⟩
      unfold windowsOf procStreams
      rw [List.mem_flatMap]
      refine ⟨some ws, ?_, hw⟩
      rw [List.mem_map]
      refine ⟨(some ws, i), ?_, rfl⟩
      rw [List.mem_filter, List.mem_zipIdx_iff_getElem?]
      exact ⟨hi, by simpa using hm⟩
    rw [hl] at this
    cases this

theorem procFreq_mem (streams : List (SpecStream φ σ)) (size : Nat) (f : φ) (h : procFreq streams size 0 = some f) :
    ∃ i ws, streams[i]? = some (some ws) ∧ i % size = 0 ∧ ∃ w ∈ ws, w.freq = some f := by
  unfold procFreq at h
  have := List.mem_of_getLast? h
  rw [List.mem_filterMap] at this
  obtain ⟨w, hw, hf⟩ := this
  unfold windowsOf procStreams at hw
  rw [List.mem_flatMap] at hw
  obtain ⟨s, hs, hw⟩ := hw
  rw [List.mem_map] at hs
  obtain ⟨⟨s', i⟩, hs, rfl⟩ := hs
  rw [List.mem_filter, List.mem_zipIdx_iff_getElem?] at hs
  cases s' with
  | none => cases hw
  | some ws => exact ⟨i, ws, hs.1, by simpa using hs.2, w, hw, hf⟩

theorem sort_unique (a b : List (Int × σ)) (hp : a.Perm b) (ha : (a.map Prod.fst).Pairwise (· < ·))
    (hb : (b.map Prod.fst).Pairwise (· < ·)) : a = b := by
  induction a generalizing b with
  | nil => exact (List.nil_perm.1 hp).symm
  | cons x a ih =>
    cases b with
    | nil => exact absurd hp.symm (by simp)
    | cons y b =>
      simp only [List.map_cons, List.pairwise_cons, List.mem_map, forall_exists_index, and_imp, forall_apply_eq_imp_iff₂] at ha hb
      have hxy : x = y := by
        rcases List.mem_cons.1 (hp.subset (List.mem_cons_self)) with h | h
        · exact h
        · rcases List.mem_cons.1 (hp.symm.subset (List.mem_cons_self)) with h' | h'
          · exact h'.symm
          · have := hb.1 x h
            have := ha.1 y h'
            omega
      subst hxy
      rw [ih b (List.perm_cons x |>.1 hp) ha.2 hb.2]

theorem series_ok (streams : List (SpecStream φ σ)) (size : Nat) (hs : 0 < size) (hd : DistinctTimes streams)
    (f : φ) (hf : procFreq streams size 0 = some f) :
    ∃ ts, spectralSeries streams size = .ok (f, ts) ∧ ts.Perm (allSpectra streams) ∧ (ts.map Prod.fst).Pairwise (· < ·) := by
  have hp := all_perm streams size hs
  unfold spectralSeries
  simp only
  generalize ((List.range size).flatMap fun r => procSpectra streams size r) = all at hp
  have hnd : (all.map Prod.fst).Nodup := ((hp.map Prod.fst).nodup_iff).2 hd
  rw [(hasDup_false _).2 hnd, hf]
  have hsp := isort_perm (fun a b : Int × σ => decide (a.1 ≤ b.1)) all
  refine ⟨_, rfl, hsp.trans hp, ?_⟩
  have hso := isort_sorted (fun a b : Int × σ => decide (a.1 ≤ b.1))
    (by intro a b h; simp only [decide_eq_false_iff_not, decide_eq_true_eq] at *; omega)
    (by intro a b c h1 h2; simp only [decide_eq_true_eq] at *; omega) all
  have hn2 : ((isort (fun a b : Int × σ => decide (a.1 ≤ b.1)) all).map Prod.fst).Nodup := ((hsp.map Prod.fst).nodup_iff).2 hnd
  rw [List.pairwise_map]
  rw [List.Nodup, List.pairwise_map] at hn2
  refine (hso.and hn2).imp ?_
  rintro a b ⟨h1, h2⟩
  simp only [decide_eq_true_eq] at h1
  omega

/-! ### The theorems -/

/-- **C68** (part) The series is sorted in time and contains every window for which a spectrum
could be computed exactly once. Missing: windows with the same time
(`c68_duplicate_violated`), a first process without spectra (`c68_first_violated`). -/
theorem c68_series_partial (streams : List (SpecStream φ σ)) (size : Nat) (hs : 0 < size)
    (hd : DistinctTimes streams) (hf : FirstHasSpectrum streams size) :
    ∃ f ts, spectralSeries streams size = .ok (f, ts) ∧ (ts.map Prod.fst).Pairwise (· < ·) ∧
      ts.Perm (allSpectra streams) := by
  obtain ⟨f, h⟩ := procFreq_some streams size hf
  obtain ⟨ts, h1, h2, h3⟩ := series_ok streams size hs hd f h
  exact ⟨f, ts, h1, h3, h2⟩

/-- **C68** (part) The result is the same for all numbers of processes for which the first
process has a spectrum, if all spectra have the same frequency axis.
Missing for the full property: `c68_first_violated`, `c68_processes_violated`, `c68_duplicate_violated` and others. -/
theorem c68_size_partial (streams : List (SpecStream φ σ)) (f : φ) (m n : Nat) (hm : 0 < m) (hn : 0 < n)
    (hd : DistinctTimes streams) (ha : SameAxis streams f)
    (hfm : FirstHasSpectrum streams m) (hfn : FirstHasSpectrum streams n) :
    spectralSeries streams m = spectralSeries streams n := by
  have key : ∀ k, FirstHasSpectrum streams k → procFreq streams k 0 = some f := by
    intro k hk
    obtain ⟨g, hg⟩ := procFreq_some streams k hk
    obtain ⟨i, ws, h1, _, w, hw, h2⟩ := procFreq_mem streams k g hg
    rw [hg, ha (some ws) (List.mem_of_getElem? h1) ws rfl w hw g h2]
  obtain ⟨a, a1, a2, a3⟩ := series_ok streams m hm hd f (key m hfm)
  obtain ⟨b, b1, b2, b3⟩ := series_ok streams n hn hd f (key n hfn)
  rw [a1, b1, sort_unique a b (a2.trans b2.symm) a3 b3]

/-- **C68** is violated: if all streams of the first process fail, a ValueError is raised,
although the other processes have computed spectra. -/
theorem c68_first_violated (streams : List (SpecStream φ σ)) (size : Nat)
    (h : ∀ i ws, streams[i]? = some (some ws) → i % size = 0 → ∀ w ∈ ws, w.freq = none) :
    spectralSeries streams size = .error .valueError := by
  have : procFreq streams size 0 = none := by
    cases hf : procFreq streams size 0 with
    | none => rfl
    | some f =>
      obtain ⟨i, ws, h1, h2, w, hw, h3⟩ := procFreq_mem streams size f hf
      rw [h i ws h1 h2 w hw] at h3
      cases h3
  unfold spectralSeries
  simp only [this]
  split <;> rfl

/-- data for which the result is a series with one process, and an error with two -/
theorem c68_processes_violated :
    ∃ streams : List (SpecStream Nat Nat), spectralSeries streams 1 = .ok (5, [(7, 3)]) ∧
      spectralSeries streams 2 = .error .valueError :=
  ⟨[none, some [⟨7, some 5, some 3⟩]], by decide, by decide⟩

/-- **C68** is violated: two windows with the same time raise a ValueError. -/
theorem c68_duplicate_violated (streams : List (SpecStream φ σ)) (size : Nat) (hs : 0 < size)
    (h : ¬ DistinctTimes streams) : spectralSeries streams size = .error .valueError := by
  have hp := all_perm streams size hs
  unfold spectralSeries
  simp only
  have : hasDup (((List.range size).flatMap fun r => procSpectra streams size r).map Prod.fst) = true := by
    cases hh : hasDup (((List.range size).flatMap fun r => procSpectra streams size r).map Prod.fst) with
    | true => rfl
    | false =>
      rw [hasDup_false, (hp.map Prod.fst).nodup_iff] at hh
      exact absurd hh h
  rw [this]
  rfl

/-- **C68** is violated: with different sampling rates the frequency axis depends on the number
of processes. -/
theorem c68_axis_violated :
    ∃ streams : List (SpecStream Nat Nat), spectralSeries streams 1 = .ok (6, [(7, 3), (8, 4)]) ∧
      spectralSeries streams 2 = .ok (5, [(7, 3), (8, 4)]) :=
  ⟨[some [⟨7, some 5, some 3⟩], some [⟨8, some 6, some 4⟩]], by decide, by decide⟩

/-- data in two streams, with a window without a spectrum -/
def exStreams : List (SpecStream Nat Nat) :=
  [some [⟨9, some 5, some 3⟩, ⟨10, some 5, none⟩], none, some [⟨2, some 5, some 8⟩]]

example : DistinctTimes exStreams ∧ FirstHasSpectrum exStreams 2 ∧ FirstHasSpectrum exStreams 3 ∧ SameAxis exStreams 5 := by
  refine ⟨by unfold DistinctTimes; decide, ⟨0, _, rfl, by decide, _, List.mem_cons_self, rfl⟩,
    ⟨0, _, rfl, by decide, _, List.mem_cons_self, rfl⟩, ?_⟩
  intro s hs ws he w hw g hg
  simp only [exStreams, List.mem_cons, List.not_mem_nil, or_false] at hs
  rcases hs with rfl | rfl | rfl
  · simp only [Option.some.injEq] at he
    subst he
    simp only [List.mem_cons, List.not_mem_nil, or_false] at hw
    rcases hw with rfl | rfl <;> simpa using hg.symm
  · cases he
  · simp only [Option.some.injEq] at he
    subst he
    simp only [List.mem_cons, List.not_mem_nil, or_false] at hw
    subst hw
    simpa using hg.symm

example : spectralSeries exStreams 2 = .ok (5, [(2, 8), (9, 3)]) := by decide

end SeisMIC
