import Verif.Model.Archive
import Verif.Lemmas.Sort
import Verif.Lemmas.Glob
import Mathlib.Tactic.Push
import Mathlib.Tactic.Linarith
import Mathlib.Tactic.Ring

/-! # Archive of raw data: C63, C64, C67, C69 -/

namespace SeisMIC

/-! ### C63 -/

theorem pieceEnd (s : Int) : (s / archiveDay * archiveDay + archiveDay * 3 / 2) / archiveDay * archiveDay = (s / archiveDay + 1) * archiveDay := by
  unfold archiveDay
  omega

theorem samples_mem (tr : RawTrace) (t : Int) : t ∈ tr.samples ↔ ∃ k : Nat, k < tr.n ∧ t = tr.start + (k : Int) * tr.delta := by
  unfold RawTrace.samples
  simp only [List.mem_map, List.mem_range]
  constructor
  · rintro ⟨k, hk, rfl⟩; exact ⟨k, hk, rfl⟩
  · rintro ⟨k, hk, rfl⟩; exact ⟨k, hk, rfl⟩

theorem sample_bounds (tr : RawTrace) (hd : 0 ≤ tr.delta) (t : Int) (ht : t ∈ tr.samples) : tr.start ≤ t ∧ t ≤ tr.stop := by
  obtain ⟨k, hk, rfl⟩ := (samples_mem tr t).1 ht
  unfold RawTrace.stop
  constructor
  · nlinarith [mul_nonneg (Int.natCast_nonneg k) hd]
  · have : (k : Int) ≤ (tr.n : Int) - 1 := by omega
    nlinarith [mul_le_mul_of_nonneg_right this hd]

/-- the samples of a trace from midnight to midnight, both included -/
def daySamples (tr : RawTrace) (d : Int) : List Int :=
  tr.samples.filter fun t => decide (d * archiveDay ≤ t) && decide (t ≤ (d + 1) * archiveDay)

theorem writePieces_spec (tr : RawTrace) (hd : 0 ≤ tr.delta) (fuel : Nat) (s : Int) (hs : s = tr.start ∨ (s % archiveDay = 0))
    (hst : tr.start ≤ s) (hfuel : (tr.stop / archiveDay - s / archiveDay).toNat + 1 ≤ fuel) :
    ∃ ps, writePieces tr fuel s = some ps ∧ (∀ d p, (d, p) ∈ ps → p = daySamples tr d) ∧
      (∀ d, (∃ p, (d, p) ∈ ps) ↔ s < tr.stop ∧ s / archiveDay ≤ d ∧ (d * archiveDay < tr.stop)) ∧ (ps.map Prod.fst).Nodup := by
  induction fuel generalizing s with
  | zero => omega
  | succ fuel ih =>
    unfold writePieces
    by_cases hlt : s < tr.stop
    · rw [if_pos hlt]
      simp only
      rw [pieceEnd]
      have hday : ((s / archiveDay + 1) * archiveDay) / archiveDay = s / archiveDay + 1 := by unfold archiveDay; omega
      have hmod : ((s / archiveDay + 1) * archiveDay) % archiveDay = 0 := by unfold archiveDay; omega
      have hle : s < (s / archiveDay + 1) * archiveDay := by unfold archiveDay; omega
      by_cases hmore : (s / archiveDay + 1) * archiveDay < tr.stop
      · obtain ⟨ps, h1, h2, h3, h4⟩ := ih ((s / archiveDay + 1) * archiveDay) (Or.inr hmod) (by omega) (by
          rw [hday]
          have : s / archiveDay + 1 ≤ tr.stop / archiveDay := by
            have : 0 < archiveDay := by decide
            unfold archiveDay at *; omega
          omega)
        rw [h1]
        refine ⟨_, rfl, ?_, ?_, ?_⟩
        · intro d p hm
          rcases List.mem_cons.1 hm with h | h
          · simp only [Prod.mk.injEq] at h
            rw [h.1, h.2]
            unfold daySamples
            apply List.filter_congr
            intro t ht
            have hb := (sample_bounds tr hd t ht).1
            have : (decide (s ≤ t)) = decide (s / archiveDay * archiveDay ≤ t) := by
              rw [decide_eq_decide]
              unfold archiveDay at *
              rcases hs with hs | hs <;> omega
            rw [this]
          · exact h2 d p h
        · intro d
          constructor
          · rintro ⟨p, hm⟩
            rcases List.mem_cons.1 hm with h | h
            · simp only [Prod.mk.injEq] at h
              rw [h.1]
              refine ⟨hlt, le_refl _, ?_⟩
              unfold archiveDay at *; omega
            · obtain ⟨a, b, c⟩ := (h3 d).1 ⟨p, h⟩
              rw [hday] at b
              exact ⟨hlt, by omega, c⟩
          · rintro ⟨_, b, c⟩
            by_cases he : d = s / archiveDay
            · exact ⟨_, by rw [he]; exact List.mem_cons_self⟩
            · obtain ⟨p, hp⟩ := (h3 d).2 ⟨hmore, by rw [hday]; omega, c⟩
              exact ⟨p, List.mem_cons_of_mem _ hp⟩
        · rw [List.map_cons, List.nodup_cons]
          refine ⟨?_, h4⟩
          intro hm
          obtain ⟨⟨d, p⟩, hm, he⟩ := List.mem_map.1 hm
          obtain ⟨_, b, _⟩ := (h3 d).1 ⟨p, hm⟩
          rw [hday] at b
          simp only at he
          omega
      · have hstop : writePieces tr fuel ((s / archiveDay + 1) * archiveDay) = some [] := by
          unfold writePieces
          rw [if_neg hmore]
        rw [hstop]
        refine ⟨_, rfl, ?_, ?_, by simp⟩
        · intro d p hm
          simp only [List.mem_singleton, Prod.mk.injEq] at hm
          rw [hm.1, hm.2]
          unfold daySamples
          apply List.filter_congr
          intro t ht
          have hb := (sample_bounds tr hd t ht).1
          have : (decide (s ≤ t)) = decide (s / archiveDay * archiveDay ≤ t) := by
            rw [decide_eq_decide]
            unfold archiveDay at *
            rcases hs with hs | hs <;> omega
          rw [this]
        · intro d
          constructor
          · rintro ⟨p, hm⟩
            simp only [List.mem_singleton, Prod.mk.injEq] at hm
            rw [hm.1]
            refine ⟨hlt, le_refl _, ?_⟩
            unfold archiveDay at *; omega
          · rintro ⟨_, b, c⟩
            have : d = s / archiveDay := by unfold archiveDay at *; omega
            exact ⟨_, by rw [this]; exact List.mem_singleton.2 rfl⟩
    · rw [if_neg hlt]
      refine ⟨[], rfl, by simp, ?_, by simp⟩
      intro d
      simp [hlt]

/-- **C63** Splitting a trace into days ends, for every start and length. -/
theorem c63_terminates (tr : RawTrace) (hd : 0 ≤ tr.delta) :
    ∃ ps, writePieces tr ((tr.stop / archiveDay - tr.start / archiveDay).toNat + 1) tr.start = some ps := by
  obtain ⟨ps, h, _⟩ := writePieces_spec tr hd _ tr.start (Or.inl rfl) (le_refl _) (le_refl _)
  exact ⟨ps, h⟩

theorem sdsWrite_spec (delta : Int) (fs fs' : DayFiles) (day : Int) (piece : List Int)
    (h : sdsWrite delta fs day piece = .ok fs') :
    (∀ d, d ≠ day → fs' d = fs d) ∧ ∃ l, fs' day = some l ∧ ∀ t, t ∈ l ↔ t ∈ piece ∨ ∃ old, fs day = some old ∧ t ∈ old := by
  unfold sdsWrite at h
  split at h
  · rename_i hn
    simp only [Except.ok.injEq] at h
    subst h
    refine ⟨fun d hd => by simp [hd], piece, by simp, ?_⟩
    intro t
    rw [hn]
    simp
  · rename_i old ho
    simp only at h
    split at h
    · cases h
    · simp only [Except.ok.injEq] at h
      subst h
      refine ⟨fun d hd => by simp [hd], isort (fun a b => decide (a ≤ b)) (old ++ piece).eraseDups, by simp only [if_true], ?_⟩
      intro t
      rw [mem_isort, List.mem_eraseDups, List.mem_append, ho]
      simp [or_comm]

theorem sdsWriteAll_spec (delta : Int) (ps : List (Int × List Int)) (fs fs' : DayFiles)
    (h : sdsWriteAll delta fs ps = .ok fs') :
    (∀ d p, (d, p) ∈ ps → ∃ l, fs' d = some l ∧ ∀ t ∈ p, t ∈ l) ∧
    (∀ d l, fs d = some l → ∃ l', fs' d = some l' ∧ ∀ t ∈ l, t ∈ l') ∧
    (∀ d l, fs' d = some l → ∀ t ∈ l, (∃ p, (d, p) ∈ ps ∧ t ∈ p) ∨ ∃ old, fs d = some old ∧ t ∈ old) := by
  induction ps generalizing fs with
  | nil =>
    simp only [sdsWriteAll, Except.ok.injEq] at h
    subst h
    exact ⟨by simp, fun d l hl => ⟨l, hl, fun t ht => ht⟩, fun d l hl t ht => Or.inr ⟨l, hl, ht⟩⟩
  | cons x ps ih =>
    obtain ⟨d0, p0⟩ := x
    simp only [sdsWriteAll, bind, Except.bind] at h
    split at h
    · cases h
    · rename_i fs1 h1
      obtain ⟨s1, l1, hl1, hm1⟩ := sdsWrite_spec delta fs fs1 d0 p0 h1
      obtain ⟨i1, i2, i3⟩ := ih fs1 h
      refine ⟨?_, ?_, ?_⟩
      · intro d p hm
        rcases List.mem_cons.1 hm with hm | hm
        · simp only [Prod.mk.injEq] at hm
          obtain ⟨l', hl', hs⟩ := i2 d0 l1 hl1
          rw [hm.1, hm.2]
          exact ⟨l', hl', fun t ht => hs t ((hm1 t).2 (Or.inl ht))⟩
        · exact i1 d p hm
      · intro d l hl
        by_cases hd : d = d0
        · subst hd
          obtain ⟨l', hl', hs⟩ := i2 d l1 hl1
          exact ⟨l', hl', fun t ht => hs t ((hm1 t).2 (Or.inr ⟨l, hl, ht⟩))⟩
        · exact i2 d l (by rw [s1 d hd]; exact hl)
      · intro d l hl t ht
        rcases i3 d l hl t ht with ⟨p, hp, htp⟩ | ⟨old, ho, hto⟩
        · exact Or.inl ⟨p, by simp [hp], htp⟩
        · by_cases hd : d = d0
          · subst hd
            rw [hl1] at ho
            cases ho
            rcases (hm1 t).1 hto with h | h
            · exact Or.inl ⟨p0, by simp, h⟩
            · exact Or.inr h
          · rw [s1 d hd] at ho
            exact Or.inr ⟨old, ho, hto⟩

/-- **C63** If storing succeeds, every sample of the trace is in the file of its day, except
possibly the last one, and all samples that were in the archive are still there; nothing
else is written. Partial: the last sample is missing if it is at midnight or if it is the
only one (`c63_last_violated`, `c63_single_violated`), and storing can fail
(`c63_gap_violated`). -/
theorem c63_stored_partial (fs fs' : DayFiles) (tr : RawTrace) (hd : 0 ≤ tr.delta) (h : storeTrace fs tr = .ok fs') :
    (∀ t ∈ tr.samples, (t < tr.stop ∨ (tr.start < tr.stop ∧ tr.stop % archiveDay ≠ 0)) →
      ∃ l, fs' (t / archiveDay) = some l ∧ t ∈ l) ∧
    (∀ d l, fs d = some l → ∃ l', fs' d = some l' ∧ ∀ t ∈ l, t ∈ l') ∧
    (∀ d l, fs' d = some l → ∀ t ∈ l, (t ∈ tr.samples ∧ d * archiveDay ≤ t ∧ t ≤ (d + 1) * archiveDay) ∨ ∃ old, fs d = some old ∧ t ∈ old) := by
  unfold storeTrace at h
  obtain ⟨ps, hp, h1, h2, _⟩ := writePieces_spec tr hd _ tr.start (Or.inl rfl) (le_refl _) (le_refl _)
  rw [hp] at h
  simp only at h
  obtain ⟨s1, s2, s3⟩ := sdsWriteAll_spec tr.delta ps fs fs' h
  refine ⟨?_, s2, ?_⟩
  · intro t ht hc
    have hb := sample_bounds tr hd t ht
    have hday : ∃ p, (t / archiveDay, p) ∈ ps := by
      rw [h2]
      unfold archiveDay at *
      rcases hc with hc | hc
      · refine ⟨by omega, by omega, by omega⟩
      · refine ⟨by omega, by omega, by omega⟩
    obtain ⟨p, hm⟩ := hday
    obtain ⟨l, hl, hs⟩ := s1 _ _ hm
    refine ⟨l, hl, hs t ?_⟩
    rw [h1 _ _ hm]
    unfold daySamples
    rw [List.mem_filter]
    refine ⟨ht, ?_⟩
    simp only [Bool.and_eq_true, decide_eq_true_eq]
    unfold archiveDay at *
    constructor <;> omega
  · intro d l hl t ht
    rcases s3 d l hl t ht with ⟨p, hp, htp⟩ | h
    · left
      rw [h1 d p hp] at htp
      unfold daySamples at htp
      rw [List.mem_filter] at htp
      simp only [Bool.and_eq_true, decide_eq_true_eq] at htp
      exact htp
    · exact Or.inr h

/-- **C63** Storing into an archive without files of these days succeeds, for every trace. -/
theorem c63_fresh (tr : RawTrace) (hd : 0 ≤ tr.delta) (fs : DayFiles) (hf : ∀ d, fs d = none) :
    ∃ fs', storeTrace fs tr = .ok fs' ∧ ∀ d l, fs' d = some l ↔
      (tr.start < tr.stop ∧ tr.start / archiveDay ≤ d ∧ d * archiveDay < tr.stop) ∧ l = daySamples tr d := by
  unfold storeTrace
  obtain ⟨ps, hp, h1, h2, h3⟩ := writePieces_spec tr hd _ tr.start (Or.inl rfl) (le_refl _) (le_refl _)
  rw [hp]
  simp only
  have main : ∀ (ps : List (Int × List Int)) (fs : DayFiles), (ps.map Prod.fst).Nodup → (∀ d p, (d, p) ∈ ps → fs d = none) →
      ∃ fs', sdsWriteAll tr.delta fs ps = .ok fs' ∧ ∀ d l, fs' d = some l ↔ (d, l) ∈ ps ∨ fs d = some l := by
    intro ps
    induction ps with
    | nil => intro fs _ _; exact ⟨fs, rfl, by simp⟩
    | cons x ps ih =>
      intro fs hn hnone
      obtain ⟨d0, p0⟩ := x
      rw [List.map_cons, List.nodup_cons] at hn
      have h0 : fs d0 = none := hnone d0 p0 (by simp)
      obtain ⟨fs', hw, hc⟩ := ih (fun d => if d = d0 then some p0 else fs d) hn.2 (by
        intro d p hm
        have : d ≠ d0 := by
          rintro rfl
          exact hn.1 (List.mem_map.2 ⟨_, hm, rfl⟩)
        simp only [this, if_false]
        exact hnone d p (by simp [hm]))
      refine ⟨fs', ?_, ?_⟩
      · simp only [sdsWriteAll, bind, Except.bind, sdsWrite, h0]
        exact hw
      · intro d l
        rw [hc]
        by_cases he : d = d0
        · subst he
          simp only [if_true, Option.some.injEq, List.mem_cons, Prod.mk.injEq, true_and, h0, reduceCtorEq, or_false]
          constructor
          · rintro (h | h)
            · exact Or.inr h
            · exact Or.inl h.symm
          · rintro (h | h)
            · exact Or.inr h.symm
            · exact Or.inl h
        · simp [he]
  obtain ⟨fs', hw, hc⟩ := main ps fs h3 (fun d _ _ => hf d)
  refine ⟨fs', hw, ?_⟩
  intro d l
  rw [hc, hf]
  simp only [reduceCtorEq, or_false]
  constructor
  · intro hm
    exact ⟨(h2 d).1 ⟨l, hm⟩, h1 d l hm⟩
  · rintro ⟨ha, rfl⟩
    obtain ⟨p, hm⟩ := (h2 d).2 ha
    have := h1 d p hm
    rw [this] at hm
    exact hm

/-- **C63** violated: a last sample at midnight is not in the file of its day. -/
theorem c63_last_violated :
    let tr : RawTrace := { start := archiveDay - 1000000000, delta := 1000000000, n := 2 }
    archiveDay ∈ tr.samples ∧ ∀ fs', storeTrace (fun _ => none) tr = .ok fs' → fs' (archiveDay / archiveDay) = none := by
  intro tr
  refine ⟨by decide, ?_⟩
  intro fs' h
  obtain ⟨fs2, h2, hc⟩ := c63_fresh tr (by decide) (fun _ => none) (fun _ => rfl)
  rw [h] at h2
  cases h2
  cases hd : fs' (archiveDay / archiveDay) with
  | none => rfl
  | some l =>
    have := ((hc _ l).1 hd).1.2.2
    exact absurd this (by decide)

/-- **C63** violated: a trace with a single sample is not stored. -/
theorem c63_single_violated (t delta : Int) (fs : DayFiles) :
    storeTrace fs { start := t, delta := delta, n := 1 } = .ok fs := by
  unfold storeTrace
  have hstop : RawTrace.stop { start := t, delta := delta, n := 1 } = t := by simp [RawTrace.stop]
  rw [hstop]
  unfold writePieces
  rw [hstop, if_neg (by simp)]
  rfl

/-- **C63** violated: two traces of the same day with a gap between them cannot be stored. -/
theorem c63_gap_violated :
    (storeStream (fun _ => none) [{ start := 0, delta := 10, n := 3 }, { start := 100, delta := 10, n := 3 }]).toOption.isNone := by
  decide +kernel

/-- Hypotheses of `c63_stored_partial`: two overlapping traces of one day. -/
example : ((storeStream (fun _ => none) [{ start := 0, delta := 10, n := 3 }, { start := 20, delta := 10, n := 3 }]).map
    fun fs => fs 0) = .ok (some [0, 10, 20, 30, 40]) := by
  decide +kernel

/-! ### C67 -/

/-- **C67** violated: requests with wildcards are never rejected, whatever the codes are. -/
theorem c67_wildcards_violated (codes : Str) (loc : List Piece) (remote : Option (List Piece)) (start stop : Int)
    (check readOnly : Bool) : ∃ r, getWaveforms codes loc remote start stop check readOnly = .ok r := by
  unfold getWaveforms
  simp only
  rw [if_neg (by split <;> decide), if_neg (by split <;> decide)]
  cases loadLocal loc start stop check with
  | some st => exact ⟨_, rfl⟩
  | none =>
    cases remote with
    | none => exact ⟨_, rfl⟩
    | some st => exact ⟨_, rfl⟩

/-! ### C69 -/

/-- the data reach from at most one sample after the start to at least one sample before the
end -/
def Reaches (st : List Piece) (start stop : Int) : Prop :=
  (∃ p ∈ st, p.start ≤ start + p.delta) ∧ ∃ p ∈ st, stop ≤ p.stop + p.delta

theorem isort_le_sorted (st : List Piece) :
    (isort (fun a b : Piece => decide (a.start ≤ b.start)) st).Pairwise fun a b => a.start ≤ b.start := by
  have := isort_sorted (fun a b : Piece => decide (a.start ≤ b.start))
    (by intro a b h; simp only [decide_eq_false_iff_not, decide_eq_true_eq] at *; omega)
    (by intro a b c h1 h2; simp only [decide_eq_true_eq] at *; omega) st
  exact this.imp fun h => of_decide_eq_true h

theorem getLast_max {α : Type} (l : List α) (R : α → α → Prop) (hr : ∀ a, R a a) (h : l.Pairwise R) (b : α)
    (hb : l.getLast? = some b) : ∀ a ∈ l, R a b := by
  induction l with
  | nil => cases hb
  | cons x l ih =>
    rw [List.pairwise_cons] at h
    intro a ha
    cases l with
    | nil =>
      simp only [List.getLast?_singleton, Option.some.injEq] at hb
      rw [List.mem_singleton] at ha
      rw [ha, hb]
      exact hr b
    | cons y l =>
      rw [List.getLast?_cons_cons] at hb
      rcases List.mem_cons.1 ha with rfl | ha
      · exact h.1 b (List.mem_of_getLast? hb)
      · exact ih h.2 hb a ha

/-- **C69** With time checking, local data are used iff they reach over the requested
interval, if all traces have the same sampling interval and no trace ends before one that
starts earlier. Partial: if a trace lies within another one the data may be requested
remotely although they are there (`c69_nested_violated`). -/
theorem c69_local_partial (st : List Piece) (start stop : Int) (hdel : ∀ p ∈ st, ∀ q ∈ st, p.delta = q.delta)
    (hnest : ∀ p ∈ st, ∀ q ∈ st, p.start ≤ q.start → p.stop ≤ q.stop) :
    (∃ r, loadLocal st start stop true = some r) ↔ Reaches st start stop := by
  unfold loadLocal
  simp only
  have hsort := isort_le_sorted st
  have hm : ∀ p, p ∈ isort (fun a b : Piece => decide (a.start ≤ b.start)) st ↔ p ∈ st := fun p => mem_isort
  generalize isort (fun a b : Piece => decide (a.start ≤ b.start)) st = s at hsort hm
  cases hh : s.head? with
  | none =>
    have : s = [] := List.head?_eq_none_iff.1 hh
    subst this
    have hst : ∀ p, p ∉ st := fun p hp => by have := (hm p).2 hp; cases this
    simp only [if_true, reduceCtorEq, exists_false, false_iff]
    rintro ⟨⟨p, hp, _⟩, _⟩
    exact hst p hp
  | some a =>
    have hne : s ≠ [] := by rintro rfl; cases hh
    obtain ⟨b, hb⟩ : ∃ b, s.getLast? = some b := by
      cases hb : s.getLast? with
      | none => exact absurd (List.getLast?_eq_none_iff.1 hb) hne
      | some b => exact ⟨b, rfl⟩
    rw [hb]
    have ha : a ∈ st := (hm a).1 (List.mem_of_head? hh)
    have hbm : b ∈ st := (hm b).1 (List.mem_of_getLast? hb)
    have hamin : ∀ p ∈ st, a.start ≤ p.start := by
      intro p hp
      have hps := (hm p).2 hp
      cases s with
      | nil => cases hh
      | cons x s =>
        simp only [List.head?_cons, Option.some.injEq] at hh
        subst hh
        rcases List.mem_cons.1 hps with rfl | h
        · exact le_refl _
        · exact (List.pairwise_cons.1 hsort).1 p h
    have hbmax : ∀ p ∈ st, p.start ≤ b.start := fun p hp =>
      getLast_max s (fun a b => a.start ≤ b.start) (fun _ => le_refl _) hsort b hb p ((hm p).2 hp)
    simp only [Bool.true_and, Bool.or_eq_true, decide_eq_true_eq]
    unfold Reaches
    split
    · rename_i hc
      simp only [reduceCtorEq, exists_false, false_iff]
      rintro ⟨⟨p, hp, h1⟩, q, hq, h2⟩
      rcases hc with hc | hc
      · have := hamin p hp
        have := hdel p hp a ha
        omega
      · have := hnest q hq b hbm (hbmax q hq)
        have := hdel q hq b hbm
        omega
    · rename_i hc
      push Not at hc
      simp only [Option.some.injEq, exists_eq', true_iff]
      exact ⟨⟨a, ha, by omega⟩, b, hbm, by omega⟩

/-- **C69** violated: a short trace within a long one makes the local data look incomplete. -/
theorem c69_nested_violated :
    let st : List Piece := [{ start := 0, stop := 100, delta := 1 }, { start := 10, stop := 20, delta := 1 }]
    Reaches st 0 100 ∧ loadLocal st 0 100 true = none := by
  refine ⟨⟨⟨{ start := 0, stop := 100, delta := 1 }, by decide, by decide⟩, { start := 0, stop := 100, delta := 1 }, by decide, by decide⟩, by decide⟩

/-- **C69** Without time checking the local data are always used; they are returned in the
order of their start times, and nothing is stored. If they are not used, the answer of the
remote client is returned, and stored iff it is not empty and the archive is not read-only. -/
theorem c69_source (codes : Str) (loc : List Piece) (remote : Option (List Piece)) (start stop : Int)
    (check readOnly : Bool) :
    (check = false → ∃ st, getWaveforms codes loc remote start stop check readOnly = .ok (st, none) ∧ st.Perm loc) ∧
    (∀ st, loadLocal loc start stop check = some st →
      getWaveforms codes loc remote start stop check readOnly = .ok (st, none) ∧ st.Perm loc ∧
        st.Pairwise fun a b => a.start ≤ b.start) ∧
    (loadLocal loc start stop check = none → ∃ r, getWaveforms codes loc remote start stop check readOnly = .ok r ∧
      r.1 = remote.getD [] ∧ (r.2 = if r.1 ≠ [] ∧ readOnly = false then some r.1 else none)) := by
  have hg : getWaveforms codes loc remote start stop check readOnly = (match loadLocal loc start stop check with
      | some st => .ok (st, none)
      | none => match remote with
        | none => .ok ([], none)
        | some st => .ok (st, if st ≠ [] ∧ readOnly = false then some st else none)) := by
    unfold getWaveforms
    simp only
    rw [if_neg (by split <;> decide), if_neg (by split <;> decide)]
    cases loadLocal loc start stop check <;> cases remote <;> rfl
  have hl : ∀ st, loadLocal loc start stop check = some st → st = isort (fun a b : Piece => decide (a.start ≤ b.start)) loc := by
    intro st h
    unfold loadLocal at h
    simp only at h
    split at h
    · split at h
      · cases h
      · simp only [Option.some.injEq] at h; exact h.symm
    · split at h
      · cases h
      · simp only [Option.some.injEq] at h; exact h.symm
  rw [hg]
  refine ⟨?_, ?_, ?_⟩
  · rintro rfl
    have : loadLocal loc start stop false = some (isort (fun a b : Piece => decide (a.start ≤ b.start)) loc) := by
      unfold loadLocal
      simp only [Bool.false_and, Bool.false_eq_true, if_false]
      split <;> rfl
    rw [this]
    exact ⟨_, rfl, isort_perm _ _⟩
  · intro st hst
    rw [hst]
    refine ⟨rfl, ?_, ?_⟩
    · rw [hl st hst]; exact isort_perm _ _
    · rw [hl st hst]; exact isort_le_sorted loc
  · intro hn
    rw [hn]
    cases remote with
    | none => exact ⟨_, rfl, rfl, by simp⟩
    | some st => exact ⟨_, rfl, rfl, rfl⟩

/-- Hypotheses of `c69_local_partial`. -/
example :
    let st : List Piece := [{ start := 50, stop := 100, delta := 1 }, { start := 0, stop := 20, delta := 1 }]
    (loadLocal st 1 101 true).isSome ∧ loadLocal st 1 102 true = none ∧
      ∀ p ∈ st, ∀ q ∈ st, p.start ≤ q.start → p.stop ≤ q.stop := by
  decide

end SeisMIC
