import Verif.Props.Archive

namespace SeisMIC

theorem storeStream_spec : ∀ (trs : List RawTrace) (fs fs' : DayFiles), (∀ tr ∈ trs, 0 ≤ tr.delta) → storeStream fs trs = .ok fs' →
    (∀ tr ∈ trs, ∀ t ∈ tr.samples, (t < tr.stop ∨ (tr.start < tr.stop ∧ tr.stop % archiveDay ≠ 0)) →
      ∃ l, fs' (t / archiveDay) = some l ∧ t ∈ l) ∧
    (∀ d l, fs d = some l → ∃ l', fs' d = some l' ∧ ∀ t ∈ l, t ∈ l') ∧
    (∀ d l, fs' d = some l → ∀ t ∈ l,
      (∃ tr ∈ trs, t ∈ tr.samples ∧ d * archiveDay ≤ t ∧ t ≤ (d + 1) * archiveDay) ∨ ∃ old, fs d = some old ∧ t ∈ old) := by
  intro trs
  induction trs with
  | nil =>
    intro fs fs' _ h
    simp only [storeStream, Except.ok.injEq] at h
    subst h
    refine ⟨by simp, fun d l hl => ⟨l, hl, fun t ht => ht⟩, fun d l hl t ht => Or.inr ⟨l, hl, ht⟩⟩
  | cons tr trs ih =>
    intro fs fs' hd h
    simp only [storeStream, bind, Except.bind] at h
    cases h1 : storeTrace fs tr with
    | error e => rw [h1] at h; cases h
    | ok fs1 =>
      rw [h1] at h
      simp only at h
      obtain ⟨a1, a2, a3⟩ := c63_stored_partial fs fs1 tr (hd tr (by simp)) h1
      obtain ⟨b1, b2, b3⟩ := ih fs1 fs' (fun t ht => hd t (by simp [ht])) h
      refine ⟨?_, ?_, ?_⟩
      · intro t ht s hs hc
        rcases List.mem_cons.1 ht with rfl | ht
        · obtain ⟨l, hl, hsl⟩ := a1 s hs hc
          obtain ⟨l', hl', hin⟩ := b2 _ _ hl
          exact ⟨l', hl', hin s hsl⟩
        · exact b1 t ht s hs hc
      · intro d l hl
        obtain ⟨l1, hl1, hin1⟩ := a2 d l hl
        obtain ⟨l2, hl2, hin2⟩ := b2 d l1 hl1
        exact ⟨l2, hl2, fun t ht => hin2 t (hin1 t ht)⟩
      · intro d l hl t ht
        rcases b3 d l hl t ht with ⟨r, hr, hrt⟩ | ⟨old, ho, hto⟩
        · exact Or.inl ⟨r, by simp [hr], hrt⟩
        · rcases a3 d old ho t hto with hx | hx
          · exact Or.inl ⟨tr, by simp, hx⟩
          · exact Or.inr hx

/-- **C63** If a stream of traces is stored, every sample of every trace is in the file of its day, except possibly the last
one of a trace, all samples that were in the archive are still there, and nothing else is written. Partial: as for one trace
(`c63_stored_partial`), and streams with gaps within a day are refused (`c63_gap_violated`). -/
theorem c63_stream_partial : ∀ (trs : List RawTrace) (fs fs' : DayFiles), (∀ tr ∈ trs, 0 ≤ tr.delta) → storeStream fs trs = .ok fs' →
    (∀ tr ∈ trs, ∀ t ∈ tr.samples, (t < tr.stop ∨ (tr.start < tr.stop ∧ tr.stop % (24 * 3600 * 1000000000) ≠ 0)) →
      ∃ l, fs' (t / (24 * 3600 * 1000000000)) = some l ∧ t ∈ l) ∧
    (∀ d l, fs d = some l → ∃ l', fs' d = some l' ∧ ∀ t ∈ l, t ∈ l') ∧
    (∀ d l, fs' d = some l → ∀ t ∈ l,
      (∃ tr ∈ trs, t ∈ tr.samples ∧ d * (24 * 3600 * 1000000000) ≤ t ∧ t ≤ (d + 1) * (24 * 3600 * 1000000000)) ∨ ∃ old, fs d = some old ∧ t ∈ old) :=
  storeStream_spec

/-- Hypotheses of `c63_stream_partial`: two traces that overlap, the second one in the next day as well. -/
example : ((storeStream (fun _ => none) [{ start := archiveDay - 40, delta := 10, n := 3 }, { start := archiveDay - 20, delta := 10, n := 5 }]).map
    fun fs => (fs 0, fs 1)) = .ok (some [archiveDay - 40, archiveDay - 30, archiveDay - 20, archiveDay - 10, archiveDay],
      some [archiveDay, archiveDay + 10, archiveDay + 20]) := by
  decide +kernel

end SeisMIC
