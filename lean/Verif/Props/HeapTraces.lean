import Verif.Props.Heap

namespace SeisMIC

variable {α σ : Type} [Inhabited α] [Inhabited σ]

/-- **C112** `create_corr_stream` gives one trace per row, in the order of the rows. Trace `i` holds row `i` and a header of
its own with the history of the bulk, and the bulk is as before. Changing the header of a trace leaves the bulk and the other traces as they are (not so
for its samples, see `c112_trace_violated`). -/
theorem c112_traces (m : Mem α σ) (b : BulkRef) (hb : m.Valid b) (rest : Nat → σ → σ) :
    (m.traces b rest).1.val b = m.val b ∧ (m.traces b rest).2.length = (m.val b).1.length ∧
    (∀ (i : Nat) (row : List α), (m.val b).1[i]? = some row → ∃ t, (m.traces b rest).2[i]? = some t ∧
      (m.traces b rest).1.val t = ([row], ⟨rest i (m.val b).2.rest, (m.val b).2.history⟩) ∧
      ∀ h : Hdr σ, ((m.traces b rest).1.setHdr t.hdr h).val b = m.val b ∧
        ∀ (j : Nat) (t' : BulkRef), j ≠ i → (m.traces b rest).2[j]? = some t' →
          ((m.traces b rest).1.setHdr t.hdr h).val t' = (m.traces b rest).1.val t') := by
  have hbv : (m.traces b rest).1.val b = m.val b := Prod.ext rfl (by
    have := hb.hdr
    show Mem.header _ _ = Mem.header _ _
    unfold Mem.header Mem.traces
    simp only
    rw [List.getD_eq_getElem?_getD, List.getD_eq_getElem?_getD, List.getElem?_append_left this])
  refine ⟨hbv, by simp [Mem.traces, Mem.val, Mem.read], ?_⟩
  intro i row hrow
  have hi : i < b.view.rows.length := by
    have := (List.getElem?_eq_some_iff.1 hrow).1
    simpa [Mem.val, Mem.read] using this
  refine ⟨⟨{ b.view with rows := [b.view.rows.getD i 0] }, m.hdrs.length + i⟩, by simp [Mem.traces, hi], ?_, ?_⟩
  · refine Prod.ext ?_ ?_
    · show Mem.read _ _ = [row]
      have hg : b.view.rows.getD i 0 = b.view.rows[i] := List.getD_eq_getElem _ _ hi
      unfold Mem.val Mem.read at hrow
      simp only [List.getElem?_map, List.getElem?_eq_getElem hi, Option.map_some, Option.some.injEq] at hrow
      unfold Mem.read
      simp only [List.map_cons, List.map_nil, hg]
      rw [← hrow]
      rfl
    · show Mem.header _ _ = _
      unfold Mem.header Mem.traces
      simp only
      rw [List.getD_eq_getElem?_getD, List.getElem?_append_right (by omega)]
      simp only [Nat.add_sub_cancel_left, List.getElem?_map, List.getElem?_range hi, Option.map_some, Option.getD_some]
      rfl
  · intro h
    refine ⟨?_, ?_⟩
    · rw [← hbv]
      exact Prod.ext rfl (header_set_other _ _ _ _ (by have := hb.hdr; simp only; omega))
    · intro j t' hj ht'
      simp only [Mem.traces, List.getElem?_map, Option.map_eq_some_iff] at ht'
      obtain ⟨k, hk, rfl⟩ := ht'
      have hkj : k = j := by
        obtain ⟨hlt, he⟩ := List.getElem?_eq_some_iff.1 hk
        rw [List.getElem_range] at he
        exact he.symm
      subst hkj
      exact Prod.ext rfl (header_set_other _ _ _ _ (by simp only; omega))

/-- Hypotheses of `c112_traces`: a bulk of two rows gives two traces. -/
example : exHeapMem.Valid exHeapBulk ∧ ((exHeapMem.traces exHeapBulk fun i _ => i).2.map fun t =>
    ((exHeapMem.traces exHeapBulk fun i _ => i).1.val t).1) = (exHeapMem.val exHeapBulk).1.map fun r => [r] :=
  ⟨⟨by decide, by decide, by decide, by decide, by decide⟩, by decide⟩

end SeisMIC
