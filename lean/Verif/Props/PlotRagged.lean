import Verif.Props.PlotCorr

/-!
# C179: figures of streams with traces of different lengths
-/

namespace SeisMIC

theorem meshRows_ragged (st : List PlotTr) (rows : List (List Rat)) (hr : rows.map List.length = st.map fun t => t.data.length)
    (a b : PlotTr) (ha : a ∈ st) (hb : b ∈ st) (hab : a.data.length ≠ b.data.length) : meshRows st rows = .error .valueError := by
  unfold meshRows
  rw [if_neg]
  intro h
  rw [List.all_eq_true] at h
  have key : ∀ t ∈ st, t.data.length = (st.head?.map fun t => t.data.length).getD 0 := by
    intro t ht
    have : t.data.length ∈ rows.map List.length := by
      rw [hr]
      exact List.mem_map.2 ⟨t, ht, rfl⟩
    obtain ⟨r, hr1, hr2⟩ := List.mem_map.1 this
    rw [← hr2]
    simpa using h r hr1
  exact hab ((key a ha).trans (key b hb).symm)

/-- **C179** There is no coloured figure, neither over time nor over distance, of traces with different numbers of samples (at least two): no trace is
drawn incompletely or beyond the axis. -/
theorem c179_ragged (st : List PlotTr) (a b : PlotTr) (ha : a ∈ st) (hb : b ∈ st) (_h2 : ∀ t ∈ st, 2 ≤ t.data.length)
    (hab : a.data.length ≠ b.data.length) : heatStart st = .error .valueError ∧ heatDist st = .error .valueError := by
  constructor
  · unfold heatStart
    have hp := sortCst_perm .corrStart st
    have ha' := hp.mem_iff.2 ha
    have hb' := hp.mem_iff.2 hb
    cases hl : (sortCst .corrStart st).getLast? with
    | none =>
      rw [List.getLast?_eq_none_iff] at hl
      rw [hl] at ha'
      cases ha'
    | some last =>
      simp only [hl]
      rw [meshRows_ragged _ _ (by rw [List.map_map]; rfl) a b ha' hb' hab]
      rfl
  · unfold heatDist
    have hp := sortCst_perm .dist st
    have ha' := hp.mem_iff.2 ha
    have hb' := hp.mem_iff.2 hb
    cases hl : (sortCst .dist st).head? with
    | none =>
      rw [List.head?_eq_none_iff] at hl
      rw [hl] at ha'
      cases ha'
    | some t0 =>
      simp only [hl]
      rw [meshRows_ragged _ _ ?_ a b ha' hb' hab]
      · rfl
      · rw [List.map_map]
        refine List.map_congr_left fun t _ => ?_
        simp only [Function.comp]
        split <;> simp

/-- two traces, of two and three samples -/
example : heatDist [⟨c!"N", c!"B", c!"Z", 1, 5, 270, [-1, 0, 1], [1, 2, 3]⟩, ⟨c!"N", c!"A", c!"Z", 1, 2, 90, [-1, 0], [4, 5]⟩] = .error .valueError :=
  (c179_ragged _ _ _ List.mem_cons_self (List.mem_cons_of_mem _ (List.mem_singleton.2 rfl)) (by decide) (by decide)).2

end SeisMIC
