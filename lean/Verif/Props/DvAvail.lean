import Verif.Model.DvAvail
import Verif.Props.SmoothDv

/-!
# C227: availability of velocity changes
-/

namespace SeisMIC

/-! ### Specification -/

/-- a measurement with `ncol` stretches: the correlation of each time is the largest similarity of this time -/
structure Measured (ncol : Nat) (d : Dv) : Prop where
  cols : 0 < ncol
  axis : d.axis.length = ncol
  shape : ∀ row ∈ d.sim, row.length = ncol
  times : d.corr.length = d.sim.length
  best : ∀ (i : Nat) (row : List F) (c : F), d.sim[i]? = some row → d.corr[i]? = some c → Spec.NanMax row c

/-- there is a correlation at time `i` -/
def HasCorr (d : Dv) (i : Nat) : Prop := ∃ c : Rat, d.corr[i]? = some (some c)

/-- there is a similarity at time `i` -/
def HasSim (d : Dv) (i : Nat) : Prop := ∃ (row : List F) (x : Rat), d.sim[i]? = some row ∧ some x ∈ row

/-! ### Lemmas -/

theorem Measured.hasCorr {ncol : Nat} {d : Dv} (h : Measured ncol d) (i : Nat) : HasCorr d i ↔ HasSim d i := by
  constructor
  · rintro ⟨c, hc⟩
    have hi : i < d.sim.length := by
      rw [← h.times]
      exact (List.getElem?_eq_some_iff.1 hc).1
    exact ⟨d.sim[i], c, List.getElem?_eq_getElem hi, ((h.best i _ _ (List.getElem?_eq_getElem hi) hc).2 c rfl).1⟩
  · rintro ⟨row, x, hr, hx⟩
    have hi : i < d.corr.length := by
      rw [h.times]
      exact (List.getElem?_eq_some_iff.1 hr).1
    have hb := h.best i row _ hr (List.getElem?_eq_getElem hi)
    cases hc : d.corr[i] with
    | some c => exact ⟨c, by rw [List.getElem?_eq_getElem hi, hc]⟩
    | none =>
      rw [hc] at hb
      exact absurd (hb.1.1 rfl _ hx) (by simp)

theorem Measured.smooth {ncol : Nat} {d : Dv} (h : Measured ncol d) (w : Nat) (below : Option Rat) :
    ∃ out, smoothSimMat d ncol w below = .ok out ∧ Measured ncol out ∧ (below = none → ∀ i, HasSim d i → HasSim out i) := by
  obtain ⟨out, h1, h2, h3, h4⟩ := c134_smoothed d ncol w below h.cols h.axis
  refine ⟨out, h1, ⟨h.cols, by rw [h4]; exact h.axis, ?_, ?_, ?_⟩, ?_⟩
  · intro row hrow
    obtain ⟨i, hi, rfl⟩ := List.getElem_of_mem hrow
    obtain ⟨r, g1, g2, -⟩ := h3 i 0 (by omega) h.cols
    rw [List.getElem?_eq_getElem hi] at g1
    cases g1
    exact g2
  · have := h1
    unfold smoothSimMat at this
    simp only [bind, Except.bind, if_neg h.cols.ne', pure, Except.pure] at this
    split at this
    · cases this
    · cases this
      simp
  · intro i row c hr hc
    obtain ⟨c', hc', hb, -⟩ := c134_best_partial d ncol w below out h1 i row hr
    rw [hc'] at hc
    cases hc
    exact hb
  · rintro rfl i ⟨row, x, hr, hx⟩
    obtain ⟨j, hj, hjx⟩ := List.getElem_of_mem hx
    have hi := (List.getElem?_eq_some_iff.1 hr).1
    have hjn : j < ncol := by
      rw [← h.shape row (List.mem_of_getElem? hr)]
      exact hj
    obtain ⟨r, g1, g2, g3⟩ := h3 i j hi hjn
    have hmem : x ∈ nearSims d.sim none (w / 2) i j := by
      unfold nearSims
      refine List.mem_filter.2 ⟨mem_notNan.2 ((mem_samplesWhere _ _ _).2 ⟨i, by simp, ?_⟩), by simp⟩
      unfold column
      rw [List.getElem?_map, hr]
      simp [List.getD_eq_getElem?_getD, List.getElem?_eq_getElem hj, hjx]
    unfold meanOrNan at g3
    rw [if_neg (List.ne_nil_of_mem hmem)] at g3
    exact ⟨r, _, g1, List.mem_of_getElem? g3⟩

/-! ### C227 -/

/-- **C227** (new objects). After any history, an object that is saved and read again lists exactly the times with a correlation as available. The same holds for
every object that was just made. -/
theorem c227_stored (ncol : Nat) (ops : List DvOp) (o o' : DvLive) (h : DvLive.run ncol (ops ++ [.reload]) o = .ok o') (i : Nat) :
    o'.avail[i]? = some true ↔ HasCorr o'.dv i := by
  induction ops generalizing o with
  | nil =>
    cases h
    unfold DvLive.create HasCorr
    rw [List.getElem?_map]
    cases hc : o.dv.corr[i]? with
    | none => simp
    | some c => cases c <;> simp
  | cons op ops ih =>
    simp only [List.cons_append, DvLive.run, bind, Except.bind] at h
    split at h
    · cases h
    · exact ih _ h

/-- **C227** (what is available has a correlation). However often a measurement is smoothed without a threshold, with any windows, and saved and read in between:
this never fails, and every time that is listed as available has a correlation. -/
theorem c227_kept_partial (ncol : Nat) (d : Dv) (hd : Measured ncol d) (ops : List DvOp) (hops : ∀ w below, DvOp.smooth w below ∈ ops → below = none) :
    ∃ o, DvLive.run ncol ops (DvLive.create d) = .ok o ∧ ∀ i, o.avail[i]? = some true → HasCorr o.dv i := by
  have key : ∀ (ops : List DvOp) (o : DvLive), (∀ w below, DvOp.smooth w below ∈ ops → below = none) → Measured ncol o.dv →
      (∀ i, o.avail[i]? = some true → HasCorr o.dv i) →
      ∃ o', DvLive.run ncol ops o = .ok o' ∧ ∀ i, o'.avail[i]? = some true → HasCorr o'.dv i := by
    intro ops
    induction ops with
    | nil => exact fun o _ _ h => ⟨o, rfl, h⟩
    | cons op ops ih =>
      intro o hops ho hi
      cases op with
      | reload =>
        obtain ⟨o', h1, h2⟩ := ih (DvLive.create o.dv) (fun w b hm => hops w b (List.mem_cons_of_mem _ hm)) ho
          fun i => (c227_stored ncol [] o (DvLive.create o.dv) rfl i).1
        exact ⟨o', h1, h2⟩
      | smooth w below =>
        obtain ⟨out, h1, h2, h3⟩ := ho.smooth w below
        obtain ⟨o', g1, g2⟩ := ih { o with dv := out } (fun w b hm => hops w b (List.mem_cons_of_mem _ hm)) h2
          fun i hav => (h2.hasCorr i).2 (h3 (hops w below (by simp)) i ((ho.hasCorr i).1 (hi i hav)))
        refine ⟨o', ?_, g2⟩
        simp only [DvLive.run, DvLive.step, bind, Except.bind, h1, pure, Except.pure]
        exact g1
  exact key ops _ hops hd fun i => (c227_stored ncol [] ⟨d, []⟩ (DvLive.create d) rfl i).1

/-- three times with one gap -/
def gapDv : Dv := ⟨c!"A", c!"S", c!"Z", c!"m", c!"stretch", [1, 2], [[some (1/2), some 0], [none, none], [some (1/4), some 1]], [some 1, none, some 2],
  [some (1/2), none, some 1]⟩

example : Measured 2 gapDv := by
  refine ⟨by norm_num, rfl, by decide, rfl, ?_⟩
  intro i row c hr hc
  match i with
  | 0 =>
    cases hr
    cases hc
    refine ⟨by simp, fun y hy => ?_⟩
    cases hy
    exact ⟨by simp, fun x hx => by simp at hx; rcases hx with rfl | rfl <;> norm_num⟩
  | 1 =>
    cases hr
    cases hc
    exact ⟨by simp, fun y hy => by cases hy⟩
  | 2 =>
    cases hr
    cases hc
    refine ⟨by simp, fun y hy => ?_⟩
    cases hy
    exact ⟨by simp, fun x hx => by simp at hx; rcases hx with rfl | rfl <;> norm_num⟩
  | n + 3 => cases hr

/-- the three times, smoothed -/
def filledDv : Dv := ⟨c!"A", c!"S", c!"Z", c!"m", c!"stretch", [1, 2], [[some (1/2), some 0], [some (3/8), some (1/2)], [some (1/4), some 1]],
  [some 1, some 2, some 2], [some (1/2), some (1/2), some 1]⟩

/-- **C227** (violated). Smoothing gives a time in a gap a correlation, but the time is not listed as available: shifts between curves do not use it until the object
is saved and read again. -/
theorem c227_gap_violated : ∃ o, DvLive.run 2 [.smooth 3 none] (DvLive.create gapDv) = .ok o ∧ HasCorr o.dv 1 ∧ o.avail[1]? = some false ∧
    ∃ o', DvLive.run 2 [.smooth 3 none, .reload] (DvLive.create gapDv) = .ok o' ∧ o'.dv = o.dv ∧ o'.avail[1]? = some true := by
  refine ⟨⟨filledDv, [true, false, true]⟩, by decide +kernel, ⟨1/2, rfl⟩, rfl, ?_⟩
  exact ⟨⟨filledDv, [true, true, true]⟩, by decide +kernel, rfl, rfl⟩

/-- **C227** (violated). A threshold can remove all similarities of a time. The time is still listed as available, although it has no correlation. -/
theorem c227_threshold_violated : ∃ o, DvLive.run 2 [.smooth 1 (some (3/4))] (DvLive.create gapDv) = .ok o ∧ o.avail[0]? = some true ∧ ¬ HasCorr o.dv 0 := by
  refine ⟨⟨{ gapDv with sim := [[none, none], [none, none], [none, some 1]], value := [some 1, some 1, some 2], corr := [none, none, some 1] },
    [true, false, true]⟩, by decide +kernel, rfl, ?_⟩
  rintro ⟨c, hc⟩
  cases hc

end SeisMIC
