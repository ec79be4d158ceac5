import Verif.Props.ShiftWindow

/-! # Values of corrected curves and codes of averages: C51, C53 -/

namespace SeisMIC

/-- `code` is the code of the average of curves with these codes: the common one, or `av` -/
def CommonCode (codes : List Str) (code : Str) : Prop :=
  (∀ c ∈ codes, ∀ d ∈ codes, c = d) ∧ code ∈ codes ∨ (∃ c ∈ codes, ∃ d ∈ codes, c ≠ d) ∧ code = c!"av"

theorem avCode_common (c0 : Str) (l : List Str) : CommonCode (c0 :: l) (avCode c0 (c0 :: l)) := by
  unfold avCode
  split
  · rename_i h
    simp only [List.all_eq_true, decide_eq_true_eq] at h
    exact Or.inl ⟨fun c hc d hd => (h c hc).trans (h d hd).symm, by simp⟩
  · rename_i h
    simp only [List.all_eq_true, decide_eq_true_eq] at h
    push Not at h
    obtain ⟨c, hc, hne⟩ := h
    exact Or.inr ⟨⟨c, hc, c0, by simp, hne⟩, rfl⟩

/-- **C51** Network, station and channel of an average are those common to all its usable
inputs; a code in which the usable inputs differ becomes `av`. -/
theorem c51_codes (dvs : List Dv) (sc : Bool) (a : DvAverage) (h : averageComponents dvs sc = .ok a) :
    CommonCode ((usableDvs dvs).map (·.network)) a.dv.network ∧ CommonCode ((usableDvs dvs).map (·.station)) a.dv.station ∧
      CommonCode ((usableDvs dvs).map (·.channel)) a.dv.channel := by
  cases dvs with
  | nil => simp [averageComponents, bind, Except.bind] at h
  | cons d0 rest =>
    obtain ⟨u0, us, hs, _, _, _, _, _, _, _, hc, hst, hn⟩ := averageComponents_cases d0 rest sc a h
    obtain ⟨hu, _⟩ := selected_usable d0 rest _ hs
    rw [← hu, hc, hst, hn]
    exact ⟨avCode_common _ _, avCode_common _ _, avCode_common _ _⟩

/-- two components of one station: network and station are kept, the component becomes `av` -/
example :
    let z : Dv := ⟨c!"N", c!"S", c!"Z", c!"m", c!"stretch", [0, 1], [[some 0, some 1]], [some 1], [some 1]⟩
    (averageComponents [z, { z with channel := c!"E" }] false).toOption.map
      (fun a => (a.dv.network, a.dv.station, a.dv.channel)) = some (c!"N", c!"S", c!"av") := by decide +kernel

/-- **C53** Each value of a corrected curve is the first position of the axis with the
largest similarity of its time in the corrected matrix, where missing similarities count as
zero. -/
theorem c53_value (method : Str) (d0 d1 d : Dv) (t0 t1 : List Int) (n : Nat)
    (h : correctDvShiftM method d0 d1 t0 t1 n = .ok d) (i : Nat) (row : List F) (hi : d.sim[i]? = some row)
    (hne : row ≠ []) (hax : row.length = d.axis.length) :
    ∃ (k : Nat) (x : Rat) (s : F), d.value[i]? = some (some x) ∧ d.axis[k]? = some x ∧ row[k]? = some s ∧
      ∀ (j : Nat) (y : F), row[j]? = some y → y.getD 0 ≤ s.getD 0 ∧ (j < k → y.getD 0 < s.getD 0) := by
  obtain ⟨roll, rfl⟩ : ∃ roll, d = applyRoll d0 roll := by
    unfold correctDvShiftM at h
    simp only [bind, Except.bind, pure, Except.pure] at h
    split at h
    · cases h
    · split at h
      · cases h
      · split at h
        · cases h
        · exact ⟨_, (Except.ok.inj h).symm⟩
  have hne' : row.map nan0 ≠ [] := by simpa using hne
  obtain ⟨hlt, hle, hfirst⟩ := argmaxR_spec (row.map nan0) hne'
  have hlt' : argmaxR (row.map nan0) < row.length := by simpa using hlt
  refine ⟨argmaxR (row.map nan0), d0.axis[argmaxR (row.map nan0)]'(by rw [← show (applyRoll d0 roll).axis.length = d0.axis.length from rfl, ← hax]; exact hlt'),
    row[argmaxR (row.map nan0)], ?_, ?_, List.getElem?_eq_getElem hlt', ?_⟩
  · have hv : (applyRoll d0 roll).value = (applyRoll d0 roll).sim.map fun row => d0.axis[argmaxR (row.map nan0)]? := rfl
    rw [hv, List.getElem?_map, hi, Option.map_some]
    congr 1
    exact List.getElem?_eq_getElem _
  · exact List.getElem?_eq_getElem _
  · intro j y hy
    obtain ⟨hj, rfl⟩ := List.getElem?_eq_some_iff.1 hy
    have e : ∀ (k : Nat) (hk : k < row.length), (row.map nan0)[k]'(by simpa using hk) = (row[k]).getD 0 := by
      intro k hk
      rw [List.getElem_map]; rfl
    refine ⟨?_, fun hjk => ?_⟩
    · have := hle ((row[j]).getD 0) (List.mem_map.2 ⟨row[j], List.getElem_mem hj, rfl⟩)
      rwa [e _ hlt'] at this
    · have := hfirst j hjk
      rwa [e _ hlt', e _ hj] at this

/-- **C53** The window whose weighted means decide the shift reaches from the first to the
last time at which both curves have a correlation, widened by the permitted overlap. Partial:
the last time of the window is left out, see `c152_last_violated`. -/
theorem c53_window_partial (d0 d1 : Dv) (t0 t1 : List Int) (n first last : Nat)
    (hlen : d0.corr.length = d0.value.length) (hlen1 : d1.corr.length = d0.value.length)
    (hfirst : FirstWith (fun k => MeasuredAt d0 k ∧ MeasuredAt d1 k) first)
    (hlast : LastWith (fun k => MeasuredAt d0 k ∧ MeasuredAt d1 k) last) :
    correctDvShift d0 d1 t0 t1 n = correctedWith c!"mean" d0 d1 (first - n) (min (last + n) (d0.value.length - 1)) := by
  rw [← correctDvShiftM_mean]
  exact c152_common_partial _ d0 d1 t0 t1 n first last hlen hlen1 hfirst hlast

/-- a curve that is one step below another is moved up by one step -/
example :
    let d0 : Dv := ⟨c!"N", c!"S", c!"Z", c!"m", c!"stretch", [0, 1, 2],
      [[some 1, some 0, some 0], [some 1, some 0, some 0]], [some 0, some 0], [some 1, some 1]⟩
    let d1 : Dv := { d0 with value := [some 1, some 1], sim := [[some 0, some 1, some 0], [some 0, some 1, some 0]] }
    (correctDvShiftM c!"mean" d0 d1 [0, 10] [0, 10] 0).toOption.map (·.value) = some [some 1, some 1] := by decide +kernel

end SeisMIC
