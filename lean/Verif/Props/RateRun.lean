import Verif.Model.RateRun
import Verif.Props.TraceUtils
import Verif.Props.CorrStats

/-!
# C205: correlations have the sampling rate that was requested
-/

namespace SeisMIC

variable {V : Type} [DecidableEq V]

/-! ### Lemmas -/

theorem inner_rate (geod : Coord → Coord → Rat × Rat × Rat) (inv : Str → Str → Option Coord) (srn : Rat) (h1 h2 : Stats V)
    (lag : Rat) (row : List Rat) (r : Rat) (e1 : h1.samplingRate = r) (e2 : h2.samplingRate = r) :
    (innerTrace geod inv srn h1 h2 lag row).1.samplingRate = r ∧ (innerTrace geod inv srn h1 h2 lag row).1.Consistent ∧
    ((innerTrace geod inv srn h1 h2 lag row).1.startLag = lag ∨
      (innerTrace geod inv srn h1 h2 lag row).1.startLag = -(lag + row.length / srn)) := by
  unfold innerTrace corrTrace alphabeticalCorrelation
  simp only
  split
  · have h := c83_combined_header geod inv h2 h1 (-(lag + row.length / srn))
    simp only at h
    exact ⟨(h.2.2.2.2.2.2.2.1 (e2.trans e1.symm)).trans e2, CorrStats.consistent_refresh _, .inr h.2.2.2.2.2.2.1⟩
  · have h := c83_combined_header geod inv h1 h2 lag
    simp only at h
    exact ⟨(h.2.2.2.2.2.2.2.1 (e1.trans e2.symm)).trans e1, CorrStats.consistent_refresh _, .inl h.2.2.2.2.2.2.1⟩

/-! ### C205 -/

/-- **C205** (part) If no trace has a rate below the requested one, then, for any distribution of the traces over processes,
every process has its traces afterwards, all with the requested rate; every correlation of two of them has this rate in its
header, its samples are one over the rate apart, and it begins a whole number of samples before zero lag: `n`, or what is
left of the row if the order of the stations is exchanged. Missing: traces with a lower rate, see `c205_mixed_violated`,
`c205_low_violated` and `c205_processes_violated`. -/
theorem c205_rate_partial (filt : Rat → List F → List F) (res : Rat → Rat → List F → List F) (srn : Rat) (hsrn : 0 < srn)
    (ranks : List (List Wave)) (h : ∀ st ∈ ranks, ∀ tr ∈ st, srn ≤ tr.sr) :
    ∃ outs : List (List Wave), resampleRanks filt res srn ranks = outs.map some ∧
      outs.map (List.map Wave.id) = ranks.map (List.map Wave.id) ∧
      (∀ out ∈ outs, ∀ tr ∈ out, tr.sr = srn) ∧
      ∀ a ∈ outs.flatten, ∀ b ∈ outs.flatten, ∀ geod inv, ∀ (h1 h2 : Stats V) (n : Nat) (row : List Rat),
        h1.samplingRate = a.sr → h2.samplingRate = b.sr →
        (correlationHeader geod inv srn h1 h2 n row).samplingRate = srn ∧
        (correlationHeader geod inv srn h1 h2 n row).delta = 1 / srn ∧
        ((correlationHeader geod inv srn h1 h2 n row).startLag = -(n * (1 / srn)) ∨
          (correlationHeader geod inv srn h1 h2 n row).startLag = -((row.length - n) * (1 / srn))) := by
  have hex : ∀ st ∈ ranks, ∃ out, resampleStream filt res st srn true = .ok out ∧ (∀ tr ∈ out, tr.sr = srn) ∧
      out.map Wave.id = st.map Wave.id := by
    intro st hst
    rcases c75_stream filt res st srn hsrn true with ⟨out, e1, e2, e3⟩ | ⟨-, hne, sr, hlt, hall⟩
    · refine ⟨out, e1, ?_, e3⟩
      intro tr htr
      have hm : tr.sr ∈ out.map Wave.sr := List.mem_map.2 ⟨tr, htr, rfl⟩
      rw [e2] at hm
      obtain ⟨t, ht, hte⟩ := List.mem_map.1 hm
      rw [← hte, min_eq_right (h st hst t ht)]
    · obtain ⟨tr, htr⟩ := List.exists_mem_of_ne_nil st hne
      have := h st hst tr htr
      rw [hall tr htr] at this
      exact absurd this (not_le.2 hlt)
  choose! g hg using hex
  have hrate : ∀ out ∈ ranks.map g, ∀ tr ∈ out, tr.sr = srn := by
    intro out hout
    obtain ⟨st, hst, rfl⟩ := List.mem_map.1 hout
    exact (hg st hst).2.1
  refine ⟨ranks.map g, ?_, ?_, hrate, ?_⟩
  · unfold resampleRanks
    rw [List.map_map]
    refine List.map_congr_left fun st hst => ?_
    rw [(hg st hst).1]; rfl
  · rw [List.map_map]
    exact List.map_congr_left fun st hst => (hg st hst).2.2
  · intro a ha b hb geod inv h1 h2 n row e1 e2
    obtain ⟨la, hla, ha⟩ := List.mem_flatten.1 ha
    obtain ⟨lb, hlb, hb⟩ := List.mem_flatten.1 hb
    obtain ⟨r1, r2, r3⟩ := inner_rate geod inv srn h1 h2 (-(n : Rat) / srn) row srn
      (e1.trans (hrate la hla a ha)) (e2.trans (hrate lb hlb b hb))
    refine ⟨r1, ?_, ?_⟩
    on_goal 2 =>
      rcases r3 with r3 | r3
      · exact .inl (r3.trans (by ring))
      · exact .inr (r3.trans (by ring))
    unfold correlationHeader
    have hd := r2.1
    rw [r1] at hd
    rcases hd with hd | hd
    · exact absurd hd.1 hsrn.ne'
    · rw [eq_div_iff hsrn.ne']
      linarith

/-- two processes, rates of 100, 60 and 50 Hz, and 50 Hz requested -/
example : ∀ st ∈ [[(⟨c!"A", 100, false, [some 1, some 2]⟩ : Wave), ⟨c!"B", 60, false, [some 1, some 5]⟩], [⟨c!"C", 50, false, [none]⟩]],
    ∀ tr ∈ st, (50 : Rat) ≤ tr.sr := by decide +kernel

/-- the header of a trace of a station in the examples below -/
def exampleHeader (sta : Str) (sr : Rat) : Stats Nat :=
  ⟨c!"NE", sta, [], c!"HHZ", 0, 3600 * 10 ^ 9, sr, 3600, 1, none, []⟩

/-- **C205** is violated: one process has traces with 100 Hz and with 20 Hz, and 50 Hz are requested. The second trace keeps
its rate, and is correlated with the first one. The header of this correlation has the default rate of 1 Hz: the lags of its
samples, with 2 s requested on both sides, go from -2 s to 198 s. -/
theorem c205_mixed_violated (filt : Rat → List F → List F) (res : Rat → Rat → List F → List F) (x y : List F) :
    (∃ z, resampleRanks filt res 50 [[⟨c!"A", 100, false, x⟩, ⟨c!"B", 20, false, y⟩]] =
      [some [⟨c!"A", 50, false, z⟩, ⟨c!"B", 20, false, y⟩]]) ∧
    let h := correlationHeader (fun _ _ => (0, 0, 0)) (fun _ _ => none) 50 (exampleHeader c!"A" 50) (exampleHeader c!"B" 20)
      100 (List.replicate 201 0)
    h.samplingRate = 1 ∧ h.startLag = -2 ∧ h.endLag = 198 := by
  refine ⟨⟨everyNth 2 (filt 25 x), ?_⟩, by decide +kernel⟩
  unfold resampleRanks resampleStream resampleTrace
  have hf : Rat.floor 2 = 2 := by decide +kernel
  norm_num [hf]
  rfl

/-- **C205** is violated: the same with two stations with 20 Hz. Their correlation has 20 Hz in its header, but its first lag
was computed with 50 Hz: the sample at zero lag, number 100, is said to be at 3 s. -/
theorem c205_low_violated :
    let h := correlationHeader (fun _ _ => (0, 0, 0)) (fun _ _ => none) 50 (exampleHeader c!"B" 20) (exampleHeader c!"C" 20)
      100 (List.replicate 201 0)
    h.samplingRate = 20 ∧ h.startLag = -2 ∧ h.times[100]? = some 3 := by
  decide +kernel

/-- **C205** is violated: whether a trace with a lower rate is used depends on the number of processes. If the process that
reads it has no other traces, it skips the read period (and the gathers that the other process waits for). -/
theorem c205_processes_violated (filt : Rat → List F → List F) (res : Rat → Rat → List F → List F) (x y : List F) :
    ∃ z, resampleRanks filt res 50 [[⟨c!"A", 100, false, x⟩], [⟨c!"B", 20, false, y⟩]] =
      [some [⟨c!"A", 50, false, z⟩], none] := by
  refine ⟨everyNth 2 (filt 25 x), ?_⟩
  unfold resampleRanks resampleStream resampleTrace
  have hf : Rat.floor 2 = 2 := by decide +kernel
  norm_num [hf, pure, Except.pure, bind, Except.bind]
  rfl

end SeisMIC
