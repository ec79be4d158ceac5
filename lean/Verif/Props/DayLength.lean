import Verif.Props.StreamSelect

namespace SeisMIC

variable {V : Type}

/-- **C26** In nanoseconds, with the length of a day written out: a correlation within one day is selected iff there is a day
in whose interval from `start` to `stop` after midnight it lies. Partial: correlations over midnight
(`c26_midnight_violated`). -/
theorem c26_nanoseconds_partial (st : List (CTr V)) (start stop : Int) (h0 : 0 ≤ start) (h1 : stop < 24 * 3600 * 1000000000)
    (hd : ∀ tr ∈ st, tr.stats.corrStart ≤ tr.stats.corrEnd ∧
      tr.stats.corrStart / (24 * 3600 * 1000000000) = tr.stats.corrEnd / (24 * 3600 * 1000000000)) (tr : CTr V) :
    tr ∈ selectTime st start stop false ↔ tr ∈ st ∧ ∃ day : Int, day * (24 * 3600 * 1000000000) + start ≤ tr.stats.corrStart ∧
      tr.stats.corrStart ≤ tr.stats.corrEnd ∧ tr.stats.corrEnd ≤ day * (24 * 3600 * 1000000000) + stop :=
  (c26_same_day_partial st start stop h0 h1 hd tr).1

/-- **C27** In nanoseconds, with the length of a day written out: every window of daily stacks holds the correlations that
end within one day after midnight. -/
theorem c27_nanoseconds (st : List (CTr V)) (starttime endtime : Int)
    (hne : st ≠ []) (hl : ∀ tr ∈ st, tr.stats.corrEnd - tr.stats.corrStart ≤ 24 * 3600 * 1000000000)
    (hend : ∀ tr ∈ st, tr.stats.corrEnd ≤ endtime) :
    ∃ ws, stackWindows st (some starttime) (some endtime) .daily = .ok ws ∧
    (∀ w ∈ ws, w ≠ [] ∧ ∃ day : Int, ∀ tr, tr ∈ w ↔
      tr ∈ st ∧ day * (24 * 3600 * 1000000000) < tr.stats.corrEnd ∧ tr.stats.corrEnd ≤ (day + 1) * (24 * 3600 * 1000000000)) := by
  obtain ⟨ws, h1, _, h2⟩ := c27_daily st starttime endtime hne hl hend
  exact ⟨ws, h1, h2⟩

/-- Hypotheses of both: an hour of a day. -/
example : (3600000000000 : Int) ≤ 7200000000000 ∧ (3600000000000 : Int) / (24 * 3600 * 1000000000) = 7200000000000 / (24 * 3600 * 1000000000) ∧
    (selectTime [exTr c!"A-A" 3600000000000 7200000000000 []] 0 10800000000000 false).length = 1 := by decide +kernel

end SeisMIC
