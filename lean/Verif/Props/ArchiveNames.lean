import Verif.Props.ArchiveTimes
import Verif.Props.Archive
import Verif.Props.Names

/-!
# C63, C64: days of files by their names, and the samples of a stored trace
-/

namespace SeisMIC

/-! ### Specification -/

/-- the names of files: for each of them what precedes the last point, and the number of the day as it is written -/
def fileNames (entries : Str → List (Str × Str)) (y : Str) : List Str := (entries y).map fun e => e.1 ++ '.' :: e.2

/-- there is a file for the day with this number -/
def HasFileOfDay (entries : Str → List (Str × Str)) (dirs : List Str) (n : Int) : Prop :=
  ∃ y ∈ dirs, IsYearName y ∧ ∃ e ∈ entries y, n = daysBeforeYear (digitsVal y) + (digitsVal e.2 : Int) - 1

/-! ### Theorems -/

theorem lastPart_name (a d : Str) (h : isDigits d = true) : lastPart (a ++ '.' :: d) = d := by
  have hd : '.' ∉ d := by
    intro hm
    have := List.all_eq_true.1 h _ hm
    simp at this
  unfold lastPart
  rw [splitOn_last '.' a d hd]
  simp

/-- **C64** (names) Files whose names end with a point and a day of the year of three digits: the reported times are the beginning of the earliest day and
the end of the latest day of them, whatever precedes the day in their names. Missing: see `c64_times_partial`. -/
theorem c64_names_partial (entries : Str → List (Str × Str)) (dirs : List Str) (hy : ∀ y ∈ dirs, IsYearName y → isDigits y = true)
    (he : ∀ y ∈ dirs, IsYearName y → ∀ e ∈ entries y, e.2.length = 3 ∧ isDigits e.2 = true ∧ 1 ≤ digitsVal e.2 ∧
      (digitsVal e.2 : Int) ≤ yearLength (digitsVal y))
    (hf : ∃ n, HasFileOfDay entries dirs n) :
    ∃ a b, getTimes (fileNames entries) dirs = .ok (some (a, b)) ∧
      HasFileOfDay entries dirs a ∧ (∀ n, HasFileOfDay entries dirs n → a ≤ n) ∧
      HasFileOfDay entries dirs (b - 1) ∧ (∀ n, HasFileOfDay entries dirs n → n + 1 ≤ b) := by
  have hiff : ∀ n, HasDay (fileNames entries) dirs n ↔ HasFileOfDay entries dirs n := by
    intro n
    constructor
    · rintro ⟨y, h1, h2, f, hf, rfl⟩
      obtain ⟨e, hm, rfl⟩ := List.mem_map.1 hf
      exact ⟨y, h1, h2, e, hm, by rw [lastPart_name _ _ (he y h1 h2 e hm).2.1]⟩
    · rintro ⟨y, h1, h2, e, hm, rfl⟩
      exact ⟨y, h1, h2, _, List.mem_map.2 ⟨e, hm, rfl⟩, by rw [lastPart_name _ _ (he y h1 h2 e hm).2.1]⟩
  have hg : GoodNames (fileNames entries) dirs := by
    refine ⟨hy, ?_, .inl ?_⟩
    · intro y h1 h2 f hf
      obtain ⟨e, hm, rfl⟩ := List.mem_map.1 hf
      obtain ⟨q1, q2, q3, q4⟩ := he y h1 h2 e hm
      rw [lastPart_name _ _ q2]
      refine ⟨?_, q2, q3, q4⟩
      intro h0
      rw [h0] at q1
      cases q1
    · intro y h1 h2 f hf
      obtain ⟨e, hm, rfl⟩ := List.mem_map.1 hf
      obtain ⟨q1, q2, -⟩ := he y h1 h2 e hm
      rw [lastPart_name _ _ q2]
      exact q1
  obtain ⟨a, b, r1, r2, r3, r4, r5⟩ := c64_times_partial _ dirs hg (hf.imp fun n hn => (hiff n).2 hn)
  exact ⟨a, b, r1, (hiff _).1 r2, fun n hn => r3 n ((hiff n).2 hn), (hiff _).1 r4, fun n hn => r5 n ((hiff n).2 hn)⟩

/-- two days of one year, and points in front of the day -/
example :
    let entries : Str → List (Str × Str) := fun _ => [(c!"X.STA..HHZ.D.2014", c!"365"), (c!"X.STA..HHN.D.2014", c!"012")]
    getTimes (fileNames entries) [c!"2014"] = .ok (some (daysBeforeYear 2014 + 11, daysBeforeYear 2015)) ∧
      (∀ e ∈ entries c!"2014", e.2.length = 3 ∧ isDigits e.2 = true ∧ 1 ≤ digitsVal e.2 ∧ (digitsVal e.2 : Int) ≤ yearLength 2014) := by
  decide +kernel

/-- **C63** (samples) If storing succeeds, all samples of a trace but the last one are in the files of their days. Missing: the last sample, see
`c63_last_violated`. -/
theorem c63_samples_partial (fs fs' : DayFiles) (tr : RawTrace) (hd : 0 < tr.delta) (h : storeTrace fs tr = .ok fs') (k : Nat) (hk : k + 1 < tr.n) :
    ∃ l, fs' ((tr.start + k * tr.delta) / (24 * 3600 * 1000000000)) = some l ∧ tr.start + k * tr.delta ∈ l := by
  refine (c63_stored_partial fs fs' tr hd.le h).1 (tr.start + k * tr.delta) ?_ (.inl ?_)
  · unfold RawTrace.samples
    exact List.mem_map.2 ⟨k, List.mem_range.2 (by omega), rfl⟩
  · unfold RawTrace.stop
    have : (k : Int) * tr.delta < ((tr.n : Int) - 1) * tr.delta := mul_lt_mul_of_pos_right (by omega) hd
    linarith

/-- **C63** (last sample) The last sample is stored too if it is not at midnight and not the only one. Missing: these two cases, see `c63_last_violated`
and `c63_single_violated`. -/
theorem c63_last_partial (fs fs' : DayFiles) (tr : RawTrace) (hd : 0 < tr.delta) (h : storeTrace fs tr = .ok fs') (k : Nat) (hk : 0 < k)
    (hn : tr.n = k + 1) (hm : (tr.start + k * tr.delta) % (24 * 3600 * 1000000000) ≠ 0) :
    ∃ l, fs' ((tr.start + k * tr.delta) / (24 * 3600 * 1000000000)) = some l ∧ tr.start + k * tr.delta ∈ l := by
  have hs : tr.stop = tr.start + k * tr.delta := by
    unfold RawTrace.stop
    rw [hn]
    push_cast
    ring
  refine (c63_stored_partial fs fs' tr hd.le h).1 (tr.start + k * tr.delta) ?_ (.inr ⟨?_, ?_⟩)
  · unfold RawTrace.samples
    exact List.mem_map.2 ⟨k, List.mem_range.2 (by omega), rfl⟩
  · rw [hs]
    have : 0 < (k : Int) * tr.delta := mul_pos (by exact_mod_cast hk) hd
    linarith
  · rw [hs]
    exact hm

/-- a trace over midnight -/
example : ((storeTrace (fun _ => none) { start := archiveDay - 10, delta := 10, n := 3 }).map fun fs => (fs 0, fs 1)) =
    .ok (some [archiveDay - 10, archiveDay], some [archiveDay, archiveDay + 10]) := by
  decide +kernel

end SeisMIC
