import Verif.Model.ReadWindows
import Mathlib.Tactic.Ring
import Mathlib.Tactic.Linarith
import Mathlib.Tactic.NormNum

/-!
# C136: the time windows of a spectrogram
-/

namespace SeisMIC

/-! ### Lemmas -/

theorem readCount (start stop inc : Int) (hi : 0 < inc) (k : Nat) : k < (-((start - stop) / inc)).toNat ↔ start + k * inc < stop := by
  have h : (k : Int) < -((start - stop) / inc) ↔ start + k * inc < stop := by
    constructor
    · intro h
      by_contra hc
      have : -(k : Int) ≤ (start - stop) / inc := by
        rw [Int.le_ediv_iff_mul_le hi]
        linarith [neg_mul (k : Int) inc]
      omega
    · intro h
      by_contra hc
      have h1 : -(k : Int) ≤ (start - stop) / inc := by omega
      rw [Int.le_ediv_iff_mul_le hi] at h1
      linarith [neg_mul (k : Int) inc]
  omega

theorem range_flatMap_range (n m : Nat) (f : Nat → Int) :
    ((List.range n).flatMap fun i => (List.range m).map fun j => f (i * m + j)) = (List.range (n * m)).map f := by
  induction n with
  | zero => simp
  | succ n ih =>
    rw [List.range_succ, List.flatMap_append, ih, Nat.add_mul, Nat.one_mul, List.range_add, List.map_append]
    simp

theorem spectrogramStarts_multiple (start stop win inc : Int) (hw : 0 < win) (m : Nat) (hm : 0 < m) (hinc : inc = m * win) :
    spectrogramStarts start stop win inc = .ok ((List.range ((-((start - stop) / inc)).toNat * m)).map fun k : Nat => start + k * win) := by
  unfold spectrogramStarts
  rw [if_neg (by
    rw [hinc]
    have : (1 : Int) ≤ m := by omega
    nlinarith)]
  congr 1
  rw [← range_flatMap_range _ _ fun k : Nat => start + k * win]
  unfold readWindows readStarts
  rw [List.map_map, List.flatMap_map]
  congr 1
  funext i
  simp only [Function.comp_apply]
  unfold slideStarts
  rw [add_sub_cancel_left, hinc, Int.mul_ediv_cancel _ (by omega), Int.toNat_natCast]
  refine List.map_congr_left fun j _ => ?_
  push_cast
  ring

/-! ### C136 -/

/-- **C136** (the periods that are read). For every start, end and increment: the periods have the length of the increment, each begins where the one before
it ends, the first one at the start; and each time from the start to before the end is in exactly one of them. -/
theorem c136_periods (start stop inc : Int) (hi : 0 < inc) :
    (∀ (k : Nat) (w : Int × Int), (readWindows start stop inc)[k]? = some w → w = (start + k * inc, start + (k + 1) * inc) ∧ w.1 < stop) ∧
    ∀ t, start ≤ t → t < stop → ∃ (k : Nat) (w : Int × Int), (readWindows start stop inc)[k]? = some w ∧ w.1 ≤ t ∧ t < w.2 ∧
      ∀ (k' : Nat) (w' : Int × Int), (readWindows start stop inc)[k']? = some w' → w'.1 ≤ t → t < w'.2 → k' = k := by
  have hget : ∀ (k : Nat) (w : Int × Int), (readWindows start stop inc)[k]? = some w ↔ start + k * inc < stop ∧ w = (start + k * inc, start + (k + 1) * inc) := by
    intro k w
    unfold readWindows readStarts
    rw [List.getElem?_map, List.getElem?_map]
    by_cases h : k < (-((start - stop) / inc)).toNat
    · rw [List.getElem?_range h]
      simp only [Option.map_some, Option.some.injEq]
      constructor
      · rintro rfl
        exact ⟨(readCount start stop inc hi k).1 h, by congr 1; ring⟩
      · rintro ⟨-, rfl⟩
        congr 1
        ring
    · rw [List.getElem?_eq_none (by simpa using h)]
      simp only [Option.map_none, reduceCtorEq, false_iff]
      exact fun hc => h ((readCount start stop inc hi k).2 hc.1)
  refine ⟨fun k w h => ?_, fun t h1 h2 => ?_⟩
  · obtain ⟨g1, rfl⟩ := (hget k w).1 h
    exact ⟨rfl, g1⟩
  · have h0 : 0 ≤ (t - start) / inc := Int.ediv_nonneg (by omega) (by omega)
    have e1 := Int.emod_add_mul_ediv (t - start) inc
    have e2 := Int.emod_nonneg (t - start) (by omega : inc ≠ 0)
    have e3 := Int.emod_lt_of_pos (t - start) hi
    have ek : ((((t - start) / inc).toNat : Nat) : Int) = (t - start) / inc := by omega
    refine ⟨((t - start) / inc).toNat, _, (hget _ _).2 ⟨?_, rfl⟩, ?_, ?_, fun k' w' hk' g1 g2 => ?_⟩
    · rw [ek]; nlinarith
    · simp only [ek]; nlinarith
    · simp only [ek]; nlinarith
    · obtain ⟨-, rfl⟩ := (hget k' w').1 hk'
      simp only at g1 g2
      have : (t - start) / inc = k' := by
        apply le_antisymm
        · have := (Int.ediv_lt_iff_lt_mul hi (a := t - start) (b := (k' : Int) + 1)).2 (by linarith)
          omega
        · rw [Int.le_ediv_iff_mul_le hi]; linarith
      omega

/-- **C136** (the spectra). If the increment is a multiple of the window length and divides the requested period, there is a spectrum for each window of the
period: they begin at the start and follow each other up to the end. In particular the increment does not matter. Missing: other increments, see
`c136_increment_violated` and `c136_end_violated`. -/
theorem c136_windows_partial (start win : Int) (hw : 0 < win) (m n : Nat) (hm : 0 < m) :
    spectrogramStarts start (start + n * (m * win)) win (m * win) = .ok ((List.range (n * m)).map fun k : Nat => start + k * win) := by
  rw [spectrogramStarts_multiple start _ win (m * win) hw m hm rfl]
  congr 3
  have hmw : (0 : Int) < m * win := by positivity
  rw [show start - (start + n * (m * win)) = (-(n : Int)) * (m * win) by ring, Int.mul_ediv_cancel _ (by omega)]
  simp

/-- **C136** (violated). The documentation says that the increment does not influence the result. If it is no multiple of the window length, the end of each
period is lost: with windows of length 2 and an increment of 3 instead of 2, the spectra begin at 0 and 3 instead of 0, 2 and 4. -/
theorem c136_increment_violated : spectrogramStarts 0 6 2 2 = .ok [0, 2, 4] ∧ spectrogramStarts 0 6 2 3 = .ok [0, 3] := by
  constructor <;> decide

/-- **C136** (violated). The end is documented as the end of the last window. If the period is no multiple of the increment, more is read: there is a spectrum
for a window after the end, for every window length. -/
theorem c136_end_violated (start win : Int) (hw : 0 < win) : ∃ l, spectrogramStarts start (start + win) win (2 * win) = .ok l ∧ start + win ∈ l := by
  refine ⟨_, spectrogramStarts_multiple start (start + win) win (2 * win) hw 2 (by norm_num) (by norm_num), List.mem_map.2 ⟨1, ?_, by push_cast; ring⟩⟩
  rw [List.mem_range]
  have : 0 < (-((start - (start + win)) / (2 * win))).toNat := by
    rw [readCount start (start + win) (2 * win) (by omega)]
    push_cast
    omega
  omega

/-- **C136**: an increment that is shorter than the window is refused -/
theorem c136_refused (start stop win inc : Int) (h : inc < win) : spectrogramStarts start stop win inc = .error .valueError := by
  unfold spectrogramStarts
  rw [if_pos h]

example : readWindows 10 17 3 = [(10, 13), (13, 16), (16, 19)] ∧ spectrogramStarts 0 12 2 6 = .ok [0, 2, 4, 6, 8, 10] := by constructor <;> decide

end SeisMIC
