import Verif.Props.StreamSelect
import Verif.Props.OtherStations
import Verif.Props.Again

/-!
# C211: selecting and cutting in steps
-/

namespace SeisMIC

variable {V : Type}

/-! ### Correlations of a period -/

/-- **C211** (periods). Selecting the correlations of one period and of these those of another one gives the correlations of the time that the periods share.
Partial: periods that share no time, see `c211_disjoint_violated`. -/
theorem c211_time_partial (st : List (CTr V)) (a b c d : Int) (partly : Bool) (h : partly = true → max a c < min b d) :
    selectCorrTime (selectCorrTime st a b partly) c d partly = selectCorrTime st (max a c) (min b d) partly := by
  rw [selectCorrTime_eq _ c d partly (fun hp => by have := h hp; omega), selectCorrTime_eq st a b partly (fun hp => by have := h hp; omega),
    selectCorrTime_eq st _ _ partly h]
  rw [isort_eq_self startLe _ ((isort_sorted startLe startLe_total startLe_trans st).filter _), List.filter_filter]
  refine List.filter_congr fun x _ => ?_
  rw [Bool.eq_iff_iff, Bool.and_eq_true, decide_eq_true_iff, decide_eq_true_iff, decide_eq_true_iff]
  unfold InWindow
  split <;> omega

/-- three correlations and two periods that share the time from 10 to 20 -/
example : (selectCorrTime (selectCorrTime [exTr c!"A-A" 0 10 [], exTr c!"A-A" 10 20 [], exTr c!"A-A" 20 30 []] 0 20 true) 10 40 true).map (fun t => t.stats.corrStart) = [10] := by
  decide

/-- **C211** (parts). A period that is divided at any time: each correlation of the period is in exactly one of the parts. Partial: with
`include_partially_selected`, otherwise see `c211_parts_violated`. -/
theorem c211_parts_partial (st : List (CTr V)) (a b c : Int) (h1 : a < b) (h2 : b < c) :
    (selectCorrTime st a b true ++ selectCorrTime st b c true).Perm (selectCorrTime st a c true) ∧
      ∀ tr ∈ selectCorrTime st a b true, tr ∉ selectCorrTime st b c true := by
  rw [selectCorrTime_eq _ a b true (fun _ => h1), selectCorrTime_eq _ b c true (fun _ => h2), selectCorrTime_eq _ a c true (fun _ => by omega)]
  constructor
  · have := List.filter_append_perm (fun tr : CTr V => decide (InWindow a b true tr)) ((isort startLe st).filter fun tr => decide (InWindow a c true tr))
    rw [List.filter_filter, List.filter_filter] at this
    have e1 : ((isort startLe st).filter fun tr => decide (InWindow a b true tr)) =
        (isort startLe st).filter fun tr => decide (InWindow a b true tr) && decide (InWindow a c true tr) := by
      refine List.filter_congr fun x _ => ?_
      rw [Bool.eq_iff_iff, Bool.and_eq_true, decide_eq_true_iff, decide_eq_true_iff]
      unfold InWindow
      simp only [if_true]
      omega
    have e2 : ((isort startLe st).filter fun tr => decide (InWindow b c true tr)) =
        (isort startLe st).filter fun tr => !decide (InWindow a b true tr) && decide (InWindow a c true tr) := by
      refine List.filter_congr fun x _ => ?_
      rw [Bool.eq_iff_iff, Bool.and_eq_true, Bool.not_eq_true', decide_eq_false_iff_not, decide_eq_true_iff, decide_eq_true_iff]
      unfold InWindow
      simp only [if_true]
      omega
    rw [e1, e2]
    exact this
  · intro tr ht hb
    have ht := of_decide_eq_true (List.mem_filter.1 ht).2
    have hb := of_decide_eq_true (List.mem_filter.1 hb).2
    unfold InWindow at ht hb
    simp only [if_true] at ht hb
    omega

/-- **C211** is violated without `include_partially_selected`: a correlation over the time at which the period is divided is in none of the parts. -/
theorem c211_parts_violated (tr : CTr V) (a b c : Int) (h1 : a ≤ tr.stats.corrStart) (h2 : tr.stats.corrStart < b) (h3 : b < tr.stats.corrEnd) (h4 : tr.stats.corrEnd ≤ c) :
    selectCorrTime [tr] a c false = [tr] ∧ selectCorrTime [tr] a b false = [] ∧ selectCorrTime [tr] b c false = [] := by
  rw [selectCorrTime_eq _ a c false (by simp), selectCorrTime_eq _ a b false (by simp), selectCorrTime_eq _ b c false (by simp)]
  have e : isort startLe [tr] = [tr] := rfl
  rw [e]
  have p1 : InWindow a c false tr := ⟨h1, h4⟩
  have p2 : ¬InWindow a b false tr := fun h => by have := h.2; omega
  have p3 : ¬InWindow b c false tr := fun h => by have := h.1; omega
  simp [p1, p2, p3]

example : ∃ (tr : CTr Nat) (a b c : Int), a ≤ tr.stats.corrStart ∧ tr.stats.corrStart < b ∧ b < tr.stats.corrEnd ∧ tr.stats.corrEnd ≤ c :=
  ⟨exTr c!"A-A" 0 10 [], 0, 5, 10, by decide, by decide, by decide, by decide⟩

/-- **C211** is violated for periods that share no time: there is nothing that is in both, but a period that ends before it begins (or has no length) still
selects the correlations that end exactly at its end. -/
theorem c211_disjoint_violated (tr : CTr V) (start : Int) (_h : tr.stats.corrEnd ≤ start) : selectCorrTime [tr] start tr.stats.corrEnd true = [tr] := by
  unfold selectCorrTime
  simp [isort, insertSorted]

example : selectCorrTime (selectCorrTime [exTr c!"A-A" 0 10 []] 0 10 true) 20 30 true = [] ∧
    (selectCorrTime [exTr c!"A-A" 0 10 []] (max 0 20) (min 10 30) true).length = 1 := by decide

/-! ### Times and times of day -/

theorem selectCorrTime_filter (st : List (CTr V)) (p : CTr V → Bool) (a b : Int) (partly : Bool) :
    selectCorrTime (st.filter p) a b partly = (selectCorrTime st a b partly).filter p := by
  unfold selectCorrTime
  simp only [isort_filter_any startLe startLe_total startLe_trans]
  cases partly
  · simp only [Bool.false_eq_true, if_false, List.filter_filter]
    exact List.filter_congr fun x _ => Bool.and_comm _ _
  · simp only [if_true, List.filter_filter]
    exact List.filter_congr fun x _ => Bool.and_comm _ _

/-- **C211** (dropping). Dropping the correlations at some times and then those at others is dropping those at all of these times; the order of the times does
not matter, and it does not matter whether a period is selected before or afterwards. -/
theorem c211_drop (st : List (CTr V)) (u v : List Int) (a b : Int) (partly : Bool) :
    popAtUtcs (popAtUtcs st u) v = popAtUtcs st (u ++ v) ∧ (∀ w : List Int, (∀ t, t ∈ w ↔ t ∈ u) → popAtUtcs st w = popAtUtcs st u) ∧
      popAtUtcs (selectCorrTime st a b partly) u = selectCorrTime (popAtUtcs st u) a b partly := by
  refine ⟨?_, fun w hw => ?_, ?_⟩
  · unfold popAtUtcs
    rw [List.filter_filter]
    refine List.filter_congr fun x _ => ?_
    rw [List.any_append, Bool.not_or, Bool.and_comm]
  · rw [c24_pop_exact, c24_pop_exact]
    refine List.filter_congr fun x _ => ?_
    simp only [hw]
  · exact (selectCorrTime_filter _ _ _ _ _).symm

/-- **C211** (times of day). Selecting two times of day one after the other gives the correlations in the time they share, and it does not matter whether a
period is selected before or afterwards. -/
theorem c211_daytime (st : List (CTr V)) (s1 e1 s2 e2 : Int) (a b : Int) (partly ex : Bool) :
    selectTime (selectTime st s1 e1 false) s2 e2 false = selectTime st (max s1 s2) (min e1 e2) false ∧
      selectTime (selectCorrTime st a b partly) s1 e1 ex = selectCorrTime (selectTime st s1 e1 ex) a b partly := by
  constructor
  · unfold selectTime
    rw [List.filter_filter]
    refine List.filter_congr fun x _ => ?_
    simp only [Bool.not_false, ge_iff_le, Bool.if_false_right, Bool.and_true]
    rw [Bool.eq_iff_iff]
    simp only [Bool.and_eq_true, decide_eq_true_eq]
    omega
  · exact (selectCorrTime_filter _ _ _ _ _).symm

/-! ### Lags -/

/-- **C211** (lags). Cutting a matrix to lags `[a, b]` and the result to lags `[c, d]` inside gives the samples and the header of cutting to `[c, d]` at once, if `a`
is the lag of a sample. Partial: `a` between two samples, see `c211_cut_violated`. -/
theorem c211_cut_partial {α : Type} (data : List (List α)) (s : LagStats) (hr : Rect data s) (hsr : 0 < s.sr) (a b c d : Rat)
    (hs : s.startLag ≤ a) (hac : a ≤ c) (hcd : c ≤ d) (hdb : d ≤ b) (hb : b < s.lag s.npts) (k : Int) (hk : (a - s.startLag) * s.sr = k) :
    corrMatTrim (corrMatTrim data s a b).1 (corrMatTrim data s a b).2 c d = corrMatTrim data s c d := by
  obtain ⟨a1, a2, a3⟩ := trim_bounds s hsr a b hs (by linarith) hb
  obtain ⟨c1, c2, c3⟩ := trim_bounds s hsr c d (by linarith) hcd (by linarith)
  have hdb' : ((d - s.startLag) * s.sr).floor ≤ ((b - s.startLag) * s.sr).floor :=
    Int.floor_le_floor (mul_le_mul_of_nonneg_right (by linarith) hsr.le)
  have hac' : ((a - s.startLag) * s.sr).floor ≤ ((c - s.startLag) * s.sr).floor :=
    Int.floor_le_floor (mul_le_mul_of_nonneg_right (by linarith) hsr.le)
  have hfl : ((a - s.startLag) * s.sr).floor = k := by rw [hk]; exact Rat.floor_intCast k
  rw [hfl] at a1 a2 hac'
  have hshift : ∀ x : Rat, ((x - a) * s.sr).floor = ((x - s.startLag) * s.sr).floor - k := by
    intro x
    have : (x - a) * s.sr = (x - s.startLag) * s.sr - (k : Int) := by rw [← hk]; ring
    rw [this]
    exact Int.floor_sub_intCast ((x - s.startLag) * s.sr) k
  obtain ⟨i, rfl⟩ : ∃ i : Nat, k = i := ⟨k.toNat, by omega⟩
  obtain ⟨j, hj⟩ : ∃ j : Nat, ((b - s.startLag) * s.sr).floor = j := ⟨_, (Int.toNat_of_nonneg (by omega)).symm⟩
  obtain ⟨p, hp⟩ : ∃ p : Nat, ((c - s.startLag) * s.sr).floor = p := ⟨_, (Int.toNat_of_nonneg (by omega)).symm⟩
  obtain ⟨q, hq⟩ : ∃ q : Nat, ((d - s.startLag) * s.sr).floor = q := ⟨_, (Int.toNat_of_nonneg (by omega)).symm⟩
  rw [hj] at a2 a3 hdb'
  rw [hp] at c1 c2 hac'
  rw [hq] at c2 c3 hdb'
  have gen : ∀ (data : List (List α)) (s : LagStats) (x y : Rat) (m n : Nat), Rect data s → ((x - s.startLag) * s.sr).floor = (m : Int) →
      ((y - s.startLag) * s.sr).floor = (n : Int) → n < s.npts →
      corrMatTrim data s x y = (data.map fun row => (row.take (n + 1)).drop m, ⟨x, n + 1 - m, s.sr⟩) := by
    intro data s x y m n hr hm hn hns
    unfold corrMatTrim
    simp only [hm, hn]
    rw [if_neg (by omega), if_neg (by omega)]
    have hsl : ∀ {β : Type} (row : List β), pySlice row (some (m : Int)) (some ((n : Int) + 1)) = (row.take (n + 1)).drop m :=
      fun row => pySlice_entries row m (n + 1)
    simp only [hsl]
    cases data with
    | nil => simp; omega
    | cons row data =>
      have := hr row (by simp)
      simp only [List.map_cons, List.length_drop, List.length_take]
      congr 2
      omega
  rw [gen data s a b i j hr hfl hj (by omega), gen data s c d p q hr hp hq (by omega)]
  rw [gen _ ⟨a, j + 1 - i, s.sr⟩ c d (p - i) (q - i) ?_ ?_ ?_ (by simp only; omega)]
  · rw [List.map_map]
    have : q - i + 1 - (p - i) = q + 1 - p := by omega
    rw [this]
    congr 1
    refine List.map_congr_left fun row hrow => ?_
    simp only [Function.comp]
    rw [List.take_drop, List.drop_drop, List.take_take]
    congr 1
    · omega
    · congr 1
      omega
  · intro row hrow
    obtain ⟨row, hrow', rfl⟩ := List.mem_map.1 hrow
    have := hr row hrow'
    simp only [List.length_drop, List.length_take]
    omega
  · simp only
    rw [hshift, hp]
    omega
  · simp only
    rw [hshift, hq]
    omega

/-- lags from -2 to 3, cut to `[-1, 2]` and then to `[0, 1]` -/
example : corrMatTrim (corrMatTrim [[1, 2, 3, 4, 5, 6]] ⟨-2, 6, 1⟩ (-1) 2).1 (corrMatTrim [[1, 2, 3, 4, 5, 6]] ⟨-2, 6, 1⟩ (-1) 2).2 0 1 = ([[3, 4]], ⟨0, 2, 1⟩) := by
  decide +kernel

/-- **C211** is violated for a first lag between two samples: of samples at the lags -2 to 2, cut to `[-1/2, 2]` and then to `[0, 2]`, the sample of lag -1 is kept and said to be
at lag 0. -/
theorem c211_cut_violated :
    corrMatTrim (corrMatTrim [["lag -2", "lag -1", "lag 0", "lag 1", "lag 2"]] ⟨-2, 5, 1⟩ (-1 / 2) 2).1
      (corrMatTrim [["lag -2", "lag -1", "lag 0", "lag 1", "lag 2"]] ⟨-2, 5, 1⟩ (-1 / 2) 2).2 0 2 = ([["lag -1", "lag 0", "lag 1"]], ⟨0, 3, 1⟩) ∧
    corrMatTrim [["lag -2", "lag -1", "lag 0", "lag 1", "lag 2"]] ⟨-2, 5, 1⟩ 0 2 = ([["lag 0", "lag 1", "lag 2"]], ⟨0, 3, 1⟩) := by
  decide +kernel

end SeisMIC
