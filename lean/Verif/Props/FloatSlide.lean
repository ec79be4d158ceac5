import Verif.Model.FloatSlide
import Verif.Props.FloatTimes
import Verif.Props.StreamSelect

/-!
# C212: windows of correlations are exact despite the rounding of times
-/

namespace SeisMIC

variable {V : Type}

/-- a whole microsecond between 14 July 2006 (`2^60` ns) and 19 January 2038 (`2^31 - 1` s) -/
def UsualTime (t : Int) : Prop := 1000 ∣ t ∧ 2 ^ 60 ≤ t ∧ t < (2 ^ 31 - 1) * 1000000000

theorem pyRound_add_even (y : Rat) (m : Int) : pyRound (y + (2 * m : Int)) = pyRound y + 2 * m := by
  have hfl : (y + (2 * m : Int)).floor = y.floor + 2 * m := Int.floor_add_intCast y (2 * m)
  unfold pyRound
  rw [hfl]
  have e : y + ((2 * m : Int) : Rat) - ((y.floor + 2 * m : Int) : Rat) = y - y.floor := by push_cast; ring
  rw [e]
  have e2 : (y.floor + 2 * m) % 2 = y.floor % 2 := by omega
  rw [e2]
  split
  · rfl
  · split
    · omega
    · split <;> omega

theorem ilog2_of (x : Rat) (e : Int) (h1 : pow2 e ≤ x) (h2 : x < pow2 (e + 1)) : ilog2 x = e := by
  have hx : 0 < x := lt_of_lt_of_le (pow2_pos e) h1
  obtain ⟨a, b⟩ := ilog2_spec x hx.ne'
  rw [abs_of_pos hx] at a b
  have c1 := lt_of_pow2_lt (lt_of_le_of_lt a h2)
  have c2 := lt_of_pow2_lt (lt_of_le_of_lt h1 b)
  omega

/-- rounding of seconds in `[2^30, 2^31)` -/
theorem f64_seconds (x : Rat) (h1 : 1073741824 ≤ x) (h2 : x < 2147483648) : f64 x = (pyRound (x * 4194304) : Rat) / 4194304 := by
  have e : ilog2 x = 30 := ilog2_of x 30 (by rw [pow2_eq]; norm_num; exact h1) (by rw [pow2_eq]; norm_num; exact h2)
  have hx : x ≠ 0 := by intro h; rw [h] at h1; norm_num at h1
  unfold f64 roundTo
  rw [if_neg hx, e]
  have : pow2 (((53 : Nat) : Int) - 1 - 30) = 4194304 := by rw [pow2_eq]; norm_num
  rw [this]

/-- rounding of nanoseconds in `[2^60, 2^61)` -/
theorem f64_nanoseconds (x : Rat) (h1 : 1152921504606846976 ≤ x) (h2 : x < 2305843009213693952) : f64 x = (pyRound (x / 256) : Rat) * 256 := by
  have e : ilog2 x = 60 := ilog2_of x 60 (by rw [pow2_eq]; norm_num; exact h1) (by rw [pow2_eq]; norm_num; exact h2)
  have hx : x ≠ 0 := by intro h; rw [h] at h1; norm_num at h1
  unfold f64 roundTo
  rw [if_neg hx, e]
  have : pow2 (((53 : Nat) : Int) - 1 - 60) = 1 / 256 := by rw [pow2_eq]; norm_num
  rw [this]
  simp only [one_div, div_inv_eq_mul]
  rfl

theorem usual_rat (t : Int) (h : UsualTime t) : (1152921504606846976 : Rat) ≤ t ∧ (t : Rat) < 2147483647000000000 := by
  obtain ⟨-, h1, h2⟩ := h
  norm_num at h1 h2
  exact ⟨by exact_mod_cast h1, by exact_mod_cast h2⟩

/-- the whole number of `2^-22` s to which a time is rounded -/
def gridOf (t : Int) : Int := pyRound ((pyRound ((t : Rat) / 256) : Rat) * 256 / 1000000000 * 4194304)

theorem timestampF_grid (t : Int) (h : UsualTime t) : timestampF t = (gridOf t : Rat) / 4194304 := by
  obtain ⟨h1, h2⟩ := usual_rat t h
  unfold timestampF gridOf
  rw [f64_nanoseconds t h1 (by linarith)]
  have e := abs_le.1 (pyRound_err ((t : Rat) / 256))
  rw [f64_seconds]
  · rw [le_div_iff₀ (by norm_num)]
    linarith
  · rw [div_lt_iff₀ (by norm_num)]
    linarith

theorem timestampF_err (t : Int) (h : UsualTime t) : |timestampF t * 1000000000 - t| ≤ 248 := by
  rw [timestampF_grid t h]
  unfold gridOf
  have e1 := abs_le.1 (pyRound_err ((t : Rat) / 256))
  have e2 := abs_le.1 (pyRound_err ((pyRound ((t : Rat) / 256) : Rat) * 256 / 1000000000 * 4194304))
  rw [abs_le]
  constructor <;> linarith

theorem gridOf_add (t m : Int) : gridOf (t + m * 1000000000) = gridOf t + m * 4194304 := by
  unfold gridOf
  have e1 : ((t + m * 1000000000 : Int) : Rat) / 256 = (t : Rat) / 256 + ((2 * (m * 1953125) : Int) : Rat) := by push_cast; ring
  rw [e1, pyRound_add_even]
  have e2 : ((pyRound ((t : Rat) / 256) + 2 * (m * 1953125) : Int) : Rat) * 256 / 1000000000 * 4194304 =
      (pyRound ((t : Rat) / 256) : Rat) * 256 / 1000000000 * 4194304 + ((2 * (m * 2097152) : Int) : Rat) := by push_cast; ring
  rw [e2, pyRound_add_even]
  ring

theorem timestampF_add (t m : Int) (h : UsualTime t) (h' : UsualTime (t + m * 1000000000)) :
    timestampF (t + m * 1000000000) = timestampF t + m := by
  rw [timestampF_grid _ h, timestampF_grid _ h', gridOf_add]
  push_cast
  ring

theorem timestampF_range (t : Int) (h : UsualTime t) : 1073741824 ≤ timestampF t ∧ timestampF t ≤ 2147483648 := by
  obtain ⟨h1, h2⟩ := usual_rat t h
  have := abs_le.1 (timestampF_err t h)
  constructor <;> linarith

theorem timestampF_float (t : Int) : f64 (timestampF t) = timestampF t := f64_exact (representable_roundTo 53 _)

theorem fromTimestampF_err (t : Int) (h : UsualTime t) : |(fromTimestampF (timestampF t) : Rat) - t| ≤ 490 := by
  have e1 := abs_le.1 (timestampF_err t h)
  obtain ⟨r1, r2⟩ := timestampF_range t h
  have e2 := f64_err (timestampF t * 1000000000)
  rw [abs_of_nonneg (by positivity : (0 : Rat) ≤ timestampF t * 1000000000)] at e2
  have hp : pow2 (-53) = 1 / 9007199254740992 := by rw [pow2_eq]; norm_num
  rw [hp] at e2
  have e2 := abs_le.1 e2
  have e3 := abs_le.1 (pyRound_err (f64 (timestampF t * 1000000000)))
  unfold fromTimestampF
  rw [abs_le]
  constructor <;> linarith

theorem roundUs_near (x t : Int) (h : 1000 ∣ t) (hx : |(x : Rat) - t| ≤ 490) : roundUs x = t := by
  obtain ⟨m, rfl⟩ := h
  unfold roundUs
  rw [pyRound_nearest _ m, mul_comm]
  have := abs_le.1 hx
  push_cast at this
  rw [abs_lt]
  constructor <;> linarith

theorem roundUs_whole (t : Int) (h : 1000 ∣ t) : roundUs t = t := roundUs_near t t h (by simp)

/-- the times of the windows, with the rounding -/
theorem arangeF_timestamps (s e : Int) (k : Nat) (hk : 0 < k) (hk' : k < 2 ^ 31) (hs : UsualTime s) (he : UsualTime e) :
    arangeF (timestampF s) (timestampF e) k = (arange s e (k * 1000000000)).map timestampF := by
  obtain ⟨s1, s2⟩ := timestampF_range s hs
  obtain ⟨e1, e2⟩ := timestampF_range e he
  have hkq : (0 : Rat) < k := by exact_mod_cast hk
  have hkq1 : (1 : Rat) ≤ k := by exact_mod_cast hk
  have hpos : (0 : Int) < k * 1000000000 := by omega
  have hdiff : f64 (timestampF e - timestampF s) = timestampF e - timestampF s := by
    apply f64_exact
    rw [timestampF_grid s hs, timestampF_grid e he]
    rw [timestampF_grid s hs] at s1 s2
    rw [timestampF_grid e he] at e1 e2
    refine ⟨gridOf e - gridOf s, -22, ?_, ?_⟩
    · have a1 : (gridOf e : Rat) ≤ 9007199254740992 := by linarith
      have a2 : (4503599627370496 : Rat) ≤ gridOf e := by linarith
      have b1 : (gridOf s : Rat) ≤ 9007199254740992 := by linarith
      have b2 : (4503599627370496 : Rat) ≤ gridOf s := by linarith
      have a1' : gridOf e ≤ 9007199254740992 := by exact_mod_cast a1
      have a2' : 4503599627370496 ≤ gridOf e := by exact_mod_cast a2
      have b1' : gridOf s ≤ 9007199254740992 := by exact_mod_cast b1
      have b2' : 4503599627370496 ≤ gridOf s := by exact_mod_cast b2
      norm_num
      rw [abs_le]
      omega
    · have : pow2 (-22) = 1 / 4194304 := by rw [pow2_eq]; norm_num
      rw [this]
      push_cast
      ring
  -- number of windows
  have hn : (f64 (f64 (timestampF e - timestampF s) / k)).ceil.toNat = (-((s - e) / (k * 1000000000))).toNat := by
    rw [hdiff]
    have E1 := abs_le.1 (timestampF_err s hs)
    have E2 := abs_le.1 (timestampF_err e he)
    by_cases hse : e ≤ s
    · have h1 : timestampF e ≤ timestampF s := by
        unfold timestampF
        refine f64_mono (div_le_div_of_nonneg_right (f64_mono (by exact_mod_cast hse)) (by norm_num))
      have h2 : f64 ((timestampF e - timestampF s) / k) ≤ 0 := by
        rw [← f64_zero]
        exact f64_mono (div_nonpos_of_nonpos_of_nonneg (by linarith) hkq.le)
      have h3 : (f64 ((timestampF e - timestampF s) / k)).ceil ≤ 0 := Rat.ceil_le_iff.2 (by exact_mod_cast h2)
      have h4 : 0 ≤ (s - e) / (k * 1000000000) := Int.ediv_nonneg (by omega) (by omega)
      rw [Int.toNat_of_nonpos h3, Int.toNat_of_nonpos (by omega)]
    · obtain ⟨n, hn⟩ : ∃ n : Int, n = -((s - e) / (k * 1000000000)) := ⟨_, rfl⟩
      rw [← hn]
      congr 1
      have hup : e ≤ s + n * (k * 1000000000) := by
        have := Int.ediv_mul_le (s - e) (show (k : Int) * 1000000000 ≠ 0 by omega)
        have h2 : n * (k * 1000000000) = -((s - e) / (k * 1000000000) * (k * 1000000000)) := by rw [hn]; ring
        linarith
      have hlo : s + (n - 1) * (k * 1000000000) < e := by
        have := Int.lt_ediv_add_one_mul_self (s - e) hpos
        have h2 : (n - 1) * (k * 1000000000) = -(((s - e) / (k * 1000000000) + 1) * (k * 1000000000)) := by rw [hn]; ring
        linarith
      have hnpos : 0 < n := by
        by_contra hc
        have : n * (k * 1000000000) ≤ 0 := mul_nonpos_of_nonpos_of_nonneg (by omega) hpos.le
        omega
      have hnbound : n ≤ 2 ^ 31 := by
        have hr := he.2.2
        have hl := hs.2.1
        by_contra hc
        have : (n - 1) * (k * 1000000000) ≥ 2 ^ 31 * (1 * 1000000000) := by
          apply mul_le_mul <;> omega
        norm_num at this hr hl
        omega
      have hd1 := hs.1
      have hd2 := he.1
      apply le_antisymm
      · refine Rat.ceil_le_iff.2 ?_
        have hnf : f64 (n : Rat) = n := f64_int n (by rw [abs_of_pos hnpos]; norm_num; norm_num at hnbound; omega)
        rw [← hnf]
        refine f64_mono ?_
        rw [div_le_iff₀ hkq]
        rcases eq_or_lt_of_le hup with h | h
        · have h' : e = s + (n * k) * 1000000000 := by rw [h]; ring
          have := timestampF_add s (n * k) hs (h' ▸ he)
          rw [← h'] at this
          rw [this]
          push_cast
          linarith
        · have h3 : e + 1000 ≤ s + n * (k * 1000000000) := by
            obtain ⟨x, rfl⟩ := hd1
            obtain ⟨y, rfl⟩ := hd2
            have : n * (k * 1000000000) = 1000 * (n * (k * 1000000)) := by ring
            rw [this] at h ⊢
            omega
          have h4 : (e : Rat) + 1000 ≤ s + n * (k * 1000000000) := by exact_mod_cast h3
          linarith
      · rw [show n = (n - 1) + 1 by ring, Int.add_one_le_iff]
        refine Rat.lt_ceil_iff.2 ?_
        have h3 : s + (n - 1) * (k * 1000000000) + 1000 ≤ e := by
          obtain ⟨x, rfl⟩ := hd1
          obtain ⟨y, rfl⟩ := hd2
          have : (n - 1) * (k * 1000000000) = 1000 * ((n - 1) * (k * 1000000)) := by ring
          rw [this] at hlo ⊢
          omega
        have h4 : (s : Rat) + (n - 1) * (k * 1000000000) + 1000 ≤ e := by exact_mod_cast h3
        have hq : ((n : Rat) - 1) * k + 1 / 2000000 ≤ timestampF e - timestampF s := by linarith
        have hle : timestampF e - timestampF s ≤ 1073741824 := by linarith
        have hq0 : 0 ≤ (timestampF e - timestampF s) / k := by
          apply div_nonneg _ hkq.le
          have : (0 : Rat) ≤ ((n : Rat) - 1) * k := mul_nonneg (by have : (1 : Rat) ≤ n := by exact_mod_cast hnpos
                                                                   linarith) hkq.le
          linarith
        have herr := f64_err ((timestampF e - timestampF s) / k)
        rw [abs_of_nonneg hq0] at herr
        have hp : pow2 (-53) = 1 / 9007199254740992 := by rw [pow2_eq]; norm_num
        rw [hp] at herr
        have herr := (abs_le.1 herr).1
        have hqk : ((n : Rat) - 1) + 1 / 2000000 / k ≤ (timestampF e - timestampF s) / k := by
          rw [le_div_iff₀ hkq, add_mul, div_mul_cancel₀ _ hkq.ne']
          exact hq
        have hqk2 : (timestampF e - timestampF s) / k * (1 / 9007199254740992) ≤ 1 / 8388608 / k := by
          rw [div_mul_eq_mul_div, div_le_div_iff_of_pos_right hkq]
          linarith
        have hqk3 : (1 : Rat) / 8388608 / k < 1 / 2000000 / k := by
          rw [div_lt_div_iff_of_pos_right hkq]
          norm_num
        push_cast
        linarith
  unfold arangeF arange
  simp only
  rw [hn, List.map_map]
  refine List.map_congr_left fun i hi => ?_
  have hi := List.mem_range.1 hi
  -- the window is before the end
  have hin : ∀ j : Nat, j < (-((s - e) / (k * 1000000000))).toNat → UsualTime (s + (j * k : Int) * 1000000000) := by
    intro j hj
    have h1 : ((s - e) / (k * 1000000000)) < -(j : Int) := by omega
    have h2 : s - e < -(j : Int) * (k * 1000000000) := (Int.ediv_lt_iff_lt_mul hpos).1 h1
    have h3 : s + (j * k : Int) * 1000000000 < e := by
      have : -(j : Int) * (k * 1000000000) = -((j * k : Int) * 1000000000) := by ring
      linarith
    refine ⟨?_, ?_, lt_trans h3 he.2.2⟩
    · exact dvd_add hs.1 (Dvd.dvd.mul_left (by norm_num) _)
    · have : (0 : Int) ≤ (j * k : Int) * 1000000000 := mul_nonneg (mul_nonneg (by omega) (by omega)) (by omega)
      have := hs.2.1
      omega
  have hval : ∀ j : Nat, j < (-((s - e) / (k * 1000000000))).toNat → timestampF (s + j * (k * 1000000000)) = timestampF s + j * k := by
    intro j hj
    have := timestampF_add s (j * k) hs (hin j hj)
    rw [show s + (j : Int) * (k * 1000000000) = s + (j * k : Int) * 1000000000 by ring, this]
    push_cast
    ring
  have hfl : ∀ j : Nat, j < (-((s - e) / (k * 1000000000))).toNat → f64 (timestampF s + j * k) = timestampF s + j * k := by
    intro j hj
    rw [← hval j hj]
    exact f64_exact (representable_roundTo 53 _)
  simp only [Function.comp]
  rw [hval i hi]
  split
  · rename_i h0
    rw [h0]
    simp
  · split
    · rename_i h0 h1
      have := hfl 1 (by omega)
      rw [h1]
      simpa using this
    · rename_i h0 h1
      have h11 := hfl 1 (by omega)
      rw [Nat.cast_one, one_mul] at h11
      rw [h11, add_sub_cancel_left]
      have hfk : f64 (k : Rat) = k := by
        have := f64_int (k : Int) (by rw [abs_of_nonneg (by omega)]; norm_num; norm_num at hk'; omega)
        simpa using this
      rw [hfk]
      have hik : f64 ((i : Rat) * k) = i * k := by
        have hb := (hin i hi).2.2
        have hs1 := hs.2.1
        have : f64 (((i * k : Int)) : Rat) = ((i * k : Int) : Rat) := by
          refine f64_int _ ?_
          rw [abs_of_nonneg (by positivity)]
          norm_num at hb hs1 ⊢
          omega
        push_cast at this
        exact this
      rw [hik, hfl i hi]

theorem selectCorrTimeUs_eq (st : List (CTr V)) (hst : ∀ tr ∈ st, 1000 ∣ tr.stats.corrStart ∧ 1000 ∣ tr.stats.corrEnd) (a b a' b' : Int)
    (ha : roundUs a = a') (hb : roundUs b = b') (partly : Bool) : selectCorrTimeUs st a b partly = selectCorrTime st a' b' partly := by
  unfold selectCorrTimeUs selectCorrTime
  simp only [ha, hb]
  cases partly
  · simp only [Bool.false_eq_true, if_false]
    refine List.filter_congr fun x hx => ?_
    obtain ⟨h1, h2⟩ := hst x (mem_isort.1 hx)
    rw [roundUs_whole _ h1, roundUs_whole _ h2]
  · simp only [if_true]
    refine List.filter_congr fun x hx => ?_
    obtain ⟨h1, h2⟩ := hst x (mem_isort.1 hx)
    rw [roundUs_whole _ h2]

/-- **C212** The windows of a stream (as they are stacked) are those of exact times, and each has the same correlations: if the times of the correlations are whole
microseconds between July 2006 and January 2038 and the step is a whole number of seconds.
Partial: steps with fractions of a second, see `c212_fraction_violated`, and other times, see `c212_nanoseconds_violated`. -/
theorem c212_windows_partial (st : List (CTr V)) (hst : ∀ tr ∈ st, UsualTime tr.stats.corrStart ∧ UsualTime tr.stats.corrEnd) (windowLength : Int)
    (hw : 1000 ∣ windowLength) (k : Nat) (hk : 0 < k) (hk' : k < 2 ^ 31) (partly : Bool) (starttime endtime : Option Int)
    (hs : ∀ t, starttime = some t → UsualTime t) (he : ∀ t, endtime = some t → UsualTime t) :
    slideF st windowLength k partly starttime endtime = slide st windowLength (k * 1000000000) partly starttime endtime := by
  have key : ∀ s e : Int, UsualTime s → UsualTime e →
      (((arangeF (timestampF s) (timestampF e) k).map fun start => selectCorrTimeUs st (fromTimestampF start) (fromTimestampF start + windowLength) partly)) =
      (arange s e (k * 1000000000)).map fun start => selectCorrTime st start (start + windowLength) partly := by
    intro s e hs he
    rw [arangeF_timestamps s e k hk hk' hs he, List.map_map]
    refine List.map_congr_left fun t ht => ?_
    have hu : UsualTime t := by
      unfold arange at ht
      obtain ⟨i, hi, rfl⟩ := List.mem_map.1 ht
      have hi := List.mem_range.1 hi
      have h1 : ((s - e) / (k * 1000000000)) < -(i : Int) := by omega
      have h2 : s - e < -(i : Int) * (k * 1000000000) := (Int.ediv_lt_iff_lt_mul (by omega)).1 h1
      have h3 : s + (i : Int) * (k * 1000000000) < e := by
        have : -(i : Int) * (k * 1000000000) = -((i : Int) * (k * 1000000000)) := by ring
        linarith
      refine ⟨?_, ?_, lt_trans h3 he.2.2⟩
      · exact dvd_add hs.1 (Dvd.dvd.mul_left (Dvd.dvd.mul_left (by norm_num) _) _)
      · have : (0 : Int) ≤ (i : Int) * (k * 1000000000) := by positivity
        have := hs.2.1
        omega
    simp only [Function.comp]
    have herr := fromTimestampF_err t hu
    refine selectCorrTimeUs_eq st (fun tr h => ⟨(hst tr h).1.1, (hst tr h).2.1⟩) _ _ _ _ (roundUs_near _ _ hu.1 herr) (roundUs_near _ _ (dvd_add hu.1 hw) ?_) partly
    push_cast
    rw [add_sub_add_right_eq_sub]
    exact herr
  have hmem : ∀ (l : List Int) (m : Int), (pyMin l = .ok m ∨ pyMax l = .ok m) → m ∈ l := by
    have hfold : ∀ (f : Int → Int → Int), (∀ a b, f a b = a ∨ f a b = b) → ∀ (l : List Int) (a : Int), l.foldl f a ∈ a :: l := by
      intro f hf l
      induction l with
      | nil => intro a; simp
      | cons b l ih =>
        intro a
        rw [List.foldl_cons]
        rcases List.mem_cons.1 (ih (f a b)) with h | h
        · rw [h]
          rcases hf a b with h | h <;> rw [h] <;> simp
        · simp [h]
    intro l m h
    cases l with
    | nil => rcases h with h | h <;> cases h
    | cons a l =>
      rcases h with h | h
      · simp only [pyMin, Except.ok.injEq] at h
        rw [← h]
        exact hfold min (fun a b => by omega) l a
      · simp only [pyMax, Except.ok.injEq] at h
        rw [← h]
        exact hfold max (fun a b => by omega) l a
  have hstep : ¬((k : Rat) ≤ 0) := by
    have : (0 : Rat) < k := by exact_mod_cast hk
    linarith
  have hstep' : ¬((k : Int) * 1000000000 ≤ 0) := by omega
  have hS : ∀ s, (match starttime with | some t => Except.ok t | none => pyMin (st.map fun tr => tr.stats.corrStart)) = Except.ok s → UsualTime s := by
    intro s h
    cases starttime with
    | some t => cases h; exact hs _ rfl
    | none =>
      obtain ⟨tr, htr, rfl⟩ := List.mem_map.1 (hmem _ _ (.inl h))
      exact (hst tr htr).1
  have hE : ∀ s, (match endtime with | some t => Except.ok t | none => pyMax (st.map fun tr => tr.stats.corrEnd)) = Except.ok s → UsualTime s := by
    intro s h
    cases endtime with
    | some t => cases h; exact he _ rfl
    | none =>
      obtain ⟨tr, htr, rfl⟩ := List.mem_map.1 (hmem _ _ (.inr h))
      exact (hst tr htr).2
  unfold slideF slide
  cases starttime with
  | some s =>
    have hs' := hs s rfl
    cases endtime with
    | some e =>
      simp only [bind, Except.bind, if_neg hstep, if_neg hstep', key s e hs' (he e rfl)]
    | none =>
      cases hm : pyMax (st.map fun tr => tr.stats.corrEnd) with
      | error e => simp only [bind, Except.bind]
      | ok e => simp only [bind, Except.bind, if_neg hstep, if_neg hstep', key s e hs' (hE e hm)]
  | none =>
    cases hn : pyMin (st.map fun tr => tr.stats.corrStart) with
    | error e => simp only [bind, Except.bind]
    | ok s =>
      have hs' := hS s hn
      cases endtime with
      | some e =>
        simp only [bind, Except.bind, if_neg hstep, if_neg hstep', key s e hs' (he e rfl)]
      | none =>
        cases hm : pyMax (st.map fun tr => tr.stats.corrEnd) with
        | error e => simp only [bind, Except.bind]
        | ok e => simp only [bind, Except.bind, if_neg hstep, if_neg hstep', key s e hs' (hE e hm)]

/-- two hours from 13 September 2020, 12:26:40.0084 -/
example : (∀ tr ∈ [exTr c!"A-A" 1600000000008400000 1600003600008400000 [], exTr c!"A-A" 1600003600008400000 1600007200008400000 []],
      UsualTime tr.stats.corrStart ∧ UsualTime tr.stats.corrEnd) ∧
    (slideF [exTr c!"A-A" 1600000000008400000 1600003600008400000 [], exTr c!"A-A" 1600003600008400000 1600007200008400000 []] 3600000000000 (3600 : Nat) true none none).map
      (fun ws => ws.map fun w => w.map fun t => t.stats.corrStart) = .ok [[1600000000008400000], [1600003600008400000]] := by
  constructor
  · unfold UsualTime; decide
  · decide +kernel

/-- **C212** is violated for steps with fractions of a second: ten correlations of 0.1 s each are to be put into ten windows of 0.1 s. The windows begin earlier and earlier, so that
number 4 is in two windows, each later window holds the correlation before its own, and the last correlation is lost. -/
theorem c212_fraction_violated :
    let st := (List.range 10).map fun i : Nat => exTr c!"A-A" (1600000000000000000 + i * 100000000) (1600000000000000000 + (i + 1) * 100000000) []
    (slideF st 100000000 (f64 (1 / 10)) true none none).map (fun ws => ws.map fun w => w.map fun t => (t.stats.corrStart - 1600000000000000000) / 100000000) =
        .ok [[0], [1], [2], [3], [4], [4], [5], [6], [7], [8]] ∧
      (slide st 100000000 100000000 true none none).map (fun ws => ws.map fun w => w.map fun t => (t.stats.corrStart - 1600000000000000000) / 100000000) =
        .ok [[0], [1], [2], [3], [4], [5], [6], [7], [8], [9]] := by
  decide +kernel

/-- **C212** is violated for times between two microseconds: a correlation of an hour that begins 5501 ns after a full second is in no window of an hour, so that its stack is empty. -/
theorem c212_nanoseconds_violated :
    let st := [exTr c!"A-A" 1600000000000005501 1600003600000005501 []]
    (slideF st 3600000000000 (3600 : Nat) true none none).map (fun ws => ws.map List.length) = .ok [] ∧
      (slide st 3600000000000 3600000000000 true none none).map (fun ws => ws.map List.length) = .ok [1] := by
  decide +kernel

end SeisMIC
