import Verif.Props.PostCorr
import Verif.Props.Smooth

/-!
# C226: averages do not exceed the range of what is averaged
-/

namespace SeisMIC

/-- all values that are not NaN lie between two numbers -/
def Within (lo hi : Rat) (data : List (List F)) : Prop := ∀ row ∈ data, ∀ v, some v ∈ row → lo ≤ v ∧ v ≤ hi

/-! ### Lemmas -/

theorem sum_within (lo hi : Rat) (l : List Rat) (h : ∀ v ∈ l, lo ≤ v ∧ v ≤ hi) : lo * l.length ≤ l.sum ∧ l.sum ≤ hi * l.length := by
  induction l with
  | nil => simp
  | cons a l ih =>
    have h1 := h a (by simp)
    have h2 := ih fun v hv => h v (by simp [hv])
    simp only [List.sum_cons, List.length_cons, Nat.cast_add, Nat.cast_one]
    constructor
    · linarith [h1.1, h2.1]
    · linarith [h1.2, h2.2]

theorem nanmean_within (lo hi : Rat) (l : List F) (h : ∀ v, some v ∈ l → lo ≤ v ∧ v ≤ hi) (m : Rat) (hm : nanmean l = some m) : lo ≤ m ∧ m ≤ hi := by
  unfold nanmean at hm
  have hv : ∀ v ∈ notNan l, lo ≤ v ∧ v ≤ hi := by
    intro v hv
    refine h v ?_
    unfold notNan at hv
    simpa using hv
  generalize notNan l = w at *
  cases w with
  | nil => cases hm
  | cons a w =>
    simp only [Option.some.injEq] at hm
    obtain ⟨h1, h2⟩ := sum_within lo hi (a :: w) hv
    have hpos : (0 : Rat) < ((a :: w).length : Rat) := by simp; positivity
    rw [← hm]
    exact ⟨(le_div_iff₀ hpos).2 h1, (div_le_iff₀ hpos).2 h2⟩

/-! ### C226 -/

/-- **C226** (averages in time) Whatever the bins, no average exceeds the range of the correlations. -/
theorem c226_resample (m : Nat) (data : List (List F)) (otime oend startTimes endTimes : List Int)
    (hd : ∀ row ∈ data, row.length = m) (hst : startTimes ≠ []) (hlen : endTimes = [] ∨ endTimes.length = startTimes.length)
    (h1 : endTimes = [] → startTimes.length = 1 → oend ≠ []) (lo hi : Rat) (hb : Within lo hi data) :
    ∃ rows ends, corrMatResample m data otime oend startTimes endTimes = .ok (rows, startTimes, ends) ∧ Within lo hi rows := by
  obtain ⟨rows, ends, h, -, -, -, hr⟩ := c39_bins m data otime oend startTimes endTimes hd hst hlen h1
  refine ⟨rows, ends, h, fun row hrow v hv => ?_⟩
  rw [hr] at hrow
  obtain ⟨b, -, rfl⟩ := List.mem_map.1 hrow
  obtain ⟨j, -, hj⟩ := List.mem_map.1 hv
  refine nanmean_within lo hi _ (fun w hw => ?_) v hj
  obtain ⟨r, hr1, hr2⟩ := List.mem_map.1 hw
  unfold inBin at hr1
  obtain ⟨p, hp, rfl⟩ := List.mem_map.1 hr1
  have hmem : p.2 ∈ data := (List.of_mem_zip (List.mem_filter.1 hp).1).2
  refine hb p.2 hmem w ?_
  rw [List.getD_eq_getElem?_getD] at hr2
  cases hg : p.2[j]? with
  | none => rw [hg] at hr2; cases hr2
  | some y =>
    rw [hg] at hr2
    simp only [Option.getD_some] at hr2
    rw [← hr2]
    exact List.mem_of_getElem? hg

/-- **C226** (mirroring) The averages of the two sides do not exceed the range of the correlations. -/
theorem c226_mirror (data : List (List F)) (s : LagStats) (z : Nat) (hsr : 0 < s.sr) (hd : Rect data s) (hz : s.lag z = 0) (hz0 : 0 < z)
    (hzn : z + 1 < s.npts) (lo hi : Rat) (hb : Within lo hi data) :
    ∃ out s', corrMatMirror data s = some (out, s') ∧ Within lo hi out := by
  obtain ⟨out, s', h, -, -, -, hrect, hlen, hval⟩ := c41_mirror data s z hsr hd hz hz0 hzn
  refine ⟨out, s', h, fun row' hrow v hv => ?_⟩
  obtain ⟨r, hr⟩ := List.getElem?_of_mem hrow
  obtain ⟨i, hi'⟩ := List.getElem?_of_mem hv
  have hrl : r < data.length := by
    rw [← hlen]
    exact (List.getElem?_eq_some_iff.1 hr).1
  have hil : i < s'.npts := by
    rw [← hrect row' hrow]
    exact (List.getElem?_eq_some_iff.1 hi').1
  have hrow0 : data[r]? = some data[r] := List.getElem?_eq_getElem hrl
  have hmem : data[r] ∈ data := List.getElem_mem hrl
  have key : ∀ (k : Nat) (w : Rat), (data[r])[k]? = some (some w) → lo ≤ w ∧ w ≤ hi := fun k w hk => hb _ hmem w (List.mem_of_getElem? hk)
  have e := hval r _ row' hrow0 hr i hil
  rw [hi'] at e
  split at e
  · obtain ⟨x, hx, e⟩ := Option.bind_eq_some_iff.1 e.symm
    obtain ⟨y, hy, e⟩ := Option.map_eq_some_iff.1 e
    cases x with
    | none => cases e
    | some x =>
      cases y with
      | none => cases e
      | some y =>
        have h1 := key _ _ hx
        have h2 := key _ _ hy
        have e : F.div (F.add (some x) (some y)) (some 2) = some v := e
        have : F.div (F.add (some x) (some y)) (some 2) = some ((x + y) / 2) := by simp [F.div, F.add]
        rw [this] at e
        have e := Option.some.inj e
        rw [← e]
        constructor <;> linarith
  · split at e
    · exact key _ _ e.symm
    · exact key _ _ e.symm

theorem mirrored_within (x : List ℝ) (lo hi : ℝ) (hne : x ≠ []) (hb : ∀ v ∈ x, lo ≤ v ∧ v ≤ hi) (i : Int) (h1 : (1 - i).toNat < x.length)
    (h2 : 0 ≤ 2 * (x.length : Int) - 1 - i) : 2 * lo - hi ≤ mirrored x i ∧ mirrored x i ≤ 2 * hi - lo := by
  have hpos : 0 < x.length := List.length_pos_of_ne_nil hne
  have g : ∀ k, k < x.length → lo ≤ x.getD k 0 ∧ x.getD k 0 ≤ hi := by
    intro k hk
    rw [List.getD_eq_getElem _ _ hk]
    exact hb _ (List.getElem_mem hk)
  have hlh : lo ≤ hi := (g 0 hpos).1.trans (g 0 hpos).2
  unfold mirrored
  by_cases c1 : i < 0
  · rw [if_pos c1]
    have a := g 0 hpos
    have b := g _ h1
    constructor <;> linarith [a.1, a.2, b.1, b.2]
  · rw [if_neg c1]
    by_cases c2 : i < x.length
    · rw [if_pos c2]
      have a := g i.toNat (by omega)
      constructor <;> linarith [a.1, a.2]
    · rw [if_neg c2]
      have a := g (x.length - 1) (by omega)
      have b := g (2 * x.length - 1 - i).toNat (by omega)
      constructor <;> linarith [a.1, a.2, b.1, b.2]

/-- **C226** (smoothing) With every window, smoothed values lie in the range of the trace at least half a window away from its ends. Near the ends they leave it
by the width of the range at most.
Missing for the full property: `c226_smooth_violated`. -/
theorem c226_smooth_partial (x : List ℝ) (L : Nat) (window : Str) (hL : 3 ≤ L) (hn : L < x.length) (hw : window ∈ windowNames) (lo hi : ℝ)
    (hb : ∀ v ∈ x, lo ≤ v ∧ v ≤ hi) :
    ∃ out, smooth1 x L window = .ok out ∧ out.length = x.length ∧
      (∀ k < x.length, 2 * lo - hi ≤ out.getD k 0 ∧ out.getD k 0 ≤ 2 * hi - lo) ∧
      ∀ k, L / 2 ≤ k → k + (L - 1) / 2 < x.length → lo ≤ out.getD k 0 ∧ out.getD k 0 ≤ hi := by
  obtain ⟨out, w, ho, hw', hlen, -, -, hint⟩ := c109_interior x L window hL hn hw
  obtain ⟨out', ho', -, hv⟩ := smooth1_values x L window w hL hn hw'
  rw [ho] at ho'
  cases ho'
  obtain ⟨hpos, h0, hsum, -⟩ := window_sum window L w hL hw'
  refine ⟨out, ho, hlen, fun k hk => ?_, fun k h1 h2 => ?_⟩
  · rw [hv k hk]
    have hm : ∀ j ∈ Finset.range L, 2 * lo - hi ≤ mirrored x ((k : Int) + ((L - 1) / 2 : Nat) - j) ∧
        mirrored x ((k : Int) + ((L - 1) / 2 : Nat) - j) ≤ 2 * hi - lo := by
      intro j hj
      have hj := Finset.mem_range.1 hj
      have hne : x ≠ [] := by rintro rfl; simp at hn
      exact mirrored_within x lo hi hne hb _ (by omega) (by omega)
    have hnn : ∀ j ∈ Finset.range L, 0 ≤ w.getD j 0 / w.sum := fun j _ => div_nonneg (h0 j) hpos.le
    have hone : ∑ j ∈ Finset.range L, w.getD j 0 / w.sum = 1 := by
      rw [← Finset.sum_div, hsum, div_self hpos.ne']
    constructor
    · calc 2 * lo - hi = ∑ j ∈ Finset.range L, w.getD j 0 / w.sum * (2 * lo - hi) := by rw [← Finset.sum_mul, hone, one_mul]
        _ ≤ _ := Finset.sum_le_sum fun j hj => mul_le_mul_of_nonneg_left (hm j hj).1 (hnn j hj)
    · calc _ ≤ ∑ j ∈ Finset.range L, w.getD j 0 / w.sum * (2 * hi - lo) :=
            Finset.sum_le_sum fun j hj => mul_le_mul_of_nonneg_left (hm j hj).2 (hnn j hj)
        _ = _ := by rw [← Finset.sum_mul, hone, one_mul]
  · refine (hint k h1 h2).2 lo hi fun i _ _ hi' => ?_
    rw [List.getD_eq_getElem _ _ hi']
    exact hb _ (List.getElem_mem hi')

/-- **C226** is violated for smoothing: near its ends, a smoothed trace leaves the range of its values. -/
theorem c226_smooth_violated : ∃ x out : List ℝ, smooth1 x 3 c!"flat" = .ok out ∧ (∀ v ∈ x, 0 ≤ v) ∧ ∃ v ∈ out, v < 0 :=
  ⟨_, _, c109_trend_violated, by norm_num, -1 / 3, by simp, by norm_num⟩

/-- values between 1 and 7 -/
example : Within 1 7 [[some 1, some 2, none, some 4, some 6, some 7]] := by
  intro row hr v hv
  simp only [List.mem_singleton] at hr
  subst hr
  simp only [List.mem_cons, Option.some.injEq, reduceCtorEq, List.not_mem_nil, or_false, false_or] at hv
  rcases hv with rfl | rfl | rfl | rfl | rfl <;> norm_num

end SeisMIC
