import Verif.Lemmas.TraceUtils

/-!
# C70 - C76: utilities for traces and streams
-/

namespace SeisMIC

/-! ### C70, C71 -/

/-- **C70** The traces that remain are exactly those longer than the given length
(samples divided by the sampling rate), in their order; equal traces are kept or
removed together. -/
theorem c70_discard_short (st : List Wave) (length : Rat) :
    discardShortTraces st length = st.filter fun tr => decide (length < (tr.data.length : Rat) / tr.sr) := by
  unfold discardShortTraces
  rw [removeIf_eq]
  apply List.filter_congr
  intro tr _
  rw [← decide_not]
  exact decide_eq_decide.2 not_le

/-- **C71** The traces that remain are exactly those that are not fully masked, in
their order. -/
theorem c71_valid_traces (st : List Wave) :
    getValidTraces st = st.filter fun tr => decide (tr.masked = true → ∃ x ∈ tr.data, x ≠ none) := by
  unfold getValidTraces
  rw [removeIf_eq]
  apply List.filter_congr
  intro tr _
  cases hm : tr.masked with
  | false => simp
  | true =>
    simp only [Bool.true_and, forall_const]
    rw [Bool.eq_iff_iff]
    simp only [Bool.not_eq_true', decide_eq_true_eq]
    constructor
    · intro h
      by_contra hc
      rw [← Bool.not_eq_true] at h
      apply h
      rw [List.all_eq_true]
      intro x hx
      rw [Option.isNone_iff_eq_none]
      by_contra hx0
      exact hc ⟨x, hx, hx0⟩
    · rintro ⟨x, hx, hx0⟩
      rw [← Bool.not_eq_true]
      intro h
      rw [List.all_eq_true] at h
      exact hx0 (Option.isNone_iff_eq_none.1 (h x hx))

/-- three traces, two of them equal and removed -/
example : discardShortTraces [⟨c!"a", 1, false, [some 1]⟩, ⟨c!"b", 1, false, [some 1, some 2]⟩,
    ⟨c!"a", 1, false, [some 1]⟩] 1 = [⟨c!"b", 1, false, [some 1, some 2]⟩] := by decide +kernel

example : getValidTraces [⟨c!"a", 1, true, [none, none]⟩, ⟨c!"b", 1, true, [none, some 2]⟩,
    ⟨c!"a", 1, true, [none]⟩] = [⟨c!"b", 1, true, [none, some 2]⟩] := by decide +kernel

/-! ### C72 -/

/-- **C72** The result has the length of the input, and each sample is the mean of
the valid samples at most `h` samples away (NaN if there is none). -/
theorem c72_moving_average (data : List F) (h : Nat) :
    (nanMovingAv data h).length = data.length ∧
    ∀ i, i < data.length → (nanMovingAv data h)[i]? =
      some (nanmean (samplesWhere data fun j => decide (j ≤ i + h) && decide (i ≤ j + h))) := by
  unfold nanMovingAv
  refine ⟨by simp, ?_⟩
  intro i hi
  rw [List.getElem?_map, List.getElem?_range hi, Option.map_some]
  congr 2
  unfold pySlice sliceBound
  simp only
  have h1 : ¬ (if (i : Int) - h < 0 then (0 : Int) else (i : Int) - h) < 0 := by split <;> omega
  have h2 : ¬ ((i + h + 1 : Nat) : Int) < 0 := by omega
  rw [if_neg h1, if_neg h2]
  simp only [Int.toNat_natCast]
  rw [samplesWhere_slice _ _ _ (Nat.min_le_right _ _)]
  apply samplesWhere_congr
  intro j hj
  rw [← Bool.decide_and, ← Bool.decide_and]
  apply decide_eq_decide.2
  split <;> omega

/-- **C72** (matrices) Along the last axis every row is averaged for itself. -/
theorem c72_rows (data : List (List F)) (h r : Nat) (row : List F) (hr : data[r]? = some row) :
    (nanMovingAvRows data h)[r]? = some (nanMovingAv row h) := by
  unfold nanMovingAvRows
  rw [List.getElem?_map, hr]
  rfl

example : nanMovingAv [some 1, none, some 3, some 8] 1 = [some 1, some 2, some (11 / 2), some (11 / 2)] := by
  decide +kernel

/-! ### C73 -/

/-- **C73** (some valid sample) For every trace with a valid sample and every maximum
length (none: unlimited): valid samples are unchanged; a sample in a gap between
two valid samples that is not longer than the maximum gets the value on the line
between these two samples; all other missing samples stay missing.
Missing: traces without valid sample, see `c73_all_masked_violated`. -/
theorem c73_interpolate_partial (A : List F) (maxGapLen : Option Nat) (hval : ∃ v, some v ∈ A) :
    ∃ out, interpolateGaps A maxGapLen = .ok out ∧ out.length = A.length ∧ ∀ i : Nat,
      (∀ v, A[i]? = some (some v) → out[i]? = some (some v)) ∧
      (∀ p q a b, InGap A p i q a b → (∀ L ∈ maxGapLen, q - p - 1 ≤ L) →
        out[i]? = some (some (a + (b - a) * (((i : Rat) - p) / ((q : Rat) - p))))) ∧
      (A[i]? = some none → (¬ ∃ p q a b, InGap A p i q a b ∧ ∀ L ∈ maxGapLen, q - p - 1 ≤ L) →
        out[i]? = some none) := by
  obtain ⟨v, hv⟩ := hval
  have hmne : A.map (·.isNone) ≠ [] := by
    intro h
    have : A = [] := by simpa using h
    rw [this] at hv
    cases hv
  unfold interpolateGaps
  simp only
  by_cases hany : (A.map (·.isNone)).any id = true
  · rw [if_pos hany]
    set xp := (List.range A.length).filter fun i => !((A.map (·.isNone)).getD i false) with hxp
    have hxpne : xp ≠ [] := by
      obtain ⟨k, hk⟩ := List.getElem?_of_mem hv
      have hkl := (List.getElem?_eq_some_iff.1 hk).1
      intro h
      have : k ∈ xp := by
        rw [hxp, List.mem_filter, List.mem_range]
        refine ⟨hkl, ?_⟩
        simp [List.getD, hk]
      rw [h] at this
      cases this
    rw [if_neg (fun h => hxpne h.1)]
    obtain ⟨h1, h2⟩ := fold_runs (npInterp xp (notNan A)) (maxGapLen.getD A.length) (maskRuns (A.map (·.isNone))) A
    refine ⟨_, rfl, h1, ?_⟩
    intro i
    -- masked samples
    have hmask : ∀ k : Nat, (A.map (·.isNone))[k]? = some true ↔ A[k]? = some none := by
      intro k
      rw [List.getElem?_map]
      cases A[k]? with
      | none => simp
      | some x => cases x <;> simp
    have hmaskf : ∀ k : Nat, (A.map (·.isNone))[k]? = some false ↔ ∃ v, A[k]? = some (some v) := by
      intro k
      rw [List.getElem?_map]
      cases A[k]? with
      | none => simp
      | some x => cases x <;> simp
    -- the run around a gap
    have hrun : ∀ p q a b, InGap A p i q a b → IsRun (A.map (·.isNone)) (p + 1) (q - p - 1) := by
      rintro p q a b ⟨g1, g2, g3, g4, g5⟩
      have hql : q < A.length := (List.getElem?_eq_some_iff.1 g4).1
      refine ⟨by omega, by simp; omega, ?_, ?_, ?_⟩
      · intro k hk1 hk2
        exact (hmask k).2 (g5 k (by omega) (by omega))
      · intro j hj
        obtain rfl : j = p := by omega
        exact (hmaskf j).2 ⟨a, g3⟩
      · intro _
        rw [show p + 1 + (q - p - 1) = q by omega]
        exact (hmaskf q).2 ⟨b, g4⟩
    refine ⟨?_, ?_, ?_⟩
    · intro v hv
      rw [(h2 i).2, hv]
      rintro ⟨⟨s, l⟩, hr, -, hr2, hr3⟩
      have := ((mem_maskRuns _ hmne s l).1 hr).2.2.1 i hr2 hr3
      rw [(hmask i).1 this] at hv
      cases hv
    · intro p q a b hg hL
      have hil : i < A.length := by
        have := (List.getElem?_eq_some_iff.1 hg.2.2.2.1).1
        have := hg.2.1
        omega
      rw [(h2 i).1 ?_ hil, npInterp_gap A p i q a b hg]
      · congr 2
        ring
      · refine ⟨(p + 1, q - p - 1), (mem_maskRuns _ hmne _ _).2 (hrun p q a b hg), ?_, ?_, ?_⟩
        · cases maxGapLen with
          | none =>
            have := (List.getElem?_eq_some_iff.1 hg.2.2.2.1).1
            simp only [Option.getD_none]
            omega
          | some L => exact hL L rfl
        · have := hg.1; simp only; omega
        · have := hg.2.1; have := hg.1; simp only; omega
    · intro hi hno
      have hil : i < A.length := (List.getElem?_eq_some_iff.1 hi).1
      by_cases hin : ∃ r ∈ maskRuns (A.map (·.isNone)), r.2 ≤ maxGapLen.getD A.length ∧ r.1 ≤ i ∧ i < r.1 + r.2
      · rw [(h2 i).1 hin hil]
        cases hint : npInterp xp (notNan A) i with
        | none => rfl
        | some w =>
          exfalso
          obtain ⟨⟨p0, a0, hp0, hp1⟩, ⟨q0, b0, hq0, hq1⟩⟩ := npInterp_some A i hi w hint
          obtain ⟨⟨s, l⟩, hr, hr1, hr2, hr3⟩ := hin
          simp only at hr1 hr2 hr3
          obtain ⟨r1, r2, r3, r4, r5⟩ := (mem_maskRuns _ hmne s l).1 hr
          rw [List.length_map] at r2 r5
          -- the run does not begin at zero and does not end at the end
          have hs : s ≠ 0 := by
            rintro rfl
            have := r3 p0 (by omega) (by omega)
            rw [(hmask p0).1 this] at hp1
            cases hp1
          have he : s + l < A.length := by
            by_contra hc
            have hql := (List.getElem?_eq_some_iff.1 hq1).1
            have := r3 q0 (by omega) (by omega)
            rw [(hmask q0).1 this] at hq1
            cases hq1
          obtain ⟨a, ha⟩ := (hmaskf (s - 1)).1 (r4 (s - 1) (by omega))
          obtain ⟨b, hb⟩ := (hmaskf (s + l)).1 (r5 he)
          apply hno
          refine ⟨s - 1, s + l, a, b, ⟨by omega, by omega, ha, hb, ?_⟩, ?_⟩
          · intro k hk1 hk2
            exact (hmask k).1 (r3 k (by omega) hk2)
          · intro L hL
            obtain rfl : maxGapLen = some L := hL
            simp only [Option.getD_some] at hr1
            omega
      · rw [(h2 i).2 hin, hi]
  · rw [if_neg hany]
    refine ⟨A, rfl, rfl, fun i => ⟨fun _ h => h, ?_, fun h _ => h⟩⟩
    rintro p q a b ⟨g1, g2, g3, g4, g5⟩ _
    exfalso
    apply hany
    rw [List.any_eq_true]
    exact ⟨true, List.mem_map.2 ⟨none, List.mem_of_getElem? (g5 i g1 g2), rfl⟩, rfl⟩

/-- the interpolated value lies between the neighbouring valid samples -/
theorem c73_between (p i q : Nat) (a b : Rat) (h1 : p < i) (h2 : i < q) :
    min a b ≤ a + (b - a) * (((i : Rat) - p) / ((q : Rat) - p)) ∧
      a + (b - a) * (((i : Rat) - p) / ((q : Rat) - p)) ≤ max a b := by
  have e1 : (0 : Rat) < (q : Rat) - p := by
    have : (p : Rat) < q := by exact_mod_cast lt_trans h1 h2
    linarith
  have t0 : (0 : Rat) ≤ ((i : Rat) - p) / ((q : Rat) - p) := by
    apply div_nonneg _ e1.le
    have : (p : Rat) ≤ i := by exact_mod_cast h1.le
    linarith
  have t1 : ((i : Rat) - p) / ((q : Rat) - p) ≤ 1 := by
    rw [div_le_one e1]
    have : (i : Rat) ≤ q := by exact_mod_cast h2.le
    linarith
  generalize ((i : Rat) - p) / ((q : Rat) - p) = t at *
  rcases le_total a b with h | h
  · rw [min_eq_left h, max_eq_right h]
    constructor <;> nlinarith
  · rw [min_eq_right h, max_eq_left h]
    constructor <;> nlinarith

/-- a short gap is filled, a long one and those at the ends are not -/
example : interpolateGaps [none, some 1, none, some 3, none, none, some 6, none] (some 1) =
    .ok [none, some 1, some 2, some 3, none, none, some 6, none] := by decide +kernel

example : InGap [none, some 1, none, some 3, none, none, some 6, none] 1 2 3 1 3 := by
  refine ⟨by omega, by omega, rfl, rfl, ?_⟩
  intro k h1 h2
  obtain rfl : k = 2 := by omega
  rfl

/-- **C73** is violated: a trace without valid sample that is not longer than the
maximum gap raises `ValueError`. -/
theorem c73_all_masked_violated : interpolateGaps [none, none] (some 10) = .error .valueError := by
  decide +kernel

/-! ### C74 -/

/-- **C74** The result lists the leaves from left to right. -/
theorem c74_flatten {α : Type} (x : List (Nested α)) (l : List α) : flatten x = l ↔ Leaves x l := by
  constructor
  · rintro rfl
    induction x using flatten.induct with
    | case1 => rw [flatten]; exact .nil
    | case2 a rest ih => rw [flatten]; exact .leaf _ ih
    | case3 l rest ih1 ih2 => rw [flatten]; exact .node ih1 ih2
  · intro h
    induction h with
    | nil => rw [flatten]
    | leaf a _ ih => rw [flatten, ih]
    | node _ _ ih1 ih2 => rw [flatten, ih1, ih2]

example : flatten [.node [.node [.leaf 1, .leaf 2], .node []], .leaf 3] = [1, 2, 3] := by
  simp [flatten]

/-! ### C75 -/

/-- **C75** (trace) A higher rate raises `ValueError`, the same rate changes nothing,
a lower rate is reached exactly: by keeping every `k`-th sample of the filtered
data if the old rate is `k` times the new one, by resampling otherwise. -/
theorem c75_trace (filt : Rat → List F → List F) (res : Rat → Rat → List F → List F) (tr : Wave) (srn : Rat)
    (hsrn : 0 < srn) (filter : Bool) :
    (tr.sr < srn → resampleTrace filt res tr srn filter = .error .valueError) ∧
    (tr.sr = srn → resampleTrace filt res tr srn filter = .ok tr) ∧
    (srn < tr.sr → ∃ tr', resampleTrace filt res tr srn filter = .ok tr' ∧ tr'.sr = srn ∧ tr'.id = tr.id ∧
      ∃ data, (filter = false → data = tr.data) ∧ (filter = true → ∃ fc, fc ≤ srn / 2 ∧ data = filt fc tr.data) ∧
        (∀ k : Nat, tr.sr = k * srn → tr'.data = everyNth k data) ∧
        ((¬ ∃ k : Nat, tr.sr = k * srn) → tr'.data = res tr.sr srn data)) := by
  unfold resampleTrace
  refine ⟨fun h => by rw [if_pos h], fun h => by rw [if_neg (by simp [h]), if_pos h.symm], ?_⟩
  intro h
  rw [if_neg (not_lt.2 h.le), if_neg h.ne]
  simp only
  have hsr : 0 < tr.sr := lt_trans hsrn h
  set data := (if filter = true then
        (if tr.sr / srn ≤ 16 then filt (tr.sr * (1 / 2) / (tr.sr / srn)) tr.data
          else filt (tr.sr * (45 / 100) / (tr.sr / srn)) tr.data)
      else tr.data) with hdata
  have hd1 : filter = false → data = tr.data := by
    intro hf; rw [hdata, if_neg (by simp [hf])]
  have hd2 : filter = true → ∃ fc, fc ≤ srn / 2 ∧ data = filt fc tr.data := by
    intro hf
    rw [hdata, if_pos hf]
    have e : ∀ c : Rat, tr.sr * c / (tr.sr / srn) = srn * c := by
      intro c; field_simp
    split
    · exact ⟨_, by rw [e]; linarith, rfl⟩
    · exact ⟨_, by rw [e]; linarith, rfl⟩
  have hk : ∀ k : Nat, tr.sr = k * srn → tr.sr / srn = k := by
    intro k hk
    rw [hk, mul_div_assoc, div_self hsrn.ne', mul_one]
  split
  · next hint =>
    have hpos : 0 ≤ (tr.sr / srn).floor := (le_ratFloor_iff _ _).2 (by push_cast; positivity)
    obtain ⟨n, hn⟩ := Int.eq_ofNat_of_zero_le hpos
    have hsn : tr.sr = n * srn := by
      rw [hn] at hint
      rw [div_eq_iff hsrn.ne'] at hint
      exact_mod_cast hint
    refine ⟨_, rfl, ?_, rfl, data, hd1, hd2, ?_, ?_⟩
    · simp only
      rw [← hint]
      field_simp
    · intro k hk'
      have : k = n := by
        have := (hk k hk').symm.trans (hk n hsn)
        exact_mod_cast this
      subst this
      simp only [hn]
      rfl
    · intro hno
      exact absurd ⟨n, hsn⟩ hno
  · next hint =>
    refine ⟨_, rfl, rfl, rfl, data, hd1, hd2, ?_, fun _ => rfl⟩
    intro k hk'
    exfalso
    apply hint
    rw [hk k hk']
    have : ((k : Rat)).floor = (k : Int) := Int.floor_natCast (R := Rat) k
    rw [this]
    simp

/-- **C75** (stream) If the function returns, every trace has the smaller one of its
old rate and the requested rate, so no rate is raised. It raises `ValueError` only
if all traces have the same rate and this is below the requested one. -/
theorem c75_stream (filt : Rat → List F → List F) (res : Rat → Rat → List F → List F) (st : List Wave) (srn : Rat)
    (hsrn : 0 < srn) (filter : Bool) :
    (∃ out, resampleStream filt res st srn filter = .ok out ∧ out.map Wave.sr = st.map (fun tr => min tr.sr srn) ∧
      out.map Wave.id = st.map Wave.id) ∨
    (resampleStream filt res st srn filter = .error .valueError ∧
      st ≠ [] ∧ ∃ sr < srn, ∀ tr ∈ st, tr.sr = sr) := by
  have hone : ∀ tr : Wave, srn ≤ tr.sr → ∃ tr', resampleTrace filt res tr srn filter = .ok tr' ∧
      tr'.sr = min tr.sr srn ∧ tr'.id = tr.id := by
    intro tr h
    obtain ⟨-, c2, c3⟩ := c75_trace filt res tr srn hsrn filter
    rcases h.lt_or_eq with h1 | h1
    · obtain ⟨tr', e1, e2, e3, -⟩ := c3 h1
      exact ⟨tr', e1, by rw [e2, min_eq_right h], e3⟩
    · exact ⟨tr, c2 h1.symm, by rw [h1, min_self], rfl⟩
  cases st with
  | nil => left; exact ⟨[], rfl, rfl, rfl⟩
  | cons tr0 rest =>
    unfold resampleStream
    simp only
    by_cases hsame : rest.all (fun tr => decide (tr.sr = tr0.sr)) = true
    · rw [if_pos hsame]
      have hall : ∀ tr ∈ tr0 :: rest, tr.sr = tr0.sr := by
        intro tr htr
        rcases List.mem_cons.1 htr with rfl | htr
        · rfl
        · simpa using List.all_eq_true.1 hsame tr htr
      by_cases hlt : tr0.sr < srn
      · right
        refine ⟨?_, by simp, tr0.sr, hlt, hall⟩
        rw [List.mapM_cons, (c75_trace filt res tr0 srn hsrn filter).1 hlt]
        rfl
      · left
        have hex : ∀ tr : Wave, tr ∈ tr0 :: rest → _ := fun tr htr => hone tr (by rw [hall tr htr]; exact not_lt.1 hlt)
        choose! g hg using hex
        refine ⟨(tr0 :: rest).map g, mapM_ok _ _ g (fun tr htr => (hg tr htr).1), ?_, ?_⟩
        · rw [List.map_map]
          exact List.map_congr_left fun tr htr => (hg tr htr).2.1
        · rw [List.map_map]
          exact List.map_congr_left fun tr htr => (hg tr htr).2.2
    · rw [if_neg hsame]
      left
      refine ⟨_, rfl, ?_, ?_⟩
      · rw [List.map_map]
        apply List.map_congr_left
        intro tr _
        simp only [Function.comp]
        by_cases h : srn ≤ tr.sr
        · obtain ⟨tr', e1, e2, -⟩ := hone tr h
          rw [e1]; exact e2
        · rw [(c75_trace filt res tr srn hsrn filter).1 (not_le.1 h), min_eq_left (not_le.1 h).le]
      · rw [List.map_map]
        apply List.map_congr_left
        intro tr _
        simp only [Function.comp]
        by_cases h : srn ≤ tr.sr
        · obtain ⟨tr', e1, -, e3⟩ := hone tr h
          rw [e1]; exact e3
        · rw [(c75_trace filt res tr srn hsrn filter).1 (not_le.1 h)]

/-- 4 Hz and 1 Hz to 2 Hz: the first is decimated, the second is left -/
example : resampleStream (fun _ => id) (fun _ _ => id) [⟨c!"a", 4, false, [some 1, some 2, some 3]⟩,
    ⟨c!"b", 1, false, [some 5]⟩] 2 true = .ok [⟨c!"a", 2, false, [some 1, some 3]⟩, ⟨c!"b", 1, false, [some 5]⟩] := by
  decide +kernel

/-! ### C76 -/

theorem setMask_get (mask : List Bool) (a b : Option Int) (i : Nat) (hi : i < mask.length)
    (ha : ∀ k ∈ a, 0 ≤ k) (hb : ∀ k ∈ b, 0 ≤ k) :
    (setMask mask a b).length = mask.length ∧ ((setMask mask a b)[i]? = some true ↔
      mask[i]? = some true ∨ ((∀ k ∈ a, k ≤ i) ∧ ∀ k ∈ b, (i : Int) < k)) := by
  unfold setMask
  refine ⟨by simp, ?_⟩
  rw [List.getElem?_mapIdx, List.getElem?_eq_getElem hi, Option.map_some]
  have hs : ∀ k : Int, 0 ≤ k → sliceBound mask.length k = min k.toNat mask.length := by
    intro k hk; unfold sliceBound; rw [if_neg (by omega)]
  have key : (optBound mask.length 0 a ≤ i ∧ i < optBound mask.length mask.length b) ↔ ((∀ k ∈ a, k ≤ (i : Int)) ∧ ∀ k ∈ b, (i : Int) < k) := by
    cases a with
    | none =>
      cases b with
      | none => simp [optBound, hi]
      | some e =>
        have := hb e rfl
        simp only [optBound, hs e this, Option.mem_def, Option.some.injEq, reduceCtorEq, forall_eq']
        constructor
        · rintro ⟨-, h⟩; exact ⟨fun _ h => h.elim, by omega⟩
        · rintro ⟨-, h⟩; exact ⟨by omega, by omega⟩
    | some s =>
      have h1 := ha s rfl
      cases b with
      | none =>
        simp only [optBound, hs s h1, Option.mem_def, Option.some.injEq, reduceCtorEq, forall_eq']
        constructor
        · rintro ⟨h, -⟩; exact ⟨by omega, fun _ h => h.elim⟩
        · rintro ⟨h, -⟩; exact ⟨by omega, hi⟩
      | some e =>
        have h2 := hb e rfl
        simp only [optBound, hs s h1, hs e h2, Option.mem_def, Option.some.injEq, forall_eq']
        omega
  by_cases hc : (∀ k ∈ a, k ≤ (i : Int)) ∧ ∀ k ∈ b, (i : Int) < k
  · simp only [key.2 hc, and_self, if_true, true_iff]
    right; exact hc
  · rw [if_neg (fun h => hc (key.1 h))]
    exact ⟨Or.inl, fun h => h.resolve_right hc⟩

theorem fold_setMask (ivs : List (Rat × Rat)) (f g : Rat × Rat → Option Int) (mask : List Bool) (i : Nat)
    (hi : i < mask.length) (hf : ∀ iv ∈ ivs, ∀ k ∈ f iv, 0 ≤ k) (hg : ∀ iv ∈ ivs, ∀ k ∈ g iv, 0 ≤ k) :
    (ivs.foldl (fun m iv => setMask m (f iv) (g iv)) mask).length = mask.length ∧
    ((ivs.foldl (fun m iv => setMask m (f iv) (g iv)) mask)[i]? = some true ↔
      mask[i]? = some true ∨ ∃ iv ∈ ivs, (∀ k ∈ f iv, k ≤ (i : Int)) ∧ ∀ k ∈ g iv, (i : Int) < k) := by
  induction ivs generalizing mask with
  | nil => simp
  | cons iv ivs ih =>
    obtain ⟨h1, h2⟩ := setMask_get mask (f iv) (g iv) i hi (hf iv (by simp)) (hg iv (by simp))
    obtain ⟨h3, h4⟩ := ih (setMask mask (f iv) (g iv)) (by rw [h1]; exact hi)
      (fun iv' h => hf iv' (by simp [h])) (fun iv' h => hg iv' (by simp [h]))
    rw [List.foldl_cons]
    refine ⟨h3.trans h1, h4.trans ?_⟩
    rw [h2]
    simp only [List.mem_cons, exists_eq_or_imp]
    tauto

/-- **C76** (what is masked) For intervals that begin before they end: sample `i` at
time `t` is masked iff there is an interval `[s, e]` of which at least one end lies
strictly inside the trace, with `s - 1/sr < t < e + 1/sr`; with `reverse` it is the
other way round. -/
theorem c76_actual (npts : Nat) (sr start : Rat) (hsr : 0 < sr) (ivs : List (Rat × Rat)) (reverse : Bool)
    (hiv : ∀ iv ∈ ivs, iv.1 ≤ iv.2) (i : Nat) (hi : i < npts) :
    (maskAtUtc npts sr start ivs reverse).length = npts ∧
    ((maskAtUtc npts sr start ivs reverse)[i]? = some (!reverse) ↔
      ∃ iv ∈ ivs, ((start < iv.1 ∧ iv.1 < start + ((npts : Rat) - 1) / sr) ∨
          (start < iv.2 ∧ iv.2 < start + ((npts : Rat) - 1) / sr)) ∧
        iv.1 - 1 / sr < start + i / sr ∧ start + i / sr < iv.2 + 1 / sr) := by
  set stop := start + ((npts : Rat) - 1) / sr with hstop
  set ii := fun iv : Rat × Rat => decide (iv.1 < stop) && decide (iv.1 > start) with hii
  set jj := fun iv : Rat × Rat => decide (iv.2 < stop) && decide (iv.2 > start) with hjj
  have hiit : ∀ iv, ii iv = true ↔ iv.1 < stop ∧ start < iv.1 := by intro iv; simp [hii]
  have hjjt : ∀ iv, jj iv = true ↔ iv.2 < stop ∧ start < iv.2 := by intro iv; simp [hjj]
  have hns : ∀ s : Rat, (sr * (s - start)).floor ≤ (i : Int) ↔ s - 1 / sr < start + i / sr := by
    intro s
    rw [← Int.lt_add_one_iff, ratFloor_lt_iff]
    push_cast
    have e : s - 1 / sr < start + i / sr ↔ s - start < (i + 1) / sr := by
      have : ((i : Rat) + 1) / sr = i / sr + 1 / sr := by ring
      rw [this]
      constructor <;> intro h <;> linarith
    rw [e, lt_div_iff₀ hsr, mul_comm]
  have hne : ∀ e : Rat, (i : Int) < (sr * (e - start)).ceil + 1 ↔ start + i / sr < e + 1 / sr := by
    intro e
    rw [Int.lt_add_one_iff]
    have h1 : (i : Int) ≤ (sr * (e - start)).ceil ↔ (i : Int) - 1 < (sr * (e - start)).ceil := by omega
    rw [h1, Rat.lt_ceil_iff]
    push_cast
    have e2 : start + i / sr < e + 1 / sr ↔ (i - 1) / sr < e - start := by
      have : ((i : Rat) - 1) / sr = i / sr - 1 / sr := by ring
      rw [this]
      constructor <;> intro h <;> linarith
    rw [e2, div_lt_iff₀ hsr, mul_comm]
  have hns0 : ∀ s, start < s → 0 ≤ (sr * (s - start)).floor := by
    intro s hs
    rw [le_ratFloor_iff]
    push_cast
    exact mul_nonneg hsr.le (by linarith)
  have hne0 : ∀ e, start < e → 0 ≤ (sr * (e - start)).ceil + 1 := by
    intro e he
    have : (0 : Int) ≤ (sr * (e - start)).ceil := by
      have h1 := Rat.le_ceil (x := sr * (e - start))
      have h2 : 0 ≤ sr * (e - start) := mul_nonneg hsr.le (by linarith)
      exact_mod_cast le_trans h2 h1
    omega
  have hti : start + (i : Rat) / sr ≤ stop := by
    rw [hstop]
    have : (i : Rat) ≤ (npts : Rat) - 1 := by
      have : ((i + 1 : Nat) : Rat) ≤ (npts : Rat) := by exact_mod_cast hi
      push_cast at this
      linarith
    have := div_le_div_of_nonneg_right this hsr.le
    linarith
  have hti0 : start ≤ start + (i : Rat) / sr := by
    have : (0 : Rat) ≤ i / sr := by positivity
    linarith
  have hinv : (0 : Rat) < 1 / sr := by positivity
  -- the three loops
  let m0 := List.replicate npts false
  let m1 := (ivs.filter fun iv => jj iv && ii iv).foldl
    (fun m iv => setMask m (some (sr * (iv.1 - start)).floor) (some ((sr * (iv.2 - start)).ceil + 1))) m0
  let m2 := (ivs.filter fun iv => ii iv && !jj iv).foldl
    (fun m iv => setMask m (some (sr * (iv.1 - start)).floor) none) m1
  let m3 := (ivs.filter fun iv => !ii iv && jj iv).foldl
    (fun m iv => setMask m none (some ((sr * (iv.2 - start)).ceil + 1))) m2
  have hm0 : m0.length = npts := by simp [m0]
  have h1 := fold_setMask (ivs.filter fun iv => jj iv && ii iv) (fun iv => some (sr * (iv.1 - start)).floor)
    (fun iv => some ((sr * (iv.2 - start)).ceil + 1)) m0 i (by rw [hm0]; exact hi)
    (by
      intro iv h k hk
      have h2 := (List.mem_filter.1 h).2
      simp only [Bool.and_eq_true] at h2
      cases hk
      exact hns0 _ ((hiit iv).1 h2.2).2)
    (by
      intro iv h k hk
      have h2 := (List.mem_filter.1 h).2
      simp only [Bool.and_eq_true] at h2
      cases hk
      exact hne0 _ ((hjjt iv).1 h2.1).2)
  have hm1 : m1.length = npts := h1.1.trans hm0
  have h2 := fold_setMask (ivs.filter fun iv => ii iv && !jj iv) (fun iv => some (sr * (iv.1 - start)).floor)
    (fun _ => none) m1 i (by rw [hm1]; exact hi)
    (by
      intro iv h k hk
      have h2 := (List.mem_filter.1 h).2
      simp only [Bool.and_eq_true] at h2
      cases hk
      exact hns0 _ ((hiit iv).1 h2.1).2)
    (by intro iv h k hk; cases hk)
  have hm2 : m2.length = npts := h2.1.trans hm1
  have h3 := fold_setMask (ivs.filter fun iv => !ii iv && jj iv) (fun _ => none)
    (fun iv => some ((sr * (iv.2 - start)).ceil + 1)) m2 i (by rw [hm2]; exact hi)
    (by intro iv h k hk; cases hk)
    (by
      intro iv h k hk
      have h2 := (List.mem_filter.1 h).2
      simp only [Bool.and_eq_true] at h2
      cases hk
      exact hne0 _ ((hjjt iv).1 h2.2).2)
  have hm3 : m3.length = npts := h3.1.trans hm2
  have hfun : maskAtUtc npts sr start ivs reverse = if reverse then m3.map (!·) else m3 := rfl
  have hmain : m3[i]? = some true ↔ ∃ iv ∈ ivs, ((start < iv.1 ∧ iv.1 < stop) ∨ (start < iv.2 ∧ iv.2 < stop)) ∧
      iv.1 - 1 / sr < start + i / sr ∧ start + i / sr < iv.2 + 1 / sr := by
    refine h3.2.trans ?_
    rw [h2.2, h1.2]
    have hz : m0[i]? ≠ some true := by simp [m0, hi]
    simp only [hz, false_or, Option.mem_def, Option.some.injEq, forall_eq', reduceCtorEq, false_imp_iff, implies_true,
      and_true, true_and, hns, hne, List.mem_filter, Bool.and_eq_true, Bool.not_eq_true']
    constructor
    · rintro ((⟨iv, ⟨hm, hj, hi'⟩, h4, h5⟩ | ⟨iv, ⟨hm, hi', hj⟩, h4⟩) | ⟨iv, ⟨hm, hi', hj⟩, h5⟩)
      · exact ⟨iv, hm, Or.inr ⟨((hjjt iv).1 hj).2, ((hjjt iv).1 hj).1⟩, h4, h5⟩
      · obtain ⟨a1, a2⟩ := (hiit iv).1 hi'
        refine ⟨iv, hm, Or.inl ⟨a2, a1⟩, h4, ?_⟩
        have hn : ¬ (iv.2 < stop ∧ start < iv.2) := fun h => by rw [(hjjt iv).2 h] at hj; cases hj
        have := hiv iv hm
        have h6 : stop ≤ iv.2 := by
          by_contra hc
          exact hn ⟨not_le.1 hc, by linarith⟩
        linarith
      · obtain ⟨a1, a2⟩ := (hjjt iv).1 hj
        refine ⟨iv, hm, Or.inr ⟨a2, a1⟩, ?_, h5⟩
        have hn : ¬ (iv.1 < stop ∧ start < iv.1) := fun h => by rw [(hiit iv).2 h] at hi'; cases hi'
        have := hiv iv hm
        have h6 : iv.1 ≤ start := by
          by_contra hc
          exact hn ⟨by linarith, not_le.1 hc⟩
        linarith
    · rintro ⟨iv, hm, h4, h5, h6⟩
      by_cases hI : ii iv = true
      · by_cases hJ : jj iv = true
        · exact Or.inl (Or.inl ⟨iv, ⟨hm, hJ, hI⟩, h5, h6⟩)
        · exact Or.inl (Or.inr ⟨iv, ⟨hm, hI, by simpa using hJ⟩, h5⟩)
      · by_cases hJ : jj iv = true
        · exact Or.inr ⟨iv, ⟨hm, by simpa using hI, hJ⟩, h6⟩
        · exfalso
          rcases h4 with h4 | h4
          · exact hI ((hiit iv).2 ⟨h4.2, h4.1⟩)
          · exact hJ ((hjjt iv).2 ⟨h4.2, h4.1⟩)
  rw [hfun]
  cases reverse with
  | false => exact ⟨hm3, hmain⟩
  | true =>
    simp only [if_true]
    refine ⟨by simp [hm3], ?_⟩
    rw [← hmain]
    have : m3[i]? = some (m3[i]'(by rw [hm3]; exact hi)) := List.getElem?_eq_getElem _
    rw [List.getElem?_map, this]
    simp

/-- **C76** (intervals with an end inside the trace) Every sample inside such an
interval is masked, and no sample that is more than one sample away from all
intervals is masked.
Missing: intervals that cover the trace, see `c76_cover_violated`. -/
theorem c76_mask_partial (npts : Nat) (sr start : Rat) (hsr : 0 < sr) (ivs : List (Rat × Rat))
    (hiv : ∀ iv ∈ ivs, iv.1 ≤ iv.2) (i : Nat) (hi : i < npts) :
    (∀ iv ∈ ivs, ((start < iv.1 ∧ iv.1 < start + ((npts : Rat) - 1) / sr) ∨
        (start < iv.2 ∧ iv.2 < start + ((npts : Rat) - 1) / sr)) →
      iv.1 ≤ start + i / sr → start + i / sr ≤ iv.2 → (maskAtUtc npts sr start ivs false)[i]? = some true) ∧
    ((∀ iv ∈ ivs, start + i / sr ≤ iv.1 - 1 / sr ∨ iv.2 + 1 / sr ≤ start + i / sr) →
      (maskAtUtc npts sr start ivs false)[i]? = some false) := by
  obtain ⟨hl, h⟩ := c76_actual npts sr start hsr ivs false hiv i hi
  have hinv : (0 : Rat) < 1 / sr := by positivity
  constructor
  · intro iv hm hin h1 h2
    exact h.2 ⟨iv, hm, hin, by linarith, by linarith⟩
  · intro hfar
    have hn : ¬ (maskAtUtc npts sr start ivs false)[i]? = some true := by
      intro hc
      obtain ⟨iv, hm, -, h1, h2⟩ := h.1 hc
      rcases hfar iv hm with h3 | h3 <;> linarith
    have : (maskAtUtc npts sr start ivs false)[i]? = some ((maskAtUtc npts sr start ivs false)[i]'(by rw [hl]; exact hi)) :=
      List.getElem?_eq_getElem _
    rw [this] at hn ⊢
    cases hb : (maskAtUtc npts sr start ivs false)[i]'(by rw [hl]; exact hi) with
    | true => rw [hb] at hn; exact absurd rfl hn
    | false => rfl

example : maskAtUtc 6 1 0 [(3 / 2, 5 / 2)] false = [false, true, true, true, false, false] := by decide +kernel

/-- **C76** is violated: an interval that covers the whole trace masks nothing. -/
theorem c76_cover_violated : maskAtUtc 3 1 10 [(0, 100)] false = [false, false, false] := by
  decide +kernel

/-- **C76** is violated at the ends: an interval that ends exactly at the first sample
does not mask this sample. -/
theorem c76_edge_violated : maskAtUtc 3 1 10 [(5, 10)] false = [false, false, false] := by
  decide +kernel

/-- **C76** (arguments) Exactly one of `ends` and `masklen` has to be given, and
`ends` has to be as long as `starts`. -/
theorem c76_arguments (starts : List Rat) (ends : Option (List Rat)) (masklen : Option Rat) :
    (maskIntervals starts ends masklen = .error .valueError ↔
      ends.isSome = masklen.isSome ∨ ∃ e ∈ ends, e.length ≠ starts.length) ∧
    (∀ ivs, maskIntervals starts ends masklen = .ok ivs → ivs.map Prod.fst = starts) := by
  unfold maskIntervals
  cases masklen with
  | none =>
    cases ends with
    | none => simp
    | some e =>
      by_cases h : e.length = starts.length
      · simp only [h, ne_eq, not_true, if_false]
        constructor
        · simp [h]
        · intro ivs hi
          cases hi
          exact List.map_fst_zip h.ge
      · simp [h]
  | some l =>
    cases ends with
    | none =>
      simp only
      constructor
      · simp
      · intro ivs hi
        cases hi
        rw [List.map_map]
        exact (List.map_congr_left fun _ _ => rfl).trans (List.map_id _)
    | some e => simp

end SeisMIC
