import Verif.Model.MonitorDv
import Verif.Props.StretchMeasure

/-!
# C118: the velocity change of a combination of stations
-/

namespace SeisMIC

/-! ### Specification -/

/-- `res` is the result of comparing the traces, given as functions of the lag in samples, with the stretched references `G v` on the set of lags
`L`: for each trace the best tested stretch and its coefficient -/
def Compares (traces : List (Int → ℝ)) (G : ℝ → Int → ℝ) (L : Finset Int) (tested : List ℝ) (res : DvRows) : Prop :=
  res.length = traces.length ∧ ∀ (i : Nat) (f : Int → ℝ), traces[i]? = some f → ∃ corr value, res[i]? = some (corr, value) ∧
    Spec.IsBest tested (tested.map fun v => coeffAt L f (G v)) corr value

/-! ### Lemmas -/

theorem ratFloor_int (x : Rat) (n : Int) (h : x = n) : x.floor = n := by rw [h]; exact Rat.floor_intCast n

theorem ratCeil_int (x : Rat) (n : Int) (h : x = n) : x.ceil = n := by rw [h]; exact Rat.ceil_intCast n

theorem arangeInt_ints (s T : Int) : arangeInt s T = intsFrom s T := by
  unfold arangeInt intsFrom
  rw [ratCeil_int _ (T - s) (by push_cast; ring)]
  refine List.map_congr_left fun k _ => ?_
  exact ratFloor_int _ _ (by push_cast; ring)

theorem coeffAt_congr_left (L : Finset Int) (f f' r : Int → ℝ) (h : ∀ l ∈ L, f l = f' l) : coeffAt L f r = coeffAt L f' r := by
  have h1 : ∑ l ∈ L, f l ^ 2 = ∑ l ∈ L, f' l ^ 2 := Finset.sum_congr rfl fun l hl => by rw [h l hl]
  have h2 : ∑ l ∈ L, f l * r l = ∑ l ∈ L, f' l * r l := Finset.sum_congr rfl fun l hl => by rw [h l hl]
  unfold coeffAt
  rw [h1, h2]

theorem atLag_rowAt (a lo hi l : Int) (row : List ℝ) (h1 : lo ≤ l) (h2 : l ≤ hi) : atLag lo (rowAt a lo hi row) l = atLag a row l := by
  unfold rowAt
  conv_lhs => unfold atLag
  rw [List.getD_eq_getElem _ _ (by rw [List.length_map, length_intsFrom]; omega), List.getElem_map, getElem_intsFrom]
  congr 1
  omega

/-- trimming of the bulk -/
theorem dvTrim (E T : Int) (hT : 0 ≤ T) (hTE : T ≤ E) (sr : Rat) (hsr : 0 < sr) (data : List (List ℝ)) (hd : ∀ row ∈ data, row.length = (E + 1 - -E).toNat)
    (hne : data ≠ []) : corrMatTrim data (lagsFromTo (-E) E sr) (-((T : Rat) / sr)) ((T : Rat) / sr) = (data.map (rowAt (-E) (-T) T), lagsFromTo (-T) T sr) := by
  have := trim_lags (-E) E (-T) T sr hsr data hd hne (by omega) (by omega) hTE
  rw [show -((T : Rat) / sr) = ((-T : Int) : Rat) / sr by push_cast; ring]
  exact this

theorem dvWindow_ok (o : DvOptions) (lts sr : Rat) (tt : Option Rat) (s T : Int) (hstart : o.twStart + tt.getD 0 = s / sr)
    (hlen : o.twLen = some (((T - s : Int) : Rat) / sr)) (hlts : (T : Rat) / sr ≤ lts) : dvWindow o lts tt = .ok ((s : Rat) / sr, (T : Rat) / sr) := by
  have : (s : Rat) / sr + ((T - s : Int) : Rat) / sr = (T : Rat) / sr := by
    push_cast
    rw [← add_div]
    congr 1
    ring
  unfold dvWindow
  simp only [hlen, hstart, this]
  rw [if_neg (not_lt.2 hlts)]

/-- a measurement on the trimmed bulk -/
theorem dvStretch (spline : List ℝ → List ℝ → ℝ → ℝ) (sr : Rat) (hsr : 0 < sr) (E T s : Int) (hs0 : 0 ≤ s) (hsT : s < T) (hTE : T ≤ E)
    (data : List (List ℝ)) (hne : data ≠ []) (ref : List ℝ) (href : ref.length = (E + 1 - -E).toNat)
    (range : ℝ) (steps : Nat) (hst : 0 < steps) (sides : Str) (hs : sides = c!"both" ∨ sides = c!"left" ∨ sides = c!"right") :
    ∃ res, corrMatStretch spline (data.map (rowAt (-E) (-T) T)) (lagsFromTo (-T) T sr) (some ref) (some [intsFrom s T]) range steps sides
        (some (lagsFromTo (-E) E sr)) = .ok [res] ∧
      Compares (data.map (atLag (-E))) (stretchedAt spline (-E) E ref) (lagSet sides (-T) T (intsFrom s T)) (testedStretches range steps) res := by
  obtain ⟨res, h1, h2, h3⟩ := c116_best spline sr hsr T T E (by omega) (by omega) (by omega) (data.map (rowAt (-E) (-T) T)) (by
    intro r hr
    obtain ⟨r', _, rfl⟩ := List.mem_map.1 hr
    exact length_rowAt _ _ _ _) (by simpa using hne) ref href (intsFrom s T) (by
      intro h
      have := congrArg List.length h
      rw [length_intsFrom] at this
      simp at this
      omega) (by
      intro k hk
      have := (mem_intsFrom _ _ _).1 hk
      omega) range steps hst sides hs
  refine ⟨res, h1, by simpa using h2, fun i f hi => ?_⟩
  rw [List.getElem?_map] at hi
  obtain ⟨row, hrow, rfl⟩ := Option.map_eq_some_iff.1 hi
  obtain ⟨corr, value, g1, g2⟩ := h3 i (rowAt (-E) (-T) T row) (by rw [List.getElem?_map, hrow]; rfl)
  refine ⟨corr, value, g1, ?_⟩
  rw [min_self] at g2
  refine cast (congrArg (fun l => Spec.IsBest _ l corr value) (List.map_congr_left fun v _ => ?_)) g2
  refine coeffAt_congr_left _ _ _ _ fun l hl => ?_
  have := Finset.mem_Icc.1 (Finset.mem_filter.1 hl).1
  exact atLag_rowAt _ _ _ _ _ this.1 this.2

/-! ### Theorems -/

/-- **C118** (both sides, left or right side). The traces have lags from `-E` to `E` samples, the window starts at `s` and ends before `T`. First the
traces are compared with the reference, the given one or the one made of the traces; then the traces are corrected by these values; the result is the comparison of
the original traces with the reference, the given one or the one made of the corrected traces. Both comparisons are on the lags from `s` to `T` of the
requested sides.
Missing for the full property: `c118_none_violated`, `c118_message_violated`, `c118_one_trace_violated` and others. -/
theorem c118_result_partial (spline : List ℝ → List ℝ → ℝ → ℝ) (refOf : List (List (Option ℝ)) → List ℝ) (sr : Rat) (hsr : 0 < sr) (E T s : Int) (hs0 : 0 ≤ s)
    (hsT : s < T) (hTE : T ≤ E) (hT : 10 ≤ T) (data : List (List ℝ)) (hd : ∀ row ∈ data, row.length = (E + 1 - -E).toNat) (hne : 2 ≤ data.length)
    (hrefOf : ∀ d, (refOf d).length = (E + 1 - -E).toNat) (custom : Option (List ℝ)) (hcustom : ∀ r ∈ custom, r.length = (E + 1 - -E).toNat)
    (o : DvOptions) (hst : 0 < o.steps) (hs : o.sides = c!"both" ∨ o.sides = c!"left" ∨ o.sides = c!"right") (lts : Rat) (tt : Option Rat)
    (hstart : o.twStart + tt.getD 0 = s / sr) (hlen : o.twLen = some (((T - s : Int) : Rat) / sr)) (hlts : (T : Rat) / sr ≤ lts) :
    ∃ res1 out res2, computeDv spline refOf data (lagsFromTo (-E) E sr) o lts tt custom = .ok res2 ∧
      Compares (data.map (atLag (-E))) (stretchedAt spline (-E) E (custom.getD (refOf (data.map fun row => row.map some))))
        (lagSet o.sides (-T) T (intsFrom s T)) (testedStretches o.range o.steps) res1 ∧
      correctStretch spline (lagsFromTo (-E) E sr) c!"stretch" data (.array (res1.map Prod.snd)) = .ok out ∧
      Compares (data.map (atLag (-E))) (stretchedAt spline (-E) E (custom.getD (refOf out)))
        (lagSet o.sides (-T) T (intsFrom s T)) (testedStretches o.range o.steps) res2 := by
  have hss : o.sides ≠ c!"single" := by rcases hs with h | h | h <;> rw [h] <;> decide
  have hdne : data ≠ [] := by
    intro h
    rw [h] at hne
    simp at hne
  have hcl : ∀ d, (custom.getD (refOf d)).length = (E + 1 - -E).toNat := by
    intro d
    cases custom with
    | none => exact hrefOf d
    | some r => exact hcustom r rfl
  obtain ⟨res1, h1, h2⟩ := dvStretch spline sr hsr E T s hs0 hsT hTE data hdne _ (hcl (data.map fun row => row.map some)) o.range o.steps hst o.sides hs
  have hl1 : res1.length = data.length := by simpa using h2.1
  have hsq : squeeze (res1.map Prod.snd) = .array (res1.map Prod.snd) := by
    match res1, hl1 with
    | [], h => simp at h; omega
    | [_], h => simp at h; omega
    | _ :: _ :: _, _ => rfl
  have hc := correctStretch_array spline (lagsFromTo (-E) E sr) data (res1.map Prod.snd) (by rw [List.length_map, hl1]; omega)
  obtain ⟨res2, h3, h4⟩ := dvStretch spline sr hsr E T s hs0 hsT hTE data hdne _ (hcl _) o.range o.steps hst o.sides hs
  refine ⟨res1, _, res2, ?_, h2, hc, h4⟩
  have hsr' : sr ≠ 0 := hsr.ne'
  unfold computeDv
  rw [dvWindow_ok o lts sr tt s T hstart hlen hlts]
  simp only [bind, Except.bind]
  rw [dvTrim E T (by omega) hTE sr hsr data hd hdne]
  simp only
  rw [if_neg (by simp only [lagsFromTo]; omega)]
  have hsrT : (lagsFromTo (-T) T sr).sr = sr := rfl
  rw [hsrT, div_mul_cancel₀ _ hsr', div_mul_cancel₀ _ hsr', arangeInt_ints, h1]
  simp only [List.headD_cons, hsq, hc]
  have htr := stretchTrim_both (-T) T sr hsr (data.map (rowAt (-E) (-T) T)) (by
    intro r hr
    obtain ⟨r', _, rfl⟩ := List.mem_map.1 hr
    exact length_rowAt _ _ _ _) (by simpa using hdne) (by omega) (by omega) o.sides hss
  rw [neg_neg, min_self] at htr
  rw [htr]
  simp only
  rw [h3]
  rfl

/-- `Compares` for a reference that the spline reproduces and a trace that is the stretched reference -/
theorem compares_found (spline : List ℝ → List ℝ → ℝ → ℝ) (P : (ℝ → ℝ) → Prop) (hsp : Reproduces spline P) (f : ℝ → ℝ) (hf : P f) (E : Int) (hE : 2 ≤ E)
    (traces : List (Int → ℝ)) (L : Finset Int) (tested : List ℝ) (res : DvRows)
    (hc : Compares traces (stretchedAt spline (-E) E ((intsFrom (-E) (E + 1)).map fun k : Int => f k)) L tested res)
    (i : Nat) (g : Int → ℝ) (hi : traces[i]? = some g) (v : ℝ) (hv : v ∈ tested) (c : ℝ) (hc0 : 0 < c)
    (hrow : ∀ l ∈ L, |(l : ℝ) * Real.exp (-v)| ≤ E ∧ g l = c * f (l * Real.exp (-v))) (hnz : ∃ l ∈ L, g l ≠ 0)
    (hrz : ∀ u ∈ tested, ∃ l ∈ L, |(l : ℝ) * Real.exp (-u)| ≤ E ∧ f (l * Real.exp (-u)) ≠ 0)
    (huniq : ∀ u ∈ tested, (∃ d > 0, ∀ l ∈ L, g l = d * if |(l : ℝ) * Real.exp (-u)| ≤ E then f (l * Real.exp (-u)) else 0) → u = v) :
    res[i]? = some (some 1, some v) := by
  have hst' : ∀ u l, stretchedAt spline (-E) E ((intsFrom (-E) (E + 1)).map fun k : Int => f k) u l =
      if |(l : ℝ) * Real.exp (-u)| ≤ E then f (l * Real.exp (-u)) else 0 := by
    intro u l
    rw [stretchedAt_reproduces spline P hsp f hf (-E) E (by omega)]
    congr 1
    rw [abs_le]
    push_cast
    rfl
  obtain ⟨corr, value, g1, g2⟩ := hc.2 i g hi
  have hex : ∀ u ∈ tested, ∃ l ∈ L, stretchedAt spline (-E) E ((intsFrom (-E) (E + 1)).map fun k : Int => f k) u l ≠ 0 := by
    intro u hu
    obtain ⟨l, hl, h4, h5⟩ := hrz u hu
    exact ⟨l, hl, by rw [hst', if_pos h4]; exact h5⟩
  obtain ⟨e1, u, hu, e2, e3⟩ := isBest_one _ (fun v => coeffAt L g
      (stretchedAt spline (-E) E ((intsFrom (-E) (E + 1)).map fun k : Int => f k) v)) v hv
    ((coeffAt_one _ _ _ hnz (hex v hv)).2.2 ⟨c, hc0, fun l hl => by
      rw [hst', if_pos (hrow l hl).1]
      exact (hrow l hl).2⟩)
    (fun u hu => by
      obtain ⟨c', hc'⟩ := (coeffAt_one _ _ _ hnz (hex u hu)).1
      exact ⟨c', hc', coeffAt_le _ _ _ _ hc'⟩) corr value g2
  obtain ⟨d, hd0, hd1⟩ := (coeffAt_one _ _ _ hnz (hex u hu)).2.1 e3
  rw [g1, e1, e2, huniq u hu ⟨d, hd0, fun l hl => by rw [hd1 l hl, hst']⟩]

/-- **C118** (given reference). If the given reference consists of samples of `f`, which the spline reproduces, and trace `i` is, on the lags of the window,
a multiple of `f` stretched by a tested `v` and of no other tested stretch of it, the result for it is `v` with correlation one.
Missing for the full property: `c118_none_violated`, `c118_message_violated`, `c118_one_trace_violated` and others. -/
theorem c118_found_partial (spline : List ℝ → List ℝ → ℝ → ℝ) (P : (ℝ → ℝ) → Prop) (hsp : Reproduces spline P) (f : ℝ → ℝ) (hf : P f)
    (refOf : List (List (Option ℝ)) → List ℝ) (sr : Rat) (hsr : 0 < sr) (E T s : Int) (hs0 : 0 ≤ s)
    (hsT : s < T) (hTE : T ≤ E) (hT : 10 ≤ T) (data : List (List ℝ)) (hd : ∀ row ∈ data, row.length = (E + 1 - -E).toNat) (hne : 2 ≤ data.length)
    (hrefOf : ∀ d, (refOf d).length = (E + 1 - -E).toNat)
    (o : DvOptions) (hst : 0 < o.steps) (hs : o.sides = c!"both" ∨ o.sides = c!"left" ∨ o.sides = c!"right") (lts : Rat) (tt : Option Rat)
    (hstart : o.twStart + tt.getD 0 = s / sr) (hlen : o.twLen = some (((T - s : Int) : Rat) / sr)) (hlts : (T : Rat) / sr ≤ lts)
    (i : Nat) (row : List ℝ) (hi : data[i]? = some row) (v : ℝ) (hv : v ∈ testedStretches o.range o.steps) (c : ℝ) (hc : 0 < c)
    (hrow : ∀ l ∈ lagSet o.sides (-T) T (intsFrom s T), |(l : ℝ) * Real.exp (-v)| ≤ E ∧ atLag (-E) row l = c * f (l * Real.exp (-v)))
    (hnz : ∃ l ∈ lagSet o.sides (-T) T (intsFrom s T), atLag (-E) row l ≠ 0)
    (hrz : ∀ u ∈ testedStretches o.range o.steps, ∃ l ∈ lagSet o.sides (-T) T (intsFrom s T), |(l : ℝ) * Real.exp (-u)| ≤ E ∧ f (l * Real.exp (-u)) ≠ 0)
    (huniq : ∀ u ∈ testedStretches o.range o.steps, (∃ d > 0, ∀ l ∈ lagSet o.sides (-T) T (intsFrom s T),
      atLag (-E) row l = d * if |(l : ℝ) * Real.exp (-u)| ≤ E then f (l * Real.exp (-u)) else 0) → u = v) :
    ∃ res, computeDv spline refOf data (lagsFromTo (-E) E sr) o lts tt (some ((intsFrom (-E) (E + 1)).map fun k : Int => f k)) = .ok res ∧
      res[i]? = some (some 1, some v) := by
  obtain ⟨res1, out, res, h1, -, -, h2⟩ := c118_result_partial spline refOf sr hsr E T s hs0 hsT hTE hT data hd hne hrefOf
    (some ((intsFrom (-E) (E + 1)).map fun k : Int => f k)) (by
      intro r hr
      rw [← Option.mem_some.1 hr, List.length_map, length_intsFrom]) o hst hs lts tt hstart hlen hlts
  exact ⟨res, h1, compares_found spline P hsp f hf E (by omega) _ _ _ _ h2 i _ (by rw [List.getElem?_map, hi]; rfl) v hv c hc hrow hnz hrz huniq⟩

/-- **C118** (no change). If all traces are equal, and the reference made of equal traces is this trace, there is no velocity change: for every trace
the value is zero and the correlation one. Zero is among the tested stretches, and no other tested stretch of the trace is a multiple of it on the window.
Missing for the full property: `c118_none_violated`, `c118_message_violated`, `c118_one_trace_violated` and others. -/
theorem c118_unchanged_partial (spline : List ℝ → List ℝ → ℝ → ℝ) (P : (ℝ → ℝ) → Prop) (hsp : Reproduces spline P) (hint : Interpolates spline) (f : ℝ → ℝ)
    (hf : P f) (refOf : List (List (Option ℝ)) → List ℝ) (sr : Rat) (hsr : 0 < sr) (E T s : Int) (hs0 : 0 ≤ s)
    (hsT : s < T) (hTE : T ≤ E) (hT : 10 ≤ T) (n : Nat) (hn : 2 ≤ n) (hrefOf : ∀ d, (refOf d).length = (E + 1 - -E).toNat)
    (hsame : ∀ row : List ℝ, row.length = (E + 1 - -E).toNat → refOf (List.replicate n (row.map some)) = row)
    (o : DvOptions) (hst : 0 < o.steps) (hs : o.sides = c!"both" ∨ o.sides = c!"left" ∨ o.sides = c!"right") (lts : Rat) (tt : Option Rat)
    (hstart : o.twStart + tt.getD 0 = s / sr) (hlen : o.twLen = some (((T - s : Int) : Rat) / sr)) (hlts : (T : Rat) / sr ≤ lts)
    (h0 : 0 ∈ testedStretches o.range o.steps)
    (hrz : ∀ u ∈ testedStretches o.range o.steps, ∃ l ∈ lagSet o.sides (-T) T (intsFrom s T), |(l : ℝ) * Real.exp (-u)| ≤ E ∧ f (l * Real.exp (-u)) ≠ 0)
    (huniq : ∀ u ∈ testedStretches o.range o.steps, (∃ d > 0, ∀ l ∈ lagSet o.sides (-T) T (intsFrom s T),
      f l = d * if |(l : ℝ) * Real.exp (-u)| ≤ E then f (l * Real.exp (-u)) else 0) → u = 0) :
    computeDv spline refOf (List.replicate n ((intsFrom (-E) (E + 1)).map fun k : Int => f k)) (lagsFromTo (-E) E sr) o lts tt none =
      .ok (List.replicate n (some 1, some 0)) := by
  set r0 := (intsFrom (-E) (E + 1)).map fun k : Int => f k with hr0
  have hr0l : r0.length = (E + 1 - -E).toNat := by rw [hr0, List.length_map, length_intsFrom]
  have hat : ∀ l ∈ lagSet o.sides (-T) T (intsFrom s T), atLag (-E) r0 l = f l := by
    intro l hl
    have := Finset.mem_Icc.1 (Finset.mem_filter.1 hl).1
    unfold atLag
    rw [hr0, List.getD_eq_getElem _ _ (by rw [List.length_map, length_intsFrom]; omega), List.getElem_map, getElem_intsFrom,
      show -E + (((l - -E).toNat : Nat) : Int) = l by omega]
  obtain ⟨res1, out, res, h1, h2, h3, h4⟩ := c118_result_partial spline refOf sr hsr E T s hs0 hsT hTE hT (List.replicate n r0) (by
    intro r hr
    rw [List.eq_of_mem_replicate hr, hr0l]) (by simpa using hn) hrefOf none (by simp) o hst hs lts tt hstart hlen hlts
  have hone : ∀ res, Compares ((List.replicate n r0).map (atLag (-E))) (stretchedAt spline (-E) E r0) (lagSet o.sides (-T) T (intsFrom s T))
      (testedStretches o.range o.steps) res → res = List.replicate n (some 1, some 0) := by
    intro res hres
    have hlen' : res.length = n := by simpa using hres.1
    refine List.ext_getElem? fun i => ?_
    rcases Nat.lt_or_ge i n with hi | hi
    · rw [List.getElem?_replicate, if_pos hi]
      refine compares_found spline P hsp f hf E (by omega) _ _ _ _ hres i (atLag (-E) r0) (by
        rw [List.getElem?_map, List.getElem?_replicate, if_pos hi, Option.map_some]) 0 h0 1 one_pos ?_ ?_ hrz ?_
      · intro l hl
        have := Finset.mem_Icc.1 (Finset.mem_filter.1 hl).1
        rw [hat l hl, neg_zero, Real.exp_zero, mul_one, one_mul]
        refine ⟨?_, rfl⟩
        rw [abs_le]
        exact ⟨by exact_mod_cast (by omega : -E ≤ l), by exact_mod_cast (by omega : l ≤ E)⟩
      · obtain ⟨l, hl, -, h⟩ := hrz 0 h0
        rw [neg_zero, Real.exp_zero, mul_one] at h
        exact ⟨l, hl, by rw [hat l hl]; exact h⟩
      · rintro u hu ⟨d, hd0, hd⟩
        exact huniq u hu ⟨d, hd0, fun l hl => by rw [← hat l hl]; exact hd l hl⟩
    · rw [List.getElem?_eq_none_iff.2 (by omega), List.getElem?_eq_none_iff.2 (by simpa using hi)]
  have hm : (List.replicate n r0).map (fun row => row.map some) = List.replicate n (r0.map some) := by rw [List.map_replicate]
  rw [Option.getD_none, hm, hsame r0 hr0l] at h2
  have e1 := hone res1 h2
  have hout : out = List.replicate n (r0.map some) := by
    refine List.ext_getElem? fun i => ?_
    rcases Nat.lt_or_ge i n with hi | hi
    · rw [List.getElem?_replicate, if_pos hi]
      obtain ⟨out', g1, g2, g3⟩ := c117_zero spline hint sr hsr (-E) E (List.replicate n r0) (by
        intro r hr
        rw [List.eq_of_mem_replicate hr, hr0l]) (res1.map Prod.snd) (by rw [e1]; simp) i r0
        (by rw [List.getElem?_replicate, if_pos hi]) (by rw [e1, List.getElem?_map, List.getElem?_replicate, if_pos hi]; rfl)
      rw [h3] at g1
      rw [Except.ok.inj g1]
      exact g3
    · obtain ⟨out', g1, g2, -⟩ := c117_zero spline hint sr hsr (-E) E (List.replicate n r0) (by
        intro r hr
        rw [List.eq_of_mem_replicate hr, hr0l]) (res1.map Prod.snd) (by rw [e1]; simp) 0 r0
        (by rw [List.getElem?_replicate, if_pos (by omega)]) (by rw [e1, List.getElem?_map, List.getElem?_replicate, if_pos (by omega)]; rfl)
      rw [h3] at g1
      have : out.length = n := by rw [Except.ok.inj g1, g2]; simp
      rw [List.getElem?_eq_none_iff.2 (by omega), List.getElem?_eq_none_iff.2 (by simpa using hi)]
  rw [Option.getD_none, hout, hsame r0 hr0l] at h4
  rw [h1, hone res h4]

/-- **C118** (not satisfied: whole coda). A length of the window of `None`, which according to the documentation is the rest of the coda, raises a `TypeError`. -/
theorem c118_none_violated (spline : List ℝ → List ℝ → ℝ → ℝ) (refOf : List (List (Option ℝ)) → List ℝ) (data : List (List ℝ)) (s : LagStats) (o : DvOptions)
    (ho : o.twLen = none) (lts : Rat) (tt : Option Rat) (custom : Option (List ℝ)) : computeDv spline refOf data s o lts tt custom = .error .typeError := by
  have : dvWindow o lts tt = .error .typeError := by
    unfold dvWindow
    simp only [ho]
  unfold computeDv
  rw [this]
  rfl

/-- **C118** (windows that end after the correlation). They are refused with a `ValueError` if the travel time was computed from the distance of the stations.
Missing for the full property: `c118_none_violated`, `c118_message_violated`, `c118_one_trace_violated` and others. -/
theorem c118_refused_partial (spline : List ℝ → List ℝ → ℝ → ℝ) (refOf : List (List (Option ℝ)) → List ℝ) (data : List (List ℝ)) (s : LagStats) (o : DvOptions)
    (len : Rat) (ho : o.twLen = some len) (lts tt : Rat) (hl : lts < o.twStart + tt + len) (custom : Option (List ℝ)) :
    computeDv spline refOf data s o lts (some tt) custom = .error .valueError := by
  have : dvWindow o lts (some tt) = .error .valueError := by
    unfold dvWindow
    simp only [ho, Option.getD_some]
    rw [if_pos hl]
    rfl
  unfold computeDv
  rw [this]
  rfl

/-- **C118** (not satisfied: refusal without a travel time). Otherwise the error is an `UnboundLocalError`, because the message contains the distance, which was not
computed. -/
theorem c118_message_violated (spline : List ℝ → List ℝ → ℝ → ℝ) (refOf : List (List (Option ℝ)) → List ℝ) (data : List (List ℝ)) (s : LagStats) (o : DvOptions)
    (len : Rat) (ho : o.twLen = some len) (lts : Rat) (hl : lts < o.twStart + len) (custom : Option (List ℝ)) :
    computeDv spline refOf data s o lts none custom = .error .unboundLocalError := by
  have : dvWindow o lts none = .error .unboundLocalError := by
    unfold dvWindow
    simp only [ho, Option.getD_none, add_zero]
    rw [if_pos hl]
    rfl
  unfold computeDv
  rw [this]
  rfl

/-- **C118** (not satisfied: one trace). A bulk with one trace has no result: the correction by a single value fails. -/
theorem c118_one_trace_violated (spline : List ℝ → List ℝ → ℝ → ℝ) (refOf : List (List (Option ℝ)) → List ℝ) (sr : Rat) (hsr : 0 < sr) (E T s : Int) (hs0 : 0 ≤ s)
    (hsT : s < T) (hTE : T ≤ E) (hT : 10 ≤ T) (row : List ℝ) (hd : row.length = (E + 1 - -E).toNat)
    (hrefOf : ∀ d, (refOf d).length = (E + 1 - -E).toNat) 
    (o : DvOptions) (hst : 0 < o.steps) (hs : o.sides = c!"both" ∨ o.sides = c!"left" ∨ o.sides = c!"right") (lts : Rat) (tt : Option Rat)
    (hstart : o.twStart + tt.getD 0 = s / sr) (hlen : o.twLen = some (((T - s : Int) : Rat) / sr)) (hlts : (T : Rat) / sr ≤ lts) :
    computeDv spline refOf [row] (lagsFromTo (-E) E sr) o lts tt none = .error .indexError := by
  obtain ⟨res1, h1, h2⟩ := dvStretch spline sr hsr E T s hs0 hsT hTE [row] (by simp) _ (hrefOf [row.map some]) o.range o.steps hst o.sides hs
  have hl1 : res1.length = 1 := by simpa using h2.1
  have hsq : ∃ x, squeeze (res1.map Prod.snd) = .scalar x := by
    match res1, hl1 with
    | [x], _ => exact ⟨x.2, rfl⟩
  obtain ⟨x, hsq⟩ := hsq
  have hsr' : sr ≠ 0 := hsr.ne'
  unfold computeDv
  rw [dvWindow_ok o lts sr tt s T hstart hlen hlts]
  simp only [bind, Except.bind]
  rw [dvTrim E T (by omega) hTE sr hsr [row] (by intro r hr; rw [List.mem_singleton.1 hr, hd]) (by simp)]
  simp only
  rw [if_neg (by simp only [lagsFromTo]; omega)]
  have hsrT : (lagsFromTo (-T) T sr).sr = sr := rfl
  rw [hsrT, div_mul_cancel₀ _ hsr', div_mul_cancel₀ _ hsr', arangeInt_ints]
  simp only [List.map_cons, List.map_nil] at h1
  simp only [Option.getD_none, List.map_cons, List.map_nil]
  rw [h1]
  simp only [List.headD_cons, hsq]
  rfl

theorem corrMatStretch_congr (spline : List ℝ → List ℝ → ℝ → ℝ) (data data' : List (List ℝ)) (s : LagStats) (ref : Option (List ℝ)) (tw : Option (List (List Int)))
    (range : ℝ) (steps : Nat) (sides : Str) (rs : Option LagStats) (h : stretchTrim data s sides = stretchTrim data' s sides) :
    corrMatStretch spline data s ref tw range steps sides rs = corrMatStretch spline data' s ref tw range steps sides rs := by
  unfold corrMatStretch
  rw [h]

/-- rows that are longer than the header says: the first samples are taken -/
theorem stretchTrim_long (T : Int) (hT : 0 ≤ T) (sr : Rat) (hsr : 0 < sr) (rows : List (List ℝ)) (hr : ∀ row ∈ rows, (T + 1).toNat ≤ row.length) (hne : rows ≠ []) :
    stretchTrim rows (lagsFromTo 0 T sr) c!"single" = (rows.map (rowAt 0 0 T), lagsFromTo 0 T sr) := by
  unfold stretchTrim
  rw [if_pos rfl, endLag_lags 0 T sr hsr hT]
  have e1 : (((0 : Rat) - (lagsFromTo 0 T sr).startLag) * (lagsFromTo 0 T sr).sr).floor = 0 := by
    simp [lagsFromTo]
    rfl
  have e2 : (((T : Rat) / sr - (lagsFromTo 0 T sr).startLag) * (lagsFromTo 0 T sr).sr).floor = T := by
    refine ratFloor_int _ _ ?_
    unfold lagsFromTo
    simp only
    push_cast
    rw [zero_div, sub_zero, div_mul_cancel₀ _ hsr.ne']
  have hrow : ∀ row ∈ rows, pySlice row (some 0) (some (T + 1)) = rowAt 0 0 T row := by
    intro row hrow
    have := hr row hrow
    unfold pySlice sliceBound rowAt
    refine List.ext_getElem ?_ ?_
    · simp only [List.length_take, List.length_drop, List.length_map, length_intsFrom]
      split <;> split <;> omega
    · intro k hk1 hk2
      rw [List.length_map, length_intsFrom] at hk2
      simp only [List.getElem_take, List.getElem_drop, List.getElem_map, getElem_intsFrom]
      unfold atLag
      rw [List.getD_eq_getElem _ _ (by omega)]
      congr 1
  unfold corrMatTrim
  simp only [e1, e2]
  rw [if_neg (by omega), if_neg (by simp only [lagsFromTo]; omega)]
  have hm : rows.map (fun row => pySlice row (some 0) (some (T + 1))) = rows.map (rowAt 0 0 T) := List.map_congr_left hrow
  rw [hm]
  congr 1
  match rows, hne with
  | row :: rest, _ =>
    simp only [List.map_cons]
    unfold lagsFromTo
    rw [length_rowAt]
    simp

/-- **C118** (not satisfied: `single`). The traces have both sides, lags from `-E` to `E`. With `single` the result is the comparison of negative lags with positive ones:
the trace at lag `l - T`, where `T` is the end of the window, with the reference stretched about its first sample, at lag `(l + E) * exp (-v) - E`. -/
theorem c118_single_violated (spline : List ℝ → List ℝ → ℝ → ℝ) (refOf : List (List (Option ℝ)) → List ℝ) (sr : Rat) (hsr : 0 < sr) (E T s : Int) (hs0 : 0 ≤ s)
    (hsT : s < T) (hTE : T ≤ E) (hT : 10 ≤ T) (data : List (List ℝ)) (hd : ∀ row ∈ data, row.length = (E + 1 - -E).toNat) (hne : 2 ≤ data.length)
    (hrefOf : ∀ d, (refOf d).length = (E + 1 - -E).toNat)
    (o : DvOptions) (hst : 0 < o.steps) (hs : o.sides = c!"single") (lts : Rat) (tt : Option Rat)
    (hstart : o.twStart + tt.getD 0 = s / sr) (hlen : o.twLen = some (((T - s : Int) : Rat) / sr)) (hlts : (T : Rat) / sr ≤ lts) :
    ∃ out res, computeDv spline refOf data (lagsFromTo (-E) E sr) o lts tt none = .ok res ∧
      Compares (data.map fun row l => atLag (-E) row (l - T)) (fun v l => stretchedAt spline 0 (2 * E) (refOf out) v (l + E))
        (lagSet c!"single" 0 T (intsFrom s T)) (testedStretches o.range o.steps) res := by
  have hdne : data ≠ [] := by
    intro h
    rw [h] at hne
    simp at hne
  have htr : ∀ d, (corrMatTrim (stretchedRefs spline (refOf d) c!"single" (testedStretches o.range o.steps)) (lagsFromTo (-E) E sr) (((0 : Int) : Rat) / sr) ((T : Rat) / sr)).1 =
      (testedStretches o.range o.steps).map fun v => (intsFrom 0 (T + 1)).map fun l => stretchedAt spline 0 (2 * E) (refOf d) v (l + E) := by
    intro d
    have := trim_refs spline sr hsr (-E) E 0 T (-E) (refOf d) c!"single" (by
      have := timeIdx_single (2 * E) (refOf d).length (by rw [hrefOf]; congr 1; ring)
      rw [this]
      congr 2 <;> ring) (by omega) (by omega) hTE (testedStretches o.range o.steps) (tested_ne _ _ hst)
    rw [this]
    refine List.map_congr_left fun v _ => List.map_congr_left fun l _ => ?_
    rw [show -E - -E = 0 by ring, show E - -E = 2 * E by ring, sub_neg_eq_add]
  have hcl : ∀ r ∈ data.map (rowAt (-E) (-T) T), r.length = (T + 1 - -T).toNat := by
    intro r hr
    obtain ⟨r', _, rfl⟩ := List.mem_map.1 hr
    exact length_rowAt _ _ _ _
  have hwne : intsFrom s T ≠ [] := by
    intro h
    have := congrArg List.length h
    rw [length_intsFrom] at this
    simp at this
    omega
  have hwm : ∀ k ∈ intsFrom s T, 0 ≤ k ∧ k ≤ T := by
    intro k hk
    have := (mem_intsFrom _ _ _).1 hk
    omega
  obtain ⟨res1, h1, h2, -⟩ := stretch_core spline sr hsr T T (by omega) (by omega) c!"single" 0 T (.inr ⟨rfl, rfl, rfl⟩) (data.map (rowAt (-E) (-T) T)) hcl
    (by simpa using hdne) (refOf (data.map fun row => row.map some)) (intsFrom s T) hwne hwm o.range o.steps hst (some (lagsFromTo (-E) E sr)) _
    (htr _)
  have hl1 : res1.length = data.length := by simpa using h2
  have hsq : squeeze (res1.map Prod.snd) = .array (res1.map Prod.snd) := by
    match res1, hl1 with
    | [], h => simp at h; omega
    | [_], h => simp at h; omega
    | _ :: _ :: _, _ => rfl
  have hc := correctStretch_array spline (lagsFromTo (-E) E sr) data (res1.map Prod.snd) (by rw [List.length_map, hl1]; omega)
  generalize hout : List.zipWith (fun row v => match v with
      | some v => (stretchRow spline (lagsFromTo (-E) E sr) row (-1 * v)).map some
      | none => (lagTimes (lagsFromTo (-E) E sr)).map fun _ => none) data (res1.map Prod.snd) = out at hc
  have hrows : ∀ r ∈ (data.map (rowAt (-E) (-T) T)).map (rowAt 0 0 T), r.length = (T + 1 - -0).toNat := by
    intro r hr
    obtain ⟨r', _, rfl⟩ := List.mem_map.1 hr
    rw [length_rowAt]
    congr 1
  obtain ⟨res2, h3, h4, h5⟩ := stretch_core spline sr hsr 0 T (le_refl _) (by omega) c!"single" 0 T (.inr ⟨rfl, rfl, rfl⟩)
    ((data.map (rowAt (-E) (-T) T)).map (rowAt 0 0 T)) hrows
    (by simpa using hdne) (refOf out) (intsFrom s T) hwne hwm o.range o.steps hst (some (lagsFromTo (-E) E sr)) _ (htr _)
  refine ⟨out, res2, ?_, by simpa using h4, fun i f hi => ?_⟩
  · have hsr' : sr ≠ 0 := hsr.ne'
    unfold computeDv
    rw [dvWindow_ok o lts sr tt s T hstart hlen hlts]
    simp only [bind, Except.bind]
    rw [dvTrim E T (by omega) hTE sr hsr data hd hdne]
    simp only
    rw [if_neg (by simp only [lagsFromTo]; omega)]
    have hsrT : (lagsFromTo (-T) T sr).sr = sr := rfl
    rw [hsrT, div_mul_cancel₀ _ hsr', div_mul_cancel₀ _ hsr', arangeInt_ints, hs]
    rw [Option.getD_none, h1]
    simp only [List.headD_cons, hsq, hc]
    rw [stretchTrim_single (-T) T sr hsr _ hcl (by simpa using hdne) (by omega) (by omega)]
    simp only
    rw [corrMatStretch_congr spline (data.map (rowAt (-E) (-T) T)) ((data.map (rowAt (-E) (-T) T)).map (rowAt 0 0 T)) (lagsFromTo 0 T sr) _ _ _ _ _ _ (by
      rw [stretchTrim_long T (by omega) sr hsr _ (by
        intro r hr
        rw [hcl r hr]
        omega) (by simpa using hdne), stretchTrim_long T (by omega) sr hsr _ (by
        intro r hr
        rw [hrows r hr]
        omega) (by simpa using hdne)]
      congr 1
      conv_rhs => rw [List.map_map]
      refine List.map_congr_left fun row _ => ?_
      simp only [Function.comp]
      exact (rowAt_self 0 T _ (length_rowAt _ _ _ _) (by omega)).symm)]
    rw [neg_zero] at h3
    rw [Option.getD_none, h3]
    rfl
  · rw [List.getElem?_map] at hi
    obtain ⟨row, hrow, rfl⟩ := Option.map_eq_some_iff.1 hi
    obtain ⟨corr, value, g1, g2⟩ := h5 i (rowAt 0 0 T (rowAt (-E) (-T) T row)) (by rw [List.getElem?_map, List.getElem?_map, hrow]; rfl)
    refine ⟨corr, value, g1, ?_⟩
    refine cast (congrArg (fun l => Spec.IsBest _ l corr value) (List.map_congr_left fun v _ => ?_)) g2
    refine coeffAt_congr_left _ _ _ _ fun l hl => ?_
    have := Finset.mem_Icc.1 (Finset.mem_filter.1 hl).1
    rw [neg_zero, atLag_rowAt 0 0 T l _ this.1 this.2, ← atLag_rowAt (-E) (-T) T (l - T) row (by omega) (by omega)]
    unfold atLag
    congr 1
    omega

open Classical in
/-- there is an interpolation that passes through the samples and reproduces cubic polynomials -/
theorem exists_interpolates_cubics : ∃ spline, Reproduces spline Cubics ∧ Interpolates spline := by
  refine ⟨fun times values x => if h : 4 ≤ times.length ∧ ∃ f, Cubics f ∧ times.map f = values then h.2.choose x
    else if h : ∃ v, ∃ i : Nat, times[i]? = some x ∧ values[i]? = some v then h.choose else 0, ?_, ?_⟩
  · intro times f x h4 hp hf _ _
    have h : 4 ≤ times.length ∧ ∃ g, Cubics g ∧ times.map g = times.map f := ⟨h4, f, hf, rfl⟩
    simp only [dif_pos h]
    rw [cubics_unique _ f h.2.choose_spec.1 hf times h4 hp h.2.choose_spec.2]
  · intro times values i t v hp hl ht hv
    simp only
    by_cases h : 4 ≤ times.length ∧ ∃ g, Cubics g ∧ times.map g = values
    · rw [dif_pos h]
      have := h.2.choose_spec.2
      have e := congrArg (fun l => l[i]?) this
      simp only [List.getElem?_map, ht, Option.map_some, hv, Option.some.injEq] at e
      exact e
    · rw [dif_neg h]
      have h' : ∃ v, ∃ i : Nat, times[i]? = some t ∧ values[i]? = some v := ⟨v, i, ht, hv⟩
      rw [dif_pos h']
      obtain ⟨j, hj1, hj2⟩ := h'.choose_spec
      have hij : j = i := by
        obtain ⟨hi', hti⟩ := List.getElem?_eq_some_iff.1 ht
        obtain ⟨hj', htj⟩ := List.getElem?_eq_some_iff.1 hj1
        rw [List.pairwise_iff_getElem] at hp
        rcases lt_trichotomy i j with hlt | rfl | hlt
        · exact absurd (hti.trans htj.symm) (hp i j hi' hj' hlt).ne
        · rfl
        · exact absurd (htj.trans hti.symm) (hp j i hj' hi' hlt).ne
      rw [hij, hv] at hj2
      exact (Option.some.inj hj2).symm

/-- the hypotheses of `c118_unchanged_partial`, and so those of `c118_result_partial`, can be met: two traces `1 + l` with lags from -20 to 20, window of the lags 1 to 9,
right side, the tested stretches -1, 0 and 1, sampling rate 2 -/
example : ∃ (spline : List ℝ → List ℝ → ℝ → ℝ) (refOf : List (List (Option ℝ)) → List ℝ),
    computeDv spline refOf (List.replicate 2 ((intsFrom (-20) 21).map fun k : Int => 1 + (k : ℝ))) (lagsFromTo (-20) 20 2)
      ⟨1 / 2, some (9 / 2), 1, 3, c!"right"⟩ 10 none none = .ok (List.replicate 2 (some 1, some 0)) := by
  obtain ⟨spline, h1, h2⟩ := exists_interpolates_cubics
  let refOf : List (List (Option ℝ)) → List ℝ := fun d => if (d.headD []).length = 41 then (d.headD []).map fun x => x.getD 0 else List.replicate 41 0
  refine ⟨spline, refOf, ?_⟩
  have hset : ∀ l : Int, 1 ≤ l → l ≤ 9 → l ∈ lagSet c!"right" (-10) 10 (intsFrom 1 10) := by
    intro l hl1 hl2
    unfold lagSet
    rw [Finset.mem_filter, Finset.mem_Icc, if_neg (by decide), if_neg (by decide), mem_intsFrom]
    omega
  have hexp : ∀ u ∈ testedStretches 1 3, 0 < Real.exp (-u) ∧ Real.exp (-u) < 5 := by
    intro u hu
    refine ⟨Real.exp_pos _, ?_⟩
    have hu' := (c110_tested 1 1 one_pos).2.2.2.2 u hu
    rw [abs_one, abs_le] at hu'
    have e3 : Real.exp 1 < 5 := by
      have h := Real.add_one_le_exp (-(1 / 2 : ℝ))
      have h2 : Real.exp 1 * (Real.exp (-(1 / 2 : ℝ)) * Real.exp (-(1 / 2 : ℝ))) = 1 := by
        rw [← Real.exp_add, ← Real.exp_add]
        norm_num
      have h3 : (1 : ℝ) / 4 ≤ Real.exp (-(1 / 2 : ℝ)) * Real.exp (-(1 / 2 : ℝ)) := by nlinarith
      nlinarith [Real.exp_pos 1]
    exact lt_of_le_of_lt (Real.exp_le_exp.2 (by linarith)) e3
  have hlt : ∀ u ∈ testedStretches 1 3, ∀ l : Int, l = 1 ∨ l = 2 → |(l : ℝ) * Real.exp (-u)| ≤ ((20 : Int) : ℝ) := by
    intro u hu l hl
    obtain ⟨q1, q2⟩ := hexp u hu
    rcases hl with rfl | rfl
    · rw [abs_of_nonneg (by push_cast; linarith)]; push_cast; linarith
    · rw [abs_of_nonneg (by push_cast; linarith)]; push_cast; linarith
  exact c118_unchanged_partial spline Cubics h1 h2 (fun x => 1 + x) ⟨1, 1, 0, 0, fun x => by ring⟩ refOf 2 (by norm_num) 20 10 1 (by norm_num) (by norm_num) (by norm_num)
    (by norm_num) 2 (le_refl _) (by
      intro d
      show (if _ then _ else _ : List ℝ).length = 41
      split
      · rename_i h
        rw [List.length_map, h]
      · simp) (by
      intro row hrow
      show (if _ then _ else _ : List ℝ) = row
      have hrow' : row.length = 41 := hrow
      rw [if_pos (by simpa using hrow')]
      simp [List.replicate]) ⟨1 / 2, some (9 / 2), 1, 3, c!"right"⟩ (by norm_num) (by simp) 10 none (by norm_num) (by norm_num) (by norm_num)
    (c110_tested 1 1 one_pos).1 (fun u hu => ⟨1, hset 1 (by norm_num) (by norm_num), hlt u hu 1 (.inl rfl), by
      have := (hexp u hu).1
      push_cast
      linarith⟩) (by
      rintro u hu ⟨d, hd0, hd⟩
      have g1 := hd 1 (hset 1 (by norm_num) (by norm_num))
      have g2 := hd 2 (hset 2 (by norm_num) (by norm_num))
      rw [if_pos (hlt u hu 1 (.inl rfl))] at g1
      rw [if_pos (hlt u hu 2 (.inr rfl))] at g2
      push_cast at g1 g2
      have hd1 : d = 1 := by linarith
      subst hd1
      have : Real.exp (-u) = Real.exp 0 := by rw [Real.exp_zero]; linarith
      have := Real.exp_injective this
      linarith)

end SeisMIC
