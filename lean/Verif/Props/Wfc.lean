import Verif.Model.Wfc
import Verif.Props.MonitorDv
import Verif.Props.Reference

/-!
# C119: the waveform coherence of a lapse time window
-/

namespace SeisMIC

/-! ### Specification -/

/-- the dictionary of coherences: for the reference number `j` the key `reftr_j` and, for the only time window, the correlation coefficients of all traces with
the reference on the set of lags `L` -/
noncomputable def coherences (traces refs : List (Int → ℝ)) (L : Finset Int) : List (Str × List (List (Option ℝ))) :=
  refs.zipIdx.map fun rj => (reftrKey rj.2, [traces.map fun f => coeffAt L f rj.1])

/-- `x` is the mean of the values that are not NaN -/
def MeanOfValid (l : List (Option ℝ)) (x : Option ℝ) : Prop := IsMean (l.filterMap id) x

/-! ### Lemmas -/

/-- the keys of the dictionary are different -/
theorem reftrKey_injective : Function.Injective reftrKey := by
  intro i j h
  have h' : Nat.toDigits 10 i = Nat.toDigits 10 j := List.append_cancel_left h
  rw [← Nat.ofDigitChars_toDigits (b := 10) (n := i) (by norm_num) (by norm_num), h',
    Nat.ofDigitChars_toDigits (by norm_num) (by norm_num)]

theorem pySlice_map {α β : Type} (f : α → β) (l : List α) (a b : Option Int) : pySlice (l.map f) a b = (pySlice l a b).map f := by
  unfold pySlice
  simp only [List.length_map, List.map_drop, List.map_take]

/-- trimming and a change of the samples one by one -/
theorem corrMatTrim_map {α β : Type} (f : α → β) (data : List (List α)) (s : LagStats) (a b : Rat) :
    corrMatTrim (data.map (List.map f)) s a b = ((corrMatTrim data s a b).1.map (List.map f), (corrMatTrim data s a b).2) := by
  unfold corrMatTrim
  simp only
  split
  · rfl
  split
  · rfl
  · simp only [List.map_map]
    refine Prod.ext ?_ ?_
    · refine List.map_congr_left fun row _ => ?_
      simp only [Function.comp]
      exact pySlice_map f row _ _
    · cases data with
      | nil => rfl
      | cons row rest => simp [pySlice_map]

theorem nanToNum_eq (data : List (List (Option ℝ))) : data.map nanToNum = data.map (List.map fun x => x.getD 0) := rfl

theorem computeWfc_window (n : Nat) (mat : List (List (Option ℝ))) (w : List Int) (ref : List ℝ) (sides : Str)
    (mask : List Bool) (hmask : windowMask sides n w = .ok mask) (hmat : ∀ row ∈ mat, row.length = n) (href : ref.length = n) :
    computeWfc n mat [w] ref sides true = .ok [mat.map fun row => Spec.coeff (maskSet mask) (nanToNum row) ref] := by
  obtain ⟨idx, hidx, hm⟩ : ∃ idx, windowIdx sides n w = .ok idx ∧ maskOf n idx = .ok mask := by
    unfold windowMask at hmask
    cases h : windowIdx sides n w with
    | error e => rw [h] at hmask; cases hmask
    | ok idx => rw [h] at hmask; exact ⟨idx, rfl, hmask⟩
  have hlen := maskOf_length n idx mask hm
  unfold computeWfc
  rw [if_neg (by simp [href])]
  simp only [List.mapM_cons, List.mapM_nil, hidx, bind, Except.bind, hm, pure, Except.pure]
  refine congrArg Except.ok (congrArg (fun l => [l]) (List.map_congr_left fun row hrow => ?_))
  rw [rowVals_eq _ _ (.inl rfl)]
  simp only
  exact similarity_eq mask (row.map (·.getD 0)) ref (by rw [List.length_map, hmat row hrow, hlen]) (by rw [href, hlen])

/-- a row with lags from `-T` to `T` as a function of the lag -/
theorem row_atLag (T : Int) (row : List ℝ) (h : row.length = (T + 1 - -T).toNat) (hT : 0 ≤ T) :
    row = (intsFrom (-T) (T + 1)).map (atLag (-T) row) := (rowAt_self (-T) T row h (by omega)).symm

theorem coeff_both (T : Int) (hT : 0 ≤ T) (w : List Int) (f r : List ℝ) (hf : f.length = (T + 1 - -T).toNat) (hr : r.length = (T + 1 - -T).toNat) :
    Spec.coeff (Spec.lagWindow c!"both" (T + 1 - -T).toNat w) f r = coeffAt (lagSet c!"both" (-T) T w) (atLag (-T) f) (atLag (-T) r) := by
  have := coeff_lags (Spec.lagWindow c!"both" (T + 1 - -T).toNat w) (lagSet c!"both" (-T) T w) (-T) T (by
    intro j hj
    unfold Spec.lagWindow at hj
    have := Finset.mem_range.1 (Finset.mem_filter.1 hj).1
    omega) (fun g => sum_lagSet_two c!"both" (.inl rfl) T hT w g _ rfl) (atLag (-T) f) (atLag (-T) r)
  rwa [← row_atLag T f hf hT, ← row_atLag T r hr hT] at this

theorem coeffAt_abs (L : Finset Int) (f r : Int → ℝ) (c : ℝ) (h : coeffAt L f r = some c) : |c| ≤ 1 := by
  rw [abs_le]
  refine ⟨?_, coeffAt_le L f r c h⟩
  have hneg : coeffAt L (fun l => -f l) r = some (-c) := by
    unfold coeffAt at h ⊢
    have e1 : ∑ l ∈ L, (-f l) ^ 2 = ∑ l ∈ L, f l ^ 2 := Finset.sum_congr rfl fun l _ => by ring
    have e2 : ∑ l ∈ L, -f l * r l = -∑ l ∈ L, f l * r l := by
      rw [← Finset.sum_neg_distrib]
      exact Finset.sum_congr rfl fun l _ => by ring
    rw [e1, e2]
    split at h
    · cases h
    · rename_i hn
      rw [if_neg hn, ← Option.some.inj h, neg_div]
  have := coeffAt_le _ _ _ _ hneg
  linarith

theorem isMean_abs (v : List ℝ) (x : Option ℝ) (h : IsMean v x) (hv : ∀ y ∈ v, |y| ≤ 1) : ∀ y, x = some y → |y| ≤ 1 := by
  intro y hy
  by_cases hne : v = []
  · rw [h.1 hne] at hy; cases hy
  · obtain ⟨z, hz, hs⟩ := h.2 hne
    rw [hz, Option.some.injEq] at hy
    subst hy
    have hpos : (0 : ℝ) < v.length := by exact_mod_cast List.length_pos_iff.2 hne
    have key : ∀ l : List ℝ, (∀ y ∈ l, |y| ≤ 1) → |l.sum| ≤ l.length := by
      intro l hl
      induction l with
      | nil => simp
      | cons a l ih =>
        have h1 := hl a (by simp)
        have h2 := ih fun y hy => hl y (by simp [hy])
        rw [List.sum_cons, List.length_cons]
        push_cast
        have := abs_add_le a l.sum
        linarith
    have h1 := key v hv
    rw [← hs, abs_mul, abs_of_pos hpos] at h1
    nlinarith [abs_nonneg z]

theorem maMean_ones (l : List (Option ℝ)) (h1 : ∀ x ∈ l, x = some 1 ∨ x = none) (h2 : some 1 ∈ l) : maMean l = some 1 := by
  have h := maMean_eq l
  have hv : ∀ y ∈ l.filterMap id, y = 1 := by
    intro y hy
    obtain ⟨x, hx, hxy⟩ := List.mem_filterMap.1 hy
    rcases h1 x hx with rfl | rfl
    · exact (Option.some.inj hxy).symm
    · cases hxy
  have hne : l.filterMap id ≠ [] := List.ne_nil_of_mem (List.mem_filterMap.2 ⟨some 1, h2, rfl⟩)
  obtain ⟨y, hy, hs⟩ := h.2 hne
  have hsum : (l.filterMap id).sum = (l.filterMap id).length := by
    rw [List.eq_replicate_of_mem hv]
    simp
  have hpos : ((l.filterMap id).length : ℝ) ≠ 0 := by exact_mod_cast (List.length_pos_iff.2 hne).ne'
  rw [hy, Option.some.injEq]
  rw [hsum] at hs
  exact mul_right_cancel₀ hpos (by rw [hs, one_mul])

/-! ### Theorems -/

/-- **C119** The traces have lags from `-E` to `E` samples, the lapse time window starts at `s` and ends before `T`. The references are made of the traces
cut to the lags from `-T` to `T`. The waveform coherence of each trace with each reference is the correlation coefficient at the lags from `s` to
`T` on both sides, where NaNs count as zeros. For each reference the valid coefficients are averaged; the mean is the average of these averages. -/
theorem c119_value (refOf : List (List (Option ℝ)) → Except PyErr (List (List (Option ℝ)))) (codes : Str × Str × Str) (saveComps canSave : Bool)
    (hsave : saveComps = true → canSave = true) (sr : Rat) (hsr : 0 < sr) (E T s : Int) (hs0 : 0 ≤ s) (hsT : s < T) (hTE : T ≤ E) (hT : 10 ≤ T)
    (data : List (List (Option ℝ))) (hd : ∀ row ∈ data, row.length = (E + 1 - -E).toNat) (hne : data ≠ [])
    (refs : List (List (Option ℝ))) (hrefs : refOf (corrMatTrim data (lagsFromTo (-E) E sr) (-(T / sr)) (T / sr)).1 = .ok refs)
    (hrl : ∀ r ∈ refs, r.length = (T + 1 - -T).toNat)
    (p : WfcParams) (hstart : p.twStart = s / sr) (hlen : p.twLen = ((T - s : Int) : Rat) / sr) :
    ∃ w, wfcWindow refOf codes saveComps canSave data (lagsFromTo (-E) E sr) p = .ok w ∧
      (w.net, w.sta, w.cha) = codes ∧ w.params = p ∧
      w.panel = coherences (data.map fun row => atLag (-E) (nanToNum row)) (refs.map fun r => atLag (-T) (nanToNum r))
        (lagSet c!"both" (-T) T (intsFrom s T)) ∧
      w.av.map Prod.fst = (List.range refs.length).map (fun j => reftrKey j ++ c!"_av") ∧
      (∀ (j : Nat) (k : Str) (v : List (List (Option ℝ))), w.panel[j]? = some (k, v) → ∃ a, w.av[j]? = some (k ++ c!"_av", a) ∧ MeanOfValid v.flatten a) ∧
      ∃ m, w.mean = some m ∧ MeanOfValid (w.av.map Prod.snd) m := by
  have hsr' : sr ≠ 0 := hsr.ne'
  have hsum : p.twStart + p.twLen = (T : Rat) / sr := by
    rw [hstart, hlen, ← add_div]
    congr 1
    push_cast
    ring
  have htrim := dvTrim E T (by omega) hTE sr hsr (data.map nanToNum) (by
    intro r hr
    obtain ⟨r', hr', rfl⟩ := List.mem_map.1 hr
    unfold nanToNum
    rw [List.length_map]
    exact hd r' hr') (by simpa using hne)
  rw [nanToNum_eq, corrMatTrim_map, List.map_map] at htrim
  have ht1 := congrArg Prod.fst htrim
  have ht2 : (corrMatTrim data (lagsFromTo (-E) E sr) (-((T : Rat) / sr)) ((T : Rat) / sr)).2 = lagsFromTo (-T) T sr := congrArg Prod.snd htrim
  simp only at ht1
  set cut := (corrMatTrim data (lagsFromTo (-E) E sr) (-((T : Rat) / sr)) ((T : Rat) / sr)).1 with hcut
  have hcl : ∀ row ∈ cut, row.length = (T + 1 - -T).toNat := by
    intro row hrow
    have : row.map (fun x : Option ℝ => x.getD 0) ∈ cut.map (List.map fun x : Option ℝ => x.getD 0) := List.mem_map.2 ⟨row, hrow, rfl⟩
    rw [ht1] at this
    obtain ⟨r, _, hr⟩ := List.mem_map.1 this
    have := congrArg List.length hr
    simp only [Function.comp, length_rowAt, List.length_map] at this
    omega
  obtain ⟨mask, hmask, hset⟩ := c48_window_partial c!"both" (T + 1 - -T).toNat (intsFrom s T) (by
      intro h
      have := congrArg List.length h
      rw [length_intsFrom] at this
      simp at this
      omega) (by simp) (by
    intro k hk
    have := (mem_intsFrom _ _ _).1 hk
    rw [if_neg (by decide)]
    omega)
  have hpanel : wfcMultiReftr (T + 1 - -T).toNat cut refs [intsFrom s T] c!"both" =
      .ok (coherences (data.map fun row => atLag (-E) (nanToNum row)) (refs.map fun r => atLag (-T) (nanToNum r))
        (lagSet c!"both" (-T) T (intsFrom s T))) := by
    unfold wfcMultiReftr coherences
    rw [List.zipIdx_map, List.map_map]
    have hstep : ∀ rk ∈ refs.zipIdx, (do
        let v ← computeWfc (T + 1 - -T).toNat cut [intsFrom s T] (nanToNum rk.1) c!"both" true
        Except.ok (reftrKey rk.2, v) : Except PyErr _) = .ok (reftrKey rk.2, [(data.map fun row => atLag (-E) (nanToNum row)).map fun f =>
          coeffAt (lagSet c!"both" (-T) T (intsFrom s T)) f (atLag (-T) (nanToNum rk.1))]) := by
      intro rk hrk
      have hr : (nanToNum rk.1).length = (T + 1 - -T).toNat := by
        unfold nanToNum
        rw [List.length_map]
        exact hrl _ (List.fst_mem_of_mem_zipIdx hrk)
      rw [computeWfc_window _ _ _ _ _ mask hmask hcl hr]
      simp only [bind, Except.bind]
      refine congrArg (fun l => Except.ok (reftrKey rk.2, [l])) ?_
      have h1 : (cut.map fun row => Spec.coeff (maskSet mask) (nanToNum row) (nanToNum rk.1)) =
          (cut.map (List.map fun x : Option ℝ => x.getD 0)).map fun f => Spec.coeff (maskSet mask) f (nanToNum rk.1) := by
        rw [List.map_map]
        rfl
      rw [h1, ht1, List.map_map, List.map_map]
      refine List.map_congr_left fun row hrow => ?_
      simp only [Function.comp]
      rw [hset, coeff_both T (by omega) _ _ _ (length_rowAt _ _ _ _) hr]
      refine coeffAt_congr_left _ _ _ _ fun l hl => ?_
      have := Finset.mem_Icc.1 (Finset.mem_filter.1 hl).1
      exact atLag_rowAt _ _ _ _ _ this.1 this.2
    rw [mapM_congr' _ _ _ hstep]
    have : ∀ (l : List (List (Option ℝ) × Nat)) (g : List (Option ℝ) × Nat → Str × List (List (Option ℝ))),
        l.mapM (fun x => (Except.ok (g x) : Except PyErr _)) = .ok (l.map g) := by
      intro l g
      induction l with
      | nil => rfl
      | cons x l ih => rw [List.mapM_cons, ih]; rfl
    rw [this]
    rfl
  refine ⟨(Wfc.mk codes.1 codes.2.1 codes.2.2 p (coherences (data.map fun row => atLag (-E) (nanToNum row)) (refs.map fun r => atLag (-T) (nanToNum r))
        (lagSet c!"both" (-T) T (intsFrom s T))) [] none).computeAverage, ?_, rfl, rfl, rfl, ?_, ?_, ?_⟩
  · unfold wfcWindow
    rw [hsum]
    simp only [ht2, hcut ▸ hrefs, bind, Except.bind]
    rw [if_neg (by simp only [lagsFromTo]; omega)]
    have hsrT : (lagsFromTo (-T) T sr).sr = sr := rfl
    have hn : (lagsFromTo (-T) T sr).npts = (T + 1 - -T).toNat := rfl
    rw [hsrT, hn, hstart, div_mul_cancel₀ _ hsr', div_mul_cancel₀ _ hsr', arangeInt_ints, hpanel]
    simp only
    rw [if_neg]
    cases saveComps with
    | false => simp
    | true => simp [hsave rfl]
  · simp only [Wfc.computeAverage, coherences, List.map_map]
    refine List.ext_getElem (by simp) fun i h1 h2 => ?_
    simp
  · intro j k v hj
    simp only [Wfc.computeAverage, List.getElem?_map] at hj ⊢
    rw [hj]
    exact ⟨_, rfl, maMean_eq _⟩
  · exact ⟨_, rfl, maMean_eq _⟩

/-- **C119** (bounds). All coherences, their averages and the mean are between -1 and 1. -/
theorem c119_bounded (refOf : List (List (Option ℝ)) → Except PyErr (List (List (Option ℝ)))) (codes : Str × Str × Str) (saveComps canSave : Bool)
    (data : List (List (Option ℝ))) (s : LagStats) (hd : ∀ row ∈ data, row.length = s.npts) (hne : data ≠ []) (p : WfcParams) (w : Wfc)
    (h : wfcWindow refOf codes saveComps canSave data s p = .ok w) :
    (∀ kv ∈ w.panel, ∀ row ∈ kv.2, ∀ c, some c ∈ row → |c| ≤ 1) ∧ (∀ ka ∈ w.av, ∀ a, ka.2 = some a → |a| ≤ 1) ∧
      ∀ m, w.mean = some (some m) → |m| ≤ 1 := by
  set cbt := corrMatTrim data s (-(p.twStart + p.twLen)) (p.twStart + p.twLen) with hcbt
  have hrect : ∀ row ∈ cbt.1, row.length = cbt.2.npts := by
    rw [hcbt]
    unfold corrMatTrim
    simp only
    split
    · exact hd
    split
    · exact hd
    · intro row hrow
      obtain ⟨r, hr, rfl⟩ := List.mem_map.1 hrow
      obtain ⟨r0, rest, rfl⟩ := List.exists_cons_of_ne_nil hne
      simp only [List.map_cons]
      have : r.length = r0.length := by rw [hd r hr, hd r0 (by simp)]
      unfold pySlice
      simp only [List.length_take, List.length_drop, this]
  unfold wfcWindow at h
  simp only [bind, Except.bind] at h
  rw [← hcbt] at h
  split at h
  · cases h
  cases hr : refOf cbt.1 with
  | error e => rw [hr] at h; cases h
  | ok refs =>
    rw [hr] at h
    simp only at h
    cases hp : wfcMultiReftr cbt.2.npts cbt.1 refs [arangeInt (p.twStart * cbt.2.sr) ((p.twStart + p.twLen) * cbt.2.sr)] c!"both" with
    | error e => rw [hp] at h; cases h
    | ok panel =>
      rw [hp] at h
      simp only at h
      split at h
      · cases h
      obtain rfl := Except.ok.inj h
      have h1 : ∀ kv ∈ panel, ∀ row ∈ kv.2, ∀ c, some c ∈ row → |c| ≤ 1 := by
        intro kv hkv row hrow c hc
        obtain ⟨j, hj, hj'⟩ := List.mem_iff_getElem.1 hkv
        unfold wfcMultiReftr at hp
        obtain ⟨hl, hall⟩ := mapM_getElem _ _ _ hp
        have hjr : j < refs.zipIdx.length := by omega
        obtain ⟨kv', hb, hkv'⟩ := hall j _ (List.getElem?_eq_getElem hjr)
        rw [List.getElem?_eq_getElem hj, hj', Option.some.injEq] at hkv'
        subst hkv'
        simp only [bind, Except.bind] at hb
        cases hw : computeWfc cbt.2.npts cbt.1 [arangeInt (p.twStart * cbt.2.sr) ((p.twStart + p.twLen) * cbt.2.sr)] (nanToNum refs.zipIdx[j].1)
            c!"both" true with
        | error e => rw [hw] at hb; cases hb
        | ok v =>
          rw [hw] at hb
          simp only [Except.ok.injEq] at hb
          rw [← hb] at hrow
          simp only at hrow
          have hvl : v.length = 1 := by
            unfold computeWfc at hw
            split at hw
            · cases hw
            · exact (mapM_getElem _ _ _ hw).1
          obtain ⟨i, hi, hrow'⟩ := List.mem_iff_getElem.1 hrow
          obtain rfl : i = 0 := by omega
          obtain ⟨i, hi', hc'⟩ := List.mem_iff_getElem.1 hc
          have hrl : row.length = cbt.1.length := by
            unfold computeWfc at hw
            split at hw
            · cases hw
            · obtain ⟨r, hr1, hr2⟩ := (mapM_getElem _ _ _ hw).2 0 _ rfl
              rw [List.getElem?_eq_getElem hi, hrow', Option.some.injEq] at hr2
              subst hr2
              simp only [bind, Except.bind] at hr1
              split at hr1
              · cases hr1
              split at hr1
              · cases hr1
              · rw [← Except.ok.inj hr1]
                simp
          obtain ⟨_, res, corr, _, g1, g2, _, g4⟩ := c47_coherence cbt.2.npts cbt.1 _ _ c!"both" true v hrect hw 0 i _ (cbt.1[i]'(by omega)) rfl
            (List.getElem?_eq_getElem _) (.inl rfl)
          rw [List.getElem?_eq_getElem hi, hrow', Option.some.injEq] at g1
          subst g1
          rw [List.getElem?_eq_getElem hi', hc', Option.some.injEq] at g2
          exact g4 c g2.symm
      have h2 : ∀ ka ∈ panel.map (fun kv => (kv.1 ++ c!"_av", maMean kv.2.flatten)), ∀ a, ka.2 = some a → |a| ≤ 1 := by
        intro ka hka a ha
        obtain ⟨kv, hkv, rfl⟩ := List.mem_map.1 hka
        refine isMean_abs _ _ (maMean_eq kv.2.flatten) ?_ a ha
        intro y hy
        obtain ⟨x, hx, hxy⟩ := List.mem_filterMap.1 hy
        obtain ⟨row, hrow, hx'⟩ := List.mem_flatten.1 hx
        exact h1 kv hkv row hrow y (by rw [← show x = some y from hxy]; exact hx')
      refine ⟨h1, h2, ?_⟩
      intro m hm
      refine isMean_abs _ _ (maMean_eq _) ?_ m (Option.some.inj hm)
      intro y hy
      obtain ⟨x, hx, hxy⟩ := List.mem_filterMap.1 hy
      obtain ⟨ka, hka, hx'⟩ := List.mem_map.1 hx
      exact h2 ka hka y (by rw [hx']; exact hxy)

/-- **C119** (stable correlations). If, at the lags of the window, every trace is a positive multiple of every reference, or zero (no data), and there is a reference and a
trace that is not zero there, the mean coherence is one. -/
theorem c119_stable (refOf : List (List (Option ℝ)) → Except PyErr (List (List (Option ℝ)))) (codes : Str × Str × Str) (saveComps canSave : Bool)
    (hsave : saveComps = true → canSave = true) (sr : Rat) (hsr : 0 < sr) (E T s : Int) (hs0 : 0 ≤ s) (hsT : s < T) (hTE : T ≤ E) (hT : 10 ≤ T)
    (data : List (List (Option ℝ))) (hd : ∀ row ∈ data, row.length = (E + 1 - -E).toNat) (hne : data ≠ [])
    (refs : List (List (Option ℝ))) (hrefs : refOf (corrMatTrim data (lagsFromTo (-E) E sr) (-(T / sr)) (T / sr)).1 = .ok refs)
    (hrl : ∀ r ∈ refs, r.length = (T + 1 - -T).toNat)
    (p : WfcParams) (hstart : p.twStart = s / sr) (hlen : p.twLen = ((T - s : Int) : Rat) / sr)
    (hsame : ∀ row ∈ data, ∀ r ∈ refs, (∀ l ∈ lagSet c!"both" (-T) T (intsFrom s T), atLag (-E) (nanToNum row) l = 0) ∨
      ∃ c > 0, ∀ l ∈ lagSet c!"both" (-T) T (intsFrom s T), atLag (-E) (nanToNum row) l = c * atLag (-T) (nanToNum r) l)
    (hrne : refs ≠ []) (hnz : ∃ row ∈ data, ∃ l ∈ lagSet c!"both" (-T) T (intsFrom s T), atLag (-E) (nanToNum row) l ≠ 0) :
    ∃ w, wfcWindow refOf codes saveComps canSave data (lagsFromTo (-E) E sr) p = .ok w ∧ w.mean = some (some 1) := by
  obtain ⟨w, h1, -, -, h4, -, h6, m, h7, h8⟩ := c119_value refOf codes saveComps canSave hsave sr hsr E T s hs0 hsT hTE hT data hd hne refs hrefs hrl p
    hstart hlen
  set L := lagSet c!"both" (-T) T (intsFrom s T) with hL
  have hav : ∀ (j : Nat) (r : List (Option ℝ)), refs[j]? = some r →
      maMean ([data.map fun row => coeffAt L (atLag (-E) (nanToNum row)) (atLag (-T) (nanToNum r))] : List (List (Option ℝ))).flatten = some 1 := by
    intro j r hj
    have hr := List.mem_of_getElem? hj
    refine maMean_ones _ ?_ ?_
    · intro x hx
      simp only [List.flatten_cons, List.flatten_nil, List.append_nil] at hx
      obtain ⟨row, hrow, rfl⟩ := List.mem_map.1 hx
      rcases hsame row hrow r hr with h0 | ⟨c, hc, hcr⟩
      · right
        unfold coeffAt
        rw [if_pos]
        left
        exact Finset.sum_eq_zero fun l hl => by rw [h0 l hl]; ring
      · by_cases hz : ∃ l ∈ L, atLag (-T) (nanToNum r) l ≠ 0
        · left
          obtain ⟨l, hl, hz'⟩ := hz
          exact (coeffAt_one L _ _ ⟨l, hl, by rw [hcr l hl]; exact mul_ne_zero hc.ne' hz'⟩ ⟨l, hl, hz'⟩).2.2 ⟨c, hc, hcr⟩
        · right
          unfold coeffAt
          rw [if_pos]
          right
          refine Finset.sum_eq_zero fun l hl => ?_
          rw [not_not.1 fun h => hz ⟨l, hl, h⟩]
          ring
    · simp only [List.flatten_cons, List.flatten_nil, List.append_nil]
      obtain ⟨row, hrow, l, hl, hl'⟩ := hnz
      refine List.mem_map.2 ⟨row, hrow, ?_⟩
      rcases hsame row hrow r hr with h0 | ⟨c, hc, hcr⟩
      · exact absurd (h0 l hl) hl'
      · refine (coeffAt_one L _ _ ⟨l, hl, hl'⟩ ⟨l, hl, ?_⟩).2.2 ⟨c, hc, hcr⟩
        intro h0
        rw [hcr l hl, h0, mul_zero] at hl'
        exact hl' rfl
  have hwav : w.av.map Prod.snd = List.replicate refs.length (some 1) := by
    have hw : w = (Wfc.mk w.net w.sta w.cha w.params w.panel [] none).computeAverage := by
      unfold wfcWindow at h1
      simp only [bind, Except.bind] at h1
      split at h1
      · cases h1
      split at h1
      · cases h1
      split at h1
      · cases h1
      split at h1
      · cases h1
      rw [← Except.ok.inj h1]
      rfl
    rw [hw]
    simp only [Wfc.computeAverage, List.map_map]
    rw [h4]
    unfold coherences
    refine List.ext_getElem (by simp) fun i g1 g2 => ?_
    simp only [List.getElem_map, List.getElem_zipIdx, List.getElem_replicate, Function.comp, List.map_map, zero_add]
    exact hav i _ (List.getElem?_eq_getElem (by simpa using g2))
  refine ⟨w, h1, ?_⟩
  rw [h7]
  have hpos : 0 < refs.length := List.length_pos_iff.2 hrne
  have : maMean (w.av.map Prod.snd) = some 1 := by
    rw [hwav]
    refine maMean_ones _ (fun x hx => .inl (List.eq_of_mem_replicate hx)) ?_
    rw [List.mem_replicate]
    exact ⟨hpos.ne', rfl⟩
  have h8' := h8
  have hf : (w.av.map Prod.snd).filterMap id = List.replicate refs.length 1 := by
    rw [hwav]
    simp
  unfold MeanOfValid at h8'
  rw [hf] at h8'
  obtain ⟨y, hy, hs⟩ := h8'.2 (by simp; omega)
  rw [hy]
  simp only [List.length_replicate, List.sum_replicate, nsmul_eq_mul, mul_one] at hs
  have hp : ((refs.length : Nat) : ℝ) ≠ 0 := by exact_mod_cast hpos.ne'
  congr 2
  exact mul_right_cancel₀ hp (by rw [hs, one_mul])

/-- the hypotheses of the theorems can be met: traces of 41 samples, the window from lag 5 to 15, and as the reference the first of the cut traces -/
example : ∃ w, wfcWindow (fun d => .ok [d.headD []]) (c!"AB-AB", c!"S1-S1", c!"HHZ-HHZ") true true
    [(intsFrom (-20) 21).map fun k : Int => some ((k : ℝ) + 1), (intsFrom (-20) 21).map fun k : Int => some (2 * ((k : ℝ) + 1)), List.replicate 41 none]
    (lagsFromTo (-20) 20 2) ⟨1 / 10, 1, 5 / 2, 5⟩ = .ok w ∧ w.mean = some (some 1) := by
  have hl : ∀ f : Int → Option ℝ, ((intsFrom (-20) 21).map f).length = 41 := by intro f; rw [List.length_map, length_intsFrom]; rfl
  have htrim : (corrMatTrim [(intsFrom (-20) 21).map fun k : Int => some ((k : ℝ) + 1), (intsFrom (-20) 21).map fun k : Int => some (2 * ((k : ℝ) + 1)), List.replicate 41 none]
      (lagsFromTo (-20) 20 2) (-(((15 : Int) : Rat) / 2)) (((15 : Int) : Rat) / 2)).1.headD [] = (intsFrom (-15) 16).map fun k : Int => some ((k : ℝ) + 1) := by
    unfold corrMatTrim
    have e1 : ((-(((15 : Int) : Rat) / 2) - (lagsFromTo (-20) 20 2).startLag) * (lagsFromTo (-20) 20 2).sr).floor = 5 := by
      show ((-(((15 : Int) : Rat) / 2) - ((-20 : Int) : Rat) / 2) * 2).floor = 5
      decide +kernel
    have e2 : (((((15 : Int) : Rat) / 2) - (lagsFromTo (-20) 20 2).startLag) * (lagsFromTo (-20) 20 2).sr).floor = 35 := by
      show (((((15 : Int) : Rat) / 2) - ((-20 : Int) : Rat) / 2) * 2).floor = 35
      decide +kernel
    have e3 : (lagsFromTo (-20) 20 2).npts = 41 := rfl
    simp only [e1, e2, e3]
    rw [if_neg (by omega), if_neg (by omega)]
    simp only [List.map_cons, List.headD_cons]
    rw [pySlice_map]
    exact congrArg (List.map _) (by decide)
  have hat : ∀ (f : Int → ℝ) (a b l : Int), a ≤ l → l < b → atLag a (nanToNum ((intsFrom a b).map fun k : Int => some (f k))) l = f l := by
    intro f a b l h1 h2
    unfold atLag nanToNum
    rw [List.getD_eq_getElem _ _ (by simp [length_intsFrom]; omega)]
    simp only [List.getElem_map, getElem_intsFrom, Option.getD_some]
    congr 1
    omega
  have hmem : ∀ l ∈ lagSet c!"both" (-15) 15 (intsFrom 5 15), -15 ≤ l ∧ l ≤ 15 := fun l hl => Finset.mem_Icc.1 (Finset.mem_filter.1 hl).1
  refine c119_stable _ _ true true (fun _ => rfl) 2 (by norm_num) 20 15 5 (by norm_num) (by norm_num) (by norm_num) (by norm_num) _ ?_ (by simp)
    [(intsFrom (-15) 16).map fun k : Int => some ((k : ℝ) + 1)] (by rw [htrim]) ?_ _ (by norm_num) (by norm_num) ?_ (by simp) ?_
  · intro row hrow
    simp only [List.mem_cons, List.not_mem_nil, or_false] at hrow
    rcases hrow with rfl | rfl | rfl
    · rw [hl]; rfl
    · rw [hl]; rfl
    · rw [List.length_replicate]; rfl
  · intro r hr
    rw [List.mem_singleton.1 hr, List.length_map, length_intsFrom]
    rfl
  · intro row hrow r hr
    obtain rfl := List.mem_singleton.1 hr
    simp only [List.mem_cons, List.not_mem_nil, or_false] at hrow
    rcases hrow with rfl | rfl | rfl
    · refine .inr ⟨1, one_pos, fun l hlm => ?_⟩
      have := hmem l hlm
      rw [hat (fun k : Int => (k : ℝ) + 1) (-20) 21 l (by omega) (by omega), hat (fun k : Int => (k : ℝ) + 1) (-15) 16 l (by omega) (by omega), one_mul]
    · refine .inr ⟨2, two_pos, fun l hlm => ?_⟩
      have := hmem l hlm
      rw [hat (fun k : Int => 2 * ((k : ℝ) + 1)) (-20) 21 l (by omega) (by omega), hat (fun k : Int => (k : ℝ) + 1) (-15) 16 l (by omega) (by omega)]
    · refine .inl fun l _ => ?_
      unfold atLag nanToNum
      rw [List.map_replicate, List.getD_eq_getElem?_getD, List.getElem?_replicate]
      split <;> rfl
  · refine ⟨_, List.mem_cons_self .., 5, ?_, ?_⟩
    · unfold lagSet
      rw [Finset.mem_filter, if_pos rfl]
      refine ⟨by simp, by decide⟩
    · rw [hat (fun k : Int => (k : ℝ) + 1) (-20) 21 5 (by omega) (by omega)]
      norm_num

end SeisMIC
