import Verif.Model.ShiftMethod
import Verif.Props.ShiftDv
import Verif.Lemmas.Sort

/-! # The times that a correction of a shift compares: C152 -/

namespace SeisMIC

/-! ### specification -/

/-- the `k`-th time was measured: the correlation there is a number -/
def MeasuredAt (d : Dv) (k : Nat) : Prop := ∃ x, d.corr[k]? = some (some x)

/-- `k` is the first index with `P` -/
def FirstWith (P : Nat → Prop) (k : Nat) : Prop := P k ∧ ∀ i, P i → k ≤ i

/-- `k` is the last index with `P` -/
def LastWith (P : Nat → Prop) (k : Nat) : Prop := P k ∧ ∀ i, P i → i ≤ k

/-- the entries with index at least `lo` and below `hi` -/
def entriesBetween {α : Type} (lo hi : Nat) (l : List α) : List α := (l.take hi).drop lo

/-- the correction computed from the entries with index at least `lo` and below `hi` only -/
def correctedWith (method : Str) (d0 d1 : Dv) (lo hi : Nat) : Except PyErr Dv :=
  match shiftOf method (entriesBetween lo hi d0.value) (entriesBetween lo hi d0.corr) (entriesBetween lo hi d1.value) (entriesBetween lo hi d1.corr) with
  | .error e => .error e
  | .ok shift =>
    match rollOf d0.axis shift with
    | .error e => .error e
    | .ok roll => .ok (applyRoll d0 roll)

/-! ### auxiliary facts -/

theorem headD_filter_first (p : Nat → Bool) (n k : Nat) (hk : k < n) (hp : p k = true) (hmin : ∀ i, p i = true → k ≤ i) :
    ((List.range n).filter p).headD 0 = k := by
  have hmem : k ∈ (List.range n).filter p := List.mem_filter.2 ⟨List.mem_range.2 hk, hp⟩
  have hs : ((List.range n).filter p).Pairwise (· < ·) := List.pairwise_lt_range.filter _
  cases h : (List.range n).filter p with
  | nil => rw [h] at hmem; cases hmem
  | cons a l =>
    rw [h] at hmem hs
    have ha : p a = true := by
      have : a ∈ (List.range n).filter p := by rw [h]; simp
      exact (List.mem_filter.1 this).2
    have h1 := hmin a ha
    rcases List.mem_cons.1 hmem with h2 | h2
    · exact h2.symm
    · have := (List.pairwise_cons.1 hs).1 k h2
      omega

theorem getLastD_filter_last (p : Nat → Bool) (n k : Nat) (hk : k < n) (hp : p k = true) (hmax : ∀ i, p i = true → i ≤ k) :
    ((List.range n).filter p).getLastD 0 = k := by
  have hmem : k ∈ (List.range n).filter p := List.mem_filter.2 ⟨List.mem_range.2 hk, hp⟩
  have hs : ((List.range n).filter p).Pairwise (· < ·) := List.pairwise_lt_range.filter _
  have hne : (List.range n).filter p ≠ [] := List.ne_nil_of_mem hmem
  rw [List.getLastD_eq_getLast?, List.getLast?_eq_some_getLast hne, Option.getD_some]
  have ha : p (((List.range n).filter p).getLast hne) = true := (List.mem_filter.1 (List.getLast_mem hne)).2
  have h1 := hmax _ ha
  have h2 : k ≤ ((List.range n).filter p).getLast hne := by
    rw [← List.dropLast_append_getLast hne] at hmem hs
    rcases List.mem_append.1 hmem with h3 | h3
    · exact ((List.pairwise_append.1 hs).2.2 k h3 _ (List.mem_singleton.2 rfl)).le
    · rw [List.mem_singleton] at h3
      exact h3.le
  omega

theorem pySlice_entries {α : Type} (l : List α) (lo hi : Nat) :
    pySlice l (some (lo : Int)) (some (hi : Int)) = entriesBetween lo hi l := by
  unfold pySlice entriesBetween sliceBound
  simp only [Int.toNat_natCast]
  rw [if_neg (by omega), if_neg (by omega)]
  apply List.ext_getElem?
  intro k
  simp only [List.getElem?_take, List.getElem?_drop]
  by_cases h1 : lo ≤ l.length
  · rw [Nat.min_eq_left h1]
    by_cases h2 : hi ≤ l.length
    · rw [Nat.min_eq_left h2]
      by_cases h3 : k < hi - lo
      · rw [if_pos h3, if_pos (by omega)]
      · rw [if_neg h3, if_neg (by omega)]
    · rw [Nat.min_eq_right (by omega)]
      by_cases h3 : k < l.length - lo
      · rw [if_pos h3, if_pos (by omega)]
      · rw [if_neg h3]
        by_cases h4 : lo + k < hi
        · rw [if_pos h4, List.getElem?_eq_none (by omega)]
        · rw [if_neg h4]
  · rw [Nat.min_eq_right (by omega : l.length ≤ lo), if_neg (by omega)]
    by_cases h4 : lo + k < hi
    · rw [if_pos h4, List.getElem?_eq_none (by omega)]
    · rw [if_neg h4]

theorem head?_of_min (L : List Int) (hs : L.Pairwise (· < ·)) (x : Int) (hx : x ∈ L) (hmin : ∀ y ∈ L, x ≤ y) :
    L.head? = some x := by
  cases L with
  | nil => cases hx
  | cons a l =>
    have h1 := hmin a (by simp)
    rcases List.mem_cons.1 hx with h2 | h2
    · rw [h2]; rfl
    · have := (List.pairwise_cons.1 hs).1 x h2
      omega

theorem getLast?_of_max (L : List Int) (hs : L.Pairwise (· < ·)) (x : Int) (hx : x ∈ L) (hmax : ∀ y ∈ L, y ≤ x) :
    L.getLast? = some x := by
  have hne : L ≠ [] := List.ne_nil_of_mem hx
  rw [List.getLast?_eq_some_getLast hne]
  have h1 := hmax _ (List.getLast_mem hne)
  have h2 : x ≤ L.getLast hne := by
    rw [← List.dropLast_append_getLast hne] at hx hs
    rcases List.mem_append.1 hx with h3 | h3
    · exact ((List.pairwise_append.1 hs).2.2 x h3 _ (List.mem_singleton.2 rfl)).le
    · rw [List.mem_singleton] at h3
      exact h3.le
  congr 1
  omega

theorem mem_maskSel {α : Type} (l : List α) (m : List Bool) (x : α) :
    x ∈ maskSel l m ↔ ∃ k : Nat, l[k]? = some x ∧ m[k]? = some true := by
  induction l generalizing m with
  | nil => simp [maskSel]
  | cons a l ih =>
    cases m with
    | nil => simp [maskSel]
    | cons b m =>
      have hcons : maskSel (a :: l) (b :: m) = (if b then [a] else []) ++ maskSel l m := by
        unfold maskSel
        cases b <;> simp
      rw [hcons, List.mem_append, ih m]
      constructor
      · rintro (h | ⟨k, h1, h2⟩)
        · refine ⟨0, ?_⟩
          cases b with
          | false => simp at h
          | true => simp only [if_true, List.mem_singleton] at h; simp [h]
        · exact ⟨k + 1, by simpa using h1, by simpa using h2⟩
      · rintro ⟨k, h1, h2⟩
        cases k with
        | zero =>
          simp only [List.getElem?_cons_zero, Option.some.injEq] at h1 h2
          left; subst h1 h2; simp
        | succ k => exact .inr ⟨k, by simpa using h1, by simpa using h2⟩

theorem maskSel_sublist {α : Type} (l : List α) (m : List Bool) : (maskSel l m).Sublist l := by
  induction l generalizing m with
  | nil => simp [maskSel]
  | cons a l ih =>
    cases m with
    | nil => simp [maskSel]
    | cons b m =>
      have hcons : maskSel (a :: l) (b :: m) = (if b then [a] else []) ++ maskSel l m := by
        unfold maskSel
        cases b <;> simp
      rw [hcons]
      cases b with
      | false => exact (ih m).cons _
      | true => exact (ih m).cons_cons _

theorem incr_lt (t : List Int) (ht : t.Pairwise (· < ·)) (i j : Nat) (x y : Int) (hi : t[i]? = some x) (hj : t[j]? = some y) :
    (i < j ↔ x < y) := by
  obtain ⟨hi', rfl⟩ := List.getElem?_eq_some_iff.1 hi
  obtain ⟨hj', rfl⟩ := List.getElem?_eq_some_iff.1 hj
  have h := List.pairwise_iff_getElem.1 ht
  constructor
  · exact fun hij => h i j hi' hj' hij
  · intro hlt
    rcases Nat.lt_trichotomy i j with h1 | h1 | h1
    · exact h1
    · subst h1; omega
    · have := h j i hj' hi' h1; omega

theorem whereFirst_incr (t : List Int) (ht : t.Pairwise (· < ·)) (k : Nat) (x : Int) (hk : t[k]? = some x) :
    whereFirst t x = .ok k := by
  obtain ⟨hk', hx⟩ := List.getElem?_eq_some_iff.1 hk
  have hlt : t.findIdx (fun y => decide (y = x)) < t.length :=
    List.findIdx_lt_length_of_exists ⟨x, by rw [← hx]; exact List.getElem_mem hk', by simp⟩
  have heq : t.findIdx (fun y => decide (y = x)) = k := by
    have h1 : decide (t[t.findIdx (fun y => decide (y = x))] = x) = true := List.findIdx_getElem (w := hlt)
    rw [decide_eq_true_eq] at h1
    have h2 := incr_lt t ht _ k _ _ (List.getElem?_eq_getElem hlt) hk
    have h3 := incr_lt t ht k _ _ _ hk (List.getElem?_eq_getElem hlt)
    omega
  unfold whereFirst
  rw [if_pos hlt, heq]

/-- availability of a time -/
theorem avail_iff (d : Dv) (k : Nat) : (d.corr.map (·.isSome))[k]? = some true ↔ MeasuredAt d k := by
  rw [List.getElem?_map]
  unfold MeasuredAt
  cases h : d.corr[k]? with
  | none => simp
  | some v =>
    cases v with
    | none => simp
    | some x => simp

theorem both_iff (d0 d1 : Dv) (k : Nat) :
    (List.zipWith (· && ·) (d0.corr.map (·.isSome)) (d1.corr.map (·.isSome))).getD k false = true ↔
      (MeasuredAt d0 k ∧ MeasuredAt d1 k) := by
  rw [← avail_iff, ← avail_iff, List.getD_eq_getElem?_getD, List.getElem?_zipWith]
  cases (d0.corr.map (·.isSome))[k]? with
  | none => simp
  | some a =>
    cases (d1.corr.map (·.isSome))[k]? with
    | none => simp
    | some b => simp

theorem both_any (d0 d1 : Dv) :
    (List.zipWith (· && ·) (d0.corr.map (·.isSome)) (d1.corr.map (·.isSome))).any id = true ↔
      ∃ k, MeasuredAt d0 k ∧ MeasuredAt d1 k := by
  rw [List.any_eq_true]
  constructor
  · rintro ⟨b, hb, rfl⟩
    obtain ⟨k, hk, hv⟩ := List.mem_iff_getElem.1 hb
    refine ⟨k, (both_iff d0 d1 k).1 ?_⟩
    rw [List.getD_eq_getElem?_getD, List.getElem?_eq_getElem hk, hv]
    simp_all
  · rintro ⟨k, hk⟩
    have := (both_iff d0 d1 k).2 hk
    refine ⟨true, ?_, rfl⟩
    rw [List.getD_eq_getElem?_getD] at this
    cases h : (List.zipWith (· && ·) (d0.corr.map (·.isSome)) (d1.corr.map (·.isSome)))[k]? with
    | none => rw [h] at this; simp at this
    | some v =>
      rw [h, Option.getD_some] at this
      subst this
      exact List.mem_of_getElem? h

/-- the correction for a known window -/
theorem correctDvShiftM_window (method : Str) (d0 d1 : Dv) (t0 t1 : List Int) (n lo hi : Nat)
    (h : shiftWindow t0 t1 (d0.corr.map (·.isSome)) (d1.corr.map (·.isSome)) n d0.value.length = .ok ((lo : Int), (hi : Int))) :
    correctDvShiftM method d0 d1 t0 t1 n = correctedWith method d0 d1 lo hi := by
  unfold correctDvShiftM correctedWith
  rw [h]
  simp only [bind, Except.bind, pure, Except.pure, pySlice_entries]
  cases shiftOf method (entriesBetween lo hi d0.value) (entriesBetween lo hi d0.corr) (entriesBetween lo hi d1.value) (entriesBetween lo hi d1.corr) with
  | error e => rfl
  | ok s =>
    cases hr : rollOf d0.axis s with
    | error e => simp [hr]
    | ok r => simp [hr]

/-! ### theorems -/

/-- C152: If the curves have times in common, the shift is measured from the first of them
minus `n` to the last of them plus `n`, cut at the ends of the curve. What is missing is the
upper end: it is excluded, and it is at most the last time of the curve
(`c152_last_violated`). -/
theorem c152_common_partial (method : Str) (d0 d1 : Dv) (t0 t1 : List Int) (n first last : Nat)
    (hlen : d0.corr.length = d0.value.length) (hlen1 : d1.corr.length = d0.value.length)
    (hfirst : FirstWith (fun k => MeasuredAt d0 k ∧ MeasuredAt d1 k) first)
    (hlast : LastWith (fun k => MeasuredAt d0 k ∧ MeasuredAt d1 k) last) :
    correctDvShiftM method d0 d1 t0 t1 n =
      correctedWith method d0 d1 (first - n) (min (last + n) (d0.value.length - 1)) := by
  have hlt : ∀ k, MeasuredAt d0 k → k < d0.value.length := by
    rintro k ⟨x, hx⟩
    rw [← hlen]
    exact (List.getElem?_eq_some_iff.1 hx).1
  have hl1 := hlt _ hfirst.1.1
  have hl2 := hlt _ hlast.1.1
  apply correctDvShiftM_window
  unfold shiftWindow
  have hzl : (List.zipWith (· && ·) (d0.corr.map (·.isSome)) (d1.corr.map (·.isSome))).length = d0.value.length := by
    simp [hlen, hlen1]
  have hf := headD_filter_first
    (fun k => (List.zipWith (· && ·) (d0.corr.map (·.isSome)) (d1.corr.map (·.isSome))).getD k false) d0.value.length first hl1
    ((both_iff d0 d1 first).2 hfirst.1) (fun i hi => hfirst.2 i ((both_iff d0 d1 i).1 hi))
  have hg := getLastD_filter_last
    (fun k => (List.zipWith (· && ·) (d0.corr.map (·.isSome)) (d1.corr.map (·.isSome))).getD k false) d0.value.length last hl2
    ((both_iff d0 d1 last).2 hlast.1) (fun i hi => hlast.2 i ((both_iff d0 d1 i).1 hi))
  simp only [(both_any d0 d1).2 ⟨first, hfirst.1⟩, if_true, hzl, hf, hg, bind, Except.bind, pure, Except.pure]
  rw [if_neg (by omega)]
  simp only [Except.ok.injEq, Prod.mk.injEq]
  constructor
  · split_ifs <;> omega
  · split_ifs <;> omega

/-- C152 is violated: without additional overlap the last common time is not compared, so
that the result does not depend on the values measured there. -/
theorem c152_last_violated (method : Str) (d0 d1 : Dv) (t0 t1 : List Int) (first last : Nat) (v : F)
    (hlen : d0.corr.length = d0.value.length) (hlen1 : d1.corr.length = d0.value.length)
    (hfirst : FirstWith (fun k => MeasuredAt d0 k ∧ MeasuredAt d1 k) first)
    (hlast : LastWith (fun k => MeasuredAt d0 k ∧ MeasuredAt d1 k) last) :
    correctDvShiftM method d0 { d1 with value := d1.value.set last v } t0 t1 0 = correctDvShiftM method d0 d1 t0 t1 0 := by
  rw [c152_common_partial method d0 d1 t0 t1 0 first last hlen hlen1 hfirst hlast,
    c152_common_partial method d0 { d1 with value := d1.value.set last v } t0 t1 0 first last hlen hlen1 hfirst hlast]
  have hb : entriesBetween (first - 0) (min (last + 0) (d0.value.length - 1)) (d1.value.set last v) =
      entriesBetween (first - 0) (min (last + 0) (d0.value.length - 1)) d1.value := by
    unfold entriesBetween
    congr 1
    apply List.ext_getElem?
    intro k
    rw [List.getElem?_take, List.getElem?_take]
    by_cases hk : k < min (last + 0) (d0.value.length - 1)
    · rw [if_pos hk, if_pos hk, List.getElem?_set_ne (by omega)]
    · rw [if_neg hk, if_neg hk]
  unfold correctedWith
  rw [hb]

/-- the window of curves that have no time in common -/
theorem shiftWindow_apart (d0 d1 : Dv) (t : List Int) (n i j : Nat) (ht : t.Pairwise (· < ·))
    (hlen : d0.corr.length = d0.value.length) (hlen1 : d1.corr.length = d0.value.length) (htl : t.length = d0.value.length)
    (hij : (LastWith (MeasuredAt d1) i ∧ FirstWith (MeasuredAt d0) j) ∨
      (LastWith (MeasuredAt d0) i ∧ FirstWith (MeasuredAt d1) j)) (hlt : i < j) :
    shiftWindow t t (d0.corr.map (·.isSome)) (d1.corr.map (·.isSome)) n d0.value.length =
      if j - i > n then .error .valueError
      else .ok (((i - n : Nat) : Int), ((min (j + n) (d0.value.length - 1) : Nat) : Int)) := by
  have hnone : ¬ ∃ k, MeasuredAt d0 k ∧ MeasuredAt d1 k := by
    rintro ⟨k, h0, h1⟩
    rcases hij with ⟨ha, hb⟩ | ⟨ha, hb⟩
    · have := ha.2 k h1; have := hb.2 k h0; omega
    · have := ha.2 k h0; have := hb.2 k h1; omega
  have hany : (List.zipWith (· && ·) (d0.corr.map (·.isSome)) (d1.corr.map (·.isSome))).any id = false := by
    rw [← Bool.not_eq_true, both_any]
    exact hnone
  have hin : ∀ (d : Dv), d.corr.length = d0.value.length → ∀ k, MeasuredAt d k → ∃ x, t[k]? = some x := by
    rintro d hd k ⟨x, hx⟩
    have : k < t.length := by rw [htl, ← hd]; exact (List.getElem?_eq_some_iff.1 hx).1
    exact ⟨t[k], List.getElem?_eq_getElem this⟩
  have hhead : ∀ (d : Dv), ∀ k x, FirstWith (MeasuredAt d) k → t[k]? = some x →
      (maskSel t (d.corr.map (·.isSome))).head? = some x := by
    intro d k x hk hx
    apply head?_of_min _ (ht.sublist (maskSel_sublist _ _))
    · exact (mem_maskSel _ _ _).2 ⟨k, hx, (avail_iff d k).2 hk.1⟩
    · intro y hy
      obtain ⟨m, hm1, hm2⟩ := (mem_maskSel _ _ _).1 hy
      have h1 := hk.2 m ((avail_iff d m).1 hm2)
      have h2 := incr_lt t ht m k y x hm1 hx
      omega
  have hlastq : ∀ (d : Dv), ∀ k x, LastWith (MeasuredAt d) k → t[k]? = some x →
      (maskSel t (d.corr.map (·.isSome))).getLast? = some x := by
    intro d k x hk hx
    apply getLast?_of_max _ (ht.sublist (maskSel_sublist _ _))
    · exact (mem_maskSel _ _ _).2 ⟨k, hx, (avail_iff d k).2 hk.1⟩
    · intro y hy
      obtain ⟨m, hm1, hm2⟩ := (mem_maskSel _ _ _).1 hy
      have h1 := hk.2 m ((avail_iff d m).1 hm2)
      have h2 := incr_lt t ht k m x y hx hm1
      omega
  have hjlt : j < d0.value.length := by
    rcases hij with ⟨_, ⟨x, hx⟩, _⟩ | ⟨_, ⟨x, hx⟩, _⟩
    · rw [← hlen]; exact (List.getElem?_eq_some_iff.1 hx).1
    · rw [← hlen1]; exact (List.getElem?_eq_some_iff.1 hx).1
  have hfin : ∀ (st sp gap : Int), st = (i : Int) - n → sp = (j : Int) + n → gap = (j : Int) - i →
      (if gap > (n : Int) then (Except.error PyErr.valueError : Except PyErr (Int × Int))
        else .ok (if st < 0 then 0 else st, if sp ≥ (d0.value.length : Int) then (d0.value.length : Int) - 1 else sp)) =
      if j - i > n then .error .valueError
      else .ok (((i - n : Nat) : Int), ((min (j + n) (d0.value.length - 1) : Nat) : Int)) := by
    rintro st sp gap rfl rfl rfl
    by_cases hg : j - i > n
    · rw [if_pos hg, if_pos (by omega)]
    · rw [if_neg hg, if_neg (by omega)]
      simp only [Except.ok.injEq, Prod.mk.injEq]
      constructor
      · split_ifs <;> omega
      · split_ifs <;> omega
  unfold shiftWindow
  simp only [hany, Bool.false_eq_true, if_false]
  rcases hij with ⟨ha, hb⟩ | ⟨ha, hb⟩
  · obtain ⟨x, hx⟩ := hin d1 hlen1 i ha.1
    obtain ⟨y, hy⟩ := hin d0 hlen j hb.1
    have hxy : y > x := (incr_lt t ht i j x y hx hy).1 hlt
    rw [hhead d0 j y hb hy, hlastq d1 i x ha hx]
    simp only [if_pos hxy, whereFirst_incr t ht j y hy, whereFirst_incr t ht i x hx, bind, Except.bind, pure, Except.pure]
    rw [← hfin _ _ _ rfl rfl rfl]
  · obtain ⟨x, hx⟩ := hin d0 hlen i ha.1
    obtain ⟨y, hy⟩ := hin d1 hlen1 j hb.1
    have hxy : x < y := (incr_lt t ht i j x y hx hy).1 hlt
    have hxm : x ∈ maskSel t (d0.corr.map (·.isSome)) := (mem_maskSel _ _ _).2 ⟨i, hx, (avail_iff d0 i).2 ha.1⟩
    have hym : y ∈ maskSel t (d1.corr.map (·.isSome)) := (mem_maskSel _ _ _).2 ⟨j, hy, (avail_iff d1 j).2 hb.1⟩
    obtain ⟨a, haq, hax⟩ : ∃ a, (maskSel t (d0.corr.map (·.isSome))).head? = some a ∧ a ≤ x := by
      have hs := ht.sublist (maskSel_sublist t (d0.corr.map (·.isSome)))
      cases hL : maskSel t (d0.corr.map (·.isSome)) with
      | nil => rw [hL] at hxm; cases hxm
      | cons a l =>
        rw [hL] at hxm hs
        refine ⟨a, rfl, ?_⟩
        rcases List.mem_cons.1 hxm with h2 | h2
        · exact h2.ge
        · exact ((List.pairwise_cons.1 hs).1 x h2).le
    obtain ⟨b, hbq, hby⟩ : ∃ b, (maskSel t (d1.corr.map (·.isSome))).getLast? = some b ∧ y ≤ b := by
      have hs := ht.sublist (maskSel_sublist t (d1.corr.map (·.isSome)))
      have hne : maskSel t (d1.corr.map (·.isSome)) ≠ [] := List.ne_nil_of_mem hym
      refine ⟨_, List.getLast?_eq_some_getLast hne, ?_⟩
      rw [← List.dropLast_append_getLast hne] at hym hs
      rcases List.mem_append.1 hym with h3 | h3
      · exact ((List.pairwise_append.1 hs).2.2 y h3 _ (List.mem_singleton.2 rfl)).le
      · rw [List.mem_singleton] at h3
        exact h3.le
    rw [haq, hbq]
    simp only [if_neg (show ¬ a > b by omega)]
    rw [hhead d1 j y hb hy, hlastq d0 i x ha hx]
    simp only [whereFirst_incr t ht j y hy, whereFirst_incr t ht i x hx, bind, Except.bind, pure, Except.pure]
    rw [← hfin _ _ _ rfl rfl rfl]

/-- C152: If one curve ends before the other begins, on the same time axis, and the gap is
larger than the permitted overlap, the correction is refused with a ValueError, whichever of
the curves is the earlier one. -/
theorem c152_gap (method : Str) (d0 d1 : Dv) (t : List Int) (n i j : Nat) (ht : t.Pairwise (· < ·))
    (hlen : d0.corr.length = d0.value.length) (hlen1 : d1.corr.length = d0.value.length) (htl : t.length = d0.value.length)
    (hij : (LastWith (MeasuredAt d1) i ∧ FirstWith (MeasuredAt d0) j) ∨
      (LastWith (MeasuredAt d0) i ∧ FirstWith (MeasuredAt d1) j)) (hgap : i + n < j) :
    correctDvShiftM method d0 d1 t t n = .error .valueError := by
  unfold correctDvShiftM
  rw [shiftWindow_apart d0 d1 t n i j ht hlen hlen1 htl hij (by omega), if_pos (by omega)]
  rfl

/-- C152: If one curve ends before the other begins and the gap is not larger than the
permitted overlap, the shift is measured from the last time of the earlier curve minus `n` to
the first time of the later curve plus `n`, cut at the ends; the upper end is excluded.
Missing for the full property: `c152_last_violated`, `c152_alternate_violated`. -/
theorem c152_apart_partial (method : Str) (d0 d1 : Dv) (t : List Int) (n i j : Nat) (ht : t.Pairwise (· < ·))
    (hlen : d0.corr.length = d0.value.length) (hlen1 : d1.corr.length = d0.value.length) (htl : t.length = d0.value.length)
    (hij : (LastWith (MeasuredAt d1) i ∧ FirstWith (MeasuredAt d0) j) ∨
      (LastWith (MeasuredAt d0) i ∧ FirstWith (MeasuredAt d1) j)) (hlt : i < j) (hgap : j ≤ i + n) :
    correctDvShiftM method d0 d1 t t n = correctedWith method d0 d1 (i - n) (min (j + n) (d0.value.length - 1)) := by
  apply correctDvShiftM_window
  rw [shiftWindow_apart d0 d1 t n i j ht hlen hlen1 htl hij hlt, if_neg (by omega)]

/-- C152 is violated: curves whose times alternate are not more than one time apart, but the
correction with an overlap of one time is refused. -/
theorem c152_alternate_violated :
    let d0 : Dv := ⟨c!"A", c!"S", c!"Z", c!"m", c!"stretch", [-1, 0, 1],
      [[some 0, some 0, some 1], [none, none, none], [some 0, some 0, some 1]], [some 1, none, some 1], [some 1, none, some 1]⟩
    let d1 : Dv := ⟨c!"A", c!"S", c!"Z", c!"m", c!"stretch", [-1, 0, 1],
      [[none, none, none], [some 0, some 1, some 0], [none, none, none]], [none, some 0, none], [none, some 1, none]⟩
    correctDvShiftM c!"mean" d0 d1 [0, 10, 20] [0, 10, 20] 1 = .error .valueError := by
  decide +kernel

/-- The method `mean` is the correction of C53. -/
theorem correctDvShiftM_mean (d0 d1 : Dv) (t0 t1 : List Int) (n : Nat) :
    correctDvShiftM c!"mean" d0 d1 t0 t1 n = correctDvShift d0 d1 t0 t1 n := by
  unfold correctDvShiftM correctDvShift shiftRoll
  cases shiftWindow t0 t1 (d0.corr.map (·.isSome)) (d1.corr.map (·.isSome)) n d0.value.length with
  | error e => rfl
  | ok w => rfl

theorem notNan_const (a : Rat) (l : List F) (h : ∀ x ∈ l, x = none ∨ x = some a) :
    notNan l = List.replicate (notNan l).length a := by
  rw [List.eq_replicate_iff]
  refine ⟨rfl, ?_⟩
  intro y hy
  rcases h _ (mem_notNan.1 hy) with h1 | h1
  · cases h1
  · exact Option.some.inj h1

theorem isort_replicate (n : Nat) (a : Rat) : isort (fun a b : Rat => decide (a ≤ b)) (List.replicate n a) = List.replicate n a := by
  rw [List.eq_replicate_iff]
  refine ⟨by rw [length_isort, List.length_replicate], ?_⟩
  intro y hy
  exact List.eq_of_mem_replicate (mem_isort.1 hy)

theorem nanmedian_const (a : Rat) (l : List F) (h : ∀ x ∈ l, x = none ∨ x = some a) (hne : some a ∈ l) :
    nanmedian l = some a := by
  unfold nanmedian
  have hm : a ∈ notNan l := mem_notNan.2 hne
  have hc := notNan_const a l h
  cases hn : notNan l with
  | nil => rw [hn] at hm; cases hm
  | cons x v =>
    simp only
    rw [← hn, hc, isort_replicate]
    have hpos : 0 < (notNan l).length := by rw [hn]; simp
    unfold middleQ
    rw [List.length_replicate]
    congr 1
    have hg : ∀ k, k < (notNan l).length → (List.replicate (notNan l).length a).getD k 0 = a := by
      intro k hk
      rw [List.getD_eq_getElem?_getD, List.getElem?_replicate, if_pos hk, Option.getD_some]
    split_ifs with h2
    · exact hg _ (by omega)
    · rw [hg _ (by omega), hg _ (by omega)]
      ring

theorem countP_sorted (v : List Rat) (hv : v.Pairwise fun a b => a ≤ b) (k : Nat) (hk : k < v.length) :
    k + 1 ≤ v.countP (fun x => decide (x ≤ v.getD k 0)) ∧ v.length - k ≤ v.countP (fun x => decide (v.getD k 0 ≤ x)) := by
  have hg : v.getD k 0 = v[k] := by rw [List.getD_eq_getElem?_getD, List.getElem?_eq_getElem hk]; rfl
  rw [hg]
  have hp := List.pairwise_iff_getElem.1 hv
  constructor
  · have h1 : (v.take (k + 1)).countP (fun x => decide (x ≤ v[k])) = (v.take (k + 1)).length := by
      rw [List.countP_eq_length]
      intro x hx
      obtain ⟨i, hi, rfl⟩ := List.mem_take_iff_getElem.1 hx
      have hik : i ≤ k := by omega
      rcases Nat.lt_or_eq_of_le hik with h | rfl
      · simpa using hp i k (by omega) hk h
      · simp
    have h2 := (List.take_sublist (k + 1) v).countP_le (p := fun x => decide (x ≤ v[k]))
    rw [h1, List.length_take] at h2
    omega
  · have h1 : (v.drop k).countP (fun x => decide (v[k] ≤ x)) = (v.drop k).length := by
      rw [List.countP_eq_length]
      intro x hx
      obtain ⟨i, hi, rfl⟩ := List.mem_drop_iff_getElem.1 hx
      rcases Nat.eq_zero_or_pos i with rfl | h
      · simp
      · simpa using hp k (k + i) hk (by omega) (by omega)
    have h2 := (List.drop_sublist k v).countP_le (p := fun x => decide (v[k] ≤ x))
    rw [h1, List.length_drop] at h2
    exact h2

/-- C152: What the method `median` compares is the median of the numbers: with an odd number of them the one with as many smaller
as larger ones, with an even number the mean of the two in the middle; NaN if there are none. -/
theorem c152_middle (l : List F) :
    ((∀ x ∈ l, x = none) → nanmedian l = none) ∧
    ∀ n, (l.filterMap id).length = n → 0 < n → ∃ a ∈ l.filterMap id, ∃ b ∈ l.filterMap id,
      nanmedian l = some ((a + b) / 2) ∧ (n % 2 = 1 → a = b) ∧
      n ≤ 2 * (l.filterMap id).countP (fun x => decide (x ≤ a)) ∧ n / 2 + 1 ≤ (l.filterMap id).countP (fun x => decide (a ≤ x)) ∧
      n / 2 + 1 ≤ (l.filterMap id).countP (fun x => decide (x ≤ b)) ∧ n ≤ 2 * (l.filterMap id).countP (fun x => decide (b ≤ x)) := by
  have hnn : notNan l = l.filterMap id := rfl
  constructor
  · intro h
    have : l.filterMap id = [] := by
      rw [List.filterMap_eq_nil_iff]
      intro x hx
      simp [h x hx]
    unfold nanmedian
    rw [hnn, this]
  · intro n hn hpos
    set v := isort (fun a b : Rat => decide (a ≤ b)) (l.filterMap id) with hv
    have hperm : v.Perm (l.filterMap id) := isort_perm _ _
    have hlen : v.length = n := by rw [hperm.length_eq, hn]
    have hsorted : v.Pairwise fun a b => a ≤ b := by
      have := isort_sorted (fun a b : Rat => decide (a ≤ b)) (fun a b h => by simp at h ⊢; exact le_of_lt h)
        (fun a b c h1 h2 => by simp at *; exact le_trans h1 h2) (l.filterMap id)
      exact this.imp fun h => by simpa using h
    have hc : ∀ p : Rat → Bool, (l.filterMap id).countP p = v.countP p := fun p => (hperm.countP_eq p).symm
    have hmem : ∀ k, k < n → v.getD k 0 ∈ l.filterMap id := by
      intro k hk
      rw [List.getD_eq_getElem?_getD, List.getElem?_eq_getElem (by rw [hlen]; exact hk)]
      exact hperm.mem_iff.1 (List.getElem_mem _)
    have hmed : nanmedian l = some (middleQ v) := by
      unfold nanmedian
      rw [hnn]
      cases hc' : l.filterMap id with
      | nil => rw [hc'] at hn; simp at hn; omega
      | cons x w => simp only [hv, hc']
    simp only [hc]
    by_cases hodd : n % 2 = 1
    · have h := countP_sorted v hsorted (n / 2) (by omega)
      refine ⟨_, hmem (n / 2) (by omega), _, hmem (n / 2) (by omega), ?_, fun _ => rfl, ?_, ?_, ?_, ?_⟩
      · rw [hmed]
        unfold middleQ
        rw [hlen, if_pos hodd]
        congr 1
        ring
      all_goals omega
    · have h1 := countP_sorted v hsorted (n / 2) (by omega)
      have h2 := countP_sorted v hsorted (n / 2 - 1) (by omega)
      refine ⟨_, hmem (n / 2 - 1) (by omega), _, hmem (n / 2) (by omega), ?_, fun h => absurd h hodd, ?_, ?_, ?_, ?_⟩
      · rw [hmed]
        unfold middleQ
        rw [hlen, if_neg hodd]
      all_goals omega

example : nanmedian [some 5, none, some 1, some 2] = some 2 ∧ nanmedian [some 5, some 1, none, some 2, some 4] = some 3 := by
  decide +kernel

/-- C152: If, among the times that are compared, the first curve is `a` wherever it is a number
and the second one is `b` wherever it is a number, and both have a number, the method `median`
moves the first curve by exactly `b - a`. -/
theorem c152_median (d0 d1 : Dv) (lo hi : Nat) (a b x0 x1 : Rat) (ax : List Rat) (k : Int)
    (hax : d0.axis = x0 :: x1 :: ax) (hstep : x1 ≠ x0) (hk : b - a = k * (x1 - x0))
    (h0 : ∀ x ∈ entriesBetween lo hi d0.value, x = none ∨ x = some a) (hne0 : some a ∈ entriesBetween lo hi d0.value)
    (h1 : ∀ x ∈ entriesBetween lo hi d1.value, x = none ∨ x = some b) (hne1 : some b ∈ entriesBetween lo hi d1.value) :
    correctedWith c!"median" d0 d1 lo hi = .ok (applyRoll d0 k) := by
  unfold correctedWith shiftOf
  rw [if_neg (by decide), if_pos rfl, nanmedian_const a _ h0 hne0, nanmedian_const b _ h1 hne1]
  simp only [F.sub, bind, Option.bind, rollOf, hax, pure, Option.map_some, F.div]
  have hne : x1 - x0 ≠ 0 := sub_ne_zero.2 hstep
  rw [if_neg hne]
  simp only
  have : -(a - b) / (x1 - x0) = (k : Rat) := by
    rw [div_eq_iff hne, ← hk]
    ring
  rw [this, pyRound_int]

/-- C152: A method other than `mean` and `median` never gives a result. -/
theorem c152_method (method : Str) (d0 d1 : Dv) (t0 t1 : List Int) (n : Nat) (h1 : method ≠ c!"mean") (h2 : method ≠ c!"median") :
    ∃ e, correctDvShiftM method d0 d1 t0 t1 n = .error e := by
  unfold correctDvShiftM
  cases shiftWindow t0 t1 (d0.corr.map (·.isSome)) (d1.corr.map (·.isSome)) n d0.value.length with
  | error e => exact ⟨e, rfl⟩
  | ok w =>
    refine ⟨.valueError, ?_⟩
    simp only [bind, Except.bind, shiftOf, if_neg h1, if_neg h2]

/-- C152: A correction changes the similarity matrix and the values only: axis, correlation,
identity and method of the curve remain. -/
theorem c152_rest (method : Str) (d0 d1 d : Dv) (t0 t1 : List Int) (n : Nat)
    (h : correctDvShiftM method d0 d1 t0 t1 n = .ok d) :
    d.axis = d0.axis ∧ d.corr = d0.corr ∧ d.network = d0.network ∧ d.station = d0.station ∧ d.channel = d0.channel ∧
      d.method = d0.method := by
  unfold correctDvShiftM at h
  cases hw : shiftWindow t0 t1 (d0.corr.map (·.isSome)) (d1.corr.map (·.isSome)) n d0.value.length with
  | error e => rw [hw] at h; cases h
  | ok w =>
    rw [hw] at h
    simp only [bind, Except.bind, pure, Except.pure] at h
    split at h
    · cases h
    · split at h
      · cases h
      · cases h
        exact ⟨rfl, rfl, rfl, rfl, rfl, rfl⟩

/-! ### examples -/

/-- Two curves with three common times, the last of which is not compared: the first curve is
moved by one step. -/
example :
    let d0 : Dv := ⟨c!"A", c!"S", c!"Z", c!"m", c!"stretch", [-1, 0, 1],
      [[some 0, some 1, some 0], [some 0, some 1, some 0], [some 0, some 1, some 0], [none, none, none]],
      [some 0, some 0, some 0, none], [some 1, some 1, some 1, none]⟩
    let d1 : Dv := { d0 with value := [some 1, some 1, some (-1), none] }
    FirstWith (fun k => MeasuredAt d0 k ∧ MeasuredAt d1 k) 0 ∧ LastWith (fun k => MeasuredAt d0 k ∧ MeasuredAt d1 k) 2 ∧
    (correctDvShiftM c!"median" d0 d1 [0, 10, 20, 30] [0, 10, 20, 30] 0).map (·.value) = .ok [some 1, some 1, some 1, some (-1)] ∧
    (correctDvShiftM c!"mean" d0 d1 [0, 10, 20, 30] [0, 10, 20, 30] 1).map (·.value) = .ok [some 0, some 0, some 0, some (-1)] := by
  refine ⟨⟨⟨⟨1, rfl⟩, ⟨1, rfl⟩⟩, fun i _ => by omega⟩, ⟨⟨⟨1, rfl⟩, ⟨1, rfl⟩⟩, ?_⟩, by decide +kernel, by decide +kernel⟩
  rintro i ⟨⟨x, hx⟩, _⟩
  match i with
  | 0 | 1 | 2 => omega
  | 3 => cases hx
  | i + 4 => simp at hx

/-- Hypotheses of `c152_gap` and `c152_apart_partial`: one curve follows the other. -/
example :
    let d0 : Dv := ⟨c!"A", c!"S", c!"Z", c!"m", c!"stretch", [-1, 0, 1],
      [[some 0, some 1, some 0], [none, none, none], [none, none, none]], [some 0, none, none], [some 1, none, none]⟩
    let d1 : Dv := ⟨c!"A", c!"S", c!"Z", c!"m", c!"stretch", [-1, 0, 1],
      [[none, none, none], [none, none, none], [some 0, some 0, some 1]], [none, none, some 1], [none, none, some 1]⟩
    LastWith (MeasuredAt d0) 0 ∧ FirstWith (MeasuredAt d1) 2 ∧
    correctDvShiftM c!"mean" d0 d1 [0, 10, 20] [0, 10, 20] 1 = .error .valueError := by
  refine ⟨⟨⟨1, rfl⟩, ?_⟩, ⟨⟨1, rfl⟩, ?_⟩, by decide +kernel⟩
  · rintro i ⟨x, hx⟩
    match i with
    | 0 => omega
    | 1 | 2 => cases hx
    | i + 3 => simp at hx
  · rintro i ⟨x, hx⟩
    match i with
    | 0 | 1 => cases hx
    | i + 2 => omega

end SeisMIC
