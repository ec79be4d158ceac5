import Verif.Props.AverageDv

/-! # Correction of shifts of velocity change results: C53 -/

namespace SeisMIC

theorem flatten_getElem {α : Type} (C : Nat) (m : List (List α)) (hm : ∀ r ∈ m, r.length = C) (i k : Nat) (hk : k < C)
    (row : List α) (hi : m[i]? = some row) : m.flatten[i * C + k]? = row[k]? := by
  induction m generalizing i with
  | nil => cases hi
  | cons r m ih =>
    have hr : r.length = C := hm r (by simp)
    rw [List.flatten_cons]
    cases i with
    | zero =>
      simp only [List.getElem?_cons_zero, Option.some.injEq] at hi
      subst hi
      rw [Nat.zero_mul, Nat.zero_add, List.getElem?_append_left (by omega)]
    | succ i =>
      rw [List.getElem?_append_right (by rw [hr, Nat.succ_mul]; omega)]
      rw [show (i + 1) * C + k - r.length = i * C + k by rw [hr, Nat.succ_mul]; omega]
      exact ih (fun r hr => hm r (by simp [hr])) i (by simpa using hi)

theorem flatten_length {α : Type} (C : Nat) (m : List (List α)) (hm : ∀ r ∈ m, r.length = C) :
    m.flatten.length = m.length * C := by
  induction m with
  | nil => simp
  | cons r m ih =>
    rw [List.flatten_cons, List.length_append, ih (fun r hr => hm r (by simp [hr])), hm r (by simp), List.length_cons,
      Nat.succ_mul, Nat.add_comm]

/-- entries of the rolled matrix -/
theorem rollFlat_entry {α : Type} (C : Nat) (m : List (List α)) (hm : ∀ r ∈ m, r.length = C) (roll : Int) (i j : Nat)
    (hi : i < m.length) (hj : j < C) :
    ∃ row, (rollFlat m roll)[i]? = some row ∧ row.length = C ∧
      row[j]? = m.flatten[((((i * C + j : Nat) : Int) - roll) % ((m.length * C : Nat) : Int)).toNat]? := by
  have hn : m.flatten.length = m.length * C := flatten_length C m hm
  have hpos : 0 < m.length * C := Nat.mul_pos (by omega) (by omega)
  have hlt : ∀ x : Int, (x % ((m.length * C : Nat) : Int)).toNat < m.flatten.length := by
    intro x
    have h1 := Int.emod_nonneg x (show ((m.length * C : Nat) : Int) ≠ 0 by exact_mod_cast hpos.ne')
    have h2 := Int.emod_lt_of_pos x (show (0 : Int) < ((m.length * C : Nat) : Int) by exact_mod_cast hpos)
    rw [hn]
    omega
  have hrow : (m[i]).length = C := hm _ (List.getElem_mem hi)
  have hfm : ∀ (l : List Nat) (g : Nat → Int),
      (l.filterMap fun j => m.flatten[((g j) % ((m.length * C : Nat) : Int)).toNat]?) =
      l.map fun j => m.flatten[((g j) % ((m.length * C : Nat) : Int)).toNat]'(hlt _) := by
    intro l g
    induction l with
    | nil => rfl
    | cons x l ih =>
      rw [List.filterMap_cons, List.getElem?_eq_getElem (hlt (g x))]
      simp only [ih, List.map_cons]
  refine ⟨(List.range C).filterMap fun j : Nat =>
    m.flatten[((((i * C + j : Nat) : Int) - roll) % ((m.length * C : Nat) : Int)).toNat]?, ?_, ?_, ?_⟩
  · unfold rollFlat
    simp only [List.getElem?_map, List.getElem?_zipIdx, List.getElem?_eq_getElem hi, Option.map_some, hn, hrow]
    congr 2
    funext j
    congr 4
    rw [Nat.zero_add]
    push_cast
    rfl
  · rw [hfm _ fun j => ((i * C + j : Nat) : Int) - roll]
    simp
  · rw [hfm _ fun j => ((i * C + j : Nat) : Int) - roll, List.getElem?_map, List.getElem?_range hj, Option.map_some,
      List.getElem?_eq_getElem (hlt _)]

/-- **C53** Where the origin of a similarity lies on the stretch axis, the corrected matrix
holds the similarity of the same time, moved along the stretch axis. Partial: at the edge
similarities of other times enter (`c53_leak_violated`). -/
theorem c53_same_time_partial (d : Dv) (C : Nat) (hm : ∀ r ∈ d.sim, r.length = C) (roll : Int) (i j : Nat) (row : List F)
    (hi : d.sim[i]? = some row) (hj : j < C) (h0 : 0 ≤ (j : Int) - roll) (hC : (j : Int) - roll < C) :
    ∃ row', (applyRoll d roll).sim[i]? = some row' ∧ row'.length = C ∧ row'[j]? = row[((j : Int) - roll).toNat]? := by
  have hil : i < d.sim.length := (List.getElem?_eq_some_iff.1 hi).1
  obtain ⟨row', h1, h2, h3⟩ := rollFlat_entry C d.sim hm roll i j hil hj
  refine ⟨row', h1, h2, ?_⟩
  rw [h3]
  have hb : (i + 1) * C ≤ d.sim.length * C := Nat.mul_le_mul_right C hil
  rw [Nat.succ_mul] at hb
  have e : (((i * C + j : Nat) : Int) - roll) % ((d.sim.length * C : Nat) : Int) = ((i * C : Nat) : Int) + ((j : Int) - roll) := by
    rw [Int.emod_eq_of_lt]
    · push_cast; omega
    · push_cast; push_cast at *; nlinarith
    · have : (((i * C : Nat) : Int)) + C ≤ ((d.sim.length * C : Nat) : Int) := by exact_mod_cast hb
      push_cast at this ⊢
      linarith
  rw [e, show (((i * C : Nat) : Int) + ((j : Int) - roll)).toNat = i * C + ((j : Int) - roll).toNat by omega]
  exact flatten_getElem C d.sim hm i _ (by omega) row hi

/-- **C53** violated: for every shift to larger stretches, the first similarities of each
time but the first come from the end of the row of the previous time. -/
theorem c53_leak_violated (d : Dv) (C : Nat) (hm : ∀ r ∈ d.sim, r.length = C) (roll : Int) (i j : Nat) (row : List F)
    (hi : d.sim[i]? = some row) (hi1 : i + 1 < d.sim.length) (hj : (j : Int) < roll) (hroll : roll ≤ C) (hjC : j < C) :
    ∃ row', (applyRoll d roll).sim[i + 1]? = some row' ∧ row'[j]? = row[((C : Int) + j - roll).toNat]? := by
  obtain ⟨row', h1, _, h3⟩ := rollFlat_entry C d.sim hm roll (i + 1) j hi1 hjC
  refine ⟨row', h1, ?_⟩
  rw [h3]
  have hb : (i + 1) * C ≤ d.sim.length * C := Nat.mul_le_mul_right C (by omega)
  rw [Nat.succ_mul] at hb
  have hb' : (((i * C : Nat) : Int)) + C ≤ ((d.sim.length * C : Nat) : Int) := by exact_mod_cast hb
  have e : ((((i + 1) * C + j : Nat) : Int) - roll) % ((d.sim.length * C : Nat) : Int) = ((i * C : Nat) : Int) + ((C : Int) + j - roll) := by
    rw [Nat.succ_mul]
    rw [Int.emod_eq_of_lt]
    · push_cast; omega
    · push_cast at *
      have : (0 : Int) ≤ (i : Int) * C := by positivity
      linarith
    · push_cast at *
      linarith
  rw [e, show (((i * C : Nat) : Int) + ((C : Int) + j - roll)).toNat = i * C + ((C : Int) + j - roll).toNat by omega]
  exact flatten_getElem C d.sim hm i _ (by omega) row hi

/-- the situation of `c53_leak_violated`: the peak of the first time is reported for the
second one -/
example :
    let d : Dv := ⟨c!"A", c!"S", c!"Z", c!"m", c!"stretch", [-1, 0, 1],
      [[some 0, some 0, some 1], [some 0, some (1/2), some 0]], [some 1, some 0], [some 1, some (1/2)]⟩
    (applyRoll d 1).sim = [[some 0, some 0, some 0], [some 1, some 0, some (1/2)]] ∧
    (applyRoll d 1).value = [some (-1), some (-1)] := by
  constructor <;> decide +kernel

/-- **C53** violated: a time without data (value, correlation and similarities NaN) has a
value after the correction, even if nothing is shifted -/
theorem c53_missing_violated :
    let d : Dv := ⟨c!"A", c!"S", c!"Z", c!"m", c!"stretch", [-1, 0, 1],
      [[some 0, some 0, some 1], [none, none, none]], [some 1, none], [some 1, none]⟩
    (applyRoll d 0).value = [some 1, some (-1)] := by
  decide +kernel

/-! ### the measured shift -/

theorem nanmean_const_mul (a : Rat) (v c : List F) (hv : ∀ x ∈ v, x = some a) (hl : v.length = c.length) :
    nanmean (List.zipWith F.mul v c) = (nanmean c).map fun m => a * m := by
  have hnn : notNan (List.zipWith F.mul v c) = (notNan c).map fun x => a * x := by
    induction v generalizing c with
    | nil =>
      cases c with
      | nil => rfl
      | cons x c => simp at hl
    | cons y v ih =>
      cases c with
      | nil => simp at hl
      | cons x c =>
        have ih := ih c (fun x hx => hv x (by simp [hx])) (by simpa using hl)
        rw [hv y (by simp)]
        unfold notNan at ih ⊢
        cases x with
        | none => simpa [F.mul] using ih
        | some x => simpa [F.mul] using ih
  have hs : ∀ l : List Rat, (l.map fun x => a * x).sum = a * l.sum := by
    intro l
    induction l with
    | nil => simp
    | cons x l ih => simp only [List.map_cons, List.sum_cons, ih]; ring
  unfold nanmean
  rw [hnn]
  cases hc : notNan c with
  | nil => rfl
  | cons x l =>
    simp only [List.map_cons, Option.map_some, Option.some.injEq]
    have := hs (x :: l)
    rw [List.map_cons] at this
    rw [this]
    simp only [List.length_cons, List.length_map]
    ring

theorem weightedMean_const (a : Rat) (v c : List F) (hv : ∀ x ∈ v, x = some a) (hl : v.length = c.length)
    (hne : v ≠ []) (hc : ∀ x ∈ c, ∃ y, x = some y ∧ 0 < y) : weightedMean v c = some a := by
  unfold weightedMean
  rw [nanmean_const_mul a v c hv hl]
  have hcne : c ≠ [] := by
    intro h0
    apply hne
    rw [← List.length_eq_zero_iff, hl, h0]
    rfl
  have hm : ∃ m, nanmean c = some m ∧ m ≠ 0 := by
    cases hm : nanmean c with
    | none =>
      obtain ⟨x, hx⟩ := List.exists_mem_of_ne_nil _ hcne
      obtain ⟨y, hy, _⟩ := hc x hx
      have := (nanmean_none c).1 hm x hx
      rw [this] at hy
      cases hy
    | some m =>
      refine ⟨m, rfl, ?_⟩
      rintro rfl
      have hspec := (nanmean_spec c).2 0 hm
      rw [zero_mul] at hspec
      have hpos : 0 < (c.filterMap id).sum := by
        apply List.sum_pos
        · intro y hy
          have hy' : some y ∈ c := mem_notNan.1 hy
          obtain ⟨z, hz, hz'⟩ := hc _ hy'
          rw [Option.some.inj hz]; exact hz'
        · intro h0
          obtain ⟨x, hx⟩ := List.exists_mem_of_ne_nil _ hcne
          obtain ⟨y, rfl, _⟩ := hc x hx
          have : y ∈ c.filterMap id := mem_notNan.2 hx
          rw [h0] at this; cases this
      rw [← hspec] at hpos
      exact lt_irrefl _ hpos
  obtain ⟨m, hm, hm0⟩ := hm
  rw [hm]
  simp only [Option.map_some, F.div, bind, Option.bind]
  rw [if_neg hm0]
  field_simp

theorem pyRound_int (k : Int) : pyRound (k : Rat) = k := by
  unfold pyRound
  rw [Rat.floor_intCast]
  norm_num

/-- **C53** If in the part that is compared the first curve has the constant value `a` and
the second one the constant value `b`, which lies `k` steps of the stretch axis above, with
positive correlations, then the first curve is moved by `k` steps. -/
theorem c53_constant (d0 d1 : Dv) (start stop : Int) (a b x0 x1 : Rat) (ax : List Rat) (k : Int)
    (hax : d0.axis = x0 :: x1 :: ax) (hstep : x1 ≠ x0) (hk : b - a = k * (x1 - x0))
    (hl0 : d0.value.length = d0.corr.length) (hl1 : d1.value.length = d1.corr.length)
    (hne0 : pySlice d0.value (some start) (some stop) ≠ []) (hne1 : pySlice d1.value (some start) (some stop) ≠ [])
    (hv0 : ∀ x ∈ pySlice d0.value (some start) (some stop), x = some a)
    (hv1 : ∀ x ∈ pySlice d1.value (some start) (some stop), x = some b)
    (hc0 : ∀ x ∈ pySlice d0.corr (some start) (some stop), ∃ y, x = some y ∧ 0 < y)
    (hc1 : ∀ x ∈ pySlice d1.corr (some start) (some stop), ∃ y, x = some y ∧ 0 < y) :
    shiftRoll d0 d1 start stop = .ok k := by
  have hsl : ∀ l1 l2 : List F, l1.length = l2.length →
      (pySlice l1 (some start) (some stop)).length = (pySlice l2 (some start) (some stop)).length := by
    intro l1 l2 h
    simp only [pySlice, List.length_take, List.length_drop, h]
  unfold shiftRoll
  simp only [hax]
  rw [weightedMean_const a _ _ hv0 (hsl _ _ hl0) hne0 hc0, weightedMean_const b _ _ hv1 (hsl _ _ hl1) hne1 hc1]
  have hd : x1 - x0 ≠ 0 := sub_ne_zero.2 hstep
  simp only [F.sub, bind, Option.bind, pure, Option.map_some, F.div, if_neg hd]
  have : -(a - b) / (x1 - x0) = (k : Rat) := by
    rw [neg_sub, hk]; field_simp
  rw [this, pyRound_int]

/-- Hypotheses of `c53_constant`. -/
example : shiftRoll
    ⟨c!"A", c!"S", c!"Z", c!"m", c!"stretch", [-1, 0, 1], [], [some (-1), some (-1), none], [some (1/2), some 1, none]⟩
    ⟨c!"A", c!"T", c!"Z", c!"m", c!"stretch", [-1, 0, 1], [], [some 1, some 1, none], [some (1/3), some 1, none]⟩ 0 2 =
    .ok 2 := by
  decide +kernel

/-- **C53** violated: if two results have exactly one time in common and no additional
overlap is requested, nothing is compared and the correction fails with ValueError. -/
theorem c53_single_violated (d0 d1 : Dv) (t0 t1 : List Int) (k : Nat) (hk : k + 1 < d0.value.length)
    (hlen : d0.corr.length = d0.value.length ∧ d1.corr.length = d0.value.length ∧ d1.value.length = d0.value.length)
    (hone : ∀ i < d0.value.length, ((d0.corr.getD i none).isSome = true ∧ (d1.corr.getD i none).isSome = true) ↔ i = k)
    (hax : 2 ≤ d0.axis.length) :
    correctDvShift d0 d1 t0 t1 0 = .error .valueError := by
  have hb : ∀ i, (List.zipWith (· && ·) (d0.corr.map (·.isSome)) (d1.corr.map (·.isSome))).getD i false = decide (i = k) := by
    intro i
    rw [List.getD_eq_getElem?_getD, List.getElem?_zipWith, List.getElem?_map, List.getElem?_map]
    by_cases hi : i < d0.value.length
    · have h0 : i < d0.corr.length := by omega
      have h1 : i < d1.corr.length := by omega
      rw [List.getElem?_eq_getElem h0, List.getElem?_eq_getElem h1]
      have := hone i hi
      rw [List.getD_eq_getElem?_getD, List.getD_eq_getElem?_getD, List.getElem?_eq_getElem h0,
        List.getElem?_eq_getElem h1] at this
      simp only [Option.getD_some] at this
      simp only [Option.map_some, Option.getD_some]
      rw [Bool.eq_iff_iff]
      simp only [Bool.and_eq_true, decide_eq_true_eq]
      exact this
    · rw [List.getElem?_eq_none (by omega : d0.corr.length ≤ i)]
      simp only [Option.map_none, Option.getD_none]
      symm
      rw [decide_eq_false_iff_not]
      omega
  have hblen : (List.zipWith (· && ·) (d0.corr.map (·.isSome)) (d1.corr.map (·.isSome))).length = d0.value.length := by
    simp [hlen]
  have hany : (List.zipWith (· && ·) (d0.corr.map (·.isSome)) (d1.corr.map (·.isSome))).any id = true := by
    rw [List.any_eq_true]
    refine ⟨true, ?_, rfl⟩
    have := hb k
    rw [decide_eq_true rfl, List.getD_eq_getElem?_getD] at this
    rw [List.getElem?_eq_getElem (by rw [hblen]; omega), Option.getD_some] at this
    rw [← this]
    exact List.getElem_mem _
  have hfil : ((List.range d0.value.length).filter fun i => decide (i = k)) = [k] := by
    generalize d0.value.length = n at hk
    have hnd : ((List.range n).filter fun i => decide (i = k)).Nodup := List.nodup_range.filter _
    have hmem : ∀ x, x ∈ ((List.range n).filter fun i => decide (i = k)) ↔ x = k := by
      intro x
      rw [List.mem_filter, List.mem_range, decide_eq_true_eq]
      constructor
      · exact fun h => h.2
      · rintro rfl; exact ⟨by omega, rfl⟩
    exact (List.perm_singleton.1 ((List.perm_ext_iff_of_nodup hnd (List.nodup_singleton k)).2 (by simpa using hmem)))
  unfold correctDvShift shiftWindow
  simp only [hany, if_true, hb, hblen, hfil, bind, Except.bind, pure, Except.pure, List.headD_cons, List.getLastD_cons,
    List.getLastD_nil]
  have h1 : ¬ ((0 : Int) > ((0 : Nat) : Int)) := by simp
  simp only [h1, if_false]
  have h2 : ¬ (((k : Nat) : Int) + ((0 : Nat) : Int) ≥ (d0.value.length : Int)) := by push_cast; omega
  have h3 : ¬ (((k : Nat) : Int) - ((0 : Nat) : Int) < 0) := by push_cast; omega
  simp only [h2, h3, if_false]
  have hemp : ∀ l : List F, pySlice l (some (((k : Nat) : Int) - ((0 : Nat) : Int))) (some (((k : Nat) : Int) + ((0 : Nat) : Int))) = [] := by
    intro l
    simp [pySlice]
  unfold shiftRoll
  simp only [hemp]
  match hx : d0.axis, hax with
  | x0 :: x1 :: ax, _ =>
    rfl

end SeisMIC
