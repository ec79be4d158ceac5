import Verif.Model.Partition

namespace SeisMIC

/-- first index of the block of process `r` -/
def blockStart (n p r : Nat) : Nat := (r * n + (p - 1)) / p

theorem pmap_eq_iff {n p i r : Nat} (hn : 0 < n) :
    pmap n p i = r ↔ r * n ≤ i * p ∧ i * p < (r + 1) * n := by
  unfold pmap
  rw [Nat.div_eq_iff hn]
  have : r * n + n - 1 + 1 = (r+1) * n := by
    rw [Nat.add_mul]; omega
  omega

theorem blockStart_le_iff {n p i r : Nat} (hp : 0 < p) :
    blockStart n p r ≤ i ↔ r * n ≤ i * p := by
  unfold blockStart
  rw [Nat.div_le_iff_le_mul_add_pred hp, Nat.mul_comm p i]
  omega

theorem mem_block_iff {n p i r : Nat} (hp : 0 < p) (hn : 0 < n) :
    pmap n p i = r ↔ blockStart n p r ≤ i ∧ i < blockStart n p (r+1) := by
  rw [pmap_eq_iff hn, blockStart_le_iff hp]
  have := @blockStart_le_iff n p i (r+1) hp
  omega

theorem blockStart_mono {n p r : Nat} : blockStart n p r ≤ blockStart n p (r+1) := by
  unfold blockStart
  apply Nat.div_le_div_right
  rw [Nat.add_mul]; omega

theorem blockStart_zero {n p : Nat} (hp : 0 < p) : blockStart n p 0 = 0 := by
  unfold blockStart
  rw [Nat.div_eq_of_lt]; omega

theorem blockStart_last {n p : Nat} (hp : 0 < p) : blockStart n p p = n := by
  unfold blockStart
  rw [Nat.mul_comm p n, Nat.add_comm, Nat.add_mul_div_right _ _ hp, Nat.div_eq_of_lt (by omega)]
  omega

theorem filter_range_interval (n a b : Nat) (hab : a ≤ b) (hb : b ≤ n) :
    (List.range n).filter (fun i => decide (a ≤ i ∧ i < b)) = List.range' a (b - a) := by
  have h1 : List.range n = List.range' 0 a ++ List.range' a (b-a) ++ List.range' b (n-b) := by
    rw [List.range_eq_range']
    rw [show List.range' a (b-a) = List.range' (0+1*a) (b-a) by simp]
    rw [List.range'_append]
    rw [show List.range' b (n-b) = List.range' (0+1*(a+(b-a))) (n-b) by congr; omega]
    rw [List.range'_append]; congr; omega
  rw [h1, List.filter_append, List.filter_append]
  rw [List.filter_eq_nil_iff.2, List.filter_eq_self.2, List.filter_eq_nil_iff.2]
  · simp
  · intro x hx; simp [List.mem_range'] at hx ⊢; omega
  · intro x hx; simp [List.mem_range'] at hx ⊢; omega
  · intro x hx; simp [List.mem_range'] at hx ⊢; omega

theorem blockStart_le_n {n p r : Nat} (hp : 0 < p) (hr : r ≤ p) : blockStart n p r ≤ n := by
  rw [blockStart_le_iff hp, Nat.mul_comm n p]
  exact Nat.mul_le_mul_right _ hr

theorem ownIndices_eq {n p r : Nat} (hp : 0 < p) (hr : r < p) :
    ownIndices n p r = List.range' (blockStart n p r) (blockStart n p (r+1) - blockStart n p r) := by
  unfold ownIndices
  rcases Nat.eq_zero_or_pos n with h | hn
  · subst h
    have h1 : blockStart 0 p r = 0 := by simp [blockStart]; omega
    have h2 : blockStart 0 p (r+1) = 0 := by simp [blockStart]; omega
    simp [h1, h2]
  · rw [← filter_range_interval n _ _ blockStart_mono (blockStart_le_n hp (by omega))]
    apply List.filter_congr
    intro i _
    rw [Bool.eq_iff_iff]
    simp [mem_block_iff hp hn]

theorem flatMap_blocks {n p : Nat} (hp : 0 < p) (k : Nat) (hk : k ≤ p) :
    (List.range k).flatMap (ownIndices n p) = List.range (blockStart n p k) := by
  induction k with
  | zero => simp [blockStart_zero hp]
  | succ k ih =>
    rw [List.range_succ, List.flatMap_append, ih (by omega)]
    simp only [List.flatMap_cons, List.flatMap_nil, List.append_nil]
    rw [ownIndices_eq hp (by omega), List.range_eq_range', List.range_eq_range']
    conv => lhs; rw [show List.range' (blockStart n p k) (blockStart n p (k+1) - blockStart n p k)
      = List.range' (0 + 1 * blockStart n p k) (blockStart n p (k+1) - blockStart n p k) by simp]
    rw [List.range'_append]
    congr 1
    have := @blockStart_mono n p k
    omega

theorem pmap_lt {n p i : Nat} (hp : 0 < p) (hi : i < n) : pmap n p i < p := by
  unfold pmap
  rw [Nat.div_lt_iff_lt_mul (by omega), Nat.mul_comm p n]
  exact Nat.mul_lt_mul_of_pos_right hi hp

theorem mem_ownIndices {n p r i : Nat} : i ∈ ownIndices n p r ↔ i < n ∧ pmap n p i = r := by
  simp [ownIndices]

theorem blockStart_bounds {n p r : Nat} (hp : 0 < p) :
    r * n ≤ blockStart n p r * p ∧ blockStart n p r * p < r * n + p := by
  constructor
  · exact (blockStart_le_iff hp).1 (Nat.le_refl _)
  · unfold blockStart
    have := Nat.div_mul_le_self (r*n + (p-1)) p
    omega

theorem length_ownIndices {n p r : Nat} (hp : 0 < p) (hr : r < p) :
    (ownIndices n p r).length = blockStart n p (r+1) - blockStart n p r := by
  rw [ownIndices_eq hp hr]; simp

end SeisMIC
