import Verif.Props.Spatial
import Mathlib.Tactic.Linarith
import Mathlib.Tactic.FieldSimp
import Mathlib.Data.Rat.Floor

namespace SeisMIC

/-- **C61** The axes of a grid begin at the corner, have the spacing of the resolution and reach the requested extent with
their last point, by less than one more cell. -/
theorem c61_axis (x res : Rat) (hres : 0 < res) (hx : 0 ≤ x) :
    ∃ n : Nat, gridAxis x res = (List.range (n + 1)).map (fun k : Nat => (k : Rat) * res) ∧ x ≤ n * res ∧ (n : Rat) * res < x + res := by
  have hq : 0 ≤ x / res := div_nonneg hx hres.le
  have e : (x + res) / res = x / res + 1 := by field_simp
  have hc : (((x + res) / res).ceil : Int) = ⌈x / res⌉ + 1 := by
    rw [Rat.ceil_eq_neg_floor_neg]
    have hfl : ∀ q : Rat, q.floor = ⌊q⌋ := fun q => rfl
    rw [hfl, Int.floor_neg, neg_neg, e, Int.ceil_add_one]
  have h0 : 0 ≤ ⌈x / res⌉ := Int.ceil_nonneg hq
  refine ⟨⌈x / res⌉.toNat, ?_, ?_, ?_⟩
  · unfold gridAxis
    rw [hc, Int.toNat_add h0 (by decide)]
    rfl
  · have h := Int.le_ceil (x / res)
    rw [div_le_iff₀ hres] at h
    have : ((⌈x / res⌉.toNat : Nat) : Rat) = ((⌈x / res⌉ : Int) : Rat) := by
      exact_mod_cast congrArg (Int.cast : Int → Rat) (Int.toNat_of_nonneg h0)
    rw [this]; exact h
  · have h := Int.ceil_lt_add_one (x / res)
    have : ((⌈x / res⌉.toNat : Nat) : Rat) = ((⌈x / res⌉ : Int) : Rat) := by
      exact_mod_cast congrArg (Int.cast : Int → Rat) (Int.toNat_of_nonneg h0)
    rw [this]
    have h2 := mul_lt_mul_of_pos_right h hres
    rw [add_mul, div_mul_cancel₀ _ hres.ne', one_mul] at h2
    exact h2

theorem gridPoints_getElem? (xs : List Rat) : ∀ (ys : List Rat) (i j : Nat) (x y : Rat), xs[i]? = some x → ys[j]? = some y →
    (gridPoints xs ys)[j * xs.length + i]? = some (x, y) := by
  intro ys
  induction ys with
  | nil => intro i j x y _ h; simp at h
  | cons y0 ys ih =>
    intro i j x y hx hy
    have hi : i < xs.length := (List.getElem?_eq_some_iff.1 hx).1
    unfold gridPoints at *
    rw [List.flatMap_cons]
    cases j with
    | zero =>
      simp only [List.getElem?_cons_zero, Option.some.injEq] at hy
      subst hy
      rw [List.getElem?_append_left (by simp; exact hi)]
      simp [hx]
    | succ j =>
      rw [List.getElem?_append_right (by simp; nlinarith)]
      rw [List.getElem?_cons_succ] at hy
      have := ih i j x y hx hy
      rw [List.length_map]
      have e : (j + 1) * xs.length + i - xs.length = j * xs.length + i := by
        rw [Nat.succ_mul]; omega
      rw [e]; exact this

theorem gridPoints_length (xs ys : List Rat) : (gridPoints xs ys).length = ys.length * xs.length := by
  unfold gridPoints
  induction ys with
  | nil => simp
  | cons y ys ih => rw [List.flatMap_cons, List.length_append, ih, List.length_map, List.length_cons, Nat.succ_mul]; omega

/-- **C61** On a grid of `DVGrid` the position that is found is `j * nx + i`, where column `i` and row `j` are the ones whose
coordinates have the smallest Euclidean distance to the point. -/
theorem c61_grid (g : Geo) (x y res : Rat) (hres : 0 < res) (hx : 0 ≤ x) (hy : 0 ≤ y) (p : Pt) (k : Nat)
    (h : findCoord g (gridPoints (gridAxis x res) (gridAxis y res)) res p = .ok k) :
    ∃ nx ny i j : Nat, (gridAxis x res).length = nx ∧ (gridAxis y res).length = ny ∧ i < nx ∧ j < ny ∧ k = j * nx + i ∧
      ∀ i' j' : Nat, i' < nx → j' < ny →
        ((i : Rat) * res - g.east p.2) ^ 2 + ((j : Rat) * res - g.north p.1) ^ 2 ≤
        ((i' : Rat) * res - g.east p.2) ^ 2 + ((j' : Rat) * res - g.north p.1) ^ 2 := by
  obtain ⟨n, ex, -, -⟩ := c61_axis x res hres hx
  obtain ⟨m, ey, -, -⟩ := c61_axis y res hres hy
  have lx : (gridAxis x res).length = n + 1 := by rw [ex]; simp
  have ly : (gridAxis y res).length = m + 1 := by rw [ey]; simp
  have gx : ∀ i < n + 1, (gridAxis x res)[i]? = some ((i : Rat) * res) := by
    intro i hi; rw [ex, List.getElem?_map, List.getElem?_range hi]; rfl
  have gy : ∀ i < m + 1, (gridAxis y res)[i]? = some ((i : Rat) * res) := by
    intro i hi; rw [ey, List.getElem?_map, List.getElem?_range hi]; rfl
  have hl := gridPoints_length (gridAxis x res) (gridAxis y res)
  rw [lx, ly] at hl
  obtain ⟨c, hc, hmin⟩ := c61_closest g _ res p k (by
    intro h0; rw [h0] at hl; simp at hl) h
  have hk : k < (m + 1) * (n + 1) := by rw [← hl]; exact (List.getElem?_eq_some_iff.1 hc).1
  have hi : k % (n + 1) < n + 1 := Nat.mod_lt _ (by omega)
  have hj : k / (n + 1) < m + 1 := Nat.div_lt_of_lt_mul (by rw [Nat.mul_comm]; exact hk)
  have hkk : k / (n + 1) * (n + 1) + k % (n + 1) = k := by rw [Nat.mul_comm]; exact Nat.div_add_mod k (n + 1)
  refine ⟨n + 1, m + 1, k % (n + 1), k / (n + 1), lx, ly, hi, hj, hkk.symm, ?_⟩
  intro i' j' hi' hj'
  have h1 := gridPoints_getElem? _ _ _ _ _ _ (gx _ hi) (gy _ hj)
  rw [lx, hkk, hc] at h1
  simp only [Option.some.injEq] at h1
  have h2 := (hmin _ _ (gridPoints_getElem? _ _ _ _ _ _ (gx _ hi') (gy _ hj'))).1
  rw [h1] at h2
  unfold sqDist at h2
  simp only at h2
  linarith [h2, sq ((((k % (n + 1) : Nat)) : Rat) * res - g.east p.2), sq (((k / (n + 1) : Nat) : Rat) * res - g.north p.1),
    sq ((i' : Rat) * res - g.east p.2), sq ((j' : Rat) * res - g.north p.1)]

/-- Hypotheses of `c61_grid`: on a grid of three columns and two rows the last point of the second row is found. -/
example : findCoord { lat0 := 0, lon0 := 0, east := id, north := id } (gridPoints (gridAxis 2 1) (gridAxis 1 1)) 1 (4/5, 9/4) = .ok 5 := by
  decide +kernel

end SeisMIC
