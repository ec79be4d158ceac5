import Verif.Lemmas.StreamWindows
import Mathlib.Tactic.FieldSimp
import Mathlib.Data.List.Forall2

namespace SeisMIC

variable {V : Type}

/-- the members of a stack: the traces with the largest number of samples -/
def stackSel (st : List (CTr V)) (first : CTr V) : List (CTr V) :=
  let byNpts := isort nptsLe (isort startLe st)
  byNpts.filter fun tr => tr.stats.npts = (byNpts.getLastD first).stats.npts

theorem stackSt_ok (st : List (CTr V)) (weight : Weight) (norm : Bool) (hne : st ≠ []) (hw : weight ≠ .other) :
    ∃ o, stackSt st weight norm = .ok o := by
  have hne' : isort startLe st ≠ [] := by
    intro h
    exact hne (List.length_eq_zero_iff.1 (by rw [← length_isort startLe, h]; rfl))
  unfold stackSt
  obtain ⟨f, hf⟩ : ∃ f, (isort startLe st).head? = some f := by
    cases h : isort startLe st with
    | nil => exact absurd h hne'
    | cons f l => exact ⟨f, rfl⟩
  obtain ⟨l, hla⟩ : ∃ l, (isort startLe st).getLast? = some l := by
    rw [List.getLast?_eq_some_getLast hne']; exact ⟨_, rfl⟩
  simp only [hf, hla]
  cases weight with
  | mean => exact ⟨_, rfl⟩
  | byLength => exact ⟨_, rfl⟩
  | other => exact absurd rfl hw

/-- what a successful stack consists of -/
theorem stackSt_spec (st : List (CTr V)) (weight : Weight) (norm : Bool) (o : CTr V)
    (h : stackSt st weight norm = .ok o) :
    ∃ first last data, (isort startLe st).head? = some first ∧ (isort startLe st).getLast? = some last ∧
      stackData weight ((isort nptsLe (isort startLe st)).getLastD first).stats.npts.toNat
        ((stackSel st first).map fun tr => tr.data)
        ((stackSel st first).map fun tr => ((tr.stats.corrEnd - tr.stats.corrStart : Int) : Rat) / 1000000000)
        = some data ∧
      o.data = (if norm then normMax data else data) ∧
      o.stats = { ({ first.stats with corrEnd := last.stats.corrEnd }.refresh) with npts := o.data.length }.refresh := by
  unfold stackSt at h
  simp only at h
  cases hf : (isort startLe st).head? with
  | none => rw [hf] at h; simp [throw, throwThe, MonadExceptOf.throw] at h
  | some first =>
    cases hl : (isort startLe st).getLast? with
    | none => rw [hf, hl] at h; simp [throw, throwThe, MonadExceptOf.throw] at h
    | some last =>
      simp only [hf, hl] at h
      split at h
      · simp [throw, throwThe, MonadExceptOf.throw] at h
      · rename_i data hd
        simp only [pure, Except.pure, Except.ok.injEq] at h
        refine ⟨first, last, data, rfl, rfl, hd, ?_, ?_⟩
        · rw [← h]
        · rw [← h]

theorem stackSt_codes (st : List (CTr V)) (weight : Weight) (norm : Bool) (o : CTr V)
    (h : stackSt st weight norm = .ok o) :
    ∃ f ∈ st, o.stats.network = f.stats.network ∧ o.stats.station = f.stats.station ∧
      o.stats.channel = f.stats.channel ∧ o.stats.location = f.stats.location := by
  obtain ⟨f, l, d, hf, _, _, _, hs⟩ := stackSt_spec st weight norm o h
  refine ⟨f, mem_isort.1 (List.mem_of_head? hf), ?_⟩
  rw [hs]
  exact ⟨rfl, rfl, rfl, rfl⟩

/-! ### Means -/

theorem mem_notNan {l : List F} {x : Rat} : x ∈ notNan l ↔ some x ∈ l := by
  simp [notNan]

theorem sum_bounds (l : List Rat) (lo hi : Rat) (h : ∀ x ∈ l, lo ≤ x ∧ x ≤ hi) :
    lo * l.length ≤ l.sum ∧ l.sum ≤ hi * l.length := by
  induction l with
  | nil => simp
  | cons a l ih =>
    obtain ⟨h1, h2⟩ := ih (fun x hx => h x (by simp [hx]))
    obtain ⟨h3, h4⟩ := h a (by simp)
    simp only [List.sum_cons, List.length_cons, Nat.cast_add, Nat.cast_one]
    constructor <;> linarith

theorem nanmean_bounds (l : List F) (lo hi y : Rat) (h : ∀ x, some x ∈ l → lo ≤ x ∧ x ≤ hi)
    (hy : nanmean l = some y) : lo ≤ y ∧ y ≤ hi := by
  unfold nanmean at hy
  cases hv : notNan l with
  | nil => rw [hv] at hy; simp at hy
  | cons a v =>
    rw [hv] at hy
    simp only [Option.some.injEq] at hy
    have hb := sum_bounds (a :: v) lo hi (fun x hx => h x (mem_notNan.1 (hv ▸ hx)))
    have hp : (0 : Rat) < ((a :: v).length : Rat) := by
      simp only [List.length_cons, Nat.cast_add, Nat.cast_one]; positivity
    subst hy
    exact ⟨(le_div_iff₀ hp).2 hb.1, (div_le_iff₀ hp).2 hb.2⟩

theorem nanmean_none (l : List F) : nanmean l = none ↔ ∀ x ∈ l, x = none := by
  unfold nanmean
  cases hv : notNan l with
  | nil =>
    simp only [true_iff]
    intro x hx
    cases x with
    | none => rfl
    | some x =>
      have : x ∈ notNan l := mem_notNan.2 hx
      rw [hv] at this
      simp at this
  | cons a v =>
    simp only [reduceCtorEq, false_iff]
    intro h
    have : some a ∈ l := mem_notNan.1 (by rw [hv]; simp)
    have := h _ this
    simp at this

theorem weighted_bounds (xs : List Rat) (ds : List Rat) (lo hi : Rat) (hlen : xs.length = ds.length)
    (hx : ∀ x ∈ xs, lo ≤ x ∧ x ≤ hi) (hd : ∀ d ∈ ds, 0 ≤ d) :
    lo * ds.sum ≤ (List.zipWith (· * ·) xs ds).sum ∧ (List.zipWith (· * ·) xs ds).sum ≤ hi * ds.sum := by
  induction xs generalizing ds with
  | nil =>
    cases ds with
    | nil => simp
    | cons d ds => simp at hlen
  | cons x xs ih =>
    cases ds with
    | nil => simp at hlen
    | cons d ds =>
      obtain ⟨h1, h2⟩ := ih ds (by simpa using hlen) (fun x hx' => hx x (by simp [hx'])) (fun d hd' => hd d (by simp [hd']))
      obtain ⟨h3, h4⟩ := hx x (by simp)
      have h5 := hd d (by simp)
      simp only [List.zipWith_cons_cons, List.sum_cons]
      constructor <;> nlinarith

theorem nansum_zipWith (xs ds : List Rat) :
    nansum (List.zipWith (fun a d => F.mul a (some d)) (xs.map some) ds) = (List.zipWith (· * ·) xs ds).sum := by
  induction xs generalizing ds with
  | nil => simp [nansum, notNan]
  | cons x xs ih =>
    cases ds with
    | nil => simp [nansum, notNan]
    | cons d ds =>
      have := ih ds
      have e : F.mul (some x) (some d) = some (x * d) := rfl
      simp only [nansum, notNan] at this ⊢
      rw [List.map_cons, List.zipWith_cons_cons, List.zipWith_cons_cons, e, List.filterMap_cons_some (by rfl),
        List.sum_cons, List.sum_cons, this]

theorem list_map_some (l : List F) (h : ∀ x ∈ l, x ≠ none) : ∃ xs : List Rat, l = xs.map some := by
  induction l with
  | nil => exact ⟨[], rfl⟩
  | cons a l ih =>
    obtain ⟨xs, hxs⟩ := ih (fun x hx => h x (by simp [hx]))
    cases a with
    | none => exact absurd rfl (h none (by simp))
    | some a => exact ⟨a :: xs, by simp [hxs]⟩

/-! ### Absolute maximum -/

theorem maxList_spec (l : List Rat) (m : Rat) (h : maxList l = some m) : m ∈ l ∧ ∀ x ∈ l, x ≤ m := by
  cases l with
  | nil => simp [maxList] at h
  | cons a l =>
    simp only [maxList, Option.some.injEq] at h
    have : ∀ (l : List Rat) (a : Rat),
        let m := l.foldl (fun x y => if x < y then y else x) a
        (m = a ∨ m ∈ l) ∧ a ≤ m ∧ ∀ x ∈ l, x ≤ m := by
      intro l
      induction l with
      | nil => intro a; simp
      | cons b l ih =>
        intro a
        rw [List.foldl_cons]
        split
        · rename_i hab
          obtain ⟨h1, h2, h3⟩ := ih b
          refine ⟨Or.inr ?_, le_trans (le_of_lt hab) h2, ?_⟩
          · rcases h1 with h1 | h1
            · simp [h1]
            · exact List.mem_cons_of_mem _ h1
          · intro x hx
            rcases List.mem_cons.1 hx with rfl | hx
            · exact h2
            · exact h3 x hx
        · rename_i hab
          obtain ⟨h1, h2, h3⟩ := ih a
          refine ⟨?_, h2, ?_⟩
          · rcases h1 with h1 | h1
            · exact Or.inl h1
            · exact Or.inr (List.mem_cons_of_mem _ h1)
          · intro x hx
            rcases List.mem_cons.1 hx with rfl | hx
            · exact le_trans (not_lt.1 hab) h2
            · exact h3 x hx
    obtain ⟨h1, h2, h3⟩ := this l a
    rw [h] at h1 h2 h3
    refine ⟨?_, ?_⟩
    · rcases h1 with h1 | h1
      · simp [h1]
      · exact List.mem_cons_of_mem _ h1
    · intro x hx
      rcases List.mem_cons.1 hx with rfl | hx
      · exact h2
      · exact h3 x hx

theorem maxList_none (l : List Rat) : maxList l = none ↔ l = [] := by
  cases l <;> simp [maxList]

theorem F.abs_some (x : Rat) : F.abs (some x) = some |x| := by
  unfold F.abs
  simp only [Option.map_some]
  split
  · rename_i h
    rw [abs_of_neg h]
  · rename_i h
    rw [abs_of_nonneg (not_lt.1 h)]

theorem nanmax_abs (l : List F) (m : Rat) (h : nanmax (l.map F.abs) = some m) :
    (∃ x, some x ∈ l ∧ |x| = m) ∧ ∀ x, some x ∈ l → |x| ≤ m := by
  obtain ⟨h1, h2⟩ := maxList_spec _ _ h
  constructor
  · obtain ⟨y, hy, hym⟩ := List.mem_map.1 (mem_notNan.1 h1)
    cases y with
    | none => simp [F.abs] at hym
    | some y =>
      rw [F.abs_some] at hym
      exact ⟨y, hy, by simpa using hym⟩
  · intro x hx
    apply h2
    rw [mem_notNan]
    exact List.mem_map.2 ⟨some x, hx, F.abs_some x⟩

theorem nanmax_abs_none (l : List F) (h : nanmax (l.map F.abs) = none) : ∀ x ∈ l, x = none := by
  intro x hx
  cases x with
  | none => rfl
  | some x =>
    unfold nanmax at h
    rw [maxList_none] at h
    have : |x| ∈ notNan (l.map F.abs) := by
      rw [mem_notNan]
      exact List.mem_map.2 ⟨some x, hx, F.abs_some x⟩
    rw [h] at this
    simp at this

/-! ### The members of a stack -/

theorem nptsLe_total (a b : CTr V) (h : nptsLe a b = false) : nptsLe b a = true := by
  simp only [nptsLe, decide_eq_false_iff_not, decide_eq_true_eq] at *; omega

theorem nptsLe_trans (a b c : CTr V) (h : nptsLe a b = true) (h' : nptsLe b c = true) :
    nptsLe a c = true := by
  simp only [nptsLe, decide_eq_true_eq] at *; omega

/-- the members are the traces of the stream with the largest number of samples -/
theorem stackSel_mem (st : List (CTr V)) (first : CTr V) (tr : CTr V) :
    tr ∈ stackSel st first ↔ tr ∈ st ∧ ∀ x ∈ st, x.stats.npts ≤ tr.stats.npts := by
  unfold stackSel
  simp only [List.mem_filter, mem_isort, decide_eq_true_eq]
  refine and_congr_right fun ht => ?_
  have hsort := isort_sorted nptsLe nptsLe_total nptsLe_trans (isort startLe st)
  have hm : ∀ x : CTr V, x ∈ isort nptsLe (isort startLe st) ↔ x ∈ st := by
    intro x; rw [mem_isort, mem_isort]
  have hne : isort nptsLe (isort startLe st) ≠ [] := List.ne_nil_of_mem ((hm tr).2 ht)
  generalize hL : isort nptsLe (isort startLe st) = L at *
  obtain ⟨ys, l, rfl⟩ : ∃ ys l, L = ys ++ [l] := ⟨L.dropLast, L.getLast hne, (List.dropLast_concat_getLast hne).symm⟩
  have hlast : (ys ++ [l]).getLastD first = l := by simp
  rw [hlast]
  have hle : ∀ x ∈ st, x.stats.npts ≤ l.stats.npts := by
    intro x hx
    rcases List.mem_append.1 ((hm x).2 hx) with h | h
    · have := (List.pairwise_append.1 hsort).2.2 x h l (by simp)
      simpa [nptsLe] using this
    · simp only [List.mem_singleton] at h
      rw [h]
  constructor
  · intro h x hx
    rw [h]
    exact hle x hx
  · intro h
    have h1 := h l ((hm l).1 (by simp))
    have h2 := hle tr ht
    omega

theorem stackSel_npts (st : List (CTr V)) (first : CTr V) (hne : st ≠ []) :
    ∃ tr ∈ stackSel st first,
      tr.stats.npts = ((isort nptsLe (isort startLe st)).getLastD first).stats.npts := by
  have hne : isort nptsLe (isort startLe st) ≠ [] := by
    intro h
    exact hne (List.length_eq_zero_iff.1 (by rw [← length_isort startLe, ← length_isort nptsLe, h]; rfl))
  unfold stackSel
  simp only
  generalize isort nptsLe (isort startLe st) = L at *
  obtain ⟨ys, l, rfl⟩ : ∃ ys l, L = ys ++ [l] := ⟨L.dropLast, L.getLast hne, (List.dropLast_concat_getLast hne).symm⟩
  exact ⟨l, by simp, by simp⟩

end SeisMIC
