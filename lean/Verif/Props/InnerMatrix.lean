import Verif.Model.InnerMatrix
import Verif.Props.Segments
import Verif.Lemmas.ListAux

/-!
# C143: gaps and masked samples enter the correlations as zeros
-/

namespace SeisMIC

/-! ### Specification -/

/-- nothing is stored beneath the mask, as in all masked samples that obspy makes when it merges
or pads traces -/
def EmptyBeneath (tr : MTrace) : Prop := ∀ x ∈ tr.2, x.2 = true → x.1 = none

/-- what a trace contributes at sample number `k`: its value if there is a valid one, else zero -/
def contribution (tr : MTrace) (k : Int) : Rat :=
  match tr.seen.at k with
  | some (some v) => v
  | _ => 0

/-- the mask of a trace at sample number `k` -/
def MaskedAt (tr : MTrace) (k : Int) : Prop := tr.1 ≤ k ∧ ∃ v, tr.2[(k - tr.1).toNat]? = some (v, true)

/-! ### Lemmas -/

theorem foldl_max_facts (l : List Nat) (n : Nat) :
    (∀ m ∈ n :: l, m ≤ l.foldl max n) ∧ l.foldl max n ∈ n :: l := by
  induction l generalizing n with
  | nil => simp
  | cons a l ih =>
    obtain ⟨h1, h2⟩ := ih (max n a)
    rw [List.foldl_cons]
    constructor
    · intro m hm
      have hx : max n a ≤ l.foldl max (max n a) := h1 _ (by simp)
      rcases List.mem_cons.1 hm with rfl | hm
      · omega
      · rcases List.mem_cons.1 hm with rfl | hm
        · omega
        · exact h1 m (by simp [hm])
    · rcases List.mem_cons.1 h2 with h | h
      · rw [h]
        rcases Nat.le_total n a with h' | h'
        · rw [Nat.max_eq_right h']; simp
        · rw [Nat.max_eq_left h']; simp
      · simp [h]

theorem maxNpts_facts (st : List MTrace) (hne : st ≠ []) :
    ∃ N, maxNpts st = .ok N ∧ (∀ tr ∈ st, tr.2.length ≤ N) ∧ ∃ tr ∈ st, tr.2.length = N := by
  cases st with
  | nil => exact absurd rfl hne
  | cons t st =>
    obtain ⟨h1, h2⟩ := foldl_max_facts (st.map fun tr => tr.2.length) t.2.length
    refine ⟨_, rfl, ?_, ?_⟩
    · intro tr htr
      refine h1 _ ?_
      rw [← List.map_cons (f := fun tr : MTrace => tr.2.length)]
      exact List.mem_map_of_mem htr
    · rw [← List.map_cons (f := fun tr : MTrace => tr.2.length)] at h2
      obtain ⟨tr, htr, h⟩ := List.mem_map.1 h2
      exact ⟨tr, htr, h⟩

theorem innerMatrix_eq (st : List MTrace) (N : Nat) (hN : maxNpts st = .ok N) (hle : ∀ tr ∈ st, tr.2.length ≤ N) :
    innerMatrix st = .ok (st.map fun tr => tr.2.map (fun x => nanZero x.1) ++ List.replicate (N - tr.2.length) 0) := by
  have h : stToNpArray st N = .ok (st.map fun tr => tr.2.map (·.1) ++ List.replicate (N - tr.2.length) (some 0)) := by
    refine mapM_ok _ _ _ ?_
    intro tr htr
    rw [fillRow, if_pos (hle tr htr)]
  simp only [innerMatrix, hN, h, bind, Except.bind, pure, Except.pure, List.map_map]
  congr 1
  refine List.map_congr_left ?_
  intro tr _
  simp [nanZero]

theorem trimPad_length (a b : Int) (tr : MTrace) : (trimPad a b tr).2.length = (b - a + 1).toNat := by
  simp [trimPad]

theorem trimPad_get (a b : Int) (tr : MTrace) (k : Nat) (hk : k < (b - a + 1).toNat) :
    (trimPad a b tr).2[k]? = some (if a + k < tr.1 then emptySample else tr.2.getD (a + k - tr.1).toNat emptySample) := by
  simp [trimPad, List.getElem?_map, List.getElem?_range hk]

theorem seen_at (tr : MTrace) (k : Int) (hk : tr.1 ≤ k) :
    tr.seen.at k = match tr.2[(k - tr.1).toNat]? with
      | some (v, false) => some v
      | _ => none := by
  unfold GapTr.at MTrace.seen
  rw [if_neg (by simpa using hk)]
  simp only [List.getElem?_map]
  cases tr.2[(k - tr.1).toNat]? with
  | none => rfl
  | some x =>
    obtain ⟨v, m⟩ := x
    cases m <;> rfl

theorem seen_before (tr : MTrace) (k : Int) (hk : k < tr.1) : tr.seen.at k = none := by
  unfold GapTr.at MTrace.seen
  rw [if_pos hk]

/-! ### C143 -/

/-- **C143** Every window with at least one trace becomes a matrix with one row for each trace, in
the order of the traces and as long as the longest of them. A row starts with the stored samples of
its trace, NaN replaced by zero, and ends with zeros. -/
theorem c143_rows (st : List MTrace) (hne : st ≠ []) :
    ∃ A N, innerMatrix st = .ok A ∧ A.length = st.length ∧ (∀ tr ∈ st, tr.2.length ≤ N) ∧ (∃ tr ∈ st, tr.2.length = N) ∧
      ∀ (i : Nat) tr, st[i]? = some tr → ∃ row, A[i]? = some row ∧ row.length = N ∧
        (∀ (k : Nat) v m, tr.2[k]? = some (some v, m) → row[k]? = some v) ∧
        (∀ (k : Nat) m, tr.2[k]? = some (none, m) → row[k]? = some 0) ∧
        ∀ k : Nat, tr.2.length ≤ k → k < N → row[k]? = some 0 := by
  obtain ⟨N, hN, hle, hex⟩ := maxNpts_facts st hne
  refine ⟨_, N, innerMatrix_eq st N hN hle, by simp, hle, hex, ?_⟩
  intro i tr hi
  have htr := List.mem_of_getElem? hi
  have hl := hle tr htr
  refine ⟨_, by rw [List.getElem?_map, hi]; rfl, by simp; omega, ?_, ?_, ?_⟩
  · intro k v m hk
    have hkl := (List.getElem?_eq_some_iff.1 hk).1
    rw [List.getElem?_append_left (by simpa using hkl), List.getElem?_map, hk]
    rfl
  · intro k m hk
    have hkl := (List.getElem?_eq_some_iff.1 hk).1
    rw [List.getElem?_append_left (by simpa using hkl), List.getElem?_map, hk]
    rfl
  · intro k h1 h2
    rw [List.getElem?_append_right (by simpa using h1), List.getElem?_replicate, if_pos (by simp; omega)]

example : innerMatrix [(0, [(some 1, false), (none, false), (some 3, false)]), (0, [(some 5, false), (none, true)])] =
    .ok [[1, 0, 3], [5, 0, 0]] := by decide +kernel

/-- **C143** A row that is too short is refused; no sample is cut off silently. -/
theorem c143_too_long (st : List MTrace) (npts : Nat) (hn : 0 < npts) (A : List (List F)) (h : stToNpArray st npts = .ok A) :
    ∀ tr ∈ st, tr.2.length ≤ npts := by
  intro tr htr
  by_contra hc
  obtain ⟨s1, s2, rfl⟩ := List.append_of_mem htr
  unfold stToNpArray at h
  rw [List.mapM_append, List.mapM_cons] at h
  have hf : fillRow npts tr.2 = .error .valueError := by
    rw [fillRow, if_neg hc, if_neg (by omega)]
  rw [hf] at h
  cases h1 : List.mapM (fun tr : MTrace => fillRow npts tr.2) s1 with
  | error e => simp [h1, bind, Except.bind] at h
  | ok x => simp [h1, bind, Except.bind] at h

example : stToNpArray [(0, [(some 1, false), (some 2, false)])] 1 = .error .valueError := by decide +kernel

/-- **C143** Full statement: in the matrix of the window from sample `a` to sample `b`, the entry of
a trace at a time is its value if it has a valid sample at that time, and zero if the sample is
masked, NaN or missing.
Proved for traces with nothing stored beneath their masks. Missing: traces masked by
`stream_mask_at_utc`, see `c143_masked_violated`. -/
theorem c143_window_partial (trs : List MTrace) (hne : trs ≠ []) (hem : ∀ tr ∈ trs, EmptyBeneath tr) (a b : Int)
    (hab : a ≤ b) :
    ∃ A, innerMatrix (trs.map (trimPad a b)) = .ok A ∧ A.length = trs.length ∧
      ∀ (i : Nat) tr, trs[i]? = some tr → ∃ row, A[i]? = some row ∧ (row.length : Int) = b - a + 1 ∧
        ∀ k : Nat, a + k ≤ b → row[k]? = some (contribution tr (a + k)) := by
  obtain ⟨A, N, hA, hlen, hle, ⟨tr0, htr0, hN⟩, hrows⟩ := c143_rows (trs.map (trimPad a b)) (by simpa using hne)
  have hN' : N = (b - a + 1).toNat := by
    obtain ⟨t, _, rfl⟩ := List.mem_map.1 htr0
    rw [← hN, trimPad_length]
  refine ⟨A, hA, by simpa using hlen, ?_⟩
  intro i tr hi
  obtain ⟨row, hrow, hrl, hv, hz, -⟩ := hrows i (trimPad a b tr) (by rw [List.getElem?_map, hi]; rfl)
  refine ⟨row, hrow, by rw [hrl, hN']; omega, ?_⟩
  intro k hk
  have hget := trimPad_get a b tr k (by omega)
  unfold contribution
  by_cases hb : a + k < tr.1
  · rw [if_pos hb] at hget
    rw [seen_before tr _ hb]
    exact hz k _ hget
  · rw [if_neg hb] at hget
    rw [seen_at tr _ (by omega)]
    cases hx : tr.2[(a + k - tr.1).toNat]? with
    | none =>
      rw [List.getD_eq_getElem?_getD, hx] at hget
      exact hz k _ hget
    | some x =>
      rw [List.getD_eq_getElem?_getD, hx] at hget
      obtain ⟨v, m⟩ := x
      cases m with
      | true =>
        have := hem tr (List.mem_of_getElem? hi) _ (List.mem_of_getElem? hx) rfl
        simp only at this
        subst this
        exact hz k _ hget
      | false =>
        cases v with
        | none => exact hz k _ hget
        | some v => exact hv k v _ hget

example : EmptyBeneath (0, [(some 1, false), (none, true), (some 3, false)]) ∧
    innerMatrix ([(0, [(some 1, false), (none, true), (some 3, false)])].map (trimPad (-1) 3)) = .ok [[0, 1, 0, 3, 0]] := by
  constructor
  · intro x hx
    rcases (by simpa using hx : x = _ ∨ x = _ ∨ x = _) with rfl | rfl | rfl <;> simp
  · decide +kernel

/-- **C143** Merging and padding store nothing beneath the samples that they mask, and padding keeps
what is valid at each time inside the window. -/
theorem c143_merge_pad (g : GapTr F) (tr : MTrace) (htr : EmptyBeneath tr) (a b : Int) :
    EmptyBeneath (MTrace.ofGap g) ∧ (∀ k, (MTrace.ofGap g).seen.at k = g.at k) ∧
      EmptyBeneath (trimPad a b tr) ∧ ∀ k, (trimPad a b tr).seen.at k = if a ≤ k ∧ k ≤ b then tr.seen.at k else none := by
  refine ⟨?_, ?_, ?_, ?_⟩
  · intro x hx hm
    simp only [MTrace.ofGap, List.mem_map] at hx
    obtain ⟨y, -, rfl⟩ := hx
    cases y with
    | none => rfl
    | some v => simp at hm
  · intro k
    have : (MTrace.ofGap g).seen = g := by
      obtain ⟨s, d⟩ := g
      simp only [MTrace.ofGap, MTrace.seen, List.map_map, Prod.mk.injEq, true_and]
      conv_rhs => rw [← List.map_id d]
      refine List.map_congr_left ?_
      intro x _
      cases x <;> rfl
    rw [this]
  · intro x hx hm
    simp only [trimPad, List.mem_map] at hx
    obtain ⟨k, -, rfl⟩ := hx
    split_ifs with h
    · rfl
    · rw [if_neg h] at hm
      rw [List.getD_eq_getElem?_getD] at hm ⊢
      cases hx : tr.2[(a + k - tr.1).toNat]? with
      | none => rfl
      | some x =>
        rw [hx] at hm
        exact htr x (List.mem_of_getElem? hx) hm
  · intro k
    by_cases hka : k < a
    · rw [if_neg (by omega), seen_before _ _ hka]
    · rw [seen_at _ _ (by simpa [trimPad] using hka)]
      by_cases hkb : k ≤ b
      · rw [if_pos ⟨by omega, hkb⟩]
        have hkk : a + ((k - a).toNat : Int) = k := by omega
        have hget := trimPad_get a b tr (k - a).toNat (by omega)
        rw [hkk] at hget
        show (match (trimPad a b tr).2[(k - a).toNat]? with | some (v, false) => some v | _ => none) = _
        rw [hget]
        by_cases hb : k < tr.1
        · rw [if_pos hb, seen_before _ _ hb]
          rfl
        · rw [if_neg hb, seen_at _ _ (by omega), List.getD_eq_getElem?_getD]
          cases tr.2[(k - tr.1).toNat]? with
          | none => rfl
          | some x => rfl
      · rw [if_neg (by omega)]
        show (match (trimPad a b tr).2[(k - a).toNat]? with | some (v, false) => some v | _ => none) = _
        rw [List.getElem?_eq_none (by rw [trimPad_length]; omega)]

/-- **C143** A mask that is followed by `stream_filter` is respected: masked samples are missing
afterwards, and nothing is stored beneath them. -/
theorem c143_filter_after_mask (op : List F → List F) (hop : ∀ d, (op d).length = d.length) (tr out : MTrace)
    (h : filterMTrace op tr = some out) :
    EmptyBeneath out ∧ ∀ k, MaskedAt tr k → contribution out k = 0 := by
  unfold filterMTrace at h
  cases hg : filterTrace op tr.seen with
  | none => rw [hg] at h; cases h
  | some g =>
    rw [hg] at h
    simp only [Option.map_some, Option.some.injEq] at h
    subst h
    refine ⟨(c143_merge_pad g (MTrace.ofGap g) (by
      intro x hx hm
      simp only [MTrace.ofGap, List.mem_map] at hx
      obtain ⟨y, -, rfl⟩ := hx
      cases y with
      | none => rfl
      | some v => simp at hm) 0 0).1, ?_⟩
    rintro k ⟨hk, v, hv⟩
    have hn : tr.seen.at k = none := by rw [seen_at tr k hk, hv]
    have := ((merge_runs_all tr.seen op hop _ rfl).2 g hg).2.1 k hn
    unfold contribution
    rw [show (MTrace.ofGap g).seen.at k = g.at k from (c143_merge_pad g (0, []) (by intro x hx; cases hx) 0 0).2.1 k, this]

example : filterMTrace id (maskTrace 1 [(3 / 2, 5 / 2)] false
      (0, [(some 1, false), (some 2, false), (some 3, false), (some 4, false), (some 5, false)])) =
    some (0, [(some 1, false), (none, true), (none, true), (none, true), (some 5, false)]) := by decide +kernel

/-- **C143** (which samples are masked) Masking intervals keeps all samples and what was masked
before, and masks, besides, the samples in the intervals that begin or end inside the trace, with
one sample more on either side if the end is between two samples; with `reverse` all other samples. -/
theorem c143_mask (sr : Rat) (hsr : 0 < sr) (ivs : List (Rat × Rat)) (hiv : ∀ iv ∈ ivs, iv.1 ≤ iv.2) (reverse : Bool) (tr : MTrace)
    (k : Int) (hk : tr.1 ≤ k) (hk' : k < tr.1 + tr.2.length) :
    (maskTrace sr ivs reverse tr).1 = tr.1 ∧
    ((maskTrace sr ivs reverse tr).2[(k - tr.1).toNat]?).map Prod.fst = (tr.2[(k - tr.1).toNat]?).map Prod.fst ∧
    (MaskedAt (maskTrace sr ivs reverse tr) k ↔ MaskedAt tr k ∨
      ((∃ iv ∈ ivs, ((tr.1 / sr < iv.1 ∧ iv.1 < tr.1 / sr + ((tr.2.length : Rat) - 1) / sr) ∨
          (tr.1 / sr < iv.2 ∧ iv.2 < tr.1 / sr + ((tr.2.length : Rat) - 1) / sr)) ∧
        iv.1 - 1 / sr < k / sr ∧ k / sr < iv.2 + 1 / sr) ↔ reverse = false)) := by
  obtain ⟨i, rfl⟩ : ∃ i : Nat, k = tr.1 + i := ⟨(k - tr.1).toNat, by omega⟩
  have hi : i < tr.2.length := by omega
  obtain ⟨hl, hm⟩ := c76_actual tr.2.length sr (tr.1 / sr) hsr ivs reverse hiv i hi
  have et : (tr.1 : Rat) / sr + (i : Rat) / sr = ((tr.1 + (i : Int) : Int) : Rat) / sr := by push_cast; ring
  rw [et] at hm
  rw [← hm]
  have e1 : (tr.1 + (i : Int) - tr.1).toNat = i := by omega
  have e0 : (maskTrace sr ivs reverse tr).1 = tr.1 := rfl
  obtain ⟨b, hb⟩ : ∃ b, (maskAtUtc tr.2.length sr (tr.1 / sr) ivs reverse)[i]? = some b :=
    ⟨_, List.getElem?_eq_getElem (by rw [hl]; exact hi)⟩
  obtain ⟨x, hx⟩ : ∃ x, tr.2[i]? = some x := ⟨_, List.getElem?_eq_getElem hi⟩
  have e2 : (maskTrace sr ivs reverse tr).2[i]? = some (x.1, x.2 || b) := by
    unfold maskTrace
    simp only [List.getElem?_zipWith, hb, hx]
  refine ⟨rfl, ?_, ?_⟩
  · rw [e1, e2, hx]; rfl
  · unfold MaskedAt
    rw [e0, e1, e2, hx, hb]
    obtain ⟨v, m⟩ := x
    cases m <;> cases b <;> cases reverse <;> simp

/-- **C143 is violated**: masks set by `stream_mask_at_utc` as the last preprocessing step have no
effect at all on the matrix, whatever is masked: the samples beneath the masks are correlated. -/
theorem c143_masked_violated (sr : Rat) (ivs : List (Rat × Rat)) (reverse : Bool) (a b : Int) (trs : List MTrace) :
    innerMatrix (trs.map fun tr => trimPad a b (maskTrace sr ivs reverse tr)) = innerMatrix (trs.map (trimPad a b)) ∧
    ∃ tr : MTrace, MaskedAt (maskTrace 1 [(3 / 2, 5 / 2)] false tr) 2 ∧
      innerMatrix [trimPad 0 4 (maskTrace 1 [(3 / 2, 5 / 2)] false tr)] = .ok [[1, 2, 3, 4, 5]] := by
  constructor
  · cases htrs : trs with
    | nil => rfl
    | cons t ts =>
      rw [← htrs]
      have hne : trs ≠ [] := by rw [htrs]; simp
      have hlen : ∀ tr : MTrace, (maskAtUtc tr.2.length sr (tr.1 / sr) ivs reverse).length = tr.2.length := by
        intro tr
        have : ∀ (l : List (Rat × Rat)) (f : List Bool → Rat × Rat → List Bool) (m : List Bool),
            (∀ m x, (f m x).length = m.length) → (l.foldl f m).length = m.length := by
          intro l f m hf
          induction l generalizing m with
          | nil => rfl
          | cons x l ih => rw [List.foldl_cons, ih, hf]
        unfold maskAtUtc
        dsimp only
        split_ifs <;> simp [this, setMask]
      have hval : ∀ (tr : MTrace) (k : Nat), ((maskTrace sr ivs reverse tr).2.getD k emptySample).1 = (tr.2.getD k emptySample).1 := by
        intro tr k
        simp only [maskTrace, List.getD_eq_getElem?_getD, List.getElem?_zipWith]
        cases hx : tr.2[k]? with
        | none => rfl
        | some x =>
          cases hm : (maskAtUtc tr.2.length sr (tr.1 / sr) ivs reverse)[k]? with
          | none =>
            have h1 := (List.getElem?_eq_some_iff.1 hx).1
            have h2 := List.getElem?_eq_none_iff.1 hm
            rw [hlen] at h2
            omega
          | some m => rfl
      have hN : ∀ f : MTrace → MTrace, (∀ tr, (f tr).2.length = (b - a + 1).toNat) →
          maxNpts (trs.map f) = .ok (b - a + 1).toNat := by
        intro f hf
        obtain ⟨N, h1, -, tr, htr, h2⟩ := maxNpts_facts (trs.map f) (by simpa using hne)
        obtain ⟨t, _, rfl⟩ := List.mem_map.1 htr
        rw [h1, ← h2, hf]
      rw [innerMatrix_eq _ _ (hN (fun tr => trimPad a b (maskTrace sr ivs reverse tr)) fun tr => trimPad_length _ _ _),
        innerMatrix_eq _ _ (hN (trimPad a b) (trimPad_length a b))]
      · congr 1
        simp only [List.map_map]
        refine List.map_congr_left ?_
        intro tr _
        simp only [Function.comp_apply, trimPad_length]
        congr 1
        simp only [trimPad, List.map_map]
        refine List.map_congr_left ?_
        intro k _
        simp only [Function.comp_apply]
        have h1 : (maskTrace sr ivs reverse tr).1 = tr.1 := rfl
        rw [h1]
        by_cases hb : a + (k : Int) < tr.1
        · rw [if_pos hb, if_pos hb]
        · rw [if_neg hb, if_neg hb, hval]
      · intro tr htr
        obtain ⟨t, _, rfl⟩ := List.mem_map.1 htr
        rw [trimPad_length]
      · intro tr htr
        obtain ⟨t, _, rfl⟩ := List.mem_map.1 htr
        exact le_of_eq (trimPad_length _ _ _)
  · refine ⟨(0, [(some 1, false), (some 2, false), (some 3, false), (some 4, false), (some 5, false)]), ⟨by decide, some 3, ?_⟩, ?_⟩
    · decide +kernel
    · decide +kernel

end SeisMIC
