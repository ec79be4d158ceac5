import Verif.Lemmas.Combis

/-!
# C04 - C08: combinations and their names
-/

namespace SeisMIC

/-- **C04**. For every stream, every dictionary of existing data, every request
list and every documented method: the result is a list without repetition of
positions in the alphabetically sorted stream, and `(i, j)` is in it iff the
method selects the pair and it is not recorded as existing. (For
`betweenComponents` the channel codes must not be empty, else see
`c04_empty_channel`.) -/
theorem c04_exact (fiss : Int → Str) (st : List TrHead) (ex : ExDict) (method : Str)
    (rcombis : Option (List Str)) (hm : method ∈ methods)
    (hc : method = "betweenComponents".toList → ∀ a ∈ st, a.cha ≠ []) :
    ∃ (S : List TrHead) (combis : List (Nat × Nat)), S.Perm st ∧ (S.Pairwise fun a b => trLe a b = true) ∧
      calcCrossCombis fiss st ex method rcombis = .ok combis ∧ combis.Nodup ∧
      ∀ i j, (i, j) ∈ combis ↔ ∃ a b, S[i]? = some a ∧ S[j]? = some b ∧
        Selected method rcombis i j a b ∧ ¬ Recorded fiss ex a b := by
  refine ⟨isort trLe st, ?_⟩
  suffices h : ∃ combis : List (Nat × Nat), calcCrossCombis fiss st ex method rcombis = .ok combis ∧ combis.Nodup ∧
      ∀ i j, (i, j) ∈ combis ↔ ∃ a b, (isort trLe st)[i]? = some a ∧ (isort trLe st)[j]? = some b ∧
        Selected method rcombis i j a b ∧ ¬ Recorded fiss ex a b by
    obtain ⟨c, h⟩ := h
    exact ⟨c, isort_perm _ _, isort_sorted _ trLe_total trLe_trans _, h⟩
  have hc' : method = "betweenComponents".toList → ∀ a ∈ isort trLe st, a.cha ≠ [] :=
    fun h a ha => hc h a (mem_isort.1 ha)
  unfold calcCrossCombis
  simp only
  generalize isort trLe st = S at *
  have aux : ∀ (i j : Nat) (P : TrHead → TrHead → Prop),
      (∃ a b, S[i]? = some a ∧ S[j]? = some b ∧ P a b) ↔
      i < S.length ∧ j < S.length ∧ P (S.getD i ⟨[], [], [], [], 0⟩) (S.getD j ⟨[], [], [], [], 0⟩) := by
    intro i j P
    constructor
    · rintro ⟨a, b, h1, h2, h3⟩
      have e1 := (List.getElem?_eq_some_iff.1 h1)
      have e2 := (List.getElem?_eq_some_iff.1 h2)
      obtain ⟨l1, e1⟩ := e1
      obtain ⟨l2, e2⟩ := e2
      refine ⟨l1, l2, ?_⟩
      simp [List.getD, h1, h2, h3]
    · rintro ⟨h1, h2, h3⟩
      refine ⟨_, _, List.getElem?_eq_getElem h1, List.getElem?_eq_getElem h2, ?_⟩
      simpa [List.getD, h1, h2] using h3
  simp only [aux]
  simp only [methods, List.mem_cons, List.not_mem_nil, or_false] at hm
  rcases hm with rfl | rfl | rfl | rfl | rfl
  · rw [if_pos (by decide)]
    refine ⟨_, rfl, nodup_filter _ (nodup_pairsFrom _ _), ?_⟩
    intro i j
    rw [List.mem_filter, mem_pairsFrom]
    unfold Selected
    rw [if_pos rfl]
    generalize S.getD i _ = a
    generalize S.getD j _ = b
    have hce := compareExisting_iff fiss ex a b
    cases rcombis with
    | none => simp [Requested]; grind
    | some r =>
      have hx := isInXcombis_iff a b r
      simp; grind
  · rw [if_neg (by decide), if_pos (by decide)]
    refine ⟨_, foldlM_filter _ (fun ij =>
      let tr := S.getD ij.1 ⟨[], [], [], [], 0⟩
      let tr1 := S.getD ij.2 ⟨[], [], [], [], 0⟩
      decide (tr.net = tr1.net ∧ tr.sta = tr1.sta ∧ tr.cha.getLast? ≠ tr1.cha.getLast? ∧
        ¬ compareExisting fiss ex tr tr1)) _ _ ?_, ?_, ?_⟩
    · rintro ⟨i, j⟩ hij acc
      rw [mem_pairsFrom] at hij
      have l1 : i < S.length := by omega
      have l2 : j < S.length := by omega
      have m1 : S.getD i ⟨[], [], [], [], 0⟩ ∈ S := by
        simp only [List.getD, List.getElem?_eq_getElem l1, Option.getD_some]; exact List.getElem_mem _
      have m2 : S.getD j ⟨[], [], [], [], 0⟩ ∈ S := by
        simp only [List.getD, List.getElem?_eq_getElem l2, Option.getD_some]; exact List.getElem_mem _
      have n1 := hc' rfl _ m1
      have n2 := hc' rfl _ m2
      simp only
      generalize S.getD i _ = a at *
      generalize S.getD j _ = b at *
      obtain ⟨x, hx⟩ := Option.ne_none_iff_exists'.1 (mt List.getLast?_eq_none_iff.1 n1)
      obtain ⟨y, hy⟩ := Option.ne_none_iff_exists'.1 (mt List.getLast?_eq_none_iff.1 n2)
      simp only [hx, hy]
      by_cases hh : a.net = b.net ∧ a.sta = b.sta
      · simp only [hh, and_self, if_true]
        by_cases h2 : x ≠ y ∧ ¬ compareExisting fiss ex a b = true
        · rw [if_pos h2, if_pos]; simp [h2.1, h2.2]
        · rw [if_neg h2, if_neg]; simpa using h2
      · rw [if_neg hh, if_neg]; simp; grind
    · simp only [List.nil_append]; exact nodup_filter _ (nodup_pairsFrom _ _)
    · intro i j
      simp only [List.nil_append]
      rw [List.mem_filter, mem_pairsFrom]
      unfold Selected
      rw [if_neg (by decide), if_pos rfl]
      simp only [component]
      generalize S.getD i _ = a
      generalize S.getD j _ = b
      have hce := compareExisting_iff fiss ex a b
      simp; grind
  · rw [if_neg (by decide), if_neg (by decide), if_pos (by decide)]
    refine ⟨_, rfl, nodup_filter _ ?_, ?_⟩
    · unfold List.Nodup
      rw [List.pairwise_map]
      refine List.Pairwise.imp ?_ (List.nodup_range (n := S.length))
      intro a b h e; simp at e; exact h e
    · intro i j
      rw [List.mem_filter]
      unfold Selected
      rw [if_neg (by decide), if_neg (by decide), if_pos rfl]
      have hce := compareExisting_iff fiss ex (S.getD i ⟨[], [], [], [], 0⟩) (S.getD j ⟨[], [], [], [], 0⟩)
      simp only [List.mem_map, List.mem_range, Prod.mk.injEq]
      simp; grind
  · rw [if_neg (by decide), if_neg (by decide), if_neg (by decide), if_pos (by decide)]
    refine ⟨_, rfl, nodup_filter _ (nodup_pairsFrom _ _), ?_⟩
    intro i j
    rw [List.mem_filter, mem_pairsFrom]
    unfold Selected
    rw [if_neg (by decide), if_neg (by decide), if_neg (by decide), if_pos rfl]
    have hce := compareExisting_iff fiss ex (S.getD i ⟨[], [], [], [], 0⟩) (S.getD j ⟨[], [], [], [], 0⟩)
    simp; grind
  · rw [if_neg (by decide), if_neg (by decide), if_neg (by decide), if_neg (by decide), if_pos (by decide)]
    refine ⟨_, rfl, nodup_filter _ (nodup_pairsFrom _ _), ?_⟩
    intro i j
    rw [List.mem_filter, mem_pairsFrom]
    unfold Selected
    rw [if_neg (by decide), if_neg (by decide), if_neg (by decide), if_neg (by decide), if_pos rfl]
    have hce := compareExisting_iff fiss ex (S.getD i ⟨[], [], [], [], 0⟩) (S.getD j ⟨[], [], [], [], 0⟩)
    simp; grind

/-- A stream that meets the hypotheses of `c04_exact`: two stations, two
components. -/
def exampleStream : List TrHead :=
  [⟨c!"XN", c!"NEP07", c!"00", c!"HHZ", 0⟩, ⟨c!"XN", c!"NEP06", c!"00", c!"HHE", 0⟩,
   ⟨c!"XN", c!"NEP06", c!"00", c!"HHZ", 0⟩]

example : (∀ a ∈ exampleStream, a.cha ≠ []) ∧
    calcCrossCombis (fun _ => []) exampleStream [] c!"betweenStations" none
      = .ok [(0, 2), (1, 2)] ∧
    calcCrossCombis (fun _ => []) exampleStream [] c!"betweenComponents" none = .ok [(0, 1)] ∧
    calcCrossCombis (fun _ => []) exampleStream [] c!"autoComponents" none
      = .ok [(0, 0), (1, 1), (2, 2)] ∧
    calcCrossCombis (fun _ => c!"t")  exampleStream
      [(c!"XN.NEP06", [(c!"XN.NEP07", [(c!"HHZ-HHZ", [c!"t"])])])] c!"betweenStations" none
      = .ok [(0, 2)] := by
  decide

/-- **C04**, error branch: with `betweenComponents`, two traces of one station
of which one has an empty channel code raise `IndexError`. -/
theorem c04_empty_channel (fiss : Int → Str) (ex : ExDict) (rcombis : Option (List Str))
    (a b : TrHead) (hn : a.net = b.net) (hs : a.sta = b.sta) (hab : a.cha = [] ∨ b.cha = []) :
    calcCrossCombis fiss [a, b] ex "betweenComponents".toList rcombis = .error .indexError := by
  have hS : ∃ x y, isort trLe [a, b] = [x, y] ∧ x.net = y.net ∧ x.sta = y.sta ∧
      (x.cha = [] ∨ y.cha = []) := by
    rw [isort_pair]
    split
    · exact ⟨a, b, rfl, hn, hs, hab⟩
    · exact ⟨b, a, rfl, hn.symm, hs.symm, hab.symm⟩
  obtain ⟨x, y, hS, h1, h2, h3⟩ := hS
  unfold calcCrossCombis
  simp only [hS]
  rw [if_neg (by decide), if_pos (by decide)]
  have hp : pairsFrom [x, y].length (· + 1) = [(0, 1)] := by
    show pairsFrom 2 (· + 1) = _
    decide
  rw [hp]
  simp [h1, h2]
  rcases h3 with h3 | h3
  · simp [h3]
  · simp [h3]

/-- **C05**. A method name that is not one of the five documented ones is
rejected with `ValueError` by both functions; the documented ones are not. -/
theorem c05_method_names (fiss : Int → Str) (st : List TrHead) (ex : ExDict) (method : Str)
    (rcombis : Option (List Str)) (stations : List (Str × Str)) (combis : Option (List Str)) :
    (method ∉ methods →
      calcCrossCombis fiss st ex method rcombis = .error .valueError ∧
      networkStationCombis stations method combis = .error .valueError) ∧
    (method ∈ methods → (∀ a ∈ st, a.cha ≠ []) →
      (∃ r, calcCrossCombis fiss st ex method rcombis = .ok r) ∧
      (∃ r, networkStationCombis stations method combis = .ok r)) := by
  constructor
  · intro h
    simp only [methods, List.mem_cons, List.not_mem_nil, or_false, not_or] at h
    obtain ⟨h1, h2, h3, h4, h5⟩ := h
    have h1 : method ≠ c!"betweenStations" := h1
    have h2 : method ≠ c!"betweenComponents" := h2
    have h3 : method ≠ c!"autoComponents" := h3
    have h4 : method ≠ c!"allSimpleCombinations" := h4
    have h5 : method ≠ c!"allCombinations" := h5
    constructor
    · unfold calcCrossCombis
      simp only
      rw [if_neg h1, if_neg h2, if_neg h3, if_neg h4, if_neg h5]
    · unfold networkStationCombis
      simp only
      rw [if_neg h1, if_neg (by simp [h2, h3]), if_neg h4, if_neg h5]
  · intro h hc
    constructor
    · obtain ⟨_, r, _, _, hr, _⟩ := c04_exact fiss st ex method rcombis h (fun _ => hc)
      exact ⟨r, hr⟩
    · simp only [methods, List.mem_cons, List.not_mem_nil, or_false] at h
      unfold networkStationCombis
      simp only
      rcases h with rfl | rfl | rfl | rfl | rfl
      · rw [if_pos (by decide)]; exact ⟨_, rfl⟩
      · rw [if_neg (by decide), if_pos (by decide)]; exact ⟨_, rfl⟩
      · rw [if_neg (by decide), if_pos (by decide)]; exact ⟨_, rfl⟩
      · rw [if_neg (by decide), if_neg (by decide), if_pos (by decide)]; exact ⟨_, rfl⟩
      · rw [if_neg (by decide), if_neg (by decide), if_neg (by decide), if_pos (by decide)]
        exact ⟨_, rfl⟩

example : c!"betweenstations" ∉ methods ∧ c!"autoComponents" ∈ methods := by decide

/-- **C06** (order independent). -/
theorem c06_symmetric (a b : TrHead) (rcombis : List Str) :
    isInXcombis a b rcombis = isInXcombis b a rcombis := by
  unfold isInXcombis
  simp only [Bool.or_comm]

/-- **C06** (a request that names the pair selects it). If the list contains
`Net1-Net2.Sta1-Sta2`, alone or continued by `.Cha1-Cha2`, for the pair in one
of the two orders, then the pair is selected in both orders. -/
theorem c06_named_pair_selected (a b : TrHead) (rcombis : List Str)
    (ha : Plain a.net ∧ Plain a.sta ∧ Plain a.cha) (hb : Plain b.net ∧ Plain b.sta ∧ Plain b.cha)
    (h : (a.net ++ '-' :: b.net ++ '.' :: a.sta ++ '-' :: b.sta ∈ rcombis) ∨
         combiName a b ∈ rcombis) :
    isInXcombis a b rcombis = true ∧ isInXcombis b a rcombis = true := by
  have pd : ∀ c : Char, c ≠ '*' → c ≠ '?' → c ≠ '[' → Plain [c] := by
    intro c h1 h2 h3 d hd; simp at hd; subst hd; exact ⟨h1, h2, h3⟩
  have pa : ∀ s t : Str, Plain s → Plain t → Plain (s ++ t) := by
    intro s t h1 h2 d hd
    rcases List.mem_append.1 hd with h | h
    · exact h1 d h
    · exact h2 d h
  have key : isInXcombis a b rcombis = true := by
    rw [isInXcombis_iff]
    intro r hr
    cases hr
    rcases h with h | h
    · refine ⟨_, h, .inl ?_⟩
      rw [fnmatch_prefix]
      · exact ⟨'.' :: a.cha ++ '-' :: b.cha, by simp [combiName]⟩
      · have := pa _ _ (pa _ _ (pa _ _ (pa _ _ (pa _ _ (pa _ _ ha.1 (pd '-' (by decide) (by decide) (by decide)))
          hb.1) (pd '.' (by decide) (by decide) (by decide))) ha.2.1)
          (pd '-' (by decide) (by decide) (by decide))) hb.2.1
        simpa using this
    · refine ⟨_, h, .inl ?_⟩
      rw [fnmatch_prefix]
      · exact ⟨[], by simp⟩
      · have := pa _ _ (pa _ _ (pa _ _ (pa _ _ (pa _ _ (pa _ _ (pa _ _ (pa _ _ (pa _ _ (pa _ _ ha.1
          (pd '-' (by decide) (by decide) (by decide)))
          hb.1) (pd '.' (by decide) (by decide) (by decide))) ha.2.1)
          (pd '-' (by decide) (by decide) (by decide))) hb.2.1)
          (pd '.' (by decide) (by decide) (by decide))) ha.2.2)
          (pd '-' (by decide) (by decide) (by decide))) hb.2.2
        simpa [combiName] using this
  exact ⟨key, by rw [c06_symmetric]; exact key⟩

example : isInXcombis (exampleStream.getD 1 ⟨[], [], [], [], 0⟩) (exampleStream.getD 0 ⟨[], [], [], [], 0⟩)
    [c!"XN-XN.NEP06-NEP07"] = true := by decide

/-- **C81** is violated: a request for the stations `A` and `B1` also selects the
pair `A`, `B10`, because the request is used as a prefix pattern. -/
theorem c81_only_requested_pairs_violated :
    isInXcombis ⟨c!"XN", c!"A", [], c!"HHZ", 0⟩ ⟨c!"XN", c!"B10", [], c!"HHZ", 0⟩
      [c!"XN-XN.A-B1"] = true := by decide

/-- **C81**, what holds: with complete names (with channels) and codes of at
most the same length, exactly the named pairs are selected.
Missing for the full property: `c81_only_requested_pairs_violated`. -/
theorem c81_only_requested_pairs_partial (a b x y : TrHead)
    (hx : Plain (combiName x y)) (hlen : (combiName a b).length ≤ (combiName x y).length)
    (hlen' : (combiName b a).length ≤ (combiName x y).length) :
    isInXcombis a b [combiName x y] = true ↔
      combiName a b = combiName x y ∨ combiName b a = combiName x y := by
  rw [isInXcombis_iff]
  simp only [Requested, Option.some.injEq, forall_eq', List.mem_singleton, exists_eq_left,
    fnmatch_prefix _ _ hx]
  constructor
  · rintro (⟨v, h⟩ | ⟨v, h⟩)
    · left
      have : v = [] := by
        have := congrArg List.length h; simp at this; exact List.length_eq_zero_iff.1 (by omega)
      simpa [this] using h
    · right
      have : v = [] := by
        have := congrArg List.length h; simp at this; exact List.length_eq_zero_iff.1 (by omega)
      simpa [this] using h
  · rintro (h | h)
    · exact .inl ⟨[], by simp [h]⟩
    · exact .inr ⟨[], by simp [h]⟩

/-- **C08** (codes of one station stay together): the result is one of the two
possible orders, in all three lists at once, and the first concatenated code is
not greater than the second. -/
theorem c08_codes_together (n1 s1 n2 s2 c1 c2 : Str) :
    ∃ x y : Str × Str × Str,
      ((x = (n1, s1, c1) ∧ y = (n2, s2, c2)) ∨ (x = (n2, s2, c2) ∧ y = (n1, s1, c1))) ∧
      x.1 ++ x.2.1 ++ x.2.2 ≤ y.1 ++ y.2.1 ++ y.2.2 ∧
      sortComb n1 s1 n2 s2 c1 c2 = ((x.1, y.1), (x.2.1, y.2.1), (x.2.2, y.2.2)) := by
  rw [sortComb_eq]
  split
  · rename_i h; exact ⟨(n1, s1, c1), (n2, s2, c2), .inl ⟨rfl, rfl⟩, h, rfl⟩
  · rename_i h; exact ⟨(n2, s2, c2), (n1, s1, c1), .inr ⟨rfl, rfl⟩,
      (List.le_total _ _).resolve_left h, rfl⟩

/-- **C08** (order independent), for two stations whose concatenated codes differ
or whose codes are the same. Missing: different codes with the same
concatenation, see `c08_order_independent_violated`. -/
theorem c08_order_independent_partial (n1 s1 n2 s2 c1 c2 : Str)
    (h : n1 ++ s1 ++ c1 = n2 ++ s2 ++ c2 → n1 = n2 ∧ s1 = s2 ∧ c1 = c2) :
    sortComb n1 s1 n2 s2 c1 c2 = sortComb n2 s2 n1 s1 c2 c1 := by
  rw [sortComb_eq, sortComb_eq]
  by_cases h1 : n1 ++ s1 ++ c1 ≤ n2 ++ s2 ++ c2
  · by_cases h2 : n2 ++ s2 ++ c2 ≤ n1 ++ s1 ++ c1
    · obtain ⟨rfl, rfl, rfl⟩ := h (List.le_antisymm h1 h2); rfl
    · rw [if_pos h1, if_neg h2]
  · rw [if_neg h1, if_pos ((List.le_total _ _).resolve_left h1)]

example : sortComb c!"YP" c!"AB3" c!"XN" c!"NEP06" c!"HHZ" c!"HHZ" =
    ((c!"XN", c!"YP"), (c!"NEP06", c!"AB3"), (c!"HHZ", c!"HHZ")) := by decide

/-- **C08** for networks of the same code length and stations of the same code
length (a common situation): always order independent. -/
theorem c08_order_independent_equal_length (n1 s1 n2 s2 c1 c2 : Str)
    (hn : n1.length = n2.length) (hs : s1.length = s2.length) :
    sortComb n1 s1 n2 s2 c1 c2 = sortComb n2 s2 n1 s1 c2 c1 := by
  apply c08_order_independent_partial
  intro h
  rw [List.append_assoc, List.append_assoc] at h
  obtain ⟨h1, h2⟩ := List.append_inj h hn
  obtain ⟨h3, h4⟩ := List.append_inj h2 hs
  exact ⟨h1, h3, h4⟩

/-- **C08** is violated: networks `X` and `XN` with stations `NA` and `A`
have the same concatenated code, so the name depends on the order. -/
theorem c08_order_independent_violated :
    sortComb c!"X" c!"NA" c!"XN" c!"A" c!"HHZ" c!"HHZ" ≠
    sortComb c!"XN" c!"A" c!"X" c!"NA" c!"HHZ" c!"HHZ" := by decide

/-- **C08** (idempotent): sorting the sorted codes changes nothing. -/
theorem c08_idempotent (n1 s1 n2 s2 c1 c2 : Str) :
    let r := sortComb n1 s1 n2 s2 c1 c2
    sortComb r.1.1 r.2.1.1 r.1.2 r.2.1.2 r.2.2.1 r.2.2.2 = r := by
  intro r
  obtain ⟨x, y, _, hle, hr⟩ := c08_codes_together n1 s1 n2 s2 c1 c2
  have : r = ((x.1, y.1), (x.2.1, y.2.1), (x.2.2, y.2.2)) := hr
  rw [this]
  simp only
  rw [sortComb_eq, if_pos hle]

end SeisMIC
