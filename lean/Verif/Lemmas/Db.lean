import Verif.Spec.Db
import Verif.Lemmas.Strings
import Verif.Lemmas.ListAux

namespace SeisMIC

variable {δ : Type}

/-! ### lexicographic order -/

theorem cons_le_cons (a b : Char) (x y : Str) : a :: x ≤ b :: y ↔ a < b ∨ (a = b ∧ x ≤ y) := by
  rw [List.cons_le_cons_iff]

theorem append_le_append (l1 l2 x y : Str) (h : l1.length = l2.length) :
    l1 ++ x ≤ l2 ++ y ↔ l1 < l2 ∨ (l1 = l2 ∧ x ≤ y) := by
  induction l1 generalizing l2 with
  | nil =>
    have : l2 = [] := List.length_eq_zero_iff.1 (by simpa using h.symm)
    subst this
    simp
  | cons a l1 ih =>
    cases l2 with
    | nil => simp at h
    | cons b l2 =>
      have h' : l1.length = l2.length := by simpa using h
      rw [List.cons_append, List.cons_append, cons_le_cons, ih l2 h', List.cons_lt_cons_iff]
      grind

/-! ### add -/

theorem any_key_iff (l : List (HPath × δ)) (p : HPath) :
    l.any (fun e => e.1 == p) = true ↔ (l.lookup p).isSome = true := by
  induction l with
  | nil => simp
  | cons e l ih =>
    obtain ⟨k, v⟩ := e
    simp only [List.any_cons, List.lookup_cons]
    by_cases h : k = p
    · subst h; simp
    · have h1 : (k == p) = false := by simpa using h
      have h2 : (p == k) = false := by simpa using Ne.symm h
      simp [h1, h2, ih]

theorem lookup_append_single (l : List (HPath × δ)) (p q : HPath) (d : δ) :
    (l ++ [(p, d)]).lookup q = (l.lookup q).or (if q = p then some d else none) := by
  rw [List.lookup_append]
  congr 1
  simp only [List.lookup_cons, List.lookup_nil]
  by_cases h : q = p
  · simp [h]
  · have : (q == p) = false := by simpa using h
    simp [h, this]

theorem lookup_addOne (f : H5 δ) (p q : HPath) (d : δ) :
    (f.addOne p d).lookup q = (f.lookup q).or (if q = p then some d else none) := by
  unfold H5.addOne H5.lookup
  by_cases h : f.sets.any (fun e => e.1 == p) = true
  · rw [if_pos h]
    by_cases hq : q = p
    · subst hq
      have := (any_key_iff _ _).1 h
      obtain ⟨v, hv⟩ := Option.isSome_iff_exists.1 this
      simp [hv]
    · simp [hq]
  · rw [if_neg h]
    simp only [lookup_append_single]

theorem lookup_add (f : H5 δ) (l : List (HPath × δ)) (q : HPath) :
    (f.add l).lookup q = (f.lookup q).or (l.lookup q) := by
  unfold H5.add
  induction l generalizing f with
  | nil => simp
  | cons e l ih =>
    obtain ⟨p, d⟩ := e
    rw [List.foldl_cons, ih, lookup_addOne]
    simp only [List.lookup_cons]
    by_cases h : q = p
    · subst h; cases h' : f.lookup q <;> simp
    · have : (q == p) = false := by simpa using h
      simp [h, this]

/-! ### paths -/

theorem noWild_iff (s : Str) : noWild s = true ↔ '*' ∉ s ∧ '?' ∉ s := by
  simp [noWild]

theorem mem_slashPath (l : List Str) (c : Char) :
    c ∈ slashPath l ↔ (c = '/' ∧ l ≠ []) ∨ ∃ x ∈ l, c ∈ x := by
  induction l with
  | nil => simp [slashPath]
  | cons x l ih =>
    simp only [slashPath, List.cons_append, List.mem_cons, List.mem_append, ih]
    grind

theorem noWild_str (p : HPath) :
    noWild p.str = true ↔ ∀ x ∈ p.comps, '*' ∉ x ∧ '?' ∉ x := by
  rw [noWild_iff]
  unfold HPath.str
  rw [mem_slashPath, mem_slashPath]
  have h1 : ('*' : Char) ≠ '/' := by decide
  have h2 : ('?' : Char) ≠ '/' := by decide
  simp only [h1, h2, false_and, false_or, not_exists, not_and]
  constructor
  · rintro ⟨a, b⟩ x hx; exact ⟨a x hx, b x hx⟩
  · intro h; exact ⟨fun x hx => (h x hx).1, fun x hx => (h x hx).2⟩

/-! ### request sorting -/

theorem dottedCodes_pair (n1 s1 c1 n2 s2 c2 : Str) (h : ∀ x ∈ [n1, s1, c1, n2, s2, c2], NoSep x) :
    dottedCodes (n1 ++ '-' :: n2) (s1 ++ '-' :: s2) (c1 ++ '-' :: c2) =
      [n1 ++ '.' :: (s1 ++ '.' :: c1), n2 ++ '.' :: (s2 ++ '.' :: c2)] := by
  have hn1 := (h n1 (by simp)).1
  have hn2 := (h n2 (by simp)).1
  have hs1 := (h s1 (by simp)).1
  have hs2 := (h s2 (by simp)).1
  have hc1 := (h c1 (by simp)).1
  have hc2 := (h c2 (by simp)).1
  unfold dottedCodes
  rw [splitOn_append _ _ _ hn1, splitOn_append _ _ _ hs1, splitOn_append _ _ _ hc1,
    splitOn_eq_single _ _ hn2, splitOn_eq_single _ _ hs2, splitOn_eq_single _ _ hc2]
  simp [joinWith]

theorem sortRequest_pair (n1 s1 c1 n2 s2 c2 : Str) (h : ∀ x ∈ [n1, s1, c1, n2, s2, c2], NoSep x) :
    sortRequest (n1 ++ '-' :: n2) (s1 ++ '-' :: s2) (c1 ++ '-' :: c2) =
      .ok (requestCodes n1 s1 c1 n2 s2 c2) := by
  unfold sortRequest requestCodes dotName
  rw [dottedCodes_pair n1 s1 c1 n2 s2 c2 h]
  simp only [isort_pair]
  have hn1 := (h n1 (by simp)).2
  have hn2 := (h n2 (by simp)).2
  have hs1 := (h s1 (by simp)).2
  have hs2 := (h s2 (by simp)).2
  have hc1 := (h c1 (by simp)).2
  have hc2 := (h c2 (by simp)).2
  by_cases hle : n1 ++ '.' :: (s1 ++ '.' :: c1) ≤ n2 ++ '.' :: (s2 ++ '.' :: c2)
  · rw [if_pos (strLe_iff.2 hle), if_pos hle]; simp
  · rw [if_neg (mt strLe_iff.1 hle), if_neg hle]
    have hne : ([n2 ++ '.' :: (s2 ++ '.' :: c2), n1 ++ '.' :: (s1 ++ '.' :: c1)] : List Str) ≠
        [n1 ++ '.' :: (s1 ++ '.' :: c1), n2 ++ '.' :: (s2 ++ '.' :: c2)] := by
      intro e
      have e1 := (List.cons.inj e).1
      exact hle (e1 ▸ List.le_refl _)
    simp only [hne, ne_eq, not_false_eq_true, if_true]
    rw [splitOn_append _ _ _ hn1, splitOn_append _ _ _ hs1, splitOn_eq_single _ _ hc1,
      splitOn_append _ _ _ hn2, splitOn_append _ _ _ hs2, splitOn_eq_single _ _ hc2]
    simp [joinWith]

theorem SaneCode.noSep {s : Str} (h : SaneCode s) : NoSep s := ⟨h.2.1, h.2.2.1⟩

theorem requestCodes_swap (n1 s1 c1 n2 s2 c2 : Str) (h : ∀ x ∈ [n1, s1, c1, n2, s2, c2], NoSep x) :
    requestCodes n2 s2 c2 n1 s1 c1 = requestCodes n1 s1 c1 n2 s2 c2 := by
  unfold requestCodes
  by_cases h1 : dotName n1 s1 c1 ≤ dotName n2 s2 c2
  · by_cases h2 : dotName n2 s2 c2 ≤ dotName n1 s1 c1
    · have e := List.le_antisymm h1 h2
      unfold dotName at e
      have e1 := congrArg (splitOn '.') e
      rw [splitOn_append _ _ _ (h n1 (by simp)).2, splitOn_append _ _ _ (h n2 (by simp)).2,
        splitOn_append _ _ _ (h s1 (by simp)).2, splitOn_append _ _ _ (h s2 (by simp)).2,
        splitOn_eq_single _ _ (h c1 (by simp)).2, splitOn_eq_single _ _ (h c2 (by simp)).2] at e1
      simp at e1
      obtain ⟨rfl, rfl, rfl⟩ := e1
      rfl
    · rw [if_pos h1, if_neg h2]
  · rw [if_neg h1, if_pos ((List.le_total _ _).resolve_left h1)]

/-! ### path strings -/

theorem pathComps_cons (x : Str) (l : List Str) (hx : x ≠ []) (hs : '/' ∉ x) :
    pathComps ('/' :: x ++ slashPath l) = x :: pathComps (slashPath l) := by
  unfold pathComps
  have : splitOn '/' ('/' :: x ++ slashPath l) = [] :: splitOn '/' (x ++ slashPath l) := by
    simp [splitOn]
  rw [this]
  cases l with
  | nil => simp [slashPath, splitOn_eq_single _ _ hs, splitOn, hx]
  | cons y l =>
    simp only [slashPath, List.cons_append]
    rw [splitOn_append _ _ _ hs]
    simp [splitOn, hx]

theorem pathComps_slashPath (l : List Str) (h : ∀ x ∈ l, x ≠ [] ∧ '/' ∉ x) :
    pathComps (slashPath l) = l := by
  induction l with
  | nil => rfl
  | cons x l ih =>
    have := h x (by simp)
    rw [slashPath, pathComps_cons x l this.1 this.2, ih (fun y hy => h y (by simp [hy]))]

theorem pathComps_slashPath_slash (l : List Str) (h : ∀ x ∈ l, x ≠ [] ∧ '/' ∉ x) :
    pathComps (slashPath l ++ ['/']) = l := by
  induction l with
  | nil => rfl
  | cons x l ih =>
    have hx := h x (by simp)
    have ih := ih (fun y hy => h y (by simp [hy]))
    unfold pathComps at ih ⊢
    have e : splitOn '/' (slashPath (x :: l) ++ ['/']) = [] :: splitOn '/' (x ++ (slashPath l ++ ['/'])) := by
      simp [slashPath, splitOn]
    rw [e]
    cases l with
    | nil =>
      simp only [slashPath, List.nil_append]
      rw [splitOn_append _ _ _ hx.2]
      simp [splitOn, hx.1]
    | cons y l =>
      have e2 : slashPath (y :: l) ++ ['/'] = '/' :: (y ++ slashPath l ++ ['/']) := by simp [slashPath]
      rw [e2] at ih ⊢
      rw [splitOn_append _ _ _ hx.2]
      have e3 : splitOn '/' ('/' :: (y ++ slashPath l ++ ['/'])) = [] :: splitOn '/' (y ++ slashPath l ++ ['/']) := by
        simp [splitOn]
      rw [e3] at ih
      simp [hx.1] at ih ⊢
      exact ih

theorem slashPath_append (l m : List Str) : slashPath (l ++ m) = slashPath l ++ slashPath m := by
  induction l with
  | nil => rfl
  | cons x l ih => simp [slashPath, ih]

theorem stripSlashStar_noStar (s : Str) (h : '*' ∉ s) : stripSlashStar s = s := by
  unfold stripSlashStar
  have : stripSlashStarRev s.reverse = s.reverse := by
    have h' : '*' ∉ s.reverse := by simpa using h
    unfold stripSlashStarRev
    split
    · rename_i e; rw [e] at h'; simp at h'
    · rfl
  rw [this]; simp

theorem stripSlashStar_slashStar (s : Str) : stripSlashStar (s ++ ['/', '*']) = stripSlashStar s := by
  unfold stripSlashStar
  simp [stripSlashStarRev]

theorem replaceQuestion_id (s : Str) (h : '?' ∉ s) : replaceQuestion s = s := by
  unfold replaceQuestion
  conv => rhs; rw [← List.map_id s]
  apply List.map_congr_left
  intro c hc
  by_cases e : c = '?'
  · subst e; exact absurd hc h
  · simp [e]

theorem replaceSlashStar_noStar_append (s t : Str) (h : '*' ∉ s) (ht : t.head? ≠ some '*') :
    replaceSlashStar (s ++ t) = s ++ replaceSlashStar t := by
  induction s with
  | nil => rfl
  | cons c s ih =>
    have hs : '*' ∉ s := fun e => h (by simp [e])
    rw [List.cons_append, replaceSlashStar.eq_2, ih hs]
    · rfl
    · intro s' e1 e2
      cases s with
      | nil => simp at e2; rw [e2] at ht; simp at ht
      | cons d s => simp at e2; apply h; simp [e2.1]

theorem replaceSlashStar_id (s : Str) (h : '*' ∉ s) : replaceSlashStar s = s := by
  have := replaceSlashStar_noStar_append s [] h (by simp)
  simpa [replaceSlashStar] using this

theorem replaceSlashStar_mid (s t : Str) (h : '*' ∉ s) :
    replaceSlashStar (s ++ '/' :: '*' :: t) = s ++ '*' :: replaceSlashStar t := by
  rw [replaceSlashStar_noStar_append s _ h (by simp)]
  simp [replaceSlashStar]

theorem isPrefixOf5 (a b c d e : Str) (p : HPath) :
    [a, b, c, d, e].isPrefixOf p.comps = true ↔
      p.tag = a ∧ p.net = b ∧ p.sta = c ∧ p.cha = d ∧ p.cst = e := by
  simp [HPath.comps, List.isPrefixOf]; grind

theorem isPrefixOf4 (a b c d : Str) (p : HPath) :
    [a, b, c, d].isPrefixOf p.comps = true ↔
      p.tag = a ∧ p.net = b ∧ p.sta = c ∧ p.cha = d := by
  simp [HPath.comps, List.isPrefixOf]; grind

end SeisMIC
