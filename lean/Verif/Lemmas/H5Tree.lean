import Verif.Model.H5Tree
import Verif.Lemmas.DbRead
import Verif.Lemmas.Strings
import Mathlib.Data.List.Lex
import Mathlib.Data.Char

/-! # Trees of groups and datasets -/

namespace SeisMIC

variable {α δ : Type}

theorem lookup_linkAt (c d : Str) (n : Node α) (l : List (Str × Node α)) :
    (linkAt c n l).lookup d = if d = c then some n else l.lookup d := by
  induction l with
  | nil =>
    by_cases h : d = c
    · simp [linkAt, h]
    · have : (d == c) = false := by simpa using h
      rw [linkAt, if_neg h, List.lookup_cons, this]
  | cons e l ih =>
    obtain ⟨k, v⟩ := e
    unfold linkAt
    by_cases h1 : k = c
    · subst h1
      by_cases h : d = k
      · simp [h]
      · have : (d == k) = false := by simpa using h
        simp [h, List.lookup_cons, this]
    · rw [if_neg h1]
      split
      · by_cases h : d = c
        · simp [h]
        · have : (d == c) = false := by simpa using h
          rw [if_neg h, List.lookup_cons, this]
      · rw [List.lookup_cons, ih]
        by_cases h : d = c
        · subst h
          have : (d == k) = false := by simpa using fun h => h1 h.symm
          simp [this]
        · rw [if_neg h, if_neg h, List.lookup_cons]

theorem node_lookup_filter (c d : Str) (l : List (Str × Node α)) :
    (l.filter fun e => e.1 ≠ c).lookup d = if d = c then none else l.lookup d := by
  induction l with
  | nil => simp
  | cons e l ih =>
    obtain ⟨k, v⟩ := e
    by_cases h1 : k = c
    · subst h1
      rw [List.filter_cons_of_neg (by simp), ih]
      by_cases h : d = k
      · simp [h]
      · have : (d == k) = false := by simpa using h
        rw [if_neg h, if_neg h, List.lookup_cons, this]
    · rw [List.filter_cons_of_pos (by simpa using h1), List.lookup_cons, ih, List.lookup_cons]
      by_cases h : d = c
      · subst h
        have : (d == k) = false := by simpa using fun h => h1 h.symm
        simp [this]
      · rw [if_neg h, if_neg h]

theorem get_nil (n : Node α) : n.get [] = some n := by cases n <;> rfl

theorem get_group_cons (l : List (Str × Node α)) (c : Str) (cs : List Str) :
    (Node.group l).get (c :: cs) = (l.lookup c).bind fun n => n.get cs := by
  simp only [Node.get]
  cases l.lookup c <;> rfl

theorem get_set_cons (a : α) (c : Str) (cs : List Str) : (Node.set a).get (c :: cs) = none := rfl

theorem get_append (n : Node α) (p q : List Str) : n.get (p ++ q) = (n.get p).bind fun m => m.get q := by
  induction p generalizing n with
  | nil => simp [get_nil]
  | cons c p ih =>
    cases n with
    | set a => simp [get_set_cons]
    | group l =>
      rw [List.cons_append, get_group_cons, get_group_cons]
      cases l.lookup c with
      | none => rfl
      | some m => simp only [Option.bind_some]; exact ih m

theorem get_chainTo (a : α) (p q : List Str) :
    (chainTo a p).get q =
      if q <+: p then some (chainTo a (p.drop q.length)) else none := by
  induction p generalizing q with
  | nil =>
    cases q with
    | nil => simp [get_nil]
    | cons c q => simp [chainTo, get_set_cons]
  | cons d p ih =>
    cases q with
    | nil => simp [get_nil]
    | cons c q =>
      rw [chainTo, get_group_cons, List.lookup_cons]
      by_cases h : c = d
      · subst h
        simp [ih, List.cons_prefix_cons]
      · have : (c == d) = false := by simpa using h
        simp [this, List.cons_prefix_cons, h]

/-- what `create_dataset` does to the objects at all places -/
theorem get_create (a : α) (t t' : Node α) (p : List Str) (h : t.create a p = .ok t') :
    t.get p = none ∧ t'.get p = some (.set a) ∧
    (∀ q, ¬ q <+: p → t'.get q = t.get q) ∧
    (∀ q, q <+: p → q ≠ p → ∃ l, t'.get q = some (.group l)) := by
  induction p generalizing t t' with
  | nil => cases t <;> simp [Node.create] at h
  | cons c p ih =>
    cases t with
    | set b => simp [Node.create] at h
    | group l =>
      simp only [Node.create] at h
      cases hc : l.lookup c with
      | some n =>
        rw [hc] at h
        simp only at h
        cases hn : n.create a p with
        | error e => rw [hn] at h; cases h
        | ok n' =>
          rw [hn] at h
          have h' : t' = .group (linkAt c n' l) := by cases h; rfl
          subst h'
          obtain ⟨h1, h2, h3, h4⟩ := ih n n' hn
          refine ⟨?_, ?_, ?_, ?_⟩
          · rw [get_group_cons, hc]; exact h1
          · rw [get_group_cons, lookup_linkAt, if_pos rfl]; exact h2
          · intro q hq
            cases q with
            | nil => exact absurd (List.nil_prefix) hq
            | cons d q =>
              rw [get_group_cons, get_group_cons, lookup_linkAt]
              by_cases hd : d = c
              · subst hd
                rw [if_pos rfl, hc]
                exact h3 q fun hh => hq (List.cons_prefix_cons.2 ⟨rfl, hh⟩)
              · rw [if_neg hd]
          · intro q hq hne
            cases q with
            | nil => exact ⟨_, get_nil _⟩
            | cons d q =>
              obtain ⟨rfl, hq1⟩ := List.cons_prefix_cons.1 hq
              rw [get_group_cons, lookup_linkAt, if_pos rfl]
              exact h4 q hq1 fun hh => hne (by rw [hh])
      | none =>
        rw [hc] at h
        have h' : t' = .group (linkAt c (chainTo a p) l) := by cases h; rfl
        subst h'
        refine ⟨?_, ?_, ?_, ?_⟩
        · rw [get_group_cons, hc]; rfl
        · rw [get_group_cons, lookup_linkAt, if_pos rfl]
          simp [get_chainTo, chainTo]
        · intro q hq
          cases q with
          | nil => exact absurd (List.nil_prefix) hq
          | cons d q =>
            rw [get_group_cons, get_group_cons, lookup_linkAt]
            by_cases hd : d = c
            · subst hd
              rw [if_pos rfl, hc]
              have : ¬ q <+: p := fun hh => hq (List.cons_prefix_cons.2 ⟨rfl, hh⟩)
              simp [get_chainTo, this]
            · rw [if_neg hd]
        · intro q hq hne
          cases q with
          | nil => exact ⟨_, get_nil _⟩
          | cons d q =>
            obtain ⟨rfl, hq1⟩ := List.cons_prefix_cons.1 hq
            rw [get_group_cons, lookup_linkAt, if_pos rfl]
            simp only [Option.bind_some, get_chainTo, hq1, if_true]
            obtain ⟨r, rfl⟩ := hq1
            cases r with
            | nil => simp at hne
            | cons x r => exact ⟨[(x, chainTo a r)], by simp [chainTo]⟩

/-- when `create_dataset` succeeds -/
theorem create_ok (a : α) (t : Node α) (p : List Str) (hp : t.get p = none)
    (hg : ∀ q b, q <+: p → t.get q ≠ some (.set b)) : ∃ t', t.create a p = .ok t' := by
  induction p generalizing t with
  | nil => rw [get_nil] at hp; cases hp
  | cons c p ih =>
    cases t with
    | set b => exact absurd (get_nil _) (hg [] b List.nil_prefix)
    | group l =>
      simp only [Node.create]
      rw [get_group_cons] at hp
      cases hc : l.lookup c with
      | none => exact ⟨_, rfl⟩
      | some n =>
        rw [hc] at hp
        obtain ⟨n', hn⟩ := ih n hp fun q b hq hh => hg (c :: q) b (List.cons_prefix_cons.2 ⟨rfl, hq⟩)
          (by rw [get_group_cons, hc]; exact hh)
        simp only [hn]
        exact ⟨_, rfl⟩

/-- `create_dataset` fails for an object that exists -/
theorem create_exists (a : α) (t n : Node α) (p : List Str) (hp : t.get p = some n) :
    ∃ e, t.create a p = .error e := by
  cases h : t.create a p with
  | error e => exact ⟨e, rfl⟩
  | ok t' => rw [(get_create a t t' p h).1] at hp; cases hp

/-- what `del` does to the objects at all places -/
theorem get_del (t t' : Node α) (p : List Str) (h : t.del p = .ok t') :
    p ≠ [] ∧ (t.get p).isSome ∧
    (∀ q, p <+: q → t'.get q = none) ∧
    (∀ q, ¬ p <+: q → ¬ q <+: p → t'.get q = t.get q) ∧
    (∀ q, q <+: p → q ≠ p → (∃ l, t.get q = some (.group l)) ∧ ∃ l, t'.get q = some (.group l)) := by
  induction p generalizing t t' with
  | nil => cases t <;> simp [Node.del] at h
  | cons c p ih =>
    refine ⟨by simp, ?_⟩
    cases t with
    | set b => simp [Node.del] at h
    | group l =>
      simp only [Node.del] at h
      cases hc : l.lookup c with
      | none => rw [hc] at h; cases h
      | some n =>
        rw [hc] at h
        cases p with
        | nil =>
          have h' : t' = .group (l.filter fun e => e.1 ≠ c) := by cases h; rfl
          subst h'
          refine ⟨?_, ?_, ?_, ?_⟩
          · rw [get_group_cons, hc]; simp [get_nil]
          · intro q hq
            obtain ⟨r, rfl⟩ := hq
            rw [List.cons_append, get_group_cons, node_lookup_filter]; simp
          · intro q h1 h2
            cases q with
            | nil => exact absurd List.nil_prefix h2
            | cons d q =>
              rw [get_group_cons, get_group_cons, node_lookup_filter, if_neg]
              intro hd
              subst hd
              exact h1 (List.cons_prefix_cons.2 ⟨rfl, List.nil_prefix⟩)
          · intro q hq hne
            cases q with
            | nil => exact ⟨⟨_, get_nil _⟩, ⟨_, get_nil _⟩⟩
            | cons d q =>
              obtain ⟨rfl, hq1⟩ := List.cons_prefix_cons.1 hq
              rw [List.prefix_nil.1 hq1] at hne
              simp at hne
        | cons c2 p =>
          simp only at h
          cases hn : n.del (c2 :: p) with
          | error e => rw [hn] at h; cases h
          | ok n' =>
            rw [hn] at h
            have h' : t' = .group (linkAt c n' l) := by cases h; rfl
            subst h'
            obtain ⟨_, h1, h2, h3, h4⟩ := ih n n' hn
            refine ⟨?_, ?_, ?_, ?_⟩
            · rw [get_group_cons, hc]; exact h1
            · intro q hq
              cases q with
              | nil => cases List.prefix_nil.1 hq
              | cons d q =>
                obtain ⟨rfl, hq1⟩ := List.cons_prefix_cons.1 hq
                rw [get_group_cons, lookup_linkAt, if_pos rfl]
                exact h2 q hq1
            · intro q hq hq'
              cases q with
              | nil => exact absurd List.nil_prefix hq'
              | cons d q =>
                rw [get_group_cons, get_group_cons, lookup_linkAt]
                by_cases hd : d = c
                · subst hd
                  rw [if_pos rfl, hc]
                  exact h3 q (fun hh => hq (List.cons_prefix_cons.2 ⟨rfl, hh⟩))
                    (fun hh => hq' (List.cons_prefix_cons.2 ⟨rfl, hh⟩))
                · rw [if_neg hd]
            · intro q hq hne
              cases q with
              | nil => exact ⟨⟨_, get_nil _⟩, ⟨_, get_nil _⟩⟩
              | cons d q =>
                obtain ⟨rfl, hq1⟩ := List.cons_prefix_cons.1 hq
                rw [get_group_cons, get_group_cons, lookup_linkAt, if_pos rfl, hc]
                exact h4 q hq1 fun hh => hne (by rw [hh])

/-- `del` succeeds for an object that exists below the root -/
theorem del_ok (t : Node α) (p : List Str) (hp : p ≠ []) (h : (t.get p).isSome) :
    ∃ t', t.del p = .ok t' := by
  induction p generalizing t with
  | nil => exact absurd rfl hp
  | cons c p ih =>
    cases t with
    | set b => simp [get_set_cons] at h
    | group l =>
      rw [get_group_cons] at h
      simp only [Node.del]
      cases hc : l.lookup c with
      | none => rw [hc] at h; simp at h
      | some n =>
        rw [hc] at h
        cases p with
        | nil => exact ⟨_, rfl⟩
        | cons c2 p =>
          obtain ⟨n', hn⟩ := ih n (by simp) h
          simp only [hn]
          exact ⟨_, rfl⟩

theorem del_missing (t : Node α) (p : List Str) (h : t.get p = none) : ∃ e, t.del p = .error e := by
  cases hd : t.del p with
  | error e => exact ⟨e, rfl⟩
  | ok t' => have := (get_del t t' p hd).2.1; rw [h] at this; cases this

/-! ## Order of the members -/

/-- the members of all groups are in the order of their names, each name once -/
inductive Node.Ordered : Node α → Prop
  | set (a : α) : Node.Ordered (.set a)
  | group (l : List (Str × Node α)) (hs : l.Pairwise fun a b => a.1 < b.1)
      (hc : ∀ e ∈ l, Node.Ordered e.2) : Node.Ordered (.group l)

theorem ordered_chainTo (a : α) (p : List Str) : (chainTo a p).Ordered := by
  induction p with
  | nil => exact .set a
  | cons c p ih => exact .group _ (List.pairwise_singleton _ _) (by simpa using ih)

theorem mem_linkAt (c : Str) (n : Node α) (l : List (Str × Node α)) (e : Str × Node α)
    (h : e ∈ linkAt c n l) : e = (c, n) ∨ e ∈ l := by
  induction l with
  | nil => simpa [linkAt] using h
  | cons x l ih =>
    unfold linkAt at h
    split at h
    · rw [List.mem_cons] at h; grind
    · split at h
      · rw [List.mem_cons] at h; exact h
      · rw [List.mem_cons] at h
        rcases h with h | h
        · right; simp [h]
        · rcases ih h with h | h
          · left; exact h
          · right; simp [h]

theorem sorted_linkAt (c : Str) (n : Node α) (l : List (Str × Node α))
    (hs : l.Pairwise fun a b => a.1 < b.1) : (linkAt c n l).Pairwise fun a b => a.1 < b.1 := by
  induction l with
  | nil => exact List.pairwise_singleton _ _
  | cons x l ih =>
    rw [List.pairwise_cons] at hs
    unfold linkAt
    split
    · rename_i h
      rw [List.pairwise_cons]
      exact ⟨fun e he => by have := hs.1 e he; rw [h] at this; exact this, hs.2⟩
    · rename_i h
      split
      · rename_i hle
        rw [strLe_iff] at hle
        have hlt : c < x.1 := lt_of_le_of_ne (not_lt.1 (List.not_lt.2 hle)) (Ne.symm h)
        rw [List.pairwise_cons, List.pairwise_cons]
        refine ⟨fun e he => ?_, hs.1, hs.2⟩
        rw [List.mem_cons] at he
        rcases he with rfl | he
        · exact hlt
        · exact lt_trans hlt (hs.1 e he)
      · rename_i hle
        rw [strLe_iff] at hle
        have hlt : x.1 < c := List.not_le.1 hle
        rw [List.pairwise_cons]
        refine ⟨fun e he => ?_, ih hs.2⟩
        rcases mem_linkAt c n l e he with rfl | he
        · exact hlt
        · exact hs.1 e he

theorem node_mem_of_lookup (l : List (Str × Node α)) (c : Str) (n : Node α) (h : l.lookup c = some n) :
    (c, n) ∈ l := by
  induction l with
  | nil => simp at h
  | cons e l ih =>
    obtain ⟨k, v⟩ := e
    rw [List.lookup_cons] at h
    by_cases hk : c = k
    · subst hk; simp at h; simp [h]
    · have : (c == k) = false := by simpa using hk
      rw [this] at h
      simp [ih h]

theorem node_lookup_of_mem (l : List (Str × Node α)) (hs : l.Pairwise fun a b => a.1 < b.1) (c : Str)
    (n : Node α) (h : (c, n) ∈ l) : l.lookup c = some n := by
  induction l with
  | nil => simp at h
  | cons e l ih =>
    obtain ⟨k, v⟩ := e
    rw [List.pairwise_cons] at hs
    rw [List.lookup_cons]
    rw [List.mem_cons] at h
    rcases h with h | h
    · cases h; simp
    · have hlt : k < c := hs.1 _ h
      have : (c == k) = false := by simpa using ne_of_gt hlt
      rw [this]
      exact ih hs.2 h

theorem ordered_create (a : α) (t t' : Node α) (p : List Str) (ht : t.Ordered)
    (h : t.create a p = .ok t') : t'.Ordered := by
  induction p generalizing t t' with
  | nil => cases t <;> simp [Node.create] at h
  | cons c p ih =>
    cases ht with
    | set b => simp [Node.create] at h
    | group l hs hc =>
      simp only [Node.create] at h
      cases hl : l.lookup c with
      | some n =>
        rw [hl] at h
        simp only at h
        cases hn : n.create a p with
        | error e => rw [hn] at h; cases h
        | ok n' =>
          rw [hn] at h
          have h' : t' = .group (linkAt c n' l) := by cases h; rfl
          subst h'
          refine .group _ (sorted_linkAt _ _ _ hs) fun e he => ?_
          rcases mem_linkAt _ _ _ _ he with rfl | he
          · exact ih n n' (hc _ (node_mem_of_lookup _ _ _ hl)) hn
          · exact hc e he
      | none =>
        rw [hl] at h
        have h' : t' = .group (linkAt c (chainTo a p) l) := by cases h; rfl
        subst h'
        refine .group _ (sorted_linkAt _ _ _ hs) fun e he => ?_
        rcases mem_linkAt _ _ _ _ he with rfl | he
        · exact ordered_chainTo a p
        · exact hc e he

theorem ordered_del (t t' : Node α) (p : List Str) (ht : t.Ordered) (h : t.del p = .ok t') :
    t'.Ordered := by
  induction p generalizing t t' with
  | nil => cases t <;> simp [Node.del] at h
  | cons c p ih =>
    cases ht with
    | set b => simp [Node.del] at h
    | group l hs hc =>
      simp only [Node.del] at h
      cases hl : l.lookup c with
      | none => rw [hl] at h; cases h
      | some n =>
        rw [hl] at h
        cases p with
        | nil =>
          have h' : t' = .group (l.filter fun e => e.1 ≠ c) := by cases h; rfl
          subst h'
          exact .group _ (hs.filter _) fun e he => hc e (List.mem_filter.1 he).1
        | cons c2 p =>
          simp only at h
          cases hn : n.del (c2 :: p) with
          | error e => rw [hn] at h; cases h
          | ok n' =>
            rw [hn] at h
            have h' : t' = .group (linkAt c n' l) := by cases h; rfl
            subst h'
            refine .group _ (sorted_linkAt _ _ _ hs) fun e he => ?_
            rcases mem_linkAt _ _ _ _ he with rfl | he
            · exact ih n n' (hc _ (node_mem_of_lookup _ _ _ hl)) hn
            · exact hc e he

theorem ordered_get (t n : Node α) (p : List Str) (ht : t.Ordered) (h : t.get p = some n) :
    n.Ordered := by
  induction p generalizing t with
  | nil => rw [get_nil] at h; cases h; exact ht
  | cons c p ih =>
    cases ht with
    | set b => cases h
    | group l hs hc =>
      rw [get_group_cons] at h
      cases hl : l.lookup c with
      | none => rw [hl] at h; cases h
      | some m =>
        rw [hl] at h
        exact ih m (hc _ (node_mem_of_lookup _ _ _ hl)) h

/-! ## Traversal -/

theorem visitLinks_eq (m : Str → Bool) (pre : List Str) (l : List (Str × Node α)) :
    visitLinks m pre l = l.flatMap fun e => e.2.visit m (pre ++ [e.1]) := by
  induction l with
  | nil => simp [visitLinks]
  | cons e l ih => obtain ⟨c, n⟩ := e; simp [visitLinks, ih]

/-- a traversal yields the datasets whose names pass the test -/
theorem mem_visit (m : Str → Bool) (n : Node α) (hn : n.Ordered) (pre q : List Str) (a : α) :
    (q, a) ∈ n.visit m pre ↔ ∃ r, q = pre ++ r ∧ n.get r = some (.set a) ∧ m (slashPath q) = true := by
  induction hn generalizing pre q with
  | set b =>
    rw [Node.visit]
    constructor
    · intro h
      split at h
      · rename_i hm
        simp at h
        refine ⟨[], by simp [h.1], ?_, by rw [h.1]; exact hm⟩
        rw [get_nil, h.2]
      · simp at h
    · rintro ⟨r, rfl, hr, hm⟩
      cases r with
      | nil =>
        rw [get_nil] at hr
        cases hr
        rw [List.append_nil] at hm ⊢
        simp [hm]
      | cons c r => cases hr
  | group l hs hc ih =>
    rw [Node.visit, visitLinks_eq, List.mem_flatMap]
    constructor
    · rintro ⟨e, he, h⟩
      obtain ⟨r, rfl, hr, hm⟩ := (ih e he _ _).1 h
      refine ⟨e.1 :: r, by simp, ?_, hm⟩
      rw [get_group_cons, node_lookup_of_mem l hs e.1 e.2 he]
      exact hr
    · rintro ⟨r, rfl, hr, hm⟩
      cases r with
      | nil => rw [get_nil] at hr; cases hr
      | cons c r =>
        rw [get_group_cons] at hr
        cases hl : l.lookup c with
        | none => rw [hl] at hr; cases hr
        | some k =>
          rw [hl] at hr
          have hmem := node_mem_of_lookup _ _ _ hl
          refine ⟨(c, k), hmem, (ih _ hmem _ _).2 ⟨r, by simp, hr, hm⟩⟩

theorem append_lt_iff (pre x y : List Str) : pre ++ x < pre ++ y ↔ x < y := by
  induction pre with
  | nil => rfl
  | cons c pre ih => rw [List.cons_append, List.cons_append, List.cons_lt_cons_iff, ih]; simp

/-- a traversal yields the datasets in the order of their places -/
theorem visit_sorted (m : Str → Bool) (n : Node α) (hn : n.Ordered) (pre : List Str) :
    (n.visit m pre).Pairwise fun a b => a.1 < b.1 := by
  induction hn generalizing pre with
  | set b => rw [Node.visit]; split <;> simp
  | group l hs hc ih =>
    rw [Node.visit, visitLinks_eq, List.pairwise_flatMap]
    refine ⟨fun e he => ih e he _, ?_⟩
    refine hs.imp_of_mem ?_
    intro e e' he he' hlt x hx y hy
    obtain ⟨r, h1, -, -⟩ := (mem_visit m e.2 (hc e he) _ x.1 x.2).1 hx
    obtain ⟨r', h2, -, -⟩ := (mem_visit m e'.2 (hc e' he') _ y.1 y.2).1 hy
    rw [h1, h2, List.append_assoc, List.append_assoc, append_lt_iff]
    exact List.cons_lt_cons_iff.2 (Or.inl hlt)

/-- two lists in strict order with the same entries are equal -/
theorem eq_of_sorted {β : Type} (l l' : List (List Str × β))
    (h : l.Pairwise fun a b => a.1 < b.1) (h' : l'.Pairwise fun a b => a.1 < b.1)
    (hm : ∀ e, e ∈ l ↔ e ∈ l') : l = l' := by
  have nd : ∀ {k : List (List Str × β)}, (k.Pairwise fun a b => a.1 < b.1) → k.Nodup := by
    intro k hk
    exact hk.imp fun {a b} hab he => by rw [he] at hab; exact lt_irrefl _ hab
  have hp : l.Perm l' := (List.perm_ext_iff_of_nodup (nd h) (nd h')).2 hm
  refine hp.eq_of_pairwise (le := fun a b => a.1 < b.1) ?_ h h'
  intro a b _ _ h1 h2
  exact absurd (lt_trans h1 h2) (lt_irrefl _)

end SeisMIC
