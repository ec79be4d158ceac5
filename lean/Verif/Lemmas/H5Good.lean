import Verif.Lemmas.H5Tree
import Verif.Spec.History
import Verif.Props.Db

/-! # Correlation databases as trees: invariants of histories -/

namespace SeisMIC

variable {α δ : Type}

/-! ## all operations keep the order -/

theorem ordered_addOne (t : H5Tree δ) (ht : t.Ordered) (p : HPath) (d : δ) : (t.addOne p d).Ordered := by
  unfold H5Tree.addOne
  split
  · rename_i t' h; exact ordered_create _ _ _ _ ht h
  · exact ht

theorem ordered_add (t : H5Tree δ) (ht : t.Ordered) (l : List (HPath × δ)) : (t.add l).Ordered := by
  unfold H5Tree.add
  induction l generalizing t with
  | nil => exact ht
  | cons e l ih => exact ih _ (ordered_addOne t ht e.1 e.2)

theorem ordered_delFold (m : Str → Bool) (path : Str → List Str) (l : List Str) (t t' : H5Tree δ)
    (ht : t.Ordered)
    (h : l.foldlM (fun (t : H5Tree δ) x => if m x then t.del (path x) else pure t) t = .ok t') :
    t'.Ordered := by
  induction l generalizing t with
  | nil => cases h; exact ht
  | cons x l ih =>
    rw [List.foldlM_cons] at h
    by_cases hm : m x = true
    · simp only [hm, if_true] at h
      cases hd : t.del (path x) with
      | error e => rw [hd] at h; cases h
      | ok t1 => rw [hd] at h; exact ih t1 (ordered_del _ _ _ ht hd) h
    · simp only [hm] at h
      exact ih t ht h

theorem ordered_removeData (t t' : H5Tree δ) (ht : t.Ordered) (net sta cha tag cst : Str)
    (h : t.removeData net sta cha tag cst = .ok t') : t'.Ordered := by
  unfold H5Tree.removeData at h
  split at h
  · cases h
  · cases hs : sortRequest net sta cha with
    | error e => rw [hs] at h; cases h
    | ok r =>
      rw [hs] at h
      obtain ⟨n, s, c⟩ := r
      simp only [bind, Except.bind, pure, Except.pure] at h
      split at h
      · split at h
        · rename_i t1 hd; cases h; exact ordered_del _ _ _ ht hd
        · cases h; exact ht
      · split at h
        · cases h
        · split at h
          · cases h
          · exact ordered_delFold _ _ _ _ _ ht h

theorem ordered_step (t : H5Tree δ) (ht : t.Ordered) (s : DbStep δ) : (t.step s).Ordered := by
  cases s with
  | options =>
    unfold H5Tree.step
    simp only
    split
    · rename_i t' h; exact ordered_create _ _ _ _ ht h
    · exact ht
  | add l => exact ordered_add t ht l
  | remove n1 s1 c1 n2 s2 c2 tag cst =>
    unfold H5Tree.step
    simp only
    split
    · rename_i t' h; exact ordered_removeData _ _ ht _ _ _ _ _ h
    · exact ht

theorem ordered_run (h : List (DbStep δ)) : (H5Tree.run h).Ordered := by
  unfold H5Tree.run
  have : ∀ t : H5Tree δ, t.Ordered → (h.foldl H5Tree.step t).Ordered := by
    induction h with
    | nil => exact fun t ht => ht
    | cons s h ih => exact fun t ht => ih _ (ordered_step t ht s)
  exact this _ (.group [] List.Pairwise.nil (by simp))

/-! ## places of groups and datasets -/

/-- where groups and datasets are in a file -/
structure Good (t : H5Tree δ) : Prop where
  ordered : t.Ordered
  root : ∃ l, t = .group l
  set : ∀ q a, t.get q = some (.set a) →
    (q = [c!"co"] ∧ a = none) ∨ ∃ p d, q = HPath.comps p ∧ SanePlace p ∧ a = some d
  group : ∀ q l, t.get q = some (.group l) → q.length < 6 ∧ q.head? ≠ some c!"co"
  names : ∀ q, (t.get q).isSome → ∀ x ∈ q, SaneName x
  times : ∀ q l, q.length = 5 → t.get q = some (.group l) → ∃ r a, t.get (q ++ r) = some (.set a)

theorem good_empty : Good (H5Tree.empty : H5Tree δ) where
  ordered := .group [] List.Pairwise.nil (by simp)
  root := ⟨[], rfl⟩
  set := by
    intro q a h
    cases q with
    | nil => rw [H5Tree.empty, get_nil] at h; cases h
    | cons c q => rw [H5Tree.empty, get_group_cons] at h; cases h
  group := by
    intro q l h
    cases q with
    | nil => simp
    | cons c q => rw [H5Tree.empty, get_group_cons] at h; cases h
  names := by
    intro q h
    cases q with
    | nil => simp
    | cons c q => rw [H5Tree.empty, get_group_cons] at h; cases h
  times := by
    intro q l hq h
    cases q with
    | nil => simp at hq
    | cons c q => rw [H5Tree.empty, get_group_cons] at h; cases h

theorem comps_length (p : HPath) : p.comps.length = 6 := rfl

theorem comps_inj {p q : HPath} (h : p.comps = q.comps) : p = q := by
  cases p; cases q; simp [HPath.comps] at h; simp [h]

theorem pathComps_str (p : HPath) (h : SanePlace p) : pathComps p.str = p.comps :=
  pathComps_slashPath _ fun x hx => ⟨(h.1 x hx).1, (h.1 x hx).2.1⟩

/-- a dataset below a group of the right depth -/
theorem Good.prefix_set {t : H5Tree δ} (ht : Good t) {q p : List Str} {a : Option δ}
    (h : t.get q = some (.set a)) (hq : q <+: p) (hp : p.head? ≠ some c!"co") (hl : p.length ≤ 6) :
    q = p := by
  rcases ht.set q a h with ⟨rfl, -⟩ | ⟨p', d, rfl, -, -⟩
  · obtain ⟨r, rfl⟩ := hq
    simp at hp
  · exact hq.eq_of_length_le (by rw [comps_length]; exact hl)

theorem good_create (t t' : H5Tree δ) (ht : Good t) (p : HPath) (hp : SanePlace p) (d : δ)
    (h : t.create (some d) p.comps = .ok t') :
    Good t' ∧ ∀ q a, t'.get q = some (.set a) ↔
      t.get q = some (.set a) ∨ (q = p.comps ∧ a = some d) := by
  obtain ⟨h1, h2, h3, h4⟩ := get_create _ _ _ _ h
  have key : ∀ q a, t'.get q = some (.set a) ↔
      t.get q = some (.set a) ∨ (q = p.comps ∧ a = some d) := by
    intro q a
    by_cases hq : q <+: p.comps
    · by_cases he : q = p.comps
      · subst he
        rw [h2, h1]
        constructor
        · intro e; cases e; exact Or.inr ⟨rfl, rfl⟩
        · rintro (e | ⟨_, rfl⟩)
          · cases e
          · rfl
      · obtain ⟨l, hl⟩ := h4 q hq he
        rw [hl]
        constructor
        · intro e; cases e
        · rintro (e | ⟨e, _⟩)
          · exact absurd (ht.prefix_set e hq (by simp [HPath.comps, hp.2]) (by simp [comps_length])) he
          · exact absurd e he
    · rw [h3 q hq]
      constructor
      · exact Or.inl
      · rintro (e | ⟨rfl, _⟩)
        · exact e
        · exact absurd List.prefix_rfl hq
  refine ⟨⟨ordered_create _ _ _ _ ht.ordered h, ?_, ?_, ?_, ?_, ?_⟩, key⟩
  · obtain ⟨l, hl⟩ := h4 [] List.nil_prefix (by simp [HPath.comps])
    rw [get_nil] at hl
    exact ⟨l, by cases hl; rfl⟩
  · intro q a hq
    rcases (key q a).1 hq with e | ⟨rfl, rfl⟩
    · exact ht.set q a e
    · exact Or.inr ⟨p, d, rfl, hp, rfl⟩
  · intro q l hq
    by_cases hqp : q <+: p.comps
    · by_cases he : q = p.comps
      · subst he; rw [h2] at hq; cases hq
      · constructor
        · have := hqp.length_le
          rw [comps_length] at this
          refine lt_of_le_of_ne this fun e => he (hqp.eq_of_length (by rw [e, comps_length]))
        · obtain ⟨r, hr⟩ := hqp
          cases q with
          | nil => simp
          | cons c q =>
            simp [HPath.comps] at hr
            simp [hr.1, hp.2]
    · rw [h3 q hqp] at hq; exact ht.group q l hq
  · intro q hq
    by_cases hqp : q <+: p.comps
    · exact fun x hx => hp.1 x (hqp.subset hx)
    · rw [h3 q hqp] at hq; exact ht.names q hq
  · intro q l hlen hq
    by_cases hqp : q <+: p.comps
    · obtain ⟨r, hr⟩ := hqp
      exact ⟨r, some d, by rw [hr]; exact h2⟩
    · rw [h3 q hqp] at hq
      obtain ⟨r, a, hr⟩ := ht.times q l hlen hq
      exact ⟨r, a, (key _ _).2 (Or.inl hr)⟩

theorem good_options (t t' : H5Tree δ) (ht : Good t) (h : t.addOptions = .ok t') :
    Good t' ∧ ∀ q d, t'.get q = some (.set (some d)) ↔ t.get q = some (.set (some d)) := by
  unfold H5Tree.addOptions at h
  obtain ⟨h1, h2, h3, h4⟩ := get_create _ _ _ _ h
  have hpre : ∀ q, q <+: [c!"co"] → q = [] ∨ q = [c!"co"] := by
    intro q hq
    cases q with
    | nil => exact Or.inl rfl
    | cons c q =>
      obtain ⟨h1, h2⟩ := List.cons_prefix_cons.1 hq
      rw [List.prefix_nil.1 h2, h1]; exact Or.inr rfl
  have hroot : ∃ l, t'.get [] = some (.group l) := h4 [] List.nil_prefix (by simp)
  have hroot' : ∃ l, t.get [] = some (.group l) := by
    obtain ⟨l, hl⟩ := ht.root; exact ⟨l, by rw [get_nil, hl]⟩
  refine ⟨⟨ordered_create _ _ _ _ ht.ordered h, ?_, ?_, ?_, ?_, ?_⟩, ?_⟩
  · obtain ⟨l, hl⟩ := hroot
    rw [get_nil] at hl
    exact ⟨l, by cases hl; rfl⟩
  · intro q a hq
    by_cases hqp : q <+: [c!"co"]
    · rcases hpre q hqp with rfl | rfl
      · obtain ⟨l, hl⟩ := hroot; rw [hl] at hq; cases hq
      · rw [h2] at hq; cases hq; exact Or.inl ⟨rfl, rfl⟩
    · rw [h3 q hqp] at hq; exact ht.set q a hq
  · intro q l hq
    by_cases hqp : q <+: [c!"co"]
    · rcases hpre q hqp with rfl | rfl
      · simp
      · rw [h2] at hq; cases hq
    · rw [h3 q hqp] at hq; exact ht.group q l hq
  · intro q hq
    by_cases hqp : q <+: [c!"co"]
    · intro x hx
      have := hqp.subset hx
      rw [List.mem_singleton] at this
      subst this
      decide
    · rw [h3 q hqp] at hq; exact ht.names q hq
  · intro q l hlen hq
    have hlong : ∀ r, ¬ (q ++ r) <+: [c!"co"] := by
      intro r hh
      have := hh.length_le
      rw [List.length_append, hlen] at this
      simp at this
      omega
    rw [h3 q (by simpa using hlong [])] at hq
    obtain ⟨r, a, hr⟩ := ht.times q l hlen hq
    exact ⟨r, a, by rw [h3 _ (hlong r)]; exact hr⟩
  · intro q d
    by_cases hqp : q <+: [c!"co"]
    · rcases hpre q hqp with rfl | rfl
      · obtain ⟨l, hl⟩ := hroot
        obtain ⟨l', hl'⟩ := hroot'
        rw [hl, hl']; constructor <;> intro e <;> cases e
      · rw [h2, h1]; constructor <;> intro e <;> cases e
    · rw [h3 q hqp]

theorem get_del_set (t t' : Node α) (p : List Str) (h : t.del p = .ok t') (q : List Str) (a : α) :
    t'.get q = some (.set a) ↔ t.get q = some (.set a) ∧ ¬ p <+: q := by
  obtain ⟨h0, h1, h2, h3, h4⟩ := get_del _ _ _ h
  by_cases hpq : p <+: q
  · rw [h2 q hpq]; simp [hpq]
  · by_cases hqp : q <+: p
    · have hne : q ≠ p := fun e => hpq (e ▸ List.prefix_rfl)
      obtain ⟨⟨l, hl⟩, l', hl'⟩ := h4 q hqp hne
      rw [hl, hl']; simp
    · rw [h3 q hpq hqp]; simp [hpq]

theorem get_del_group (t t' : Node α) (p : List Str) (h : t.del p = .ok t') (q : List Str)
    (l : List (Str × Node α)) (hq : t'.get q = some (.group l)) : ∃ l', t.get q = some (.group l') := by
  obtain ⟨h0, h1, h2, h3, h4⟩ := get_del _ _ _ h
  by_cases hpq : p <+: q
  · rw [h2 q hpq] at hq; cases hq
  · by_cases hqp : q <+: p
    · have hne : q ≠ p := fun e => hpq (e ▸ List.prefix_rfl)
      exact (h4 q hqp hne).1
    · rw [h3 q hpq hqp] at hq; exact ⟨l, hq⟩

theorem good_del (t t' : H5Tree δ) (ht : Good t) (p : List Str) (hp : p.length ≤ 5)
    (h : t.del p = .ok t') : Good t' := by
  refine ⟨ordered_del _ _ _ ht.ordered h, ?_, ?_, ?_, ?_, ?_⟩
  · obtain ⟨h0, h1, h2, h3, h4⟩ := get_del _ _ _ h
    obtain ⟨-, l, hl⟩ := h4 [] List.nil_prefix (Ne.symm h0)
    rw [get_nil] at hl
    exact ⟨l, by cases hl; rfl⟩
  · intro q a hq
    exact ht.set q a ((get_del_set t t' p h q a).1 hq).1
  · intro q l hq
    obtain ⟨l', hl'⟩ := get_del_group t t' p h q l hq
    exact ht.group q l' hl'
  · intro q hq
    cases hn : t'.get q with
    | none => rw [hn] at hq; cases hq
    | some n =>
      cases n with
      | set a => exact ht.names q (by rw [((get_del_set t t' p h q a).1 hn).1]; rfl)
      | group l =>
        obtain ⟨l', hl'⟩ := get_del_group t t' p h q l hn
        exact ht.names q (by rw [hl']; rfl)
  · intro q l hlen hq
    obtain ⟨l', hl'⟩ := get_del_group t t' p h q l hq
    obtain ⟨r, a, hr⟩ := ht.times q l' hlen hl'
    refine ⟨r, a, (get_del_set t t' p h _ a).2 ⟨hr, fun hpre => ?_⟩⟩
    have : p <+: q := List.prefix_of_prefix_length_le hpre (List.prefix_append q r) (by omega)
    rw [(get_del t t' p h).2.2.1 q this] at hq
    cases hq

/-! ## additions -/

theorem good_addOne (t : H5Tree δ) (ht : Good t) (p : HPath) (hp : SanePlace p) (d : δ) :
    Good (t.addOne p d) ∧ ∀ q x, (t.addOne p d).get q = some (.set (some x)) ↔
      t.get q = some (.set (some x)) ∨ (t.get p.comps = none ∧ q = p.comps ∧ x = d) := by
  unfold H5Tree.addOne
  rw [pathComps_str p hp]
  cases hg : t.get p.comps with
  | none =>
    obtain ⟨t', h⟩ := create_ok (some d) t p.comps hg fun q b hq hb => by
      have := ht.prefix_set hb hq (by simp [HPath.comps, hp.2]) (by simp [comps_length])
      subst this
      rw [hg] at hb; cases hb
    rw [h]
    obtain ⟨h1, h2⟩ := good_create t t' ht p hp d h
    refine ⟨h1, fun q x => ?_⟩
    rw [h2]; simp
  | some n =>
    obtain ⟨e, he⟩ := create_exists (some d) t n p.comps hg
    rw [he]
    exact ⟨ht, by simp⟩

/-- what is stored at a place -/
def H5Tree.at (t : H5Tree δ) (p : HPath) : Option δ :=
  match t.get p.comps with
  | some (.set (some d)) => some d
  | _ => none

theorem at_eq_some {t : H5Tree δ} {p : HPath} {d : δ} :
    t.at p = some d ↔ t.get p.comps = some (.set (some d)) := by
  unfold H5Tree.at
  split
  · rename_i d' h; rw [h]; simp
  · rename_i h
    constructor
    · intro e; cases e
    · intro e; exact absurd e (h d)

theorem Good.get_comps {t : H5Tree δ} (ht : Good t) (p : HPath) :
    t.get p.comps = (t.at p).map fun d => .set (some d) := by
  cases h : t.get p.comps with
  | none =>
    have : t.at p = none := by unfold H5Tree.at; rw [h]
    rw [this]; rfl
  | some n =>
    cases n with
    | set a =>
      rcases ht.set _ _ h with ⟨e, -⟩ | ⟨p', d, e, -, rfl⟩
      · simp [HPath.comps] at e
      · rw [at_eq_some.2 h]; rfl
    | group l => have := (ht.group _ _ h).1; rw [comps_length] at this; omega

theorem at_addOne (t : H5Tree δ) (ht : Good t) (p : HPath) (hp : SanePlace p) (d : δ) (q : HPath) :
    (t.addOne p d).at q = (t.at q).or (if q = p then some d else none) := by
  obtain ⟨-, h2⟩ := good_addOne t ht p hp d
  apply Option.ext
  intro x
  rw [at_eq_some, h2, ← at_eq_some]
  have hn : t.get p.comps = none ↔ t.at p = none := by rw [ht.get_comps]; simp
  rw [hn]
  by_cases hqp : q = p
  · subst hqp
    simp only [if_true, true_and]
    cases ha : t.at q <;> simp [eq_comm]
  · have : ¬ q.comps = p.comps := fun e => hqp (comps_inj e)
    simp [this, hqp]

theorem good_add (t : H5Tree δ) (ht : Good t) (l : List (HPath × δ)) (hl : ∀ e ∈ l, SanePlace e.1) :
    Good (t.add l) ∧ ∀ q, (t.add l).at q = (t.at q).or (l.lookup q) := by
  unfold H5Tree.add
  induction l generalizing t with
  | nil => exact ⟨ht, by simp⟩
  | cons e l ih =>
    obtain ⟨p, d⟩ := e
    have hp : SanePlace p := hl (p, d) (by simp)
    obtain ⟨h1, h2⟩ := ih _ (good_addOne t ht p hp d).1 fun e he => hl e (by simp [he])
    refine ⟨h1, fun q => ?_⟩
    rw [List.foldl_cons, h2, at_addOne t ht p hp d, List.lookup_cons]
    by_cases hq : q = p
    · subst hq; simp
    · have : (q == p) = false := by simpa using hq
      simp [hq, this]

/-! ## removals -/

theorem stripSlashStar_time (tag net sta cha cst : Str) (h1 : cst ≠ []) (h2 : '/' ∉ cst)
    (h3 : cst ≠ ['*']) :
    stripSlashStar (slashPath [tag, net, sta, cha, cst]) = slashPath [tag, net, sta, cha, cst] := by
  have e5 : slashPath [tag, net, sta, cha, cst] = slashPath [tag, net, sta, cha] ++ '/' :: cst := by
    simp [slashPath]
  rw [e5]
  unfold stripSlashStar
  have hrev : stripSlashStarRev (slashPath [tag, net, sta, cha] ++ '/' :: cst).reverse =
      (slashPath [tag, net, sta, cha] ++ '/' :: cst).reverse := by
    rw [List.reverse_append, List.reverse_cons]
    rcases hcr : cst.reverse with _ | ⟨a, t⟩
    · simp at hcr; exact absurd hcr h1
    · cases t with
      | nil =>
        have : cst = [a] := by rw [← List.reverse_reverse cst, hcr]; rfl
        subst this
        have ha : a ≠ '*' := fun e => h3 (by rw [e])
        unfold stripSlashStarRev
        split
        · rename_i e; simp at e; exact absurd e.1 ha
        · rfl
      | cons b t =>
        have hb : b ≠ '/' := by
          intro e
          apply h2
          have : b ∈ cst.reverse := by rw [hcr]; simp
          rw [List.mem_reverse] at this; exact e ▸ this
        unfold stripSlashStarRev
        split
        · rename_i e; simp at e; exact absurd e.2.1 hb
        · rfl
  rw [hrev, List.reverse_reverse]

/-- the test of the start times in `remove_data` -/
theorem fnmatch_time (tag net sta cha cst sst : Str) (hp : Plain (slashPath [tag, net, sta, cha]))
    (hc : cst ≠ [] ∧ '/' ∉ cst ∧ '?' ∉ cst ∧ '[' ∉ cst) :
    fnmatch (slashPath [tag, net, sta, cha, sst])
        (replaceSlashStar (slashPath [tag, net, sta, cha, cst])) = true ↔ Glob cst sst := by
  have e5 : ∀ x, slashPath [tag, net, sta, cha, x] = slashPath [tag, net, sta, cha] ++ '/' :: x := by
    intro x; simp [slashPath]
  rcases cst with _ | ⟨a, t⟩
  · exact absurd rfl hc.1
  · have hta : '/' ∉ t := fun e => hc.2.1 (by simp [e])
    have htq : '?' ∉ t := fun e => hc.2.2.1 (by simp [e])
    have htb : '[' ∉ a :: t := hc.2.2.2
    rw [e5, e5]
    by_cases ha : a = '*'
    · subst ha
      rw [replaceSlashStar_mid _ _ hp.noStar, head_not_star_replace t hta,
        fnmatch_plain_append _ _ _ hp]
      have : ∀ v, fnmatch v ('*' :: t) = true ↔ Glob ('*' :: t) v := fun v => fnmatch_iff_glob _ _ htb
      simp only [this]
      rw [← glob_star_slash hta htq]
      constructor
      · rintro ⟨v, e, hv⟩
        have := List.append_cancel_left e
        rw [this]; exact hv
      · intro hv; exact ⟨_, rfl, hv⟩
    · have e6 : slashPath [tag, net, sta, cha] ++ '/' :: a :: t =
          (slashPath [tag, net, sta, cha] ++ ['/']) ++ a :: t := by simp
      have hp' : Plain (slashPath [tag, net, sta, cha] ++ ['/']) := by
        intro c hc'
        rw [List.mem_append] at hc'
        obtain hc' | hc' := hc'
        · exact hp c hc'
        · simp at hc'; subst hc'; decide
      rw [e6, replaceSlashStar_noStar_append _ _ hp'.noStar (by simp [ha]),
        head_not_star_replace _ hc.2.1, fnmatch_plain_append _ _ _ hp']
      simp only [fnmatch_iff_glob _ _ htb]
      constructor
      · rintro ⟨v, e, hv⟩
        have : sst = v := by
          have e' : (slashPath [tag, net, sta, cha] ++ ['/']) ++ sst =
              (slashPath [tag, net, sta, cha] ++ ['/']) ++ v := by
            rw [← e]; simp
          exact List.append_cancel_left e'
        rw [this]; exact hv
      · intro hv; exact ⟨sst, by simp, hv⟩

/-- deletion of some of the members of a group -/
theorem good_delFold (m : Str → Bool) (pre : List Str) (hpre : pre.length = 4) (l : List Str) (hl : l.Nodup) (t : H5Tree δ)
    (ht : Good t) (hex : ∀ x ∈ l, (t.get (pre ++ [x])).isSome) :
    ∃ t', l.foldlM (fun (t : H5Tree δ) x => if m x then t.del (pre ++ [x]) else pure t) t =
        (Except.ok t' : Except PyErr _) ∧ Good t' ∧
      ∀ q a, t'.get q = some (.set a) ↔
        t.get q = some (.set a) ∧ ¬ ∃ x ∈ l, m x = true ∧ pre ++ [x] <+: q := by
  induction l generalizing t with
  | nil => exact ⟨t, rfl, ht, by simp⟩
  | cons x l ih =>
    rw [List.nodup_cons] at hl
    by_cases hm : m x = true
    · obtain ⟨t1, h1⟩ := del_ok t (pre ++ [x]) (by simp) (hex x (by simp))
      have hk : ∀ y ∈ l, (t1.get (pre ++ [y])).isSome := by
        intro y hy
        obtain ⟨-, -, -, h4, -⟩ := get_del _ _ _ h1
        have hne : x ≠ y := fun e => hl.1 (e ▸ hy)
        have hn : ∀ a b : Str, a ≠ b → ¬ pre ++ [a] <+: pre ++ [b] := by
          intro a b hab hh
          have := hh.eq_of_length (by simp)
          simp at this; exact hab this
        rw [h4 _ (hn x y hne) (hn y x (Ne.symm hne))]
        exact hex y (by simp [hy])
      obtain ⟨t', h2, h3, h4⟩ := ih hl.2 t1 (good_del _ _ ht _ (by simp [hpre]) h1) hk
      refine ⟨t', ?_, h3, ?_⟩
      · rw [List.foldlM_cons]
        simp only [hm, if_true, h1]
        exact h2
      · intro q a
        rw [h4, get_del_set _ _ _ h1]
        simp [hm]; tauto
    · obtain ⟨t', h2, h3, h4⟩ := ih hl.2 t ht fun y hy => hex y (by simp [hy])
      refine ⟨t', ?_, h3, ?_⟩
      · rw [List.foldlM_cons]
        simp only [hm]
        exact h2
      · intro q a
        rw [h4]
        simp [hm]

theorem keys_nodup (l : List (Str × Node α)) (hs : l.Pairwise fun a b => a.1 < b.1) :
    (l.map Prod.fst).Nodup := by
  unfold List.Nodup
  rw [List.pairwise_map]
  exact hs.imp fun {a b} h e => by rw [e] at h; exact lt_irrefl _ h

theorem tree_removeData_start (t : H5Tree δ) (tag cst n1 s1 c1 n2 s2 c2 : Str)
    (h : SaneReq n1 s1 c1 n2 s2 c2) :
    t.removeData (n1 ++ '-' :: n2) (s1 ++ '-' :: s2) (c1 ++ '-' :: c2) tag cst =
      (let (net, sta, cha) := requestCodes n1 s1 c1 n2 s2 c2
       let path := stripSlashStar (HPath.str ⟨tag, net, sta, cha, cst, c!"*"⟩)
       if noWild path then
         match t.del (pathComps path) with
         | .ok t' => .ok t'
         | .error _ => .ok t
       else
         let path := replaceQuestion path
         let pattern := replaceSlashStar path
         match t.availableStarttimes net sta tag cha with
         | .error e => .error e
         | .ok times =>
         match times.lookup cha with
         | none => .error .keyError
         | some l =>
           l.foldlM (fun (t : H5Tree δ) sst =>
             if fnmatch (slashPath [tag, net, sta, cha, sst]) pattern
             then t.del (pathComps (slashPath [tag, net, sta, cha, sst])) else pure t) t) := by
  have hw : ((n1 ++ '-' :: n2) ++ (s1 ++ '-' :: s2) ++ (c1 ++ '-' :: c2)).contains '*' = false := by
    obtain ⟨h1, h2, h3, h4, h5, h6⟩ := h
    have := h1.2.2.2.2.1
    have := h2.2.2.2.2.1
    have := h3.2.2.2.2.1
    have := h4.2.2.2.2.1
    have := h5.2.2.2.2.1
    have := h6.2.2.2.2.1
    rw [Bool.eq_false_iff]; intro hc
    rw [List.contains_iff_mem] at hc
    simp [*] at hc
  unfold H5Tree.removeData
  rw [sortRequest_pair _ _ _ _ _ _ h.noSep]
  simp only [hw, Bool.false_eq_true, if_false]
  rcases requestCodes n1 s1 c1 n2 s2 c2 with ⟨net, sta, cha⟩
  show (if _ then _ else _) = _
  simp only
  split
  · rfl
  · cases t.availableStarttimes net sta tag cha <;> rfl

theorem prefix4_comps (a b c d : Str) (p : HPath) :
    [a, b, c, d] <+: p.comps ↔ p.tag = a ∧ p.net = b ∧ p.sta = c ∧ p.cha = d := by
  rw [← List.isPrefixOf_iff_prefix, isPrefixOf4]

theorem prefix5_comps (a b c d e : Str) (p : HPath) :
    [a, b, c, d, e] <+: p.comps ↔ p.tag = a ∧ p.net = b ∧ p.sta = c ∧ p.cha = d ∧ p.cst = e := by
  rw [← List.isPrefixOf_iff_prefix, isPrefixOf5]

theorem at_of_sets {t t' : H5Tree δ} (P : List Str → Prop) (p : HPath)
    (h : ∀ q a, t'.get q = some (.set a) ↔ t.get q = some (.set a) ∧ ¬ P q) [Decidable (P p.comps)] :
    t'.at p = if P p.comps then none else t.at p := by
  apply Option.ext
  intro d
  rw [at_eq_some, h]
  by_cases hP : P p.comps
  · simp [hP]
  · simp [hP, at_eq_some]

open Classical in
/-- effect of `remove_data` on what is stored; a call that raises changes nothing -/
theorem good_remove (t : H5Tree δ) (ht : Good t) (tag cst n1 s1 c1 n2 s2 c2 : Str)
    (h : SaneReq n1 s1 c1 n2 s2 c2) (htag : SaneName tag)
    (hc : cst ≠ [] ∧ '/' ∉ cst ∧ '?' ∉ cst ∧ '[' ∉ cst) :
    Good (t.step (.remove n1 s1 c1 n2 s2 c2 tag cst)) ∧
    ∀ p, (t.step (.remove n1 s1 c1 n2 s2 c2 tag cst)).at p =
      if p.tag = tag ∧ (p.net, p.sta, p.cha) = requestCodes n1 s1 c1 n2 s2 c2 ∧ Glob cst p.cst
      then none else t.at p := by
  unfold H5Tree.step
  simp only
  rw [tree_removeData_start _ _ _ _ _ _ _ _ _ h]
  have hs := requestCodes_sane h
  rcases hr : requestCodes n1 s1 c1 n2 s2 c2 with ⟨net, sta, cha⟩
  rw [hr] at hs
  have hall : ∀ x ∈ [tag, net, sta, cha], SaneName x := by
    intro x hx; simp at hx
    rcases hx with rfl | rfl | rfl | rfl <;>
      first | exact htag | exact hs.1 | exact hs.2.1 | exact hs.2.2
  have hp := plain_slashPath hall
  have e5 : ∀ x, slashPath [tag, net, sta, cha, x] = slashPath [tag, net, sta, cha] ++ '/' :: x := by
    intro x; simp [slashPath]
  simp only [str_star, stripSlashStar_slashStar]
  have hpc4 := pathComps_slashPath [tag, net, sta, cha] fun x hx => ⟨(hall x hx).1, (hall x hx).2.1⟩
  -- removal of one object
  have hdel : ∀ (cs : List Str), cs ≠ [] → cs.length ≤ 5 →
      Good (match (match t.del cs with | .ok t' => (.ok t' : Except PyErr (H5Tree δ)) | .error _ => .ok t) with
        | .ok t' => t' | .error _ => t) ∧
      ∀ q a, (match (match t.del cs with | .ok t' => (.ok t' : Except PyErr (H5Tree δ)) | .error _ => .ok t) with
        | .ok t' => t' | .error _ => t).get q = some (.set a) ↔ t.get q = some (.set a) ∧ ¬ cs <+: q := by
    intro cs hcs hlen
    cases hd : t.del cs with
    | ok t' => exact ⟨good_del _ _ ht _ hlen hd, get_del_set _ _ _ hd⟩
    | error e =>
      refine ⟨ht, fun q a => ⟨fun hq => ⟨hq, ?_⟩, fun hq => hq.1⟩⟩
      rintro ⟨r, rfl⟩
      rw [get_append] at hq
      cases hg : t.get cs with
      | none => rw [hg] at hq; cases hq
      | some n =>
        obtain ⟨t', h'⟩ := del_ok t cs hcs (by rw [hg]; rfl)
        rw [hd] at h'; cases h'
  by_cases hstar : cst = ['*']
  · -- the whole channel
    subst hstar
    rw [e5, stripSlashStar_slashStar, stripSlashStar_noStar _ hp.noStar]
    rw [if_pos ((noWild_iff _).2 ⟨hp.noStar, hp.noQuestion⟩), hpc4]
    obtain ⟨h1, h2⟩ := hdel [tag, net, sta, cha] (by simp) (by simp)
    refine ⟨h1, fun p => ?_⟩
    refine (at_of_sets (fun q => [tag, net, sta, cha] <+: q) p h2).trans ?_
    have hg : Glob ['*'] p.cst := by
      rw [glob_star_iff]; exact ⟨p.cst, [], by simp, .nil⟩
    congr 1
    rw [prefix4_comps]
    simp [hg]
  · rw [stripSlashStar_time _ _ _ _ _ hc.1 hc.2.1 hstar]
    by_cases hw : '*' ∈ cst
    · have hnw : ¬ noWild (slashPath [tag, net, sta, cha, cst]) = true := by
        rw [noWild_iff, e5]; simp [hw]
      rw [if_neg hnw]
      have hrq : replaceQuestion (slashPath [tag, net, sta, cha, cst]) =
          slashPath [tag, net, sta, cha, cst] := by
        apply replaceQuestion_id
        rw [e5]; simp [hp.noQuestion, hc.2.2.1]
      rw [hrq]
      have hcha : cha.contains '*' = false := by
        rw [Bool.eq_false_iff]
        intro hh
        rw [List.contains_iff_mem] at hh
        exact hs.2.2.plain.noStar hh
      unfold H5Tree.availableStarttimes
      simp only [hcha, Bool.not_false, if_true, hpc4]
      unfold H5Tree.keys
      -- nothing stored: nothing to remove
      have hnone : (∀ l, t.get [tag, net, sta, cha] ≠ some (.group l)) → ∀ p : HPath,
          t.at p = if p.tag = tag ∧ (p.net, p.sta, p.cha) = (net, sta, cha) ∧ Glob cst p.cst
            then none else t.at p := by
        intro hg p
        split
        · rename_i hh
          cases ha : t.at p with
          | none => rfl
          | some d =>
            exfalso
            rw [at_eq_some] at ha
            have : p.comps = [tag, net, sta, cha] ++ [p.cst, p.cet] := by
              simp at hh; simp [HPath.comps, hh]
            rw [this, get_append] at ha
            cases hk : t.get [tag, net, sta, cha] with
            | none => rw [hk] at ha; cases ha
            | some n =>
              cases n with
              | set a => rw [hk] at ha; cases ha
              | group l => exact hg l hk
        · rfl
      cases hg : t.get [tag, net, sta, cha] with
      | none =>
        simp only [List.lookup_nil]
        refine ⟨ht, hnone ?_⟩
        intro l; rw [hg]; simp
      | some n =>
        cases n with
        | set a =>
          simp only
          refine ⟨ht, hnone ?_⟩
          intro l; rw [hg]; simp
        | group l =>
          simp only [List.lookup_cons, beq_self_eq_true]
          have hord := ordered_get _ _ _ ht.ordered hg
          cases hord with
          | group _ hso hch =>
          have hmem : ∀ x ∈ l.map Prod.fst, (t.get ([tag, net, sta, cha] ++ [x])).isSome := by
            intro x hx
            obtain ⟨⟨y, n⟩, he, rfl⟩ := List.mem_map.1 hx
            rw [get_append, hg]
            simp only [Option.bind_some, get_group_cons]
            rw [node_lookup_of_mem l hso _ _ he]
            simp [get_nil]
          have hpc : ∀ x ∈ l.map Prod.fst, pathComps (slashPath [tag, net, sta, cha, x]) =
              [tag, net, sta, cha] ++ [x] := by
            intro x hx
            have := ht.names _ (hmem x hx)
            exact pathComps_slashPath _ fun y hy => ⟨(this y hy).1, (this y hy).2.1⟩
          obtain ⟨t', h1, h2, h3⟩ := good_delFold
            (fun x => fnmatch (slashPath [tag, net, sta, cha, x])
              (replaceSlashStar (slashPath [tag, net, sta, cha, cst])))
            [tag, net, sta, cha] rfl (l.map Prod.fst) (keys_nodup l hso) t ht hmem
          have hcongr : ∀ (k : List Str) (u : H5Tree δ), (∀ x ∈ k, x ∈ l.map Prod.fst) →
              k.foldlM (fun (t : H5Tree δ) sst =>
                if fnmatch (slashPath [tag, net, sta, cha, sst])
                  (replaceSlashStar (slashPath [tag, net, sta, cha, cst])) = true
                then t.del (pathComps (slashPath [tag, net, sta, cha, sst])) else pure t) u =
              k.foldlM (fun (t : H5Tree δ) x =>
                if fnmatch (slashPath [tag, net, sta, cha, x])
                  (replaceSlashStar (slashPath [tag, net, sta, cha, cst])) = true
                then t.del ([tag, net, sta, cha] ++ [x]) else pure t) u := by
            intro k
            induction k with
            | nil => intro u _; rfl
            | cons x k ih =>
              intro u hk
              rw [List.foldlM_cons, List.foldlM_cons, hpc x (hk x (by simp))]
              congr 1
              funext v
              exact ih v fun y hy => hk y (by simp [hy])
          rw [hcongr _ _ fun _ hx => hx, h1]
          refine ⟨h2, fun p => ?_⟩
          rw [at_of_sets _ p h3]
          by_cases hP : ∃ x ∈ l.map Prod.fst, fnmatch (slashPath [tag, net, sta, cha, x])
              (replaceSlashStar (slashPath [tag, net, sta, cha, cst])) = true ∧
              [tag, net, sta, cha] ++ [x] <+: p.comps
          · rw [if_pos hP, if_pos]
            obtain ⟨x, -, hx, hpx⟩ := hP
            rw [fnmatch_time _ _ _ _ _ _ hp hc] at hx
            obtain ⟨k1, k2, k3, k4, k5⟩ := (prefix5_comps _ _ _ _ _ p).1 hpx
            exact ⟨k1, by simp [k2, k3, k4], by rw [k5]; exact hx⟩
          · rw [if_neg hP]
            split
            · rename_i hh
              cases ha : t.at p with
              | none => rfl
              | some d =>
                exfalso
                apply hP
                rw [at_eq_some] at ha
                have hcm : p.comps = [tag, net, sta, cha] ++ [p.cst, p.cet] := by
                  have := hh.2.1
                  simp at this; simp [HPath.comps, hh.1, this]
                refine ⟨p.cst, ?_, (fnmatch_time _ _ _ _ _ _ hp hc).2 hh.2.2, ?_⟩
                · rw [hcm, get_append, hg] at ha
                  simp only [Option.bind_some, get_group_cons] at ha
                  cases hlk : l.lookup p.cst with
                  | none => rw [hlk] at ha; cases ha
                  | some n => exact List.mem_map.2 ⟨_, node_mem_of_lookup _ _ _ hlk, rfl⟩
                · rw [hcm]; exact ⟨[p.cet], rfl⟩
            · rfl
    · -- a start time without wildcard
      have hsc : SaneName cst := ⟨hc.1, hc.2.1, hw, hc.2.2.1, hc.2.2.2⟩
      have hall' : ∀ x ∈ [tag, net, sta, cha, cst], SaneName x := by
        intro x hx
        rw [show [tag, net, sta, cha, cst] = [tag, net, sta, cha] ++ [cst] from rfl, List.mem_append] at hx
        obtain hx | hx := hx
        · exact hall x hx
        · simp at hx; subst hx; exact hsc
      have hp' := plain_slashPath hall'
      rw [if_pos ((noWild_iff _).2 ⟨hp'.noStar, hp'.noQuestion⟩),
        pathComps_slashPath _ fun x hx => ⟨(hall' x hx).1, (hall' x hx).2.1⟩]
      obtain ⟨h1, h2⟩ := hdel [tag, net, sta, cha, cst] (by simp) (by simp)
      refine ⟨h1, fun p => ?_⟩
      refine (at_of_sets (fun q => [tag, net, sta, cha, cst] <+: q) p h2).trans ?_
      congr 1
      rw [prefix5_comps, glob_plain_iff hsc.plain]
      simp; tauto

theorem good_step (t : H5Tree δ) (ht : Good t) (s : DbStep δ) (hs : s.Sane) :
    Good (t.step s) ∧ ∀ p, (t.step s).at p = expectedStep t.at s p := by
  cases s with
  | options =>
    unfold H5Tree.step
    simp only
    split
    · rename_i t' h
      obtain ⟨h1, h2⟩ := good_options t t' ht h
      refine ⟨h1, fun p => ?_⟩
      apply Option.ext
      intro d
      show _ ↔ t.at p = some d
      rw [at_eq_some, h2, at_eq_some]
    · exact ⟨ht, fun p => rfl⟩
  | add l => exact good_add t ht l hs
  | remove n1 s1 c1 n2 s2 c2 tag cst =>
    obtain ⟨h1, h2, -, h3⟩ := hs
    exact good_remove t ht tag cst n1 s1 c1 n2 s2 c2 h1 h2 h3

theorem good_run (h : List (DbStep δ)) (hs : ∀ s ∈ h, s.Sane) :
    Good (H5Tree.run h) ∧ (H5Tree.run h).at = expected h := by
  unfold H5Tree.run expected
  have : ∀ (t : H5Tree δ) (m : HPath → Option δ), Good t → t.at = m →
      Good (h.foldl H5Tree.step t) ∧ (h.foldl H5Tree.step t).at = h.foldl expectedStep m := by
    induction h with
    | nil => exact fun t m ht hm => ⟨ht, hm⟩
    | cons s h ih =>
      intro t m ht hm
      obtain ⟨h1, h2⟩ := good_step t ht s (hs s (by simp))
      exact ih (fun s' hs' => hs s' (by simp [hs'])) _ _ h1 (by funext p; rw [h2, hm])
  refine this _ _ good_empty ?_
  funext p
  rfl

end SeisMIC
