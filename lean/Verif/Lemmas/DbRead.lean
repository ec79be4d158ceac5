import Verif.Lemmas.Db
import Verif.Lemmas.Glob

namespace SeisMIC

variable {δ : Type}

/-! ### patterns get weaker -/

theorem glob_append {p q s t : Str} (h1 : Glob p s) (h2 : Glob q t) : Glob (p ++ q) (s ++ t) := by
  induction h1 with
  | nil => exact h2
  | star u _ ih => rw [List.append_assoc]; exact .star u ih
  | any c _ ih => exact .any c ih
  | lit a b c _ ih => exact .lit a b c ih

theorem glob_replaceQuestion {p s : Str} (h : Glob p s) : Glob (replaceQuestion p) s := by
  induction h with
  | nil => exact .nil
  | star u _ ih => exact .star u ih
  | any c _ ih => exact .star [c] ih
  | @lit c p s a b d _ ih =>
    have : replaceQuestion (c :: p) = c :: replaceQuestion p := by
      simp [replaceQuestion, b]
    rw [this]; exact .lit a b d ih

theorem glob_replaceSlashStar {p s : Str} (h : Glob p s) : Glob (replaceSlashStar p) s := by
  revert s
  fun_induction replaceSlashStar p with
  | case1 p ih =>
    intro s h
    cases h with
    | lit a b d h =>
      cases h with
      | star u h =>
        exact .star ('/' :: u) (ih h)
      | lit a _ _ _ => exact absurd rfl a
  | case2 c p hne ih =>
    intro s h
    cases h with
    | star u h => exact .star u (ih h)
    | any c h => exact .any c (ih h)
    | lit a b d h => exact .lit a b d (ih h)
  | case3 => intro s h; exact h

theorem glob_plain {s : Str} (h : Plain s) : Glob s s := by
  induction s with
  | nil => exact .nil
  | cons c s ih =>
    have := h c (by simp)
    exact .lit this.1 this.2.1 this.2.2 (ih fun d hd => h d (by simp [hd]))

theorem glob_plain_iff {p s : Str} (h : Plain p) : Glob p s ↔ s = p := by
  rw [← fnmatch_iff_glob p s (fun e => (h _ e).2.2 rfl), fnmatch_plain _ _ h]

theorem glob_plain_append {l p s : Str} (h : Plain l) (hp : '[' ∉ p) :
    Glob (l ++ p) s ↔ ∃ v, s = l ++ v ∧ Glob p v := by
  have hl : '[' ∉ l ++ p := by
    simp [hp]; exact fun e => (h _ e).2.2 rfl
  rw [← fnmatch_iff_glob _ _ hl, fnmatch_plain_append _ _ _ h]
  simp only [fnmatch_iff_glob p _ hp]

theorem glob_star_iff {p s : Str} : Glob ('*' :: p) s ↔ ∃ u v, s = u ++ v ∧ Glob p v := by
  constructor
  · intro h
    cases h with
    | star u h => exact ⟨u, _, rfl, h⟩
    | lit a _ _ _ => exact absurd rfl a
  · rintro ⟨u, v, rfl, h⟩; exact .star u h

/-- a leading `*` may or may not absorb the slash -/
theorem glob_star_slash {p s : Str} (hp : '/' ∉ p) (hq : '?' ∉ p) :
    Glob ('*' :: p) ('/' :: s) ↔ Glob ('*' :: p) s := by
  constructor
  · intro h
    obtain ⟨u, v, e, hv⟩ := glob_star_iff.1 h
    cases u with
    | cons c u =>
      simp at e
      rw [e.2]; exact .star u hv
    | nil =>
      simp at e; subst e
      clear h
      -- `p` matches `/ :: s`, so `p` starts with a star
      induction p with
      | nil => cases hv
      | cons d p ih =>
        by_cases hd : d = '*'
        · subst hd
          have hp' : '/' ∉ p := fun e => hp (by simp [e])
          have hq' : '?' ∉ p := fun e => hq (by simp [e])
          obtain ⟨u, v, e, hv⟩ := glob_star_iff.1 hv
          cases u with
          | cons c u => simp at e; rw [e.2]; exact .star [] (.star u hv)
          | nil => simp at e; subst e; exact .star [] (ih hp' hq' hv)
        · exfalso
          generalize e1 : d :: p = q at hv
          generalize e2 : '/' :: s = t at hv
          cases hv with
          | nil => simp at e1
          | star u h => simp at e1; exact hd e1.1
          | any c h => simp at e1; exact hq (by simp [e1.1])
          | lit a b d h => simp at e1 e2; exact hp (List.mem_cons.2 (.inl (e2.1.trans e1.1.symm)))
  · intro h
    obtain ⟨u, v, e, hv⟩ := glob_star_iff.1 h
    rw [e]; exact .star ('/' :: u) hv

/-! ### traversal -/

theorem mem_traverse (f : H5 δ) (cs : List Str) (pat : Str) (r : List (H5Obj δ)) (p : HPath) (d : δ)
    (h : f.traverse cs pat = .ok r) :
    H5Obj.corr p d ∈ r ↔ (p, d) ∈ f.sets ∧ cs.isPrefixOf p.comps = true ∧ nameMatches p.str pat = true := by
  unfold H5.traverse at h
  have key : ∀ l : List (HPath × δ), H5Obj.corr p d ∈ (l.filter fun e => nameMatches e.1.str pat).map
      (fun e => H5Obj.corr e.1 e.2) ↔ (p, d) ∈ l ∧ nameMatches p.str pat = true := by
    intro l
    simp only [List.mem_map, List.mem_filter, Prod.exists, H5Obj.corr.injEq]
    constructor
    · rintro ⟨a, b, ⟨h1, h2⟩, rfl, rfl⟩; exact ⟨h1, h2⟩
    · rintro ⟨h1, h2⟩; exact ⟨p, d, ⟨h1, h2⟩, rfl, rfl⟩
  have hb : (p, d) ∈ f.below cs ↔ (p, d) ∈ f.sets ∧ cs.isPrefixOf p.comps = true := by
    simp [H5.below]
  simp only at h
  split at h
  · cases h
    rw [List.mem_append, key, hb]
    split <;> simp [and_assoc]
  · split at h
    · cases h
    · cases h
      rw [key, hb, and_assoc]

theorem traverse_ok (f : H5 δ) (cs : List Str) (pat : Str)
    (h : cs = [] ∨ ∃ e ∈ f.sets, cs.isPrefixOf e.1.comps = true) :
    ∃ r, f.traverse cs pat = .ok r := by
  unfold H5.traverse
  simp only
  split
  · exact ⟨_, rfl⟩
  · rename_i hc
    have : ¬ (f.below cs).isEmpty = true := by
      obtain h | ⟨e, he, hp⟩ := h
      · exact absurd h hc
      · simp only [List.isEmpty_iff]
        intro h0
        have : e ∈ f.below cs := by simp [H5.below, he, hp]
        rw [h0] at this; simp at this
    rw [if_neg this]; exact ⟨_, rfl⟩

theorem isPrefixOf_append (l m : List Str) : l.isPrefixOf (l ++ m) = true := by
  rw [List.isPrefixOf_iff_prefix]; exact List.prefix_append l m

/-! ### deletion -/

theorem nodup_eraseDups {α : Type} [BEq α] [LawfulBEq α] (l : List α) : l.eraseDups.Nodup := by
  generalize hn : l.length = n
  induction n using Nat.strongRecOn generalizing l with
  | _ n ih =>
    cases l with
    | nil => simp
    | cons a l =>
      rw [List.eraseDups_cons, List.nodup_cons]
      refine ⟨?_, ih _ ?_ _ rfl⟩
      · rw [List.mem_eraseDups]; simp
      · have := List.length_filter_le (fun b => !b == a) l
        simp at hn; omega

theorem mem_keys4 (f : H5 δ) (a b c d x : Str) :
    x ∈ f.keys [a, b, c, d] ↔ ∃ e ∈ f.sets, [a, b, c, d, x].isPrefixOf e.1.comps = true := by
  unfold H5.keys
  rw [List.mem_eraseDups, List.mem_filterMap]
  constructor
  · rintro ⟨e, he, h⟩
    simp only [H5.below, List.mem_filter, isPrefixOf4] at he
    refine ⟨e, he.1, ?_⟩
    rw [isPrefixOf5]
    simp [HPath.comps] at h
    grind
  · rintro ⟨e, he, h⟩
    rw [isPrefixOf5] at h
    refine ⟨e, ?_, ?_⟩
    · simp only [H5.below, List.mem_filter, isPrefixOf4]; grind
    · simp [HPath.comps, h]

theorem del_fold (f : H5 δ) (a b c d : Str) (m : Str → Bool) (l : List Str) (hl : l.Nodup)
    (hk : ∀ x ∈ l, ∃ e ∈ f.sets, [a, b, c, d, x].isPrefixOf e.1.comps = true) :
    l.foldlM (fun f x => if m x then f.del [a, b, c, d, x] else pure f) f =
      Except.ok { f with sets := f.sets.filter fun e =>
        !(l.any fun x => m x && [a, b, c, d, x].isPrefixOf e.1.comps) } := by
  induction l generalizing f with
  | nil =>
    have : f.sets.filter (fun _ => true) = f.sets := List.filter_eq_self.2 (by simp)
    simp [this]; rfl
  | cons x l ih =>
    rw [List.nodup_cons] at hl
    rw [List.foldlM_cons]
    by_cases hm : m x = true
    · rw [if_pos hm]
      unfold H5.del
      obtain ⟨e0, he0, hp0⟩ := hk x (by simp)
      have hne : ¬ (f.below [a, b, c, d, x]).isEmpty = true := by
        simp only [List.isEmpty_iff]
        intro h0
        have : e0 ∈ f.below [a, b, c, d, x] := by
          simp only [H5.below, List.mem_filter]; exact ⟨he0, hp0⟩
        rw [h0] at this; simp at this
      rw [if_neg hne]
      show List.foldlM _ _ l = _
      have := ih { f with sets := f.sets.filter fun e => !([a, b, c, d, x].isPrefixOf e.1.comps) } hl.2
        (by
          intro y hy
          obtain ⟨e, he, hp⟩ := hk y (by simp [hy])
          refine ⟨e, ?_, hp⟩
          simp only [List.mem_filter, he, true_and, Bool.not_eq_true']
          rw [Bool.eq_false_iff]
          intro h
          rw [isPrefixOf5] at h hp
          have : x = y := by grind
          exact hl.1 (this ▸ hy))
      rw [show (fun (f : H5 δ) x => if m x = true then (if (f.below [a, b, c, d, x]).isEmpty = true then Except.error PyErr.keyError else Except.ok { f with sets := f.sets.filter fun e => !([a, b, c, d, x].isPrefixOf e.1.comps) }) else pure f) =
        (fun f x => if m x then f.del [a, b, c, d, x] else pure f) from rfl, this]
      congr 2
      simp only [List.filter_filter]
      apply List.filter_congr
      intro e _
      simp [hm, Bool.and_comm]
    · rw [if_neg hm]
      show List.foldlM _ f l = _
      rw [ih f hl.2 fun y hy => hk y (by simp [hy])]
      congr 2
      apply List.filter_congr
      intro e _
      simp [hm]

end SeisMIC

namespace SeisMIC
variable {δ : Type}

theorem requestCodes_cases (n1 s1 c1 n2 s2 c2 : Str) :
    requestCodes n1 s1 c1 n2 s2 c2 = (n1 ++ '-' :: n2, s1 ++ '-' :: s2, c1 ++ '-' :: c2) ∨
    requestCodes n1 s1 c1 n2 s2 c2 = (n2 ++ '-' :: n1, s2 ++ '-' :: s1, c2 ++ '-' :: c1) := by
  unfold requestCodes; split <;> simp

theorem saneName_pair (a b : Str) (ha : SaneCode a) (hb : SaneCode b) : SaneName (a ++ '-' :: b) := by
  obtain ⟨h1, h2, h3, h4, h5, h6, h7⟩ := ha
  obtain ⟨k1, k2, k3, k4, k5, k6, k7⟩ := hb
  refine ⟨by simp, ?_, ?_, ?_, ?_⟩ <;> simp [*]

theorem SaneReq.noSep {n1 s1 c1 n2 s2 c2 : Str} (h : SaneReq n1 s1 c1 n2 s2 c2) :
    ∀ x ∈ [n1, s1, c1, n2, s2, c2], NoSep x := by
  obtain ⟨h1, h2, h3, h4, h5, h6⟩ := h
  intro x hx
  simp at hx
  rcases hx with rfl | rfl | rfl | rfl | rfl | rfl <;> exact SaneCode.noSep ‹_›

theorem requestCodes_sane {n1 s1 c1 n2 s2 c2 : Str} (h : SaneReq n1 s1 c1 n2 s2 c2) :
    SaneName (requestCodes n1 s1 c1 n2 s2 c2).1 ∧ SaneName (requestCodes n1 s1 c1 n2 s2 c2).2.1 ∧
    SaneName (requestCodes n1 s1 c1 n2 s2 c2).2.2 := by
  obtain ⟨h1, h2, h3, h4, h5, h6⟩ := h
  obtain e | e := requestCodes_cases n1 s1 c1 n2 s2 c2 <;> rw [e] <;>
    exact ⟨saneName_pair _ _ ‹_› ‹_›, saneName_pair _ _ ‹_› ‹_›, saneName_pair _ _ ‹_› ‹_›⟩

theorem SaneName.plain {s : Str} (h : SaneName s) : Plain s := by
  intro c hc
  obtain ⟨_, _, h1, h2, h3⟩ := h
  exact ⟨fun e => h1 (e ▸ hc), fun e => h2 (e ▸ hc), fun e => h3 (e ▸ hc)⟩

theorem plain_slashPath {l : List Str} (h : ∀ x ∈ l, SaneName x) : Plain (slashPath l) := by
  intro c hc
  rw [mem_slashPath] at hc
  obtain ⟨rfl, _⟩ | ⟨x, hx, hc⟩ := hc
  · decide
  · exact (h x hx).plain c hc

theorem Plain.noStar {s : Str} (h : Plain s) : '*' ∉ s := fun e => (h _ e).1 rfl
theorem Plain.noQuestion {s : Str} (h : Plain s) : '?' ∉ s := fun e => (h _ e).2.1 rfl
theorem Plain.noBracket {s : Str} (h : Plain s) : '[' ∉ s := fun e => (h _ e).2.2 rfl

theorem slashPath_inj {l m : List Str} (hl : ∀ x ∈ l, x ≠ [] ∧ '/' ∉ x) (hm : ∀ x ∈ m, x ≠ [] ∧ '/' ∉ x)
    (h : slashPath l = slashPath m) : l = m := by
  rw [← pathComps_slashPath l hl, ← pathComps_slashPath m hm, h]

/-! ### removal -/

theorem removeData_start (f : H5 δ) (tag cst n1 s1 c1 n2 s2 c2 : Str)
    (h : SaneReq n1 s1 c1 n2 s2 c2) :
    f.removeData (n1 ++ '-' :: n2) (s1 ++ '-' :: s2) (c1 ++ '-' :: c2) tag cst =
      (let (net, sta, cha) := requestCodes n1 s1 c1 n2 s2 c2
       let path := stripSlashStar (HPath.str ⟨tag, net, sta, cha, cst, c!"*"⟩)
       if noWild path then
         match f.del (pathComps path) with
         | .ok f' => .ok f'
         | .error _ => .ok f
       else
         let path := replaceQuestion path
         let pattern := replaceSlashStar path
         match f.availableStarttimes net sta tag cha with
         | .error e => .error e
         | .ok times =>
         match times.lookup cha with
         | none => .error .keyError
         | some l =>
           l.foldlM (fun f sst =>
             if fnmatch (slashPath [tag, net, sta, cha, sst]) pattern
             then f.del [tag, net, sta, cha, sst] else pure f) f) := by
  have hw : ((n1 ++ '-' :: n2) ++ (s1 ++ '-' :: s2) ++ (c1 ++ '-' :: c2)).contains '*' = false := by
    obtain ⟨h1, h2, h3, h4, h5, h6⟩ := h
    have := h1.2.2.2.2.1
    have := h2.2.2.2.2.1
    have := h3.2.2.2.2.1
    have := h4.2.2.2.2.1
    have := h5.2.2.2.2.1
    have := h6.2.2.2.2.1
    rw [Bool.eq_false_iff]; intro hc
    rw [List.contains_iff_mem] at hc
    simp [*] at hc
  unfold H5.removeData
  rw [sortRequest_pair _ _ _ _ _ _ h.noSep]
  simp only [hw, Bool.false_eq_true, if_false]
  rcases requestCodes n1 s1 c1 n2 s2 c2 with ⟨net, sta, cha⟩
  show (if _ then _ else _) = _
  simp only
  split
  · rfl
  · cases f.availableStarttimes net sta tag cha <;> rfl

theorem str_star (tag net sta cha cst : Str) :
    HPath.str ⟨tag, net, sta, cha, cst, c!"*"⟩ = slashPath [tag, net, sta, cha, cst] ++ ['/', '*'] := by
  simp [HPath.str, HPath.comps, slashPath]

theorem removeData_literal (f : H5 δ) (tag cst n1 s1 c1 n2 s2 c2 : Str)
    (h : SaneReq n1 s1 c1 n2 s2 c2) (ht : SaneName tag) (hc : SaneName cst) :
    f.removeData (n1 ++ '-' :: n2) (s1 ++ '-' :: s2) (c1 ++ '-' :: c2) tag cst =
      .ok { f with sets := f.sets.filter fun e => !decide (e.1.tag = tag ∧
        (e.1.net, e.1.sta, e.1.cha) = requestCodes n1 s1 c1 n2 s2 c2 ∧ e.1.cst = cst) } := by
  rw [removeData_start _ _ _ _ _ _ _ _ _ h]
  have hs := requestCodes_sane h
  rcases hr : requestCodes n1 s1 c1 n2 s2 c2 with ⟨net, sta, cha⟩
  rw [hr] at hs
  have hall : ∀ x ∈ [tag, net, sta, cha, cst], SaneName x := by
    intro x hx; simp at hx
    rcases hx with rfl | rfl | rfl | rfl | rfl <;>
      first | exact ht | exact hs.1 | exact hs.2.1 | exact hs.2.2 | exact hc
  have hp := plain_slashPath hall
  simp only [str_star, stripSlashStar_slashStar, stripSlashStar_noStar _ hp.noStar]
  rw [if_pos ((noWild_iff _).2 ⟨hp.noStar, hp.noQuestion⟩)]
  rw [pathComps_slashPath _ fun x hx => ⟨(hall x hx).1, (hall x hx).2.1⟩]
  have hfc : (f.sets.filter fun e => !([tag, net, sta, cha, cst].isPrefixOf e.1.comps)) =
      f.sets.filter fun e => !decide (e.1.tag = tag ∧ (e.1.net, e.1.sta, e.1.cha) = (net, sta, cha) ∧
        e.1.cst = cst) := by
    apply List.filter_congr
    intro e _
    congr 1
    rw [Bool.eq_iff_iff, isPrefixOf5, decide_eq_true_eq]
    simp; grind
  unfold H5.del
  split
  · rename_i f' hd
    split at hd
    · cases hd
    · cases hd; rw [hfc]
  · rename_i hd
    split at hd
    · rename_i he
      have : f.sets.filter (fun e => !([tag, net, sta, cha, cst].isPrefixOf e.1.comps)) = f.sets := by
        rw [List.filter_eq_self]
        intro e he'
        simp only [List.isEmpty_iff, H5.below, List.filter_eq_nil_iff] at he
        have := he e he'
        rw [Bool.not_eq_true] at this
        rw [this]; rfl
      rw [← hfc, this]
    · cases hd

theorem head_not_star_replace (s : Str) (h : '/' ∉ s) : replaceSlashStar s = s := by
  fun_induction replaceSlashStar s with
  | case1 s ih => simp at h
  | case2 c s hne ih => rw [ih fun e => h (by simp [e])]
  | case3 => rfl

theorem removeData_star (f : H5 δ) (tag cst n1 s1 c1 n2 s2 c2 : Str)
    (h : SaneReq n1 s1 c1 n2 s2 c2) (ht : SaneName tag)
    (hc : cst ≠ [] ∧ '/' ∉ cst ∧ '?' ∉ cst ∧ '[' ∉ cst) (hw : '*' ∈ cst)
    (hex : ∃ e ∈ f.sets, e.1.tag = tag ∧ (e.1.net, e.1.sta, e.1.cha) = requestCodes n1 s1 c1 n2 s2 c2) :
    ∃ f', f.removeData (n1 ++ '-' :: n2) (s1 ++ '-' :: s2) (c1 ++ '-' :: c2) tag cst = .ok f' ∧
      f'.hasCo = f.hasCo ∧
      ∃ b : HPath → Bool, f'.sets = f.sets.filter (fun e => b e.1) ∧
        ∀ p, b p = false ↔ p.tag = tag ∧
          (p.net, p.sta, p.cha) = requestCodes n1 s1 c1 n2 s2 c2 ∧ Glob cst p.cst ∧
          ∃ e ∈ f.sets, e.1.tag = tag ∧
          (e.1.net, e.1.sta, e.1.cha) = requestCodes n1 s1 c1 n2 s2 c2 ∧ e.1.cst = p.cst := by
  rw [removeData_start _ _ _ _ _ _ _ _ _ h]
  have hs := requestCodes_sane h
  rcases hr : requestCodes n1 s1 c1 n2 s2 c2 with ⟨net, sta, cha⟩
  rw [hr] at hs hex
  have hall : ∀ x ∈ [tag, net, sta, cha], SaneName x := by
    intro x hx; simp at hx
    rcases hx with rfl | rfl | rfl | rfl <;>
      first | exact ht | exact hs.1 | exact hs.2.1 | exact hs.2.2
  have hp := plain_slashPath hall
  have e5 : ∀ x, slashPath [tag, net, sta, cha, x] = slashPath [tag, net, sta, cha] ++ '/' :: x := by
    intro x; simp [slashPath]
  simp only [str_star, stripSlashStar_slashStar]
  by_cases hstar : cst = ['*']
  · -- the whole channel
    subst hstar
    rw [e5, stripSlashStar_slashStar, stripSlashStar_noStar _ hp.noStar]
    rw [if_pos ((noWild_iff _).2 ⟨hp.noStar, hp.noQuestion⟩)]
    rw [pathComps_slashPath _ fun x hx => ⟨(hall x hx).1, (hall x hx).2.1⟩]
    obtain ⟨e, he, h1, h2⟩ := hex
    have hne : ¬ (f.below [tag, net, sta, cha]).isEmpty = true := by
      simp only [List.isEmpty_iff]
      intro h0
      have : e ∈ f.below [tag, net, sta, cha] := by
        simp only [H5.below, List.mem_filter, isPrefixOf4]; simp at h2; grind
      rw [h0] at this; simp at this
    unfold H5.del
    rw [if_neg hne]
    refine ⟨_, rfl, rfl, fun p => !([tag, net, sta, cha].isPrefixOf p.comps) ||
      !(f.sets.any fun e => [tag, net, sta, cha, p.cst].isPrefixOf e.1.comps), ?_, ?_⟩
    · apply List.filter_congr
      intro x hx
      by_cases hx' : [tag, net, sta, cha].isPrefixOf x.1.comps = true
      · have : (f.sets.any fun e => [tag, net, sta, cha, x.1.cst].isPrefixOf e.1.comps) = true := by
          rw [List.any_eq_true]; refine ⟨x, hx, ?_⟩
          rw [isPrefixOf5]; rw [isPrefixOf4] at hx'; grind
        simp [hx', this]
      · simp [hx']
    · intro p
      have hg : Glob ['*'] p.cst := by
        rw [glob_star_iff]; exact ⟨p.cst, [], by simp, .nil⟩
      simp only [Bool.or_eq_false_iff, Bool.not_eq_false', isPrefixOf4, List.any_eq_true, isPrefixOf5]
      simp only [hg, true_and, Prod.mk.injEq]
      grind
  · -- strip does nothing
    have hstrip : stripSlashStar (slashPath [tag, net, sta, cha, cst]) = slashPath [tag, net, sta, cha, cst] := by
      rw [e5]
      unfold stripSlashStar
      have hrev : stripSlashStarRev (slashPath [tag, net, sta, cha] ++ '/' :: cst).reverse =
          (slashPath [tag, net, sta, cha] ++ '/' :: cst).reverse := by
        rw [List.reverse_append, List.reverse_cons]
        rcases hcr : cst.reverse with _ | ⟨a, t⟩
        · simp at hcr; exact absurd hcr hc.1
        · cases t with
          | nil =>
            have : cst = [a] := by rw [← List.reverse_reverse cst, hcr]; rfl
            subst this
            have ha : a ≠ '*' := fun e => hstar (by rw [e])
            unfold stripSlashStarRev
            split
            · rename_i e; simp at e; exact absurd e.1 ha
            · rfl
          | cons b t =>
            have hb : b ≠ '/' := by
              intro e
              apply hc.2.1
              have : b ∈ cst.reverse := by rw [hcr]; simp
              rw [List.mem_reverse] at this; exact e ▸ this
            unfold stripSlashStarRev
            split
            · rename_i e; simp at e; exact absurd e.2.1 hb
            · rfl
      rw [hrev, List.reverse_reverse]
    rw [hstrip]
    have hnw : ¬ noWild (slashPath [tag, net, sta, cha, cst]) = true := by
      rw [noWild_iff, e5]; simp [hw]
    rw [if_neg hnw]
    have hrq : replaceQuestion (slashPath [tag, net, sta, cha, cst]) = slashPath [tag, net, sta, cha, cst] := by
      apply replaceQuestion_id
      rw [e5]; simp [hp.noQuestion, hc.2.2.1]
    rw [hrq]
    -- the pattern
    have hpat : ∀ sst, fnmatch (slashPath [tag, net, sta, cha, sst])
        (replaceSlashStar (slashPath [tag, net, sta, cha, cst])) = true ↔ Glob cst sst := by
      intro sst
      rcases cst with _ | ⟨a, t⟩
      · exact absurd rfl hc.1
      · have hta : '/' ∉ t := fun e => hc.2.1 (by simp [e])
        have htq : '?' ∉ t := fun e => hc.2.2.1 (by simp [e])
        have htb : '[' ∉ a :: t := hc.2.2.2
        rw [e5, e5]
        by_cases ha : a = '*'
        · subst ha
          rw [replaceSlashStar_mid _ _ hp.noStar, head_not_star_replace t hta,
            fnmatch_plain_append _ _ _ hp]
          have : ∀ v, fnmatch v ('*' :: t) = true ↔ Glob ('*' :: t) v := fun v => fnmatch_iff_glob _ _ htb
          simp only [this]
          rw [← glob_star_slash hta htq]
          constructor
          · rintro ⟨v, e, hv⟩
            have := List.append_cancel_left e
            rw [this]; exact hv
          · intro hv; exact ⟨_, rfl, hv⟩
        · have e6 : slashPath [tag, net, sta, cha] ++ '/' :: a :: t =
              (slashPath [tag, net, sta, cha] ++ ['/']) ++ a :: t := by simp
          have hp' : Plain (slashPath [tag, net, sta, cha] ++ ['/']) := by
            intro c hc'
            rw [List.mem_append] at hc'
            obtain hc' | hc' := hc'
            · exact hp c hc'
            · simp at hc'; subst hc'; decide
          rw [e6, replaceSlashStar_noStar_append _ _ hp'.noStar (by simp [ha]),
            head_not_star_replace _ hc.2.1, fnmatch_plain_append _ _ _ hp']
          simp only [fnmatch_iff_glob _ _ htb]
          constructor
          · rintro ⟨v, e, hv⟩
            have : sst = v := by
              have e' : (slashPath [tag, net, sta, cha] ++ ['/']) ++ sst = (slashPath [tag, net, sta, cha] ++ ['/']) ++ v := by
                rw [← e]; simp
              exact List.append_cancel_left e'
            rw [this]; exact hv
          · intro hv; exact ⟨sst, by simp, hv⟩
    -- available start times
    have hcha : ¬ (cha.contains '*' = true) := by
      rw [List.contains_iff_mem]; exact hs.2.2.plain.noStar
    have hne : ¬ (f.below [tag, net, sta, cha]).isEmpty = true := by
      obtain ⟨e, he, h1, h2⟩ := hex
      simp only [List.isEmpty_iff]
      intro h0
      have : e ∈ f.below [tag, net, sta, cha] := by
        simp only [H5.below, List.mem_filter, isPrefixOf4]; simp at h2; grind
      rw [h0] at this; simp at this
    have hav : f.availableStarttimes net sta tag cha = .ok [(cha, f.keys [tag, net, sta, cha])] := by
      unfold H5.availableStarttimes
      rw [if_pos (by rw [Bool.not_eq_true] at hcha; rw [hcha]; rfl), if_neg hne]
    simp only [hav, List.lookup_cons, beq_self_eq_true]
    have hnd : (f.keys [tag, net, sta, cha]).Nodup := nodup_eraseDups _
    rw [del_fold f tag net sta cha _ (f.keys [tag, net, sta, cha]) hnd
      fun x hx => (mem_keys4 f _ _ _ _ x).1 hx]
    refine ⟨_, rfl, rfl, fun p => !((f.keys [tag, net, sta, cha]).any fun x =>
      fnmatch (slashPath [tag, net, sta, cha, x]) (replaceSlashStar (slashPath [tag, net, sta, cha, cst])) &&
        [tag, net, sta, cha, x].isPrefixOf p.comps), rfl, ?_⟩
    intro p
    simp only [Bool.not_eq_false', List.any_eq_true, Bool.and_eq_true, hpat, isPrefixOf5]
    constructor
    · rintro ⟨x, hx, hg, hpx⟩
      obtain ⟨e, he, hpe⟩ := (mem_keys4 f _ _ _ _ x).1 hx
      rw [isPrefixOf5] at hpe
      obtain ⟨r1, r2, r3, r4, r5⟩ := hpx
      refine ⟨r1, by simp [r2, r3, r4], by rw [r5]; exact hg, e, he, hpe.1, by simp [hpe], by rw [r5]; exact hpe.2.2.2.2⟩
    · rintro ⟨r1, r2, hg, e, he, r3, r4, r5⟩
      simp at r2 r4
      refine ⟨p.cst, ?_, hg, r1, r2.1, r2.2.1, r2.2.2, rfl⟩
      rw [mem_keys4]
      exact ⟨e, he, (isPrefixOf5 ..).2 ⟨r3, r4.1, r4.2.1, r4.2.2, r5⟩⟩

end SeisMIC

namespace SeisMIC
variable {δ : Type}

/-! ### reading -/

theorem getData_start (f : H5 δ) (tag n1 s1 c1 n2 s2 c2 : Str) (cst cet : Option Str)
    (h : SaneReq n1 s1 c1 n2 s2 c2) :
    f.getData (n1 ++ '-' :: n2) (s1 ++ '-' :: s2) (c1 ++ '-' :: c2) tag cst cet =
      (let (net, sta, cha) := requestCodes n1 s1 c1 n2 s2 c2
       let p : HPath := ⟨tag, net, sta, cha, cst.getD c!"*", cet.getD c!"*"⟩
       if noWild p.str then
         match f.lookup p with
         | some d => .ok [.corr p d]
         | none => .error .keyError
       else
         f.traverse (pathComps ((splitOn '*' (replaceQuestion p.str)).headD []))
           (replaceSlashStar (replaceQuestion p.str))) := by
  unfold H5.getData
  rw [sortRequest_pair _ _ _ _ _ _ h.noSep]
  rfl

theorem count_slashPath (l : List Str) (h : ∀ x ∈ l, '/' ∉ x) : (slashPath l).count '/' = l.length := by
  induction l with
  | nil => rfl
  | cons x l ih =>
    have hx : List.count '/' x = 0 := List.count_eq_zero.2 (h x (by simp))
    simp [slashPath, List.count_cons, List.count_append, ih fun y hy => h y (by simp [hy]), hx]

theorem isSub_count {a b : Str} (h : isSub a b = true) : a.count '/' ≤ b.count '/' := by
  rw [isSub_iff] at h
  obtain ⟨u, v, rfl⟩ := h
  simp [List.count_append]; omega

theorem traverse_eq (f : H5 δ) (cs : List Str) (pat : Str) (hcs : cs ≠ [])
    (hne : ∃ e ∈ f.sets, cs.isPrefixOf e.1.comps = true) :
    f.traverse cs pat = .ok ((f.sets.filter fun e => cs.isPrefixOf e.1.comps &&
      nameMatches e.1.str pat).map fun e => .corr e.1 e.2) := by
  unfold H5.traverse
  rw [if_neg hcs]
  have : ¬ (f.below cs).isEmpty = true := by
    obtain ⟨e, he, hp⟩ := hne
    simp only [List.isEmpty_iff]
    intro h0
    have : e ∈ f.below cs := by simp only [H5.below, List.mem_filter]; exact ⟨he, hp⟩
    rw [h0] at this; simp at this
  rw [if_neg this]
  unfold H5.below
  rw [List.filter_filter]
  simp [Bool.and_comm]

theorem traverse_missing (f : H5 δ) (cs : List Str) (pat : Str) (hcs : cs ≠ [])
    (hne : ¬ ∃ e ∈ f.sets, cs.isPrefixOf e.1.comps = true) :
    f.traverse cs pat = .error .keyError := by
  unfold H5.traverse
  rw [if_neg hcs]
  have : (f.below cs).isEmpty = true := by
    simp only [List.isEmpty_iff, H5.below, List.filter_eq_nil_iff]
    intro e he hp
    exact hne ⟨e, he, hp⟩
  rw [if_pos this]

theorem headD_splitOn_star (a b : Str) (h : '*' ∉ a) : (splitOn '*' (a ++ '*' :: b)).headD [] = a := by
  rw [splitOn_append _ _ _ h]; rfl

end SeisMIC

namespace SeisMIC
variable {δ : Type}

theorem exists_first_wild (l : List Str) (hall : ∀ x ∈ l, LiteralOrWild x)
    (hnw : ¬ noWild (slashPath l) = true) :
    ∃ lits w rest, l = lits ++ w :: rest ∧ (∀ x ∈ lits, SaneName x) ∧
      (w.head? = some '*' ∨ w.head? = some '?') := by
  induction l with
  | nil => exact absurd rfl hnw
  | cons x l ih =>
    obtain hx | hx := hall x (by simp)
    · have : ¬ noWild (slashPath l) = true := by
        intro h
        apply hnw
        rw [noWild_iff] at h ⊢
        have h1 := hx.plain.noStar
        have h2 := hx.plain.noQuestion
        simp only [slashPath, List.cons_append, List.mem_cons, List.mem_append]
        have e1 : ('*' : Char) ≠ '/' := by decide
        have e2 : ('?' : Char) ≠ '/' := by decide
        grind
      obtain ⟨lits, w, rest, h1, h2, h3⟩ := ih (fun y hy => hall y (by simp [hy])) this
      refine ⟨x :: lits, w, rest, by simp [h1], ?_, h3⟩
      intro y hy
      rw [List.mem_cons] at hy
      obtain rfl | hy := hy
      · exact hx
      · exact h2 y hy
    · exact ⟨[], x, l, rfl, by simp, hx.2.2⟩

theorem glob_slashPath (l q : List Str) (hlen : q.length = l.length)
    (h : ∀ y ∈ List.zip l q, Glob y.1 y.2) : Glob (slashPath l) (slashPath q) := by
  induction l generalizing q with
  | nil => cases q with
    | nil => exact .nil
    | cons _ _ => simp at hlen
  | cons x l ih =>
    cases q with
    | nil => simp at hlen
    | cons y q =>
      simp only [slashPath, List.cons_append]
      refine .lit (by decide) (by decide) (by decide) (glob_append (h (x, y) (by simp)) ?_)
      exact ih q (by simpa using hlen) fun z hz => h z (by simp [hz])

theorem lits_prefix (lits m q : List Str) (hp : ∀ x ∈ lits, SaneName x)
    (hlen : q.length = (lits ++ m).length)
    (h : ∀ y ∈ List.zip (lits ++ m) q, Glob y.1 y.2) : lits.isPrefixOf q = true := by
  induction lits generalizing q with
  | nil => simp
  | cons x l ih =>
    cases q with
    | nil => simp at hlen
    | cons y q =>
      have := (glob_plain_iff (hp x (by simp)).plain).1 (h (x, y) (by simp))
      simp only at this
      subst this
      simp only [List.isPrefixOf, beq_self_eq_true, Bool.true_and]
      exact ih q (fun z hz => hp z (by simp [hz])) (by simpa using hlen) fun z hz => h z (by simp [hz])

theorem replaceQuestion_append (a b : Str) : replaceQuestion (a ++ b) = replaceQuestion a ++ replaceQuestion b := by
  simp [replaceQuestion]

theorem traverse_complete (f : H5 δ) (l : List Str) (p : HPath) (d : δ) (hmem : (p, d) ∈ f.sets)
    (hall : ∀ x ∈ l, LiteralOrWild x) (hgl : ∀ y ∈ List.zip l p.comps, Glob y.1 y.2)
    (hlen : p.comps.length = l.length) (hnw : ¬ noWild (slashPath l) = true) :
    ∃ r, f.traverse (pathComps ((splitOn '*' (replaceQuestion (slashPath l))).headD []))
      (replaceSlashStar (replaceQuestion (slashPath l))) = .ok r ∧ .corr p d ∈ r := by
  obtain ⟨lits, w, rest, rfl, hs, hw⟩ := exists_first_wild l hall hnw
  have hpl := plain_slashPath hs
  have hpre := lits_prefix lits (w :: rest) p.comps hs hlen hgl
  have hhead : pathComps ((splitOn '*' (replaceQuestion (slashPath (lits ++ w :: rest)))).headD []) = lits := by
    rw [slashPath_append, replaceQuestion_append, replaceQuestion_id _ hpl.noQuestion]
    obtain ⟨t, ht⟩ : ∃ t, replaceQuestion (slashPath (w :: rest)) = '/' :: '*' :: t := by
      cases w with
      | nil => simp at hw
      | cons c w =>
        simp at hw
        obtain rfl | rfl := hw <;> simp [slashPath, replaceQuestion]
    rw [ht, show slashPath lits ++ '/' :: '*' :: t = (slashPath lits ++ ['/']) ++ '*' :: t by simp,
      headD_splitOn_star _ _ (by simp [hpl.noStar]),
      pathComps_slashPath_slash _ fun x hx => ⟨(hs x hx).1, (hs x hx).2.1⟩]
  rw [hhead]
  obtain ⟨r, hr⟩ := traverse_ok f lits (replaceSlashStar (replaceQuestion (slashPath (lits ++ w :: rest))))
    (.inr ⟨_, hmem, hpre⟩)
  refine ⟨r, hr, ?_⟩
  rw [mem_traverse _ _ _ _ _ _ hr]
  refine ⟨hmem, hpre, ?_⟩
  unfold nameMatches
  rw [Bool.or_eq_true]; left
  have hnb : '[' ∉ replaceSlashStar (replaceQuestion (slashPath (lits ++ w :: rest))) := by
    have h1 : '[' ∉ slashPath (lits ++ w :: rest) := by
      rw [mem_slashPath]
      rintro (⟨h, _⟩ | ⟨x, hx, hc⟩)
      · revert h; decide
      · obtain h | h := hall x hx
        · exact h.plain.noBracket hc
        · exact h.2.1 hc
    have h2 : '[' ∉ replaceQuestion (slashPath (lits ++ w :: rest)) := by
      intro h
      unfold replaceQuestion at h
      obtain ⟨c, hc, e⟩ := List.mem_map.1 h
      split at e
      · revert e; decide
      · exact h1 (e ▸ hc)
    have h3 : ∀ s : Str, '[' ∉ s → '[' ∉ replaceSlashStar s := by
      intro s
      fun_induction replaceSlashStar s with
      | case1 s ih => intro h; simp at h ⊢; exact ih h
      | case2 c s hne ih => intro h; simp at h ⊢; exact ⟨h.1, ih h.2⟩
      | case3 => simp
    exact h3 _ h2
  rw [fnmatch_iff_glob _ _ hnb]
  exact glob_replaceSlashStar (glob_replaceQuestion (glob_slashPath _ _ hlen hgl))

end SeisMIC
