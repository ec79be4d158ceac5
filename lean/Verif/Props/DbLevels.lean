import Verif.Props.Db

/-! # Reading whole levels of a database: C20 -/

namespace SeisMIC

variable {δ : Type}

/-- the correlations among the objects of a result -/
def correlationsOf (r : List (H5Obj δ)) : List (HPath × δ) := r.filterMap fun o => match o with
  | .corr p d => some (p, d)
  | .co => none

theorem correlationsOf_map (l : List (HPath × δ)) : correlationsOf (l.map fun e => .corr e.1 e.2) = l := by
  unfold correlationsOf
  rw [List.filterMap_map]
  exact List.filterMap_some

theorem correlationsOf_append (a b : List (H5Obj δ)) : correlationsOf (a ++ b) = correlationsOf a ++ correlationsOf b :=
  List.filterMap_append

theorem traverse_sublist (f : H5 δ) (cs : List Str) (pat : Str) (r : List (H5Obj δ)) (h : f.traverse cs pat = .ok r) :
    (correlationsOf r).Sublist f.sets := by
  have hb : ∀ q : HPath × δ → Bool, ((f.below cs).filter q).Sublist f.sets := fun q =>
    List.filter_sublist.trans List.filter_sublist
  unfold H5.traverse at h
  simp only at h
  split at h
  · rw [← Except.ok.inj h, correlationsOf_append, correlationsOf_map]
    have : correlationsOf (if f.hasCo && nameMatches c!"/co" pat then [(H5Obj.co : H5Obj δ)] else []) = [] := by
      split <;> rfl
    rw [this]
    exact hb _
  · split at h
    · cases h
    · rw [← Except.ok.inj h, correlationsOf_map]
      exact hb _

/-- **C20** (nothing is invented) Whatever is requested, with or without wildcards: the
correlations in the result are stored correlations, each as often as it is stored, in the
order of the database. -/
theorem c20_stored (f : H5 δ) (net sta cha tag : Str) (cst cet : Option Str) (r : List (H5Obj δ))
    (h : f.getData net sta cha tag cst cet = .ok r) : (correlationsOf r).Sublist f.sets := by
  unfold H5.getData at h
  simp only [bind, Except.bind] at h
  split at h
  · cases h
  · split at h
    · split at h
      · rename_i d hd
        rw [← Except.ok.inj h]
        obtain ⟨l1, l2, h1, _⟩ := List.lookup_eq_some_iff.1 hd
        rw [h1]
        simp only [correlationsOf, List.filterMap_cons, List.filterMap_nil]
        exact List.singleton_sublist.2 (by simp)
      · cases h
    · exact traverse_sublist f _ _ r h

theorem fnmatch_stars (s l : Str) (k : Nat) (h : Plain l) :
    fnmatch s (l ++ List.replicate (k + 1) '*') = true ↔ ∃ v, s = l ++ v := by
  rw [fnmatch_plain_append s l _ h]
  have hst : ∀ (k : Nat) (v : Str), fnmatch v (List.replicate (k + 1) '*') = true := by
    intro k
    induction k with
    | zero => intro v; exact fnmatch_star_only v
    | succ k ih =>
      intro v
      rw [List.replicate_succ, fnmatch_star]
      exact ⟨[], v, rfl, ih v⟩
  constructor
  · rintro ⟨v, hv, _⟩; exact ⟨v, hv⟩
  · rintro ⟨v, hv⟩; exact ⟨v, hv, hst k v⟩

theorem replaceSlashStar_stars (k : Nat) :
    replaceSlashStar ((List.replicate k ['/', '*']).flatten) = List.replicate k '*' := by
  induction k with
  | zero => rfl
  | succ k ih =>
    rw [List.replicate_succ, List.flatten_cons, List.replicate_succ, ← ih]
    rfl

theorem traverse_level (f : H5 δ) (lits : List Str) (hl : lits ≠ []) (hs : ∀ x ∈ lits, SaneName x) (k : Nat) :
    f.traverse (pathComps ((splitOn '*' (replaceQuestion (slashPath lits ++ '/' :: '*' :: (List.replicate k ['/', '*']).flatten))).headD []))
      (replaceSlashStar (replaceQuestion (slashPath lits ++ '/' :: '*' :: (List.replicate k ['/', '*']).flatten))) =
    if ∃ e ∈ f.sets, lits.isPrefixOf e.1.comps = true then
      .ok ((f.sets.filter fun e => lits.isPrefixOf e.1.comps).map fun e => .corr e.1 e.2)
    else .error .keyError := by
  have hp := plain_slashPath hs
  have hcomp := pathComps_slashPath_slash _ fun x hx => ⟨(hs x hx).1, (hs x hx).2.1⟩
  have hq : '?' ∉ slashPath lits ++ '/' :: '*' :: (List.replicate k ['/', '*']).flatten := by
    simp [hp.noQuestion]
  rw [replaceQuestion_id _ hq, replaceSlashStar_mid _ _ hp.noStar, replaceSlashStar_stars]
  rw [show slashPath lits ++ '/' :: '*' :: (List.replicate k ['/', '*']).flatten =
    (slashPath lits ++ ['/']) ++ '*' :: (List.replicate k ['/', '*']).flatten by simp]
  rw [headD_splitOn_star _ _ (by simp [hp.noStar]), hcomp]
  by_cases hex : ∃ e ∈ f.sets, lits.isPrefixOf e.1.comps = true
  · rw [if_pos hex, traverse_eq _ _ _ hl hex]
    congr 2
    apply List.filter_congr
    intro e _
    rw [Bool.eq_iff_iff, Bool.and_eq_true]
    refine ⟨fun h => h.1, fun h1 => ⟨h1, ?_⟩⟩
    unfold nameMatches
    rw [Bool.or_eq_true]; left
    rw [← List.replicate_succ, fnmatch_stars _ _ _ hp]
    obtain ⟨t, ht⟩ := List.isPrefixOf_iff_prefix.1 h1
    refine ⟨slashPath t, ?_⟩
    unfold HPath.str
    rw [← ht, slashPath_append]
  · rw [if_neg hex, traverse_missing _ _ _ hl hex]

theorem sortRequest_star (net sta : Str) : sortRequest net sta c!"*" = .ok (net, sta, c!"*") := by
  unfold sortRequest
  have h1 : ∃ l, dottedCodes net sta c!"*" = l ∧ l.length ≤ 1 := by
    refine ⟨_, rfl, ?_⟩
    unfold dottedCodes
    rw [List.length_zipWith, show splitOn '-' c!"*" = [c!"*"] from by decide]
    exact Nat.min_le_right _ _
  obtain ⟨l, hl, h1⟩ := h1
  have : isort strLe l = l := by
    match l, h1 with
    | [], _ => rfl
    | [_], _ => rfl
  simp only [hl, this, ne_eq, not_true_eq_false, if_false]

/-- **C20** (whole levels) A request with literal codes for the tag, or for the tag and the
networks, or for the tag, the networks and the stations, and `*` for everything below them,
returns exactly the stored correlations with these codes, each once; if there are none, it
raises `KeyError`. -/
theorem c20_levels_exact (f : H5 δ) (tag net sta : Str) (ht : SaneName tag) :
    let answer (P : HPath → Prop) [DecidablePred P] : Except PyErr (List (H5Obj δ)) :=
      if ∃ e ∈ f.sets, P e.1 then .ok ((f.sets.filter fun e => decide (P e.1)).map fun e => .corr e.1 e.2) else .error .keyError
    f.getData c!"*" c!"*" c!"*" tag none none = answer (fun p => p.tag = tag) ∧
    (SaneName net → f.getData net c!"*" c!"*" tag none none = answer (fun p => p.tag = tag ∧ p.net = net)) ∧
    (SaneName net → SaneName sta →
      f.getData net sta c!"*" tag none none = answer (fun p => p.tag = tag ∧ p.net = net ∧ p.sta = sta)) := by
  have key : ∀ (lits : List Str) (k : Nat) (n s : Str) (P : HPath → Prop) [DecidablePred P], lits ≠ [] → (∀ x ∈ lits, SaneName x) →
      (∀ p : HPath, lits.isPrefixOf p.comps = true ↔ P p) →
      HPath.str ⟨tag, n, s, c!"*", c!"*", c!"*"⟩ = slashPath lits ++ '/' :: '*' :: (List.replicate k ['/', '*']).flatten →
      f.getData n s c!"*" tag none none =
        if ∃ e ∈ f.sets, P e.1 then .ok ((f.sets.filter fun e => decide (P e.1)).map fun e => .corr e.1 e.2) else .error .keyError := by
    intro lits k n s P _ hl hs hP hstr
    unfold H5.getData
    rw [sortRequest_star]
    simp only [bind, Except.bind, Option.getD_none, hstr]
    rw [if_neg (by rw [noWild_iff]; simp), traverse_level f lits hl hs k]
    simp only [hP]
    congr 3
    apply List.filter_congr
    intro e _
    rw [Bool.eq_iff_iff, hP, decide_eq_true_eq]
  refine ⟨key [tag] 4 c!"*" c!"*" (fun p => p.tag = tag) (by simp) (by simpa using ht) ?_ (by simp [HPath.str, HPath.comps, slashPath, List.replicate]), fun hn =>
    key [tag, net] 3 net c!"*" (fun p => p.tag = tag ∧ p.net = net) (by simp) (by simp [ht, hn]) ?_ (by simp [HPath.str, HPath.comps, slashPath, List.replicate]), fun hn hs =>
    key [tag, net, sta] 2 net sta (fun p => p.tag = tag ∧ p.net = net ∧ p.sta = sta) (by simp) (by simp [ht, hn, hs]) ?_ (by simp [HPath.str, HPath.comps, slashPath, List.replicate])⟩
  · intro p
    simp only [HPath.comps, List.isPrefixOf, Bool.and_true, beq_iff_eq]
    exact eq_comm
  · intro p
    simp only [HPath.comps, List.isPrefixOf, Bool.and_true, Bool.and_eq_true, beq_iff_eq]
    exact and_congr eq_comm eq_comm
  · intro p
    simp only [HPath.comps, List.isPrefixOf, Bool.and_true, Bool.and_eq_true, beq_iff_eq]
    exact and_congr eq_comm (and_congr eq_comm eq_comm)

/-- of two stations only the requested one is returned, with all its components and times -/
example :
    let f : H5 Nat := ⟨true, [(⟨c!"recombined", c!"X-X", c!"A-B", c!"Z-Z", c!"1", c!"2"⟩, 5), (⟨c!"recombined", c!"X-X", c!"A-BC", c!"Z-Z", c!"1", c!"2"⟩, 6),
      (⟨c!"recombined", c!"X-X", c!"A-B", c!"E-Z", c!"3", c!"4"⟩, 7)]⟩
    (f.getData c!"X-X" c!"A-B" c!"*" c!"recombined" none none).toOption.map (fun r => (correlationsOf r).map (·.2)) = some [5, 7] := by
  decide +kernel

end SeisMIC
