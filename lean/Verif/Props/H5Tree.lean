import Verif.Lemmas.H5Good
import Verif.Props.HeaderStore

/-!
# Correlation databases as trees of groups: C92 (after removals), C198, C199
-/

namespace SeisMIC

variable {α δ : Type}

theorem tree_getData_start (t : H5Tree δ) (tag n1 s1 c1 n2 s2 c2 : Str) (cst cet : Option Str)
    (h : SaneReq n1 s1 c1 n2 s2 c2) (net sta cha : Str)
    (hr : requestCodes n1 s1 c1 n2 s2 c2 = (net, sta, cha)) :
    t.getData (n1 ++ '-' :: n2) (s1 ++ '-' :: s2) (c1 ++ '-' :: c2) tag cst cet =
      (let path := HPath.str ⟨tag, net, sta, cha, cst.getD c!"*", cet.getD c!"*"⟩
       if noWild path then
         match t.get (pathComps path) with
         | some (.set a) => .ok [(pathComps path, a)]
         | some (.group _) => .error .typeError
         | none => .error .keyError
       else
         t.traverse (pathComps ((splitOn '*' (replaceQuestion path)).headD []))
           (replaceSlashStar (replaceQuestion path))) := by
  unfold H5Tree.getData
  rw [sortRequest_pair _ _ _ _ _ _ h.noSep]
  rw [hr]
  rfl

/-- the group that is searched for a request with a missing time -/
theorem request_group (tag net sta cha : Str) (cst cet : Option Str)
    (hall : ∀ x ∈ [tag, net, sta, cha], SaneName x) (hs : ∀ t, cst = some t → SaneName t)
    (he : ∀ t, cet = some t → SaneName t) (hno : cst = none ∨ cet = none) :
    let path := HPath.str ⟨tag, net, sta, cha, cst.getD c!"*", cet.getD c!"*"⟩
    ¬ noWild path = true ∧
    pathComps ((splitOn '*' (replaceQuestion path)).headD []) = [tag, net, sta, cha] ++ cst.toList := by
  have hp := plain_slashPath hall
  have hcomp := pathComps_slashPath_slash _ fun x hx => ⟨(hall x hx).1, (hall x hx).2.1⟩
  rcases cst with _ | st
  · simp only [Option.getD_none, Option.toList_none, List.append_nil]
    have hstr : HPath.str ⟨tag, net, sta, cha, c!"*", cet.getD c!"*"⟩ =
        (slashPath [tag, net, sta, cha] ++ ['/']) ++ '*' :: ('/' :: cet.getD c!"*") := by
      simp [HPath.str, HPath.comps, slashPath]
    have hq : '?' ∉ (slashPath [tag, net, sta, cha] ++ ['/']) ++ '*' :: ('/' :: cet.getD c!"*") := by
      have : '?' ∉ cet.getD c!"*" := by
        cases cet with
        | none => decide
        | some et => exact (he et rfl).2.2.2.1
      simp [hp.noQuestion, this]
    rw [hstr, replaceQuestion_id _ hq, headD_splitOn_star _ _ (by simp [hp.noStar]), hcomp]
    exact ⟨by rw [noWild_iff]; simp, rfl⟩
  · obtain hno | rfl := hno
    · cases hno
    have hst := hs st rfl
    have hall' : ∀ x ∈ [tag, net, sta, cha, st], SaneName x := by
      intro x hx
      rw [show [tag, net, sta, cha, st] = [tag, net, sta, cha] ++ [st] from rfl, List.mem_append] at hx
      obtain hx | hx := hx
      · exact hall x hx
      · simp at hx; subst hx; exact hst
    have hp' := plain_slashPath hall'
    have hcomp' := pathComps_slashPath_slash _ fun x hx => ⟨(hall' x hx).1, (hall' x hx).2.1⟩
    simp only [Option.getD_none, Option.getD_some, Option.toList_some]
    have hstr : HPath.str ⟨tag, net, sta, cha, st, c!"*"⟩ =
        (slashPath [tag, net, sta, cha, st] ++ ['/']) ++ '*' :: [] := by
      simp [HPath.str, HPath.comps, slashPath]
    have hq : '?' ∉ (slashPath [tag, net, sta, cha, st] ++ ['/']) ++ '*' :: [] := by
      simp [hp'.noQuestion]
    rw [hstr, replaceQuestion_id _ hq, headD_splitOn_star _ _ (by simp [hp'.noStar]), hcomp']
    exact ⟨by rw [noWild_iff]; simp, rfl⟩

/-- which names pass the test for a request with a missing time -/
theorem request_matches (tag n1 s1 c1 n2 s2 c2 net sta cha : Str) (cst cet : Option Str)
    (h : SaneReq n1 s1 c1 n2 s2 c2) (hr : requestCodes n1 s1 c1 n2 s2 c2 = (net, sta, cha))
    (ht : SaneName tag) (hs : ∀ t, cst = some t → SaneName t)
    (he : ∀ t, cet = some t → SaneName t) (hno : cst = none ∨ cet = none) (p : HPath)
    (hp : ∀ x ∈ p.comps, SaneName x) :
    ([tag, net, sta, cha] ++ cst.toList <+: p.comps ∧
      nameMatches p.str (replaceSlashStar (replaceQuestion
        (HPath.str ⟨tag, net, sta, cha, cst.getD c!"*", cet.getD c!"*"⟩))) = true) ↔
    Addressed tag net sta cha cst cet p := by
  have hsane := requestCodes_sane h
  rw [hr] at hsane
  have hall : ∀ x ∈ [tag, net, sta, cha], SaneName x := by
    intro x hx; simp at hx
    rcases hx with rfl | rfl | rfl | rfl <;>
      first | exact ht | exact hsane.1 | exact hsane.2.1 | exact hsane.2.2
  obtain ⟨g1, g2⟩ := request_group tag net sta cha cst cet hall hs he hno
  have hf : H5.Sane (⟨false, [(p, ())]⟩ : H5 Unit) := by
    intro e he x hx
    simp at he
    subst he
    exact hp x hx
  have h1 := c20_times_exact ⟨false, [(p, ())]⟩ hf tag n1 s1 c1 n2 s2 c2 cst cet h ht hs he hno net sta cha hr
  rw [getData_start _ _ _ _ _ _ _ _ _ _ h, hr] at h1
  simp only at h1 g1 g2
  rw [if_neg g1, g2] at h1
  unfold H5.traverse H5.below at h1
  have hne : [tag, net, sta, cha] ++ cst.toList ≠ [] := by simp
  rw [if_neg hne] at h1
  rw [← List.isPrefixOf_iff_prefix]
  generalize ([tag, net, sta, cha] ++ cst.toList) = cs at h1
  generalize replaceSlashStar (replaceQuestion
    (HPath.str ⟨tag, net, sta, cha, cst.getD c!"*", cet.getD c!"*"⟩)) = pat at h1
  have hadd' : Addressed tag net sta cha cst cet p → Addressed tag net sta cha cst none p := by
    intro hadd
    exact ⟨hadd.1, hadd.2.1, hadd.2.2.1, hadd.2.2.2.1, hadd.2.2.2.2.1, by simp⟩
  by_cases hA : Addressed tag net sta cha cst none p
  · have hyes : ∃ e ∈ [(p, ())], Addressed tag net sta cha cst none e.1 := ⟨(p, ()), by simp, hA⟩
    rw [if_pos hyes] at h1
    by_cases hpre : cs.isPrefixOf p.comps = true
    · by_cases hm : nameMatches p.str pat = true
      · by_cases ha : Addressed tag net sta cha cst cet p
        · exact iff_of_true ⟨hpre, hm⟩ ha
        · simp [hpre, hm, ha] at h1
      · by_cases ha : Addressed tag net sta cha cst cet p
        · simp [hpre, hm, ha] at h1
        · exact iff_of_false (fun e => hm e.2) ha
    · simp [hpre] at h1
  · have hnot : ¬ ∃ e ∈ [(p, ())], Addressed tag net sta cha cst none e.1 := by
      rintro ⟨e, he', hh⟩
      simp at he'
      subst he'
      exact hA hh
    rw [if_neg hnot] at h1
    refine iff_of_false (fun e => ?_) fun ha => hA (hadd' ha)
    simp [e.1] at h1

/-! ## C198 -/

/-- **C198** (explicit times) After any history of sessions, additions and removals, a request with
codes, tag and both times gives the correlation that was added first for this place after the last
removal, and a `KeyError` if there is none. -/
theorem c198_single (h : List (DbStep δ)) (hs : ∀ s ∈ h, s.Sane) (tag n1 s1 c1 n2 s2 c2 cst cet : Str)
    (hreq : SaneReq n1 s1 c1 n2 s2 c2) (ht : SaneName tag) (hst : SaneName cst) (het : SaneName cet)
    (p : HPath) (hp : (p.net, p.sta, p.cha) = requestCodes n1 s1 c1 n2 s2 c2 ∧ p.tag = tag ∧
      p.cst = cst ∧ p.cet = cet) :
    (H5Tree.run h).getData (n1 ++ '-' :: n2) (s1 ++ '-' :: s2) (c1 ++ '-' :: c2) tag (some cst) (some cet) =
      match expected h p with
      | some d => .ok [(p.comps, some d)]
      | none => .error .keyError := by
  obtain ⟨hg, he⟩ := good_run h hs
  obtain ⟨t1, net, sta, cha, t2, t3⟩ := p
  obtain ⟨h1, rfl, rfl, rfl⟩ := hp
  simp only at h1 ht hst het ⊢
  rw [tree_getData_start _ _ _ _ _ _ _ _ _ _ hreq _ _ _ h1.symm]
  have hsane := requestCodes_sane hreq
  rw [← h1] at hsane
  have hall : ∀ x ∈ [t1, net, sta, cha, t2, t3], SaneName x := by
    intro x hx; simp at hx
    rcases hx with rfl | rfl | rfl | rfl | rfl | rfl <;>
      first | exact ht | exact hsane.1 | exact hsane.2.1 | exact hsane.2.2 | exact hst | exact het
  have hp := plain_slashPath hall
  simp only [Option.getD_some]
  have hnw : noWild (HPath.str ⟨t1, net, sta, cha, t2, t3⟩) = true :=
    (noWild_iff _).2 ⟨hp.noStar, hp.noQuestion⟩
  rw [if_pos hnw]
  have hpc : pathComps (HPath.str ⟨t1, net, sta, cha, t2, t3⟩) = HPath.comps ⟨t1, net, sta, cha, t2, t3⟩ :=
    pathComps_slashPath _ fun x hx => ⟨(hall x hx).1, (hall x hx).2.1⟩
  rw [hpc, hg.get_comps, he]
  cases expected h ⟨t1, net, sta, cha, t2, t3⟩ <;> rfl

/-- **C198** (open times) After any history, a request with codes and tag and without start or end
time gives exactly the correlations of these codes (and of the given time) that were added and not
removed since, each once. It only raises an error if there are none. -/
theorem c198_all (h : List (DbStep δ)) (hs : ∀ s ∈ h, s.Sane) (tag n1 s1 c1 n2 s2 c2 : Str)
    (cst cet : Option Str) (hreq : SaneReq n1 s1 c1 n2 s2 c2) (ht : SaneName tag)
    (hst : ∀ t, cst = some t → SaneName t) (het : ∀ t, cet = some t → SaneName t)
    (hno : cst = none ∨ cet = none)
    (net sta cha : Str) (hr : requestCodes n1 s1 c1 n2 s2 c2 = (net, sta, cha)) :
    (∀ r, (H5Tree.run h).getData (n1 ++ '-' :: n2) (s1 ++ '-' :: s2) (c1 ++ '-' :: c2) tag cst cet = .ok r →
      (r.map Prod.fst).Nodup ∧
      ∀ q a, (q, a) ∈ r ↔ ∃ p d, q = HPath.comps p ∧ a = some d ∧
        Addressed tag net sta cha cst cet p ∧ expected h p = some d) ∧
    (∀ e, (H5Tree.run h).getData (n1 ++ '-' :: n2) (s1 ++ '-' :: s2) (c1 ++ '-' :: c2) tag cst cet = .error e →
      e = .keyError ∧ ∀ p, Addressed tag net sta cha cst none p → expected h p = none) := by
  obtain ⟨hg, he⟩ := good_run h hs
  rw [← he]
  generalize H5Tree.run h = t at hg
  clear he
  rw [tree_getData_start _ _ _ _ _ _ _ _ _ _ hreq _ _ _ hr]
  have hsane := requestCodes_sane hreq
  rw [hr] at hsane
  have hall : ∀ x ∈ [tag, net, sta, cha], SaneName x := by
    intro x hx; simp at hx
    rcases hx with rfl | rfl | rfl | rfl <;>
      first | exact ht | exact hsane.1 | exact hsane.2.1 | exact hsane.2.2
  obtain ⟨g1, g2⟩ := request_group tag net sta cha cst cet hall hst het hno
  simp only at g1 g2 ⊢
  rw [if_neg g1, g2]
  generalize hpat : replaceSlashStar (replaceQuestion
    (HPath.str ⟨tag, net, sta, cha, cst.getD c!"*", cet.getD c!"*"⟩)) = pat
  have hmatch : ∀ p : HPath, SanePlace p → (([tag, net, sta, cha] ++ cst.toList <+: p.comps ∧
      nameMatches p.str pat = true) ↔ Addressed tag net sta cha cst cet p) := by
    intro p hp
    rw [← hpat]
    exact request_matches tag n1 s1 c1 n2 s2 c2 net sta cha cst cet hreq hr ht hst het hno p hp.1
  have hlen : ([tag, net, sta, cha] ++ cst.toList).length < 6 := by cases cst <;> simp
  have hpre : ∀ p : HPath, Addressed tag net sta cha cst none p →
      [tag, net, sta, cha] ++ cst.toList <+: p.comps := by
    intro p hp
    obtain ⟨k1, k2, k3, k4, k5, -⟩ := hp
    cases cst with
    | none => simp only [Option.toList_none, List.append_nil]; rw [prefix4_comps]; exact ⟨k1, k2, k3, k4⟩
    | some st =>
      exact (prefix5_comps _ _ _ _ _ p).2 ⟨k1, k2, k3, k4, k5 st rfl⟩
  unfold H5Tree.traverse
  cases hget : t.get ([tag, net, sta, cha] ++ cst.toList) with
  | none =>
    refine ⟨fun r hr => (by cases hr), fun e he => ?_⟩
    cases he
    refine ⟨rfl, fun p hp => ?_⟩
    obtain ⟨r, hr⟩ := hpre p hp
    have : t.get p.comps = none := by rw [← hr, get_append, hget]; rfl
    rw [hg.get_comps] at this
    simpa using this
  | some n =>
    cases n with
    | set a =>
      exfalso
      rcases hg.set _ _ hget with ⟨e, -⟩ | ⟨p, d, e, -⟩
      · simp at e
      · rw [e, comps_length] at hlen; omega
    | group l =>
      refine ⟨fun r hr => ?_, fun e he => by cases he⟩
      have hr' : r = (Node.group l).visit (fun name => nameMatches name pat)
          ([tag, net, sta, cha] ++ cst.toList) := by
        rw [Node.visit]; cases hr; rfl
      subst hr'
      have hord := ordered_get _ _ _ hg.ordered hget
      constructor
      · unfold List.Nodup
        rw [List.pairwise_map]
        exact (visit_sorted _ _ hord _).imp fun {a b} h e => by rw [e] at h; exact lt_irrefl _ h
      · intro q a
        rw [mem_visit _ _ hord]
        constructor
        · rintro ⟨r, rfl, hr, hm⟩
          have hq : t.get (([tag, net, sta, cha] ++ cst.toList) ++ r) = some (.set a) := by
            rw [get_append, hget]; exact hr
          rcases hg.set _ _ hq with ⟨e, -⟩ | ⟨p, d, e, hp, rfl⟩
          · simp at e
          · refine ⟨p, d, e, rfl, (hmatch p hp).1 ⟨⟨r, e⟩, ?_⟩, ?_⟩
            · rw [e] at hm; exact hm
            · rw [at_eq_some, ← e]; exact hq
        · rintro ⟨p, d, rfl, rfl, hadd, hat⟩
          rw [at_eq_some] at hat
          rcases hg.set _ _ hat with ⟨e, -⟩ | ⟨p', d', e, hp, -⟩
          · simp [HPath.comps] at e
          · rw [← comps_inj e] at hp
            obtain ⟨⟨r, hr⟩, hm⟩ := (hmatch p hp).2 hadd
            refine ⟨r, hr.symm, ?_, hm⟩
            rw [← hr, get_append, hget] at hat
            exact hat

/-! ## C199 -/

/-- **C199** After any history whatever, every read returns the correlations in alphabetical order of
their places, none twice. -/
theorem c199_order (h : List (DbStep δ)) (net sta cha tag : Str) (cst cet : Option Str)
    (r : List (List Str × Option δ)) (hr : (H5Tree.run h).getData net sta cha tag cst cet = .ok r) :
    r.Pairwise fun a b => a.1 < b.1 := by
  have ho := ordered_run h
  generalize H5Tree.run h = t at ho hr
  unfold H5Tree.getData at hr
  cases hs : sortRequest net sta cha with
  | error e => rw [hs] at hr; cases hr
  | ok x =>
    obtain ⟨n, s, c⟩ := x
    rw [hs] at hr
    simp only [bind, Except.bind] at hr
    split at hr
    · split at hr
      · cases hr; exact List.pairwise_singleton _ _
      · cases hr
      · cases hr
    · unfold H5Tree.traverse at hr
      split at hr
      · rename_i l hget
        cases hr
        have := visit_sorted (fun name => nameMatches name (replaceSlashStar (replaceQuestion
          (HPath.str ⟨tag, n, s, c, cst.getD c!"*", cet.getD c!"*"⟩)))) _ (ordered_get _ _ _ ho hget)
          (pathComps ((splitOn '*' (replaceQuestion
            (HPath.str ⟨tag, n, s, c, cst.getD c!"*", cet.getD c!"*"⟩))).headD []))
        rw [Node.visit] at this
        exact this
      · cases hr
      · cases hr

/-- **C199** In particular the correlations of one component combination come in the order of time:
by start, and for the same start by end (to 0.1 ms, the resolution of the names). -/
theorem c199_chronological (h : List (DbStep δ)) (net sta cha tag : Str) (cst cet : Option Str)
    (r : List (List Str × Option δ)) (hr : (H5Tree.run h).getData net sta cha tag cst cet = .ok r) :
    r.Pairwise fun a b => ∀ (tg n s c : Str) (t0 t1 u0 u1 : Int),
      InYears t0 → InYears t1 → InYears u0 → InYears u1 →
      a.1 = HPath.comps ⟨tg, n, s, c, fissures t0, fissures t1⟩ →
      b.1 = HPath.comps ⟨tg, n, s, c, fissures u0, fissures u1⟩ →
      t0 / 100000 < u0 / 100000 ∨ (t0 / 100000 = u0 / 100000 ∧ t1 / 100000 < u1 / 100000) := by
  refine (c199_order h net sta cha tag cst cet r hr).imp ?_
  intro a b hlt tg n s c t0 t1 u0 u1 h1 h2 h3 h4 ha hb
  rw [ha, hb] at hlt
  have hlt' : ∀ t u : Int, InYears t → InYears u → (fissures t < fissures u ↔ t / 100000 < u / 100000) := by
    intro t u ht hu
    rw [← List.not_le, c102_order u t hu ht]
    omega
  simp only [HPath.comps, List.cons_lt_cons_iff, lt_irrefl, false_or, true_and, and_false, or_false] at hlt
  rw [hlt' _ _ h1 h3, hlt' _ _ h2 h4, c102_names_partial _ _ h1 h3] at hlt
  exact hlt

/-! ## C92 after removals -/

/-- every group below the root contains a dataset -/
def Full (t : H5Tree δ) : Prop :=
  ∀ q l, q ≠ [] → t.get q = some (.group l) → ∃ r a, t.get (q ++ r) = some (.set a)

theorem full_create (t t' : H5Tree δ) (a : Option δ) (p : List Str) (hf : Full t)
    (hset : ∀ q b, t.get q = some (.set b) → t'.get q = some (.set b))
    (h : t.create a p = .ok t') : Full t' := by
  obtain ⟨h1, h2, h3, h4⟩ := get_create _ _ _ _ h
  intro q l hq hl
  by_cases hqp : q <+: p
  · obtain ⟨r, rfl⟩ := hqp
    exact ⟨r, a, h2⟩
  · rw [h3 q hqp] at hl
    obtain ⟨r, b, hb⟩ := hf q l hq hl
    exact ⟨r, b, hset _ _ hb⟩

/-- histories without removals -/
def DbStep.NoRemoval : DbStep δ → Prop
  | .remove .. => False
  | _ => True

theorem full_run (h : List (DbStep δ)) (hs : ∀ s ∈ h, s.Sane) (hn : ∀ s ∈ h, s.NoRemoval) :
    Full (H5Tree.run h) := by
  unfold H5Tree.run
  have : ∀ t : H5Tree δ, Good t → Full t → Full (h.foldl H5Tree.step t) := by
    induction h with
    | nil => exact fun t _ hf => hf
    | cons s h ih =>
      intro t hg hf
      refine ih (fun x hx => hs x (by simp [hx])) (fun x hx => hn x (by simp [hx])) _
        (good_step t hg s (hs s (by simp))).1 ?_
      have hs' := hs s (by simp)
      have hn' := hn s (by simp)
      cases s with
      | options =>
        unfold H5Tree.step
        simp only
        split
        · rename_i t' h'
          refine full_create t t' none _ hf ?_ h'
          intro q b hb
          obtain ⟨h1, h2, h3, h4⟩ := get_create _ _ _ _ h'
          rcases hg.set q b hb with ⟨rfl, rfl⟩ | ⟨p, d, rfl, hp, rfl⟩
          · exact h2
          · exact ((good_options t t' hg h').2 _ _).2 hb
        · exact hf
      | add l =>
        show Full (t.add l)
        unfold H5Tree.add
        clear ih hs hn hn'
        induction l generalizing t with
        | nil => exact hf
        | cons e l ihl =>
          have hp : SanePlace e.1 := hs' e (by simp)
          refine ihl (t.addOne e.1 e.2) (good_addOne t hg e.1 hp e.2).1 ?_ fun x hx => hs' x (by simp [hx])
          unfold H5Tree.addOne
          rw [pathComps_str _ hp]
          split
          · rename_i t' h'
            exact full_create t t' _ _ hf (fun q b hb => ((good_create t t' hg e.1 hp e.2 h').2 q b).2 (Or.inl hb)) h'
          · exact hf
      | remove n1 s1 c1 n2 s2 c2 tag cst => exact hn'.elim
  refine this _ good_empty ?_
  intro q l hq hl
  cases q with
  | nil => exact absurd rfl hq
  | cons c q => rw [H5Tree.empty, get_group_cons] at hl; cases hl

theorem channels_eq (h : List (DbStep δ)) (hs : ∀ s ∈ h, s.Sane) (tag net sta : Str)
    (hall : ∀ x ∈ [tag, net, sta], SaneName x) :
    ∃ l : List (Str × H5Tree δ), (H5Tree.run h).availableChannels tag net sta = .ok (l.map Prod.fst) ∧
      (l.Pairwise fun a b => a.1 < b.1) ∧
      ∀ c, c ∈ l.map Prod.fst ↔ ((H5Tree.run h).get [tag, net, sta, c]).isSome := by
  obtain ⟨hg, -⟩ := good_run h hs
  generalize H5Tree.run h = t at hg
  unfold H5Tree.availableChannels H5Tree.keys
  rw [pathComps_slashPath _ fun x hx => ⟨(hall x hx).1, (hall x hx).2.1⟩]
  have happ : ∀ c, t.get [tag, net, sta, c] = (t.get [tag, net, sta]).bind fun m => m.get [c] :=
    fun c => get_append t [tag, net, sta] [c]
  cases hget : t.get [tag, net, sta] with
  | none => exact ⟨[], rfl, List.Pairwise.nil, by simp [happ, hget]⟩
  | some n =>
    cases n with
    | set a =>
      exfalso
      rcases hg.set _ _ hget with ⟨e, -⟩ | ⟨p, d, e, -⟩
      · simp at e
      · simp [HPath.comps] at e
    | group l =>
      have hord := ordered_get _ _ _ hg.ordered hget
      cases hord with
      | group _ hso hch =>
      refine ⟨l, rfl, hso, fun c => ?_⟩
      rw [happ, hget]
      simp only [Option.bind_some, get_group_cons]
      constructor
      · intro hc
        obtain ⟨⟨y, n⟩, he, rfl⟩ := List.mem_map.1 hc
        rw [node_lookup_of_mem l hso _ _ he]
        simp [get_nil]
      · intro hc
        cases hl : l.lookup c with
        | none => rw [hl] at hc; cases hc
        | some n => exact List.mem_map.2 ⟨_, node_mem_of_lookup _ _ _ hl, rfl⟩

/-- **C92** After any history every channel combination with a stored correlation is listed, and the
list is alphabetical and without repetitions. Missing: that nothing else is listed, see
`c92_emptied_violated`. -/
theorem c92_history_partial (h : List (DbStep δ)) (hs : ∀ s ∈ h, s.Sane) (tag net sta : Str)
    (hall : ∀ x ∈ [tag, net, sta], SaneName x) :
    ∃ l, (H5Tree.run h).availableChannels tag net sta = .ok l ∧ (l.Pairwise fun a b => a < b) ∧
      ∀ p d, expected h p = some d → p.tag = tag → p.net = net → p.sta = sta → p.cha ∈ l := by
  obtain ⟨l, h1, h2, h3⟩ := channels_eq h hs tag net sta hall
  refine ⟨_, h1, by rw [List.pairwise_map]; exact h2, ?_⟩
  rintro ⟨_, _, _, c, b, e⟩ d hp rfl rfl rfl
  rw [h3]
  rw [← (good_run h hs).2, at_eq_some] at hp
  simp only [HPath.comps] at hp
  rw [show ∀ a b c d e f : Str, [a, b, c, d, e, f] = [a, b, c, d] ++ [e, f] from fun _ _ _ _ _ _ => rfl,
    get_append] at hp
  cases hk : (H5Tree.run h).get [_, _, _, c] with
  | none => rw [hk] at hp; cases hp
  | some n => rfl

/-- **C92** As long as nothing is removed, exactly the channel combinations with a stored correlation
are listed. -/
theorem c92_additions (h : List (DbStep δ)) (hs : ∀ s ∈ h, s.Sane) (hn : ∀ s ∈ h, s.NoRemoval)
    (tag net sta : Str) (hall : ∀ x ∈ [tag, net, sta], SaneName x) :
    ∃ l, (H5Tree.run h).availableChannels tag net sta = .ok l ∧ (l.Pairwise fun a b => a < b) ∧
      ∀ c, c ∈ l ↔ ∃ p d, expected h p = some d ∧ p.tag = tag ∧ p.net = net ∧ p.sta = sta ∧ p.cha = c := by
  obtain ⟨l, h1, h2, h3⟩ := channels_eq h hs tag net sta hall
  refine ⟨_, h1, by rw [List.pairwise_map]; exact h2, fun c => ⟨?_, ?_⟩⟩
  · intro hc
    rw [h3] at hc
    obtain ⟨hg, he⟩ := good_run h hs
    cases hk : (H5Tree.run h).get [tag, net, sta, c] with
    | none => rw [hk] at hc; cases hc
    | some n =>
      have hfind : ∃ r a, (H5Tree.run h).get ([tag, net, sta, c] ++ r) = some (.set a) := by
        cases n with
        | set a => exact ⟨[], a, by simpa using hk⟩
        | group k => exact full_run h hs hn _ k (by simp) hk
      obtain ⟨r, a, hr⟩ := hfind
      rcases hg.set _ _ hr with ⟨e, -⟩ | ⟨p, d, e, -, rfl⟩
      · simp at e
      · refine ⟨p, d, ?_, ?_⟩
        · rw [← he, at_eq_some, ← e]; exact hr
        · have := (prefix4_comps tag net sta c p).1 ⟨r, e⟩
          exact this
  · rintro ⟨p, d, hp, k1, k2, k3, rfl⟩
    obtain ⟨l', h1', -, h3'⟩ := c92_history_partial h hs tag net sta hall
    rw [h1] at h1'
    cases h1'
    exact h3' p d hp k1 k2 k3

/-- **C92** The start times listed for a channel combination are after any history exactly those of
the stored correlations, in the order of their names (which is the order of time), each once. -/
theorem c92_times_history (h : List (DbStep δ)) (hs : ∀ s ∈ h, s.Sane) (tag net sta cha : Str)
    (hall : ∀ x ∈ [tag, net, sta, cha], SaneName x) :
    ∃ l, ((H5Tree.run h).availableStarttimes net sta tag cha = .ok [(cha, l)] ∨
        ((H5Tree.run h).availableStarttimes net sta tag cha = .ok [] ∧ l = [])) ∧
      (l.Pairwise fun a b => a < b) ∧
      ∀ x, x ∈ l ↔ ∃ p d, expected h p = some d ∧ p.tag = tag ∧ p.net = net ∧ p.sta = sta ∧
        p.cha = cha ∧ p.cst = x := by
  obtain ⟨hg, he⟩ := good_run h hs
  rw [← he]
  generalize H5Tree.run h = t at hg
  clear he
  have hcha : cha.contains '*' = false := by
    rw [Bool.eq_false_iff]
    intro hh
    rw [List.contains_iff_mem] at hh
    exact (hall cha (by simp)).2.2.1 hh
  unfold H5Tree.availableStarttimes H5Tree.keys
  simp only [hcha, Bool.not_false, if_true]
  rw [pathComps_slashPath _ fun x hx => ⟨(hall x hx).1, (hall x hx).2.1⟩]
  have hsplit : ∀ p : HPath, p.tag = tag ∧ p.net = net ∧ p.sta = sta ∧ p.cha = cha →
      p.comps = [tag, net, sta, cha] ++ (p.cst :: [p.cet]) := by
    rintro p ⟨rfl, rfl, rfl, rfl⟩; rfl
  cases hget : t.get [tag, net, sta, cha] with
  | none =>
    refine ⟨[], Or.inr ⟨rfl, rfl⟩, List.Pairwise.nil, fun x => ?_⟩
    simp only [List.not_mem_nil, false_iff]
    rintro ⟨p, d, hp, k1, k2, k3, k4, -⟩
    rw [at_eq_some, hsplit p ⟨k1, k2, k3, k4⟩, get_append, hget] at hp
    cases hp
  | some n =>
    cases n with
    | set a =>
      exfalso
      rcases hg.set _ _ hget with ⟨e, -⟩ | ⟨p, d, e, -⟩
      · simp at e
      · simp [HPath.comps] at e
    | group l =>
      have hord := ordered_get _ _ _ hg.ordered hget
      cases hord with
      | group _ hso hch =>
      refine ⟨l.map Prod.fst, Or.inl rfl, by rw [List.pairwise_map]; exact hso, fun x => ⟨?_, ?_⟩⟩
      · intro hx
        obtain ⟨⟨y, n⟩, hy, rfl⟩ := List.mem_map.1 hx
        have hgy : t.get ([tag, net, sta, cha] ++ [y]) = some n := by
          rw [get_append, hget]
          simp only [Option.bind_some, get_group_cons]
          rw [node_lookup_of_mem l hso _ _ hy]
          simp [get_nil]
        have hfind : ∃ r a, t.get (([tag, net, sta, cha] ++ [y]) ++ r) = some (.set a) := by
          cases n with
          | set a => exact ⟨[], a, by rw [List.append_nil]; exact hgy⟩
          | group k => exact hg.times _ k rfl hgy
        obtain ⟨r, a, hr⟩ := hfind
        rcases hg.set _ _ hr with ⟨e, -⟩ | ⟨p, d, e, -, rfl⟩
        · simp at e
        · refine ⟨p, d, ?_, ?_⟩
          · rw [at_eq_some, ← e]; exact hr
          · exact (prefix5_comps tag net sta cha y p).1 ⟨r, e⟩
      · rintro ⟨p, d, hp, k1, k2, k3, k4, rfl⟩
        rw [at_eq_some, hsplit p ⟨k1, k2, k3, k4⟩, get_append, hget] at hp
        simp only [Option.bind_some, get_group_cons] at hp
        cases hl : l.lookup p.cst with
        | none => rw [hl] at hp; cases hp
        | some n => exact List.mem_map.2 ⟨_, node_mem_of_lookup _ _ _ hl, rfl⟩

/-- **C92** is violated after removals: the group of a channel combination whose correlations have
all been removed stays and is still listed, with no start times. A read of it gives an empty stream,
for a combination that never existed it is a `KeyError`. -/
theorem c92_emptied_violated :
    let p : HPath := ⟨c!"subdivision", c!"A-B", c!"S-T", c!"Z-Z", c!"2020001T000000.0000Z", c!"2020001T010000.0000Z"⟩
    let h : List (DbStep Nat) := [.options, .add [(p, 7)],
      .remove c!"A" c!"S" c!"Z" c!"B" c!"T" c!"Z" c!"subdivision" c!"2020*"]
    (H5Tree.run h).availableChannels c!"subdivision" c!"A-B" c!"S-T" = .ok [c!"Z-Z"] ∧
    (H5Tree.run h).availableStarttimes c!"A-B" c!"S-T" c!"subdivision" c!"*" = .ok [(c!"Z-Z", [])] ∧
    (H5Tree.run h).getData c!"A-B" c!"S-T" c!"Z-Z" c!"subdivision" none none = .ok [] ∧
    (H5Tree.run h).getData c!"A-B" c!"S-T" c!"E-E" c!"subdivision" none none = .error .keyError := by
  decide +kernel

/-- the hypotheses are met: a history with additions in the wrong order of time, a second attempt to
write one of them, and a removal -/
example :
    let p (t u : Str) : HPath := ⟨c!"subdivision", c!"A-B", c!"S-T", c!"Z-Z", t, u⟩
    let h : List (DbStep Nat) := [.options, .add [(p (fissures 7200000000000) (fissures 10800000000000), 3),
      (p (fissures 0) (fissures 3600000000000), 1)], .options,
      .add [(p (fissures 0) (fissures 3600000000000), 9),
        (p (fissures 3600000000000) (fissures 7200000000000), 2)],
      .remove c!"B" c!"T" c!"Z" c!"A" c!"S" c!"Z" c!"subdivision" (fissures 7200000000000)]
    (∀ s ∈ h, s.Sane) ∧
    (H5Tree.run h).getData c!"A-B" c!"S-T" c!"Z-Z" c!"subdivision" none none =
      .ok [((p (fissures 0) (fissures 3600000000000)).comps, some 1),
        ((p (fissures 3600000000000) (fissures 7200000000000)).comps, some 2)] := by
  refine ⟨?_, by decide +kernel⟩
  simp only [List.mem_cons, List.not_mem_nil, or_false, forall_eq_or_imp, forall_eq, DbStep.Sane,
    SaneReq]
  decide +kernel

end SeisMIC
