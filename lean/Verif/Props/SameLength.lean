import Verif.Props.Resume
import Verif.Props.Existing
import Verif.Spec.SameLength

/-!
# C160: a run over stations whose codes have the same length can always be
resumed, and repeating it computes nothing
-/

namespace SeisMIC

variable {δ : Type}

theorem mem_of_lookup_entry {α β : Type} [BEq α] [LawfulBEq α] (l : List (α × β)) (a : α) (b : β)
    (h : l.lookup a = some b) : (a, b) ∈ l := by
  induction l with
  | nil => cases h
  | cons p l ih =>
    rw [List.lookup_cons] at h
    split at h
    · rename_i hb
      simp only [Option.some.injEq] at h
      have := eq_of_beq hb
      subst this; subst h
      exact List.mem_cons_self
    · exact List.mem_cons_of_mem _ (ih h)

theorem plain_append (a b : Str) (ha : Plain a) (hb : Plain b) : Plain (a ++ b) := by
  intro c hc
  rcases List.mem_append.1 hc with h | h
  · exact ha c h
  · exact hb c h

/-- the files found for a pair of stations are named after the pair -/
theorem sameLength_file (stations : List (Str × Str)) (hs : SameLength stations) (dir : CorrDir δ)
    (hp : dir.Placed) (hd : dir.OfStations stations) (a b : Str × Str) (ha : a ∈ stations) (hb : b ∈ stations)
    (f : Str × H5 δ) (hf : f ∈ combFiles dir (dash (a.1, b.1), dash (a.2, b.2))) :
    f ∈ dir ∧ f.1 = corrFileName (dash (a.1, b.1)) (dash (a.2, b.2)) ∧
      ∃ e ∈ f.2.sets, e.1.tag = "subdivision".toList ∧ e.1.net = dash (a.1, b.1) ∧ e.1.sta = dash (a.2, b.2) := by
  unfold combFiles at hf
  obtain ⟨hfd, hm⟩ := List.mem_filter.1 hf
  obtain ⟨e, he, ht, a', ha', b', hb', hn, hst⟩ := hd f hfd
  have hname := hp.place f hfd e he
  have hpl : Plain (dash (a.1, b.1) ++ c!"." ++ dash (a.2, b.2)) := by
    have pa := (hs.codes a ha).2
    have pb := (hs.codes b hb).2
    unfold dash
    refine plain_append _ _ (plain_append _ _ (plain_append _ _ (plain_append _ _ pa.1 ?_) pb.1) ?_)
      (plain_append _ _ (plain_append _ _ pa.2 ?_) pb.2) <;> decide
  rw [fnmatch_plain_append _ _ _ hpl] at hm
  obtain ⟨v, hv, -⟩ := hm
  rw [hname] at hv
  unfold corrFileName at hv
  have l1 := hs.net a ha a' ha'
  have l2 := hs.net b hb b' hb'
  have l3 := hs.sta a ha a' ha'
  have l4 := hs.sta b hb b' hb'
  have ln : e.1.net.length = (dash (a.1, b.1)).length := by
    rw [hn]
    have : "-".toList.length = 1 := rfl
    simp only [dash, List.length_append, List.length_singleton]; omega
  have ls : e.1.sta.length = (dash (a.2, b.2)).length := by
    rw [hst]
    have : "-".toList.length = 1 := rfl
    simp only [dash, List.length_append, List.length_singleton]; omega
  have h1 := List.append_inj hv (by simp only [List.length_append]; omega)
  have h2 := List.append_inj h1.1 (by simp only [List.length_append]; omega)
  have h3 := List.append_inj h2.1 ln
  refine ⟨hfd, ?_, e, he, ht, h3.1, h2.2⟩
  rw [hname, h3.1, h2.2]

theorem filter_names_single (dir : CorrDir δ) (P : Str × H5 δ → Bool) (name : Str) (hn : (dir.map Prod.fst).Nodup)
    (h : ∀ f ∈ dir, P f = true → f.1 = name) : dir.filter P = [] ∨ ∃ f ∈ dir, dir.filter P = [f] := by
  induction dir with
  | nil => exact .inl rfl
  | cons y dir ih =>
    simp only [List.map_cons, List.nodup_cons] at hn
    have ih := ih hn.2 (fun f hf => h f (by simp [hf]))
    rw [List.filter_cons]
    by_cases hy : P y = true
    · rw [if_pos hy]
      right
      refine ⟨y, by simp, ?_⟩
      have : dir.filter P = [] := by
        rw [List.filter_eq_nil_iff]
        intro f hf hP
        apply hn.1
        rw [h y (by simp) hy, ← h f (by simp [hf]) hP]
        exact List.mem_map.2 ⟨f, hf, rfl⟩
      rw [this]
    · rw [if_neg hy]
      rcases ih with ih | ⟨f, hf, ih⟩
      · exact .inl ih
      · exact .inr ⟨f, by simp [hf], ih⟩

theorem sameLength_files (stations : List (Str × Str)) (hs : SameLength stations) (dir : CorrDir δ)
    (hp : dir.Placed) (hd : dir.OfStations stations) (a b : Str × Str) (ha : a ∈ stations) (hb : b ∈ stations) :
    combFiles dir (dash (a.1, b.1), dash (a.2, b.2)) = [] ∨
      ∃ f ∈ dir, combFiles dir (dash (a.1, b.1), dash (a.2, b.2)) = [f] := by
  apply filter_names_single dir _ (corrFileName (dash (a.1, b.1)) (dash (a.2, b.2))) hp.names
  intro f hf hP
  exact (sameLength_file stations hs dir hp hd a b ha hb f (List.mem_filter.2 ⟨hf, hP⟩)).2.1

theorem networkStationCombis_ok (stations : List (Str × Str)) (method : Str) (rcombis : Option (List Str))
    (hm : method ∈ methods) : ∃ combs, networkStationCombis stations method rcombis = .ok combs := by
  simp only [methods, List.mem_cons, List.not_mem_nil, or_false] at hm
  rcases hm with rfl | rfl | rfl | rfl | rfl
  · exact ⟨_, by unfold networkStationCombis; simp only; rw [if_pos (by decide)]⟩
  · exact ⟨_, by unfold networkStationCombis; simp only; rw [if_neg (by decide), if_pos (by decide)]⟩
  · exact ⟨_, by unfold networkStationCombis; simp only; rw [if_neg (by decide), if_pos (by decide)]⟩
  · exact ⟨_, by unfold networkStationCombis; simp only; rw [if_neg (by decide), if_neg (by decide), if_pos (by decide)]⟩
  · exact ⟨_, by unfold networkStationCombis; simp only
                 rw [if_neg (by decide), if_neg (by decide), if_neg (by decide), if_pos (by decide)]⟩

/-- **C160** (looking up never fails) For stations with codes of the same length
and a directory of their correlations `find_existing_times` returns, for every
method and every list of requested combinations. -/
theorem c160_lookup (stations : List (Str × Str)) (hs : SameLength stations) (dir : CorrDir δ)
    (hp : dir.Placed) (hd : dir.OfStations stations) (method : Str) (hm : method ∈ methods)
    (rcombis : Option (List Str)) :
    ∃ ex, findExistingTimes dir stations method rcombis "subdivision".toList = .ok ex := by
  rw [show findExistingTimes dir stations method rcombis "subdivision".toList = _ from findExistingTimes_eq _ _ _ _ _]
  obtain ⟨combs, hc⟩ := networkStationCombis_ok stations method rcombis hm
  have hmem := networkStationCombis_mem stations method rcombis combs hc
  rw [hc]
  simp only [Except.bind]
  clear hc
  generalize ([] : ExDict) = ex0
  induction combs generalizing ex0 with
  | nil => exact ⟨ex0, rfl⟩
  | cons c combs ih =>
    rw [List.foldlM_cons]
    have : ∃ ex1, exStep dir "subdivision".toList ex0 c = .ok ex1 := by
      obtain ⟨a, ha, b, hb, rfl⟩ := hmem c (by simp)
      unfold exStep
      rcases sameLength_files stations hs dir hp hd a b ha hb with h | ⟨f, hf, h⟩
      · rw [h]; exact ⟨ex0, rfl⟩
      · rw [if_neg (by rw [h]; simp)]
        obtain ⟨-, -, e, he, ht, hn, hst⟩ := sameLength_file stations hs dir hp hd a b ha hb f (by rw [h]; simp)
        obtain ⟨dd, hdd, -⟩ := combTimes_single dir "subdivision".toList _ f h e.1 e.2 he ht hn hst
        rw [hdd]
        simp only [bind, Except.bind, dash_eq]
        have na := (hs.codes a ha).1
        have nb := (hs.codes b hb).1
        rw [splitOn_append _ _ _ na.2.1, splitOn_eq_single _ _ nb.2.1, splitOn_append _ _ _ na.1.1,
          splitOn_eq_single _ _ nb.1.1]
        exact ⟨_, rfl⟩
    obtain ⟨ex1, h1⟩ := this
    rw [h1]
    exact ih (fun c hc => hmem c (by simp [hc])) ex1

theorem addOne_file (dir : CorrDir δ) (file : Str) (o : Out δ) (f : Str × H5 δ) (hf : f ∈ dir.addOne file o) :
    (∃ f' ∈ dir, ∀ e ∈ f'.2.sets, e ∈ f.2.sets) ∨ (o.path, o.val) ∈ f.2.sets := by
  induction dir with
  | nil =>
    simp only [CorrDir.addOne, List.mem_singleton] at hf
    subst hf
    right
    simp [H5.addOne]
  | cons y dir ih =>
    obtain ⟨g, h⟩ := y
    unfold CorrDir.addOne at hf
    split at hf
    · rcases List.mem_cons.1 hf with rfl | hf
      · refine .inl ⟨(g, h), by simp, fun e he => ?_⟩
        simp only [H5.addOne]
        split
        · exact he
        · simp only at he ⊢
          exact List.mem_append.2 (.inl he)
      · exact .inl ⟨f, by simp [hf], fun _ h => h⟩
    · rcases List.mem_cons.1 hf with rfl | hf
      · exact .inl ⟨(g, h), by simp, fun _ h => h⟩
      · rcases ih hf with ⟨f', h1, h2⟩ | h1
        · exact .inl ⟨f', by simp [h1], h2⟩
        · exact .inr h1

theorem ofStations_addAll (c : RunCfg δ) (stations : List (Str × Str)) (wins : List (List TrHead))
    (hwin : ∀ w ∈ wins, ∀ a ∈ w, (a.net, a.sta) ∈ stations) (dir : CorrDir δ) (l : List (Out δ))
    (hl : ∀ o ∈ l, ∃ w ∈ wins, ∃ a ∈ w, ∃ b ∈ w, o = c.out (a, b)) (hd : dir.OfStations stations) :
    (dir.addAll l).OfStations stations := by
  induction l generalizing dir with
  | nil => exact hd
  | cons o l ih =>
    refine ih (dir.addOne o.file o) (fun o ho => hl o (by simp [ho])) ?_
    intro f hf
    rcases addOne_file dir _ o f hf with ⟨f', h1, h2⟩ | h1
    · obtain ⟨e, he, h3⟩ := hd f' h1
      exact ⟨e, h2 e he, h3⟩
    · obtain ⟨w, hw, a, ha, b, hb, rfl⟩ := hl o (by simp)
      refine ⟨_, h1, by rw [out_path], ?_⟩
      rw [out_path, corrCodes_eq]
      split
      · exact ⟨(a.net, a.sta), hwin w hw a ha, (b.net, b.sta), hwin w hw b hb, rfl, rfl⟩
      · exact ⟨(b.net, b.sta), hwin w hw b hb, (a.net, a.sta), hwin w hw a ha, rfl, rfl⟩

theorem afterKills_ofStations (c : RunCfg δ) (stations : List (Str × Str)) (wins : List (List TrHead))
    (hm : c.method ∈ methods) (hc : c.method = "betweenComponents".toList → ∀ w ∈ wins, ∀ a ∈ w, a.cha ≠ [])
    (hwin : ∀ w ∈ wins, ∀ a ∈ w, (a.net, a.sta) ∈ stations) (g : Str → Str → Str → Str → Str)
    (dir d : CorrDir δ) (hp : dir.Placed)
    (hd : dir.OfStations stations) (hend : EndFixed c dir wins g) (h : AfterKills c stations wins dir d) :
    d.Placed ∧ d.OfStations stations ∧ EndFixed c d wins g := by
  induction h with
  | start => exact ⟨hp, hd, hend⟩
  | kill d ex out l _ _ hrun hl ih =>
    rw [run_eq c ex wins hm hc] at hrun
    cases hrun
    have hl' : ∀ o ∈ l, ∃ w ∈ wins, ∃ a ∈ w, ∃ b ∈ w, o = c.out (a, b) := fun o ho =>
      outputs_mem c ex wins o (killed_mem _ _ hl o ho)
    exact ⟨placed_addAll d l ih.1, ofStations_addAll c stations wins hwin d l hl' ih.2.1,
      endFixed_addAll c d wins g l ih.2.2 hl'⟩

/-- **C160** (a run can always be resumed) Let a run over stations with codes of the
same length be started on a directory of their correlations (or an empty one),
be killed at any point, started again, killed again, and so on. A further run
looks up the existing data without an error and ends, and afterwards every file
contains under every path exactly what an uninterrupted run leaves there. -/
theorem c160_resume (c : RunCfg δ) (stations : List (Str × Str)) (hs : SameLength stations)
    (wins : List (List TrHead)) (hwin : ∀ w ∈ wins, ∀ a ∈ w, (a.net, a.sta) ∈ stations)
    (dir d : CorrDir δ) (g : Str → Str → Str → Str → Str) (hm : c.method ∈ methods)
    (hc : c.method = "betweenComponents".toList → ∀ w ∈ wins, ∀ a ∈ w, a.cha ≠ [])
    (hp : dir.Placed) (hd : dir.OfStations stations) (hend : EndFixed c dir wins g)
    (hkills : AfterKills c stations wins dir d) :
    ∃ ex₀ ex full rest,
      findExistingTimes dir stations c.method c.rcombis "subdivision".toList = .ok ex₀ ∧
      findExistingTimes d stations c.method c.rcombis "subdivision".toList = .ok ex ∧
      c.run ex₀ wins = .ok full ∧ c.run ex wins = .ok rest ∧
      ∀ f p, (d.addAll rest).get f p = (dir.addAll full).get f p := by
  have hst : ∀ s ∈ stations, NoSep s.1 ∧ NoSep s.2 := fun s h => (hs.codes s h).1
  have hw : ∀ w ∈ wins, ∀ a ∈ w, NoSep a.net ∧ NoSep a.sta := fun w hw a ha =>
    hst (a.net, a.sta) (hwin w hw a ha)
  obtain ⟨hp', hd', -⟩ := afterKills_ofStations c stations wins hm hc hwin g dir d hp hd hend hkills
  obtain ⟨ex₀, h0⟩ := c160_lookup stations hs dir hp hd c.method hm c.rcombis
  obtain ⟨ex, h1⟩ := c160_lookup stations hs d hp' hd' c.method hm c.rcombis
  obtain ⟨full, rest, h2, h3, h4⟩ := c36_resume_partial c stations wins dir d g ex ex₀ hm hc hst hw hp hend
    hkills h0 h1
  exact ⟨ex₀, ex, full, rest, h0, h1, h2, h3, h4⟩

/-- the station pair of a correlated pair of traces is looked up -/
theorem sameLength_combs (stations : List (Str × Str)) (hs : SameLength stations) (method : Str)
    (combs : List (Str × Str)) (hcomb : networkStationCombis stations method none = .ok combs)
    (hm : method ∈ methods) (a b : TrHead) (ha : (a.net, a.sta) ∈ stations) (hb : (b.net, b.sta) ∈ stations)
    (h1 : method = "betweenStations".toList → a.net ≠ b.net ∨ a.sta ≠ b.sta)
    (h2 : method = "betweenComponents".toList ∨ method = "autoComponents".toList → a.net = b.net ∧ a.sta = b.sta) :
    ((corrCodes a b).1, (corrCodes a b).2.1) ∈ combs := by
  have hn := hs.net _ ha _ hb
  have hsl := hs.sta _ ha _ hb
  simp only at hn hsl
  -- the name of a pair of stations is the pair of codes of the correlation, in both orders
  have key : ∀ x y : TrHead, ((x = a ∧ y = b) ∨ (x = b ∧ y = a)) →
      (dash (sortComb x.net x.sta y.net y.sta [] []).1, dash (sortComb x.net x.sta y.net y.sta [] []).2.1) =
      ((corrCodes a b).1, (corrCodes a b).2.1) := by
    by_cases heq : a.net = b.net ∧ a.sta = b.sta
    · intro x y hxy
      have e1 : x.net = a.net ∧ x.sta = a.sta ∧ y.net = a.net ∧ y.sta = a.sta := by
        obtain ⟨rfl, rfl⟩ | ⟨rfl, rfl⟩ := hxy
        · exact ⟨rfl, rfl, heq.1.symm, heq.2.symm⟩
        · exact ⟨heq.1.symm, heq.2.symm, rfl, rfl⟩
      have e2 : ((corrCodes a b).1, (corrCodes a b).2.1) = (dash (a.net, a.net), dash (a.sta, a.sta)) := by
        rw [corrCodes_eq]
        split <;> simp [← heq.1, ← heq.2]
      rw [e2, sortComb_eq, e1.1, e1.2.1, e1.2.2.1, e1.2.2.2]
      split <;> rfl
    · have hlen : (a.net ++ a.sta).length = (b.net ++ b.sta).length := by simp [hn, hsl]
      have hne' : a.net ++ a.sta ≠ b.net ++ b.sta := by
        intro h
        exact heq (List.append_inj h hn)
      have ord : ∀ x y : TrHead, (x.net ++ x.sta).length = (y.net ++ y.sta).length →
          x.net ++ x.sta ≠ y.net ++ y.sta →
          (x.net ++ x.sta ++ [] ≤ y.net ++ y.sta ++ [] ↔ x.net ++ x.sta ++ x.cha ≤ y.net ++ y.sta ++ y.cha) := by
        intro x y h1 h2
        rw [append_le_append _ _ _ _ h1, append_le_append _ _ _ _ h1]
        simp [h2]
      intro x y hxy
      rw [sortComb_eq, corrCodes_eq]
      obtain ⟨rfl, rfl⟩ | ⟨rfl, rfl⟩ := hxy
      · by_cases hle : x.net ++ x.sta ++ x.cha ≤ y.net ++ y.sta ++ y.cha
        · rw [if_pos hle, if_pos ((ord x y hlen hne').2 hle)]
        · rw [if_neg hle, if_neg (mt (ord x y hlen hne').1 hle)]
      · have hba := ord x y hlen.symm (Ne.symm hne')
        by_cases hle : y.net ++ y.sta ++ y.cha ≤ x.net ++ x.sta ++ x.cha
        · have : ¬ x.net ++ x.sta ++ x.cha ≤ y.net ++ y.sta ++ y.cha := by
            intro h2
            have h3 := List.le_antisymm hle h2
            rw [List.append_assoc, List.append_assoc] at h3
            obtain ⟨h4, h5⟩ := List.append_inj h3 hn
            exact heq ⟨h4, (List.append_inj h5 hsl).1⟩
          rw [if_pos hle, if_neg (mt hba.1 this)]
        · have := (List.le_total (y.net ++ y.sta ++ y.cha) (x.net ++ x.sta ++ x.cha)).resolve_left hle
          rw [if_neg hle, if_pos (hba.2 this)]
  obtain ⟨i, hi, hai⟩ := List.getElem_of_mem ha
  obtain ⟨j, hj, hbj⟩ := List.getElem_of_mem hb
  have gi : stations.getD i ([], []) = (a.net, a.sta) := by
    simp only [List.getD, List.getElem?_eq_getElem hi, Option.getD_some, hai]
  have gj : stations.getD j ([], []) = (b.net, b.sta) := by
    simp only [List.getD, List.getElem?_eq_getElem hj, Option.getD_some, hbj]
  have kab := key a b (.inl ⟨rfl, rfl⟩)
  have kba := key b a (.inr ⟨rfl, rfl⟩)
  simp only [methods, List.mem_cons, List.not_mem_nil, or_false] at hm
  unfold networkStationCombis at hcomb
  simp only at hcomb
  rcases hm with rfl | rfl | rfl | rfl | rfl
  · rw [if_pos (by decide)] at hcomb
    cases hcomb
    have hne := h1 rfl
    have hij : i ≠ j := by
      rintro rfl
      have := hai.symm.trans hbj
      simp only [Prod.mk.injEq] at this
      rcases hne with h | h
      · exact h this.1
      · exact h this.2
    simp only [List.mem_map, List.mem_filter]
    obtain hlt | hlt := Nat.lt_or_gt_of_ne hij
    · refine ⟨(i, j), ⟨mem_pairsFrom.2 ⟨hi, hlt, hj⟩, ?_⟩, ?_⟩
      · simp only [gi, gj]; rw [if_pos hne]
      · simp only [gi, gj]; exact kab
    · refine ⟨(j, i), ⟨mem_pairsFrom.2 ⟨hj, hlt, hi⟩, ?_⟩, ?_⟩
      · simp only [gi, gj]; rw [if_pos (hne.imp Ne.symm Ne.symm)]
      · simp only [gi, gj]; exact kba
  · rw [if_neg (by decide), if_pos (by decide)] at hcomb
    cases hcomb
    have he := h2 (.inl rfl)
    rw [← kab, sortComb_eq]
    refine List.mem_map.2 ⟨_, ha, ?_⟩
    split <;> simp [he.1, he.2]
  · rw [if_neg (by decide), if_pos (by decide)] at hcomb
    cases hcomb
    have he := h2 (.inr rfl)
    rw [← kab, sortComb_eq]
    refine List.mem_map.2 ⟨_, ha, ?_⟩
    split <;> simp [he.1, he.2]
  · rw [if_neg (by decide), if_neg (by decide), if_pos (by decide)] at hcomb
    cases hcomb
    rcases Nat.le_total i j with hlt | hlt
    · refine List.mem_map.2 ⟨(i, j), mem_pairsFrom.2 ⟨hi, hlt, hj⟩, ?_⟩
      simp only [gi, gj]; exact kab
    · refine List.mem_map.2 ⟨(j, i), mem_pairsFrom.2 ⟨hj, hlt, hi⟩, ?_⟩
      simp only [gi, gj]; exact kba
  · rw [if_neg (by decide), if_neg (by decide), if_neg (by decide), if_pos (by decide)] at hcomb
    cases hcomb
    refine List.mem_map.2 ⟨(i, j), mem_pairsFrom.2 ⟨hi, Nat.zero_le _, hj⟩, ?_⟩
    simp only [gi, gj]; exact kab

/-- **C160** (repeating computes nothing) After a complete run over stations with
codes of the same length (all pairs requested), a run over the same windows, or
over some of them, finds every correlation and computes nothing. -/
theorem c160_again (c : RunCfg δ) (stations : List (Str × Str)) (hs : SameLength stations)
    (wins wins' : List (List TrHead)) (hwin : ∀ w ∈ wins, ∀ a ∈ w, (a.net, a.sta) ∈ stations)
    (hsub : ∀ w ∈ wins', w ∈ wins)
    (dir : CorrDir δ) (g : Str → Str → Str → Str → Str) (hm : c.method ∈ methods) (hr : c.rcombis = none)
    (hc : c.method = "betweenComponents".toList → ∀ w ∈ wins, ∀ a ∈ w, a.cha ≠ [])
    (hp : dir.Placed) (hd : dir.OfStations stations) (hend : EndFixed c dir wins g)
    (ex : ExDict) (out : List (Out δ))
    (hex : findExistingTimes dir stations c.method c.rcombis "subdivision".toList = .ok ex)
    (hout : c.run ex wins = .ok out) :
    ∃ ex', findExistingTimes (dir.addAll out) stations c.method c.rcombis "subdivision".toList = .ok ex' ∧
      c.run ex' wins' = .ok [] := by
  have hst : ∀ s ∈ stations, NoSep s.1 ∧ NoSep s.2 := fun s h => (hs.codes s h).1
  have hw : ∀ w ∈ wins, ∀ a ∈ w, NoSep a.net ∧ NoSep a.sta := fun w hw a ha =>
    hst (a.net, a.sta) (hwin w hw a ha)
  rw [run_eq c ex wins hm hc] at hout
  cases hout
  have hp' := placed_addAll dir (c.outputs ex wins) hp
  have hd' := ofStations_addAll c stations wins hwin dir (c.outputs ex wins) (outputs_mem c ex wins) hd
  obtain ⟨ex', h1⟩ := c160_lookup stations hs _ hp' hd' c.method hm c.rcombis
  refine ⟨ex', h1, ?_⟩
  rw [run_eq c ex' wins' hm (fun h w hw => hc h w (hsub w hw))]
  congr 1
  unfold RunCfg.outputs
  rw [List.map_eq_nil_iff, List.flatten_eq_nil_iff]
  intro l hl
  obtain ⟨w, hw', rfl⟩ := List.mem_map.1 hl
  have hww := hsub w hw'
  unfold pairsOf
  rw [List.map_eq_nil_iff, List.filter_eq_nil_iff]
  intro q hq hQ
  have hq := (mem_prodL _ _).1 hq
  simp only [List.mem_range] at hq
  have hmem : ∀ i, i < (isort trLe w).length → (isort trLe w).getD i noTr ∈ w := by
    intro i hi
    simp only [List.getD, List.getElem?_eq_getElem hi, Option.getD_some]
    exact mem_isort.1 (List.getElem_mem _)
  have ha := hmem q.1 hq.1
  have hb := hmem q.2 hq.2
  simp only [Bool.and_eq_true, Bool.not_eq_true'] at hQ
  obtain ⟨hrel, hval, hcmp⟩ := hQ
  have hauto : c.method = "autoComponents".toList → q.1 = q.2 := by
    intro h
    rw [h, mrel_3] at hrel
    exact of_decide_eq_true hrel
  have hpair : ((isort trLe w).getD q.1 noTr, (isort trLe w).getD q.2 noTr) ∈
      pairsOf c.method (isort trLe w) (fun a b => mval c.method c.rcombis a b && !compareExisting c.fiss [] a b) := by
    unfold pairsOf
    refine List.mem_map.2 ⟨q, List.mem_filter.2 ⟨(mem_prodL _ _).2 (by simpa using hq), ?_⟩, rfl⟩
    simp only [hrel, hval, compareExisting_nil, Bool.not_false, Bool.and_self]
  generalize hae : (isort trLe w).getD q.1 noTr = a at *
  generalize hbe : (isort trLe w).getD q.2 noTr = b at *
  have hall : c.out (a, b) ∈ c.outputs [] wins := by
    unfold RunCfg.outputs
    exact List.mem_map.2 ⟨(a, b), List.mem_flatten.2 ⟨_, List.mem_map.2 ⟨w, hww, rfl⟩, hpair⟩, rfl⟩
  -- the correlation is in the directory
  have hget : (dir.addAll (c.outputs ex wins)).get (c.out (a, b)).file (c.out (a, b)).path ≠ none := by
    rw [complete_get c dir stations wins g ex hst hw hp hend hex, get_addAll]
    intro h
    rw [Option.or_eq_none_iff, Option.map_eq_none_iff, List.find?_eq_none] at h
    exact h.2 _ hall (by simp)
  obtain ⟨v, hv⟩ := Option.ne_none_iff_exists'.1 hget
  unfold CorrDir.get at hv
  simp only [Option.bind_eq_bind, Option.bind_eq_some_iff] at hv
  obtain ⟨h5, hl1, hl2⟩ := hv
  have hf := mem_of_lookup_entry _ _ _ hl1
  have he : ((c.out (a, b)).path, v) ∈ h5.sets := mem_of_lookup_entry _ _ _ hl2
  obtain ⟨combs, hcomb⟩ := networkStationCombis_ok stations c.method c.rcombis hm
  have hna := hwin w hww a ha
  have hnb := hwin w hww b hb
  have hin : ((corrCodes a b).1, (corrCodes a b).2.1) ∈ combs := by
    rw [hr] at hcomb
    refine sameLength_combs stations hs c.method combs hcomb hm a b hna hnb ?_ ?_
    · intro h
      rw [h, mval_1] at hval
      simp only [Bool.and_eq_true, decide_eq_true_eq] at hval
      exact hval.1
    · rintro (h | h)
      · rw [h, mval_2] at hval
        simp only [decide_eq_true_eq] at hval
        exact ⟨hval.1, hval.2.1⟩
      · have := hauto h
        rw [this, hbe] at hae
        subst hae
        exact ⟨rfl, rfl⟩
  have hfile : (c.out (a, b)).file = corrFileName (corrCodes a b).1 (corrCodes a b).2.1 := by
    unfold Out.file; rw [out_path]
  have hone : combFiles (dir.addAll (c.outputs ex wins)) ((corrCodes a b).1, (corrCodes a b).2.1) =
      [((c.out (a, b)).file, h5)] := by
    obtain ⟨x, hx, y, hy, hxy⟩ := networkStationCombis_mem _ _ _ _ hcomb _ hin
    have hself : ((c.out (a, b)).file, h5) ∈
        combFiles (dir.addAll (c.outputs ex wins)) ((corrCodes a b).1, (corrCodes a b).2.1) := by
      unfold combFiles
      refine List.mem_filter.2 ⟨hf, ?_⟩
      have hpl : Plain ((corrCodes a b).1 ++ c!"." ++ (corrCodes a b).2.1) := by
        have pa := (hs.codes x hx).2
        have pb := (hs.codes y hy).2
        simp only [Prod.mk.injEq] at hxy
        rw [hxy.1, hxy.2]
        unfold dash
        refine plain_append _ _ (plain_append _ _ (plain_append _ _ (plain_append _ _ pa.1 ?_) pb.1) ?_)
          (plain_append _ _ (plain_append _ _ pa.2 ?_) pb.2) <;> decide
      rw [hfile]
      rw [fnmatch_plain_append _ _ _ hpl]
      refine ⟨c!".h5", rfl, ?_⟩
      decide
    rcases sameLength_files stations hs _ hp' hd' x y hx hy with h | ⟨f, _, h⟩
    · rw [hxy, h] at hself; simp at hself
    · rw [hxy, h] at hself
      rw [hxy, h]
      rw [List.mem_singleton] at hself
      rw [hself]
  have hdiff : a.net ++ a.sta ++ a.cha = b.net ++ b.sta ++ b.cha → a.net = b.net ∧ a.sta = b.sta ∧ a.cha = b.cha := by
    intro h
    rw [List.append_assoc, List.append_assoc] at h
    obtain ⟨h1, h2⟩ := List.append_inj h (hs.net _ hna _ hnb)
    obtain ⟨h3, h4⟩ := List.append_inj h2 (hs.sta _ hna _ hnb)
    exact ⟨h1, h3, h4⟩
  have := (c07_recognised_partial c.fiss _ stations c.method c.rcombis "subdivision".toList ex' combs hcomb hst h1 a b
    (hst _ hna) (hst _ hnb) hdiff hin _ hone _ v he (by rw [out_path]) (by rw [out_path]) (by rw [out_path])).1
  rw [this] at hcmp
  cases hcmp

/-- stations and windows that meet the hypotheses; the first run computes two
correlations, the second none -/
example :
    let stations := [(c!"XN", c!"A"), (c!"XN", c!"B")]
    SameLength stations ∧ (∀ w ∈ exampleWins, ∀ a ∈ w, (a.net, a.sta) ∈ stations) ∧
    (∃ ex, findExistingTimes exampleDir stations c!"betweenStations" none c!"subdivision" = .ok ex ∧
      exampleRun.run ex exampleWins = .ok [⟨⟨c!"subdivision", c!"XN-XN", c!"A-B", c!"HHZ-HHZ", c!"10", c!"19"⟩, (10, 10)⟩]) ∧
    exampleDir.OfStations stations := by
  refine ⟨⟨?_, by decide, by decide⟩, by decide, ⟨_, by rfl, by decide +kernel⟩, ?_⟩
  · unfold NoSep; decide
  · intro f hf
    simp only [exampleDir, List.mem_singleton] at hf
    subst hf
    exact ⟨_, List.mem_singleton.2 rfl, rfl, (c!"XN", c!"A"), by simp, (c!"XN", c!"B"), by simp, rfl, rfl⟩

/-- codes of different length: stations `S1` and `S10`. The correlation that the
first run stores is not found by the second run, which computes it again -/
example :
    let stations := [(c!"XN", c!"S1"), (c!"XN", c!"S10")]
    let win : List TrHead := [⟨c!"XN", c!"S1", [], c!"HHZ", 0⟩, ⟨c!"XN", c!"S10", [], c!"HHZ", 0⟩]
    let o : Out (Int × Int) := ⟨⟨c!"subdivision", c!"XN-XN", c!"S10-S1", c!"HHZ-HHZ", c!"0", c!"9"⟩, (0, 0)⟩
    exampleRun.run [] [win] = .ok [o] ∧
    findExistingTimes (CorrDir.addAll [] [o]) stations c!"betweenStations" none c!"subdivision" = .ok [] := by
  exact ⟨by decide +kernel, by rfl⟩

end SeisMIC
