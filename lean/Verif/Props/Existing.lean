import Verif.Lemmas.Existing

/-!
# C07: existing correlations are recognised
-/

namespace SeisMIC

variable {δ : Type}

theorem dash_eq (a b : Str) : dash (a, b) = a ++ '-' :: b := by simp [dash]

theorem combKeys_dash (n0 n1 s0 s1 : Str) (h : ∀ x ∈ [n0, n1, s0, s1], NoSep x) :
    combKeys (dash (n0, n1), dash (s0, s1)) = some (dotted n0 s0, dotted n1 s1) := by
  unfold combKeys
  simp only [dash_eq]
  rw [splitOn_append _ _ _ (h s0 (by simp)).1, splitOn_eq_single _ _ (h s1 (by simp)).1,
    splitOn_append _ _ _ (h n0 (by simp)).1, splitOn_eq_single _ _ (h n1 (by simp)).1]

theorem combs_nodot (stations : List (Str × Str)) (method : Str) (combis : Option (List Str))
    (combs : List (Str × Str)) (hsane : ∀ s ∈ stations, NoSep s.1 ∧ NoSep s.2)
    (h : networkStationCombis stations method combis = .ok combs) : ∀ c ∈ combs, '.' ∉ c.1 := by
  intro c hc
  obtain ⟨a, ha, b, hb, rfl⟩ := networkStationCombis_mem stations method combis combs h c hc
  simp only [dash_eq, List.mem_append, List.mem_cons, not_or]
  exact ⟨(hsane a ha).1.2, by decide, (hsane b hb).1.2⟩

/-- **C07** (nothing is skipped that is not there) For every directory of
correlation files: if `find_existing_times` returns and a pair of traces is then
regarded as existing, some file of the directory contains a correlation with the
tag, the codes of the pair and the start time. -/
theorem c07_never_skips_missing (fiss : Int → Str) (dir : CorrDir δ) (stations : List (Str × Str))
    (method : Str) (rcombis : Option (List Str)) (tag : Str) (ex : ExDict)
    (hsane : ∀ s ∈ stations, NoSep s.1 ∧ NoSep s.2)
    (h : findExistingTimes dir stations method rcombis tag = .ok ex) (a b : TrHead)
    (ha : NoSep a.net ∧ NoSep a.sta) (hb : NoSep b.net ∧ NoSep b.sta)
    (hex : compareExisting fiss ex a b = true) :
    ∃ f ∈ dir, ∃ e ∈ f.2.sets, e.1.tag = tag ∧ (e.1.net, e.1.sta, e.1.cha) = corrCodes a b ∧
      e.1.cst = fiss (max a.start b.start) := by
  rw [findExistingTimes_eq] at h
  cases hc : networkStationCombis stations method rcombis with
  | error e => rw [hc] at h; cases h
  | ok combs =>
    rw [hc] at h
    simp only [Except.bind] at h
    rw [compareExisting_iff] at hex
    obtain ⟨x, y, hxy, hord, times, hget, hmem⟩ := hex
    have hcodes : corrCodes a b = (dash (x.net, y.net), dash (x.sta, y.sta), dash (x.cha, y.cha)) := by
      rw [corrCodes_eq]
      split
      · rename_i hle
        obtain ⟨rfl, rfl⟩ := hord.1 hle; rfl
      · rename_i hle
        obtain ⟨rfl, rfl⟩ | ⟨rfl, rfl⟩ := hxy
        · exact absurd (hord.2 ⟨rfl, rfl⟩) hle
        · rfl
    have hx : NoSep x.net ∧ NoSep x.sta ∧ NoSep y.net ∧ NoSep y.sta := by
      obtain ⟨rfl, rfl⟩ | ⟨rfl, rfl⟩ := hxy
      · exact ⟨ha.1, ha.2, hb.1, hb.2⟩
      · exact ⟨hb.1, hb.2, ha.1, ha.2⟩
    unfold ExDict.get at hget
    have hd1 : x.net ++ '.' :: x.sta = dotted x.net x.sta := by simp [dotted]
    have hd2 : y.net ++ '.' :: y.sta = dotted y.net y.sta := by simp [dotted]
    rw [hd1, hd2] at hget
    cases hg : get2 ex (dotted x.net x.sta) (dotted y.net y.sta) with
    | none =>
      exfalso
      unfold get2 at hg
      simp only [Option.bind_eq_bind] at hget hg
      cases h1 : ex.lookup (dotted x.net x.sta) with
      | none => rw [h1] at hget; simp at hget
      | some d2 =>
        rw [h1] at hget hg
        simp only [Option.bind_some] at hget hg
        rw [hg] at hget; simp at hget
    | some dd =>
      have hdd : dd.lookup (x.cha ++ '-' :: y.cha) = some times := by
        unfold get2 at hg
        simp only [Option.bind_eq_bind] at hget hg
        cases h1 : ex.lookup (dotted x.net x.sta) with
        | none => rw [h1] at hg; simp at hg
        | some d2 =>
          rw [h1] at hget hg
          simp only [Option.bind_some] at hget hg
          rw [hg] at hget; simpa using hget
      have := (exFold_ok dir tag combs [] ex (combs_nodot stations method rcombis combs hsane hc) h _ _ dd).1 hg
      obtain ⟨c, hcm, _, hk, ht⟩ | ⟨_, h0⟩ := this
      · have hce : c = (dash (x.net, y.net), dash (x.sta, y.sta)) := by
          apply combKeys_inj c _ (combs_nodot stations method rcombis combs hsane hc c hcm) ?_ _ hk
          · apply combKeys_dash
            intro z hz; simp at hz
            rcases hz with rfl | rfl | rfl | rfl
            · exact hx.1
            · exact hx.2.2.1
            · exact hx.2.1
            · exact hx.2.2.2
          · simp only [dash_eq, List.mem_append, List.mem_cons, not_or]
            exact ⟨hx.1.2, by decide, hx.2.2.1.2⟩
        obtain ⟨f, hf, htimes⟩ := combTimes_sound dir tag c dd ht _ times hdd
        rw [htimes, mem_keys4] at hmem
        obtain ⟨e, he, hp⟩ := hmem
        rw [isPrefixOf5] at hp
        refine ⟨f, ?_, e, he, hp.1, ?_, hp.2.2.2.2⟩
        · unfold combFiles at hf; exact (List.mem_filter.1 hf).1
        · rw [hcodes, hp.2.1, hp.2.2.1, hp.2.2.2.1, hce]
          simp [dash_eq]
      · simp [get2] at h0

/-- **C07** (what is there is recognised), what holds: the correlation of `a` and
`b` is in the only file whose name fits, `find_existing_times` did not fail, the
pair of stations is among the combinations, and ordering the pair by network and
station gives the same order as ordering by network, station and channel. Then
the pair is recognised as existing in both orders.
Missing for the full property: `c07_recognised_violated`, `c07_lookup_fails_violated`. -/
theorem c07_recognised_partial (fiss : Int → Str) (dir : CorrDir δ) (stations : List (Str × Str))
    (method : Str) (rcombis : Option (List Str)) (tag : Str) (ex : ExDict)
    (combs : List (Str × Str)) (hcomb : networkStationCombis stations method rcombis = .ok combs)
    (hsane : ∀ s ∈ stations, NoSep s.1 ∧ NoSep s.2)
    (h : findExistingTimes dir stations method rcombis tag = .ok ex) (a b : TrHead)
    (ha : NoSep a.net ∧ NoSep a.sta) (hb : NoSep b.net ∧ NoSep b.sta)
    (hdiff : a.net ++ a.sta ++ a.cha = b.net ++ b.sta ++ b.cha → a.net = b.net ∧ a.sta = b.sta ∧ a.cha = b.cha)
    (hin : ((corrCodes a b).1, (corrCodes a b).2.1) ∈ combs)
    (f : Str × H5 δ)
    (hone : dir.filter (fun f => fnmatch f.1 ((corrCodes a b).1 ++ ".".toList ++ (corrCodes a b).2.1 ++ "*.h5".toList)) = [f])
    (p : HPath) (d : δ) (hp : (p, d) ∈ f.2.sets) (ht : p.tag = tag)
    (hcodes : (p.net, p.sta, p.cha) = corrCodes a b) (hst : p.cst = fiss (max a.start b.start)) :
    compareExisting fiss ex a b = true ∧ compareExisting fiss ex b a = true := by
  rw [findExistingTimes_eq, hcomb] at h
  simp only [Except.bind] at h
  -- first and second
  obtain ⟨x, y, hxy, hord, hcc⟩ : ∃ x y : TrHead, ((x = a ∧ y = b) ∨ (x = b ∧ y = a)) ∧
      x.net ++ x.sta ++ x.cha ≤ y.net ++ y.sta ++ y.cha ∧
      corrCodes a b = (dash (x.net, y.net), dash (x.sta, y.sta), dash (x.cha, y.cha)) := by
    rw [corrCodes_eq]
    split
    · rename_i hle; exact ⟨a, b, .inl ⟨rfl, rfl⟩, hle, rfl⟩
    · rename_i hle; exact ⟨b, a, .inr ⟨rfl, rfl⟩, (List.le_total _ _).resolve_left hle, rfl⟩
  have hx : NoSep x.net ∧ NoSep x.sta ∧ NoSep y.net ∧ NoSep y.sta := by
    obtain ⟨rfl, rfl⟩ | ⟨rfl, rfl⟩ := hxy
    · exact ⟨ha.1, ha.2, hb.1, hb.2⟩
    · exact ⟨hb.1, hb.2, ha.1, ha.2⟩
  rw [hcc] at hin hone hcodes
  simp only at hin hone
  simp at hcodes
  obtain ⟨dd, hdd, times, hl, hm⟩ := combTimes_single dir tag (dash (x.net, y.net), dash (x.sta, y.sta)) f
    hone p d hp ht hcodes.1 hcodes.2.1
  have hkeys : combKeys (dash (x.net, y.net), dash (x.sta, y.sta)) =
      some (dotted x.net x.sta, dotted y.net y.sta) := by
    apply combKeys_dash
    intro z hz; simp at hz
    rcases hz with rfl | rfl | rfl | rfl
    · exact hx.1
    · exact hx.2.2.1
    · exact hx.2.1
    · exact hx.2.2.2
  have hg := (exFold_ok dir tag combs [] ex (combs_nodot stations method rcombis combs hsane hcomb) h
    (dotted x.net x.sta) (dotted y.net y.sta) dd).2
    (.inl ⟨_, hin, by
      have : combFiles dir (dash (x.net, y.net), dash (x.sta, y.sta)) = [f] := hone
      rw [this]; rfl, hkeys, hdd⟩)
  have hget : ex.get (x.net ++ '.' :: x.sta) (y.net ++ '.' :: y.sta) (x.cha ++ '-' :: y.cha) = some times := by
    have hd1 : x.net ++ '.' :: x.sta = dotted x.net x.sta := by simp [dotted]
    have hd2 : y.net ++ '.' :: y.sta = dotted y.net y.sta := by simp [dotted]
    unfold ExDict.get
    rw [hd1, hd2]
    unfold get2 at hg
    simp only [Option.bind_eq_bind] at hg ⊢
    cases h1 : ex.lookup (dotted x.net x.sta) with
    | none => rw [h1] at hg; simp at hg
    | some d2 =>
      rw [h1] at hg
      simp only [Option.bind_some] at hg ⊢
      rw [hg]
      simp only [Option.bind_some]
      rw [← hl, hcodes.2.2]
      simp [dash_eq]
  rw [hst] at hm
  rw [compareExisting_iff, compareExisting_iff]
  have hmax : max b.start a.start = max a.start b.start := by omega
  by_cases heq : x.net ++ x.sta ++ x.cha = y.net ++ y.sta ++ y.cha
  · -- the same codes
    have hab : a.net = b.net ∧ a.sta = b.sta ∧ a.cha = b.cha := by
      apply hdiff
      obtain ⟨rfl, rfl⟩ | ⟨rfl, rfl⟩ := hxy
      · exact heq
      · exact heq.symm
    have e1 : ∀ u v w z : TrHead, u.net = w.net → u.sta = w.sta → u.cha = w.cha →
        v.net = z.net → v.sta = z.sta → v.cha = z.cha →
        ex.get (u.net ++ '.' :: u.sta) (v.net ++ '.' :: v.sta) (u.cha ++ '-' :: v.cha) =
        ex.get (w.net ++ '.' :: w.sta) (z.net ++ '.' :: z.sta) (w.cha ++ '-' :: z.cha) := by
      intro u v w z h1 h2 h3 h4 h5 h6; rw [h1, h2, h3, h4, h5, h6]
    obtain ⟨h1, h2, h3⟩ := hab
    have hle : a.net ++ a.sta ++ a.cha ≤ b.net ++ b.sta ++ b.cha := by
      rw [h1, h2, h3]; exact List.le_refl _
    have hle' : b.net ++ b.sta ++ b.cha ≤ a.net ++ a.sta ++ a.cha := by
      rw [h1, h2, h3]; exact List.le_refl _
    have hgab : ex.get (a.net ++ '.' :: a.sta) (b.net ++ '.' :: b.sta) (a.cha ++ '-' :: b.cha) = some times := by
      rw [← hget]
      obtain ⟨rfl, rfl⟩ | ⟨rfl, rfl⟩ := hxy
      · rfl
      · exact e1 _ _ _ _ h1 h2 h3 h1.symm h2.symm h3.symm
    refine ⟨⟨a, b, .inl ⟨rfl, rfl⟩, ⟨fun _ => ⟨rfl, rfl⟩, fun _ => hle⟩, times, hgab, hm⟩,
      ⟨b, a, .inl ⟨rfl, rfl⟩, ⟨fun _ => ⟨rfl, rfl⟩, fun _ => hle'⟩, times, ?_, by rw [hmax]; exact hm⟩⟩
    rw [e1 b a a b h1.symm h2.symm h3.symm h1 h2 h3]; exact hgab
  · have hlt : ¬ y.net ++ y.sta ++ y.cha ≤ x.net ++ x.sta ++ x.cha := fun hh => heq (List.le_antisymm hord hh)
    have hne : x ≠ y := by rintro rfl; exact heq rfl
    obtain ⟨rfl, rfl⟩ | ⟨rfl, rfl⟩ := hxy
    · refine ⟨⟨x, y, .inl ⟨rfl, rfl⟩, ⟨fun _ => ⟨rfl, rfl⟩, fun _ => hord⟩, times, hget, hm⟩,
        ⟨x, y, .inr ⟨rfl, rfl⟩, ?_, times, hget, by rw [hmax]; exact hm⟩⟩
      simp only [hlt, false_iff]; rintro ⟨h, _⟩; exact hne h
    · refine ⟨⟨x, y, .inr ⟨rfl, rfl⟩, ?_, times, hget, hm⟩,
        ⟨x, y, .inl ⟨rfl, rfl⟩, ⟨fun _ => ⟨rfl, rfl⟩, fun _ => hord⟩, times, hget, by rw [hmax]; exact hm⟩⟩
      simp only [hlt, false_iff]; rintro ⟨h, _⟩; exact hne h

/-- **C07** for `betweenStations` without a request list, stations with codes of
the same length in networks with codes of the same length (any number of
stations): a correlation that is in the only file whose name fits is
recognised. -/
theorem c07_recognised_equal_length (fiss : Int → Str) (dir : CorrDir δ) (stations : List (Str × Str))
    (tag : Str) (ex : ExDict)
    (hsane : ∀ s ∈ stations, NoSep s.1 ∧ NoSep s.2)
    (h : findExistingTimes dir stations "betweenStations".toList none tag = .ok ex) (a b : TrHead)
    (ha : (a.net, a.sta) ∈ stations) (hb : (b.net, b.sta) ∈ stations)
    (hne : (a.net, a.sta) ≠ (b.net, b.sta))
    (hn : a.net.length = b.net.length) (hs : a.sta.length = b.sta.length)
    (f : Str × H5 δ)
    (hone : dir.filter (fun f => fnmatch f.1 ((corrCodes a b).1 ++ ".".toList ++ (corrCodes a b).2.1 ++ "*.h5".toList)) = [f])
    (p : HPath) (d : δ) (hp : (p, d) ∈ f.2.sets) (ht : p.tag = tag)
    (hcodes : (p.net, p.sta, p.cha) = corrCodes a b) (hst : p.cst = fiss (max a.start b.start)) :
    compareExisting fiss ex a b = true ∧ compareExisting fiss ex b a = true := by
  have hdiff : a.net ++ a.sta ++ a.cha = b.net ++ b.sta ++ b.cha → a.net = b.net ∧ a.sta = b.sta ∧ a.cha = b.cha := by
    intro h
    rw [List.append_assoc, List.append_assoc] at h
    obtain ⟨h1, h2⟩ := List.append_inj h hn
    obtain ⟨h3, h4⟩ := List.append_inj h2 hs
    exact ⟨h1, h3, h4⟩
  have hlen : (a.net ++ a.sta).length = (b.net ++ b.sta).length := by simp [hn, hs]
  have hne' : a.net ++ a.sta ≠ b.net ++ b.sta := by
    intro h
    obtain ⟨h1, h2⟩ := List.append_inj h hn
    exact hne (by rw [h1, h2])
  have ord : ∀ x y : TrHead, (x.net ++ x.sta).length = (y.net ++ y.sta).length →
      x.net ++ x.sta ≠ y.net ++ y.sta →
      (x.net ++ x.sta ++ [] ≤ y.net ++ y.sta ++ [] ↔ x.net ++ x.sta ++ x.cha ≤ y.net ++ y.sta ++ y.cha) := by
    intro x y h1 h2
    rw [append_le_append _ _ _ _ h1, append_le_append _ _ _ _ h1]
    simp [h2]
  obtain ⟨i, hi, hai⟩ := List.getElem_of_mem ha
  obtain ⟨j, hj, hbj⟩ := List.getElem_of_mem hb
  have hij : i ≠ j := by
    rintro rfl; exact hne (hai.symm.trans hbj)
  cases hcomb : networkStationCombis stations "betweenStations".toList none with
  | error e =>
    rw [findExistingTimes_eq, hcomb] at h; cases h
  | ok combs =>
    refine c07_recognised_partial fiss dir stations _ none tag ex combs hcomb hsane h a b
      (hsane _ ha) (hsane _ hb) hdiff ?_ f hone p d hp ht hcodes hst
    have hcomb' := hcomb
    unfold networkStationCombis at hcomb'
    simp only at hcomb'
    rw [if_pos (by decide)] at hcomb'
    cases hcomb'
    simp only [List.mem_map, List.mem_filter]
    have gi : stations.getD i ([], []) = (a.net, a.sta) := by
      simp only [List.getD, List.getElem?_eq_getElem hi, Option.getD_some, hai]
    have gj : stations.getD j ([], []) = (b.net, b.sta) := by
      simp only [List.getD, List.getElem?_eq_getElem hj, Option.getD_some, hbj]
    have hcond : ∀ x y : Str × Str, x ≠ y → (x.1 ≠ y.1 ∨ x.2 ≠ y.2) := by
      intro x y hxy
      by_cases h1 : x.1 = y.1
      · right; intro h2; exact hxy (Prod.ext h1 h2)
      · exact .inl h1
    obtain hlt | hlt := Nat.lt_or_gt_of_ne hij
    · refine ⟨(i, j), ⟨mem_pairsFrom.2 ⟨hi, hlt, hj⟩, ?_⟩, ?_⟩
      · simp only [gi, gj]
        rw [if_pos (hcond _ _ hne)]
      · simp only [gi, gj]
        rw [sortComb_eq, corrCodes_eq]
        by_cases hle : a.net ++ a.sta ++ a.cha ≤ b.net ++ b.sta ++ b.cha
        · rw [if_pos hle, if_pos ((ord a b hlen hne').2 hle)]
        · rw [if_neg hle, if_neg (mt (ord a b hlen hne').1 hle)]
    · refine ⟨(j, i), ⟨mem_pairsFrom.2 ⟨hj, hlt, hi⟩, ?_⟩, ?_⟩
      · simp only [gi, gj]
        rw [if_pos (hcond _ _ (Ne.symm hne))]
      · simp only [gi, gj]
        rw [sortComb_eq, corrCodes_eq]
        have hba := ord b a hlen.symm (Ne.symm hne')
        by_cases hle : a.net ++ a.sta ++ a.cha ≤ b.net ++ b.sta ++ b.cha
        · have : ¬ b.net ++ b.sta ++ b.cha ≤ a.net ++ a.sta ++ a.cha := by
            intro h2
            have := hdiff (List.le_antisymm hle h2)
            exact hne (by rw [this.1, this.2.1])
          rw [if_pos hle, if_neg (mt hba.1 this)]
        · have := (List.le_total (b.net ++ b.sta ++ b.cha) (a.net ++ a.sta ++ a.cha)).resolve_right hle
          rw [if_neg hle, if_pos (hba.2 this)]

/-- stations, a directory and traces that meet the hypotheses -/
example :
    let stations := [(c!"XN", c!"NEP07"), (c!"XN", c!"NEP06")]
    let a : TrHead := ⟨c!"XN", c!"NEP06", [], c!"HHZ", 0⟩
    let b : TrHead := ⟨c!"XN", c!"NEP07", [], c!"HHZ", 0⟩
    let file : H5 Nat := ⟨true, [(⟨c!"subdivision", c!"XN-XN", c!"NEP06-NEP07", c!"HHZ-HHZ", c!"t", c!"u"⟩, 1)]⟩
    let dir : CorrDir Nat := [(c!"XN-XN.NEP06-NEP07.h5", file)]
    let ex := [(c!"XN.NEP06", [(c!"XN.NEP07", [(c!"HHZ-HHZ", [c!"t"])])])]
    findExistingTimes dir stations c!"betweenStations" none c!"subdivision" = .ok ex ∧
    compareExisting (fun _ => c!"t") ex b a = true ∧
    dir.filter (fun f => fnmatch f.1 ((corrCodes a b).1 ++ c!"." ++ (corrCodes a b).2.1 ++ c!"*.h5")) =
      [(c!"XN-XN.NEP06-NEP07.h5", file)] := by
  refine ⟨by rfl, by decide, by rfl⟩

/-- **C07** is violated: stations `S1` and `S10`. The correlation is stored as
`S10-S1` (ordered with the channel), but looked for as `S1-S10` (ordered without
the channel), so it is computed again in every run. -/
theorem c07_recognised_violated :
    let stations := [(c!"XN", c!"S1"), (c!"XN", c!"S10")]
    let a : TrHead := ⟨c!"XN", c!"S1", [], c!"HHZ", 0⟩
    let b : TrHead := ⟨c!"XN", c!"S10", [], c!"HHZ", 0⟩
    let cc := corrCodes a b
    let file : H5 Nat := ⟨true, [(⟨c!"subdivision", cc.1, cc.2.1, cc.2.2, c!"t", c!"u"⟩, 1)]⟩
    let dir : CorrDir Nat := [(corrFileName cc.1 cc.2.1, file)]
    findExistingTimes dir stations c!"betweenStations" none c!"subdivision" = .ok [] ∧
    calcCrossCombis (fun _ => c!"t") [a, b] [] c!"betweenStations" none = .ok [(0, 1)] := by
  refine ⟨by rfl, by decide⟩

/-- **C07**: `find_existing_times` fails with `KeyError` if the name of another
pair extends the name of a pair (`S1-S2` and `S1-S22`), or if a file contains
only stacks. -/
theorem c07_lookup_fails_violated :
    let stations := [(c!"XN", c!"S1"), (c!"XN", c!"S2"), (c!"XN", c!"S22")]
    let file (tag st : Str) : H5 Nat := ⟨true, [(⟨tag, c!"XN-XN", st, c!"HHZ-HHZ", c!"t", c!"u"⟩, 1)]⟩
    findExistingTimes [(c!"XN-XN.S1-S2.h5", file c!"subdivision" c!"S1-S2"),
      (c!"XN-XN.S1-S22.h5", file c!"subdivision" c!"S1-S22")] stations c!"betweenStations" none
      c!"subdivision" = .error .keyError ∧
    findExistingTimes [(c!"XN-XN.S1-S2.h5", file c!"stack_86400" c!"S1-S2")] stations
      c!"betweenStations" none c!"subdivision" = .error .keyError := by
  constructor <;> rfl

end SeisMIC
