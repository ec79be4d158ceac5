import Verif.Lemmas.Combis
import Verif.Lemmas.DbRead

namespace SeisMIC

variable {δ β : Type}

theorem lookup_filter_ne (d : List (Str × β)) (k k' : Str) :
    (d.filter fun x => decide (x.1 ≠ k)).lookup k' = if k' = k then none else d.lookup k' := by
  induction d with
  | nil => simp
  | cons e d ih =>
    obtain ⟨a, v⟩ := e
    rw [List.filter_cons]
    by_cases ha : a = k
    · subst ha
      simp only [ne_eq, not_true, decide_false, Bool.false_eq_true, if_false, List.lookup_cons]
      rw [show (List.filter (fun x => decide ¬x.1 = a) d).lookup k' = _ from ih]
      by_cases hk : k' = a
      · simp [hk]
      · have : (k' == a) = false := by simpa using hk
        simp [hk, this]
    · simp only [ne_eq, ha, not_false_eq_true, decide_true, if_true, List.lookup_cons]
      rw [show (List.filter (fun x => decide ¬x.1 = k) d).lookup k' = _ from ih]
      by_cases hk : k' = a
      · subst hk; simp [ha]
      · have : (k' == a) = false := by simpa using hk
        simp [this]

theorem lookup_dictSet (d : List (Str × β)) (k k' : Str) (v : β) :
    (d.filter (fun x => decide (x.1 ≠ k)) ++ [(k, v)]).lookup k' = if k' = k then some v else d.lookup k' := by
  rw [List.lookup_append, lookup_filter_ne]
  by_cases h : k' = k
  · simp [h, List.lookup_cons]
  · have : (k' == k) = false := by simpa using h
    simp [h, this, List.lookup_cons]

theorem lookup_dictUpdate_single (d : List (Str × β)) (k k' : Str) (v : β) :
    (dictUpdate d [(k, v)]).lookup k' = if k' = k then some v else d.lookup k' := by
  unfold dictUpdate
  simp only [List.foldl_cons, List.foldl_nil]
  exact lookup_dictSet d k k' v

theorem lookup_dictUpdate (d new : List (Str × β)) (k : Str) (v : β)
    (h : (dictUpdate d new).lookup k = some v) : (k, v) ∈ new ∨ d.lookup k = some v := by
  unfold dictUpdate at h
  induction new generalizing d with
  | nil => exact .inr h
  | cons e new ih =>
    rw [List.foldl_cons] at h
    obtain h | h := ih _ h
    · exact .inl (by simp [h])
    · rw [lookup_dictSet] at h
      split at h
      · rename_i hk; cases h; subst hk; exact .inl (by simp)
      · exact .inr h

theorem lookup_dictUpdate_nodup (d new : List (Str × β)) (k : Str) (v : β)
    (hn : (new.map Prod.fst).Nodup) (h : (k, v) ∈ new) :
    (dictUpdate d new).lookup k = some v := by
  unfold dictUpdate
  induction new generalizing d with
  | nil => simp at h
  | cons e new ih =>
    rw [List.foldl_cons]
    rw [List.map_cons, List.nodup_cons] at hn
    rw [List.mem_cons] at h
    obtain rfl | h := h
    · have hk : k ∉ new.map Prod.fst := hn.1
      have : ∀ (d' : List (Str × β)), d'.lookup k = some v →
          (new.foldl (fun d e => d.filter (fun x => decide (x.1 ≠ e.1)) ++ [e]) d').lookup k = some v := by
        clear ih hn
        induction new with
        | nil => intro d' h; exact h
        | cons f new ih' =>
          intro d' h
          rw [List.foldl_cons]
          apply ih' (fun hm => hk (by simp at hm ⊢; exact .inr hm))
          rw [lookup_dictSet, if_neg (fun e => hk (by simp [e])), h]
      apply this
      rw [lookup_dictSet, if_pos rfl]
    · exact ih _ hn.2 h

theorem exists_first_occ (d : Char) (s : Str) (hm : d ∈ s) : ∃ u v, s = u ++ d :: v ∧ d ∉ u := by
  induction s with
  | nil => simp at hm
  | cons e s ih =>
    by_cases he : e = d
    · exact ⟨[], s, by simp [he], by simp⟩
    · have : d ∈ s := by
        rw [List.mem_cons] at hm
        exact hm.resolve_left (Ne.symm he)
      obtain ⟨u, v, rfl, hu⟩ := ih this
      exact ⟨e :: u, v, by simp, by simp [hu]; exact Ne.symm he⟩

theorem splitOn_eq_pair (c : Char) (s a b : Str) (h : splitOn c s = [a, b]) :
    s = a ++ c :: b ∧ c ∉ a ∧ c ∉ b := by
  induction s generalizing a with
  | nil => simp [splitOn] at h
  | cons d s ih =>
    simp only [splitOn] at h
    split at h
    · rename_i hd
      subst hd
      simp at h
      obtain ⟨rfl, h⟩ := h
      have hd : d ∉ s := by
        intro hm
        obtain ⟨u, v, rfl, hu⟩ := exists_first_occ d s hm
        rw [splitOn_append _ _ _ hu] at h
        have := splitOn_ne_nil d v
        simp at h
        exact this h.2
      rw [splitOn_eq_single _ _ hd] at h
      simp at h
      subst h
      exact ⟨rfl, by simp, hd⟩
    · rename_i hd
      split at h
      · simp at h
      · rename_i x xs hx
        simp at h
        obtain ⟨rfl, rfl⟩ := h
        obtain ⟨e, h1, h2⟩ := ih x hx
        refine ⟨by rw [e]; rfl, ?_, h2⟩
        simp [h1]; exact Ne.symm hd

theorem dotted_inj (n s n' s' : Str) (h1 : '.' ∉ n) (h2 : '.' ∉ n') (h : dotted n s = dotted n' s') :
    n = n' ∧ s = s' := by
  unfold dotted at h
  have h : n ++ '.' :: s = n' ++ '.' :: s' := by simpa using h
  induction n generalizing n' with
  | nil =>
    cases n' with
    | nil => simpa using h
    | cons c n' => simp at h; exact absurd (List.mem_cons.2 (.inl h.1)) h2
  | cons c n ih =>
    cases n' with
    | nil => simp at h; exact absurd (by simp [h.1]) h1
    | cons d n' =>
      simp at h
      have := ih n' (fun e => h1 (by simp [e])) (fun e => h2 (by simp [e])) (by simp [dotted, h.2]) h.2
      exact ⟨by rw [h.1, this.1], this.2⟩

/-- keys of a combination in the dictionary -/
def combKeys (c : Str × Str) : Option (Str × Str) :=
  match splitOn '-' c.2, splitOn '-' c.1 with
  | [s0, s1], [n0, n1] => some (dotted n0 s0, dotted n1 s1)
  | _, _ => none

theorem combKeys_inj (c c' : Str × Str) (h1 : '.' ∉ c.1) (h2 : '.' ∉ c'.1) (k : Str × Str)
    (h : combKeys c = some k) (h' : combKeys c' = some k) : c = c' := by
  unfold combKeys at h h'
  split at h
  · rename_i s0 s1 n0 n1 e1 e2
    split at h'
    · rename_i s0' s1' n0' n1' e1' e2'
      cases h
      simp at h'
      obtain ⟨es, _, _⟩ := splitOn_eq_pair _ _ _ _ e1
      obtain ⟨en, _, _⟩ := splitOn_eq_pair _ _ _ _ e2
      obtain ⟨es', _, _⟩ := splitOn_eq_pair _ _ _ _ e1'
      obtain ⟨en', _, _⟩ := splitOn_eq_pair _ _ _ _ e2'
      rw [en] at h1
      rw [en'] at h2
      obtain ⟨rfl, rfl⟩ := dotted_inj _ _ _ _ (fun e => h2 (by simp [e])) (fun e => h1 (by simp [e])) h'.1
      obtain ⟨rfl, rfl⟩ := dotted_inj _ _ _ _ (fun e => h2 (by simp [e])) (fun e => h1 (by simp [e])) h'.2
      rcases c with ⟨a, b⟩; rcases c' with ⟨a', b'⟩
      simp_all
    · cases h'
  · cases h

/-- files of a combination -/
def combFiles (dir : CorrDir δ) (c : Str × Str) : CorrDir δ :=
  dir.filter fun f => fnmatch f.1 (c.1 ++ c!"." ++ c.2 ++ c!"*.h5")

/-- start times of a combination -/
def combTimes (dir : CorrDir δ) (tag : Str) (c : Str × Str) : Except PyErr (List (Str × List Str)) :=
  (combFiles dir c).foldlM (fun d f => do
    let new ← f.2.availableStarttimes c.1 c.2 tag c!"*"
    pure (dictUpdate d new)) []

def get2 (ex : ExDict) (k1 k2 : Str) : Option (List (Str × List Str)) := do
  let d2 ← ex.lookup k1
  d2.lookup k2

def exStep (dir : CorrDir δ) (tag : Str) (ex : ExDict) (c : Str × Str) : Except PyErr ExDict := do
    if (combFiles dir c).isEmpty then pure ex
    else
      let d ← combTimes dir tag c
      match splitOn '-' c.2, splitOn '-' c.1 with
      | [s0, s1], [n0, n1] =>
        let inner := (ex.lookup (dotted n0 s0)).getD []
        pure (dictUpdate ex [(dotted n0 s0, dictUpdate inner [(dotted n1 s1, d)])])
      | _, _ => throw .valueError

theorem findExistingTimes_eq (dir : CorrDir δ) (stations : List (Str × Str)) (method : Str)
    (rcombis : Option (List Str)) (tag : Str) :
    findExistingTimes dir stations method rcombis tag =
      (networkStationCombis stations method rcombis).bind fun combs => combs.foldlM (exStep dir tag) [] := rfl

theorem exStep_ok (dir : CorrDir δ) (tag : Str) (ex ex' : ExDict) (c : Str × Str)
    (h : exStep dir tag ex c = .ok ex') :
    ((combFiles dir c).isEmpty = true ∧ ex' = ex) ∨
    ((combFiles dir c).isEmpty = false ∧ ∃ dd k, combTimes dir tag c = .ok dd ∧ combKeys c = some k ∧
      ∀ k1 k2, get2 ex' k1 k2 = if (k1, k2) = k then some dd else get2 ex k1 k2) := by
  unfold exStep at h
  split at h
  · rename_i he; cases h; exact .inl ⟨he, rfl⟩
  · rename_i he
    right
    refine ⟨by simpa using he, ?_⟩
    cases hd : combTimes dir tag c with
    | error e => rw [hd] at h; cases h
    | ok dd =>
      rw [hd] at h
      simp only [bind, Except.bind] at h
      split at h
      · rename_i s0 s1 n0 n1 e1 e2
        cases h
        refine ⟨dd, (dotted n0 s0, dotted n1 s1), rfl, by unfold combKeys; rw [e1, e2], ?_⟩
        intro k1 k2
        unfold get2
        rw [lookup_dictUpdate_single]
        by_cases h1 : k1 = dotted n0 s0
        · subst h1
          rw [if_pos rfl]
          simp only [Option.bind_eq_bind, Option.bind_some]
          rw [lookup_dictUpdate_single]
          by_cases h2 : k2 = dotted n1 s1
          · simp [h2]
          · rw [if_neg h2, if_neg (by simp [h2])]
            cases ex.lookup (dotted n0 s0) <;> simp
        · rw [if_neg h1, if_neg (by simp [h1])]
      · cases h

theorem exFold_ok (dir : CorrDir δ) (tag : Str) (combs : List (Str × Str)) (ex0 ex : ExDict)
    (hdot : ∀ c ∈ combs, '.' ∉ c.1) (h : combs.foldlM (exStep dir tag) ex0 = .ok ex)
    (k1 k2 : Str) (dd : List (Str × List Str)) :
    get2 ex k1 k2 = some dd ↔
      (∃ c ∈ combs, (combFiles dir c).isEmpty = false ∧ combKeys c = some (k1, k2) ∧
        combTimes dir tag c = .ok dd) ∨
      ((¬ ∃ c ∈ combs, (combFiles dir c).isEmpty = false ∧ combKeys c = some (k1, k2)) ∧
        get2 ex0 k1 k2 = some dd) := by
  induction combs generalizing ex0 with
  | nil => cases h; simp
  | cons c combs ih =>
    rw [List.foldlM_cons] at h
    cases hs : exStep dir tag ex0 c with
    | error e => rw [hs] at h; cases h
    | ok ex1 =>
      rw [hs] at h
      have ih := ih ex1 (fun c hc => hdot c (by simp [hc])) h
      rw [ih]
      obtain ⟨he, rfl⟩ | ⟨he, d1, k, hd1, hk, hg⟩ := exStep_ok dir tag ex0 ex1 c hs
      · have he' : ¬ (combFiles dir c).isEmpty = false := by rw [he]; simp
        constructor
        · rintro (⟨c', hc', h1⟩ | ⟨hn, h1⟩)
          · exact .inl ⟨c', by simp [hc'], h1⟩
          · refine .inr ⟨?_, h1⟩
            rintro ⟨c', hc', h1, h2⟩
            rw [List.mem_cons] at hc'
            obtain rfl | hc' := hc'
            · exact he' h1
            · exact hn ⟨c', hc', h1, h2⟩
        · rintro (⟨c', hc', h1⟩ | ⟨hn, h1⟩)
          · rw [List.mem_cons] at hc'
            obtain rfl | hc' := hc'
            · exact absurd h1.1 he'
            · exact .inl ⟨c', hc', h1⟩
          · exact .inr ⟨fun ⟨c', hc', h2⟩ => hn ⟨c', by simp [hc'], h2⟩, h1⟩
      · rw [hg]
        by_cases hkk : (k1, k2) = k
        · subst hkk
          rw [if_pos rfl]
          have uniq : ∀ c' ∈ combs, combKeys c' = some (k1, k2) → c' = c := by
            intro c' hc' hk'
            exact combKeys_inj c' c (hdot c' (by simp [hc'])) (hdot c (by simp)) _ hk' hk
          constructor
          · rintro (⟨c', hc', h1, h2, h3⟩ | ⟨hn, h3⟩)
            · exact .inl ⟨c', by simp [hc'], h1, h2, h3⟩
            · cases h3
              exact .inl ⟨c, by simp, he, hk, hd1⟩
          · rintro (⟨c', hc', h1, h2, h3⟩ | ⟨hn, _⟩)
            · by_cases hex : ∃ c ∈ combs, (combFiles dir c).isEmpty = false ∧ combKeys c = some (k1, k2)
              · obtain ⟨c'', hc'', h1', h2'⟩ := hex
                have e1 := uniq c'' hc'' h2'
                have e2 : c' = c := by
                  rw [List.mem_cons] at hc'
                  obtain rfl | hc' := hc'
                  · rfl
                  · exact uniq c' hc' h2
                subst e2; subst e1
                exact .inl ⟨c'', hc'', h1', h2', h3⟩
              · right
                refine ⟨hex, ?_⟩
                have e2 : c' = c := by
                  rw [List.mem_cons] at hc'
                  obtain rfl | hc' := hc'
                  · rfl
                  · exact absurd ⟨c', hc', h1, h2⟩ hex
                subst e2
                rw [hd1] at h3; cases h3; rfl
            · exact absurd ⟨c, by simp, he, hk⟩ hn
        · rw [if_neg hkk]
          have : combKeys c ≠ some (k1, k2) := by
            rw [hk]; intro e; cases e; exact hkk rfl
          simp [this]

theorem combTimes_sound (dir : CorrDir δ) (tag : Str) (c : Str × Str) (dd : List (Str × List Str))
    (h : combTimes dir tag c = .ok dd) (ch : Str) (times : List Str) (hl : dd.lookup ch = some times) :
    ∃ f ∈ combFiles dir c, times = f.2.keys [tag, c.1, c.2, ch] := by
  unfold combTimes at h
  have key : ∀ (l : CorrDir δ) (d0 dd : List (Str × List Str)),
      l.foldlM (fun d f => do
        let new ← f.2.availableStarttimes c.1 c.2 tag c!"*"
        pure (dictUpdate d new)) d0 = Except.ok dd → dd.lookup ch = some times →
      (∃ f ∈ l, times = f.2.keys [tag, c.1, c.2, ch]) ∨ d0.lookup ch = some times := by
    intro l
    induction l with
    | nil => intro d0 dd h hl; cases h; exact .inr hl
    | cons f l ih =>
      intro d0 dd h hl
      rw [List.foldlM_cons] at h
      cases ha : f.2.availableStarttimes c.1 c.2 tag c!"*" with
      | error e => rw [ha] at h; cases h
      | ok new =>
        rw [ha] at h
        obtain ⟨f', hf', e⟩ | h' := ih _ _ h hl
        · exact .inl ⟨f', by simp [hf'], e⟩
        · obtain hm | h' := lookup_dictUpdate _ _ _ _ h'
          · left
            refine ⟨f, by simp, ?_⟩
            unfold H5.availableStarttimes at ha
            rw [if_neg (by decide)] at ha
            split at ha
            · cases ha
            · cases ha
              simp only [List.mem_map] at hm
              obtain ⟨k, _, e⟩ := hm
              cases e; rfl
          · exact .inr h'
  obtain h | h := key _ _ _ h hl
  · exact h
  · simp at h

theorem combTimes_single (dir : CorrDir δ) (tag : Str) (c : Str × Str) (f : Str × H5 δ)
    (hone : combFiles dir c = [f]) (p : HPath) (d : δ) (hp : (p, d) ∈ f.2.sets)
    (ht : p.tag = tag) (hn : p.net = c.1) (hs : p.sta = c.2) :
    ∃ dd, combTimes dir tag c = .ok dd ∧ ∃ times, dd.lookup p.cha = some times ∧ p.cst ∈ times := by
  unfold combTimes
  rw [hone]
  have ha : f.2.availableStarttimes c.1 c.2 tag c!"*" =
      .ok ((f.2.keys [tag, c.1, c.2]).map fun k => (k, f.2.keys [tag, c.1, c.2, k])) := by
    unfold H5.availableStarttimes
    rw [if_neg (by decide), if_neg]
    · have : (f.2.keys [tag, c.1, c.2]).filter (fun k => fnmatch k c!"*") = f.2.keys [tag, c.1, c.2] := by
        rw [List.filter_eq_self]; intro k _; exact fnmatch_star_only k
      rw [this]
    · simp only [List.isEmpty_iff]
      intro h0
      have : (p, d) ∈ f.2.below [tag, c.1, c.2] := by
        simp [H5.below, hp, HPath.comps, List.isPrefixOf, ht, hn, hs]
      rw [h0] at this; simp at this
  refine ⟨dictUpdate [] ((f.2.keys [tag, c.1, c.2]).map fun k => (k, f.2.keys [tag, c.1, c.2, k])), ?_,
    f.2.keys [tag, c.1, c.2, p.cha], ?_, ?_⟩
  · simp [List.foldlM_cons, ha, bind, Except.bind, pure, Except.pure]
  · apply lookup_dictUpdate_nodup
    · rw [List.map_map]
      have : (Prod.fst ∘ fun k => (k, f.2.keys [tag, c.1, c.2, k])) = id := rfl
      rw [this, List.map_id]
      exact nodup_eraseDups _
    · rw [List.mem_map]
      refine ⟨p.cha, ?_, rfl⟩
      unfold H5.keys
      rw [List.mem_eraseDups, List.mem_filterMap]
      refine ⟨(p, d), ?_, by simp [HPath.comps]⟩
      simp [H5.below, hp, HPath.comps, List.isPrefixOf, ht, hn, hs]
  · rw [mem_keys4]
    exact ⟨(p, d), hp, (isPrefixOf5 ..).2 ⟨ht, hn, hs, rfl, rfl⟩⟩

/-- the names in the list of combinations come from the stations -/
theorem networkStationCombis_mem (stations : List (Str × Str)) (method : Str) (combis : Option (List Str))
    (combs : List (Str × Str)) (h : networkStationCombis stations method combis = .ok combs)
    (c : Str × Str) (hc : c ∈ combs) :
    ∃ a ∈ stations, ∃ b ∈ stations, c = (dash (a.1, b.1), dash (a.2, b.2)) := by
  have hget : ∀ i, i < stations.length → stations.getD i ([], []) ∈ stations := by
    intro i hi
    simp only [List.getD, List.getElem?_eq_getElem hi, Option.getD_some]
    exact List.getElem_mem _
  have hname : ∀ a b : Str × Str, a ∈ stations → b ∈ stations →
      ∃ x ∈ stations, ∃ y ∈ stations, (dash (sortComb a.1 a.2 b.1 b.2 [] []).1,
        dash (sortComb a.1 a.2 b.1 b.2 [] []).2.1) = (dash (x.1, y.1), dash (x.2, y.2)) := by
    intro a b ha hb
    rw [sortComb_eq]
    split
    · exact ⟨a, ha, b, hb, rfl⟩
    · exact ⟨b, hb, a, ha, rfl⟩
  unfold networkStationCombis at h
  simp only at h
  split at h
  · cases h
    simp only [List.mem_map, List.mem_filter] at hc
    obtain ⟨⟨i, j⟩, ⟨hij, _⟩, rfl⟩ := hc
    rw [mem_pairsFrom] at hij
    exact hname _ _ (hget i (by omega)) (hget j (by omega))
  · split at h
    · cases h
      simp only [List.mem_map] at hc
      obtain ⟨⟨n, s⟩, hm, rfl⟩ := hc
      exact ⟨(n, s), hm, (n, s), hm, rfl⟩
    · split at h
      · cases h
        simp only [List.mem_map] at hc
        obtain ⟨⟨i, j⟩, hij, rfl⟩ := hc
        rw [mem_pairsFrom] at hij
        exact hname _ _ (hget i (by omega)) (hget j (by omega))
      · split at h
        · cases h
          simp only [List.mem_map] at hc
          obtain ⟨⟨i, j⟩, hij, rfl⟩ := hc
          rw [mem_pairsFrom] at hij
          exact hname _ _ (hget i (by omega)) (hget j (by omega))
        · cases h

end SeisMIC
