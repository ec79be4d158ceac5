import Verif.Lemmas.DbRead

/-! # Listing of what is in the database: C92 -/

namespace SeisMIC

variable {δ : Type}

/-- the codes of the place of a correlation -/
def StoredAt (f : H5 δ) (tag net sta cha cst : Str) : Prop :=
  ∃ e ∈ f.sets, e.1.tag = tag ∧ e.1.net = net ∧ e.1.sta = sta ∧ e.1.cha = cha ∧ e.1.cst = cst

theorem mem_keys4' (f : H5 δ) (tag net sta cha t : Str) :
    t ∈ f.keys [tag, net, sta, cha] ↔ StoredAt f tag net sta cha t := by
  rw [mem_keys4]
  simp only [isPrefixOf5]
  unfold StoredAt
  constructor
  · rintro ⟨e, he, h⟩
    exact ⟨e, he, by grind⟩
  · rintro ⟨e, he, h⟩
    exact ⟨e, he, by grind⟩

theorem mem_below3 (f : H5 δ) (tag net sta : Str) (e : HPath × δ) :
    e ∈ f.below [tag, net, sta] ↔ e ∈ f.sets ∧ e.1.tag = tag ∧ e.1.net = net ∧ e.1.sta = sta := by
  simp only [H5.below, List.mem_filter, HPath.comps, List.isPrefixOf, Bool.and_eq_true, beq_iff_eq, and_true]
  grind

theorem mem_keys3 (f : H5 δ) (tag net sta cha : Str) :
    cha ∈ f.keys [tag, net, sta] ↔ ∃ t, StoredAt f tag net sta cha t := by
  unfold H5.keys
  rw [List.mem_eraseDups, List.mem_filterMap]
  simp only [mem_below3]
  constructor
  · rintro ⟨e, ⟨he, h1, h2, h3⟩, h⟩
    simp [HPath.comps] at h
    exact ⟨e.1.cst, e, he, h1, h2, h3, h, rfl⟩
  · rintro ⟨t, e, he, h1, h2, h3, h4, _⟩
    exact ⟨e, ⟨he, h1, h2, h3⟩, by simp [HPath.comps, h4]⟩

/-- **C92** The channels listed for a station combination are exactly those under which a
correlation is stored, each once. -/
theorem c92_channels (f : H5 δ) (tag net sta cha : Str) :
    (f.availableChannels tag net sta).Nodup ∧
    (cha ∈ f.availableChannels tag net sta ↔ ∃ t, StoredAt f tag net sta cha t) :=
  ⟨nodup_eraseDups _, mem_keys3 f tag net sta cha⟩

/-- **C92** A listing of start times contains, for every channel that matches the request
(with `*`) or is equal to it (otherwise), exactly the start times under which a correlation
is stored, every channel and every time once; it fails only for a request with `*` for a
station combination without any correlation. Partial: `?` alone is not a wildcard
(`c92_question_violated`). -/
theorem c92_times_partial (f : H5 δ) (net sta tag cha : Str) :
    (f.availableStarttimes net sta tag cha = .error .keyError ∧ '*' ∈ cha ∧
      ∀ c t, ¬ StoredAt f tag net sta c t) ∨
    ∃ d, f.availableStarttimes net sta tag cha = .ok d ∧ (d.map Prod.fst).Nodup ∧ (∀ p ∈ d, p.2.Nodup) ∧
      ∀ c t, (∃ l, (c, l) ∈ d ∧ t ∈ l) ↔
        (if '*' ∈ cha then fnmatch c cha = true else c = cha) ∧ StoredAt f tag net sta c t := by
  unfold H5.availableStarttimes
  by_cases hw : '*' ∈ cha
  · have hw' : (!(cha.contains '*')) = false := by simp [hw]
    rw [hw']
    simp only [Bool.false_eq_true, if_false]
    by_cases he : (f.below [tag, net, sta]).isEmpty = true
    · left
      rw [if_pos he]
      refine ⟨rfl, hw, ?_⟩
      rintro c t ⟨e, hes, h1, h2, h3, _⟩
      have : e ∈ f.below [tag, net, sta] := (mem_below3 f tag net sta e).2 ⟨hes, h1, h2, h3⟩
      rw [List.isEmpty_iff.1 he] at this
      cases this
    · right
      rw [if_neg he]
      refine ⟨_, rfl, ?_, ?_, ?_⟩
      · rw [List.map_map]
        have : (Prod.fst ∘ fun k => (k, f.keys [tag, net, sta, k])) = id := rfl
        rw [this, List.map_id]
        exact (nodup_eraseDups _).filter _
      · intro p hp
        obtain ⟨k, _, rfl⟩ := List.mem_map.1 hp
        exact nodup_eraseDups _
      · intro c t
        simp only [hw, if_true]
        constructor
        · rintro ⟨l, hl, ht⟩
          obtain ⟨k, hk, he⟩ := List.mem_map.1 hl
          obtain ⟨rfl, rfl⟩ := Prod.mk.inj he
          exact ⟨(List.mem_filter.1 hk).2, (mem_keys4' f _ _ _ _ t).1 ht⟩
        · rintro ⟨hm, hs⟩
          refine ⟨_, List.mem_map.2 ⟨c, List.mem_filter.2 ⟨(mem_keys3 f _ _ _ c).2 ⟨t, hs⟩, hm⟩, rfl⟩, ?_⟩
          exact (mem_keys4' f _ _ _ _ t).2 hs
  · have hw' : (!(cha.contains '*')) = true := by simp [hw]
    rw [hw']
    simp only [if_true]
    right
    by_cases he : (f.below [tag, net, sta, cha]).isEmpty = true
    · rw [if_pos he]
      refine ⟨[], rfl, by simp, by simp, ?_⟩
      intro c t
      simp only [hw, if_false, List.not_mem_nil, false_and, exists_false, false_iff, not_and]
      rintro rfl hs
      have := (mem_keys4' f _ _ _ _ t).2 hs
      unfold H5.keys at this
      rw [List.isEmpty_iff.1 he] at this
      simp at this
    · rw [if_neg he]
      refine ⟨_, rfl, by simp, by simp [H5.keys, nodup_eraseDups], ?_⟩
      intro c t
      simp only [hw, if_false, List.mem_singleton, Prod.mk.injEq]
      constructor
      · rintro ⟨l, ⟨rfl, rfl⟩, ht⟩
        exact ⟨rfl, (mem_keys4' f _ _ _ _ t).1 ht⟩
      · rintro ⟨rfl, hs⟩
        exact ⟨_, ⟨rfl, rfl⟩, (mem_keys4' f _ _ _ _ t).2 hs⟩

/-- **C92** violated: the documentation allows wildcards, but `?` is one only beside `*` -/
theorem c92_question_violated :
    let f : H5 Nat := ⟨true, [(⟨c!"s", c!"A-A", c!"S-S", c!"HHZ-HHZ", c!"1", c!"2"⟩, 0)]⟩
    f.availableStarttimes c!"A-A" c!"S-S" c!"s" c!"HH?-HHZ" = .ok [] ∧
    f.availableStarttimes c!"A-A" c!"S-S" c!"s" c!"HH?-*" = .ok [(c!"HHZ-HHZ", [c!"1"])] := by
  decide

/-- two channels with different times -/
example :
    let f : H5 Nat := ⟨true, [(⟨c!"s", c!"A-A", c!"S-S", c!"Z-Z", c!"1", c!"2"⟩, 0),
      (⟨c!"s", c!"A-A", c!"S-S", c!"E-E", c!"3", c!"4"⟩, 0), (⟨c!"s", c!"A-A", c!"S-S", c!"Z-Z", c!"3", c!"4"⟩, 0)]⟩
    f.availableStarttimes c!"A-A" c!"S-S" c!"s" c!"*" = .ok [(c!"Z-Z", [c!"1", c!"3"]), (c!"E-E", [c!"3"])] := by
  decide

end SeisMIC
