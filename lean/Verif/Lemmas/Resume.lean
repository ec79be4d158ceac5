import Verif.Spec.Run
import Verif.Lemmas.Run
import Verif.Props.Existing

/-! # Lemmas about restarting a run -/

namespace SeisMIC

variable {δ : Type}

/-- the outputs of a run in closed form -/
def RunCfg.outputs (c : RunCfg δ) (ex : ExDict) (wins : List (List TrHead)) : List (Out δ) :=
  (wins.map fun w => pairsOf c.method (isort trLe w)
    fun a b => mval c.method c.rcombis a b && !compareExisting c.fiss ex a b).flatten.map c.out

theorem run_eq (c : RunCfg δ) (ex : ExDict) (wins : List (List TrHead)) (hm : c.method ∈ methods)
    (hc : c.method = "betweenComponents".toList → ∀ w ∈ wins, ∀ a ∈ w, a.cha ≠ []) :
    c.run ex wins = .ok (c.outputs ex wins) := by
  unfold RunCfg.run
  rw [mapM_ok wins _ (fun w => pairsOf c.method (isort trLe w)
    fun a b => mval c.method c.rcombis a b && !compareExisting c.fiss ex a b)]
  · rfl
  · intro w hw
    exact windowPairs_eq _ _ _ _ _ hm (fun h a ha => hc h w hw a ha)

theorem pairsOf_mem (method : Str) (S : List TrHead) (Q : TrHead → TrHead → Bool) (p : TrHead × TrHead)
    (h : p ∈ pairsOf method S Q) : p.1 ∈ S ∧ p.2 ∈ S := by
  unfold pairsOf at h
  obtain ⟨q, hq, rfl⟩ := List.mem_map.1 h
  have hq := (mem_prodL _ _).1 (List.mem_filter.1 hq).1
  simp only [List.mem_range] at hq
  constructor
  · simp only [List.getD, List.getElem?_eq_getElem hq.1, Option.getD_some]; exact List.getElem_mem _
  · simp only [List.getD, List.getElem?_eq_getElem hq.2, Option.getD_some]; exact List.getElem_mem _

theorem pairsOf_filter_congr (method : Str) (S : List TrHead) (Q Q' : TrHead → TrHead → Bool)
    (P : TrHead × TrHead → Bool) (h : ∀ a ∈ S, ∀ b ∈ S, P (a, b) = true → Q a b = Q' a b) :
    (pairsOf method S Q).filter P = (pairsOf method S Q').filter P := by
  unfold pairsOf
  rw [List.filter_map, List.filter_map, List.filter_filter, List.filter_filter]
  congr 1
  apply List.filter_congr
  intro p hp
  have hp := (mem_prodL _ _).1 hp
  simp only [List.mem_range] at hp
  have m1 : S.getD p.1 noTr ∈ S := by
    simp only [List.getD, List.getElem?_eq_getElem hp.1, Option.getD_some]; exact List.getElem_mem _
  have m2 : S.getD p.2 noTr ∈ S := by
    simp only [List.getD, List.getElem?_eq_getElem hp.2, Option.getD_some]; exact List.getElem_mem _
  simp only [Function.comp_def]
  by_cases hP : P (S.getD p.1 noTr, S.getD p.2 noTr) = true
  · rw [h _ m1 _ m2 hP]
  · simp only [Bool.not_eq_true] at hP
    rw [hP]; rfl

theorem outputs_mem (c : RunCfg δ) (ex : ExDict) (wins : List (List TrHead)) (o : Out δ)
    (h : o ∈ c.outputs ex wins) : ∃ w ∈ wins, ∃ a ∈ w, ∃ b ∈ w, o = c.out (a, b) := by
  unfold RunCfg.outputs at h
  obtain ⟨⟨a, b⟩, hp, rfl⟩ := List.mem_map.1 h
  obtain ⟨l, hl, hp⟩ := List.mem_flatten.1 hp
  obtain ⟨w, hw, rfl⟩ := List.mem_map.1 hl
  have := pairsOf_mem _ _ _ _ hp
  exact ⟨w, hw, a, mem_isort.1 this.1, b, mem_isort.1 this.2, rfl⟩

theorem out_path (c : RunCfg δ) (a b : TrHead) : (c.out (a, b)).path =
    ⟨"subdivision".toList, (corrCodes a b).1, (corrCodes a b).2.1, (corrCodes a b).2.2,
      c.fiss (max a.start b.start), c.cet a b⟩ := rfl

theorem outputs_filter_congr (c : RunCfg δ) (ex ex' : ExDict) (wins : List (List TrHead)) (P : Out δ → Bool)
    (h : ∀ w ∈ wins, ∀ a ∈ w, ∀ b ∈ w, P (c.out (a, b)) = true →
      compareExisting c.fiss ex a b = compareExisting c.fiss ex' a b) :
    (c.outputs ex wins).filter P = (c.outputs ex' wins).filter P := by
  unfold RunCfg.outputs
  rw [List.filter_map, List.filter_map]
  congr 1
  induction wins with
  | nil => rfl
  | cons w wins ih =>
    simp only [List.map_cons, List.flatten_cons, List.filter_append]
    rw [ih (fun w hw => h w (by simp [hw]))]
    congr 1
    apply pairsOf_filter_congr
    intro a ha b hb hP
    rw [h w (by simp) a (mem_isort.1 ha) b (mem_isort.1 hb) hP]

theorem compareExisting_nil (fiss : Int → Str) (a b : TrHead) : compareExisting fiss [] a b = false := by
  unfold compareExisting ExDict.get
  simp

theorem lookup_of_mem {α β : Type} [BEq α] [LawfulBEq α] (l : List (α × β)) (x : α × β) (hx : x ∈ l)
    (hn : (l.map Prod.fst).Nodup) : l.lookup x.1 = some x.2 := by
  induction l with
  | nil => simp at hx
  | cons y l ih =>
    simp only [List.map_cons, List.nodup_cons] at hn
    rw [List.lookup_cons]
    rcases List.mem_cons.1 hx with rfl | hx
    · simp
    · have : (x.1 == y.1) = false := by
        rw [beq_eq_false_iff_ne]
        intro e
        exact hn.1 (e ▸ List.mem_map.2 ⟨x, hx, rfl⟩)
      simp only [this]
      exact ih hx hn.2

theorem lookup_isSome_of_mem {α β : Type} [BEq α] [LawfulBEq α] (l : List (α × β)) (x : α × β) (hx : x ∈ l) :
    l.lookup x.1 ≠ none := by
  induction l with
  | nil => simp at hx
  | cons y l ih =>
    rw [List.lookup_cons]
    rcases List.mem_cons.1 hx with rfl | hx
    · simp
    · split
      · simp
      · exact ih hx

theorem get_ne_none (dir : CorrDir δ) (hp : dir.Placed) (f : Str × H5 δ) (hf : f ∈ dir) (e : HPath × δ)
    (he : e ∈ f.2.sets) : dir.get (corrFileName e.1.net e.1.sta) e.1 ≠ none := by
  rw [← hp.place f hf e he]
  unfold CorrDir.get
  rw [lookup_of_mem dir f hf hp.names]
  exact lookup_isSome_of_mem _ _ he

/-- a pair whose correlation is not in the directory is not regarded as existing -/
theorem not_existing (c : RunCfg δ) (dir : CorrDir δ) (stations : List (Str × Str)) (wins : List (List TrHead))
    (g : Str → Str → Str → Str → Str) (ex : ExDict) (hst : ∀ s ∈ stations, NoSep s.1 ∧ NoSep s.2)
    (hw : ∀ w ∈ wins, ∀ a ∈ w, NoSep a.net ∧ NoSep a.sta) (hp : dir.Placed) (hend : EndFixed c dir wins g)
    (hex : findExistingTimes dir stations c.method c.rcombis "subdivision".toList = .ok ex)
    (w : List TrHead) (hww : w ∈ wins) (a b : TrHead) (ha : a ∈ w) (hb : b ∈ w)
    (hn : dir.get (c.out (a, b)).file (c.out (a, b)).path = none) :
    compareExisting c.fiss ex a b = false := by
  by_contra hcon
  rw [Bool.not_eq_false] at hcon
  obtain ⟨f, hf, e, he, h1, h2, h3⟩ := c07_never_skips_missing c.fiss dir stations c.method c.rcombis
    "subdivision".toList ex hst hex a b (hw w hww a ha) (hw w hww b hb) hcon
  have hcet := hend.1 f hf e he h1
  have hcet2 := hend.2 w hww a ha b hb
  have hpath : e.1 = (c.out (a, b)).path := by
    rw [out_path, ← h2, ← h3, hcet2, ← h2, ← h3]
    obtain ⟨⟨t, n, s, ch, cst, cet⟩, d⟩ := e
    simp only at h1 hcet ⊢
    rw [h1, hcet]
  have := get_ne_none dir hp f hf e he
  rw [hpath] at this
  exact this hn

/-- what `addOne` does to the entries -/
theorem mem_addOne_sets (h : H5 δ) (p : HPath) (d : δ) (e : HPath × δ) (he : e ∈ (h.addOne p d).sets) :
    e ∈ h.sets ∨ e = (p, d) := by
  unfold H5.addOne at he
  split at he
  · exact Or.inl he
  · simpa using he

theorem addOne_names (dir : CorrDir δ) (file : Str) (o : Out δ) (h : (dir.map Prod.fst).Nodup) :
    ((dir.addOne file o).map Prod.fst).Nodup ∧
      ∀ x, x ∈ (dir.addOne file o).map Prod.fst → x ∈ dir.map Prod.fst ∨ x = file := by
  induction dir with
  | nil => simp [CorrDir.addOne]
  | cons y dir ih =>
    obtain ⟨g, k⟩ := y
    simp only [List.map_cons, List.nodup_cons] at h
    unfold CorrDir.addOne
    by_cases hg : g = file
    · rw [if_pos hg]
      simp only [List.map_cons, List.nodup_cons]
      exact ⟨h, fun x hx => Or.inl hx⟩
    · rw [if_neg hg]
      have := ih h.2
      simp only [List.map_cons, List.nodup_cons, List.mem_cons]
      refine ⟨⟨?_, this.1⟩, ?_⟩
      · intro hm
        rcases this.2 g hm with h1 | h1
        · exact h.1 h1
        · exact hg h1
      · rintro x (rfl | hx)
        · exact Or.inl (Or.inl rfl)
        · rcases this.2 x hx with h1 | h1
          · exact Or.inl (Or.inr h1)
          · exact Or.inr h1

theorem mem_addOne (dir : CorrDir δ) (file : Str) (o : Out δ) (f : Str × H5 δ) (hf : f ∈ dir.addOne file o)
    (e : HPath × δ) (he : e ∈ f.2.sets) :
    (∃ f' ∈ dir, f'.1 = f.1 ∧ e ∈ f'.2.sets) ∨ (f.1 = file ∧ e = (o.path, o.val)) := by
  induction dir with
  | nil =>
    simp only [CorrDir.addOne, List.mem_singleton] at hf
    subst hf
    rcases mem_addOne_sets _ _ _ _ he with h | h
    · simp at h
    · exact Or.inr ⟨rfl, h⟩
  | cons y dir ih =>
    obtain ⟨g, k⟩ := y
    unfold CorrDir.addOne at hf
    by_cases hg : g = file
    · rw [if_pos hg] at hf
      rcases List.mem_cons.1 hf with rfl | hf
      · rcases mem_addOne_sets _ _ _ _ he with h | h
        · exact Or.inl ⟨(g, k), by simp, rfl, h⟩
        · exact Or.inr ⟨hg, h⟩
      · exact Or.inl ⟨f, by simp [hf], rfl, he⟩
    · rw [if_neg hg] at hf
      rcases List.mem_cons.1 hf with rfl | hf
      · exact Or.inl ⟨(g, k), by simp, rfl, he⟩
      · rcases ih hf with ⟨f', h1, h2⟩ | h
        · exact Or.inl ⟨f', by simp [h1], h2⟩
        · exact Or.inr h

theorem placed_addAll (dir : CorrDir δ) (l : List (Out δ)) (h : dir.Placed) : (dir.addAll l).Placed := by
  induction l generalizing dir with
  | nil => exact h
  | cons o l ih =>
    apply ih (dir.addOne o.file o)
    refine ⟨(addOne_names dir _ o h.names).1, ?_⟩
    intro f hf e he
    rcases mem_addOne dir _ o f hf e he with ⟨f', h1, h2, h3⟩ | ⟨h1, h2⟩
    · rw [← h2]; exact h.place f' h1 e h3
    · rw [h1, h2]; rfl

theorem endFixed_addAll (c : RunCfg δ) (dir : CorrDir δ) (wins : List (List TrHead))
    (g : Str → Str → Str → Str → Str) (l : List (Out δ)) (h : EndFixed c dir wins g)
    (hl : ∀ o ∈ l, ∃ w ∈ wins, ∃ a ∈ w, ∃ b ∈ w, o = c.out (a, b)) : EndFixed c (dir.addAll l) wins g := by
  induction l generalizing dir with
  | nil => exact h
  | cons o l ih =>
    refine ih (dir.addOne o.file o) ?_ (fun o ho => hl o (by simp [ho]))
    refine ⟨?_, h.2⟩
    intro f hf e he ht
    rcases mem_addOne dir _ o f hf e he with ⟨f', h1, h2, h3⟩ | ⟨h1, h2⟩
    · exact h.1 f' h1 e h3 ht
    · obtain ⟨w, hw, a, ha, b, hb, rfl⟩ := hl o (by simp)
      rw [h2]
      simp only [out_path]
      exact h.2 w hw a ha b hb

theorem outputs_find (c : RunCfg δ) (dir : CorrDir δ) (stations : List (Str × Str)) (wins : List (List TrHead))
    (g : Str → Str → Str → Str → Str) (ex : ExDict) (hst : ∀ s ∈ stations, NoSep s.1 ∧ NoSep s.2)
    (hw : ∀ w ∈ wins, ∀ a ∈ w, NoSep a.net ∧ NoSep a.sta) (hp : dir.Placed) (hend : EndFixed c dir wins g)
    (hex : findExistingTimes dir stations c.method c.rcombis "subdivision".toList = .ok ex)
    (f : Str) (p : HPath) (hn : dir.get f p = none) :
    (c.outputs ex wins).filter (fun o => decide (f = o.file ∧ p = o.path)) =
    (c.outputs [] wins).filter (fun o => decide (f = o.file ∧ p = o.path)) := by
  apply outputs_filter_congr
  intro w hww a ha b hb hP
  simp only [decide_eq_true_eq] at hP
  rw [compareExisting_nil]
  apply not_existing c dir stations wins g ex hst hw hp hend hex w hww a b ha hb
  rw [← hP.1, ← hP.2]; exact hn

/-- one completed run -/
theorem complete_get (c : RunCfg δ) (dir : CorrDir δ) (stations : List (Str × Str)) (wins : List (List TrHead))
    (g : Str → Str → Str → Str → Str) (ex : ExDict) (hst : ∀ s ∈ stations, NoSep s.1 ∧ NoSep s.2)
    (hw : ∀ w ∈ wins, ∀ a ∈ w, NoSep a.net ∧ NoSep a.sta) (hp : dir.Placed) (hend : EndFixed c dir wins g)
    (hex : findExistingTimes dir stations c.method c.rcombis "subdivision".toList = .ok ex) (f : Str) (p : HPath) :
    (dir.addAll (c.outputs ex wins)).get f p = (dir.addAll (c.outputs [] wins)).get f p := by
  rw [get_addAll, get_addAll]
  cases hd : dir.get f p with
  | some v => simp
  | none =>
    have := outputs_find c dir stations wins g ex hst hw hp hend hex f p hd
    rw [← List.head?_filter, ← List.head?_filter, this]

/-- one killed run -/
theorem killed_get (c : RunCfg δ) (dir : CorrDir δ) (stations : List (Str × Str)) (wins : List (List TrHead))
    (g : Str → Str → Str → Str → Str) (ex : ExDict) (hst : ∀ s ∈ stations, NoSep s.1 ∧ NoSep s.2)
    (hw : ∀ w ∈ wins, ∀ a ∈ w, NoSep a.net ∧ NoSep a.sta) (hp : dir.Placed) (hend : EndFixed c dir wins g)
    (hex : findExistingTimes dir stations c.method c.rcombis "subdivision".toList = .ok ex)
    (l : List (Out δ)) (hl : KilledAfter (c.outputs ex wins) l) (f : Str) (p : HPath) :
    ((dir.addAll l).addAll (c.outputs [] wins)).get f p = (dir.addAll (c.outputs [] wins)).get f p := by
  rw [get_addAll, get_addAll dir l, get_addAll]
  cases hd : dir.get f p with
  | some v => simp
  | none =>
    have h1 := outputs_find c dir stations wins g ex hst hw hp hend hex f p hd
    have split : ∀ l : List (Out δ), l.filter (fun o => decide (f = o.file ∧ p = o.path)) =
        (l.filter fun o => decide (o.file = f)).filter fun o => decide (p = o.path) := by
      intro l
      rw [List.filter_filter]
      apply List.filter_congr
      intro o _
      rw [← Bool.decide_and]
      exact decide_eq_decide.2 ⟨fun h => ⟨h.2, h.1.symm⟩, fun h => ⟨h.2.symm, h.1⟩⟩
    have h2 : l.filter (fun o => decide (f = o.file ∧ p = o.path)) <+:
        (c.outputs [] wins).filter (fun o => decide (f = o.file ∧ p = o.path)) := by
      rw [← h1, split, split]
      exact (hl f).filter _
    simp only [Option.none_or]
    rw [← List.head?_filter, ← List.head?_filter]
    obtain ⟨t, ht⟩ := h2
    rw [← ht]
    cases l.filter (fun o => decide (f = o.file ∧ p = o.path)) with
    | nil => simp
    | cons x xs => simp

theorem killed_mem (out l : List (Out δ)) (h : KilledAfter out l) : ∀ o ∈ l, o ∈ out := by
  intro o ho
  have : o ∈ l.filter fun x => decide (x.file = o.file) := List.mem_filter.2 ⟨ho, by simp⟩
  exact (List.mem_filter.1 ((h o.file).subset this)).1

end SeisMIC
