import Verif.Model.Preprocess
import Verif.Props.Segments
import Verif.Lemmas.Sort
import Verif.Lemmas.ListAux
import Verif.Lemmas.DbRead
import Mathlib.Data.List.Sort

/-!
# C144: preprocessing applies every step once and keeps samples at their times
-/

namespace SeisMIC

variable {α : Type}

/-! ### Specification -/

/-- the steps are applied one after the other, each to the result of the one before -/
inductive AppliedInOrder : List (PrepStep α) → ChanStream α → ChanStream α → Prop
  | nil (st) : AppliedInOrder [] st st
  | cons (p ps st st' out) : p.run st = .ok st' → AppliedInOrder ps st' out → AppliedInOrder (p :: ps) st out

/-- order of channels -/
def ChanLt (a b : Chan) : Prop := a.1 < b.1 ∨ a.1 = b.1 ∧ a.2 < b.2

/-- `remove` handles each trace on its own: channel and start stay, `P c` is applied to the samples -/
def EachTrace (pol : List (Chan × Part α) → List (Chan × Part α)) (P : Chan → List α → List α) : Prop :=
  (∀ c d, (P c d).length = d.length) ∧ ∀ ps, pol ps = ps.map fun x => (x.1, (x.2.1, P x.1 x.2.2))

/-! ### Lemmas -/

theorem removeResponse_all (dec : List α → List α) (inv : List Chan) (st : List (Chan × Part α)) (h : ∀ x ∈ st, x.1 ∈ inv) :
    removeResponse dec inv st = (st.map fun x => (x.1, (x.2.1, dec x.2.2)), true) := by
  induction st with
  | nil => rfl
  | cons x st ih =>
    obtain ⟨c, p⟩ := x
    rw [removeResponse, if_pos (h (c, p) (by simp)), ih (fun x hx => h x (by simp [hx]))]
    rfl

theorem removeResponse_first (dec : List α → List α) (inv : List Chan) (c : Chan) (p : Part α) (st : List (Chan × Part α))
    (h : c ∉ inv) : removeResponse dec inv ((c, p) :: st) = ((c, p) :: st, false) := by
  rw [removeResponse, if_neg h]

theorem removeResponse_false (dec : List α → List α) (inv : List Chan) (st : List (Chan × Part α)) (x : Chan × Part α)
    (hx : x ∈ st) (h : x.1 ∉ inv) : (removeResponse dec inv st).2 = false := by
  induction st with
  | nil => cases hx
  | cons y st ih =>
    obtain ⟨c, p⟩ := y
    rw [removeResponse]
    split_ifs with hc
    · rcases List.mem_cons.1 hx with rfl | hx
      · exact absurd hc h
      · exact ih hx
    · rfl

theorem mergeGaps_parts (l : List (Part α)) : mergeGaps (l.map fun p => (p.1, p.2.map some)) = mergeParts l := by
  induction l with
  | nil => rfl
  | cons p l ih =>
    obtain ⟨s, d⟩ := p
    rw [List.map_cons, mergeGaps, mergeParts, ih]
    cases mergeParts l with
    | none => rfl
    | some m => simp

theorem trimGap_length (a b : Int) (tr : GapTr α) : (trimGap a b tr).2.length = (b - a + 1).toNat := by simp [trimGap]

theorem trimGap_at (a b : Int) (tr : GapTr α) (k : Int) :
    (trimGap a b tr).at k = if a ≤ k ∧ k ≤ b then tr.at k else none := by
  by_cases h : a ≤ k
  · unfold trimGap
    rw [GapTr.at, if_neg (by omega)]
    simp only [List.getElem?_map]
    by_cases h' : k ≤ b
    · rw [if_pos ⟨h, h'⟩, List.getElem?_range (by omega)]
      simp only [Option.map_some, Option.join_some]
      congr 1
      omega
    · rw [if_neg (by omega), List.getElem?_eq_none (by simp; omega)]
      rfl
  · rw [if_neg (by omega)]
    exact at_before _ _ _ (by omega)

theorem chanLe_total (a b : Chan) (h : chanLe a b = false) : chanLe b a = true := by
  simp only [chanLe, decide_eq_false_iff_not, decide_eq_true_eq] at *
  omega

theorem chanLe_trans (a b c : Chan) (h1 : chanLe a b = true) (h2 : chanLe b c = true) : chanLe a c = true := by
  simp only [chanLe, decide_eq_true_eq] at *
  omega

theorem mergeSt_chans (st : ChanStream α) : ((mergeSt st).map (·.1)).Pairwise ChanLt := by
  have hs : (isort chanLe (st.map (·.1)).eraseDups).Pairwise ChanLt := by
    have h1 := isort_sorted chanLe chanLe_total chanLe_trans (st.map (·.1)).eraseDups
    have h2 : (isort chanLe (st.map (·.1)).eraseDups).Nodup := (isort_perm _ _).nodup_iff.2 (nodup_eraseDups _)
    refine (h1.and h2).imp ?_
    rintro ⟨a1, a2⟩ ⟨b1, b2⟩ ⟨h, hne⟩
    simp only [chanLe, decide_eq_true_eq] at h
    rcases h with h | ⟨h, h'⟩
    · exact .inl h
    · refine .inr ⟨h, ?_⟩
      rcases Nat.lt_or_eq_of_le h' with h'' | h''
      · exact h''
      · exact absurd (Prod.ext h h'') hne
  unfold mergeSt
  rw [List.map_filterMap]
  refine List.Pairwise.filterMap (R := ChanLt) _ ?_ hs
  intro a a' haa b hb b' hb'
  have key : ∀ (c x : Chan) (o : Option (GapTr α)), (o.map fun t => (c, t)).map (·.1) = some x → x = c := by
    intro c x o h
    cases o with
    | none => cases h
    | some t => simpa using h.symm
  rw [key _ _ _ hb, key _ _ _ hb']
  exact haa

theorem mem_mergeSt (st : ChanStream α) (c : Chan) (t : GapTr α) :
    (c, t) ∈ mergeSt st ↔
      mergeGaps (isort (fun a b => decide (a.1 ≤ b.1)) ((st.filter fun x => x.1 == c).map (·.2))) = some t := by
  unfold mergeSt
  rw [List.mem_filterMap]
  constructor
  · rintro ⟨c', hc', h⟩
    cases hm : mergeGaps (isort (fun a b => decide (a.1 ≤ b.1)) ((st.filter fun x => x.1 == c').map (·.2))) with
    | none => rw [hm] at h; cases h
    | some t' =>
      rw [hm] at h
      simp only [Option.map_some, Option.some.injEq, Prod.mk.injEq] at h
      obtain ⟨rfl, rfl⟩ := h
      exact hm
  · intro h
    refine ⟨c, ?_, by rw [h]; rfl⟩
    rw [mem_isort, List.mem_eraseDups]
    by_contra hc
    have : (st.filter fun x => x.1 == c) = [] := by
      rw [List.filter_eq_nil_iff]
      intro x hx hxc
      exact hc (by rw [← (beq_iff_eq.1 hxc)]; exact List.mem_map_of_mem hx)
    rw [this] at h
    cases h

/-! ### C144 -/

/-- **C144** Whatever the steps do: each trace of the result reaches exactly from the first to the last
sample of the requested window, and there is at most one trace for each channel, in order. -/
theorem c144_window (cf : PrepConf) (detrend dec : List α → List α) (gap : GapTr α → Except PyErr (Option (GapTr α)))
    (pol : List Chan → List (Chan × Part α) → List (Chan × Part α)) (remote : Nat → Except PyErr (List Chan))
    (steps : List (PrepStep α)) (a b : Int) (hab : a ≤ b) (s s' : RespStore) (st out : ChanStream α)
    (h : preprocessStream cf detrend dec gap pol remote steps a b s st = (.ok out, s')) :
    (out.map (·.1)).Pairwise ChanLt ∧ ∀ x ∈ out, x.2.1 = a ∧ (x.2.2.length : Int) = b - a + 1 := by
  unfold preprocessStream at h
  have hnil : ∀ {o : ChanStream α} {s' : RespStore}, ((.ok [], s) : Except PyErr (ChanStream α) × RespStore) = (.ok o, s') →
      (o.map (·.1)).Pairwise ChanLt ∧ ∀ x ∈ o, x.2.1 = a ∧ (x.2.2.length : Int) = b - a + 1 := by
    intro o s' h
    simp only [Prod.mk.injEq, Except.ok.injEq] at h
    rw [← h.1]
    simp
  by_cases h0 : st = []
  · rw [if_pos h0] at h
    exact hnil h
  rw [if_neg h0] at h
  split at h
  · simp at h
  split at h
  · simp at h
  dsimp only at h
  rename_i l _
  by_cases h1 : l.filterMap id = []
  · rw [if_pos h1] at h
    exact hnil h
  rw [if_neg h1] at h
  generalize (if cf.removeResp = true then responseStep dec remote s _ else _) = r at h
  split at h
  · simp at h
  split at h
  · simp at h
  rename_i st4 _
  simp only [Prod.mk.injEq, Except.ok.injEq] at h
  obtain ⟨rfl, -⟩ := h
  constructor
  · refine List.Pairwise.sublist (List.Sublist.map _ List.filter_sublist) ?_
    rw [List.map_map]
    exact mergeSt_chans st4
  · intro x hx
    obtain ⟨y, -, rfl⟩ := List.mem_map.1 (List.mem_of_mem_filter hx)
    refine ⟨rfl, ?_⟩
    rw [trimGap_length]
    omega

/-- **C144** The steps of the parameter file are applied in their order, each once, except those
whose names contain the names of the two functions that are always applied.
Missing for the full property: `c144_name_violated`, `c144_twice_violated`, `c144_station_violated`. -/
theorem c144_steps_partial (steps : List (PrepStep α)) (st out : ChanStream α) :
    runSteps steps st = .ok out ↔
      AppliedInOrder (steps.filter fun p => ¬ (c!"detrend_st" <:+: p.name) ∧ ¬ (c!"cos_taper_st" <:+: p.name)) st out := by
  have hsuf : ∀ b t : Str, t ∈ suffixes b ↔ t <:+ b := by
    intro b
    induction b with
    | nil => intro t; simp [suffixes]
    | cons x b ih =>
      intro t
      rw [suffixes, List.mem_cons, ih, List.suffix_cons_iff]
  have hsub : ∀ a b : Str, isSub a b = true ↔ a <:+: b := by
    intro a b
    rw [isSub, List.any_eq_true]
    constructor
    · rintro ⟨t, ht, hp⟩
      exact (List.isPrefixOf_iff_prefix.1 hp).isInfix.trans ((hsuf b t).1 ht).isInfix
    · intro h
      obtain ⟨t, hp, ht⟩ := List.infix_iff_prefix_suffix.1 h
      exact ⟨t, (hsuf b t).2 ht, List.isPrefixOf_iff_prefix.2 hp⟩
  induction steps generalizing st with
  | nil =>
    rw [runSteps]
    constructor
    · intro h
      simp only [Except.ok.injEq] at h
      subst h
      exact .nil _
    · intro h
      cases h
      rfl
  | cons p steps ih =>
    rw [runSteps]
    by_cases hi : stepIgnored p.name = true
    · rw [if_pos hi, List.filter_cons_of_neg]
      · exact ih st
      · simp only [stepIgnored, Bool.or_eq_true, hsub] at hi
        simp only [decide_eq_true_eq]
        tauto
    · rw [if_neg hi, List.filter_cons_of_pos]
      · constructor
        · intro h
          cases hr : p.run st with
          | error e => simp [hr, bind, Except.bind] at h
          | ok st' =>
            simp only [hr, bind, Except.bind] at h
            exact .cons _ _ _ _ _ hr ((ih st').1 h)
        · intro h
          cases h with
          | cons _ _ _ st' _ hr h =>
            simp only [hr, bind, Except.bind]
            exact (ih st').2 h
      · simp only [stepIgnored, Bool.or_eq_true, hsub] at hi
        simp only [decide_eq_true_eq]
        tauto

/-- **C144 is violated**: a step of the user is left out because of its name. -/
theorem c144_name_violated (p : PrepStep α) (hp : p.name = c!"mymodule.detrend_stepwise") (st : ChanStream α) :
    runSteps [p] st = .ok st := by
  rw [runSteps, if_pos (by rw [hp]; decide +kernel)]
  rfl

/-- **C144** (partial: no steps of the parameter file, all responses known) The contiguous parts of the
traces, after detrending and gap handling, that are longer than a twentieth of the correlation length
stay at their times; the response is removed once from each, polarity is corrected once. All other
samples are missing. A channel is left out if and only if no part is long enough. -/
theorem c144_samples_partial (cf : PrepConf) (detrend dec : List α → List α) (hdec : ∀ d, (dec d).length = d.length)
    (gap : GapTr α → Except PyErr (Option (GapTr α))) (pol : List Chan → List (Chan × Part α) → List (Chan × Part α))
    (P : Chan → List α → List α) (remote : Nat → Except PyErr (List Chan)) (a b : Int)
    (hwin : longEnough cf (b - a + 1).toNat = true) (s : RespStore) (hpol : EachTrace (pol s.inv) P) (hne : s.inv ≠ [])
    (st st1 : ChanStream α) (l : List (Option (Chan × GapTr α)))
    (h1 : st.mapM (fun x => (detrendTrace detrend x.2).map fun t => (x.1, t)) = .ok st1)
    (h2 : st1.mapM (fun x => (gap x.2).map fun t => t.map fun t => (x.1, t)) = .ok l)
    (hnd : ((l.filterMap id).map (·.1)).Nodup) (hresp : cf.removeResp = true → ∀ x ∈ l.filterMap id, x.1 ∈ s.inv) :
    ∃ out, preprocessStream cf detrend dec gap pol remote [] a b s st = (.ok out, s) ∧
      ∀ c t, (c, t) ∈ l.filterMap id →
        ((∃ o, (c, o) ∈ out) ↔ ∃ k d, RunAt t k d ∧ cf.corrLen / 20 < (d.length : Rat) / cf.sr) ∧
        ∀ o, (c, o) ∈ out →
          (∀ k d, RunAt t k d → ∀ i : Nat, i < d.length → a ≤ k + i → k + i ≤ b →
            o.at (k + i) = if cf.corrLen / 20 < (d.length : Rat) / cf.sr
              then (P c (if cf.removeResp then dec d else d))[i]? else none) ∧
          ∀ k, t.at k = none → o.at k = none := by
  obtain ⟨hPl, hpol⟩ := hpol
  set gst := l.filterMap id with hgst
  set op : Chan → List α → List α := fun c d => P c (if cf.removeResp then dec d else d) with hop
  have hopl : ∀ c d, (op c d).length = d.length := by
    intro c d
    simp only [hop, hPl]
    split_ifs
    · exact hdec d
    · rfl
  set ps0 : List (Chan × Part α) := gst.flatMap fun x => (splitParts x.2.1 x.2.2).map fun p => (x.1, p) with hps0
  set ps := isort (fun x y : Chan × Part α => decide (x.2.1 ≤ y.2.1)) ps0 with hps
  have hperm : ps.Perm ps0 := isort_perm _ _
  have hchan : ∀ x ∈ ps, ∃ y ∈ gst, y.1 = x.1 := by
    intro x hx
    obtain ⟨y, hy, hx⟩ := List.mem_flatMap.1 (hperm.mem_iff.1 hx)
    obtain ⟨p, -, rfl⟩ := List.mem_map.1 hx
    exact ⟨y, hy, rfl⟩
  have hresp' : (if cf.removeResp then responseStep dec remote s ps else (.ok ps, s)) =
      (.ok (ps.map fun x => (x.1, (x.2.1, if cf.removeResp then dec x.2.2 else x.2.2))), s) := by
    split_ifs with hr
    · rw [responseStep, removeResponse_all dec s.inv ps]
      · rfl
      · intro x hx
        obtain ⟨y, hy, hyx⟩ := hchan x hx
        rw [← hyx]
        exact hresp hr y hy
    · simp
  set fin : ChanStream α :=
    ((ps.map fun x => (x.1, (x.2.1, op x.1 x.2.2))).filter fun x => longEnough cf x.2.2.length).map
      fun x => (x.1, (x.2.1, x.2.2.map some)) with hfin
  -- the parts of one channel
  have hsel : ∀ c t, (c, t) ∈ gst →
      isort (fun x y : GapTr α => decide (x.1 ≤ y.1)) ((fin.filter fun x => x.1 == c).map (·.2)) =
        ((((splitParts t.1 t.2).filter fun p => longEnough cf p.2.length).map fun p => (p.1, op c p.2)).map
          fun p => (p.1, p.2.map some)) := by
    intro c t hct
    have hB : ∀ L : List (Chan × Part α),
        ((((L.map fun x => (x.1, (x.2.1, op x.1 x.2.2))).filter fun x => longEnough cf x.2.2.length).map
          fun x : Chan × Part α => (x.1, ((x.2.1, x.2.2.map some) : GapTr α))).filter fun x => x.1 == c).map (·.2) =
        ((((L.filter fun x => x.1 == c).map (·.2)).filter fun p => longEnough cf p.2.length).map fun p => (p.1, op c p.2)).map
          fun p => (p.1, p.2.map some) := by
      intro L
      induction L with
      | nil => rfl
      | cons x L ih =>
        obtain ⟨c', k, d⟩ := x
        simp only [List.map_cons, List.filter_cons, hopl]
        by_cases hl : longEnough cf d.length = true <;> by_cases hc : (c' == c) = true
        · rw [if_pos hl, List.map_cons, List.filter_cons, if_pos hc, if_pos hc, List.map_cons, List.map_cons, List.filter_cons,
            if_pos hl, List.map_cons, List.map_cons, ih, beq_iff_eq.1 hc]
        · rw [if_pos hl, List.map_cons, List.filter_cons, if_neg hc, if_neg hc, ih]
        · rw [if_neg hl, if_pos hc, ih, List.map_cons, List.filter_cons, if_neg hl]
        · rw [if_neg hl, if_neg hc, ih]
    have hC : ∀ g : ChanStream α, (g.map (·.1)).Nodup → (c, t) ∈ g →
        ((g.flatMap fun x => (splitParts x.2.1 x.2.2).map fun p => (x.1, p)).filter fun x => x.1 == c).map (·.2) =
          splitParts t.1 t.2 := by
      intro g hg hm
      induction g with
      | nil => cases hm
      | cons y g ih =>
        rw [List.map_cons, List.nodup_cons] at hg
        rw [List.flatMap_cons, List.filter_append, List.map_append]
        rcases List.mem_cons.1 hm with rfl | hm'
        · have e1 : (((splitParts t.1 t.2).map fun p => (c, p)).filter fun x : Chan × Part α => x.1 == c) =
              (splitParts t.1 t.2).map fun p => (c, p) := by
            rw [List.filter_eq_self]
            intro x hx
            obtain ⟨p, -, rfl⟩ := List.mem_map.1 hx
            simp
          have e2 : ((g.flatMap fun x => (splitParts x.2.1 x.2.2).map fun p => (x.1, p)).filter
              fun x : Chan × Part α => x.1 == c) = [] := by
            rw [List.filter_eq_nil_iff]
            intro x hx hxc
            obtain ⟨y, hy, hx⟩ := List.mem_flatMap.1 hx
            obtain ⟨p, -, rfl⟩ := List.mem_map.1 hx
            exact hg.1 (by show c ∈ _; rw [← beq_iff_eq.1 hxc]; exact List.mem_map_of_mem (f := Prod.fst) hy)
          rw [e1, e2, List.map_nil, List.append_nil, List.map_map]
          exact List.map_id _
        · have e1 : (((splitParts y.2.1 y.2.2).map fun p => (y.1, p)).filter fun x : Chan × Part α => x.1 == c) = [] := by
            rw [List.filter_eq_nil_iff]
            intro x hx hxc
            obtain ⟨p, -, rfl⟩ := List.mem_map.1 hx
            exact hg.1 (by rw [beq_iff_eq.1 hxc]; exact List.mem_map_of_mem (f := Prod.fst) hm')
          rw [e1, List.map_nil, List.nil_append]
          exact ih hg.2 hm'
    have hpm : ((fin.filter fun x => x.1 == c).map (·.2)).Perm
        ((((splitParts t.1 t.2).filter fun p => longEnough cf p.2.length).map fun p => (p.1, op c p.2)).map
          fun p => (p.1, p.2.map some)) := by
      rw [hfin, hB, ← hC gst hnd hct]
      exact (((((hperm.filter _).map _).filter _).map _).map _)
    have hsorted := isort_sorted (fun x y : GapTr α => decide (x.1 ≤ y.1)) (by intro a b h; simp at *; omega)
      (by intro a b c h1 h2; simp at *; omega) ((fin.filter fun x => x.1 == c).map (·.2))
    have hstrict : ((((splitParts t.1 t.2).filter fun p => longEnough cf p.2.length).map fun p => (p.1, op c p.2)).map
          fun p : Part α => ((p.1, p.2.map some) : GapTr α)).Pairwise fun x y => x.1 < y.1 := by
      rw [List.map_map, List.pairwise_map]
      refine List.Pairwise.sublist List.filter_sublist ?_
      obtain ⟨q1, q2, -⟩ := splitParts_facts t.1 t.2
      have : ∀ L : List (Part α), PartsApart L → L.Pairwise fun x y => x.1 < y.1 := by
        intro L
        induction L with
        | nil => intro _; exact .nil
        | cons p L ih =>
          intro hL
          refine .cons ?_ (ih hL.tail)
          intro q hq
          have := hL.lt q hq
          omega
      exact this _ q1
    have hpm2 := (isort_perm (fun x y : GapTr α => decide (x.1 ≤ y.1)) ((fin.filter fun x => x.1 == c).map (·.2))).trans hpm
    have hs2 : (isort (fun x y : GapTr α => decide (x.1 ≤ y.1)) ((fin.filter fun x => x.1 == c).map (·.2))).Pairwise
        fun x y => x.1 < y.1 := by
      have hnd1 : ((isort (fun x y : GapTr α => decide (x.1 ≤ y.1)) ((fin.filter fun x => x.1 == c).map (·.2))).map
          (·.1)).Nodup := by
        rw [(hpm2.map _).nodup_iff]
        rw [List.nodup_iff_pairwise_ne, List.pairwise_map]
        exact hstrict.imp fun h => ne_of_lt h
      rw [List.nodup_iff_pairwise_ne, List.pairwise_map] at hnd1
      exact (hsorted.and hnd1).imp fun h => lt_of_le_of_ne (by simpa using h.1) h.2
    exact List.Perm.eq_of_pairwise (fun x y _ _ h1 h2 => by omega) hs2 hstrict hpm2
  have hout : ∀ c t, (c, t) ∈ gst → ∀ o, (c, o) ∈ (mergeSt fin).map (fun x => (x.1, trimGap a b x.2)) ↔
      ∃ m, mergeParts (((splitParts t.1 t.2).filter fun p => longEnough cf p.2.length).map fun p => (p.1, op c p.2)) = some m ∧
        o = trimGap a b m := by
    intro c t hct o
    rw [List.mem_map]
    constructor
    · rintro ⟨⟨c', m⟩, hm, he⟩
      simp only [Prod.mk.injEq] at he
      obtain ⟨rfl, rfl⟩ := he
      rw [mem_mergeSt, hsel c' t hct, mergeGaps_parts] at hm
      exact ⟨m, hm, rfl⟩
    · rintro ⟨m, hm, rfl⟩
      refine ⟨(c, m), ?_, rfl⟩
      rw [mem_mergeSt, hsel c t hct, mergeGaps_parts]
      exact hm
  refine ⟨(mergeSt fin).map fun x => (x.1, trimGap a b x.2), ?_, ?_⟩
  · unfold preprocessStream
    by_cases h0 : st = []
    · rw [if_pos h0]
      subst h0
      have e1 : st1 = [] := by simpa [pure, Except.pure] using h1.symm
      subst e1
      have e2 : l = [] := by simpa [pure, Except.pure] using h2.symm
      have e3 : fin = [] := by
        rw [hfin, hps, hps0, hgst, e2]
        rfl
      rw [e3]
      rfl
    · rw [if_neg h0, h1]
      dsimp only
      rw [h2]
      dsimp only
      rw [← hgst]
      by_cases hg : gst = []
      · rw [if_pos hg]
        have e3 : fin = [] := by
          rw [hfin, hps, hps0, hg]
          rfl
        rw [e3]
        rfl
      · rw [if_neg hg, ← hps0, ← hps, hresp']
        dsimp only
        rw [if_neg hne, hpol, runSteps, List.map_map]
        dsimp only
        have : (List.map (fun x : Chan × Part α => (x.1, (x.2.1, x.2.2.map some)))
            (List.filter (fun x => longEnough cf x.2.2.length)
              (List.map ((fun x : Chan × Part α => (x.1, (x.2.1, P x.1 x.2.2))) ∘
                fun x => (x.1, (x.2.1, if cf.removeResp = true then dec x.2.2 else x.2.2))) ps))) = fin := rfl
        rw [this]
        congr 2
        rw [List.filter_eq_self]
        intro x hx
        obtain ⟨y, -, rfl⟩ := List.mem_map.1 hx
        rw [trimGap_length]
        exact hwin
  · intro c t hct
    obtain ⟨m1, m2⟩ := merge_runs t (fun p => longEnough cf p.2.length) (op c) (hopl c) _ rfl
    constructor
    · constructor
      · rintro ⟨o, ho⟩
        obtain ⟨m, hm, -⟩ := (hout c t hct o).1 ho
        by_contra hc
        have : mergeParts (((splitParts t.1 t.2).filter fun p => longEnough cf p.2.length).map fun p => (p.1, op c p.2)) = none := by
          refine m1.2 ?_
          rintro ⟨k, d, hr, hl⟩
          exact hc ⟨k, d, hr, by simpa [longEnough] using hl⟩
        rw [this] at hm
        cases hm
      · rintro ⟨k, d, hr, hl⟩
        cases hm : mergeParts (((splitParts t.1 t.2).filter fun p => longEnough cf p.2.length).map fun p => (p.1, op c p.2)) with
        | none => exact absurd ⟨k, d, hr, by simpa [longEnough] using hl⟩ (m1.1 hm)
        | some m => exact ⟨trimGap a b m, (hout c t hct _).2 ⟨m, hm, rfl⟩⟩
    · intro o ho
      obtain ⟨m, hm, rfl⟩ := (hout c t hct o).1 ho
      obtain ⟨r1, r2, -⟩ := m2 m hm
      constructor
      · intro k d hr i hi ha hb
        rw [trimGap_at, if_pos ⟨ha, hb⟩, r1 k d hr i hi]
        simp only [longEnough, decide_eq_true_eq]
        rfl
      · intro k hk
        rw [trimGap_at, r2 k hk]
        simp

example : ∃ (st1 : ChanStream Int) (l : List (Option (Chan × GapTr Int))),
    [(((0, 1), (0, [some 1, none, some 3, some 4])) : Chan × GapTr Int), ((0, 0), (1, [some 5, some 6]))].mapM
      (fun x => (detrendTrace id x.2).map fun t => (x.1, t)) = .ok st1 ∧
    st1.mapM (fun x => ((Except.ok (some x.2) : Except PyErr (Option (GapTr Int)))).map fun t => t.map fun t => (x.1, t)) = .ok l ∧
    ((l.filterMap id).map (·.1)).Nodup ∧ l.length = 2 ∧ longEnough ⟨1, 20, true⟩ (6 - 0 + 1 : Int).toNat = true ∧
    EachTrace (fun ps : List (Chan × Part Int) => ps) (fun _ d => d) := by
  refine ⟨_, _, rfl, rfl, by decide, rfl, by decide +kernel, fun _ _ => rfl, fun ps => ?_⟩
  simp

/-- **C144** Full statement: the response is removed exactly once from each trace, with a response from
the remote server if the local one is missing.
Proved if the local inventory knows all channels, or if it does not know the first one and the server
knows all. Then the fetched inventory is kept, so that the next call finds the responses.
Missing: see `c144_twice_violated` and `c144_station_violated`. -/
theorem c144_response_partial (dec : List α → List α) (remote : Nat → Except PyErr (List Chan)) (s : RespStore)
    (st : List (Chan × Part α)) :
    ((∀ x ∈ st, x.1 ∈ s.inv) → responseStep dec remote s st = (.ok (st.map fun x => (x.1, (x.2.1, dec x.2.2))), s)) ∧
    ∀ t ts ninv, st = t :: ts → t.1 ∉ s.inv → remote t.1.1 = .ok ninv → (∀ x ∈ st, x.1 ∈ ninv) →
      ∃ s', responseStep dec remote s st = (.ok (st.map fun x => (x.1, (x.2.1, dec x.2.2))), s') ∧
        s'.written = s.written ++ [ninv] ∧ (∀ c, c ∈ s'.inv ↔ c ∈ s.inv ∨ c ∈ ninv) ∧
        ∀ st', (∀ x ∈ st', x.1 ∈ ninv) →
          responseStep dec remote s' st' = (.ok (st'.map fun x => (x.1, (x.2.1, dec x.2.2))), s') := by
  have hall : ∀ (s : RespStore) (st : List (Chan × Part α)), (∀ x ∈ st, x.1 ∈ s.inv) →
      responseStep dec remote s st = (.ok (st.map fun x => (x.1, (x.2.1, dec x.2.2))), s) := by
    intro s st h
    rw [responseStep, removeResponse_all dec s.inv st h]
    rfl
  refine ⟨hall s st, ?_⟩
  rintro ⟨c, p⟩ ts ninv rfl hnot hrem hn
  refine ⟨{ inv := s.inv ++ ninv ++ ninv, written := s.written ++ [ninv] }, ?_, rfl, ?_, ?_⟩
  · rw [responseStep, removeResponse_first dec s.inv c p ts hnot]
    simp only [Bool.false_eq_true, if_false]
    rw [hrem]
    dsimp only
    rw [removeResponse_all dec ninv _ hn]
    rfl
  · intro c
    simp only [List.mem_append]
    tauto
  · intro st' h
    refine hall _ st' fun x hx => ?_
    simp [h x hx]

/-- **C144 is violated**: if a response is missing for a later channel of the station, the response is
removed twice from the channels before it. -/
theorem c144_twice_violated (dec : List α → List α) (remote : Nat → Except PyErr (List Chan)) (written : List (List Chan))
    (hrem : remote 0 = .ok [(0, 0), (0, 1)]) (p q : Part α) :
    (responseStep dec remote ⟨[(0, 0)], written⟩ [((0, 0), p), ((0, 1), q)]).1 =
      .ok [((0, 0), (p.1, dec (dec p.2))), ((0, 1), (q.1, dec q.2))] := by
  simp [responseStep, removeResponse, hrem]

/-- **C144 is violated**: with traces of several stations only the response of the first trace's station
is requested, so a response that the server has is not used and preprocessing fails. -/
theorem c144_station_violated (dec : List α → List α) (remote : Nat → Except PyErr (List Chan)) (s : RespStore)
    (hrem : ∀ n, remote n = .ok [(n, 0)]) (p q : Part α) (h1 : (1, 0) ∉ s.inv) :
    responseStep dec remote s [((0, 0), p), ((1, 0), q)] = (.error .valueError, s) := by
  by_cases h0 : (0, 0) ∈ s.inv <;> simp [responseStep, removeResponse, hrem, h0, h1]

/-- **C144** A run that fails leaves the inventory as it was. -/
theorem c144_failed (dec : List α → List α) (remote : Nat → Except PyErr (List Chan)) (s s' : RespStore)
    (st : List (Chan × Part α)) (e : PyErr) (h : responseStep dec remote s st = (.error e, s')) : s' = s := by
  unfold responseStep at h
  dsimp only at h
  by_cases h1 : (removeResponse dec s.inv st).2 = true
  · rw [if_pos h1] at h
    simp at h
  rw [if_neg h1] at h
  split at h
  · simp only [Prod.mk.injEq] at h; exact h.2.symm
  · split at h
    · simp only [Prod.mk.injEq] at h; exact h.2.symm
    · split_ifs at h
      · simp at h
      · simp only [Prod.mk.injEq] at h; exact h.2.symm

example : preprocessStream (α := Int) ⟨1, 20, true⟩ id (List.map (· * 2)) (fun t => .ok (some t)) (fun _ ps => ps) (fun _ => .ok [])
      [⟨c!"my.negate", fun st => .ok (st.map fun x => (x.1, (x.2.1, x.2.2.map (Option.map (-·)))))⟩] 0 6 ⟨[(0, 0), (0, 1)], []⟩
      [((0, 1), (0, [some 1, none, some 3, some 4])), ((0, 0), (1, [some 5, some 6]))] =
    (.ok [((0, 0), (0, [none, some (-10), some (-12), none, none, none, none])),
          ((0, 1), (0, [none, none, some (-6), some (-8), none, none, none]))], ⟨[(0, 0), (0, 1)], []⟩) := by
  decide +kernel

end SeisMIC
