import Verif.Model.ShiftSeveral
import Verif.Props.AverageDv
import Verif.Lemmas.Sort
import Verif.Lemmas.DbRead
import Mathlib.Data.List.Nodup

/-!
# C137: correction of the shifts of several velocity change curves
-/

namespace SeisMIC

/-! ### Specification -/

section
variable {δ : Type}

/-- the curve `d` shifted against `ref`, or as it was if this is not possible -/
def shiftedTo (correct : δ → δ → Except PyErr δ) (d ref : δ) : δ :=
  match correct d ref with
  | .ok d' => d'
  | .error _ => d

/-- Curve `r` is the one to which curve `i` is compared: the first one of those with the latest time before the time of curve `i`. -/
def IsPredecessor (times : List F) (r i : Nat) : Prop :=
  ∃ a b : Rat, times[r]? = some (some a) ∧ times[i]? = some (some b) ∧ a < b ∧ (∀ (j : Nat) (c : Rat), times[j]? = some (some c) → c ≤ a ∨ b ≤ c) ∧
    ∀ j < r, times[j]? ≠ some (some a)

/-! ### Lemmas -/

theorem mem_whereEq (avl : List F) (v : F) (i : Nat) : i ∈ whereEq avl v ↔ v.isSome = true ∧ avl[i]? = some v := by
  unfold whereEq
  rw [List.mem_filter, List.mem_range, Bool.and_eq_true, decide_eq_true_eq]
  constructor
  · exact fun h => h.2
  · exact fun h => ⟨(List.getElem?_eq_some_iff.1 h.2).1, h⟩

theorem whereEq_nodup (avl : List F) (v : F) : (whereEq avl v).Nodup := List.nodup_range.filter _

theorem whereEq_head (avl : List F) (v : F) (r : Nat) (l : List Nat) (h : whereEq avl v = r :: l) : ∀ j < r, avl[j]? ≠ some v := by
  intro j hj hv
  have hs : (whereEq avl v).Pairwise (· < ·) := List.pairwise_lt_range.filter _
  have hr : r ∈ whereEq avl v := by rw [h]; simp
  have hm : j ∈ whereEq avl v := (mem_whereEq _ _ _).2 ⟨((mem_whereEq _ _ _).1 hr).1, hv⟩
  rw [h] at hm hs
  rcases List.mem_cons.1 hm with rfl | hm
  · omega
  · have := (List.pairwise_cons.1 hs).1 j hm
    omega

theorem shiftOne_spec (correct : δ → δ → Except PyErr δ) (r i : Nat) (s out : List δ) (h : shiftOne correct r i s = .ok out) :
    ∃ d ref, s[i]? = some d ∧ s[r]? = some ref ∧ out = s.set i (shiftedTo correct d ref) := by
  unfold shiftOne at h
  split at h
  · rename_i d ref hd hr
    refine ⟨d, ref, hd, hr, ?_⟩
    split at h
    · rename_i d' hc
      cases h
      unfold shiftedTo
      rw [hc]
    · rename_i hc
      cases h
      unfold shiftedTo
      rw [hc]
      simp only
      obtain ⟨hi, hd⟩ := List.getElem?_eq_some_iff.1 hd
      rw [← hd, List.set_getElem_self]
    · cases h
  · cases h

theorem shiftFold_spec (correct : δ → δ → Except PyErr δ) (r : Nat) (l : List Nat) (hnd : l.Nodup) (hr : r ∉ l) (s out : List δ)
    (h : l.foldlM (fun s i => shiftOne correct r i s) s = .ok out) :
    out.length = s.length ∧ (∀ i, i ∉ l → out[i]? = s[i]?) ∧
      ∀ i ∈ l, ∃ d ref, s[i]? = some d ∧ s[r]? = some ref ∧ out[i]? = some (shiftedTo correct d ref) := by
  induction l generalizing s with
  | nil =>
    simp only [List.foldlM_nil, pure, Except.pure, Except.ok.injEq] at h
    subst h
    simp
  | cons k l ih =>
    rw [List.foldlM_cons] at h
    simp only [bind, Except.bind] at h
    split at h
    · cases h
    rename_i s1 hs1
    obtain ⟨d, ref, hd, href, rfl⟩ := shiftOne_spec correct r k s s1 hs1
    rw [List.nodup_cons] at hnd
    obtain ⟨h1, h2, h3⟩ := ih hnd.2 (fun hc => hr (by simp [hc])) _ h
    have hkl := (List.getElem?_eq_some_iff.1 hd).1
    have hrk : k ≠ r := fun hc => hr (by simp [hc])
    refine ⟨by simpa using h1, fun i hi => ?_, fun i hi => ?_⟩
    · rw [h2 i (fun hc => hi (by simp [hc])), List.getElem?_set_ne (fun hc => hi (by simp [hc]))]
    · rcases List.mem_cons.1 hi with rfl | hi
      · refine ⟨d, ref, hd, href, ?_⟩
        rw [h2 i hnd.1, List.getElem?_set_self hkl]
      · obtain ⟨d', ref', g1, g2, g3⟩ := h3 i hi
        rw [List.getElem?_set_ne (by rintro rfl; exact hnd.1 hi)] at g1
        rw [List.getElem?_set_ne hrk] at g2
        exact ⟨d', ref', g1, g2, g3⟩

theorem shiftChain_spec (correct : δ → δ → Except PyErr δ) (avl us : List F) (hnd : us.Nodup) (s out : List δ) (h : shiftChain correct avl us s = .ok out) :
    out.length = s.length ∧ (∀ (i : Nat) (v : F), avl[i]? = some v → (v = none ∨ v ∉ us.tail) → out[i]? = s[i]?) ∧
      ∀ (k : Nat) (x y : F), us[k]? = some x → us[k + 1]? = some y → ∃ r l, whereEq avl x = r :: l ∧ ∀ i ∈ whereEq avl y,
        ∃ d ref, s[i]? = some d ∧ out[r]? = some ref ∧ out[i]? = some (shiftedTo correct d ref) := by
  induction us generalizing s with
  | nil =>
    simp only [shiftChain, Except.ok.injEq] at h
    subst h
    simp
  | cons a us ih =>
    cases us with
    | nil =>
      simp only [shiftChain, Except.ok.injEq] at h
      subst h
      simp
    | cons b rest =>
      unfold shiftChain at h
      simp only [bind, Except.bind] at h
      split at h
      · cases h
      rename_i s1 hs1
      unfold shiftGroup at hs1
      split at hs1
      · cases hs1
      rename_i r l hr
      have hab : a ≠ b := by
        rintro rfl
        simp at hnd
      have hra : a.isSome = true ∧ avl[r]? = some a := (mem_whereEq _ _ _).1 (by rw [hr]; simp)
      have hrb : r ∉ whereEq avl b := by
        intro hc
        have := ((mem_whereEq _ _ _).1 hc).2
        rw [hra.2] at this
        exact hab (Option.some.inj this)
      obtain ⟨f1, f2, f3⟩ := shiftFold_spec correct r _ (whereEq_nodup avl b) hrb s s1 hs1
      obtain ⟨g1, g2, g3⟩ := ih (List.nodup_cons.1 hnd).2 s1 h
      have hnb : ∀ i v, avl[i]? = some v → (v = none ∨ v ≠ b) → i ∉ whereEq avl b := by
        intro i v hv hc hi
        obtain ⟨k1, k2⟩ := (mem_whereEq _ _ _).1 hi
        rw [hv] at k2
        have := Option.some.inj k2
        rcases hc with hc | hc
        · rw [← this, hc] at k1
          cases k1
        · exact hc this
      refine ⟨by omega, fun i v hv hc => ?_, fun k x y hx hy => ?_⟩
      · simp only [List.tail_cons, List.mem_cons, not_or] at hc
        rw [g2 i v hv (hc.imp id fun h => h.2), f2 i (hnb i v hv (hc.imp id fun h => h.1))]
      · cases k with
        | zero =>
          simp only [List.getElem?_cons_zero, Option.some.injEq] at hx
          simp only [zero_add, List.getElem?_cons_succ, List.getElem?_cons_zero, Option.some.injEq] at hy
          subst hx hy
          refine ⟨r, l, hr, fun i hi => ?_⟩
          obtain ⟨d, ref, k1, k2, k3⟩ := f3 i hi
          have hbr : b ∉ (b :: rest).tail := by
            have := (List.nodup_cons.1 hnd).2
            exact (List.nodup_cons.1 this).1
          have har : a ∉ (b :: rest).tail := fun hc => (List.nodup_cons.1 hnd).1 (by simp at hc; simp [hc])
          refine ⟨d, ref, k1, ?_, ?_⟩
          · rw [g2 r a hra.2 (.inr har), f2 r hrb, k2]
          · rw [g2 i b ((mem_whereEq _ _ _).1 hi).2 (.inr hbr), k3]
        | succ k =>
          simp only [List.getElem?_cons_succ] at hx hy
          obtain ⟨r', l', k1, k2⟩ := g3 k x y (by simpa using hx) (by simpa using hy)
          refine ⟨r', l', k1, fun i hi => ?_⟩
          obtain ⟨d, ref, m1, m2, m3⟩ := k2 i hi
          refine ⟨d, ref, ?_, m2, m3⟩
          rw [← m1, f2 i]
          refine hnb i y ((mem_whereEq _ _ _).1 hi).2 (.inr ?_)
          rintro rfl
          exact (List.nodup_cons.1 (List.nodup_cons.1 hnd).2).1 (List.mem_of_getElem? hy)

end

theorem npUnique_sorted (l : List Rat) : (npUnique (fun a b : Rat => decide (a ≤ b)) l).Pairwise (· < ·) := by
  have h1 : (npUnique (fun a b : Rat => decide (a ≤ b)) l).Pairwise fun a b => decide (a ≤ b) = true := by
    unfold npUnique
    refine isort_sorted _ ?_ ?_ _
    · intro a b h
      simp only [decide_eq_false_iff_not, not_le] at h
      simpa using h.le
    · intro a b c h1 h2
      simp only [decide_eq_true_eq] at h1 h2 ⊢
      exact h1.trans h2
  have h2 : (npUnique (fun a b : Rat => decide (a ≤ b)) l).Nodup := by
    unfold npUnique
    rw [(isort_perm _ _).nodup_iff]
    exact nodup_eraseDups _
  refine (h1.and h2).imp fun h => ?_
  simp only [decide_eq_true_eq] at h
  exact lt_of_le_of_ne h.1 h.2

theorem uniqueTimes_nodup (avl : List F) : (uniqueTimes avl).Nodup := by
  unfold uniqueTimes
  rw [List.nodup_append]
  refine ⟨?_, ?_, ?_⟩
  · rw [List.nodup_map_iff (Option.some_injective _)]
    exact (npUnique_sorted _).imp fun h => h.ne
  · split <;> simp
  · rintro a ha b hb rfl
    obtain ⟨q, -, rfl⟩ := List.mem_map.1 ha
    split at hb <;> simp at hb

theorem mem_npUnique_rat (avl : List F) (q : Rat) : q ∈ npUnique (fun a b : Rat => decide (a ≤ b)) (notNan avl) ↔ some q ∈ avl := by
  unfold npUnique
  rw [mem_isort, List.mem_eraseDups, mem_notNan]

/-- two following times -/
theorem uniqueTimes_next (avl : List F) (a b : Rat) (ha : some a ∈ avl) (hb : some b ∈ avl) (hab : a < b) (hno : ∀ c, some c ∈ avl → c ≤ a ∨ b ≤ c) :
    ∃ k, (uniqueTimes avl)[k]? = some (some a) ∧ (uniqueTimes avl)[k + 1]? = some (some b) := by
  have hs := npUnique_sorted (notNan avl)
  have hmem := mem_npUnique_rat avl
  set u := npUnique (fun a b : Rat => decide (a ≤ b)) (notNan avl) with hu
  obtain ⟨k, hk⟩ := List.mem_iff_getElem?.1 ((hmem a).2 ha)
  obtain ⟨m, hm⟩ := List.mem_iff_getElem?.1 ((hmem b).2 hb)
  obtain ⟨hkl, hk'⟩ := List.getElem?_eq_some_iff.1 hk
  obtain ⟨hml, hm'⟩ := List.getElem?_eq_some_iff.1 hm
  have hget := List.pairwise_iff_getElem.1 hs
  have hkm : k < m := by
    rcases Nat.lt_trichotomy k m with h | rfl | h
    · exact h
    · rw [hk'] at hm'; linarith
    · have := hget m k hml hkl h
      rw [hk', hm'] at this
      linarith
  have : m = k + 1 := by
    by_contra hne
    have h1 := hget k (k + 1) hkl (by omega) (by omega)
    have h2 := hget (k + 1) m (by omega) hml (by omega)
    rw [hk'] at h1
    rw [hm'] at h2
    rcases hno _ ((hmem _).1 (List.getElem_mem (by omega : k + 1 < u.length))) with h | h <;> linarith
  subst this
  refine ⟨k, ?_, ?_⟩
  · unfold uniqueTimes
    rw [← hu, List.getElem?_append_left (by simpa using hkl), List.getElem?_map, hk]
    rfl
  · unfold uniqueTimes
    rw [← hu, List.getElem?_append_left (by simpa using hml), List.getElem?_map, hm]
    rfl

/-- the earliest time -/
theorem uniqueTimes_first (avl : List F) (b : Rat) (hno : ∀ c, some c ∈ avl → b ≤ c) : some b ∉ (uniqueTimes avl).tail := by
  have hs := npUnique_sorted (notNan avl)
  have hmem := mem_npUnique_rat avl
  unfold uniqueTimes
  cases hu : npUnique (fun a b : Rat => decide (a ≤ b)) (notNan avl) with
  | nil =>
    simp only [List.map_nil, List.nil_append]
    split <;> simp
  | cons x l =>
    rw [hu] at hs hmem
    simp only [List.map_cons, List.cons_append, List.tail_cons, List.mem_append, not_or]
    refine ⟨?_, by split <;> simp⟩
    rw [List.mem_map]
    rintro ⟨q, hq, he⟩
    cases he
    have h1 := (List.pairwise_cons.1 hs).1 b hq
    have h2 := hno x ((hmem x).1 (by simp))
    linarith

/-! ### C137 -/

section
variable {δ : Type}

/-- **C137** (one after another). The curves are ordered by the mean times of their values. The earliest ones, and those without values, stay as they are.
Each other one becomes itself shifted against its corrected predecessor, or stays as it is if this shift can not be measured. -/
theorem c137_chain (time : δ → F) (correct : δ → δ → Except PyErr δ) (dvs out : List δ) (h : shiftSeveral time correct dvs = .ok out) :
    out.length = dvs.length ∧ ∀ (i : Nat) (d : δ), dvs[i]? = some d →
      ((time d = none ∨ ∀ b, time d = some b → ∀ d' ∈ dvs, ∀ c, time d' = some c → b ≤ c) → out[i]? = some d) ∧
      ∀ r, IsPredecessor (dvs.map time) r i → ∃ ref, out[r]? = some ref ∧ out[i]? = some (shiftedTo correct d ref) := by
  obtain ⟨h1, h2, h3⟩ := shiftChain_spec correct (dvs.map time) (uniqueTimes (dvs.map time)) (uniqueTimes_nodup _) dvs out h
  refine ⟨h1, fun i d hd => ⟨fun hc => ?_, fun r hr => ?_⟩⟩
  · rw [h2 i (time d) (by rw [List.getElem?_map, hd]; rfl) ?_, hd]
    rcases hc with hc | hc
    · exact .inl hc
    · cases ht : time d with
      | none => exact .inl rfl
      | some b =>
        right
        refine uniqueTimes_first _ b fun c hcm => ?_
        obtain ⟨d', hd', he⟩ := List.mem_map.1 hcm
        exact hc b ht d' hd' c he
  · obtain ⟨a, b, hra, hib, hab, hno, hfirst⟩ := hr
    obtain ⟨k, hk1, hk2⟩ := uniqueTimes_next (dvs.map time) a b (List.mem_of_getElem? hra) (List.mem_of_getElem? hib) hab fun c hc => by
      obtain ⟨j, hj⟩ := List.mem_iff_getElem?.1 hc
      exact hno j c hj
    obtain ⟨r', l, hr', hall⟩ := h3 k (some a) (some b) hk1 hk2
    have hr'a : (dvs.map time)[r']? = some (some a) := ((mem_whereEq _ _ _).1 (by rw [hr']; simp)).2
    have : r' = r := by
      rcases Nat.lt_trichotomy r' r with hlt | he | hlt
      · exact absurd hr'a (hfirst r' hlt)
      · exact he
      · exact absurd hra (whereEq_head _ _ _ _ hr' r hlt)
    subst this
    obtain ⟨d', ref, g1, g2, g3⟩ := hall i ((mem_whereEq _ _ _).2 ⟨rfl, hib⟩)
    rw [hd] at g1
    cases g1
    exact ⟨ref, g2, g3⟩

/-- **C137** (each curve is corrected at most once): each curve with a value is one of the earliest ones or has exactly one predecessor. -/
theorem c137_predecessor (times : List F) (i : Nat) (b : Rat) (hi : times[i]? = some (some b)) :
    (∀ c, some c ∈ times → b ≤ c) ∨ ∃ r, IsPredecessor times r i ∧ ∀ r', IsPredecessor times r' i → r' = r := by
  by_cases hfirst : ∀ c, some c ∈ times → b ≤ c
  · exact .inl hfirst
  right
  push Not at hfirst
  obtain ⟨c0, hc0, hlt0⟩ := hfirst
  have hne : (notNan times).filter (fun c => decide (c < b)) ≠ [] := by
    apply List.ne_nil_of_mem (a := c0)
    rw [List.mem_filter, mem_notNan]
    exact ⟨hc0, by simpa using hlt0⟩
  cases hmax : maxList ((notNan times).filter fun c => decide (c < b)) with
  | none => exact absurd ((maxList_none _).1 hmax) hne
  | some a =>
    obtain ⟨ha1, ha2⟩ := maxList_spec _ _ hmax
    rw [List.mem_filter, mem_notNan, decide_eq_true_eq] at ha1
    have hno : ∀ (j : Nat) (c : Rat), times[j]? = some (some c) → c ≤ a ∨ b ≤ c := by
      intro j c hc
      by_cases hcb : c < b
      · exact .inl (ha2 c (by rw [List.mem_filter, mem_notNan, decide_eq_true_eq]; exact ⟨List.mem_of_getElem? hc, hcb⟩))
      · exact .inr (not_lt.1 hcb)
    obtain ⟨j, hj⟩ := List.mem_iff_getElem?.1 ha1.1
    have hex : ∃ j, times[j]? = some (some a) := ⟨j, hj⟩
    classical
    refine ⟨Nat.find hex, ⟨a, b, Nat.find_spec hex, hi, ha1.2, hno, fun j hj => Nat.find_min hex hj⟩, ?_⟩
    rintro r' ⟨a', b', h1, h2, h3, h4, h5⟩
    rw [hi] at h2
    obtain rfl : b = b' := Option.some.inj (Option.some.inj h2)
    obtain rfl : a = a' := by
      apply le_antisymm
      · rcases h4 _ _ hj with h | h
        · exact h
        · linarith [ha1.2]
      · rcases hno _ _ h1 with h | h
        · exact h
        · linarith
    rcases Nat.lt_trichotomy r' (Nat.find hex) with h | h | h
    · exact absurd h1 (Nat.find_min hex h)
    · exact h
    · exact absurd (Nat.find_spec hex) (h5 _ h)

/-- what the loops keep: as many curves as times, and those with a time are good -/
def ShiftInv (good : δ → Prop) (avl : List F) (s : List δ) : Prop :=
  s.length = avl.length ∧ ∀ (i : Nat) (d : δ) (q : Rat), s[i]? = some d → avl[i]? = some (some q) → good d

theorem shiftOne_total (good : δ → Prop) (correct : δ → δ → Except PyErr δ)
    (hg : ∀ d ref, good d → good ref → (∀ e, correct d ref = .error e → e = .valueError) ∧ ∀ d', correct d ref = .ok d' → good d') (avl : List F)
    (r i : Nat) (p q : Rat) (hr : avl[r]? = some (some p)) (hi : avl[i]? = some (some q)) (s : List δ) (hs : ShiftInv good avl s) :
    ∃ out, shiftOne correct r i s = .ok out ∧ ShiftInv good avl out := by
  have hrl := (List.getElem?_eq_some_iff.1 hr).1
  have hil := (List.getElem?_eq_some_iff.1 hi).1
  obtain ⟨hl, hs⟩ := hs
  have h1 := List.getElem?_eq_getElem (l := s) (i := i) (by omega)
  have h2 := List.getElem?_eq_getElem (l := s) (i := r) (by omega)
  obtain ⟨g1, g2⟩ := hg _ _ (hs i _ q h1 hi) (hs r _ p h2 hr)
  unfold shiftOne
  rw [h1, h2]
  simp only
  cases hc : correct s[i] s[r] with
  | ok d' =>
    refine ⟨_, rfl, by simpa using hl, fun j d q' hd hj => ?_⟩
    by_cases hij : i = j
    · subst hij
      rw [List.getElem?_set_self (by omega)] at hd
      cases hd
      exact g2 _ hc
    · rw [List.getElem?_set_ne hij] at hd
      exact hs j d q' hd hj
  | error e =>
    obtain rfl := g1 e hc
    exact ⟨s, rfl, hl, hs⟩

theorem shiftFold_total (good : δ → Prop) (correct : δ → δ → Except PyErr δ)
    (hg : ∀ d ref, good d → good ref → (∀ e, correct d ref = .error e → e = .valueError) ∧ ∀ d', correct d ref = .ok d' → good d') (avl : List F)
    (r : Nat) (p : Rat) (hr : avl[r]? = some (some p)) (l : List Nat) (hl : ∀ i ∈ l, ∃ q : Rat, avl[i]? = some (some q)) (s : List δ) (hs : ShiftInv good avl s) :
    ∃ out, l.foldlM (fun s i => shiftOne correct r i s) s = .ok out ∧ ShiftInv good avl out := by
  induction l generalizing s with
  | nil => exact ⟨s, rfl, hs⟩
  | cons i l ih =>
    obtain ⟨q, hq⟩ := hl i (by simp)
    obtain ⟨s1, h1, h2⟩ := shiftOne_total good correct hg avl r i p q hr hq s hs
    obtain ⟨out, h3, h4⟩ := ih (fun j hj => hl j (by simp [hj])) s1 h2
    refine ⟨out, ?_, h4⟩
    rw [List.foldlM_cons, h1]
    exact h3

theorem shiftChain_total (good : δ → Prop) (correct : δ → δ → Except PyErr δ)
    (hg : ∀ d ref, good d → good ref → (∀ e, correct d ref = .error e → e = .valueError) ∧ ∀ d', correct d ref = .ok d' → good d') (avl us : List F)
    (hus : ∀ u ∈ us.dropLast, ∃ q : Rat, u = some q ∧ u ∈ avl) (s : List δ) (hs : ShiftInv good avl s) :
    ∃ out, shiftChain correct avl us s = .ok out := by
  induction us generalizing s with
  | nil => exact ⟨s, rfl⟩
  | cons a us ih =>
    cases us with
    | nil => exact ⟨s, rfl⟩
    | cons b rest =>
      obtain ⟨q, rfl, hq⟩ := hus a (by simp)
      obtain ⟨j, hj⟩ := List.mem_iff_getElem?.1 hq
      have hjm : j ∈ whereEq avl (some q) := (mem_whereEq _ _ _).2 ⟨rfl, hj⟩
      unfold shiftChain
      cases hw : whereEq avl (some q) with
      | nil => rw [hw] at hjm; cases hjm
      | cons r l =>
        have hr := ((mem_whereEq avl (some q) r).1 (by rw [hw]; simp)).2
        obtain ⟨s1, h1, h2⟩ := shiftFold_total good correct hg avl r q hr (whereEq avl b) (fun i hi => by
          obtain ⟨k1, k2⟩ := (mem_whereEq _ _ _).1 hi
          obtain ⟨q', rfl⟩ := Option.isSome_iff_exists.1 k1
          exact ⟨q', k2⟩) s hs
        obtain ⟨out, h3⟩ := ih (fun u hu => hus u (by
          rw [List.dropLast_cons_of_ne_nil (by simp)]
          exact List.mem_cons_of_mem _ hu)) s1 h2
        refine ⟨out, ?_⟩
        simp only [bind, Except.bind, shiftGroup, hw, h1, h3]

/-- **C137** (always finishes). If the correction of curves with values (`good`) fails only with `ValueError`, the correction of several curves does not fail. -/
theorem c137_finishes (time : δ → F) (correct : δ → δ → Except PyErr δ) (good : δ → Prop)
    (hg : ∀ d ref, good d → good ref → (∀ e, correct d ref = .error e → e = .valueError) ∧ ∀ d', correct d ref = .ok d' → good d')
    (dvs : List δ) (hd : ∀ d ∈ dvs, time d ≠ none → good d) : ∃ out, shiftSeveral time correct dvs = .ok out := by
  refine shiftChain_total good correct hg _ _ (fun u hu => ?_) dvs ⟨by simp, fun i d q h1 h2 => hd d (List.mem_of_getElem? h1) ?_⟩
  · unfold uniqueTimes at hu
    have key : ∀ v ∈ (npUnique (fun a b : Rat => decide (a ≤ b)) (notNan (dvs.map time))).map some, ∃ q : Rat, v = some q ∧ v ∈ dvs.map time := by
      intro v hv
      obtain ⟨q, hq, rfl⟩ := List.mem_map.1 hv
      exact ⟨q, rfl, (mem_npUnique_rat _ _).1 hq⟩
    split at hu
    · rw [List.dropLast_concat] at hu
      exact key u hu
    · rw [List.append_nil] at hu
      exact key u (List.dropLast_subset _ hu)
  · rw [List.getElem?_map, h1] at h2
    simp only [Option.map_some, Option.some.injEq] at h2
    rw [h2]
    simp

end

/-- a curve whose correction is possible in principle: at least two tested stretches, and some value -/
def UsableCurve (d : DvT) : Prop := 2 ≤ d.dv.axis.length ∧ d.starts.length = d.dv.corr.length ∧ ∃ c, some c ∈ d.dv.corr

theorem maskSel_mem {α : Type} (l : List α) (m : List Bool) (x : α) (h : x ∈ maskSel l m) : x ∈ l := by
  unfold maskSel at h
  obtain ⟨⟨y, b⟩, hy, hb⟩ := List.mem_filterMap.1 h
  simp only at hb
  split at hb
  · cases hb
    exact (List.of_mem_zip hy).1
  · cases hb

theorem maskSel_ne_nil (d : DvT) (hl : d.starts.length = d.dv.corr.length) (hv : ∃ c, some c ∈ d.dv.corr) :
    maskSel d.starts (d.dv.corr.map (·.isSome)) ≠ [] := by
  obtain ⟨c, hc⟩ := hv
  obtain ⟨k, hk⟩ := List.mem_iff_getElem?.1 hc
  obtain ⟨hkl, hk'⟩ := List.getElem?_eq_some_iff.1 hk
  apply List.ne_nil_of_mem (a := d.starts[k])
  unfold maskSel
  refine List.mem_filterMap.2 ⟨(d.starts[k], true), ?_, rfl⟩
  refine List.mem_iff_getElem.2 ⟨k, by simp; omega, ?_⟩
  simp [hk']

theorem whereFirst_ok (l : List Int) (v : Int) (h : v ∈ l) : ∃ k, whereFirst l v = .ok k := by
  unfold whereFirst
  rw [if_pos (List.findIdx_lt_length_of_exists ⟨v, h, by simp⟩)]
  exact ⟨_, rfl⟩

/-- **C137** (the correction by means). For curves with values the correction of one curve fails only with `ValueError`, and a corrected curve has the same
times, correlations and tested stretches: the hypotheses of `c137_finishes` are met. -/
theorem c137_mean (nOverlap : Nat) (d ref : DvT) (hd : UsableCurve d) (hr : UsableCurve ref) :
    (∀ e, correctMean nOverlap d ref = .error e → e = .valueError) ∧
      ∀ d', correctMean nOverlap d ref = .ok d' → UsableCurve d' ∧ meanTime d' = meanTime d ∧ d'.dv.corr = d.dv.corr ∧ d'.starts = d.starts := by
  obtain ⟨ha, hdl, hdv⟩ := hd
  obtain ⟨-, hrl, hrv⟩ := hr
  have hroll : ∀ start stop e, shiftRoll d.dv ref.dv start stop = .error e → e = .valueError := by
    intro start stop e he
    unfold shiftRoll at he
    match hx : d.dv.axis, ha with
    | x0 :: x1 :: ax, _ =>
      rw [hx] at he
      simp only at he
      split at he
      · cases he; rfl
      · cases he
  have hwin : ∀ nval e, shiftWindow d.starts ref.starts (d.dv.corr.map (·.isSome)) (ref.dv.corr.map (·.isSome)) nOverlap nval = .error e → e = .valueError := by
    intro nval e he
    have n1 := maskSel_ne_nil d hdl hdv
    have n2 := maskSel_ne_nil ref hrl hrv
    obtain ⟨a0, l0, e0⟩ := List.exists_cons_of_ne_nil n1
    obtain ⟨a1, l1, e1⟩ := List.exists_cons_of_ne_nil n2
    have g0 : (maskSel d.starts (d.dv.corr.map (·.isSome))).getLast? = some ((maskSel d.starts (d.dv.corr.map (·.isSome))).getLast n1) := List.getLast?_eq_some_getLast n1
    have g1 : (maskSel ref.starts (ref.dv.corr.map (·.isSome))).getLast? = some ((maskSel ref.starts (ref.dv.corr.map (·.isSome))).getLast n2) := List.getLast?_eq_some_getLast n2
    have m0 := maskSel_mem d.starts _ _ (List.getLast_mem n1)
    have m1 := maskSel_mem ref.starts _ _ (List.getLast_mem n2)
    have k0 : a0 ∈ d.starts := maskSel_mem d.starts (d.dv.corr.map (·.isSome)) a0 (by rw [e0]; simp)
    have k1 : a1 ∈ ref.starts := maskSel_mem ref.starts (ref.dv.corr.map (·.isSome)) a1 (by rw [e1]; simp)
    have h0 : (maskSel d.starts (d.dv.corr.map (·.isSome))).head? = some a0 := by rw [e0]; rfl
    have h1 : (maskSel ref.starts (ref.dv.corr.map (·.isSome))).head? = some a1 := by rw [e1]; rfl
    obtain ⟨w1, hw1⟩ := whereFirst_ok _ _ k0
    obtain ⟨w2, hw2⟩ := whereFirst_ok _ _ m1
    obtain ⟨w3, hw3⟩ := whereFirst_ok _ _ k1
    obtain ⟨w4, hw4⟩ := whereFirst_ok _ _ m0
    unfold shiftWindow at he
    simp only [h0, h1, g0, g1, bind, Except.bind, pure, Except.pure, hw1, hw2, hw3, hw4] at he
    repeat' split at he
    all_goals first
      | (cases he; rfl)
      | cases he
  constructor
  · intro e he
    unfold correctMean correctDvShift at he
    simp only [bind, Except.bind, pure, Except.pure] at he
    split at he
    · rename_i e' heq
      cases he
      split at heq
      · rename_i e'' h3
        cases heq
        exact hwin _ _ h3
      · split at heq
        · rename_i e'' h3
          cases heq
          exact hroll _ _ _ h3
        · cases heq
    · cases he
  · intro d' he
    unfold correctMean correctDvShift at he
    simp only [bind, Except.bind, pure, Except.pure] at he
    split at he
    · cases he
    · rename_i new heq
      cases he
      split at heq
      · cases heq
      · split at heq
        · cases heq
        · cases heq
          exact ⟨⟨ha, hdl, hdv⟩, rfl, rfl, rfl⟩

/-- **C137**: if no shift can be measured, as with an unknown method, nothing is changed and there is no error -/
theorem c137_failed {δ : Type} (time : δ → F) (dvs out : List δ) (h : shiftSeveral time (fun _ _ => .error .valueError) dvs = .ok out) : out = dvs := by
  obtain ⟨h1, h2⟩ := c137_chain time _ dvs out h
  refine List.ext_getElem? fun i => ?_
  cases hd : dvs[i]? with
  | none =>
    rw [List.getElem?_eq_none_iff] at hd ⊢
    omega
  | some d =>
    obtain ⟨h3, h4⟩ := h2 i d hd
    cases ht : time d with
    | none => exact h3 (.inl ht)
    | some b =>
      rcases c137_predecessor (dvs.map time) i b (by rw [List.getElem?_map, hd, Option.map_some, ht]) with hf | ⟨r, hr, -⟩
      · refine h3 (.inr fun b' hb' d' hd' c hc => ?_)
        rw [ht] at hb'
        cases hb'
        exact hf c (List.mem_map.2 ⟨d', hd', hc⟩)
      · obtain ⟨ref, -, h5⟩ := h4 r hr
        rw [h5]
        rfl

/-- three curves at times 1, 3 and 2; the correction adds the value of the reference -/
example : shiftSeveral (fun d : Nat × Nat => some ((d.1 : Nat) : Rat)) (fun d ref => .ok (d.1, d.2 + ref.2)) [(1, 5), (3, 100), (2, 20), (3, 200)] =
    .ok [(1, 5), (3, 125), (2, 25), (3, 225)] := by decide +kernel

example : UsableCurve ⟨⟨c!"A", c!"S", c!"Z", c!"m", c!"stretch", [-1, 0, 1], [], [some (-1), none], [some (1/2), none]⟩, [0, 10]⟩ :=
  ⟨by decide, rfl, ⟨1 / 2, by simp⟩⟩

end SeisMIC
