import Verif.Model.Segments
import Verif.Props.Taper
import Verif.Props.TraceUtils
import Mathlib.Tactic.Linarith

/-!
# C103–C105: operations on traces with gaps
-/

namespace SeisMIC

variable {α : Type}

/-! ### Specification -/

/-- `d` are the samples of a contiguous part of the trace from sample `a` on, and the samples
before and after it are missing -/
def RunAt (tr : GapTr α) (a : Int) (d : List α) : Prop :=
  d ≠ [] ∧ (∀ i : Nat, i < d.length → tr.at (a + i) = d[i]?) ∧ tr.at (a - 1) = none ∧ tr.at (a + d.length) = none

/-- `data` is `A` with the gaps of at most `L` samples interpolated linearly -/
def Interpolated (A : List F) (L : Nat) (data : List F) : Prop :=
  data.length = A.length ∧ ∀ i : Nat,
    (∀ v, A[i]? = some (some v) → data[i]? = some (some v)) ∧
    (∀ p q a b, InGap A p i q a b → q - p - 1 ≤ L →
      data[i]? = some (some (a + (b - a) * (((i : Rat) - p) / ((q : Rat) - p))))) ∧
    (A[i]? = some none → (¬ ∃ p q a b, InGap A p i q a b ∧ q - p - 1 ≤ L) → data[i]? = some none)

/-! ### Lemmas -/

/-- parts in order of time with gaps between them -/
def PartsApart : List (Part α) → Prop
  | [] => True
  | [_] => True
  | (s, d) :: (s', d') :: rest => s + d.length < s' ∧ PartsApart ((s', d') :: rest)

theorem PartsApart.tail {p : Part α} {l : List (Part α)} (h : PartsApart (p :: l)) : PartsApart l := by
  cases l with
  | nil => trivial
  | cons q l => exact h.2

theorem PartsApart.lt {p : Part α} {l : List (Part α)} (h : PartsApart (p :: l)) : ∀ q ∈ l, p.1 + p.2.length < q.1 := by
  induction l generalizing p with
  | nil => intro q hq; cases hq
  | cons r l ih =>
    intro q hq
    rcases List.mem_cons.1 hq with rfl | hq
    · exact h.1
    · have h1 := h.1
      have h2 := ih h.2 q hq
      have : (0 : Int) ≤ r.2.length := Int.natCast_nonneg _
      simp only at *
      omega

theorem partsApart_cons {p : Part α} {l : List (Part α)} (h : ∀ q ∈ l, p.1 + p.2.length < q.1) (hl : PartsApart l) :
    PartsApart (p :: l) := by
  cases l with
  | nil => trivial
  | cons q l => exact ⟨h q (List.mem_cons_self ..), hl⟩

theorem partsApart_sub {l l' : List (Part α)} (h : l'.Sublist l) (hl : PartsApart l) : PartsApart l' := by
  induction h with
  | slnil => trivial
  | cons p _ ih => exact ih hl.tail
  | @cons_cons l₁ l₂ p hs ih => exact partsApart_cons (fun q hq => hl.lt q (hs.subset hq)) (ih hl.tail)

theorem partsApart_map {β : Type} {l : List (Part α)} (op : List α → List β) (hop : ∀ p ∈ l, (op p.2).length = p.2.length)
    (hl : PartsApart l) : PartsApart (l.map fun p => (p.1, op p.2)) := by
  induction l with
  | nil => trivial
  | cons p l ih =>
    refine partsApart_cons ?_ (ih (fun q hq => hop q (List.mem_cons_of_mem _ hq)) hl.tail)
    intro q hq
    obtain ⟨r, hr, rfl⟩ := List.mem_map.1 hq
    have := hl.lt r hr
    rw [hop p (List.mem_cons_self ..)]
    exact this

theorem at_cons_none (s : Int) (l : List (Option α)) (k : Int) : GapTr.at (s, none :: l) k = GapTr.at (s + 1, l) k := by
  unfold GapTr.at
  simp only
  by_cases h : k < s
  · rw [if_pos h, if_pos (by omega)]
  · rw [if_neg h]
    by_cases h' : k < s + 1
    · rw [if_pos h', show (k - s).toNat = 0 by omega]; rfl
    · rw [if_neg h', show (k - s).toNat = (k - (s + 1)).toNat + 1 by omega]; rfl

theorem at_cons_some (s : Int) (a : α) (l : List (Option α)) (k : Int) :
    GapTr.at (s, some a :: l) k = if k = s then some a else GapTr.at (s + 1, l) k := by
  unfold GapTr.at
  simp only
  by_cases h : k < s
  · rw [if_pos h, if_neg (by omega), if_pos (by omega)]
  · rw [if_neg h]
    by_cases h' : k = s
    · rw [if_pos h', show (k - s).toNat = 0 by omega]; rfl
    · rw [if_neg h', if_neg (by omega), show (k - s).toNat = (k - (s + 1)).toNat + 1 by omega]; rfl

theorem at_before (s : Int) (l : List (Option α)) (k : Int) (h : k < s) : GapTr.at (s, l) k = none := by
  unfold GapTr.at; rw [if_pos h]

theorem at_after (s : Int) (l : List (Option α)) (k : Int) (h : s + l.length ≤ k) : GapTr.at (s, l) k = none := by
  unfold GapTr.at
  simp only
  rw [if_neg (by omega), List.getElem?_eq_none (by omega)]; rfl

/-- the value of one of the parts -/
theorem at_part (s : Int) (d : List α) (k : Int) (x : α) :
    GapTr.at (s, d.map some) k = some x ↔ s ≤ k ∧ d[(k - s).toNat]? = some x := by
  unfold GapTr.at
  simp only
  by_cases h : k < s
  · rw [if_pos h]
    constructor
    · intro h; cases h
    · intro h; omega
  · rw [if_neg h, List.getElem?_map]
    cases hd : d[(k - s).toNat]? with
    | none => simp
    | some y => simp; omega

theorem splitParts_facts (s : Int) (l : List (Option α)) :
    PartsApart (splitParts s l) ∧ (∀ p ∈ splitParts s l, p.2 ≠ [] ∧ s ≤ p.1) ∧
      (∀ k x, GapTr.at (s, l) k = some x ↔ ∃ p ∈ splitParts s l, p.1 ≤ k ∧ p.2[(k - p.1).toNat]? = some x) := by
  induction l generalizing s with
  | nil =>
    refine ⟨trivial, ?_, ?_⟩
    · intro p hp; simp [splitParts] at hp
    · intro k x
      rw [show splitParts s ([] : List (Option α)) = [] from rfl]
      unfold GapTr.at
      simp
  | cons a l ih =>
    obtain ⟨h1, h2, h3⟩ := ih (s + 1)
    cases a with
    | none =>
      rw [show splitParts s (none :: l) = splitParts (s + 1) l from rfl]
      refine ⟨h1, fun p hp => ⟨(h2 p hp).1, by have := (h2 p hp).2; omega⟩, ?_⟩
      intro k x
      rw [at_cons_none]
      exact h3 k x
    | some a =>
      rw [splitParts]
      cases hs : splitParts (s + 1) l with
      | nil =>
        rw [hs] at h3
        refine ⟨trivial, ?_, ?_⟩
        · intro p hp
          obtain rfl : p = (s, [a]) := by simpa using hp
          exact ⟨by simp, le_refl _⟩
        · intro k x
          rw [at_cons_some]
          by_cases hk : k = s
          · subst hk; simp
          · rw [if_neg hk, h3]
            constructor
            · rintro ⟨p, hp, -⟩; cases hp
            · rintro ⟨p, hp, h4, h5⟩
              obtain rfl : p = (s, [a]) := by simpa using hp
              simp only at h4 h5
              rw [List.getElem?_eq_none (by simp; omega)] at h5
              cases h5
      | cons q rest =>
        obtain ⟨s', d⟩ := q
        rw [hs] at h1 h2 h3
        have h20 := h2 (s', d) (List.mem_cons_self ..)
        simp only at h20 ⊢
        by_cases heq : s' = s + 1
        · rw [if_pos heq]
          subst heq
          refine ⟨?_, ?_, ?_⟩
          · refine partsApart_cons ?_ h1.tail
            intro q hq
            have := h1.lt q hq
            simp only [List.length_cons] at this ⊢
            omega
          · intro p hp
            rcases List.mem_cons.1 hp with rfl | hp
            · exact ⟨by simp, le_refl _⟩
            · have := h2 p (List.mem_cons_of_mem _ hp)
              exact ⟨this.1, by omega⟩
          · intro k x
            rw [at_cons_some]
            by_cases hk : k = s
            · subst hk
              rw [if_pos rfl]
              constructor
              · intro h
                exact ⟨_, List.mem_cons_self .., le_refl _, by simpa using h⟩
              · rintro ⟨p, hp, h4, h5⟩
                rcases List.mem_cons.1 hp with rfl | hp
                · simpa using h5
                · have := (h2 p (List.mem_cons_of_mem _ hp)).2
                  omega
            · rw [if_neg hk, h3]
              constructor
              · rintro ⟨p, hp, h4, h5⟩
                rcases List.mem_cons.1 hp with rfl | hp
                · refine ⟨_, List.mem_cons_self .., by simp only at h4 ⊢; omega, ?_⟩
                  simp only at h4 h5 ⊢
                  rw [show (k - s).toNat = (k - (s + 1)).toNat + 1 by omega, List.getElem?_cons_succ]
                  exact h5
                · exact ⟨p, List.mem_cons_of_mem _ hp, h4, h5⟩
              · rintro ⟨p, hp, h4, h5⟩
                rcases List.mem_cons.1 hp with rfl | hp
                · refine ⟨_, List.mem_cons_self .., by simp only at h4 ⊢; omega, ?_⟩
                  simp only at h4 h5 ⊢
                  rw [show (k - s).toNat = (k - (s + 1)).toNat + 1 by omega, List.getElem?_cons_succ] at h5
                  exact h5
                · exact ⟨p, List.mem_cons_of_mem _ hp, h4, h5⟩
        · rw [if_neg heq]
          refine ⟨?_, ?_, ?_⟩
          · refine partsApart_cons ?_ h1
            intro q hq
            simp only [List.length_cons, List.length_nil]
            rcases List.mem_cons.1 hq with rfl | hq
            · simp only; omega
            · have := h1.lt q hq
              have := h20.2
              simp only at *
              omega
          · intro p hp
            rcases List.mem_cons.1 hp with rfl | hp
            · exact ⟨by simp, le_refl _⟩
            · have := h2 p hp
              exact ⟨this.1, by omega⟩
          · intro k x
            rw [at_cons_some]
            by_cases hk : k = s
            · subst hk
              rw [if_pos rfl]
              constructor
              · intro h
                exact ⟨_, List.mem_cons_self .., le_refl _, by simpa using h⟩
              · rintro ⟨p, hp, h4, h5⟩
                rcases List.mem_cons.1 hp with rfl | hp
                · simpa using h5
                · have := (h2 p hp).2
                  omega
            · rw [if_neg hk, h3]
              constructor
              · rintro ⟨p, hp, h⟩
                exact ⟨p, List.mem_cons_of_mem _ hp, h⟩
              · rintro ⟨p, hp, h4, h5⟩
                rcases List.mem_cons.1 hp with rfl | hp
                · simp only at h4 h5
                  rw [List.getElem?_eq_none (by simp; omega)] at h5
                  cases h5
                · exact ⟨p, hp, h4, h5⟩

theorem partsApart_nonempty_unique {l : List (Part α)} (hl : PartsApart l) {p q : Part α} (hp : p ∈ l) (hq : q ∈ l)
    {k : Int} (h1 : p.1 ≤ k) (h2 : k ≤ p.1 + p.2.length) (h3 : q.1 ≤ k) (h4 : k ≤ q.1 + q.2.length) : p = q := by
  induction l with
  | nil => cases hp
  | cons r l ih =>
    rcases List.mem_cons.1 hp with rfl | hp' <;> rcases List.mem_cons.1 hq with rfl | hq'
    · rfl
    · have := hl.lt q hq'; omega
    · have := hl.lt p hp'; omega
    · exact ih hl.tail hp' hq'

/-- the parts of a trace are its runs -/
theorem mem_splitParts (tr : GapTr α) (a : Int) (d : List α) : (a, d) ∈ splitParts tr.1 tr.2 ↔ RunAt tr a d := by
  obtain ⟨h1, h2, h3⟩ := splitParts_facts tr.1 tr.2
  have key : ∀ p ∈ splitParts tr.1 tr.2, RunAt tr p.1 p.2 := by
    intro p hp
    have hlen : 0 < p.2.length := List.length_pos_iff.2 (h2 p hp).1
    refine ⟨(h2 p hp).1, ?_, ?_, ?_⟩
    · intro i hi
      have hx : p.2[i]? = some p.2[i] := List.getElem?_eq_getElem hi
      rw [hx]
      refine (h3 _ _).2 ⟨p, hp, by omega, ?_⟩
      rw [show (p.1 + (i : Int) - p.1).toNat = i by omega, hx]
    · cases hv : tr.at (p.1 - 1) with
      | none => rfl
      | some x =>
        exfalso
        obtain ⟨q, hq, h4, h5⟩ := (h3 _ _).1 hv
        have hq1 : (p.1 - 1 - q.1).toNat < q.2.length := by
          by_contra hc
          rw [List.getElem?_eq_none (by omega)] at h5
          cases h5
        have := partsApart_nonempty_unique h1 hp hq (k := p.1) (le_refl _) (by omega) (by omega) (by omega)
        rw [this] at h4
        omega
    · cases hv : tr.at (p.1 + p.2.length) with
      | none => rfl
      | some x =>
        exfalso
        obtain ⟨q, hq, h4, h5⟩ := (h3 _ _).1 hv
        have hq1 : (p.1 + p.2.length - q.1).toNat < q.2.length := by
          by_contra hc
          rw [List.getElem?_eq_none (by omega)] at h5
          cases h5
        have := partsApart_nonempty_unique h1 hp hq (k := p.1 + p.2.length) (by omega) (by omega) h4 (by omega)
        rw [← this] at hq1
        omega
  constructor
  · exact key (a, d)
  · rintro ⟨r1, r2, r3, r4⟩
    have hlen : 0 < d.length := List.length_pos_iff.2 r1
    have hx0 : d[0]? = some d[0] := List.getElem?_eq_getElem hlen
    obtain ⟨p, hp, h4, h5⟩ := (h3 _ _).1 ((r2 0 hlen).trans hx0)
    simp only [Nat.cast_zero, add_zero] at h4 h5
    have hp1 : (a - p.1).toNat < p.2.length := by
      by_contra hc
      rw [List.getElem?_eq_none (by omega)] at h5
      cases h5
    obtain ⟨-, k2, k3, k4⟩ := key p hp
    have ha : p.1 = a := by
      by_contra hne
      have h6 := k2 (a - 1 - p.1).toNat (by omega)
      rw [show p.1 + ((a - 1 - p.1).toNat : Int) = a - 1 by omega, r3,
        List.getElem?_eq_getElem (by omega)] at h6
      cases h6
    have hl : p.2.length = d.length := by
      rcases Nat.lt_trichotomy p.2.length d.length with h | h | h
      · exfalso
        have h6 := r2 p.2.length h
        rw [← ha, k4, List.getElem?_eq_getElem h] at h6
        cases h6
      · exact h
      · exfalso
        have h6 := k2 d.length h
        rw [ha, r4, List.getElem?_eq_getElem h] at h6
        cases h6
    have hd : p.2 = d := by
      apply List.ext_getElem? 
      intro i
      by_cases hi : i < d.length
      · rw [← r2 i hi, ← k2 i (by omega), ha]
      · rw [List.getElem?_eq_none (by omega), List.getElem?_eq_none (by omega)]
    have : p = (a, d) := Prod.ext ha hd
    rw [← this]; exact hp

theorem mergeParts_facts (l : List (Part α)) (hl : PartsApart l) (hne : ∀ p ∈ l, p.2 ≠ []) :
    (l = [] → mergeParts l = none) ∧ ∀ p rest, l = p :: rest → ∃ d, mergeParts l = some (p.1, d) ∧ d ≠ [] ∧
      (∀ k x, GapTr.at (p.1, d) k = some x ↔ ∃ q ∈ l, q.1 ≤ k ∧ q.2[(k - q.1).toNat]? = some x) ∧
      (∀ q, l.getLast? = some q → p.1 + d.length = q.1 + q.2.length) := by
  induction l with
  | nil =>
    refine ⟨fun _ => rfl, ?_⟩
    intro p rest h; cases h
  | cons p0 rest ih =>
    refine ⟨fun h => (by cases h), ?_⟩
    rintro p rest' h
    obtain ⟨rfl, rfl⟩ : p0 = p ∧ rest = rest' := by simpa using h
    clear h
    obtain ⟨ih1, ih2⟩ := ih hl.tail (fun q hq => hne q (List.mem_cons_of_mem _ hq))
    obtain ⟨s, d⟩ := p0
    have hd := hne (s, d) (List.mem_cons_self ..)
    cases rest with
    | nil =>
      refine ⟨d.map some, by rw [mergeParts, ih1 rfl], by simpa using hd, ?_, ?_⟩
      · intro k x
        rw [at_part]
        simp
      · intro q hq
        obtain rfl : (s, d) = q := by simpa using hq
        simp
    | cons p1 rest =>
      obtain ⟨d', h1, h1n, h2, h3⟩ := ih2 p1 rest rfl
      have hlt := hl.1
      refine ⟨d.map some ++ List.replicate (p1.1 - s - d.length).toNat none ++ d', by rw [mergeParts, h1], ?_, ?_, ?_⟩
      · simp [h1n]
      · intro k x
        have hlen : (d.map some ++ List.replicate (p1.1 - s - d.length).toNat none : List (Option α)).length =
            (p1.1 - s).toNat := by simp; omega
        have hsplit : GapTr.at (s, d.map some ++ List.replicate (p1.1 - s - d.length).toNat none ++ d') k =
            if k < p1.1 then GapTr.at (s, d.map some) k else GapTr.at (p1.1, d') k := by
          unfold GapTr.at
          simp only
          by_cases hk : k < s
          · rw [if_pos hk, if_pos (by omega), if_pos hk]
          · rw [if_neg hk]
            by_cases hk1 : k < p1.1
            · rw [if_pos hk1, if_neg hk, List.getElem?_append_left (by omega)]
              by_cases hk2 : (k - s).toNat < d.length
              · rw [List.getElem?_append_left (by simpa using hk2)]
              · rw [List.getElem?_append_right (by simp; omega), List.getElem?_replicate,
                  List.getElem?_eq_none (l := d.map some) (by simp; omega)]
                split <;> rfl
            · rw [if_neg hk1, if_neg hk1, List.getElem?_append_right (by omega), hlen,
                show (k - s).toNat - (p1.1 - s).toNat = (k - p1.1).toNat by omega]
        rw [hsplit]
        by_cases hk : k < p1.1
        · rw [if_pos hk, at_part]
          constructor
          · intro h
            exact ⟨(s, d), List.mem_cons_self .., h⟩
          · rintro ⟨q, hq, h4, h5⟩
            rcases List.mem_cons.1 hq with rfl | hq
            · exact ⟨h4, h5⟩
            · exfalso
              rcases List.mem_cons.1 hq with rfl | hq
              · omega
              · have := hl.tail.lt q hq
                omega
        · rw [if_neg hk, h2]
          constructor
          · rintro ⟨q, hq, h⟩
            exact ⟨q, List.mem_cons_of_mem _ hq, h⟩
          · rintro ⟨q, hq, h4, h5⟩
            rcases List.mem_cons.1 hq with rfl | hq
            · exfalso
              simp only at h4 h5
              rw [List.getElem?_eq_none (by omega)] at h5
              cases h5
            · exact ⟨q, hq, h4, h5⟩
      · intro q hq
        have := h3 q (by rw [List.getLast?_cons_cons] at hq; exact hq)
        simp only [List.length_append, List.length_map, List.length_replicate]
        push_cast
        omega

/-- every present sample lies in a run -/
theorem exists_run (tr : GapTr α) (k : Int) (x : α) (h : tr.at k = some x) :
    ∃ a d, RunAt tr a d ∧ a ≤ k ∧ d[(k - a).toNat]? = some x := by
  obtain ⟨p, hp, h1, h2⟩ := ((splitParts_facts tr.1 tr.2).2.2 k x).1 h
  exact ⟨p.1, p.2, (mem_splitParts tr p.1 p.2).1 hp, h1, h2⟩

/-- splitting, handling the runs one by one and merging -/
theorem merge_runs {β : Type} (tr : GapTr α) (keep : Part α → Bool) (op : List α → List β)
    (hop : ∀ d, (op d).length = d.length) (r : Option (GapTr β))
    (hr : mergeParts (((splitParts tr.1 tr.2).filter keep).map fun p => (p.1, op p.2)) = r) :
    (r = none ↔ ¬ ∃ a d, RunAt tr a d ∧ keep (a, d) = true) ∧
    ∀ out ∈ r,
      (∀ a d, RunAt tr a d → ∀ i, i < d.length → out.at (a + i) = if keep (a, d) then (op d)[i]? else none) ∧
      (∀ k, tr.at k = none → out.at k = none) ∧
      (∃ x, out.at out.1 = some x) ∧ ∃ x, out.at (out.1 + out.2.length - 1) = some x := by
  obtain ⟨h1, h2, h3⟩ := splitParts_facts tr.1 tr.2
  set l := (splitParts tr.1 tr.2).filter keep with hl
  have hls : PartsApart l := partsApart_sub List.filter_sublist h1
  set l' := l.map (fun p => (p.1, op p.2)) with hl'
  have hls' : PartsApart l' := partsApart_map op (fun p _ => hop p.2) hls
  have hne : ∀ p ∈ l', p.2 ≠ [] := by
    intro p hp
    obtain ⟨q, hq, rfl⟩ := List.mem_map.1 hp
    have := (h2 q (List.mem_of_mem_filter hq)).1
    intro hc
    apply this
    rw [← List.length_eq_zero_iff, ← hop q.2]
    simpa using hc
  obtain ⟨m1, m2⟩ := mergeParts_facts l' hls' hne
  have hmem : ∀ a d, (a, d) ∈ l ↔ RunAt tr a d ∧ keep (a, d) = true := by
    intro a d
    rw [hl, List.mem_filter, mem_splitParts]
  cases hll : l' with
  | nil =>
    rw [m1 hll] at hr
    subst hr
    refine ⟨⟨fun _ => ?_, fun _ => rfl⟩, fun out h => by cases h⟩
    rintro ⟨a, d, h⟩
    have := (hmem a d).2 h
    have hln : l = [] := by simpa [hl'] using hll
    rw [hln] at this
    cases this
  | cons p rest =>
    obtain ⟨d0, e1, e2, e3, e4⟩ := m2 p rest hll
    rw [e1] at hr
    subst hr
    have hp : p ∈ l' := by rw [hll]; exact List.mem_cons_self ..
    refine ⟨⟨fun h => (by cases h), ?_⟩, ?_⟩
    · intro h
      exfalso
      obtain ⟨q, hq, rfl⟩ := List.mem_map.1 hp
      exact h ⟨q.1, q.2, (hmem q.1 q.2).1 hq⟩
    · intro out hout
      obtain rfl : (p.1, d0) = out := by simpa using hout
      refine ⟨?_, ?_, ?_, ?_⟩
      · intro a d hrun i hi
        by_cases hk : keep (a, d) = true
        · rw [if_pos hk]
          have hx : (op d)[i]? = some ((op d)[i]'(by rw [hop]; exact hi)) := List.getElem?_eq_getElem _
          rw [hx]
          refine (e3 _ _).2 ⟨(a, op d), List.mem_map.2 ⟨(a, d), (hmem a d).2 ⟨hrun, hk⟩, rfl⟩, by simp, ?_⟩
          rw [show (a + (i : Int) - a).toNat = i by omega]
          exact hx
        · rw [if_neg hk]
          cases hv : GapTr.at (p.1, d0) (a + i) with
          | none => rfl
          | some x =>
            exfalso
            obtain ⟨q', hq', h4, h5⟩ := (e3 _ _).1 hv
            obtain ⟨q, hq, rfl⟩ := List.mem_map.1 hq'
            simp only at h4 h5
            have hb : (a + i - q.1).toNat < q.2.length := by
              by_contra hc
              rw [List.getElem?_eq_none (by rw [hop]; omega)] at h5
              cases h5
            have hm := List.mem_filter.1 hq
            have := partsApart_nonempty_unique h1 ((mem_splitParts tr a d).2 hrun) hm.1 (k := a + i)
              (by simp) (by simp only; omega) h4 (by omega)
            rw [this] at hk
            exact hk hm.2
      · intro k hk
        cases hv : GapTr.at (p.1, d0) k with
        | none => rfl
        | some x =>
          exfalso
          obtain ⟨q', hq', h4, h5⟩ := (e3 _ _).1 hv
          obtain ⟨q, hq, rfl⟩ := List.mem_map.1 hq'
          simp only at h4 h5
          have hb : (k - q.1).toNat < q.2.length := by
            by_contra hc
            rw [List.getElem?_eq_none (by rw [hop]; omega)] at h5
            cases h5
          have := (h3 k q.2[(k - q.1).toNat]).2 ⟨q, List.mem_of_mem_filter hq, h4, List.getElem?_eq_getElem hb⟩
          have hk' : GapTr.at (tr.1, tr.2) k = none := hk
          rw [hk'] at this
          cases this
      · have hpl : 0 < p.2.length := List.length_pos_iff.2 (hne p hp)
        exact ⟨p.2[0], (e3 _ _).2 ⟨p, hp, le_refl _, by simp⟩⟩
      · obtain ⟨q, hq⟩ : ∃ q, l'.getLast? = some q := by
          rw [hll]; exact ⟨_, List.getLast?_eq_getLast_of_ne_nil (by simp)⟩
        have hqm : q ∈ l' := List.mem_of_getLast? hq
        have hql : 0 < q.2.length := List.length_pos_iff.2 (hne q hqm)
        have := e4 q hq
        refine ⟨q.2[q.2.length - 1], (e3 _ _).2 ⟨q, hqm, by simp only; omega, ?_⟩⟩
        simp only
        rw [show (p.1 + (d0.length : Int) - 1 - q.1).toNat = q.2.length - 1 by omega]
        exact List.getElem?_eq_getElem _

theorem merge_runs_all {β : Type} (tr : GapTr α) (op : List α → List β)
    (hop : ∀ d, (op d).length = d.length) (r : Option (GapTr β))
    (hr : mergeParts ((splitParts tr.1 tr.2).map fun p => (p.1, op p.2)) = r) :
    (r = none ↔ ∀ k, tr.at k = none) ∧
    ∀ out ∈ r,
      (∀ a d, RunAt tr a d → ∀ i, i < d.length → out.at (a + i) = (op d)[i]?) ∧
      (∀ k, tr.at k = none → out.at k = none) ∧
      (∃ x, out.at out.1 = some x) ∧ ∃ x, out.at (out.1 + out.2.length - 1) = some x := by
  obtain ⟨h1, h2⟩ := merge_runs tr (fun _ => true) op hop r (by rw [List.filter_true]; exact hr)
  refine ⟨h1.trans ?_, ?_⟩
  · constructor
    · intro h k
      cases hk : tr.at k with
      | none => rfl
      | some x =>
        obtain ⟨a, d, hrun, -⟩ := exists_run tr k x hk
        exact absurd ⟨a, d, hrun, rfl⟩ h
    · rintro h ⟨a, d, hrun, -⟩
      have hlen : 0 < d.length := List.length_pos_iff.2 hrun.1
      have := hrun.2.1 0 hlen
      rw [h, List.getElem?_eq_getElem hlen] at this
      cases this
  · intro out hout
    obtain ⟨a1, a2⟩ := h2 out hout
    exact ⟨fun a d hr i hi => by simpa using a1 a d hr i hi, a2⟩

/-! ### C103 -/

/-- **C103** (partial: the first and the last sample are present) Each contiguous part is
detrended on its own and stays at its times; the samples that are missing stay missing; start and
number of samples do not change. -/
theorem c103_detrend_partial (op : List α → List α) (hop : ∀ d, (op d).length = d.length) (tr : GapTr α) (x y : α)
    (hx : tr.2.head? = some (some x)) (hy : tr.2.getLast? = some (some y)) :
    ∃ out, detrendTrace op tr = .ok out ∧ out.1 = tr.1 ∧ out.2.length = tr.2.length ∧
      (∀ a d, RunAt tr a d → ∀ i, i < d.length → out.at (a + i) = (op d)[i]?) ∧
      (∀ k, tr.at k = none → out.at k = none) := by
  obtain ⟨m1, m2⟩ := merge_runs_all tr op hop _ rfl
  have hfirst : tr.at tr.1 = some x := by
    unfold GapTr.at
    rw [if_neg (by omega), show (tr.1 - tr.1).toNat = 0 by omega, ← List.head?_eq_getElem?, hx]; rfl
  have hlen : 0 < tr.2.length := List.length_pos_iff.2 (fun h => by rw [h] at hx; cases hx)
  have hlast : tr.at (tr.1 + tr.2.length - 1) = some y := by
    unfold GapTr.at
    rw [if_neg (by omega), show (tr.1 + (tr.2.length : Int) - 1 - tr.1).toNat = tr.2.length - 1 by omega,
      ← List.getLast?_eq_getElem?, hy]; rfl
  unfold detrendTrace
  cases hm : mergeParts ((splitParts tr.1 tr.2).map fun p => (p.1, op p.2)) with
  | none =>
    exfalso
    have := (m1.1 hm) tr.1
    rw [hfirst] at this
    cases this
  | some m =>
    obtain ⟨b1, b2, ⟨u, b3⟩, v, b4⟩ := m2 m hm
    have present : ∀ k z, tr.at k = some z → ∃ w, m.at k = some w := by
      intro k z hk
      obtain ⟨a, d, hrun, h4, h5⟩ := exists_run tr k z hk
      have hi : (k - a).toNat < d.length := by
        by_contra hc
        rw [List.getElem?_eq_none (by omega)] at h5
        cases h5
      have := b1 a d hrun _ hi
      rw [show a + ((k - a).toNat : Int) = k by omega, List.getElem?_eq_getElem (by rw [hop]; exact hi)] at this
      exact ⟨_, this⟩
    have inside : ∀ {γ : Type} (t : GapTr γ) k z, t.at k = some z → t.1 ≤ k ∧ k < t.1 + t.2.length := by
      intro γ t k z hk
      constructor
      · by_contra hc
        rw [show t = (t.1, t.2) from rfl, at_before _ _ _ (by omega)] at hk
        cases hk
      · by_contra hc
        rw [show t = (t.1, t.2) from rfl, at_after _ _ _ (by omega)] at hk
        cases hk
    have back : ∀ k z, m.at k = some z → ∃ w, tr.at k = some w := by
      intro k z hk
      cases ht : tr.at k with
      | none => rw [b2 k ht] at hk; cases hk
      | some w => exact ⟨w, rfl⟩
    obtain ⟨w1, hw1⟩ := present _ _ hfirst
    obtain ⟨w2, hw2⟩ := present _ _ hlast
    obtain ⟨w3, hw3⟩ := back _ _ b3
    obtain ⟨w4, hw4⟩ := back _ _ b4
    have i1 := inside m _ _ hw1
    have i2 := inside m _ _ hw2
    have i3 := inside tr _ _ hw3
    have i4 := inside tr _ _ hw4
    have e1 : m.1 = tr.1 := by omega
    refine ⟨(tr.1, m.2), rfl, rfl, by simp only; omega, ?_, ?_⟩
    · rw [← e1]; exact b1
    · rw [← e1]; exact b2

/-- **C103** is violated for a trace that begins with missing samples: its data are moved to an
earlier time, and a trace without any sample is an `IndexError`. -/
theorem c103_detrend_violated :
    detrendTrace (fun d => d.map fun x => x - 10) (0, [none, none, some (11 : Int), some 12, none, some 13]) =
      .ok (0, [some 1, some 2, none, some 3]) ∧
    detrendTrace (fun d => d.map fun x => x - 10) (0, [none, (none : Option Int)]) = .error .indexError := by
  decide

/-- **C103** (what happens in general) The samples are those of the detrended parts, but all of
them are moved to earlier times by the number of samples that are missing at the beginning. -/
theorem c103_moved (op : List α → List α) (hop : ∀ d, (op d).length = d.length) (tr out : GapTr α)
    (h : detrendTrace op tr = .ok out) :
    ∃ lead : Int, (∀ k, k < tr.1 + lead → tr.at k = none) ∧ (∃ x, tr.at (tr.1 + lead) = some x) ∧
      ∀ a d, RunAt tr a d → ∀ i, i < d.length → out.at (a + i - lead) = (op d)[i]? := by
  obtain ⟨m1, m2⟩ := merge_runs_all tr op hop _ rfl
  unfold detrendTrace at h
  cases hm : mergeParts ((splitParts tr.1 tr.2).map fun p => (p.1, op p.2)) with
  | none => rw [hm] at h; cases h
  | some m =>
    rw [hm] at h
    obtain rfl : (tr.1, m.2) = out := by simpa using h
    obtain ⟨b1, b2, ⟨u, b3⟩, -⟩ := m2 m hm
    refine ⟨m.1 - tr.1, ?_, ?_, ?_⟩
    · intro k hk
      cases ht : tr.at k with
      | none => rfl
      | some z =>
        exfalso
        obtain ⟨a, d, hrun, h4, h5⟩ := exists_run tr k z ht
        have hi : (k - a).toNat < d.length := by
          by_contra hc
          rw [List.getElem?_eq_none (by omega)] at h5
          cases h5
        have := b1 a d hrun _ hi
        rw [show a + ((k - a).toNat : Int) = k by omega, List.getElem?_eq_getElem (by rw [hop]; exact hi),
          show m = (m.1, m.2) from rfl, at_before _ _ _ (by omega)] at this
        cases this
    · rw [show tr.1 + (m.1 - tr.1) = m.1 by omega]
      cases ht : tr.at m.1 with
      | none => rw [b2 _ ht] at b3; cases b3
      | some w => exact ⟨w, rfl⟩
    · intro a d hrun i hi
      rw [← b1 a d hrun i hi]
      unfold GapTr.at
      simp only
      by_cases hc : a + (i : Int) < m.1
      · rw [if_pos hc, if_pos (by omega)]
      · rw [if_neg hc, if_neg (by omega), show a + (i : Int) - (m.1 - tr.1) - tr.1 = a + i - m.1 by omega]

/-- **C103** (streams) The traces of a stream are handled one by one. -/
theorem c103_stream (op : List α → List α) (st out : List (GapTr α)) :
    detrendSt op st = .ok out ↔ List.Forall₂ (fun tr tr' => detrendTrace op tr = .ok tr') st out := by
  unfold detrendSt
  induction st generalizing out with
  | nil =>
    rw [List.mapM_nil]
    constructor
    · intro h
      obtain rfl : ([] : List (GapTr α)) = out := by simpa [pure, Except.pure] using h
      exact .nil
    · intro h; cases h; rfl
  | cons tr st ih =>
    rw [List.mapM_cons]
    constructor
    · intro h
      cases h1 : detrendTrace op tr with
      | error e => rw [h1] at h; cases h
      | ok tr' =>
        cases h2 : st.mapM (detrendTrace op) with
        | error e => rw [h1, h2] at h; cases h
        | ok out' =>
          rw [h1, h2] at h
          obtain rfl : tr' :: out' = out := by simpa [bind, Except.bind, pure, Except.pure] using h
          exact .cons h1 ((ih out').1 h2)
    · intro h
      cases h with
      | cons h1 h2 => rw [h1, (ih _).2 h2]; rfl

example : ∃ out, detrendTrace (fun d => d.map fun x => x - 10) (5, [some (11 : Int), none, some 13]) = .ok out ∧
    out.at 7 = some 3 := ⟨(5, [some 1, none, some 3]), by decide⟩

/-! ### C104 -/

/-- **C104** Each contiguous part is filtered on its own and stays at its times; samples that are
missing stay missing; the result reaches from the first to the last present sample. Traces without
any sample are left out, the order of the others does not change. -/
theorem c104_filter (op : List α → List α) (hop : ∀ d, (op d).length = d.length) (st : List (GapTr α)) :
    ∃ sel, sel.Sublist st ∧ (∀ tr ∈ st, tr ∈ sel ↔ ∃ k x, tr.at k = some x) ∧
      List.Forall₂ (fun tr out =>
        (∀ a d, RunAt tr a d → ∀ i, i < d.length → out.at (a + i) = (op d)[i]?) ∧
        (∀ k, tr.at k = none → out.at k = none) ∧
        (∃ x, out.at out.1 = some x) ∧ ∃ x, out.at (out.1 + out.2.length - 1) = some x) sel (streamFilter op st) := by
  classical
  refine ⟨st.filter fun tr => decide (∃ k x, tr.at k = some x), List.filter_sublist, ?_, ?_⟩
  · intro tr htr
    rw [List.mem_filter]
    simp [htr]
  · unfold streamFilter
    induction st with
    | nil => exact .nil
    | cons tr st ih =>
      obtain ⟨m1, m2⟩ := merge_runs_all tr op hop _ rfl
      rw [List.filter_cons, List.filterMap_cons]
      unfold filterTrace at ih ⊢
      cases hm : mergeParts ((splitParts tr.1 tr.2).map fun p => (p.1, op p.2)) with
      | none =>
        have := m1.1 hm
        rw [if_neg (by simp [this])]
        exact ih
      | some m =>
        rw [if_pos]
        · exact .cons (m2 m hm) ih
        · rw [decide_eq_true_eq]
          by_contra hc
          have : ∀ k, tr.at k = none := by
            intro k
            cases ht : tr.at k with
            | none => rfl
            | some x => exact absurd ⟨k, x, ht⟩ hc
          rw [m1.2 this] at hm
          cases hm

example : streamFilter List.reverse [(0, [none, some 1, some 2, none, some (3 : Int)]), (4, [none])] =
    [(1, [some 2, some 1, none, some 3])] := by decide

/-! ### C105 -/

theorem filterMap_id_of_forall₂ (d : List ℝ) (out : List (Option ℝ)) (h : List.Forall₂ Tapered (d.map some) out) :
    (out.filterMap id).length = d.length ∧ ∀ (i : Nat) x, d[i]? = some x → ∃ w : ℝ, 0 ≤ w ∧ w ≤ 1 ∧ (out.filterMap id)[i]? = some (x * w) ∧
      out[i]? = some (some (x * w)) := by
  induction d generalizing out with
  | nil =>
    cases h
    exact ⟨rfl, fun i x h => by simp at h⟩
  | cons v d ih =>
    cases h with
    | @cons _ y _ out' hy hrest =>
      obtain ⟨i1, i2⟩ := ih out' hrest
      rcases hy with ⟨hc, -⟩ | ⟨v', w, hv, h0, h1, rfl⟩
      · cases hc
      · obtain rfl : v = v' := by simpa using hv
        refine ⟨by simpa using i1, ?_⟩
        intro i x hi
        cases i with
        | zero =>
          obtain rfl : v = x := by simpa using hi
          exact ⟨w, h0, h1, by simp, by simp⟩
        | succ i =>
          obtain ⟨w', q1, q2, q3, q4⟩ := i2 i x (by simpa using hi)
          exact ⟨w', q1, q2, by simpa using q3, by simpa using q4⟩

/-- the taper of one part -/
theorem taper_part (isInt : Bool) (sr taperLen : Rat) (d : List ℝ) :
    ((orSame (d.map some) (cosTaper isInt sr taperLen (d.map some))).filterMap id).length = d.length ∧
    ∀ (i : Nat) x, d[i]? = some x → ∃ w : ℝ, 0 ≤ w ∧ w ≤ 1 ∧
      ((orSame (d.map some) (cosTaper isInt sr taperLen (d.map some))).filterMap id)[i]? = some (x * w) ∧
      (0 ≤ taperLen * sr → pyRound (taperLen * sr) ≤ (i : Int) → (i : Int) < d.length - pyRound (taperLen * sr) → x * w = x) := by
  obtain ⟨h1, h2⟩ := filterMap_id_of_forall₂ d _ (orSame_tapered isInt sr taperLen (d.map some))
  refine ⟨h1, ?_⟩
  intro i x hi
  obtain ⟨w, a, b, c, e⟩ := h2 i x hi
  refine ⟨w, a, b, c, ?_⟩
  intro hpos hl hu
  have hid : i < d.length := by
    by_contra hc
    rw [List.getElem?_eq_none (by omega)] at hi
    cases hi
  rcases cosTaper_cases isInt sr taperLen (d.map some) with ⟨he, -⟩ | ⟨-, n, hn, h2n, -, he⟩
  · rw [he] at e
    simp only [orSame, List.getElem?_map, hi, Option.map_some, Option.some.injEq] at e
    exact e.symm
  · rw [he] at e
    have hr := pyRound_nonneg hpos
    simp only [orSame, List.getElem?_mapIdx, List.getElem?_map, hi, Option.map_some, Option.some.injEq,
      List.length_map] at e
    rw [← e]
    unfold taperWindow
    simp only
    rw [if_neg (by omega), if_neg (by omega), mul_one]

/-- **C105** (partial: traces with at least one sample, one trace per id) With `data` the trace
after gaps of at most `maxLen` samples have been interpolated (C73): a contiguous part that is not
longer than `retainLen` is removed; each longer part stays at its times, multiplied by weights
between 0 and 1 that are 1 except within `taperLen` of its ends; everything else is missing. -/
theorem c105_gap_handler_partial (isInt : Bool) (sr : Rat) (hsr : 0 < sr) (maxLen : Nat) (retainLen taperLen : Rat)
    (htap : 0 ≤ taperLen) (tr : Int × List F) (hval : ∃ v, some v ∈ tr.2) :
    ∃ data r, Interpolated tr.2 maxLen data ∧
      gapHandler isInt sr maxLen retainLen taperLen tr = .ok r ∧
      (r = none ↔ ∀ a d, RunAt (tr.1, data) a d → (d.length : Rat) / sr ≤ retainLen) ∧
      ∀ out ∈ r,
        (∀ a d, RunAt (tr.1, data) a d → ∀ (i : Nat) x, d[i]? = some x →
          ((d.length : Rat) / sr ≤ retainLen → out.at (a + i) = none) ∧
          (retainLen < (d.length : Rat) / sr → ∃ w : ℝ, 0 ≤ w ∧ w ≤ 1 ∧ out.at (a + i) = some (x * w) ∧
            (pyRound (taperLen * sr) ≤ (i : Int) → (i : Int) < d.length - pyRound (taperLen * sr) → (x : ℝ) * w = x))) ∧
        ∀ k, GapTr.at (tr.1, data) k = none → out.at k = none := by
  obtain ⟨data, hd, hlen, hint⟩ := c73_interpolate_partial tr.2 (some maxLen) hval
  have hspec : Interpolated tr.2 maxLen data := by
    refine ⟨hlen, fun i => ⟨(hint i).1, ?_, ?_⟩⟩
    · intro p q a b hg hl
      exact (hint i).2.1 p q a b hg (fun L hL => by obtain rfl : maxLen = L := by simpa using hL
                                                    exact hl)
    · intro hn hno
      refine (hint i).2.2 hn ?_
      rintro ⟨p, q, a, b, hg, hl⟩
      exact hno ⟨p, q, a, b, hg, hl maxLen rfl⟩
  refine ⟨data, _, hspec, by unfold gapHandler; rw [hd]; rfl, ?_⟩
  set c : Rat → ℝ := fun q => (q : ℝ) with hc
  have hat : ∀ k, GapTr.at (tr.1, data.map fun x => x.map c) k = (GapTr.at (tr.1, data) k).map c := by
    intro k
    unfold GapTr.at
    simp only
    split
    · rfl
    · rw [List.getElem?_map]
      cases data[(k - tr.1).toNat]? <;> rfl
  have hrun : ∀ a d, RunAt (tr.1, data) a d → RunAt (tr.1, data.map fun x => x.map c) a (d.map c) := by
    rintro a d ⟨r1, r2, r3, r4⟩
    refine ⟨by simpa using r1, ?_, by rw [hat, r3]; rfl, by rw [hat, List.length_map, r4]; rfl⟩
    intro i hi
    rw [hat, r2 i (by simpa using hi), List.getElem?_map]
  have hrun' : ∀ a d, RunAt (tr.1, data.map fun x => x.map c) a d → ∃ d', d = d'.map c ∧ RunAt (tr.1, data) a d' := by
    rintro a d ⟨r1, r2, r3, r4⟩
    have hlen : 0 < d.length := List.length_pos_iff.2 r1
    have h0 := r2 0 hlen
    rw [hat, List.getElem?_eq_getElem hlen] at h0
    simp only [Nat.cast_zero, add_zero] at h0
    cases hv : GapTr.at (tr.1, data) a with
    | none => rw [hv] at h0; cases h0
    | some x =>
      obtain ⟨a', d', hr', h4, h5⟩ := exists_run (tr.1, data) a x hv
      have hi : (a - a').toNat < d'.length := by
        by_contra hc
        rw [List.getElem?_eq_none (by omega)] at h5
        cases h5
      have hs := partsApart_nonempty_unique (splitParts_facts tr.1 (data.map fun x => x.map c)).1
        ((mem_splitParts (tr.1, data.map fun x => x.map c) a d).2 ⟨r1, r2, r3, r4⟩)
        ((mem_splitParts (tr.1, data.map fun x => x.map c) a' (d'.map c)).2 (hrun a' d' hr'))
        (k := a) (le_refl _) (by simp) h4 (by simp only [List.length_map]; omega)
      obtain ⟨rfl, rfl⟩ : a = a' ∧ d = d'.map c := by simpa using hs
      exact ⟨d', rfl, hr'⟩
  obtain ⟨m1, m2⟩ := merge_runs (tr.1, data.map fun x => x.map c)
    (fun p => decide (retainLen < (p.2.length : Rat) / sr))
    (fun d => (orSame (d.map some) (cosTaper isInt sr taperLen (d.map some))).filterMap id)
    (fun d => (taper_part isInt sr taperLen d).1) _ rfl
  refine ⟨m1.trans ?_, ?_⟩
  · constructor
    · intro h a d hr
      by_contra hn
      exact h ⟨a, d.map c, hrun a d hr, by simpa using hn⟩
    · rintro h ⟨a, d, hr, hk⟩
      obtain ⟨d', rfl, hr'⟩ := hrun' a d hr
      have := h a d' hr'
      simp only [List.length_map, decide_eq_true_eq] at hk
      exact absurd hk (not_lt.2 this)
  · intro out hout
    obtain ⟨b1, b2, -, -⟩ := m2 out hout
    refine ⟨?_, ?_⟩
    · intro a d hr i x hx
      have hi : i < d.length := by
        by_contra hc
        rw [List.getElem?_eq_none (by omega)] at hx
        cases hx
      have hb := b1 a (d.map c) (hrun a d hr) i (by simpa using hi)
      simp only [List.length_map, decide_eq_true_eq] at hb
      constructor
      · intro hle
        rw [hb, if_neg (not_lt.2 hle)]
      · intro hlt
        rw [if_pos hlt] at hb
        obtain ⟨w, q1, q2, q3, q4⟩ := (taper_part isInt sr taperLen (d.map c)).2 i (c x) (by rw [List.getElem?_map, hx]; rfl)
        refine ⟨w, q1, q2, hb.trans q3, ?_⟩
        intro l1 l2
        exact q4 (by positivity) l1 (by rw [List.length_map]; exact l2)
    · intro k hk
      exact b2 k (by rw [hat, hk]; rfl)

/-- a gap of one sample is closed: the whole trace is one part of three seconds -/
example : ∃ out, gapHandler false 1 1 2 1 (4, [some 1, none, some 3]) = .ok (some out) ∧ out.at 5 = some 2 := by
  obtain ⟨data, r, h1, h2, h3, h4⟩ := c105_gap_handler_partial false 1 (by norm_num) 1 2 1 (by norm_num)
    (4, [some 1, none, some 3]) ⟨1, by simp⟩
  obtain rfl : [some 1, some 2, some 3] = data := by
    obtain ⟨hl, hi⟩ := h1
    apply List.ext_getElem?
    intro i
    match i with
    | 0 => exact ((hi 0).1 1 rfl).symm
    | 1 =>
      refine Eq.trans ?_ ((hi 1).2.1 0 2 1 3 ?_ (by norm_num)).symm
      · norm_num
      · refine ⟨by omega, by omega, rfl, rfl, ?_⟩
        intro k h5 h6
        obtain rfl : k = 1 := by omega
        rfl
    | 2 => exact ((hi 2).1 3 rfl).symm
    | k + 3 => rw [List.getElem?_eq_none (by simp), List.getElem?_eq_none (by rw [hl]; simp)]
  have hrun : RunAt ((4, [some 1, some 2, some 3]) : GapTr Rat) 4 [1, 2, 3] := by
    refine ⟨by simp, ?_, by decide +kernel, by decide +kernel⟩
    intro i hi
    have : i = 0 ∨ i = 1 ∨ i = 2 := by simp at hi; omega
    rcases this with rfl | rfl | rfl <;> decide +kernel
  cases r with
  | none =>
    exfalso
    have := (h3.1 rfl) 4 [1, 2, 3] hrun
    norm_num at this
  | some out =>
    obtain ⟨-, hw⟩ := (h4 out rfl).1 4 [1, 2, 3] hrun 1 2 rfl
    obtain ⟨w, -, -, e1, e2⟩ := hw (by norm_num)
    have hp : pyRound (1 * 1) = 1 := by decide +kernel
    rw [hp] at e2
    refine ⟨out, h2, ?_⟩
    have := e2 (by norm_num) (by norm_num)
    rw [this] at e1
    simpa using e1

/-- **C105** is violated for a trace all of whose samples are masked, if the gap is short enough
to be interpolated. -/
theorem c105_gap_handler_violated (isInt : Bool) (sr retainLen taperLen : Rat) :
    gapHandler isInt sr 10 retainLen taperLen (0, [none, none]) = .error .valueError := by
  unfold gapHandler
  rw [show interpolateGaps ((0 : Int), [none, none]).2 (some 10) = .error .valueError from c73_all_masked_violated]
  rfl

/-! ### C106 -/

open Classical in
theorem correctPolarity_go (dip : Nat → Except PyErr Rat) (st : List (Str × List F)) (n : Nat) :
    (correctPolarity.go dip n st).1.length = st.length ∧
    ∀ j cha d, st[j]? = some (cha, d) →
      ((∃ i ≤ j, ∃ c x e, st[i]? = some (c, x) ∧ c.getLast? = some 'Z' ∧ dip (n + i) = .error e) →
        (correctPolarity.go dip n st).1[j]? = some (cha, d)) ∧
      ((∀ i ≤ j, ∀ c x, st[i]? = some (c, x) → c.getLast? = some 'Z' → ∃ v, dip (n + i) = .ok v) →
        (correctPolarity.go dip n st).1[j]? = some (cha,
          if cha.getLast? = some 'Z' ∧ ∃ v, dip (n + j) = .ok v ∧ 0 < v then d.map (Option.map fun q => -q) else d)) := by
  induction st generalizing n with
  | nil => exact ⟨rfl, fun j cha d h => by simp at h⟩
  | cons t st ih =>
    obtain ⟨c0, x0⟩ := t
    obtain ⟨ih1, ih2⟩ := ih (n + 1)
    rw [correctPolarity.go]
    by_cases hz : c0.getLast? = some 'Z'
    · rw [if_pos hz]
      cases hdip : dip n with
      | error e =>
        refine ⟨rfl, ?_⟩
        intro j cha d hj
        refine ⟨fun _ => hj, ?_⟩
        intro h
        obtain ⟨v, hv⟩ := h 0 (Nat.zero_le _) c0 x0 rfl hz
        rw [Nat.add_zero, hdip] at hv
        cases hv
      | ok v =>
        refine ⟨by simpa using ih1, ?_⟩
        intro j cha d hj
        cases j with
        | zero =>
          obtain ⟨rfl, rfl⟩ : c0 = cha ∧ x0 = d := by simpa using hj
          constructor
          · rintro ⟨i, hi, c, x, e, h1, h2, h3⟩
            obtain rfl : i = 0 := by omega
            rw [Nat.add_zero, hdip] at h3
            cases h3
          · intro _
            by_cases hv : v > 0
            · simp [hz, hdip, hv]
            · simp [hdip, hv]
        | succ j =>
          have hj' : st[j]? = some (cha, d) := by simpa using hj
          obtain ⟨a1, a2⟩ := ih2 j cha d hj'
          constructor
          · rintro ⟨i, hi, c, x, e, h1, h2, h3⟩
            cases i with
            | zero => rw [Nat.add_zero, hdip] at h3; cases h3
            | succ i =>
              have := a1 ⟨i, by omega, c, x, e, by simpa using h1, h2, by rw [← h3]; congr 1; omega⟩
              simpa using this
          · intro h
            have := a2 (fun i hi c x h1 h2 => by
              obtain ⟨v, hv⟩ := h (i + 1) (by omega) c x (by simpa using h1) h2
              exact ⟨v, by rw [← hv]; congr 1; omega⟩)
            rw [show n + (j + 1) = n + 1 + j by omega]
            simpa using this
    · rw [if_neg hz]
      refine ⟨by simpa using ih1, ?_⟩
      intro j cha d hj
      cases j with
      | zero =>
        obtain ⟨rfl, rfl⟩ : c0 = cha ∧ x0 = d := by simpa using hj
        constructor
        · intro _; rfl
        · intro _; simp [hz]
      | succ j =>
        have hj' : st[j]? = some (cha, d) := by simpa using hj
        obtain ⟨a1, a2⟩ := ih2 j cha d hj'
        constructor
        · rintro ⟨i, hi, c, x, e, h1, h2, h3⟩
          cases i with
          | zero =>
            obtain ⟨rfl, -⟩ : c0 = c ∧ x0 = x := by simpa using h1
            exact absurd h2 hz
          | succ i =>
            have := a1 ⟨i, by omega, c, x, e, by simpa using h1, h2, by rw [← h3]; congr 1; omega⟩
            simpa using this
        · intro h
          have := a2 (fun i hi c x h1 h2 => by
            obtain ⟨v, hv⟩ := h (i + 1) (by omega) c x (by simpa using h1) h2
            exact ⟨v, by rw [← hv]; congr 1; omega⟩)
          rw [show n + (j + 1) = n + 1 + j by omega]
          simpa using this

/-- **C106** (partial: up to the first vertical trace whose dip is not known) Exactly the traces of
vertical channels with positive dip are multiplied by -1; from the first vertical trace on whose
dip is not known nothing is changed. -/
theorem c106_polarity_partial (dip : Nat → Except PyErr Rat) (st : List (Str × List F)) :
    (correctPolarity dip st).1.length = st.length ∧
    ∀ j cha d, st[j]? = some (cha, d) →
      ((∃ i ≤ j, ∃ c x e, st[i]? = some (c, x) ∧ c.getLast? = some 'Z' ∧ dip i = .error e) →
        (correctPolarity dip st).1[j]? = some (cha, d)) ∧
      ((∀ i ≤ j, ∀ c x, st[i]? = some (c, x) → c.getLast? = some 'Z' → ∃ v, dip i = .ok v) →
        ((cha.getLast? = some 'Z' ∧ ∃ v, dip j = .ok v ∧ 0 < v) →
          (correctPolarity dip st).1[j]? = some (cha, d.map (Option.map fun q => -q))) ∧
        (¬ (cha.getLast? = some 'Z' ∧ ∃ v, dip j = .ok v ∧ 0 < v) →
          (correctPolarity dip st).1[j]? = some (cha, d))) := by
  classical
  obtain ⟨h1, h2⟩ := correctPolarity_go dip st 0
  refine ⟨h1, ?_⟩
  intro j cha d hj
  obtain ⟨a, b⟩ := h2 j cha d hj
  simp only [Nat.zero_add] at a b
  refine ⟨a, fun h => ⟨fun hc => ?_, fun hc => ?_⟩⟩
  · have := b h; rw [if_pos hc] at this; exact this
  · have := b h; rw [if_neg hc] at this; exact this

/-- **C106** is violated if the dip of an earlier vertical trace is not known: the second trace
has positive dip but is not changed. -/
theorem c106_polarity_violated :
    correctPolarity (fun k => if k = 0 then .error .obsPyError else .ok 90)
      [(c!"HHZ", [some 1]), (c!"BHZ", [some 1])] = ([(c!"HHZ", [some 1]), (c!"BHZ", [some 1])], some .obsPyError) := by
  decide +kernel

example : correctPolarity (fun _ => .ok 90) [(c!"HHN", [some 1]), (c!"HHZ", [some 1, none])] =
    ([(c!"HHN", [some 1]), (c!"HHZ", [some (-1), none])], none) := by decide +kernel

end SeisMIC
