import Verif.Props.ShiftSeveral
import Verif.Props.InversionUse
import Mathlib.Algebra.BigOperators.Group.Finset.Basic

/-!
# C137, C138: the mean times that order the curves, and the window and frequencies of an inversion
-/

namespace SeisMIC

open scoped BigOperators

/-! ### Mean times -/

/-- the numbers of the times at which a curve has a value -/
def timesWithValue (d : DvT) : Finset Nat :=
  (Finset.range (min d.starts.length d.dv.corr.length)).filter fun k => d.dv.corr[k]? ≠ none ∧ d.dv.corr[k]? ≠ some none

theorem sum_maskSel {α : Type} (f : α → Rat) (l : List α) (m : List Bool) :
    ((maskSel l m).map f).sum = ∑ k ∈ (Finset.range (min l.length m.length)).filter (fun k => m[k]? = some true), (l[k]?.map f).getD 0 := by
  rw [Finset.sum_filter]
  induction l generalizing m with
  | nil => simp [maskSel]
  | cons a l ih =>
    cases m with
    | nil => simp [maskSel]
    | cons b m =>
      have h1 : min (a :: l).length (b :: m).length = min l.length m.length + 1 := by simp only [List.length_cons]; omega
      rw [h1, Finset.sum_range_succ']
      simp only [List.getElem?_cons_succ, List.getElem?_cons_zero, Option.map_some, Option.getD_some, Option.some.injEq]
      rw [← ih m]
      cases b with
      | true => simp [maskSel, add_comm]
      | false => simp [maskSel]

theorem timesWithValue_eq (d : DvT) :
    timesWithValue d = (Finset.range (min d.starts.length (d.dv.corr.map (·.isSome)).length)).filter (fun k => (d.dv.corr.map (·.isSome))[k]? = some true) := by
  ext k
  simp only [timesWithValue, Finset.mem_filter, List.length_map, List.getElem?_map]
  refine and_congr_right fun _ => ?_
  cases h : d.dv.corr[k]? with
  | none => simp
  | some o => cases o <;> simp

/-- **C137** (mean times). The time by which a curve is ordered is the mean of the start times of its windows that have a value, the others do not count; it is
missing exactly if no window has a value. -/
theorem c137_mean_time (d : DvT) :
    (meanTime d = none ↔ timesWithValue d = ∅) ∧
      ∀ m, meanTime d = some m → m * (timesWithValue d).card = ∑ k ∈ timesWithValue d, ((d.starts.getD k 0 : Int) : Rat) := by
  have hs := sum_maskSel (fun t : Int => (t : Rat)) d.starts (d.dv.corr.map (·.isSome))
  have hc := sum_maskSel (fun _ : Int => (1 : Rat)) d.starts (d.dv.corr.map (·.isSome))
  rw [← timesWithValue_eq] at hs hc
  have hin : ∀ k ∈ timesWithValue d, k < d.starts.length := by
    intro k hk
    have := (Finset.mem_filter.1 hk).1
    rw [Finset.mem_range] at this
    omega
  have hs' : ((maskSel d.starts (d.dv.corr.map (·.isSome))).map fun t : Int => (t : Rat)).sum = ∑ k ∈ timesWithValue d, ((d.starts.getD k 0 : Int) : Rat) := by
    rw [hs]
    refine Finset.sum_congr rfl fun k hk => ?_
    rw [List.getElem?_eq_getElem (hin k hk), List.getD_eq_getElem?_getD, List.getElem?_eq_getElem (hin k hk)]
    rfl
  have hc' : ((maskSel d.starts (d.dv.corr.map (·.isSome))).length : Rat) = (timesWithValue d).card := by
    have e : ((maskSel d.starts (d.dv.corr.map (·.isSome))).map fun _ : Int => (1 : Rat)).sum = ((maskSel d.starts (d.dv.corr.map (·.isSome))).length : Rat) := by
      simp
    rw [← e, hc, Finset.card_eq_sum_ones, Nat.cast_sum]
    refine Finset.sum_congr rfl fun k hk => ?_
    rw [List.getElem?_eq_getElem (hin k hk)]
    simp
  have hnn : notNan ((maskSel d.starts (d.dv.corr.map (·.isSome))).map fun t => some ((t : Int) : Rat)) =
      (maskSel d.starts (d.dv.corr.map (·.isSome))).map fun t : Int => (t : Rat) := by
    simp [notNan, List.filterMap_map]
  unfold meanTime nanmean
  rw [hnn]
  cases hl : maskSel d.starts (d.dv.corr.map (·.isSome)) with
  | nil =>
    rw [hl] at hc'
    simp only [List.map_nil, true_iff]
    refine ⟨?_, fun m h => by cases h⟩
    rw [← Finset.card_eq_zero]
    have : ((timesWithValue d).card : Rat) = 0 := by rw [← hc']; simp
    exact_mod_cast this
  | cons t l =>
    rw [hl] at hc' hs'
    simp only [List.map_cons, reduceCtorEq, false_iff, Option.some.injEq]
    have hpos : ((timesWithValue d).card : Rat) ≠ 0 := by
      rw [← hc', List.length_cons]
      push_cast
      positivity
    refine ⟨fun h => hpos (by rw [h]; simp), fun m hm => ?_⟩
    rw [← hm, ← hs', ← hc']
    simp only [List.length_cons, List.map_cons, List.length_map]
    rw [div_mul_cancel₀]
    push_cast
    positivity

/-- three windows, the second one without a value: the mean of the others is 15 -/
example : meanTime ⟨⟨[], [], [], [], [], [], [], [], [some 1, none, some 1]⟩, [10, 12, 20]⟩ = some 15 := by decide +kernel

/-! ### Window and frequencies -/

/-- a frequency is given and not zero -/
def GivenFreq (o : Option Rat) (f : Rat) : Prop := o = some f ∧ f ≠ 0

/-- **C138** (window and frequencies). The window is the given one, or else the window of the curve: it begins at the start and has the length with which the
curve was measured. The lower and the upper frequency are the given ones, or else (also if zero is given) the lower and the upper one of the curve. Without
given settings and without those of the curve there is an error. -/
theorem c138_settings (args : InvArgs) (proc : Option Proc) :
    (∀ tw f0 f1, invSettings args proc = .ok (tw, f0, f1) ↔
      (args.tw = some tw ∨ args.tw = none ∧ ∃ p, proc = some p ∧ tw = (p.twStart, p.twStart + p.twLen)) ∧
      (GivenFreq args.freq0 f0 ∨ (∀ f, ¬GivenFreq args.freq0 f) ∧ ∃ p, proc = some p ∧ f0 = p.freqMin) ∧
      (GivenFreq args.freq1 f1 ∨ (∀ f, ¬GivenFreq args.freq1 f) ∧ ∃ p, proc = some p ∧ f1 = p.freqMax)) ∧
    (∀ e, invSettings args proc = .error e → e = .attributeError ∧ proc = none) := by
  have key : ∀ (given : Option Rat) (own : Option Rat) (f : Rat), orOwn given own = some f ↔
      (GivenFreq given f ∨ (∀ f, ¬GivenFreq given f) ∧ own = some f) := by
    intro given own f
    unfold orOwn GivenFreq
    cases given with
    | none => simp
    | some x =>
      by_cases hx : x = 0
      · subst hx
        simp only [if_true, Option.some.injEq]
        constructor
        · intro h
          exact .inr ⟨fun f hf => hf.2 hf.1.symm, h⟩
        · rintro (h | h)
          · exact absurd h.1.symm h.2
          · exact h.2
      · simp only [if_neg hx, Option.some.injEq]
        constructor
        · rintro rfl
          exact .inl ⟨rfl, hx⟩
        · rintro (h | h)
          · exact h.1
          · exact absurd ⟨rfl, hx⟩ (h.1 x)
  have hown : ∀ (g : Proc → Rat) (f : Rat), proc.map g = some f ↔ ∃ p, proc = some p ∧ f = g p := by
    intro g f
    cases proc with
    | none => simp
    | some p => simp [eq_comm]
  have htw : ∀ tw, args.tw.or (proc.map fun p => (p.twStart, p.twStart + p.twLen)) = some tw ↔
      (args.tw = some tw ∨ args.tw = none ∧ ∃ p, proc = some p ∧ tw = (p.twStart, p.twStart + p.twLen)) := by
    intro tw
    cases args.tw with
    | none => cases proc <;> simp [eq_comm]
    | some t => simp
  constructor
  · intro tw f0 f1
    rw [← htw, ← hown, ← hown, ← key, ← key]
    unfold invSettings
    generalize args.tw.or (proc.map fun p => (p.twStart, p.twStart + p.twLen)) = a
    generalize orOwn args.freq0 (proc.map (·.freqMin)) = b
    generalize orOwn args.freq1 (proc.map (·.freqMax)) = c
    cases a <;> cases b <;> cases c <;> simp
  · intro e he
    unfold invSettings at he
    split at he
    · cases he
    · rename_i h
      cases he
      refine ⟨rfl, ?_⟩
      cases hp : proc with
      | none => rfl
      | some p =>
        exfalso
        have h1 : ∃ tw, args.tw.or (proc.map fun p => (p.twStart, p.twStart + p.twLen)) = some tw := by
          rw [hp]
          cases args.tw <;> simp
        have h2 : ∀ (given : Option Rat) (g : Proc → Rat), ∃ f, orOwn given (proc.map g) = some f := by
          intro given g
          rw [hp]
          unfold orOwn
          cases given with
          | none => exact ⟨_, rfl⟩
          | some x =>
            by_cases hx : x = 0
            · exact ⟨g p, by simp [hx]⟩
            · exact ⟨x, by simp [hx]⟩
        obtain ⟨tw, e1⟩ := h1
        obtain ⟨f0, e2⟩ := h2 args.freq0 (·.freqMin)
        obtain ⟨f1, e3⟩ := h2 args.freq1 (·.freqMax)
        exact h _ _ _ e1 e2 e3

/-- the window is given, of the frequencies only the upper one: the lower one is that of the curve -/
example : invSettings ⟨some (2, 6), none, some 4⟩ (some ⟨1, 3, 1 / 2, 2, none⟩) = .ok ((2, 6), 1 / 2, 4) := by decide +kernel

end SeisMIC
