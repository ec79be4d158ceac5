import Verif.Model.Names
import Verif.Lemmas.Strings
import Verif.Lemmas.Write

/-!
# C166: Processing functions are found by their full names
# C167: Traces of the same channel are recognised by their codes
-/

namespace SeisMIC

theorem splitOn_last (c : Char) (a f : Str) (h : c ∉ f) : splitOn c (a ++ c :: f) = splitOn c a ++ [f] := by
  induction a with
  | nil => simp [splitOn, splitOn_eq_single c f h]
  | cons d a ih =>
    rw [List.cons_append]
    unfold splitOn
    by_cases hd : d = c
    · rw [if_pos hd, if_pos hd, ih]; rfl
    · rw [if_neg hd, if_neg hd, ih]
      cases hs : splitOn c a with
      | nil => exact absurd hs (splitOn_ne_nil c a)
      | cons x l => rfl

theorem split_or (c : Char) (s : Str) : c ∉ s ∨ ∃ a f, s = a ++ c :: f ∧ c ∉ f := by
  induction s with
  | nil => exact .inl List.not_mem_nil
  | cons d s ih =>
    rcases ih with h | ⟨a, f, rfl, hf⟩
    · by_cases hd : c = d
      · exact .inr ⟨[], s, by rw [hd]; rfl, h⟩
      · exact .inl (by simp [hd, h])
    · exact .inr ⟨d :: a, f, rfl, hf⟩

/-- the function of a name with a dot -/
theorem funcFromStr_dot {φ : Type} (modules : Modules φ) (a f : Str) (h : '.' ∉ f) :
    funcFromStr modules (a ++ '.' :: f) = if a = [] then .error .valueError
      else match modules a with
        | none => .error .notImplementedError
        | some m =>
          match m f with
          | none => .error .attributeError
          | some g => .ok g := by
  unfold funcFromStr
  simp only [splitOn_last '.' a f h, List.dropLast_concat, joinWith_splitOn, List.getLastD_concat]
  rfl

/-- **C166** A name denotes the function after its last dot in the module before it, wherever this module is; every other name is an exception. -/
theorem c166_function {φ : Type} (modules : Modules φ) (string : Str) (g : φ) :
    funcFromStr modules string = .ok g ↔
      ∃ (mod f : Str) (m : Str → Option φ), string = mod ++ '.' :: f ∧ '.' ∉ f ∧ mod ≠ [] ∧ modules mod = some m ∧ m f = some g := by
  constructor
  · intro h
    rcases split_or '.' string with hs | ⟨a, f, rfl, hf⟩
    · unfold funcFromStr at h
      rw [splitOn_eq_single _ _ hs] at h
      simp [joinWith] at h
    · rw [funcFromStr_dot _ _ _ hf] at h
      split at h
      · cases h
      · rename_i ha
        cases hm : modules a with
        | none => rw [hm] at h; cases h
        | some m =>
          rw [hm] at h
          simp only at h
          cases hg : m f with
          | none => rw [hg] at h; cases h
          | some g' =>
            rw [hg] at h
            cases h
            exact ⟨a, f, m, rfl, hf, ha, hm, hg⟩
  · rintro ⟨mod, f, m, rfl, hf, hm, h1, h2⟩
    rw [funcFromStr_dot _ _ _ hf, if_neg hm, h1]
    simp only [h2]

/-- **C166** An attribute that the module lacks is an `AttributeError`, whatever other modules have. -/
theorem c166_missing {φ : Type} (modules : Modules φ) (mod f : Str) (m : Str → Option φ) (hf : '.' ∉ f) (hm : mod ≠ []) (h1 : modules mod = some m)
    (h2 : m f = none) : funcFromStr modules (mod ++ '.' :: f) = .error .attributeError := by
  rw [funcFromStr_dot _ _ _ hf, if_neg hm, h1]
  simp only [h2]

/-- two modules with a function of the same name -/
def exModules : Modules Nat := fun m =>
  if m = c!"seismic.correlate.preprocessing_td" then some fun f => if f = c!"mute" then some 1 else none
  else if m = c!"mine" then some fun f => if f = c!"mute" then some 2 else none
  else none

example : funcFromStr exModules c!"seismic.correlate.preprocessing_td.mute" = .ok 1 ∧ funcFromStr exModules c!"mine.mute" = .ok 2 ∧
    funcFromStr exModules c!"mine.taper" = .error .attributeError ∧ funcFromStr exModules c!"mute" = .error .valueError ∧
    funcFromStr exModules c!"other.mute" = .error .notImplementedError := by
  decide +kernel

example : ∃ (mod f : Str) (m : Str → Option Nat), c!"mine.mute" = mod ++ '.' :: f ∧ '.' ∉ f ∧ mod ≠ [] ∧ exModules mod = some m ∧ m f = some 2 :=
  (c166_function exModules c!"mine.mute" 2).1 (by decide +kernel)

/-! ### C167 -/

/-- the codes of the trace have no dots -/
def TrCodes.NoDots (t : TrCodes) : Prop := '.' ∉ t.net ∧ '.' ∉ t.sta ∧ '.' ∉ t.cha ∧ '.' ∉ t.loc

theorem dot_inj (a b s t : Str) (ha : '.' ∉ a) (hb : '.' ∉ b) (h : a ++ '.' :: s = b ++ '.' :: t) : a = b ∧ s = t := by
  induction a generalizing b with
  | nil =>
    cases b with
    | nil => exact ⟨rfl, (List.cons.inj h).2⟩
    | cons d b =>
      have := (List.cons.inj h).1
      exact absurd (by rw [← this]; exact List.mem_cons_self) hb
  | cons d a ih =>
    cases b with
    | nil =>
      have := (List.cons.inj h).1
      exact absurd (by rw [this]; exact List.mem_cons_self) ha
    | cons d' b =>
      obtain ⟨h1, h2⟩ := List.cons.inj h
      obtain ⟨h3, h4⟩ := ih b (fun h => ha (List.mem_cons_of_mem _ h)) (fun h => hb (List.mem_cons_of_mem _ h)) h2
      exact ⟨by rw [h1, h3], h4⟩

/-- **C167** Two traces whose codes have no dots are equal for the comparison iff network, station and channel agree, and, if it is regarded, the location. -/
theorem c167_compare (tr0 tr1 : TrCodes) (h0 : tr0.NoDots) (h1 : tr1.NoDots) (regardLoc : Bool) :
    compareTrId tr0 tr1 regardLoc = true ↔
      tr0.net = tr1.net ∧ tr0.sta = tr1.sta ∧ tr0.cha = tr1.cha ∧ (regardLoc = true → tr0.loc = tr1.loc) := by
  unfold compareTrId
  cases regardLoc with
  | true =>
    simp only [if_true, decide_eq_true_eq, List.append_assoc, List.cons_append, List.nil_append, true_imp_iff]
    constructor
    · intro h
      obtain ⟨e1, h⟩ := dot_inj _ _ _ _ h0.1 h1.1 h
      obtain ⟨e2, h⟩ := dot_inj _ _ _ _ h0.2.1 h1.2.1 h
      obtain ⟨e3, h⟩ := dot_inj _ _ _ _ h0.2.2.1 h1.2.2.1 h
      exact ⟨e1, e2, e3, h⟩
    · rintro ⟨e1, e2, e3, e4⟩
      rw [e1, e2, e3, e4]
  | false =>
    simp only [Bool.false_eq_true, if_false, decide_eq_true_eq, List.append_assoc, List.cons_append, List.nil_append, false_imp_iff, and_true]
    constructor
    · intro h
      obtain ⟨e1, h⟩ := dot_inj _ _ _ _ h0.1 h1.1 h
      obtain ⟨e2, h⟩ := dot_inj _ _ _ _ h0.2.1 h1.2.1 h
      exact ⟨e1, e2, h⟩
    · rintro ⟨e1, e2, e3⟩
      rw [e1, e2, e3]

example : compareTrId ⟨c!"XN", c!"A", c!"HHZ", c!"00"⟩ ⟨c!"XN", c!"A", c!"HHZ", c!"10"⟩ true = false ∧
    compareTrId ⟨c!"XN", c!"A", c!"HHZ", c!"00"⟩ ⟨c!"XN", c!"A", c!"HHZ", c!"10"⟩ false = true ∧
    TrCodes.NoDots ⟨c!"XN", c!"A", c!"HHZ", c!"00"⟩ := by
  unfold TrCodes.NoDots; decide

/-- with dots in codes, different channels may be taken for the same -/
example : compareTrId ⟨c!"X.N", c!"A", c!"Z", c!""⟩ ⟨c!"X", c!"N.A", c!"Z", c!""⟩ true = true := by decide

end SeisMIC
