import Verif.Spec.Db
import Verif.Lemmas.Strings

namespace SeisMIC

variable {ν : Type} [DecidableEq ν]

theorem lookup_popKey (key k : Str) (d : List (Str × ν)) :
    (popKey key d).lookup k = if k = key then none else d.lookup k := by
  unfold popKey
  induction d with
  | nil => simp
  | cons e d ih =>
    obtain ⟨a, v⟩ := e
    rw [List.filter_cons]
    by_cases ha : a = key
    · subst ha
      simp only [ne_eq, not_true, decide_false, Bool.false_eq_true, if_false, ih, List.lookup_cons]
      by_cases hk : k = a
      · simp [hk]
      · have : (k == a) = false := by simpa using hk
        simp [hk, this]
    · simp only [ne_eq, ha, not_false_eq_true, decide_true, if_true, List.lookup_cons, ih]
      by_cases hk : k = a
      · subst hk; simp [ha]
      · have : (k == a) = false := by simpa using hk
        simp [this]

theorem lookup_popKeys (keys : List Str) (k : Str) (d : List (Str × ν)) :
    (keys.foldl (fun d k => popKey k d) d).lookup k = if k ∈ keys then none else d.lookup k := by
  induction keys generalizing d with
  | nil => simp
  | cons a l ih =>
    rw [List.foldl_cons, ih, lookup_popKey]
    by_cases h1 : k ∈ l
    · simp [h1]
    · by_cases h2 : k = a
      · simp [h2]
      · simp [h1, h2]

theorem lookup_none_of_not_mem (d : List (Str × ν)) (k : Str) (h : k ∉ d.map Prod.fst) :
    d.lookup k = none := by
  rw [List.lookup_eq_none_iff]
  intro p hp
  simp
  rintro rfl
  exact h (List.mem_map.2 ⟨p, hp, rfl⟩)

theorem dictEq_iff (a b : List (Str × ν)) : dictEq a b = true ↔ ∀ k, a.lookup k = b.lookup k := by
  unfold dictEq
  rw [List.all_eq_true]
  constructor
  · intro h k
    by_cases hk : k ∈ a.map Prod.fst ++ b.map Prod.fst
    · simpa using h k hk
    · rw [List.mem_append, not_or] at hk
      rw [lookup_none_of_not_mem a k hk.1, lookup_none_of_not_mem b k hk.2]
  · intro h k _; simp [h k]

theorem erase_append_of_not_mem {β : Type} [DecidableEq β] (a b : List β) (x : β) (h : x ∉ a) :
    (a ++ x :: b).erase x = a ++ b := by
  rw [List.erase_append_right _ h, List.erase_cons_head]

/-- with no two adjacent matching elements the loop removes all of them -/
theorem removeWhileIter_eq_filter {β : Type} [DecidableEq β] (pred : β → Bool) (k : Nat) (a b : List β)
    (ha : ∀ x ∈ a, pred x = false) (hk : b.length ≤ k)
    (hadj : ∀ (i : Nat) x y, b[i]? = some x → b[i+1]? = some y → ¬ (pred x = true ∧ pred y = true)) :
    removeWhileIter pred k a.length (a ++ b) = a ++ b.filter fun x => !pred x := by
  induction k generalizing a b with
  | zero =>
    have : b = [] := List.length_eq_zero_iff.1 (by omega)
    subst this; simp [removeWhileIter]
  | succ k ih =>
    cases b with
    | nil => simp [removeWhileIter]
    | cons x b =>
      have hx : (a ++ x :: b)[a.length]? = some x := by simp
      simp only [removeWhileIter, hx]
      have hadj' : ∀ (i : Nat) u v, b[i]? = some u → b[i+1]? = some v → ¬ (pred u = true ∧ pred v = true) := by
        intro i u v hu hv
        exact hadj (i+1) u v (by simpa using hu) (by simpa using hv)
      by_cases hp : pred x = true
      · rw [if_pos hp, erase_append_of_not_mem _ _ _ (fun hm => by rw [ha x hm] at hp; cases hp)]
        cases b with
        | nil =>
          simp only [List.append_nil, List.filter_cons, hp, Bool.not_true, Bool.false_eq_true, if_false,
            List.filter_nil]
          cases k with
          | zero => rfl
          | succ k =>
            have : a[a.length + 1]? = none := by simp
            simp [removeWhileIter]
        | cons y b =>
          have hy : pred y = false := by
            have := hadj 0 x y (by simp) (by simp)
            simp [hp] at this; exact this
          have := ih (a ++ [y]) b (by
            intro z hz; rw [List.mem_append] at hz
            obtain hz | hz := hz
            · exact ha z hz
            · simp at hz; rw [hz]; exact hy) (by simp at hk ⊢; omega)
            (fun i u v hu hv => hadj' (i+1) u v (by simpa using hu) (by simpa using hv))
          simp at this
          simp [List.filter_cons, hp, hy, this]
      · rw [if_neg hp]
        have hp' : pred x = false := by simpa using hp
        have := ih (a ++ [x]) b (by
            intro z hz; rw [List.mem_append] at hz
            obtain hz | hz := hz
            · exact ha z hz
            · simp at hz; rw [hz]; exact hp') (by simp at hk; omega) hadj'
        simp at this
        simp [List.filter_cons, hp', this]

/-- elements that do not match are never removed -/
theorem filter_removeWhileIter {β : Type} [DecidableEq β] (pred : β → Bool) (k i : Nat) (l : List β) :
    (removeWhileIter pred k i l).filter (fun x => !pred x) = l.filter fun x => !pred x := by
  induction k generalizing i l with
  | zero => rfl
  | succ k ih =>
    simp only [removeWhileIter]
    cases hl : l[i]? with
    | none => rfl
    | some x =>
      simp only
      rw [ih]
      by_cases hp : pred x = true
      · rw [if_pos hp]
        clear hl ih
        induction l with
        | nil => rfl
        | cons y l ihl =>
          rw [List.erase_cons]
          split
          · rename_i h; simp at h; subst h; simp [hp]
          · simp [List.filter_cons, ihl]
      · rw [if_neg hp]

/-- the stored masking-free steps -/
theorem coToHdf5_pre_filter (o : Options ν) :
    (coToHdf5 o).preProcessing.map (fun l => l.filter fun s => !isMask s) =
      o.preProcessing.map fun l => l.filter fun s => !isMask s := by
  unfold coToHdf5
  simp only [Option.map_map]
  congr 1
  funext l
  exact filter_removeWhileIter _ _ _ _

theorem coToHdf5_pre (o : Options ν) (h : NoAdjacentMasks o) :
    (coToHdf5 o).preProcessing = o.preProcessing.map fun l => l.filter fun s => !isMask s := by
  unfold coToHdf5
  simp only
  cases hp : o.preProcessing with
  | none => rfl
  | some l =>
    simp only [Option.map_some]
    congr 1
    have := removeWhileIter_eq_filter (fun s : ProcStep ν => isSub c!"stream_mask_at_utc" s.function)
      l.length [] l (by simp) (Nat.le_refl _) (h l hp)
    exact this

theorem lookup_other (o : Options ν) (k : Str) :
    (coToHdf5 o).other.lookup k = if k ∈ ignoredKeys then none else o.other.lookup k := by
  unfold coToHdf5
  simp only
  rw [lookup_popKeys]
  rfl

theorem lookup_corrArgs (o : Options ν) (k : Str) :
    (coToHdf5 o).corrArgs.lookup k = if k = "combinations".toList then none else o.corrArgs.lookup k := by
  unfold coToHdf5
  simp only
  rw [lookup_popKey]
  rfl

theorem lookup_subdivision (o : Options ν) (k : Str) :
    (coToHdf5 o).subdivision.lookup k =
      if k = "recombine_subdivision".toList ∨ k = "delete_subdivision".toList then none
      else o.subdivision.lookup k := by
  unfold coToHdf5
  simp only
  rw [lookup_popKey, lookup_popKey]
  have e1 : c!"recombine_subdivision" = "recombine_subdivision".toList := rfl
  have e2 : c!"delete_subdivision" = "delete_subdivision".toList := rfl
  rw [e1, e2]
  generalize "recombine_subdivision".toList = A
  generalize "delete_subdivision".toList = B
  by_cases h1 : k = B
  · simp [h1]
  · by_cases h2 : k = A
    · simp [h2]
    · simp [h1, h2]

theorem optionsEq_iff (a b : Options ν) : optionsEq a b = true ↔
    (∀ k, a.other.lookup k = b.other.lookup k) ∧ (∀ k, a.corrArgs.lookup k = b.corrArgs.lookup k) ∧
    (∀ k, a.subdivision.lookup k = b.subdivision.lookup k) ∧ a.preProcessing = b.preProcessing := by
  unfold optionsEq
  simp only [Bool.and_eq_true, dictEq_iff, decide_eq_true_eq, and_assoc]

/-- the dictionaries of converted options agree iff the relevant keys agree -/
theorem converted_lookups (a b : Options ν) :
    ((∀ k, (coToHdf5 a).other.lookup k = (coToHdf5 b).other.lookup k) ↔
      ∀ k, k ∉ ignoredKeys → a.other.lookup k = b.other.lookup k) ∧
    ((∀ k, (coToHdf5 a).corrArgs.lookup k = (coToHdf5 b).corrArgs.lookup k) ↔
      ∀ k, k ≠ "combinations".toList → a.corrArgs.lookup k = b.corrArgs.lookup k) ∧
    ((∀ k, (coToHdf5 a).subdivision.lookup k = (coToHdf5 b).subdivision.lookup k) ↔
      ∀ k, k ≠ "recombine_subdivision".toList → k ≠ "delete_subdivision".toList →
        a.subdivision.lookup k = b.subdivision.lookup k) := by
  simp only [lookup_other, lookup_corrArgs, lookup_subdivision]
  refine ⟨?_, ?_, ?_⟩
  · constructor
    · intro h k hk; have := h k; simpa [hk] using this
    · intro h k; by_cases hk : k ∈ ignoredKeys
      · simp [hk]
      · simp [hk, h k hk]
  · constructor
    · intro h k hk; have := h k; simpa only [hk, if_false] using this
    · intro h k; by_cases hk : k = "combinations".toList
      · rw [if_pos hk, if_pos hk]
      · rw [if_neg hk, if_neg hk, h k hk]
  · constructor
    · intro h k hk hk'; have := h k; simpa only [hk, hk', or_self, if_false] using this
    · intro h k; by_cases hk : k = "recombine_subdivision".toList ∨ k = "delete_subdivision".toList
      · rw [if_pos hk, if_pos hk]
      · rw [if_neg hk, if_neg hk]; rw [not_or] at hk; exact h k hk.1 hk.2

end SeisMIC
