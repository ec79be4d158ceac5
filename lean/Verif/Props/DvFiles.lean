import Verif.Model.DvFiles
import Verif.Props.Header
import Verif.Lemmas.Glob
import Mathlib.Data.List.Basic
import Mathlib.Tactic.SplitIfs

/-!
# C151: reading velocity changes with wildcards
-/

namespace SeisMIC

/-- the result of a file in a directory -/
def contentOf (dir : List (Str × NpzFile)) (name : Str) : Option DvLoaded :=
  match dir.lookup name with
  | some (.arrays f) => (readDv f).toOption
  | _ => none

/-- every file is a saved result or a damaged archive -/
def CleanOrBadZip (dir : List (Str × NpzFile)) : Prop :=
  ∀ name f, dir.lookup name = some f → f = .badZip ∨ ∃ a r, f = .arrays a ∧ readDv a = .ok r

theorem readDvFile_ok {dir : List (Str × NpzFile)} {path : Str} {r : DvLoaded} :
    readDvFile dir path = .ok r ↔ contentOf dir path = some r := by
  unfold readDvFile contentOf
  cases dir.lookup path with
  | none => simp
  | some f =>
    cases f with
    | badZip => simp
    | other e => simp
    | arrays a => cases h : readDv a <;> simp [Except.toOption, h]

theorem mem_of_lookup {α : Type} {name : Str} {f : α} : ∀ {dir : List (Str × α)}, dir.lookup name = some f → (name, f) ∈ dir
  | [], h => by simp at h
  | (k, v) :: l, h => by
    rw [List.lookup_cons] at h
    split at h
    · rename_i hk
      cases h
      rw [eq_of_beq hk]; exact List.mem_cons_self
    · exact List.mem_cons_of_mem _ (mem_of_lookup h)

theorem go_eq (dir : List (Str × NpzFile)) (hc : CleanOrBadZip dir) (fuel : Nat) : ∀ (names : List Str),
    (∀ p ∈ names, hasWildcard p = false) → (∀ p ∈ names, p ∈ dir.map Prod.fst) →
    readDvPath.go dir (fuel + 1) names = some (.ok (names.filterMap fun p => (contentOf dir p).map DvRead.one))
  | [], _, _ => by rw [readDvPath.go]; rfl
  | p :: ps, hw, hm => by
    have ih := go_eq dir hc fuel ps (fun q hq => hw q (List.mem_cons_of_mem _ hq)) (fun q hq => hm q (List.mem_cons_of_mem _ hq))
    have hex : ∃ f, dir.lookup p = some f := by
      cases hl : dir.lookup p with
      | some f => exact ⟨f, rfl⟩
      | none =>
        rw [List.lookup_eq_none_iff] at hl
        obtain ⟨x, hx, rfl⟩ := List.mem_map.1 (hm p List.mem_cons_self)
        have := hl x hx
        simp at this
    obtain ⟨f, hf⟩ := hex
    rw [readDvPath.go, readDvPath, hw p List.mem_cons_self]
    simp only [Bool.false_eq_true, if_false]
    rcases hc p f hf with rfl | ⟨a, r, rfl, hr⟩
    · have h1 : readDvFile dir p = .error .badZip := by simp [readDvFile, hf]
      have h2 : contentOf dir p = none := by simp [contentOf, hf]
      rw [h1, List.filterMap_cons, h2]
      exact ih
    · have h1 : readDvFile dir p = .ok r := by simp [readDvFile, hf, hr]
      have h2 : contentOf dir p = some r := readDvFile_ok.1 h1
      rw [h1, List.filterMap_cons, h2]
      simp only [Except.map, ih, Option.map_some]

/-- **C151** With a pattern, the results of exactly the files that match it are returned, in the order in which they are found; damaged archives are
skipped. If there is no readable file, that is an error. Without a pattern the result of the file is returned.
Missing: files that are damaged in another way, see `c151_other_damage_violated`, and names with wildcards, see `c151_names_violated`. -/
theorem c151_pattern_partial (dir : List (Str × NpzFile)) (hc : CleanOrBadZip dir) (hnames : ∀ x ∈ dir, hasWildcard x.1 = false) (path : Str)
    (hw : hasWildcard path = true) (fuel : Nat) :
    ∃ names, names = (dir.map Prod.fst).filter (fun name => fnmatch name path && (name.head? != some '.' || path.head? == some '.')) ∧
      readDvPath dir (fuel + 2) path = some (
        if names.filterMap (contentOf dir) = [] then .error (.py .fileNotFoundError)
        else .ok (.many ((names.filterMap (contentOf dir)).map DvRead.one))) := by
  refine ⟨globDir dir path, rfl, ?_⟩
  rw [readDvPath, hw]
  simp only [if_true]
  rw [go_eq dir hc fuel (globDir dir path) ?_ ?_]
  · have hmap : ((globDir dir path).filterMap fun p => (contentOf dir p).map DvRead.one) = ((globDir dir path).filterMap (contentOf dir)).map DvRead.one := by
      rw [List.map_filterMap]
    rw [hmap]
    cases (globDir dir path).filterMap (contentOf dir) with
    | nil => simp
    | cons a l => simp
  · intro p hp
    obtain ⟨x, hx, rfl⟩ := List.mem_map.1 (List.mem_filter.1 hp).1
    exact hnames x hx
  · intro p hp
    exact (List.mem_filter.1 hp).1

/-- **C151** (one file) Without wildcards, the result in the file is returned. -/
theorem c151_single (dir : List (Str × NpzFile)) (path : Str) (hw : hasWildcard path = false) (fuel : Nat) (r : DvLoaded) :
    readDvPath dir (fuel + 1) path = some (.ok (.one r)) ↔ contentOf dir path = some r := by
  rw [readDvPath, hw, ← readDvFile_ok]
  simp only [Bool.false_eq_true, if_false, Option.some.injEq]
  cases readDvFile dir path with
  | error e => simp [Except.map]
  | ok r' => simp [Except.map]

/-- **C151** (missing file) -/
theorem c151_missing (dir : List (Str × NpzFile)) (path : Str) (hw : hasWildcard path = false) (hm : path ∉ dir.map Prod.fst) (fuel : Nat) :
    readDvPath dir (fuel + 1) path = some (.error (.py .fileNotFoundError)) := by
  have hl : dir.lookup path = none := by
    rw [List.lookup_eq_none_iff]
    intro x hx
    rw [bne_iff_ne]
    intro he
    exact hm (List.mem_map.2 ⟨x, hx, he.symm⟩)
  rw [readDvPath, hw]
  simp [readDvFile, hl, Except.map]

/-- **C151** is violated: an empty or otherwise damaged file among those that match makes all of them unreadable. -/
theorem c151_other_damage_violated (f : List (Str × NpArr)) (e : PyErr) (fuel : Nat) :
    readDvPath [(c!"b", .other e), (c!"a", .arrays f)] (fuel + 2) c!"*" = some (.error (.py e)) := by
  have hg : globDir [(c!"b", .other e), (c!"a", .arrays f)] c!"*" = [c!"b", c!"a"] := by rfl
  rw [readDvPath, if_pos (by rfl), hg, readDvPath.go, readDvPath, if_neg (by decide)]
  rfl

/-- **C151** is violated: a file whose name contains a wildcard is never read, the function calls itself without end. -/
theorem c151_names_violated (f : NpzFile) (fuel : Nat) : readDvPath [(c!"a*", f)] fuel c!"a*" = none := by
  induction fuel with
  | zero => rw [readDvPath]
  | succ fuel ih =>
    have hg : globDir [(c!"a*", f)] c!"a*" = [c!"a*"] := by rfl
    rw [readDvPath, if_pos (by rfl), hg, readDvPath.go, ih]

/-- the hypotheses of `c151_pattern_partial` are met by a directory with two saved results and a damaged archive -/
example (a b : List (Str × NpArr)) (ra rb : DvLoaded) (ha : readDv a = .ok ra) (hb : readDv b = .ok rb) :
    CleanOrBadZip [(c!"DV-A.npz", .arrays a), (c!"DV-B.npz", .badZip), (c!"DV-C.npz", .arrays b)] ∧
    (∀ x ∈ [(c!"DV-A.npz", NpzFile.arrays a), (c!"DV-B.npz", .badZip), (c!"DV-C.npz", .arrays b)], hasWildcard x.1 = false) ∧
    hasWildcard c!"DV-*.npz" = true := by
  refine ⟨?_, ?_, by rfl⟩
  · intro name f h
    have : (name, f) ∈ [(c!"DV-A.npz", NpzFile.arrays a), (c!"DV-B.npz", .badZip), (c!"DV-C.npz", .arrays b)] := mem_of_lookup h
    simp only [List.mem_cons, Prod.mk.injEq, List.not_mem_nil, or_false] at this
    rcases this with ⟨_, rfl⟩ | ⟨_, rfl⟩ | ⟨_, rfl⟩
    · exact Or.inr ⟨a, ra, rfl, ha⟩
    · exact Or.inl rfl
    · exact Or.inr ⟨b, rb, rfl, hb⟩
  · intro x hx
    simp only [List.mem_cons, List.not_mem_nil, or_false] at hx
    rcases hx with rfl | rfl | rfl <;> rfl

end SeisMIC
