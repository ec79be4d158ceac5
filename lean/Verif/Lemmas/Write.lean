import Verif.Model.Run
import Verif.Lemmas.Glob
import Verif.Lemmas.Strings
import Verif.Lemmas.Sort
import Verif.Lemmas.DbRead
import Verif.Props.Parallel
import Mathlib.Data.List.Nodup

/-! # Lemmas about the distribution of the files -/

namespace SeisMIC

variable {δ : Type}

theorem joinWith_splitOn (c : Char) (s : Str) : joinWith [c] (splitOn c s) = s := by
  induction s with
  | nil => rfl
  | cons d s ih =>
    unfold splitOn
    by_cases h : d = c
    · rw [if_pos h]
      cases hs : splitOn c s with
      | nil => exact absurd hs (splitOn_ne_nil c s)
      | cons x xs =>
        rw [hs] at ih
        simp only [joinWith, List.nil_append, List.singleton_append]
        rw [ih, h]
    · rw [if_neg h]
      cases hs : splitOn c s with
      | nil => exact absurd hs (splitOn_ne_nil c s)
      | cons x xs =>
        rw [hs] at ih
        simp only
        cases xs with
        | nil => simp only [joinWith] at ih ⊢; rw [ih]
        | cons y ys =>
          simp only [joinWith, List.cons_append] at ih ⊢
          rw [ih]

theorem mem_codelist (sep : Bool) (cst : List (Out δ)) (code : Str) :
    code ∈ codelist sep cst ↔ ∃ o ∈ cst, o.code sep = code := by
  unfold codelist
  rw [mem_isort, List.mem_eraseDups, List.mem_map]

theorem nodup_codelist (sep : Bool) (cst : List (Out δ)) : (codelist sep cst).Nodup := by
  unfold codelist
  exact (isort_perm _ _).nodup_iff.2 (nodup_eraseDups _)

/-- the entry of `writeRank` for one code -/
def writeCode (sep : Bool) (cst : List (Out δ)) (code : Str) : Except PyErr (Str × List (Out δ)) :=
  if sep then
    match splitOn '.' code with
    | [net, stat, cha] => .ok (net ++ c!"." ++ stat ++ c!"." ++ cha ++ c!".h5",
        cst.filter fun o => obsMatch o.path.net net && obsMatch o.path.sta stat && obsMatch o.path.cha cha)
    | _ => .error .valueError
  else
    match splitOn '.' code with
    | [net, stat] => .ok (net ++ c!"." ++ stat ++ c!".h5",
        cst.filter fun o => obsMatch o.path.net net && obsMatch o.path.sta stat)
    | _ => .error .valueError

theorem writeRank_eq (sep : Bool) (p r : Nat) (cst : List (Out δ)) :
    writeRank sep p r cst = (ownItems (codelist sep cst) p r).mapM (writeCode sep cst) := rfl

theorem writeCode_name (sep : Bool) (cst : List (Out δ)) (code : Str) (x : Str × List (Out δ))
    (h : writeCode sep cst code = .ok x) : x.1 = code ++ c!".h5" := by
  unfold writeCode at h
  have j := joinWith_splitOn '.' code
  split at h
  · split at h
    · next heq =>
      cases h
      rw [heq] at j
      simp only [joinWith] at j
      rw [← j]
      simp
    · cases h
  · split at h
    · next heq =>
      cases h
      rw [heq] at j
      simp only [joinWith] at j
      rw [← j]
    · cases h

theorem mapM_ok_names {α β : Type} (l : List α) (f : α → Except PyErr β) (ys : List β) (n : β → Str) (m : α → Str)
    (hn : ∀ x y, f x = .ok y → n y = m x) (h : l.mapM f = .ok ys) : ys.map n = l.map m := by
  induction l generalizing ys with
  | nil => simp [List.mapM_nil, pure, Except.pure] at h; subst h; rfl
  | cons x l ih =>
    rw [List.mapM_cons] at h
    cases hx : f x with
    | error e => rw [hx] at h; cases h
    | ok y =>
      rw [hx] at h
      cases hl : l.mapM f with
      | error e => rw [hl] at h; cases h
      | ok zs =>
        rw [hl] at h
        cases h
        simp [hn x y hx, ih zs hl]

theorem writeRank_names (sep : Bool) (p r : Nat) (cst : List (Out δ)) (ws : List (Str × List (Out δ)))
    (h : writeRank sep p r cst = .ok ws) :
    ws.map Prod.fst = (ownItems (codelist sep cst) p r).map (· ++ c!".h5") :=
  mapM_ok_names _ _ _ _ _ (fun x y hxy => writeCode_name sep cst x y hxy) h

theorem own_disjoint {α : Type} [DecidableEq α] (l : List α) (h : l.Nodup) (p r r' : Nat) (hne : r ≠ r') :
    ∀ x, x ∈ ownItems l p r → x ∉ ownItems l p r' := by
  intro x hx hx'
  unfold ownItems at hx hx'
  rw [List.mem_filterMap] at hx hx'
  obtain ⟨i, hi, ei⟩ := hx
  obtain ⟨j, hj, ej⟩ := hx'
  rw [mem_ownIndices] at hi hj
  have : i = j := by
    obtain ⟨li, ei⟩ := List.getElem?_eq_some_iff.1 ei
    obtain ⟨lj, ej⟩ := List.getElem?_eq_some_iff.1 ej
    exact (List.Nodup.getElem_inj_iff h).1 (ei.trans ej.symm)
  subst this
  exact hne (hi.2.symm.trans hj.2)

theorem toUpper_eq (c : Char) : c.toUpper = c ∨ (65 ≤ c.toUpper.toNat ∧ c.toUpper.toNat ≤ 90) := by
  unfold Char.toUpper
  by_cases h : c.val ≥ 'a'.val ∧ c.val ≤ 'z'.val
  · right
    simp only [h, and_self, dite_true]
    have h1 := UInt32.le_iff_toNat_le.1 h.1
    have h2 := UInt32.le_iff_toNat_le.1 h.2
    have e1 : 'a'.val.toNat = 97 := rfl
    have e2 : 'z'.val.toNat = 122 := rfl
    have e3 : ('A'.val - 'a'.val).toNat = 4294967264 := rfl
    simp only [Char.toNat, UInt32.toNat_add, e3]
    omega
  · left
    simp only [h, dite_false]

theorem plain_upper (s : Str) (h : Plain s) : Plain (upper s) := by
  intro c hc
  obtain ⟨d, hd, rfl⟩ := List.mem_map.1 hc
  rcases toUpper_eq d with h1 | h1
  · rw [h1]; exact h d hd
  · refine ⟨?_, ?_, ?_⟩ <;> (intro e; rw [e] at h1; exact absurd h1 (by decide))

theorem obsMatch_iff (s pat : Str) (h : Plain pat) : obsMatch s pat = true ↔ upper s = upper pat :=
  fnmatch_plain _ _ (plain_upper _ h)

end SeisMIC
