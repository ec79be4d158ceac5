import Verif.Model.ParallelMatrix
import Verif.Lemmas.Partition
import Verif.Lemmas.ListAux
import Mathlib.Algebra.Group.Defs
import Verif.Spec.Parallel

namespace SeisMIC

variable {α β γ : Type}

theorem selectMask_length_le (m : List Bool) (A : List β) :
    (selectMask m A).length ≤ A.length := by
  fun_induction selectMask m A <;> simp <;> omega

theorem assignMask_map (m : List Bool) (A : List β) (g : β → β) (h : m.length = A.length) :
    assignMask m A ((selectMask m A).map g) =
      List.zipWith (fun b a => if b then g a else a) m A := by
  induction m generalizing A with
  | nil => cases A <;> simp_all [assignMask]
  | cons b m ih =>
    cases A with
    | nil => simp at h
    | cons a A =>
      have := ih A (by simpa using h)
      cases b <;> simp [selectMask, assignMask, this]

theorem assignMask_map' (m : List Bool) (A : List β) (Z : List γ) (g : β → γ)
    (h : m.length = A.length) (hz : Z.length = A.length) :
    assignMask m Z ((selectMask m A).map g) =
      List.zipWith (fun (ba : Bool × β) z => if ba.1 then g ba.2 else z) (m.zip A) Z := by
  induction m generalizing A Z with
  | nil => cases A <;> simp_all [assignMask]
  | cons b m ih =>
    cases A with
    | nil => simp at h
    | cons a A =>
      cases Z with
      | nil => simp at hz
      | cons z Z =>
        have := ih A Z (by simpa using h) (by simpa using hz)
        cases b <;> simp [selectMask, assignMask, this]

theorem applyOwn_rowWise {m : List Bool} {g : β → β}
    (A : List β) (h : m.length = A.length) :
    applyOwn m (rowStep g) A = .ok (List.zipWith (fun b a => if b then g a else a) m A) := by
  unfold applyOwn rowStep
  simp [bind, Except.bind, pure, Except.pure, assignMask_map m A g h]

theorem applyAllOwn_rowWise {m : List Bool} {gs : List (β → β)} (A : List β)
    (h : m.length = A.length) :
    applyAllOwn m (gs.map rowStep) A =
      .ok (List.zipWith (fun b a => if b then chain gs a else a) m A) := by
  induction gs generalizing A with
  | nil =>
    simp only [applyAllOwn, List.map_nil, List.foldlM_nil, chain, List.foldl_nil, ite_self]
    congr 1
    induction m generalizing A with
    | nil => cases A <;> simp_all
    | cons b m ih =>
      cases A with
      | nil => simp at h
      | cons a A => simpa using ih A (by simpa using h)
  | cons g gs ih =>
    unfold applyAllOwn at ih ⊢
    rw [List.map_cons, List.foldlM_cons, applyOwn_rowWise A h]
    simp only [bind, Except.bind]
    rw [ih _ (by simp [h])]
    congr 1
    clear ih
    induction m generalizing A with
    | nil => simp
    | cons b m ih =>
      cases A with
      | nil => simp at h
      | cons a A =>
        have := ih A (by simpa using h)
        cases b <;> simpa [chain] using this

theorem length_ownMask (n p r : Nat) : (ownMask n p r).length = n := by simp [ownMask]

/-- form of the matrix of one process: own rows filled, the others zero -/
theorem zip_ownMask_map {δ : Type} (p r : Nat) (A : List β) (F : Bool → β → δ) :
    List.zipWith F (ownMask A.length p r) A =
      A.zipIdx.map fun ai => F (pmap A.length p ai.2 == r) ai.1 := by
  apply List.ext_getElem?
  intro i
  simp only [ownMask, List.getElem?_zipWith, List.getElem?_map, List.getElem?_zipIdx]
  by_cases hi : i < A.length
  · simp [hi]
  · have : A[i]? = none := by simp; omega
    simp [this]

section sum
variable [AddCommMonoid α]

theorem zipWith_add_zero_right (a : List α) (m : Nat) (h : a.length = m) :
    List.zipWith (· + ·) a (List.replicate m 0) = a := by
  subst h
  apply List.ext_getElem (by simp)
  intro i h1 h2
  simp

theorem zipWith_add_zero_left (a : List α) (m : Nat) (h : a.length = m) :
    List.zipWith (· + ·) (List.replicate m 0) a = a := by
  subst h
  apply List.ext_getElem (by simp)
  intro i h1 h2
  simp

/-- sum over processes `start, ..., start+k-1` of `if owner = r then v else 0` -/
theorem foldl_owner (v : List α) (m owner : Nat) (hv : v.length = m) (k : Nat) (start : Nat) (acc : List α)
    (hacc : acc = (if owner < start then v else List.replicate m 0)) :
    (List.range' start k).foldl
      (fun acc r => List.zipWith (· + ·) acc (if owner = r then v else List.replicate m 0)) acc
    = (if owner < start + k then v else List.replicate m 0) := by
  induction k generalizing start acc with
  | zero => simp [hacc]
  | succ k ih =>
    rw [List.range'_succ, List.foldl_cons, ih (start+1)]
    · congr 1; simp; omega
    · subst hacc
      by_cases h1 : owner < start
      · rw [if_pos h1, if_neg (by omega), if_pos (by omega), zipWith_add_zero_right _ _ hv]
      · rw [if_neg h1]
        by_cases h2 : owner = start
        · rw [if_pos h2, if_pos (by omega), zipWith_add_zero_left _ _ hv]
        · rw [if_neg h2, if_neg (by omega), zipWith_add_zero_right _ _ (by simp)]

theorem foldl_matAdd_map {δ : Type} (A : List δ) (F : Nat → δ → List α) (rs : List Nat)
    (acc : δ → List α) :
    (rs.map fun r => A.map (F r)).foldl matAdd (A.map acc) =
      A.map fun a => rs.foldl (fun acc r => List.zipWith (· + ·) acc (F r a)) (acc a) := by
  induction rs generalizing acc with
  | nil => simp
  | cons r rs ih =>
    simp only [List.map_cons, List.foldl_cons]
    have : matAdd (A.map acc) (A.map (F r)) = A.map fun a => List.zipWith (· + ·) (acc a) (F r a) := by
      simp [matAdd, List.zipWith_map]
    rw [this, ih]

/-- Summing the matrices of all processes puts every row in its place. -/
theorem allreduce_owner (A : List β) (p m : Nat) (hp : 0 < p) (g : β → List α)
    (hg : ∀ a ∈ A, (g a).length = m) :
    allreduceSum ((List.range p).map fun r =>
      A.zipIdx.map fun ai => if pmap A.length p ai.2 = r then g ai.1 else List.replicate m 0)
    = A.map g := by
  obtain ⟨p, rfl⟩ : ∃ q, p = q + 1 := ⟨p - 1, by omega⟩
  rw [List.range_eq_range', List.range'_succ, List.map_cons]
  show List.foldl matAdd _ _ = _
  rw [foldl_matAdd_map A.zipIdx
    (fun r ai => if pmap A.length (p+1) ai.2 = r then g ai.1 else List.replicate m 0)]
  conv => rhs; rw [← List.zipIdx_map_fst 0 A, List.map_map]
  apply List.map_congr_left
  intro ai hai
  have hmem := List.mem_zipIdx hai
  have hlen : ai.2 < A.length := by simp at hmem; omega
  have ham : ai.1 ∈ A := by
    have := hmem.2.2; rw [this]; exact List.getElem_mem _
  rw [foldl_owner (g ai.1) m (pmap A.length (p+1) ai.2) (hg _ ham)]
  · rw [if_pos]; · rfl
    have := @pmap_lt A.length (p+1) ai.2 hp hlen
    omega
  · simp only [Nat.zero_add, Nat.lt_one_iff]

end sum

theorem assign_own (n p r : Nat) (X : List β) (z : γ) (g : β → γ) (hX : X.length = n) :
    assignMask (ownMask n p r) (List.replicate n z) ((selectMask (ownMask n p r) X).map g) =
      X.zipIdx.map fun xi => if pmap n p xi.2 = r then g xi.1 else z := by
  subst hX
  rw [assignMask_map' _ _ _ _ (by simp [length_ownMask]) (by simp)]
  apply List.ext_getElem?
  intro i
  simp only [ownMask, List.zip, List.getElem?_zipWith, List.getElem?_map, List.getElem?_zipIdx,
    List.getElem?_replicate]
  by_cases hi : i < X.length
  · simp [hi]
  · have : X[i]? = none := by simp; omega
    simp [this]

theorem zip_ownMask_map' {δ : Type} (n p r : Nat) (A : List β) (F : Bool → β → δ)
    (h : A.length = n) :
    List.zipWith F (ownMask n p r) A = A.zipIdx.map fun ai => F (pmap n p ai.2 == r) ai.1 := by
  subst h; exact zip_ownMask_map p r A F

theorem rankSpectra_eq [Zero α] (p r fftsize : Nat)
    (td : List (List β → List β)) (pad : List β → List β) (fft : List β → List α)
    (fd : List (List α → List α)) (A : List (List β)) :
    rankSpectra p r fftsize (td.map rowStep) pad fft (fd.map rowStep) A =
      .ok (A.zipIdx.map fun ai => if pmap A.length p ai.2 = r
        then chain fd (fft (pad (chain td ai.1))) else List.replicate fftsize 0) := by
  unfold rankSpectra
  simp only
  rw [applyAllOwn_rowWise A (length_ownMask _ _ _), zip_ownMask_map]
  simp only [bind, Except.bind]
  rw [assign_own _ _ _ _ _ _ (by simp)]
  rw [applyAllOwn_rowWise _ (by simp [length_ownMask])]
  rw [zip_ownMask_map' _ _ _ _ _ (by simp)]
  congr 1
  apply List.ext_getElem?
  intro i
  simp only [List.getElem?_map, List.getElem?_zipIdx]
  by_cases hi : i < A.length
  · simp only [List.getElem?_eq_getElem hi, Option.map_some, Nat.zero_add, beq_iff_eq]
    by_cases ho : pmap A.length p i = r <;> simp [ho]
  · have : A[i]? = none := by simp; omega
    simp [this]

theorem rankCorrelations_eq [Zero γ] (p r width : Nat)
    (corr : List (List α) → Nat × Nat → List γ) (combis : List (Nat × Nat)) (B : List (List α)) :
    rankCorrelations p r width corr combis B =
      combis.zipIdx.map fun ci => if pmap combis.length p ci.2 = r
        then corr B ci.1 else List.replicate width 0 := by
  unfold rankCorrelations
  rw [assign_own _ _ _ _ _ _ rfl]

end SeisMIC
