import Verif.Lemmas.ParallelMatrix

/-!
# C01, C02, C03: distribution over MPI processes
-/

namespace SeisMIC

/-- **C01**. For any number `n` of work items and any number `p ≥ 1` of
processes, every item is processed by exactly one process, and this process
exists. No process works on an index that is not an item, or on an item twice. -/
theorem c01_exactly_one_process (n p : Nat) (hp : 0 < p) :
    (∀ i < n, ∃ r, (r < p ∧ i ∈ ownIndices n p r) ∧ ∀ r', i ∈ ownIndices n p r' → r' = r) ∧
    (∀ r i, i ∈ ownIndices n p r → i < n) ∧
    (∀ r, (ownIndices n p r).Nodup) := by
  refine ⟨fun i hi => ⟨pmap n p i, ⟨pmap_lt hp hi, ?_⟩, ?_⟩, ?_, ?_⟩
  · exact mem_ownIndices.2 ⟨hi, rfl⟩
  · intro r' h; exact (mem_ownIndices.1 h).2.symm
  · intro r i h; exact (mem_ownIndices.1 h).1
  · intro r; exact nodup_filter _ List.nodup_range

example : ownIndices 7 3 0 = [0, 1, 2] ∧ ownIndices 7 3 1 = [3, 4] ∧ ownIndices 7 3 2 = [5, 6] := by
  decide

/-- **C01** for the items themselves: the lists of items of the processes
`0, …, p-1` put one after the other are the list of all items. -/
theorem c01_items_partition {α : Type} (items : List α) (p : Nat) (hp : 0 < p) :
    (List.range p).flatMap (ownItems items p) = items := by
  unfold ownItems
  have h := flatMap_blocks (n := items.length) hp p (Nat.le_refl p)
  rw [blockStart_last hp] at h
  rw [← List.filterMap_flatMap, h, filterMap_getElem?_range]

example : ownItems ["a", "b", "c"] 2 0 = ["a", "b"] ∧ ownItems ["a", "b", "c"] 2 1 = ["c"] := by
  decide

/-- **C01** for the round-robin distribution of the windows of a spectrogram. -/
theorem c01_windows_exactly_one_process (n p : Nat) (hp : 0 < p) (i : Nat) (hi : i < n) :
    ∃ r, (r < p ∧ i ∈ ownWindows n p r) ∧ ∀ r', i ∈ ownWindows n p r' → r' = r := by
  refine ⟨i % p, ⟨Nat.mod_lt _ hp, ?_⟩, ?_⟩
  · simp [ownWindows, hi]
  · intro r' h; simp [ownWindows] at h; exact h.2.symm

/-- **C03** (contiguous). The blocks of the processes in rank order, put one
after the other, are the indices `0, …, n-1` in order. -/
theorem c03_contiguous (n p : Nat) (hp : 0 < p) :
    (List.range p).flatMap (ownIndices n p) = List.range n := by
  rw [flatMap_blocks hp p (Nat.le_refl p), blockStart_last hp]

/-- **C03** (balanced). The numbers of items of two processes differ by at most
one. -/
theorem c03_balanced (n p r r' : Nat) (hr : r < p) (hr' : r' < p) :
    (ownIndices n p r).length ≤ (ownIndices n p r').length + 1 := by
  have hp : 0 < p := by omega
  rw [length_ownIndices hp hr, length_ownIndices hp hr']
  have h1 := @blockStart_bounds n p r hp
  have h2 := @blockStart_bounds n p (r+1) hp
  have h3 := @blockStart_bounds n p r' hp
  have h4 := @blockStart_bounds n p (r'+1) hp
  rw [Nat.add_mul] at h2 h4
  have h5 : (blockStart n p (r+1)) * p < blockStart n p r * p + n + p := by omega
  have h6 : blockStart n p r' * p + n < (blockStart n p (r'+1)) * p + p := by omega
  have m1 := @blockStart_mono n p r
  have m2 := @blockStart_mono n p r'
  generalize blockStart n p (r+1) = b at *
  generalize blockStart n p r = a at *
  generalize blockStart n p (r'+1) = d at *
  generalize blockStart n p r' = c at *
  have : b * p + c * p < (a + d + 2) * p := by
    rw [Nat.add_mul, Nat.add_mul]; omega
  rw [← Nat.add_mul] at this
  have := Nat.lt_of_mul_lt_mul_right this
  omega

example : (ownIndices 10 4 0).length = 3 ∧ (ownIndices 10 4 1).length = 2 := by decide

/-- **C02**. For every number `p ≥ 1` of processes, every list of processing
steps that act on single traces, every matrix and every list of pairs, the
correlation matrix returned on every process is the one that the row by row
computation without any processes gives. -/
theorem c02_parallel_eq_serial {α β γ : Type} [AddCommMonoid α] [AddCommMonoid γ]
    (p : Nat) (hp : 0 < p) (fftsize width : Nat)
    (td : List (List β → List β)) (pad : List β → List β) (fft : List β → List α)
    (fd : List (List α → List α)) (corr : List (List α) → Nat × Nat → List γ)
    (combis : List (Nat × Nat)) (A : List (List β))
    (hfd : ∀ a ∈ A, (chain fd (fft (pad (chain td a)))).length = fftsize)
    (hcorr : ∀ ij ∈ combis, (corr (specSpectra td pad fft fd A) ij).length = width) :
    pxcorrMatrix p fftsize width (td.map rowStep) pad fft (fd.map rowStep) corr combis A =
      .ok (specCorrelations td pad fft fd corr combis A) := by
  unfold pxcorrMatrix
  rw [mapM_ok _ _ _ (fun r _ => rankSpectra_eq p r fftsize td pad fft fd A)]
  simp only [bind, Except.bind, pure, Except.pure]
  rw [allreduce_owner A p fftsize hp (fun a => chain fd (fft (pad (chain td a)))) hfd]
  simp only [rankCorrelations_eq]
  rw [show List.map (fun a => chain fd (fft (pad (chain td a)))) A = specSpectra td pad fft fd A from rfl]
  rw [allreduce_owner combis p width hp (corr (specSpectra td pad fft fd A)) hcorr]
  rfl

/-- A concrete case of **C02**: three traces, one step that negates, one that
doubles, the pair (0, 2), on 2 processes. -/
example : pxcorrMatrix (α := Int) (β := Int) (γ := Int) 2 2 2
    ([fun a => a.map (- ·)].map rowStep) (fun a => a ++ [0]) (fun a => a)
    ([fun a => a.map (2 * ·)].map rowStep)
    (fun B ij => List.zipWith (· * ·) (B.getD ij.1 []) (B.getD ij.2 [])) [(0, 2), (1, 1)]
    [[1], [2], [3]] = .ok [[12, 0], [16, 0]] := by decide

end SeisMIC
