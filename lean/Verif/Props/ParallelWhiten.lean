import Verif.Props.Parallel
import Verif.Props.Muting
import Verif.Model.Xcorr

/-! # Whitening by several processes: C153

The correlator of `Model/ParallelMatrix.lean` with `spectralWhitening` of
`Model/Amplitude.lean` as a step in the frequency domain.
-/

namespace SeisMIC

noncomputable section

/-! ### specification -/

/-- the whitened spectrum of one trace: unit amplitudes, nothing at frequency zero -/
def whiteRow (row : List ℂ) : List ℂ := (row.map fun z => z / (‖z‖ : ℂ)).set 0 0

/-! ### auxiliary facts -/

theorem whitening_rows (B : List (List ℂ)) (hB : ∀ row ∈ B, ∀ z ∈ row, z ≠ 0) :
    spectralWhitening false B = .ok (B.map whiteRow) := by
  unfold spectralWhitening
  rw [if_neg (by simp)]
  simp only
  rw [if_neg]
  · congr 1
    unfold whitenAbs
    simp only [Bool.false_eq_true, if_false]
    have h1 : ∀ row : List ℂ, List.zipWith (fun (z : ℂ) (a : ℝ) => z / (a : ℂ)) row (row.map fun z => ‖z‖) =
        row.map fun z => z / (‖z‖ : ℂ) := by
      intro row
      induction row with
      | nil => rfl
      | cons z row ih => simp [ih]
    clear hB
    induction B with
    | nil => rfl
    | cons row B ih =>
      simp only [List.map_cons, List.zipWith_cons_cons, h1]
      rw [ih]
      rfl
  · rintro ⟨row, hrow, h0⟩
    simp only [whitenAbs, Bool.false_eq_true, if_false, List.mem_map] at hrow
    obtain ⟨r, hr, rfl⟩ := hrow
    obtain ⟨z, hz, hz0⟩ := List.mem_map.1 h0
    exact hB r hr z hz (norm_eq_zero.1 hz0)

/-- only the rows of the process matter -/
theorem applyOwn_congr {β : Type} (m : List Bool) (f g : List β → Except PyErr (List β)) (A : List β)
    (h : f (selectMask m A) = g (selectMask m A)) : applyOwn m f A = applyOwn m g A := by
  unfold applyOwn
  simp only [h]

theorem mem_selectMask {β : Type} (m : List Bool) (A : List β) (x : β) (hx : x ∈ selectMask m A) :
    ∃ i : Nat, m[i]? = some true ∧ A[i]? = some x := by
  induction m generalizing A with
  | nil => simp [selectMask] at hx
  | cons b m ih =>
    cases A with
    | nil => simp [selectMask] at hx
    | cons a A =>
      cases b with
      | true =>
        simp only [selectMask, List.mem_cons] at hx
        rcases hx with rfl | hx
        · exact ⟨0, rfl, rfl⟩
        · obtain ⟨i, h1, h2⟩ := ih A hx
          exact ⟨i + 1, by simpa using h1, by simpa using h2⟩
      | false =>
        simp only [selectMask] at hx
        obtain ⟨i, h1, h2⟩ := ih A hx
        exact ⟨i + 1, by simpa using h1, by simpa using h2⟩

/-! ### theorems -/

/-- C153: If no coefficient of any spectrum is zero when it is whitened, the correlations of a
processing chain with whitening are, for every number of processes, those of the computation
trace by trace. What is missing are spectra with a coefficient zero
(`c153_silent_violated`) and joint whitening (`c153_joint_violated`). -/
theorem c153_whitening_partial {β γ : Type} [AddCommMonoid γ] (p : Nat) (hp : 0 < p) (fftsize width : Nat)
    (td : List (List β → List β)) (pad : List β → List β) (fft : List β → List ℂ)
    (fd1 fd2 : List (List ℂ → List ℂ)) (corr : List (List ℂ) → Nat × Nat → List γ)
    (combis : List (Nat × Nat)) (A : List (List β))
    (hne : ∀ a ∈ A, ∀ z ∈ chain fd1 (fft (pad (chain td a))), z ≠ 0)
    (hfd : ∀ a ∈ A, (chain (fd1 ++ whiteRow :: fd2) (fft (pad (chain td a)))).length = fftsize)
    (hcorr : ∀ ij ∈ combis, (corr (specSpectra td pad fft (fd1 ++ whiteRow :: fd2) A) ij).length = width) :
    pxcorrMatrix p fftsize width (td.map rowStep) pad fft
        (fd1.map rowStep ++ spectralWhitening false :: fd2.map rowStep) corr combis A =
      .ok (specCorrelations td pad fft (fd1 ++ whiteRow :: fd2) corr combis A) := by
  rw [← c02_parallel_eq_serial p hp fftsize width td pad fft (fd1 ++ whiteRow :: fd2) corr combis A hfd hcorr]
  have hrank : ∀ r, rankSpectra p r fftsize (td.map rowStep) pad fft
      (fd1.map rowStep ++ spectralWhitening false :: fd2.map rowStep) A =
      rankSpectra p r fftsize (td.map rowStep) pad fft ((fd1 ++ whiteRow :: fd2).map rowStep) A := by
    intro r
    unfold rankSpectra
    simp only
    rw [applyAllOwn_rowWise A (length_ownMask _ _ _)]
    simp only [bind, Except.bind, List.map_append, List.map_cons]
    unfold applyAllOwn
    rw [List.foldlM_append, List.foldlM_append]
    have hpre := applyAllOwn_rowWise (m := ownMask A.length p r) (gs := fd1)
      (assignMask (ownMask A.length p r) (List.replicate A.length (List.replicate fftsize (0 : ℂ)))
        ((selectMask (ownMask A.length p r)
          ((List.zipWith (fun b a => if b then chain td a else a) (ownMask A.length p r) A).map pad)).map fft))
      (by rw [assign_own _ _ _ _ _ _ (by simp [length_ownMask])]; simp [length_ownMask])
    unfold applyAllOwn at hpre
    rw [hpre]
    simp only [bind, Except.bind, List.foldlM_cons]
    rw [applyOwn_congr _ (spectralWhitening false) (rowStep whiteRow)]
    rw [whitening_rows]
    · rfl
    · intro row hrow
      obtain ⟨i, hi, hx⟩ := mem_selectMask _ _ _ hrow
      rw [assign_own _ _ _ _ _ _ (by simp [length_ownMask])] at hx
      simp only [List.getElem?_zipWith, hi, List.getElem?_map, List.getElem?_zipIdx, Nat.zero_add] at hx
      have hown : pmap A.length p i = r := by
        unfold ownMask at hi
        rw [List.getElem?_map] at hi
        by_cases hil : i < A.length
        · rw [List.getElem?_range hil] at hi
          simpa using hi
        · rw [List.getElem?_eq_none (by simp; omega)] at hi
          cases hi
      cases ha : A[i]? with
      | none => rw [ha] at hx; simp at hx
      | some a =>
        rw [ha] at hx
        simp only [if_true, Option.map_some, hown, Option.some.injEq] at hx
        rw [← hx]
        exact hne a (List.mem_of_getElem? ha)
  unfold pxcorrMatrix
  simp only [hrank]

/-- C153 is violated: with one process, a trace whose spectrum is zero (a gap) turns off the
whitening of the other trace; with two processes the other trace is whitened. The results of
the two runs are the correlations of different spectra. -/
theorem c153_silent_violated {β γ : Type} [AddCommMonoid γ] (fftsize width : Nat) (fft : List β → List ℂ)
    (corr : List (List ℂ) → Nat × Nat → List γ) (combis : List (Nat × Nat)) (x y : List β)
    (hx : ∀ z ∈ fft x, z ≠ 0) (hy : fft y = List.replicate fftsize 0) (hlen : (fft x).length = fftsize) (hpos : 0 < fftsize)
    (hcorr : ∀ B, ∀ ij ∈ combis, (corr B ij).length = width) :
    pxcorrMatrix 1 fftsize width [] id fft [spectralWhitening false] corr combis [x, y] =
        .ok (combis.map (corr [(fft x).set 0 0, List.replicate fftsize 0])) ∧
      pxcorrMatrix 2 fftsize width [] id fft [spectralWhitening false] corr combis [x, y] =
        .ok (combis.map (corr [whiteRow (fft x), List.replicate fftsize 0])) := by
  have hset : (List.replicate fftsize (0 : ℂ)).set 0 0 = List.replicate fftsize 0 := by
    rw [List.eq_replicate_iff]
    refine ⟨by simp, ?_⟩
    intro b hb
    rcases List.mem_or_eq_of_mem_set hb with h | h
    · exact List.eq_of_mem_replicate h
    · exact h
  have hfin : ∀ (p : Nat) (B : List (List ℂ)), 0 < p →
      allreduceSum ((List.range p).map fun r => rankCorrelations p r width corr combis B) = combis.map (corr B) := by
    intro p B hp
    simp only [rankCorrelations_eq]
    exact allreduce_owner combis p width hp (corr B) (hcorr B)
  constructor
  · have h1 : rankSpectra 1 0 fftsize [] id fft [spectralWhitening false] [x, y] =
        .ok [(fft x).set 0 0, List.replicate fftsize 0] := by
      have hm : ownMask 2 1 0 = [true, true] := by decide
      unfold rankSpectra
      simp only [List.length_cons, List.length_nil, Nat.zero_add, hm, applyAllOwn, List.foldlM_nil, List.foldlM_cons, bind,
        Except.bind, pure, Except.pure, List.replicate_succ, List.replicate_zero, selectMask, List.map_cons, List.map_nil, assignMask,
        applyOwn]
      rw [c77_zero_sample _ ⟨fft y, by simp, by rw [hy]; exact List.mem_replicate.2 ⟨hpos.ne', rfl⟩⟩]
      simp [hset, hy, assignMask]
    unfold pxcorrMatrix
    rw [show List.range 1 = [0] from rfl]
    simp only [List.mapM_cons, List.mapM_nil, h1, bind, Except.bind, pure, Except.pure]
    have := hfin 1 [(fft x).set 0 0, List.replicate fftsize 0] (by omega)
    rw [show List.range 1 = [0] from rfl] at this
    rw [← this]
    rfl
  · have h1 : rankSpectra 2 0 fftsize [] id fft [spectralWhitening false] [x, y] =
        .ok [whiteRow (fft x), List.replicate fftsize 0] := by
      have hm : ownMask 2 2 0 = [true, false] := by decide
      unfold rankSpectra
      simp only [List.length_cons, List.length_nil, Nat.zero_add, hm, applyAllOwn, List.foldlM_nil, List.foldlM_cons, bind,
        Except.bind, pure, Except.pure, List.replicate_succ, List.replicate_zero, selectMask, List.map_cons, List.map_nil, assignMask,
        applyOwn]
      rw [whitening_rows _ (by intro row hr; rw [List.mem_singleton] at hr; subst hr; exact hx)]
      simp [assignMask]
    have h2 : rankSpectra 2 1 fftsize [] id fft [spectralWhitening false] [x, y] =
        .ok [List.replicate fftsize 0, List.replicate fftsize 0] := by
      have hm : ownMask 2 2 1 = [false, true] := by decide
      unfold rankSpectra
      simp only [List.length_cons, List.length_nil, Nat.zero_add, hm, applyAllOwn, List.foldlM_nil, List.foldlM_cons, bind,
        Except.bind, pure, Except.pure, List.replicate_succ, List.replicate_zero, selectMask, List.map_cons, List.map_nil, assignMask,
        applyOwn]
      rw [c77_zero_sample _ ⟨fft y, by simp, by rw [hy]; exact List.mem_replicate.2 ⟨hpos.ne', rfl⟩⟩]
      simp [hset, hy, assignMask]
    unfold pxcorrMatrix
    rw [show List.range 2 = [0, 1] from rfl]
    simp only [List.mapM_cons, List.mapM_nil, h1, h2, bind, Except.bind, pure, Except.pure]
    have hsum : allreduceSum [[whiteRow (fft x), List.replicate fftsize (0 : ℂ)],
        [List.replicate fftsize 0, List.replicate fftsize 0]] = [whiteRow (fft x), List.replicate fftsize 0] := by
      simp only [allreduceSum, List.foldl_cons, List.foldl_nil, matAdd, List.zipWith_cons_cons, List.zipWith_nil_left]
      rw [zipWith_add_zero_right _ _ (by simp [whiteRow, hlen]), zipWith_add_zero_right _ _ (by simp)]
    rw [hsum]
    have := hfin 2 [whiteRow (fft x), List.replicate fftsize 0] (by omega)
    rw [show List.range 2 = [0, 1] from rfl] at this
    rw [← this]

/-- The two results of `c153_silent_violated` differ: the trace `[3, 0]` has the spectrum
`[3, 3]`, and the amplitude at the second frequency is 1 with two processes and 3 with one. -/
example : (∀ z ∈ Xcorr.rfft [3, 0], z ≠ 0) ∧ Xcorr.rfft [0, 0] = List.replicate 2 0 ∧
    (Xcorr.rfft [3, 0]).set 0 0 = [0, 3] ∧ whiteRow (Xcorr.rfft [3, 0]) = [0, 1] := by
  have h : Xcorr.rfft [3, 0] = [3, 3] := by
    simp [Xcorr.rfft, Xcorr.dft, List.range_succ, Finset.sum_range_succ]
  refine ⟨?_, ?_, ?_, ?_⟩
  · rw [h]; intro z hz; simp at hz; subst hz; norm_num
  · simp [Xcorr.rfft, Xcorr.dft, List.range_succ, Finset.sum_range_succ]
  · rw [h]; simp
  · rw [h]; simp [whiteRow]

/-- C153 is violated for joint whitening: the three components of a station are whitened by
one process, but two processes fail. -/
theorem c153_joint_violated {β γ : Type} [AddCommMonoid γ] (fftsize width : Nat) (fft : List β → List ℂ)
    (corr : List (List ℂ) → Nat × Nat → List γ) (combis : List (Nat × Nat)) (x y z : List β) :
    (∃ C, pxcorrMatrix 1 fftsize width [] id fft [spectralWhitening true] corr combis [x, y, z] = .ok C) ∧
      pxcorrMatrix 2 fftsize width [] id fft [spectralWhitening true] corr combis [x, y, z] = .error .assertionError := by
  constructor
  · have hm : ownMask 3 1 0 = [true, true, true] := by decide
    have hw : ∃ a b c, spectralWhitening true [fft x, fft y, fft z] = .ok [a, b, c] := by
      unfold spectralWhitening
      rw [if_neg (by simp)]
      simp only
      have h3 : ∀ B : List (List ℂ), B.length = 3 →
          ∃ a b c, (Except.ok (B.map fun row => row.set 0 0) : Except PyErr (List (List ℂ))) = .ok [a, b, c] := by
        intro B hB
        obtain ⟨a, b, c, rfl⟩ := List.length_eq_three.1 hB
        exact ⟨_, _, _, rfl⟩
      split_ifs
      · exact h3 _ rfl
      · exact h3 _ (by simp [whitenAbs])
    obtain ⟨a, b, c, hw⟩ := hw
    unfold pxcorrMatrix
    rw [show List.range 1 = [0] from rfl]
    simp only [List.mapM_cons, List.mapM_nil]
    unfold rankSpectra
    simp only [List.length_cons, List.length_nil, Nat.zero_add, hm, applyAllOwn, List.foldlM_nil, List.foldlM_cons, bind,
      Except.bind, pure, Except.pure, List.replicate_succ, List.replicate_zero, selectMask, List.map_cons, List.map_nil, assignMask,
      applyOwn, id, hw, if_true]
    exact ⟨_, rfl⟩
  · have hm : ownMask 3 2 0 = [true, true, false] := by decide
    unfold pxcorrMatrix
    rw [show List.range 2 = [0, 1] from rfl]
    simp only [List.mapM_cons]
    have h0 : rankSpectra 2 0 fftsize [] id fft [spectralWhitening true] [x, y, z] = .error .assertionError := by
      unfold rankSpectra
      simp only [List.length_cons, List.length_nil, Nat.zero_add, hm, applyAllOwn, List.foldlM_nil, List.foldlM_cons, bind,
        Except.bind, pure, Except.pure, List.replicate_succ, List.replicate_zero, selectMask, List.map_cons, List.map_nil, assignMask,
        applyOwn]
      rw [c77_joint_rejects _ (by simp)]
    rw [h0]
    rfl

/-- Hypotheses of `c153_whitening_partial`: two traces with the spectra `[3, 3]` and `[1, -1]`. -/
example : pxcorrMatrix (β := ℂ) (γ := ℂ) 2 2 2 [] id id [spectralWhitening false]
    (fun B ij => List.zipWith (· * ·) (B.getD ij.1 [0, 0]) (B.getD ij.2 [0, 0])) [(0, 1)] [[3, 3], [1, -1]] =
    .ok [[0, -1]] := by
  have h := c153_whitening_partial (β := ℂ) (γ := ℂ) 2 (by omega) 2 2 [] id id [] []
    (fun B ij => List.zipWith (· * ·) (B.getD ij.1 [0, 0]) (B.getD ij.2 [0, 0])) [(0, 1)] [[3, 3], [1, -1]]
    (by
      intro a ha z hz
      simp only [List.mem_cons, List.not_mem_nil, or_false] at ha
      rcases ha with rfl | rfl
      · simp [chain] at hz; subst hz; norm_num
      · simp [chain] at hz; rcases hz with rfl | rfl <;> norm_num)
    (by
      intro a ha
      simp only [List.mem_cons, List.not_mem_nil, or_false] at ha
      rcases ha with rfl | rfl <;> simp [chain, whiteRow])
    (by
      intro ij hij
      rw [List.mem_singleton] at hij
      subst hij
      simp [specSpectra, chain, whiteRow])
  refine h.trans ?_
  simp [specCorrelations, specSpectra, chain, whiteRow]

end

end SeisMIC
