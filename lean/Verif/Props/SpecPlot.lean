import Verif.Model.SpecPlot
import Verif.Lemmas.Amplitude
import Verif.Props.Reference
import Verif.Props.TdNorm
import Mathlib.Tactic.Linarith
import Mathlib.Tactic.Ring
import Mathlib.Tactic.NormNum

/-!
# C181: the figure of a spectral time series
-/

namespace SeisMIC

theorem isort_mono (h : ℝ → ℝ) (hh : ∀ a b, a ≤ b ↔ h a ≤ h b) (l : List ℝ) : sortR (l.map h) = (sortR l).map h := by
  have ins : ∀ (a : ℝ) (v : List ℝ), insertSorted (fun a b => decide (a ≤ b)) (h a) (v.map h) = (insertSorted (fun a b => decide (a ≤ b)) a v).map h := by
    intro a v
    induction v with
    | nil => rfl
    | cons b v ih =>
      simp only [List.map_cons, insertSorted]
      by_cases hab : a ≤ b
      · simp [hab, (hh a b).1 hab]
      · have : ¬ h a ≤ h b := fun e => hab ((hh a b).2 e)
        simp [hab, this, ih]
  induction l with
  | nil => rfl
  | cons a l ih =>
    unfold sortR at *
    simp only [List.map_cons, isort]
    rw [ih, ins]

theorem middle_scale (c : ℝ) (v : List ℝ) : middle (v.map (c * ·)) = c * middle v := by
  unfold middle
  have hg : ∀ k, (v.map (c * ·)).getD k 0 = c * v.getD k 0 := by
    intro k
    simp only [List.getD_eq_getElem?_getD, List.getElem?_map]
    cases v[k]? <;> simp
  rw [List.length_map, hg, hg]
  split <;> ring

theorem normDen_cases (method : Str) : (∃ d : List ℝ → ℝ, (∀ v, normDen method v = .ok (d v)) ∧ ∀ (c : ℝ) (v : List ℝ), 0 < c → d (v.map (c * ·)) = c * d v) ∨
    ∀ v, normDen method v = .error .valueError := by
  unfold normDen
  by_cases h1 : method = c!"linalg"
  · refine Or.inl ⟨fun v => Real.sqrt (v.map (· ^ 2)).sum, fun v => if_pos h1, fun c v hc => ?_⟩
    have : ((v.map (c * ·)).map (· ^ 2)) = (v.map (· ^ 2)).map (c ^ 2 * ·) := by
      rw [List.map_map, List.map_map]
      exact List.map_congr_left fun x _ => by simp only [Function.comp]; ring
    simp only
    rw [this, List.sum_map_mul_left, List.map_id', Real.sqrt_mul (sq_nonneg c), Real.sqrt_sq hc.le]
  by_cases h2 : method = c!"mean"
  · refine Or.inl ⟨meanR, fun v => by rw [if_neg h1, if_pos h2], fun c v hc => ?_⟩
    unfold meanR
    rw [List.sum_map_mul_left, List.map_id', List.length_map, mul_div_assoc]
  by_cases h3 : method = c!"median"
  · refine Or.inl ⟨fun v => middle (sortR v), fun v => by rw [if_neg h1, if_neg h2, if_pos h3], fun c v hc => ?_⟩
    simp only
    rw [isort_mono (c * ·) (fun a b => (mul_le_mul_iff_right₀ hc).symm), middle_scale]
  · exact Or.inr fun v => by rw [if_neg h1, if_neg h2, if_neg h3]

theorem mapM_ok_map {α β : Type} (l : List α) (h : α → β) : (l.mapM fun x => (Except.ok (h x) : Except PyErr β)) = .ok (l.map h) := by
  induction l with
  | nil => rfl
  | cons a l ih =>
    rw [List.mapM_cons, ih]
    rfl

theorem cut_map {α β : Type} (i j : Nat) (h : α → β) (l : List α) : cut i j (l.map h) = (cut i j l).map h := by
  unfold cut
  rw [← List.map_take, ← List.map_drop]

theorem cut_zipWith {α β γ : Type} (i j : Nat) (h : α → β → γ) (l : List α) (l' : List β) : cut i j (List.zipWith h l l') = List.zipWith h (cut i j l) (cut i j l') := by
  unfold cut
  rw [List.take_zipWith, List.drop_zipWith]

theorem mem_cut {α : Type} {i j : Nat} {l : List α} {x : α} (h : x ∈ cut i j l) : x ∈ l := List.mem_of_mem_take (List.mem_of_mem_drop h)

theorem length_cut {α β : Type} (i j : Nat) (l : List α) (l' : List β) (h : l.length = l'.length) : (cut i j l).length = (cut i j l').length := by
  simp [cut, h]

/-! ### gains of the times -/

/-- the matrix with another gain for each time -/
noncomputable def timeGain (g : List ℝ) (S : List (List ℝ)) : List (List ℝ) := S.map fun r => List.zipWith (· * ·) g r

theorem specCol_gain (g : List ℝ) (S : List (List ℝ)) (n j : Nat) (hg : g.length = n) (hS : ∀ r ∈ S, r.length = n) (hj : j < n) :
    specCol (timeGain g S) j = (specCol S j).map (g.getD j 0 * ·) := by
  unfold specCol timeGain
  rw [List.map_map, List.map_map]
  refine List.map_congr_left fun r hr => ?_
  have h1 : j < g.length := by omega
  have h2 : j < r.length := by rw [hS r hr]; exact hj
  simp [List.getD_eq_getElem?_getD, h1, h2]

theorem specNorm_time (n : Nat) (g : List ℝ) (S : List (List ℝ)) (method : Str) (hg : g.length = n) (hpos : ∀ x ∈ g, 0 < x) (hS : ∀ r ∈ S, r.length = n) :
    specNorm n (timeGain g S) (some c!"t") method = specNorm n S (some c!"t") method := by
  have htf : c!"t" ≠ c!"f" := by decide
  unfold specNorm
  simp only [if_neg htf, if_true]
  rcases normDen_cases method with ⟨d, hd, hsc⟩ | he
  · simp only [hd, mapM_ok_map, Except.map]
    congr 1
    unfold timeGain
    rw [List.map_map]
    refine List.map_congr_left fun r hr => ?_
    have hr' := hS r hr
    refine List.ext_getElem? fun j => ?_
    simp only [Function.comp, List.getElem?_zipWith, List.getElem?_map]
    by_cases hj : j < n
    · have h1 : j < g.length := by omega
      have h2 : j < r.length := by omega
      rw [List.getElem?_range hj]
      simp only [List.getElem?_eq_getElem h1, List.getElem?_eq_getElem h2, Option.map_some, Option.some.injEq]
      have hc := specCol_gain g S n j hg hS hj
      unfold timeGain at hc
      rw [hc]
      have hgj : g.getD j 0 = g[j] := by simp [List.getD_eq_getElem?_getD, h1]
      have hp : 0 < g[j] := hpos _ (List.getElem_mem h1)
      rw [hgj, hsc _ _ hp, mul_div_mul_left _ _ hp.ne']
    · have h1 : g[j]? = none := List.getElem?_eq_none (by omega)
      have h2 : r[j]? = none := List.getElem?_eq_none (by omega)
      simp [h1, h2]
  · cases n with
    | zero =>
      have : ∀ r ∈ S, r = [] := fun r hr => List.length_eq_zero_iff.1 (hS r hr)
      have hg0 : g = [] := List.length_eq_zero_iff.1 hg
      simp only [List.range_zero, List.mapM_nil, pure, Except.pure, Except.map]
      congr 1
      unfold timeGain
      rw [List.map_map]
      refine List.map_congr_left fun r hr => ?_
      simp [this r hr]
    | succ n =>
      rw [List.range_succ_eq_map]
      simp only [List.mapM_cons, he]
      rfl

/-- **C181** (part) With the normalisation of the times (`norm='t'`) the figure does not depend on the amplitude of the
single times: other positive gains for the times give the same figure, for each method and each choice of limits. -/
theorem c181_time_gain (S : List (List ℝ)) (f t : List ℝ) (method : Str) (flim tlim : Option (ℝ × ℝ)) (g : List ℝ)
    (hg : g.length = t.length) (hpos : ∀ x ∈ g, 0 < x) (hS : ∀ r ∈ S, r.length = t.length) :
    plotSpct (timeGain g S) f t (some c!"t") method flim tlim = plotSpct S f t (some c!"t") method flim tlim := by
  have key : ∀ (S : List (List ℝ)) (f' : List ℝ), (∀ r ∈ S, r.length = t.length) → ∀ t' S' S'',
      (match tlim with | some (lo, hi) => (cut (closestReal t lo) (closestReal t hi) t, (timeGain g S).map (cut (closestReal t lo) (closestReal t hi))) | none => (t, timeGain g S)) = (t', S') →
      (match tlim with | some (lo, hi) => (cut (closestReal t lo) (closestReal t hi) t, S.map (cut (closestReal t lo) (closestReal t hi))) | none => (t, S)) = (t', S'') →
      specNorm t'.length S' (some c!"t") method = specNorm t'.length S'' (some c!"t") method := by
    intro S f' hS t' S' S'' h1 h2
    cases tlim with
    | none =>
      simp only [Prod.mk.injEq] at h1 h2
      obtain ⟨rfl, rfl⟩ := h1
      obtain ⟨_, rfl⟩ := h2
      exact specNorm_time _ g S method hg hpos hS
    | some p =>
      obtain ⟨lo, hi⟩ := p
      simp only [Prod.mk.injEq] at h1 h2
      obtain ⟨rfl, rfl⟩ := h1
      obtain ⟨_, rfl⟩ := h2
      have : (timeGain g S).map (cut (closestReal t lo) (closestReal t hi)) = timeGain (cut (closestReal t lo) (closestReal t hi) g) (S.map (cut (closestReal t lo) (closestReal t hi))) := by
        unfold timeGain
        rw [List.map_map, List.map_map]
        exact List.map_congr_left fun r _ => by simp only [Function.comp, cut_zipWith]
      rw [this]
      refine specNorm_time _ _ _ method (length_cut _ _ _ _ hg) (fun x hx => hpos x (mem_cut hx)) (fun r hr => ?_)
      obtain ⟨r', hr', rfl⟩ := List.mem_map.1 hr
      exact length_cut _ _ _ _ (hS r' hr')
  have hcut : ∀ i j, cut i j (timeGain g S) = timeGain g (cut i j S) := fun i j => cut_map _ _ _ _
  unfold plotSpct
  cases flim with
  | none =>
    simp only [bind, Except.bind]
    cases tlim with
    | none => simp only [key S f hS _ _ _ rfl rfl]
    | some p => simp only [key S f hS _ _ _ rfl rfl]
  | some q =>
    obtain ⟨a, b⟩ := q
    simp only [hcut, bind, Except.bind]
    have hS' : ∀ r ∈ cut (closestReal f a) (closestReal f b + 1) S, r.length = t.length := fun r hr => hS r (mem_cut hr)
    cases tlim with
    | none => simp only [key _ f hS' _ _ _ rfl rfl]
    | some p => simp only [key _ f hS' _ _ _ rfl rfl]

/-! ### gains of the frequencies -/

/-- the matrix with another gain for each frequency, e.g. another instrument response -/
noncomputable def freqGain (g : List ℝ) (S : List (List ℝ)) : List (List ℝ) := List.zipWith (fun c r => r.map (c * ·)) g S

theorem specNorm_freq (n : Nat) (g : List ℝ) (S : List (List ℝ)) (method : Str) (hg : g.length = S.length) (hpos : ∀ x ∈ g, 0 < x) :
    specNorm n (freqGain g S) (some c!"f") method = specNorm n S (some c!"f") method := by
  unfold specNorm
  simp only [if_true]
  rcases normDen_cases method with ⟨d, hd, hsc⟩ | he
  · simp only [hd, mapM_ok_map, Except.map]
    congr 1
    unfold freqGain
    induction g generalizing S with
    | nil => rw [List.length_eq_zero_iff.1 hg.symm]; rfl
    | cons c g ih =>
      cases S with
      | nil => simp at hg
      | cons r S =>
        have hc := hpos c (by simp)
        rw [List.zipWith_cons_cons, List.map_cons, List.map_cons, ih S (by simpa using hg) (fun x hx => hpos x (by simp [hx]))]
        congr 1
        rw [hsc c r hc, List.map_map]
        refine List.map_congr_left fun x _ => ?_
        simp only [Function.comp]
        rw [mul_div_mul_left _ _ hc.ne']
  · simp only [he, Except.map]
    cases g with
    | nil => rw [List.length_eq_zero_iff.1 hg.symm]; rfl
    | cons c g =>
      cases S with
      | nil => simp at hg
      | cons r S => rfl

/-- **C181** (part) With the normalisation of the frequencies (`norm='f'`) the figure does not depend on the amplitude of
the single frequencies: other positive gains for the frequencies, such as another instrument response, give the same figure. -/
theorem c181_frequency_gain (S : List (List ℝ)) (f t : List ℝ) (method : Str) (flim tlim : Option (ℝ × ℝ)) (g : List ℝ)
    (hg : g.length = S.length) (hpos : ∀ x ∈ g, 0 < x) :
    plotSpct (freqGain g S) f t (some c!"f") method flim tlim = plotSpct S f t (some c!"f") method flim tlim := by
  have hcut : ∀ i j, cut i j (freqGain g S) = freqGain (cut i j g) (cut i j S) := fun i j => cut_zipWith _ _ _ _ _
  have hmap : ∀ i j (g : List ℝ) (S : List (List ℝ)), (freqGain g S).map (cut i j) = freqGain g (S.map (cut i j)) := by
    intro i j g S
    unfold freqGain
    rw [List.map_zipWith, List.zipWith_map_right]
    congr 1
    funext c r
    exact cut_map _ _ _ _
  have key : ∀ (n i j : Nat), specNorm n (freqGain (cut i j g) (cut i j S)) (some c!"f") method = specNorm n (cut i j S) (some c!"f") method :=
    fun n i j => specNorm_freq n _ _ method (length_cut _ _ _ _ hg) fun x hx => hpos x (mem_cut hx)
  have key2 : ∀ (n i j i' j' : Nat), specNorm n (freqGain (cut i j g) ((cut i j S).map (cut i' j'))) (some c!"f") method = specNorm n ((cut i j S).map (cut i' j')) (some c!"f") method :=
    fun n i j i' j' => specNorm_freq n _ _ method (by rw [List.length_map]; exact length_cut _ _ _ _ hg) fun x hx => hpos x (mem_cut hx)
  have key3 : ∀ (n i' j' : Nat), specNorm n (freqGain g (S.map (cut i' j'))) (some c!"f") method = specNorm n (S.map (cut i' j')) (some c!"f") method :=
    fun n i' j' => specNorm_freq n _ _ method (by rw [List.length_map]; exact hg) hpos
  unfold plotSpct
  cases flim with
  | none =>
    cases tlim with
    | none => simp only [specNorm_freq _ g S method hg hpos]
    | some p => simp only [hmap, key3]
  | some q =>
    obtain ⟨a, b⟩ := q
    cases tlim with
    | none => simp only [hcut, key]
    | some p => simp only [hcut, hmap, key2]

/-! ### one gain for all -/

theorem flatten_scale (c : ℝ) (S : List (List ℝ)) : (S.map fun r => r.map (c * ·)).flatten = S.flatten.map (c * ·) := by
  rw [List.map_flatten]

/-- the matrix with another unit -/
noncomputable def allGain (c : ℝ) (S : List (List ℝ)) : List (List ℝ) := S.map fun r => r.map (c * ·)

theorem specNorm_all (n : Nat) (c : ℝ) (hc : 0 < c) (S : List (List ℝ)) (norm : Option Str) (method : Str) (hS : ∀ r ∈ S, r.length = n) :
    specNorm n (allGain c S) norm method = specNorm n S norm method ∨ (norm = none ∧ specNorm n (allGain c S) norm method = .ok (allGain c S) ∧ specNorm n S norm method = .ok S) := by
  cases norm with
  | none => exact Or.inr ⟨rfl, rfl, rfl⟩
  | some k =>
    left
    by_cases hf : k = c!"f"
    · subst hf
      have : allGain c S = freqGain (List.replicate S.length c) S := by
        unfold allGain freqGain
        clear hS
        induction S with
        | nil => rfl
        | cons r S ih => rw [List.map_cons, ih]; rfl
      rw [this]
      exact specNorm_freq n _ S method (by simp) (fun x hx => by rw [List.eq_of_mem_replicate hx]; exact hc)
    · by_cases ht : k = c!"t"
      · subst ht
        have : allGain c S = timeGain (List.replicate n c) S := by
          unfold allGain timeGain
          refine List.map_congr_left fun r hr => ?_
          rw [← hS r hr]
          clear hr hS
          induction r with
          | nil => rfl
          | cons x r ih => rw [List.map_cons, ih]; rfl
        rw [this]
        exact specNorm_time n _ S method (by simp) (fun x hx => by rw [List.eq_of_mem_replicate hx]; exact hc) hS
      · unfold specNorm
        simp only [if_neg hf, if_neg ht]

theorem finish_all (c : ℝ) (hc : 0 < c) (S : List (List ℝ)) (f t : List ℝ) :
    specShown f t (allGain c S) = specShown f t S := by
  unfold specShown allGain
  rw [flatten_scale, maxR_scale c hc.le]
  cases maxR S.flatten with
  | none => rfl
  | some m =>
    simp only [Option.map_some, List.map_map]
    congr 3
    refine List.map_congr_left fun r _ => ?_
    simp only [Function.comp, List.map_map]
    refine List.map_congr_left fun x _ => ?_
    simp only [Function.comp]
    rw [mul_div_mul_left _ _ hc.ne']

/-- **C181** (part) The figure does not depend on the unit of the spectra: multiplying all values with the same positive
number gives the same figure, with and without normalisation and for each choice of limits. -/
theorem c181_unit (S : List (List ℝ)) (f t : List ℝ) (norm : Option Str) (method : Str) (flim tlim : Option (ℝ × ℝ)) (c : ℝ) (hc : 0 < c)
    (hS : ∀ r ∈ S, r.length = t.length) : plotSpct (allGain c S) f t norm method flim tlim = plotSpct S f t norm method flim tlim := by
  have key : ∀ (S : List (List ℝ)) (f t : List ℝ), (∀ r ∈ S, r.length = t.length) →
      ((specNorm t.length (allGain c S) norm method).bind (specShown f t)) =
        (specNorm t.length S norm method).bind (specShown f t) := by
    intro S f t hS
    rcases specNorm_all t.length c hc S norm method hS with h | ⟨_, h1, h2⟩
    · rw [h]
    · rw [h1, h2]
      exact finish_all c hc S f t
  have hcut : ∀ i j (S : List (List ℝ)), cut i j (allGain c S) = allGain c (cut i j S) := fun i j S => cut_map _ _ _ _
  have hmap : ∀ i j (S : List (List ℝ)), (allGain c S).map (cut i j) = allGain c (S.map (cut i j)) := by
    intro i j S
    unfold allGain
    rw [List.map_map, List.map_map]
    exact List.map_congr_left fun r _ => cut_map _ _ _ _
  have hlen : ∀ i j (S : List (List ℝ)), (∀ r ∈ S, r.length = t.length) → ∀ r ∈ S.map (cut i j), r.length = (cut i j t).length := by
    intro i j S hS r hr
    obtain ⟨r', hr', rfl⟩ := List.mem_map.1 hr
    exact length_cut _ _ _ _ (hS r' hr')
  unfold plotSpct
  simp only [bind]
  cases flim with
  | none =>
    cases tlim with
    | none => exact key S f t hS
    | some p => simp only [hmap]; exact key _ f _ (hlen _ _ S hS)
  | some q =>
    obtain ⟨a, b⟩ := q
    have hS' : ∀ r ∈ cut (closestReal f a) (closestReal f b + 1) S, r.length = t.length := fun r hr => hS r (mem_cut hr)
    cases tlim with
    | none => simp only [hcut]; exact key _ _ t hS'
    | some p => simp only [hcut, hmap]; exact key _ _ _ (hlen _ _ _ hS')

theorem plotSpct_form (S : List (List ℝ)) (f t : List ℝ) (norm : Option Str) (method : Str) (flim tlim : Option (ℝ × ℝ)) (f' t' : List ℝ) (P : List (List ℝ))
    (h : plotSpct S f t norm method flim tlim = .ok (f', t', P)) :
    f' = (match flim with | some (a, b) => cut (closestReal f a) (closestReal f b + 1) f | none => f) ∧
    t' = (match tlim with | some (a, b) => cut (closestReal t a) (closestReal t b) t | none => t) ∧
    ∃ (S1 N : List (List ℝ)) (m : ℝ), (∀ r ∈ S1, ∀ x ∈ r, ∃ r0 ∈ S, x ∈ r0) ∧ specNorm t'.length S1 norm method = .ok N ∧ maxR N.flatten = some m ∧
      P = N.map fun r => r.map (· / m) := by
  have key : ∀ (f1 t1 : List ℝ) (S1 : List (List ℝ)),
      ((specNorm t1.length S1 norm method).bind (specShown f1 t1)) = .ok (f', t', P) →
      f' = f1 ∧ t' = t1 ∧ ∃ (N : List (List ℝ)) (m : ℝ), specNorm t'.length S1 norm method = .ok N ∧ maxR N.flatten = some m ∧ P = N.map fun r => r.map (· / m) := by
    intro f1 t1 S1 h
    cases hN : specNorm t1.length S1 norm method with
    | error e => rw [hN] at h; cases h
    | ok N =>
      rw [hN] at h
      simp only [Except.bind, specShown] at h
      cases hm : maxR N.flatten with
      | none => rw [hm] at h; cases h
      | some m =>
        rw [hm] at h
        simp only [Except.ok.injEq, Prod.mk.injEq] at h
        obtain ⟨rfl, rfl, rfl⟩ := h
        exact ⟨rfl, rfl, N, m, hN, hm, rfl⟩
  unfold plotSpct at h
  simp only [bind] at h
  cases flim with
  | none =>
    cases tlim with
    | none =>
      obtain ⟨h1, h2, N, m, h3⟩ := key _ _ _ h
      exact ⟨h1, h2, _, N, m, fun r hr x hx => ⟨r, hr, hx⟩, h3⟩
    | some p =>
      obtain ⟨h1, h2, N, m, h3⟩ := key _ _ _ h
      refine ⟨h1, h2, _, N, m, fun r hr x hx => ?_, h3⟩
      obtain ⟨r0, hr0, rfl⟩ := List.mem_map.1 hr
      exact ⟨r0, hr0, mem_cut hx⟩
  | some q =>
    obtain ⟨a, b⟩ := q
    cases tlim with
    | none =>
      obtain ⟨h1, h2, N, m, h3⟩ := key _ _ _ h
      exact ⟨h1, h2, _, N, m, fun r hr x hx => ⟨r, mem_cut hr, hx⟩, h3⟩
    | some p =>
      obtain ⟨h1, h2, N, m, h3⟩ := key _ _ _ h
      refine ⟨h1, h2, _, N, m, fun r hr x hx => ?_, h3⟩
      obtain ⟨r0, hr0, rfl⟩ := List.mem_map.1 hr
      exact ⟨r0, mem_cut hr0, mem_cut hx⟩

theorem getD_nonneg (v : List ℝ) (h : ∀ x ∈ v, 0 ≤ x) (k : Nat) : 0 ≤ v.getD k 0 := by
  rw [List.getD_eq_getElem?_getD]
  cases hk : v[k]? with
  | none => simp
  | some x => exact h x (List.mem_of_getElem? hk)

theorem normDen_nonneg (method : Str) (v : List ℝ) (h : ∀ x ∈ v, 0 ≤ x) (d : ℝ) (hd : normDen method v = .ok d) : 0 ≤ d := by
  unfold normDen at hd
  split at hd
  · cases hd; exact Real.sqrt_nonneg _
  split at hd
  · cases hd; exact div_nonneg (List.sum_nonneg h) (Nat.cast_nonneg _)
  split at hd
  · cases hd
    have hs : ∀ x ∈ sortR v, 0 ≤ x := fun x hx => h x ((sortR_perm v).subset hx)
    unfold middle
    have := getD_nonneg _ hs
    split
    · exact this _
    · exact div_nonneg (add_nonneg (this _) (this _)) (by norm_num)
  · cases hd

theorem mapM_mem {α β : Type} (g : α → Except PyErr β) (l : List α) (l' : List β) (h : l.mapM g = .ok l') : ∀ y ∈ l', ∃ x ∈ l, g x = .ok y := by
  induction l generalizing l' with
  | nil => cases h; simp
  | cons a l ih =>
    rw [List.mapM_cons] at h
    cases ha : g a with
    | error e => rw [ha] at h; cases h
    | ok b =>
      rw [ha] at h
      cases hl : l.mapM g with
      | error e => rw [hl] at h; cases h
      | ok l1 =>
        rw [hl] at h
        cases h
        intro y hy
        rcases List.mem_cons.1 hy with rfl | hy
        · exact ⟨a, by simp, ha⟩
        · obtain ⟨x, hx, hxy⟩ := ih l1 hl y hy
          exact ⟨x, by simp [hx], hxy⟩

theorem specNorm_nonneg (n : Nat) (S N : List (List ℝ)) (norm : Option Str) (method : Str) (hS : ∀ r ∈ S, ∀ x ∈ r, 0 ≤ x) (h : specNorm n S norm method = .ok N) :
    ∀ r ∈ N, ∀ x ∈ r, 0 ≤ x := by
  unfold specNorm at h
  cases norm with
  | none => cases h; exact hS
  | some k =>
    simp only at h
    split at h
    · intro r hr x hx
      obtain ⟨r0, hr0, he⟩ := mapM_mem _ _ _ h r hr
      cases hd : normDen method r0 with
      | error e => rw [hd] at he; cases he
      | ok d =>
        rw [hd] at he
        cases he
        obtain ⟨y, hy, rfl⟩ := List.mem_map.1 hx
        exact div_nonneg (hS r0 hr0 y hy) (normDen_nonneg method r0 (hS r0 hr0) d hd)
    · split at h
      · cases hds : (List.range n).mapM fun j => normDen method (specCol S j) with
        | error e => rw [hds] at h; cases h
        | ok ds =>
          rw [hds] at h
          cases h
          intro r hr x hx
          obtain ⟨r0, hr0, rfl⟩ := List.mem_map.1 hr
          obtain ⟨i, hi, rfl⟩ := List.getElem_of_mem hx
          rw [List.getElem_zipWith]
          have hi2 : i < ds.length := by rw [List.length_zipWith] at hi; omega
          obtain ⟨j, _, hj⟩ := mapM_mem _ _ _ hds ds[i] (List.getElem_mem hi2)
          refine div_nonneg (hS r0 hr0 _ (List.getElem_mem _)) (normDen_nonneg method _ (fun x hx => ?_) _ hj)
          obtain ⟨r1, hr1, rfl⟩ := List.mem_map.1 hx
          exact getD_nonneg r1 (hS r1 hr1) j
      · cases h

/-- **C181** (part) The values that are shown for energies, which are not negative: they are between 0 and 1, and 1 occurs,
unless all are 0. -/
theorem c181_one (S : List (List ℝ)) (f t : List ℝ) (norm : Option Str) (method : Str) (flim tlim : Option (ℝ × ℝ)) (f' t' : List ℝ) (P : List (List ℝ))
    (h : plotSpct S f t norm method flim tlim = .ok (f', t', P)) (hS : ∀ r ∈ S, ∀ x ∈ r, 0 ≤ x) (hpos : ∃ x ∈ P.flatten, x ≠ 0) :
    (∀ x ∈ P.flatten, 0 ≤ x ∧ x ≤ 1) ∧ 1 ∈ P.flatten := by
  obtain ⟨_, _, S1, N, m, h1, h2, h3, rfl⟩ := plotSpct_form S f t norm method flim tlim f' t' P h
  have hN := specNorm_nonneg _ S1 N norm method (fun r hr x hx => by
    obtain ⟨r0, hr0, hx0⟩ := h1 r hr x hx
    exact hS r0 hr0 x hx0) h2
  obtain ⟨m1, m2⟩ := maxR_spec _ _ h3
  have hfl : ∀ x ∈ N.flatten, 0 ≤ x := by
    intro x hx
    obtain ⟨r, hr, hxr⟩ := List.mem_flatten.1 hx
    exact hN r hr x hxr
  have e : (N.map fun r => r.map (· / m)).flatten = N.flatten.map (· / m) := by rw [List.map_flatten]
  rw [e] at hpos ⊢
  have hm : 0 < m := by
    refine lt_of_le_of_ne (hfl m m1) fun hm => ?_
    obtain ⟨x, hx, hx0⟩ := hpos
    obtain ⟨y, _, rfl⟩ := List.mem_map.1 hx
    rw [← hm, div_zero] at hx0
    exact hx0 rfl
  refine ⟨fun x hx => ?_, List.mem_map.2 ⟨m, m1, div_self hm.ne'⟩⟩
  obtain ⟨y, hy, rfl⟩ := List.mem_map.1 hx
  exact ⟨div_nonneg (hfl y hy) hm.le, (div_le_one hm).2 (m2 y hy)⟩

/-- **C181** (part) Unknown normalisations are errors: with rows that are not empty there is no figure for another method
than `linalg`, `mean` and `median`, nor for another normalisation than `f` and `t`. -/
theorem c181_unknown (S : List (List ℝ)) (f t : List ℝ) (k method : Str) (hS : S ≠ []) (ht : t ≠ [])
    (hk : (k ≠ c!"f" ∧ k ≠ c!"t") ∨ (method ≠ c!"linalg" ∧ method ≠ c!"mean" ∧ method ≠ c!"median")) :
    plotSpct S f t (some k) method none none = .error .valueError := by
  have : specNorm t.length S (some k) method = .error .valueError := by
    unfold specNorm
    have he : (method ≠ c!"linalg" ∧ method ≠ c!"mean" ∧ method ≠ c!"median") → ∀ v, normDen method v = .error .valueError := by
      rintro ⟨a, b, c⟩ v
      unfold normDen
      rw [if_neg a, if_neg b, if_neg c]
    by_cases hf : k = c!"f"
    · rcases hk with hk | hk
      · exact absurd hf hk.1
      · simp only [if_pos hf, he hk]
        cases S with
        | nil => exact absurd rfl hS
        | cons r S => rfl
    · by_cases htt : k = c!"t"
      · rcases hk with hk | hk
        · exact absurd htt hk.2
        · simp only [if_neg hf, if_pos htt, he hk]
          cases t with
          | nil => exact absurd rfl ht
          | cons x t => rw [List.length_cons, List.range_succ_eq_map]; rfl
      · simp only [if_neg hf, if_neg htt]
  unfold plotSpct
  simp only [this, bind, Except.bind]

/-! ### limits of the axes -/

theorem argminReal_spec (l : List ℝ) (hl : l ≠ []) :
    argminReal l < l.length ∧ (∀ x ∈ l, l.getD (argminReal l) 0 ≤ x) ∧ ∀ k, k < argminReal l → l.getD (argminReal l) 0 < l.getD k 0 := by
  match l with
  | [] => exact absurd rfl hl
  | [a] => simp [argminReal]
  | a :: b :: l =>
    obtain ⟨h1, h2, h3⟩ := argminReal_spec (b :: l) (by simp)
    rw [argminReal]
    by_cases h : a ≤ (b :: l).getD (argminReal (b :: l)) 0
    · rw [if_pos h]
      refine ⟨by simp, fun x hx => ?_, fun k hk => absurd hk (by omega)⟩
      rcases List.mem_cons.1 hx with rfl | hx
      · simp
      · exact (show (a :: b :: l).getD 0 0 = a by rfl).le.trans (h.trans (h2 x hx))
    · rw [if_neg h]
      have e : (a :: b :: l).getD (argminReal (b :: l) + 1) 0 = (b :: l).getD (argminReal (b :: l)) 0 := rfl
      rw [e]
      refine ⟨by simpa using h1, fun x hx => ?_, fun k hk => ?_⟩
      · rcases List.mem_cons.1 hx with rfl | hx
        · exact (not_le.1 h).le
        · exact h2 x hx
      · cases k with
        | zero => exact not_le.1 h
        | succ k => exact h3 k (by omega)

theorem closestReal_spec (l : List ℝ) (x : ℝ) (hl : l ≠ []) :
    closestReal l x < l.length ∧ (∀ y ∈ l, |l.getD (closestReal l x) 0 - x| ≤ |y - x|) ∧
      ∀ k, k < closestReal l x → |l.getD (closestReal l x) 0 - x| < |l.getD k 0 - x| := by
  obtain ⟨h1, h2, h3⟩ := argminReal_spec (l.map fun y => |y - x|) (by simpa using hl)
  rw [List.length_map] at h1
  have e : ∀ k, k < l.length → (l.map fun y => |y - x|).getD k 0 = |l.getD k 0 - x| := by
    intro k hk
    simp [List.getD_eq_getElem?_getD, hk]
  refine ⟨h1, fun y hy => ?_, fun k hk => ?_⟩
  · have := h2 _ (List.mem_map_of_mem (f := fun y => |y - x|) hy)
    rwa [e _ h1] at this
  · have := h3 k hk
    rwa [e _ h1, e k (lt_trans hk h1)] at this

theorem closest_mono (l : List ℝ) (hs : l.Pairwise (· < ·)) (hl : l ≠ []) (lo hi : ℝ) (h : lo ≤ hi) : closestReal l lo ≤ closestReal l hi := by
  by_contra hc
  push Not at hc
  obtain ⟨a1, a2, a3⟩ := closestReal_spec l lo hl
  obtain ⟨b1, b2, b3⟩ := closestReal_spec l hi hl
  have h1 := a3 _ hc
  have e : ∀ k (hk : k < l.length), l.getD k 0 = l[k] := by
    intro k hk
    simp [List.getD_eq_getElem?_getD, hk]
  have h2 := b2 _ (List.getElem_mem a1)
  have h3 := List.pairwise_iff_getElem.1 hs _ _ b1 a1 hc
  rw [e _ a1, e _ b1] at h1
  rw [e _ b1] at h2
  obtain ⟨p, hp⟩ : ∃ p, p = l[closestReal l lo] := ⟨_, rfl⟩
  obtain ⟨q, hq⟩ : ∃ q, q = l[closestReal l hi] := ⟨_, rfl⟩
  rw [← hp, ← hq] at h1 h2 h3
  rw [← sq_lt_sq] at h1
  rw [← sq_le_sq] at h2
  nlinarith

theorem mem_cut_iff {α : Type} (i j : Nat) (l : List α) (x : α) : x ∈ cut i j l ↔ ∃ k : Nat, i ≤ k ∧ k < j ∧ l[k]? = some x := by
  unfold cut
  rw [List.mem_iff_getElem?]
  constructor
  · rintro ⟨k, hk⟩
    rw [List.getElem?_drop, List.getElem?_take] at hk
    split at hk
    · exact ⟨i + k, by omega, by assumption, hk⟩
    · cases hk
  · rintro ⟨k, h1, h2, h3⟩
    refine ⟨k - i, ?_⟩
    rw [List.getElem?_drop, List.getElem?_take, show i + (k - i) = k by omega, if_pos h2]
    exact h3

/-- **C181** (part) Limits of the frequency, for increasing frequencies: the frequencies that are closest to the limits are
shown, and with them all frequencies between the limits. -/
theorem c181_frequency_limits (S : List (List ℝ)) (f t : List ℝ) (norm : Option Str) (method : Str) (lo hi : ℝ) (tlim : Option (ℝ × ℝ)) (f' t' : List ℝ) (P : List (List ℝ))
    (h : plotSpct S f t norm method (some (lo, hi)) tlim = .ok (f', t', P)) (hf : f.Pairwise (· < ·)) (hne : f ≠ []) (hle : lo ≤ hi) :
    (∃ a ∈ f', ∀ y ∈ f, |a - lo| ≤ |y - lo|) ∧ (∃ b ∈ f', ∀ y ∈ f, |b - hi| ≤ |y - hi|) ∧ ∀ y ∈ f, lo ≤ y → y ≤ hi → y ∈ f' := by
  obtain ⟨h1, _⟩ := plotSpct_form S f t norm method (some (lo, hi)) tlim f' t' P h
  simp only at h1
  have hm := closest_mono f hf hne lo hi hle
  obtain ⟨a1, a2, a3⟩ := closestReal_spec f lo hne
  obtain ⟨b1, b2, b3⟩ := closestReal_spec f hi hne
  have e : ∀ k (hk : k < f.length), f.getD k 0 = f[k] := by
    intro k hk
    simp [List.getD_eq_getElem?_getD, hk]
  rw [e _ a1] at a2 a3
  rw [e _ b1] at b2 b3
  subst h1
  refine ⟨⟨_, (mem_cut_iff _ _ _ _).2 ⟨closestReal f lo, le_rfl, by omega, List.getElem?_eq_getElem a1⟩, a2⟩,
    ⟨_, (mem_cut_iff _ _ _ _).2 ⟨closestReal f hi, hm, by omega, List.getElem?_eq_getElem b1⟩, b2⟩, fun y hy hly hyh => ?_⟩
  obtain ⟨k, hk, rfl⟩ := List.getElem_of_mem hy
  refine (mem_cut_iff _ _ _ _).2 ⟨k, ?_, ?_, List.getElem?_eq_getElem hk⟩
  · by_contra hc
    push Not at hc
    have := a3 k hc
    rw [e k hk] at this
    have h3 := List.pairwise_iff_getElem.1 hf _ _ hk a1 hc
    rw [abs_of_nonneg (by linarith), abs_of_nonneg (by linarith)] at this
    linarith
  · by_contra hc
    push Not at hc
    have := b2 _ hy
    have h3 := List.pairwise_iff_getElem.1 hf _ _ b1 hk (by omega)
    rw [abs_of_nonpos (by linarith), abs_of_nonpos (by linarith)] at this
    linarith

/-- **C181** (part) Limits of the time, for increasing times: all times between the limits are shown, except the last one.
Missing for the full property: `c181_time_limits_violated`. -/
theorem c181_time_limits_partial (S : List (List ℝ)) (f t : List ℝ) (norm : Option Str) (method : Str) (lo hi : ℝ) (flim : Option (ℝ × ℝ)) (f' t' : List ℝ) (P : List (List ℝ))
    (h : plotSpct S f t norm method flim (some (lo, hi)) = .ok (f', t', P)) (ht : t.Pairwise (· < ·)) (hne : t ≠ []) :
    ∀ y ∈ t, lo ≤ y → (∃ b ∈ t, y < b ∧ b ≤ hi) → y ∈ t' := by
  obtain ⟨_, h1, _⟩ := plotSpct_form S f t norm method flim (some (lo, hi)) f' t' P h
  simp only at h1
  obtain ⟨a1, a2, a3⟩ := closestReal_spec t lo hne
  obtain ⟨b1, b2, b3⟩ := closestReal_spec t hi hne
  have e : ∀ k (hk : k < t.length), t.getD k 0 = t[k] := by
    intro k hk
    simp [List.getD_eq_getElem?_getD, hk]
  rw [e _ a1] at a2 a3
  rw [e _ b1] at b2 b3
  subst h1
  rintro y hy hly ⟨b, hb, hyb, hbh⟩
  obtain ⟨k, hk, rfl⟩ := List.getElem_of_mem hy
  refine (mem_cut_iff _ _ _ _).2 ⟨k, ?_, ?_, List.getElem?_eq_getElem hk⟩
  · by_contra hc
    push Not at hc
    have := a3 k hc
    rw [e k hk] at this
    have h3 := List.pairwise_iff_getElem.1 ht _ _ hk a1 hc
    rw [abs_of_nonneg (by linarith), abs_of_nonneg (by linarith)] at this
    linarith
  · by_contra hc
    push Not at hc
    have h5 := b2 _ hb
    have h6 : t[closestReal t hi] ≤ t[k] := by
      rcases Nat.lt_or_ge (closestReal t hi) k with h | h
      · exact (List.pairwise_iff_getElem.1 ht _ _ b1 hk h).le
      · have : closestReal t hi = k := by omega
        simp only [this]; exact le_rfl
    rw [abs_of_nonpos (by linarith), abs_of_nonpos (by linarith)] at h5
    linarith

/-- **C181** (negation of a part) The time that is closest to the upper limit is not shown: with the first and the last time
as limits the last spectrum is missing in the figure. -/
theorem c181_time_limits_violated (S : List (List ℝ)) (f t : List ℝ) (norm : Option Str) (method : Str) (lo hi : ℝ) (flim : Option (ℝ × ℝ)) (f' t' : List ℝ) (P : List (List ℝ))
    (h : plotSpct S f t norm method flim (some (lo, hi)) = .ok (f', t', P)) (hhi : hi ∈ t) : hi ∉ t' := by
  obtain ⟨_, h1, _⟩ := plotSpct_form S f t norm method flim (some (lo, hi)) f' t' P h
  simp only at h1
  obtain ⟨b1, b2, b3⟩ := closestReal_spec t hi (List.ne_nil_of_mem hhi)
  subst h1
  intro hm
  obtain ⟨k, hk1, hk2, hk3⟩ := (mem_cut_iff _ _ _ _).1 hm
  have h4 := b3 k hk2
  rw [List.getD_eq_getElem?_getD (i := k), hk3, Option.getD_some, sub_self, abs_zero] at h4
  exact absurd h4 (not_lt.2 (abs_nonneg _))

/-- a figure: two frequencies, three times -/
example : plotSpct [[1, 2, 1], [2, 4, 2]] [5, 6] [10, 20, 30] none [] none none = .ok ([5, 6], [10, 20, 30], [[1/4, 1/2, 1/4], [1/2, 1, 1/2]]) := by
  simp [plotSpct, specNorm, specShown, maxR, bind, Except.bind]
  norm_num

/-- with the times 10 and 20 as limits only the time 10 is shown -/
example : plotSpct [[1, 2, 1], [2, 4, 2]] [5, 6] [10, 20, 30] none [] none (some (10, 20)) = .ok ([5, 6], [10], [[1/2], [1]]) := by
  have h1 : closestReal [10, 20, 30] 10 = 0 := by
    simp only [closestReal, argminReal, List.map_cons, List.map_nil]
    norm_num [abs_of_pos]
  have h2 : closestReal [10, 20, 30] 20 = 1 := by
    simp only [closestReal, argminReal, List.map_cons, List.map_nil]
    norm_num [abs_of_pos]
  simp [plotSpct, specNorm, specShown, maxR, bind, Except.bind, h1, h2, cut]

/-- the normalisation of the times with the mean -/
example : plotSpct [[1, 6], [3, 2]] [5, 6] [10, 20] (some c!"t") c!"mean" none none = .ok ([5, 6], [10, 20], [[1/3, 1], [1, 1/3]]) := by
  have hr : List.range 2 = [0, 1] := rfl
  simp [plotSpct, specNorm, specShown, specCol, normDen, meanR, maxR, bind, Except.bind, Except.map, hr, pure, Except.pure, max_def]
  norm_num

end SeisMIC
