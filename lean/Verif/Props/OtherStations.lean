import Verif.Spec.OtherStations
import Verif.Props.Gain
import Verif.Props.Resume
import Verif.Props.BulkShape
import Verif.Props.Xcorr
import Verif.Model.Preprocess
import Verif.Lemmas.Stream

/-!
# C164: adding stations does not change the correlations of the others
-/

namespace SeisMIC

noncomputable section

open Xcorr

/-! ### Lemmas: steps of the chain, two rows of a matrix -/

/-- what a step makes of two rows does not depend on the other rows -/
def PairStep {α β : Type} (F : List (List α) → Except Stop (List (List β))) : Prop :=
  ∀ A B n, (∀ x ∈ A, x.length = n) → F A = .ok B →
    (∃ m, ∀ y ∈ B, y.length = m) ∧ ∀ (i j : Nat) (a a' : List α), A[i]? = some a → A[j]? = some a' →
      ∃ b b' : List β, B[i]? = some b ∧ B[j]? = some b' ∧ F [a, a'] = .ok [b, b']

theorem mapM_forall₂_ok {ε α β : Type} (f : α → Except ε β) (l : List α) (out : List β) (h : l.mapM f = .ok out) :
    List.Forall₂ (fun a b => f a = .ok b) l out := by
  induction l generalizing out with
  | nil => cases h; exact .nil
  | cons x l ih =>
    rw [List.mapM_cons] at h
    cases hx : f x with
    | error e => rw [hx] at h; cases h
    | ok y =>
      rw [hx] at h
      cases hl : l.mapM f with
      | error e => rw [hl] at h; cases h
      | ok ys => rw [hl] at h; cases h; exact .cons hx (ih _ hl)

theorem forall₂_get {α β : Type} {R : α → β → Prop} {l : List α} {l' : List β} (h : List.Forall₂ R l l') {i : Nat} {a : α}
    (ha : l[i]? = some a) : ∃ b, l'[i]? = some b ∧ R a b := by
  induction h generalizing i with
  | nil => simp at ha
  | cons h0 _ ih =>
    cases i with
    | zero => simp at ha; subst ha; exact ⟨_, rfl, h0⟩
    | succ i => simp at ha; simpa using ih ha

theorem forall₂_mem {α β : Type} {R : α → β → Prop} {l : List α} {l' : List β} (h : List.Forall₂ R l l') {b : β} (hb : b ∈ l') :
    ∃ a ∈ l, R a b := by
  induction h with
  | nil => simp at hb
  | cons h0 _ ih =>
    rcases List.mem_cons.1 hb with rfl | hb
    · exact ⟨_, by simp, h0⟩
    · obtain ⟨a, ha, hr⟩ := ih hb
      exact ⟨a, by simp [ha], hr⟩

theorem pairStep_mapM {α β : Type} (f : List α → Except Stop (List β)) (g : Nat → Nat) (hf : ∀ x y, f x = .ok y → y.length = g x.length) :
    PairStep fun A => A.mapM f := by
  intro A B n hn h
  have h2 := mapM_forall₂_ok f A B h
  refine ⟨⟨g n, fun y hy => ?_⟩, ?_⟩
  · obtain ⟨x, hx, hr⟩ := forall₂_mem h2 hy
    rw [hf x y hr, hn x hx]
  · intro i j a a' ha ha'
    obtain ⟨b, hb, hr⟩ := forall₂_get h2 ha
    obtain ⟨b', hb', hr'⟩ := forall₂_get h2 ha'
    refine ⟨b, b', hb, hb', ?_⟩
    simp [List.mapM_cons, hr, hr', bind, Except.bind, pure, Except.pure]

theorem pairStep_map {α β : Type} (f : List α → List β) (g : Nat → Nat) (hf : ∀ x, (f x).length = g x.length) :
    PairStep fun A => .ok (A.map f) := by
  intro A B n hn h
  cases h
  refine ⟨⟨g n, fun y hy => ?_⟩, ?_⟩
  · obtain ⟨x, hx, rfl⟩ := List.mem_map.1 hy
    rw [hf, hn x hx]
  · intro i j a a' ha ha'
    exact ⟨f a, f a', by simp [ha], by simp [ha'], rfl⟩

/-- the same for steps that are told the number of samples -/
theorem pairStep_npts {α β : Type} (F : Nat → List (List α) → Except Stop (List (List β))) (hF : ∀ n, PairStep (F n)) :
    PairStep fun A => F (A.headD []).length A := by
  intro A B n hn h
  obtain ⟨h1, h2⟩ := hF _ A B n hn h
  refine ⟨h1, ?_⟩
  intro i j a a' ha ha'
  obtain ⟨b, b', hb, hb', hr⟩ := h2 i j a a' ha ha'
  refine ⟨b, b', hb, hb', ?_⟩
  have e : (([a, a'] : List (List α)).headD []).length = (A.headD []).length := by
    have m1 : a ∈ A := List.mem_of_getElem? ha
    cases A with
    | nil => simp at m1
    | cons x A => simp [hn a m1, hn x (by simp)]
  show F _ [a, a'] = _
  rw [e]
  exact hr

theorem pairStep_error {α β : Type} (e : Stop) : PairStep fun _ : List (List α) => (.error e : Except Stop (List (List β))) := by
  intro A B n _ h
  cases h

theorem noNan_length (l : List (Option ℝ)) (y : List ℝ) (h : noNan l = .ok y) : y.length = l.length := by
  unfold noNan at h
  cases hm : l.mapM id with
  | none => rw [hm] at h; cases h
  | some x =>
    rw [hm] at h
    cases h
    exact mapM_id_length l _ hm

theorem tdClip_length (f : ℝ) (row : List (Option ℝ)) : (tdClip f row).length = row.length := by
  unfold tdClip
  simp only
  split <;> simp

theorem tdNormRow_length (filt : LinFilter) (hf : ∀ x, (filt.run x).length = x.length) (n : Nat) (x : List ℝ) :
    (tdNormRow filt.run n (x.map some)).length = x.length := by
  unfold tdNormRow
  rw [if_neg (by simp), filterMap_some]
  simp [tdEnvelope, convSame_length, hf]

theorem muteWeights_length (args : MuteArgs) (n : Nat) (c : List ℝ) : (muteWeights args n c).length = c.length := by
  unfold muteWeights
  simp only [convSame_length]
  split <;> simp [convSame_length]

theorem mapM_after {α β γ : Type} (f : α → β) (g : β → Except Stop γ) (l : List α) : (l.map f).mapM g = l.mapM fun x => g (f x) := by
  induction l with
  | nil => rfl
  | cons a l ih => rw [List.map_cons, List.mapM_cons, List.mapM_cons, ih]

theorem pairStep_td (sr : Rat) (s : TdStep) (hs : s.KeepsLength) : PairStep (s.run sr) := by
  cases s with
  | clip f =>
    exact pairStep_mapM _ id fun x y h => by rw [noNan_length _ _ h, tdClip_length]; simp
  | trend qr =>
    refine pairStep_mapM _ id fun x y h => ?_
    split at h
    · rw [noNan_length _ _ h]; simp
    · cases h
  | demean =>
    exact pairStep_mapM _ id fun x y h => by rw [noNan_length _ _ h]; simp
  | mute filt args =>
    refine pairStep_npts (fun n A => orStop (SeisMIC.mute filt.run A n sr args)) fun n => ?_
    unfold SeisMIC.mute
    by_cases h1 : args.taperLen = 0
    · simp only [if_pos h1]; exact pairStep_error _
    · simp only [if_neg h1]
      by_cases h2 : (n : Int) ≤ truncRat (args.taperLen * sr)
      · simp only [if_pos h2]
        exact pairStep_map _ id fun x => by simp
      · simp only [if_neg h2]
        by_cases h3 : truncRat (args.taperLen * sr) ≤ 0
        · simp only [if_pos h3]; exact pairStep_error _
        · simp only [if_neg h3]
          exact pairStep_map _ id fun x => by simp [muteWeights_length, hs x]
  | std => exact pairStep_map _ id fun x => by simp [normalizeStd]
  | sign => exact pairStep_map _ id fun x => by simp [signBit]
  | taper w =>
    exact pairStep_npts (fun n A => .ok (A.map fun x => List.zipWith (· * ·) x (w n))) fun n =>
      pairStep_map _ (fun m => min m n) fun x => by rw [List.length_zipWith, hs n]
  | norm filt wl =>
    refine pairStep_npts (fun n A => match tdNormalization filt.run n sr wl (A.map fun x => x.map some) with
      | .error e => .error (some e)
      | .ok B => B.mapM noNan) fun n => ?_
    unfold tdNormalization
    by_cases h1 : wl ≤ 0
    · simp only [if_pos h1]; exact pairStep_error _
    · simp only [if_neg h1]
      by_cases h2 : n < (wl * sr).ceil.toNat
      · intro A B m hm h
        simp only [h2, true_and] at h ⊢
        by_cases hA : (A.map fun x => x.map (some : ℝ → Option ℝ)) = []
        · have : A = [] := by simpa using hA
          subst this
          simp only [List.map_nil, ne_eq, not_true_eq_false, if_false] at h
          cases h
          exact ⟨⟨0, by simp⟩, by simp⟩
        · rw [if_pos hA] at h
          cases h
      · simp only [h2, false_and, if_false]
        have := pairStep_mapM (fun x : List ℝ => noNan (tdNormRow filt.run (wl * sr).ceil.toNat (x.map some))) id
          fun x y h => by rw [noNan_length _ _ h, tdNormRow_length filt hs]; rfl
        simpa only [List.map_map, mapM_after, Function.comp] using this
  | filter filt => exact pairStep_map _ id fun x => hs x

theorem pairStep_comp {α β γ : Type} (F : List (List α) → Except Stop (List (List β))) (G : List (List β) → Except Stop (List (List γ)))
    (hF : PairStep F) (hG : PairStep G) : PairStep fun A => F A >>= G := by
  intro A C n hn h
  beta_reduce at h
  cases hA : F A with
  | error e => rw [hA] at h; cases h
  | ok B =>
    rw [hA] at h
    obtain ⟨⟨m, hm⟩, h2⟩ := hF A B n hn hA
    obtain ⟨h3, h4⟩ := hG B C m hm h
    refine ⟨h3, ?_⟩
    intro i j a a' ha ha'
    obtain ⟨b, b', hb, hb', hr⟩ := h2 i j a a' ha ha'
    obtain ⟨c, c', hc, hc', hr'⟩ := h4 i j b b' hb hb'
    refine ⟨c, c', hc, hc', ?_⟩
    beta_reduce
    rw [hr]
    exact hr'

theorem pairStep_tds (sr : Rat) (td : List TdStep) (htd : ∀ s ∈ td, s.KeepsLength) :
    PairStep fun A => td.foldlM (fun A s => s.run sr A) A := by
  induction td with
  | nil =>
    intro A B n hn h
    cases h
    exact ⟨⟨n, hn⟩, fun i j a a' ha ha' => ⟨a, a', ha, ha', rfl⟩⟩
  | cons s td ih =>
    simp only [List.foldlM_cons]
    exact pairStep_comp _ _ (pairStep_td sr s (htd s (by simp))) (ih fun s hs => htd s (by simp [hs]))

theorem pairStep_pad (sr lts : Rat) : PairStep fun A => A.mapM fun x => orStop (zeroPadding .avoidWrapFastLen sr lts x) := by
  refine pairStep_mapM _ (fun n => n + (nextFastLen (⌊(n : Rat) + sr * lts⌋).toNat - n)) fun x y h => ?_
  simp only [zeroPadding, paddedLen, bind, Except.bind, pure, Except.pure, orStop, Except.ok.injEq] at h
  rw [← h]
  simp

theorem irfft_len {M : List ℂ} {x : List ℝ} (h : irfft M = .ok x) : x.length = 2 * (M.length - 1) := by
  unfold irfft at h
  simp only at h
  split at h
  · cases h
  · cases h; simp

/-- a step in the frequency domain, for spectra that are not zero if it whitens -/
theorem pair_fd (freqs : List Rat) (s : FdStep) (B B' : List (List ℂ)) (n : Nat) (hn : ∀ x ∈ B, x.length = n)
    (hz : s = .whiten → ∀ row ∈ B, ∀ z ∈ row, z ≠ 0) (h : s.run freqs B = .ok B') :
    (∃ m, ∀ y ∈ B', y.length = m) ∧ ∀ (i j : Nat) (a a' : List ℂ), B[i]? = some a → B[j]? = some a' →
      ∃ b b' : List ℂ, B'[i]? = some b ∧ B'[j]? = some b' ∧ s.run freqs [a, a'] = .ok [b, b'] := by
  cases s with
  | filter f1 f2 f3 f4 =>
    have : PairStep fun B => orStop (fdFilter freqs f1 f2 f3 f4 B) := by
      unfold fdFilter
      cases fdTaper freqs f1 f2 f3 f4 with
      | error e => exact pairStep_error _
      | ok tap => exact pairStep_map _ (fun m => min m tap.length) fun x => by simp
    exact this B B' n hn h
  | sign =>
    have : PairStep fun B => orStop (fdSignBit B) := by
      unfold fdSignBit
      simp only [orStop_mapM]
      refine pairStep_mapM _ (fun m => 2 * (m - 1) / 2 + 1) fun x y h => ?_
      cases hx : irfft x with
      | error e => rw [hx] at h; cases h
      | ok z =>
        rw [hx] at h
        cases h
        simp [rfft, irfft_len hx]
    exact this B B' n hn h
  | whiten =>
    have hB := hz rfl
    simp only [FdStep.run] at h ⊢
    rw [whitening_rows B hB] at h
    simp only [orStop, Except.ok.injEq] at h
    subst h
    refine ⟨⟨n, ?_⟩, ?_⟩
    · intro y hy
      obtain ⟨x, hx, rfl⟩ := List.mem_map.1 hy
      simp [whiteRow, hn x hx]
    · intro i j a a' ha ha'
      refine ⟨whiteRow a, whiteRow a', by simp [ha], by simp [ha'], ?_⟩
      rw [whitening_rows [a, a'] ?_]
      · rfl
      · intro row hr
        simp only [List.mem_cons, List.not_mem_nil, or_false] at hr
        rcases hr with rfl | rfl
        · exact hB _ (List.mem_of_getElem? ha)
        · exact hB _ (List.mem_of_getElem? ha')

theorem pair_fds (freqs : List Rat) (fd : List FdStep) (B B' : List (List ℂ)) (n : Nat) (hn : ∀ x ∈ B, x.length = n)
    (hz : NoZeroWhitened freqs fd B) (h : fd.foldlM (fun B s => s.run freqs B) B = .ok B') (i j : Nat) (a a' : List ℂ)
    (ha : B[i]? = some a) (ha' : B[j]? = some a') :
    ∃ b b', B'[i]? = some b ∧ B'[j]? = some b' ∧ fd.foldlM (fun B s => s.run freqs B) [a, a'] = .ok [b, b'] := by
  induction fd generalizing B n a a' with
  | nil => cases h; exact ⟨a, a', ha, ha', rfl⟩
  | cons s fd ih =>
    rw [List.foldlM_cons] at h
    cases hs : s.run freqs B with
    | error e => rw [hs] at h; cases h
    | ok C =>
      rw [hs] at h
      obtain ⟨⟨m, hm⟩, h2⟩ := pair_fd freqs s B C n hn hz.1 hs
      obtain ⟨b, b', hb, hb', hr⟩ := h2 i j a a' ha ha'
      obtain ⟨c, c', hc, hc', hr'⟩ := ih C m hm (hz.2 C hs) h b b' hb hb'
      refine ⟨c, c', hc, hc', ?_⟩
      rw [List.foldlM_cons, hr]
      exact hr'

/-! ### The values -/

/-- **C164** (values) What is computed for two traces in a window with any number of traces is what is computed for these two traces alone, if no
spectrum is zero at a frequency when it is whitened.
Missing for the full property: `c164_silent_violated`, `c164_response_violated`. -/
theorem c164_alone_partial (td : List TdStep) (fd : List FdStep) (center normalize : Bool) (sr lts : Rat) (starts : List Rat)
    (pairs : List (Nat × Nat)) (A : List (List ℝ)) (out : List (List ℝ × Rat)) (n k i j : Nat) (x y : List ℝ) (s t : Rat)
    (htd : ∀ s ∈ td, s.KeepsLength) (hn : ∀ x ∈ A, x.length = n) (hz : NoZeroSpectra td fd sr lts A)
    (h : correlateChain td fd center normalize sr lts starts pairs A = .ok out)
    (hk : pairs[k]? = some (i, j)) (hx : A[i]? = some x) (hy : A[j]? = some y) (hs : starts[i]? = some s) (ht : starts[j]? = some t) :
    ∃ c, out[k]? = some c ∧ correlateChain td fd center normalize sr lts [s, t] [(0, 1)] [x, y] = .ok [c] := by
  unfold correlateChain at h ⊢
  cases h1 : td.foldlM (fun A s => s.run sr A) A with
  | error e => rw [h1] at h; cases h
  | ok A1 =>
    rw [h1] at h
    simp only [bind, Except.bind] at h
    cases h2 : A1.mapM fun x => orStop (zeroPadding .avoidWrapFastLen sr lts x) with
    | error e => rw [h2] at h; cases h
    | ok A2 =>
      rw [h2] at h
      simp only at h
      cases h3 : fd.foldlM (fun B s => s.run (rfftfreq (A2.headD []).length sr) B) (A2.map rfft) with
      | error e => rw [h3] at h; cases h
      | ok B =>
        rw [h3] at h
        simp only at h
        obtain ⟨⟨m1, hm1⟩, r1⟩ := pairStep_tds sr td htd A A1 n hn h1
        obtain ⟨x1, y1, hx1, hy1, e1⟩ := r1 i j x y hx hy
        obtain ⟨⟨m2, hm2⟩, r2⟩ := pairStep_pad sr lts A1 A2 m1 hm1 h2
        obtain ⟨x2, y2, hx2, hy2, e2⟩ := r2 i j x1 y1 hx1 hy1
        have hN : (([x2, y2] : List (List ℝ)).headD []).length = (A2.headD []).length := by
          have m : x2 ∈ A2 := List.mem_of_getElem? hx2
          cases A2 with
          | nil => simp at m
          | cons z A2 => simp [hm2 x2 m, hm2 z (by simp)]
        obtain ⟨b, b', hb, hb', e3⟩ := pair_fds (rfftfreq (A2.headD []).length sr) fd (A2.map rfft) B (m2 / 2 + 1)
          (by intro z hz; obtain ⟨w, hw, rfl⟩ := List.mem_map.1 hz; simp [rfft, hm2 w hw]) (hz A1 A2 h1 h2) h3 i j (rfft x2) (rfft y2)
          (by simp [hx2]) (by simp [hy2])
        obtain ⟨c, hc, hr⟩ := forall₂_get (mapM_forall₂_ok _ _ _ h) hk
        refine ⟨c, hc, ?_⟩
        beta_reduce at e1 e2
        rw [e1]
        simp only [bind, Except.bind]
        rw [e2]
        simp only [hN, List.map_cons, List.map_nil]
        rw [e3]
        simp only [List.mapM_cons, List.mapM_nil, bind, Except.bind, pure, Except.pure]
        have hp : pairRow center normalize sr lts (A2.headD []).length [s, t] [b, b'] (0, 1) =
            pairRow center normalize sr lts (A2.headD []).length starts B (i, j) := by
          unfold pairRow
          simp only [hb, hb', hs, ht]
          rfl
        rw [hp, hr]

/-- **C164** (values) Two windows with any stations each: the correlation of two traces that are in both is the same, if no spectrum is zero at a
frequency when it is whitened.
Missing for the full property: `c164_silent_violated`, `c164_response_violated`. -/
theorem c164_values_partial (td : List TdStep) (fd : List FdStep) (center normalize : Bool) (sr lts : Rat) (starts starts' : List Rat)
    (pairs pairs' : List (Nat × Nat)) (A A' : List (List ℝ)) (out out' : List (List ℝ × Rat)) (n k k' i j i' j' : Nat) (x y : List ℝ) (s t : Rat)
    (htd : ∀ s ∈ td, s.KeepsLength) (hn : ∀ x ∈ A, x.length = n) (hn' : ∀ x ∈ A', x.length = n)
    (hz : NoZeroSpectra td fd sr lts A) (hz' : NoZeroSpectra td fd sr lts A')
    (h : correlateChain td fd center normalize sr lts starts pairs A = .ok out)
    (h' : correlateChain td fd center normalize sr lts starts' pairs' A' = .ok out')
    (hk : pairs[k]? = some (i, j)) (hk' : pairs'[k']? = some (i', j'))
    (hx : A[i]? = some x) (hy : A[j]? = some y) (hx' : A'[i']? = some x) (hy' : A'[j']? = some y)
    (hs : starts[i]? = some s) (ht : starts[j]? = some t) (hs' : starts'[i']? = some s) (ht' : starts'[j']? = some t) :
    ∃ c, out[k]? = some c ∧ out'[k']? = some c := by
  obtain ⟨c, hc, e⟩ := c164_alone_partial td fd center normalize sr lts starts pairs A out n k i j x y s t htd hn hz h hk hx hy hs ht
  obtain ⟨c', hc', e'⟩ := c164_alone_partial td fd center normalize sr lts starts' pairs' A' out' n k' i' j' x y s t htd hn' hz' h' hk' hx' hy' hs' ht'
  rw [e] at e'
  cases e'
  exact ⟨c, hc, hc'⟩

/-! ### The pairs -/

theorem insertSorted_filter_any {α : Type} (le : α → α → Bool) (htrans : ∀ a b c, le a b = true → le b c = true → le a c = true) (p : α → Bool) (a : α)
    (l : List α) (hl : l.Pairwise fun a b => le a b = true) :
    (insertSorted le a l).filter p = if p a then insertSorted le a (l.filter p) else l.filter p := by
  induction l with
  | nil => by_cases h : p a <;> simp [insertSorted, h]
  | cons b l ih =>
    have ih := ih (List.pairwise_cons.1 hl).2
    have hb := (List.pairwise_cons.1 hl).1
    have front : ∀ m : List α, (∀ x ∈ m, le a x = true) → insertSorted le a m = a :: m := by
      intro m hm
      cases m with
      | nil => rfl
      | cons x m => simp [insertSorted, hm x (by simp)]
    by_cases hab : le a b = true
    · simp only [insertSorted, hab, if_true]
      by_cases ha : p a = true
      · rw [if_pos ha, List.filter_cons_of_pos ha, front]
        intro x hx
        have hx := (List.mem_filter.1 hx).1
        rcases List.mem_cons.1 hx with rfl | hx
        · exact hab
        · exact htrans a b x hab (hb x hx)
      · rw [if_neg ha, List.filter_cons_of_neg ha]
    · simp only [insertSorted, hab]
      by_cases hpb : p b = true
      · rw [if_neg (by simp), List.filter_cons_of_pos hpb, ih, List.filter_cons_of_pos hpb]
        by_cases ha : p a = true
        · simp [ha, insertSorted, hab]
        · simp [ha]
      · rw [if_neg (by simp), List.filter_cons_of_neg hpb, ih, List.filter_cons_of_neg hpb]

theorem isort_filter_any {α : Type} (le : α → α → Bool) (htotal : ∀ a b, le a b = false → le b a = true)
    (htrans : ∀ a b c, le a b = true → le b c = true → le a c = true) (p : α → Bool) (l : List α) :
    isort le (l.filter p) = (isort le l).filter p := by
  induction l with
  | nil => rfl
  | cons a l ih =>
    rw [isort, insertSorted_filter_any le htrans p a _ (isort_sorted le htotal htrans l), ← ih]
    by_cases h : p a = true
    · rw [if_pos h, List.filter_cons_of_pos h, isort]
    · rw [if_neg h, List.filter_cons_of_neg h]

theorem filter_as_indices (S : List TrHead) (P : TrHead → Bool) :
    (((List.range S.length).filter fun i => P (S.getD i noTr)).map fun i => S.getD i noTr) = S.filter P := by
  have h1 : (List.range S.length).map (fun i => S.getD i noTr) = S := by
    apply List.ext_getElem
    · simp
    · intro i h1 h2; simp [List.getD, h2]
  conv_rhs => rw [← h1, List.filter_map]
  rfl

theorem pairsOf_filter (method : Str) (S : List TrHead) (Q : TrHead → TrHead → Bool) (P : TrHead → Bool) :
    pairsOf method (S.filter P) Q = (pairsOf method S Q).filter fun p => P p.1 && P p.2 := by
  have key := prune_pairs method S (fun a b => Q a b && (P a && P b)) (fun i => P (S.getD i noTr)) (by
    rintro ⟨i, j⟩ hp
    have := (List.mem_filter.1 hp).2
    simp only [Bool.and_eq_true] at this
    exact this.2.2)
  simp only [filter_as_indices] at key
  unfold pairsOf
  have e1 : (prodL (List.range (S.filter P).length)).filter
      (fun p => mrel method p.1 p.2 && Q ((S.filter P).getD p.1 noTr) ((S.filter P).getD p.2 noTr)) =
      (prodL (List.range (S.filter P).length)).filter
      (fun p => mrel method p.1 p.2 && (Q ((S.filter P).getD p.1 noTr) ((S.filter P).getD p.2 noTr) &&
        (P ((S.filter P).getD p.1 noTr) && P ((S.filter P).getD p.2 noTr)))) := by
    apply List.filter_congr
    rintro ⟨i, j⟩ h
    rw [mem_prodL] at h
    simp only [List.mem_range] at h
    have hP : ∀ k, k < (S.filter P).length → P ((S.filter P).getD k noTr) = true := by
      intro k hk
      have : (S.filter P).getD k noTr ∈ S.filter P := by
        simp [List.getD, hk]
      exact (List.mem_filter.1 this).2
    simp only [hP i h.1, hP j h.2, Bool.and_true]
  rw [e1, key, List.filter_map, List.filter_filter]
  congr 1
  apply List.filter_congr
  rintro ⟨i, j⟩ _
  simp only [Function.comp]
  cases mrel method i j <;> cases Q (S.getD i noTr) (S.getD j noTr) <;> simp

/-- **C164** (pairs) Of the pairs that are computed for a window, those whose traces both satisfy `P` (for example: belong to the stations of an earlier
run) are exactly the pairs that are computed, in the same order, if there are no other traces. -/
theorem c164_pairs (fiss : Int → Str) (ex : ExDict) (method : Str) (rcombis : Option (List Str)) (win : List TrHead) (P : TrHead → Bool)
    (hm : method ∈ methods) (hc : method = "betweenComponents".toList → ∀ a ∈ win, a.cha ≠ []) :
    ∃ ps, windowPairs fiss ex method rcombis win = .ok ps ∧
      windowPairs fiss ex method rcombis (win.filter P) = .ok (ps.filter fun p => P p.1 && P p.2) := by
  refine ⟨_, windowPairs_eq fiss ex method rcombis win hm hc, ?_⟩
  rw [windowPairs_eq fiss ex method rcombis (win.filter P) hm fun h a ha => hc h a (List.mem_filter.1 ha).1, ← pairsOf_filter,
    isort_filter_any trLe trLe_total trLe_trans]

/-- **C164** (run) The same for all windows of a run, with the values and places in the database of the correlations. -/
theorem c164_run {δ : Type} (c : RunCfg δ) (ex : ExDict) (wins : List (List TrHead)) (P : TrHead → Bool)
    (hm : c.method ∈ methods) (hc : c.method = "betweenComponents".toList → ∀ win ∈ wins, ∀ a ∈ win, a.cha ≠ []) :
    ∃ ps : List (TrHead × TrHead), c.run ex wins = .ok (ps.map c.out) ∧
      c.run ex (wins.map fun win => win.filter P) = .ok ((ps.filter fun p => P p.1 && P p.2).map c.out) := by
  suffices h : ∃ pss : List (List (TrHead × TrHead)), wins.mapM (windowPairs c.fiss ex c.method c.rcombis) = .ok pss ∧
      (wins.map fun win => win.filter P).mapM (windowPairs c.fiss ex c.method c.rcombis) =
        .ok (pss.map fun ps => ps.filter fun p => P p.1 && P p.2) by
    obtain ⟨pss, h1, h2⟩ := h
    refine ⟨pss.flatten, ?_, ?_⟩
    · unfold RunCfg.run
      rw [h1]
      rfl
    · unfold RunCfg.run
      rw [h2, List.filter_flatten]
      rfl
  induction wins with
  | nil => exact ⟨[], rfl, rfl⟩
  | cons win wins ih =>
    obtain ⟨pss, h1, h2⟩ := ih fun h w hw => hc h w (by simp [hw])
    obtain ⟨ps, h3, h4⟩ := c164_pairs c.fiss ex c.method c.rcombis win P hm fun h => hc h win (by simp)
    refine ⟨ps :: pss, ?_, ?_⟩
    · rw [List.mapM_cons, h3, h1]; rfl
    · rw [List.map_cons, List.mapM_cons, h4, h2]; rfl

/-! ### Where other stations do have an influence -/

theorem dft_delta (c : ℝ) (k : Nat) : dft [c, 0, 0, 0] k = c := by
  unfold dft
  simp [Finset.sum_range_succ]

theorem rfft_delta (c : ℝ) : rfft [c, 0, 0, 0] = [(c : ℂ), c, c] := by
  unfold rfft
  simp [dft_delta, List.range_succ]

theorem pad_delta (c : ℝ) : zeroPadding .avoidWrapFastLen 1 1 [c, 0, 0] = .ok [c, 0, 0, 0] := by
  have hN : nextFastLen (⌊(([c, 0, 0] : List ℝ).length : Rat) + 1 * 1⌋).toNat = 4 := by
    have : (⌊(([c, 0, 0] : List ℝ).length : Rat) + 1 * 1⌋).toNat = 4 := by
      norm_num
      rfl
    rw [this, nextFastLen_self 4 (by decide)]
  simp only [zeroPadding, paddedLen, hN, bind, Except.bind, pure, Except.pure]
  rfl

/-- the correlation at zero lag of two equal traces with the spectrum 0, `c`, `c` -/
theorem corrRow_flat (c : ℝ) : ∃ l r : ℝ, corrRow false false 1 1 4 0 0 [0, (c : ℂ), c] [0, (c : ℂ), c] = .ok ([l, 3 * c ^ 2 / 4, r], -1) := by
  have hs : sampleToSave 1 1 = 1 := by decide +kernel
  have hr : roffset false 1 (0 - 0) = 0 := by decide +kernel
  have hf : rfftfreq 4 1 = [0, 1 / 4, 1 / 2] := by decide +kernel
  have hM : crossSpectrum (rfftfreq 4 1) (0 - 0 - 0) [0, (c : ℂ), c] [0, (c : ℂ), c] = [0, (c : ℂ) * c, (c : ℂ) * c] := by
    rw [hf]
    simp [crossSpectrum, List.zipWith3]
  have hi : ∃ t1 t2 t3 : ℝ, irfft [0, (c : ℂ) * c, (c : ℂ) * c] = .ok [3 * c ^ 2 / 4, t1, t2, t3] := by
    unfold irfft
    simp only [List.length_cons, List.length_nil]
    rw [if_neg (by norm_num)]
    have hr : ∀ (v : ℝ) (f : ℕ → ℝ), f 0 = v → ∃ t1 t2 t3 : ℝ, (Except.ok ((List.range (2 * (0 + 1 + 1 + 1 - 1))).map f) : Except PyErr _) = .ok [v, t1, t2, t3] :=
      fun v f h => ⟨f 1, f 2, f 3, by rw [← h]; rfl⟩
    apply hr
    simp
    ring
  obtain ⟨t1, t2, t3, hi⟩ := hi
  refine ⟨t3, t1, ?_⟩
  unfold corrRow
  simp only [hs, hr, hM, hi, bind, Except.bind, pure, Except.pure, corrNorm]
  simp [cutCentre]

theorem whiteRow_two : whiteRow [(2 : ℝ), ((2 : ℝ) : ℂ), ((2 : ℝ) : ℂ)] = [0, ((1 : ℝ) : ℂ), ((1 : ℝ) : ℂ)] := by
  simp [whiteRow]

/-- **C164 is violated** by whitening: with a station that recorded nothing but zeros in the window, no station is whitened. -/
theorem c164_silent_violated : ∃ c c' : List ℝ × Rat, c ≠ c' ∧
    correlateChain [] [.whiten] false false 1 1 [0] [(0, 0)] [[2, 0, 0]] = .ok [c] ∧
    correlateChain [] [.whiten] false false 1 1 [0, 0] [(0, 0)] [[2, 0, 0], [0, 0, 0]] = .ok [c'] := by
  obtain ⟨l, r, h⟩ := corrRow_flat 1
  obtain ⟨l', r', h'⟩ := corrRow_flat 2
  refine ⟨([l, 3 * 1 ^ 2 / 4, r], -1), ([l', 3 * 2 ^ 2 / 4, r'], -1), ?_, ?_, ?_⟩
  rotate_left
  · unfold correlateChain
    have w : spectralWhitening false [[((2 : ℝ) : ℂ), ((2 : ℝ) : ℂ), ((2 : ℝ) : ℂ)]] = .ok [[0, ((1 : ℝ) : ℂ), ((1 : ℝ) : ℂ)]] := by
      rw [whitening_rows _ (by simp), List.map_cons, List.map_nil, whiteRow_two]
    simp only [List.foldlM_nil, List.foldlM_cons, bind, Except.bind, pure, Except.pure, List.mapM_cons, List.mapM_nil, pad_delta, orStop, List.map_cons,
      List.map_nil, rfft_delta, FdStep.run, w, pairRow, List.headD_cons]
    have h1 := h
    simp only [Complex.ofReal_one] at h1 ⊢
    simp [h1]
  · unfold correlateChain
    have w : spectralWhitening false [[((2 : ℝ) : ℂ), ((2 : ℝ) : ℂ), ((2 : ℝ) : ℂ)], [((0 : ℝ) : ℂ), ((0 : ℝ) : ℂ), ((0 : ℝ) : ℂ)]] =
        .ok [[0, ((2 : ℝ) : ℂ), ((2 : ℝ) : ℂ)], [0, ((0 : ℝ) : ℂ), ((0 : ℝ) : ℂ)]] := by
      rw [c77_zero_sample _ ⟨[((0 : ℝ) : ℂ), ((0 : ℝ) : ℂ), ((0 : ℝ) : ℂ)], by simp, by simp⟩]
      rfl
    simp only [List.foldlM_nil, List.foldlM_cons, bind, Except.bind, pure, Except.pure, List.mapM_cons, List.mapM_nil, pad_delta, orStop, List.map_cons,
      List.map_nil, rfft_delta, FdStep.run, w, pairRow, List.headD_cons]
    have h1 := h'
    simp only [Complex.ofReal_ofNat] at h1 ⊢
    simp [h1]
  · intro he
    have := congrArg (fun x : List ℝ × Rat => x.1.getD 1 0) he
    norm_num at this

/-- **C164 is violated** by the removal of responses: if the response of one channel is not known, the data of all stations that are read by the process
are lost for the whole read increment. -/
theorem c164_response_violated : ∃ (cf : PrepConf) (s : RespStore) (t0 t1 : Chan × GapTr Nat),
    (preprocessStream cf id id (fun t => .ok (some t)) (fun _ ps => ps) (fun _ => .ok []) [] 0 1 s [t0]).1 = .ok [t0] ∧
    (preprocessStream cf id id (fun t => .ok (some t)) (fun _ ps => ps) (fun _ => .ok []) [] 0 1 s [t0, t1]).1 = .error .valueError :=
  ⟨⟨1, 1, true⟩, ⟨[(0, 0)], []⟩, ((0, 0), (0, [some 1, some 2])), ((1, 0), (0, [some 3, some 4])), by decide +kernel, by decide +kernel⟩

/-! ### Concrete cases -/

/-- three stations, of which two were there before -/
example :
    let a : TrHead := ⟨c!"XN", c!"A", c!"00", c!"HHZ", 0⟩
    let b : TrHead := ⟨c!"XN", c!"B", c!"00", c!"HHZ", 0⟩
    let c : TrHead := ⟨c!"XN", c!"AA", c!"00", c!"HHZ", 0⟩
    windowPairs (fun _ => c!"t") [] c!"betweenStations" none [b, a, c] = .ok [(a, c), (a, b), (c, b)] ∧
    windowPairs (fun _ => c!"t") [] c!"betweenStations" none ([b, a, c].filter fun x => x.sta ≠ c!"AA") = .ok [(a, b)] := by
  decide

/-- traces that meet the conditions of `c164_values_partial`, with whitening -/
example : NoZeroSpectra [.sign] [.whiten] 1 1 [[2, 0, 0], [3, 0, 0]] ∧ TdStep.sign.KeepsLength := by
  refine ⟨?_, trivial⟩
  intro A1 A2 h1 h2
  have e1 : A1 = [[1, 0, 0], [1, 0, 0]] := by
    simp only [List.foldlM_cons, List.foldlM_nil, TdStep.run, bind, Except.bind, pure, Except.pure, Except.ok.injEq] at h1
    rw [← h1]
    simp [signBit, npSign]
  subst e1
  have e2 : A2 = [[1, 0, 0, 0], [1, 0, 0, 0]] := by
    simp only [List.mapM_cons, List.mapM_nil, pad_delta, orStop, bind, Except.bind, pure, Except.pure, Except.ok.injEq] at h2
    exact h2.symm
  subst e2
  refine ⟨fun _ row hr z hz => ?_, fun _ _ => trivial⟩
  simp only [List.map_cons, List.map_nil, rfft_delta, List.mem_cons, List.not_mem_nil, or_false, or_self] at hr
  subst hr
  simp at hz
  rw [hz]
  exact one_ne_zero

end

end SeisMIC
