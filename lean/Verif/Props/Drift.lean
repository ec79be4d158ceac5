import Verif.Props.Polarity
import Verif.Props.Detrend

/-! # Offsets and drifts of instruments (C219) -/

namespace SeisMIC

noncomputable section

/-! ### Specification -/

/-- a trace of an instrument with offset `a` and drift `b` per sample -/
def drifted (a b : ℝ) (x : List ℝ) : List ℝ := x.mapIdx fun k y => y + (a + b * (k : ℝ))

/-- traces of instruments with the offsets and drifts `g` -/
def withDrifts (g : List (ℝ × ℝ)) (A : List (List ℝ)) : List (List ℝ) := List.zipWith (fun ab x => drifted ab.1 ab.2 x) g A

/-! ### Lemmas -/

theorem drifted_length (a b : ℝ) (x : List ℝ) : (drifted a b x).length = x.length := by simp [drifted]

/-- the step `.trend` for one trace -/
def trendRow (qr : (n : Nat) → 2 ≤ n → QR (trendMatrix n)) (x : List ℝ) : Except Stop (List ℝ) :=
  if h : 2 ≤ x.length then noNan (List.ofFn (detrendRow (qr x.length h) fun k => some (x.get k))) else .error (some .valueError)

theorem trendRow_eq (qr : (n : Nat) → 2 ≤ n → QR (trendMatrix n)) (x : List ℝ) (n : Nat) (hn : x.length = n) :
    trendRow qr x = if h : 2 ≤ n then noNan (List.ofFn (detrendRow (qr n h) fun k => some (x.get (k.cast hn.symm))))
      else .error (some .valueError) := by
  subst hn
  rfl

theorem trendRow_drifted (qr : (n : Nat) → 2 ≤ n → QR (trendMatrix n)) (a b : ℝ) (x : List ℝ) :
    trendRow qr (drifted a b x) = trendRow qr x := by
  rw [trendRow_eq qr (drifted a b x) x.length (drifted_length a b x), trendRow]
  by_cases h : 2 ≤ x.length
  · rw [dif_pos h, dif_pos h]
    obtain ⟨r, hr, hw⟩ := detrendRow_withoutTrend h (qr _ h) x.get
    have e : (fun k : Fin x.length => some ((drifted a b x).get (k.cast (drifted_length a b x).symm))) =
        valid fun k => x.get k + (a + b * (k : ℝ)) := by
      funext k
      simp [valid, drifted]
      rfl
    obtain ⟨r', hr', hw'⟩ := detrendRow_withoutTrend h (qr _ h) fun k => x.get k + (a + b * (k : ℝ))
    rw [e, hr', (hw').unique (hw.add_line a b)]
    exact congrArg (fun z => noNan (List.ofFn z)) hr.symm
  · rw [dif_neg h, dif_neg h]

/-- the step `.demean` for one trace -/
def meanRow (x : List ℝ) : Except Stop (List ℝ) := noNan (List.ofFn (demeanRow fun k : Fin x.length => some (x.get k)))

theorem meanRow_eq (x : List ℝ) (n : Nat) (hn : x.length = n) :
    meanRow x = noNan (List.ofFn (demeanRow fun k : Fin n => some (x.get (k.cast hn.symm)))) := by
  subst hn
  rfl

theorem nanmeanR_some {n : Nat} (v : Fin n → ℝ) (k : Fin n) :
    nanmeanR (List.ofFn fun k => some (v k)) = some ((List.ofFn v).sum / n) := by
  have e : (List.ofFn fun k => some (v k)).filterMap id = List.ofFn v := by
    have : (List.ofFn fun k => some (v k)) = (List.ofFn v).map some := by rw [List.map_ofFn]; rfl
    rw [this, List.filterMap_map]
    simp
  unfold nanmeanR
  rw [e]
  cases h : List.ofFn v with
  | nil =>
    have := congrArg List.length h
    simp at this
    subst this
    exact k.elim0
  | cons y l =>
    have := congrArg List.length h
    rw [List.length_ofFn] at this
    simp only
    rw [← this]

theorem meanRow_drifted (a : ℝ) (x : List ℝ) : meanRow (drifted a 0 x) = meanRow x := by
  rw [meanRow_eq (drifted a 0 x) x.length (drifted_length a 0 x), meanRow]
  congr 2
  funext k
  have e : (fun k : Fin x.length => some ((drifted a 0 x).get (k.cast (drifted_length a 0 x).symm))) =
      fun k => some (x.get k + a) := by
    funext k
    simp [drifted]
    rfl
  rw [e]
  have hn : (x.length : ℝ) ≠ 0 := by
    have : 0 < x.length := lt_of_le_of_lt (Nat.zero_le _) k.2
    positivity
  unfold demeanRow
  rw [nanmeanR_some (fun k => x.get k + a) k, nanmeanR_some (fun k => x.get k) k]
  simp only [List.sum_ofFn, Finset.sum_add_distrib, Finset.sum_const, Finset.card_univ, Fintype.card_fin, nsmul_eq_mul]
  congr 1
  field_simp
  ring

theorem mapM_withDrifts (f : List ℝ → Except Stop (List ℝ)) (g : List (ℝ × ℝ)) (A : List (List ℝ)) (hl : g.length = A.length)
    (hf : ∀ ab ∈ g, ∀ x, f (drifted ab.1 ab.2 x) = f x) : (withDrifts g A).mapM f = A.mapM f := by
  induction g generalizing A with
  | nil => cases A with
    | nil => rfl
    | cons x A => cases hl
  | cons ab g ih => cases A with
    | nil => cases hl
    | cons x A =>
      simp only [withDrifts, List.zipWith_cons_cons, List.mapM_cons]
      rw [hf ab (by simp) x]
      have := ih A (by simpa using hl) fun cd hcd => hf cd (by simp [hcd])
      rw [withDrifts] at this
      rw [this]

theorem chain_drift (st : TdStep) (sr : Rat) (A A' : List (List ℝ)) (h : st.run sr A' = st.run sr A) (td : List TdStep) (fd : List FdStep)
    (center normalize : Bool) (lts : Rat) (starts : List Rat) (pairs : List (Nat × Nat)) :
    correlateChain (st :: td) fd center normalize sr lts starts pairs A' = correlateChain (st :: td) fd center normalize sr lts starts pairs A := by
  unfold correlateChain
  simp only [List.foldlM_cons]
  rw [h]

/-! ### Theorems -/

/-- **C219** (linear). If detrending is the first step of the preprocessing in the time domain, offsets and linear drifts of the instruments, which may be
different for each trace and each time window, have no influence: whatever the other steps and options are, the same correlations with the same lags are computed
for all pairs, or there is the same exception. -/
theorem c219_linear (qr : (n : Nat) → 2 ≤ n → QR (trendMatrix n)) (td : List TdStep) (fd : List FdStep) (center normalize : Bool)
    (sr lts : Rat) (starts : List Rat) (pairs : List (Nat × Nat)) (A : List (List ℝ)) (g : List (ℝ × ℝ)) (hl : g.length = A.length) :
    correlateChain (.trend qr :: td) fd center normalize sr lts starts pairs (withDrifts g A) =
      correlateChain (.trend qr :: td) fd center normalize sr lts starts pairs A := by
  refine chain_drift _ sr _ _ ?_ td fd center normalize lts starts pairs
  exact mapM_withDrifts (trendRow qr) g A hl fun ab _ x => trendRow_drifted qr ab.1 ab.2 x

/-- **C219** (constant). If only the mean is removed first (detrending with type constant), offsets have no influence. -/
theorem c219_constant (td : List TdStep) (fd : List FdStep) (center normalize : Bool) (sr lts : Rat) (starts : List Rat)
    (pairs : List (Nat × Nat)) (A : List (List ℝ)) (g : List (ℝ × ℝ)) (hl : g.length = A.length) (h0 : ∀ ab ∈ g, ab.2 = 0) :
    correlateChain (.demean :: td) fd center normalize sr lts starts pairs (withDrifts g A) =
      correlateChain (.demean :: td) fd center normalize sr lts starts pairs A := by
  refine chain_drift _ sr _ _ ?_ td fd center normalize lts starts pairs
  refine mapM_withDrifts meanRow g A hl fun ab hab x => ?_
  rw [h0 ab hab]
  exact meanRow_drifted ab.1 x

/-- **C219** (velocity changes). With detrending as first step the velocity changes of every pair are the same if the instruments drift, in each time window by
other amounts. -/
theorem c219_velocity (qr : (n : Nat) → 2 ≤ n → QR (trendMatrix n)) (td : List TdStep) (fd : List FdStep) (center normalize : Bool)
    (sr lts : Rat) (starts : List Rat) (pairs : List (Nat × Nat)) (p : Nat) (windows : List (List (List ℝ) × List (ℝ × ℝ)))
    (hl : ∀ w ∈ windows, w.2.length = w.1.length) (spline : List ℝ → List ℝ → ℝ → ℝ) (s : LagStats) (ref : Option (List ℝ))
    (tw : Option (List (List Int))) (range : ℝ) (steps : Nat) (sides : Str) (refStats : Option LagStats) :
    (pairBulk (correlateChain (.trend qr :: td) fd center normalize sr lts starts pairs) p (windows.map fun w => withDrifts w.2 w.1)).map
        (fun rows => corrMatStretch spline rows s ref tw range steps sides refStats) =
      (pairBulk (correlateChain (.trend qr :: td) fd center normalize sr lts starts pairs) p (windows.map Prod.fst)).map
        fun rows => corrMatStretch spline rows s ref tw range steps sides refStats := by
  congr 1
  unfold pairBulk
  induction windows with
  | nil => rfl
  | cons w windows ih =>
    simp only [List.map_cons, List.mapM_cons]
    rw [ih fun v hv => hl v (by simp [hv]), c219_linear qr td fd center normalize sr lts starts pairs w.1 w.2 (hl w (by simp))]

/-- offsets and drifts of two traces; those of the second one are an offset only -/
example : withDrifts [(1, 2), (-1, 0)] [[1, 2, 4], [0, 5, 1]] = [[2, 5, 9], [-1, 4, 0]] ∧
    [((1 : ℝ), (2 : ℝ)), (-1, 0)].length = [[(1 : ℝ), 2, 4], [0, 5, 1]].length ∧ ∀ ab ∈ [((-1 : ℝ), (0 : ℝ))], ab.2 = 0 := by
  refine ⟨by norm_num [withDrifts, drifted], rfl, by simp⟩

end

end SeisMIC
