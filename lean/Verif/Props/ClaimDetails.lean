import Verif.Props.SmoothShapes
import Verif.Props.Detrend
import Verif.Props.DvFiles
import Verif.Props.FloatLags
import Verif.Props.Kernel
import Verif.Props.InversionUse

/-!
# Details of claims

Theorems that pin down values which the other theorems of the same claims leave open: found by changing the model (seeded/LOG.jsonl).
-/

namespace SeisMIC

/-! ### C123: removing the mean with the other method -/

theorem setValid_map (f : ℝ → ℝ) : ∀ row : List (Option ℝ), setValid row ((row.filterMap id).map f) = row.map (Option.map f)
  | [] => rfl
  | none :: row => by simpa [setValid] using setValid_map f row
  | some x :: row => by simpa [setValid] using setValid_map f row

/-- C123: `detrend_scipy` with the type `constant` (or `c`) subtracts from each valid sample the mean of the valid samples of its trace. Missing samples stay
missing, and there is never an exception. -/
theorem c123_scipy_constant {n : Nat} (type : Str) (ht : type = c!"constant" ∨ type = c!"c") (A : List (Fin n → Option ℝ)) :
    detrendScipy ⟨none, some type⟩ A = (A.map fun d k => (d k).map fun x => x - (((List.ofFn d).filterMap id).sum / ((List.ofFn d).filterMap id).length), none) := by
  have hl : ¬ (type = c!"linear" ∨ type = c!"l") := by rcases ht with rfl | rfl <;> decide
  have hrow : ∀ d : Fin n → Option ℝ, detrendScipyRow ⟨none, some type⟩ d =
      .ok fun k => (d k).map fun x => x - (((List.ofFn d).filterMap id).sum / ((List.ofFn d).filterMap id).length) := by
    intro d
    simp only [detrendScipyRow, Option.isSome_none, Option.getD_some]
    rw [if_neg (by decide)]
    simp only [spDetrend, if_neg hl, if_pos ht, bind, Except.bind]
    congr 1
    funext k
    rw [setValid_map, List.getD_eq_getElem?_getD, List.getElem?_map, List.getElem?_ofFn]
    simp
  have hgo : ∀ B : List (Fin n → Option ℝ), detrendScipy.go ⟨none, some type⟩ B =
      (B.map fun d k => (d k).map fun x => x - (((List.ofFn d).filterMap id).sum / ((List.ofFn d).filterMap id).length), none) := by
    intro B
    induction B with
    | nil => rfl
    | cons d B ih => simp [detrendScipy.go, hrow, ih]
  unfold detrendScipy
  split
  · next h =>
    congr 1
    conv_lhs => rw [← List.map_id A]
    refine List.map_congr_left fun d hd => ?_
    funext k
    simp [h d hd k]
  · exact hgo A

/-- a trace with the values 1, missing, 5 becomes -2, missing, 2 -/
example : detrendScipy ⟨none, some c!"c"⟩ [(![some 1, none, some 5] : Fin 3 → Option ℝ)] = ([![some (-2), none, some 2]], none) := by
  rw [c123_scipy_constant _ (.inr rfl)]
  simp only [List.map_cons, List.map_nil, Prod.mk.injEq, and_true]
  have e : (List.ofFn (![some 1, none, some 5] : Fin 3 → Option ℝ)).filterMap id = [1, 5] := rfl
  rw [e]
  congr 1
  funext k
  fin_cases k <;> norm_num

/-- C123: traces with missing samples among others do no harm to them: each complete trace loses its trend as if it were alone, and a trace with a missing sample
is marked as invalid as a whole instead of being kept with its trend.
Missing: the trend of traces with missing samples is not removed (`c123_nan_violated`). -/
theorem c123_mixed_partial {n : Nat} (h2 : 2 ≤ n) (qr : 2 ≤ n → QR (trendMatrix n)) (a : DetrendArgs)
    (hm : a.method = none ∨ a.method = some c!"qr") (ht : a.type = none ∨ a.type = some c!"linear") (A : List (Fin n → Option ℝ)) :
    ∃ B, (detrend qr a A).1 = .ok B ∧
      List.Forall₂ (fun d r => (∀ x : Fin n → ℝ, (∀ k, d k = some (x k)) → ∃ y : Fin n → ℝ, (∀ k, r k = some (y k)) ∧ WithoutTrend x y) ∧
        ((∃ k, d k = none) → ∀ k, r k = none)) A B := by
  refine ⟨A.map (detrendRow (qr h2)), by rw [detrend_linear h2 qr a hm ht], ?_⟩
  rw [List.forall₂_map_right_iff, List.forall₂_same]
  intro d _
  refine ⟨fun x hx => ?_, fun ⟨k, hk⟩ j => ?_⟩
  · obtain ⟨r, hr, hw⟩ := detrendRow_withoutTrend h2 (qr h2) x
    have : d = valid x := funext hx
    exact ⟨r, fun k => by rw [this, hr]; rfl, hw⟩
  · unfold detrendRow
    rw [if_neg fun hall => hall k hk]

/-- a complete trace beside one with a gap -/
example : (∃ x : Fin 3 → ℝ, ∀ k, (![some 1, some 4, some 5] : Fin 3 → Option ℝ) k = some (x k)) ∧
    ∃ k, (![some 1, none, some 5] : Fin 3 → Option ℝ) k = none :=
  ⟨⟨![1, 4, 5], fun k => by fin_cases k <;> rfl⟩, 1, rfl⟩

/-! ### C151: both wildcards -/

/-- C151: a path with a question mark or an asterisk is a pattern: the result is a list, or an error, but never a single result. Any other path is the name of one
file, and the result is never a list. -/
theorem c151_kinds (dir : List (Str × NpzFile)) (path : Str) (fuel : Nat) :
    (('*' ∈ path ∨ '?' ∈ path) → ∀ r, readDvPath dir fuel path ≠ some (.ok (.one r))) ∧
    (¬ ('*' ∈ path ∨ '?' ∈ path) → ∀ l, readDvPath dir fuel path ≠ some (.ok (.many l))) := by
  cases fuel with
  | zero => simp [readDvPath]
  | succ fuel =>
    refine ⟨fun h r => ?_, fun h l => ?_⟩
    · have hw : hasWildcard path = true := by simpa [hasWildcard] using h
      rw [readDvPath, if_pos hw]
      cases readDvPath.go dir fuel (globDir dir path) with
      | none => simp
      | some x => cases x with
        | error e => simp
        | ok l => simp only; split <;> simp
    · have hw : ¬ hasWildcard path = true := by simpa [hasWildcard] using h
      rw [readDvPath, if_neg hw]
      cases readDvFile dir path <;> simp [Except.map]

/-- both kinds of paths -/
example : ('*' ∈ c!"DV-?.npz" ∨ '?' ∈ c!"DV-?.npz") ∧ ¬ ('*' ∈ c!"DV-A.npz" ∨ '?' ∈ c!"DV-A.npz") := by decide

/-! ### C193: start lags of shifted correlations -/

/-- C193 (part): with an offset of the starts of the two traces of whole seconds, and whole numbers for the rate and `lengthToSave`, the start lag is exactly
`-lengthToSave - offset`, in seconds. Missing: other offsets, see `c193_exact_violated`. -/
theorem c193_offset_partial (sr lts : Nat) (o : Int) (hsr : 0 < sr) (hl : (lts : Int) + |o| ≤ 2 ^ 24) (h : ((lts : Int) + |o|) * sr ≤ 2 ^ 53) :
    startLagF sr lts o = -(lts : Rat) - o := by
  have ho : 0 ≤ |o| := abs_nonneg o
  have hsr' : (0 : Rat) < sr := by exact_mod_cast hsr
  have hs := (c193_whole_partial sr lts hsr (by omega) (by zify; nlinarith)).1
  have hro : roffsetF sr o = o := by
    unfold roffsetF
    have e : (o : Rat) * sr = ((o * sr : Int) : Rat) := by push_cast; rfl
    rw [e, f64_int _ (by rw [abs_mul, Nat.abs_cast]; nlinarith)]
    have ht : truncRat ((o * sr : Int) : Rat) = o * sr := by
      unfold truncRat
      split
      · rw [← Int.cast_neg, Rat.floor_intCast, neg_neg]
      · rw [Rat.floor_intCast]
    rw [ht]
    push_cast
    rw [mul_div_assoc, div_self hsr'.ne', mul_one]
    exact f64_int _ (by omega)
  have hq : -((savedSamplesF sr lts : Nat) : Rat) / sr = ((-(lts : Int) : Int) : Rat) := by
    rw [hs]; push_cast; field_simp
  unfold startLagF
  rw [hro, hq, f64_int _ (by rw [abs_neg, Nat.abs_cast]; omega)]
  have e : ((-(lts : Int) : Int) : Rat) - o = ((-(lts : Int) - o : Int) : Rat) := by push_cast; rfl
  have ha : |-(lts : Int) - o| ≤ 2 ^ 24 := by
    have := abs_sub (-(lts : Int)) o
    rw [abs_neg, Nat.abs_cast] at this
    omega
  rw [e, f64_int _ (by omega), f32_exact (representable_int 24 _ ha)]
  push_cast; rfl

/-- 25 Hz, 30 s on each side, the second trace starts 2 s earlier -/
example : startLagF 25 30 (-2) = -28 := by
  have := c193_offset_partial 25 30 (-2) (by norm_num) (by norm_num) (by norm_num)
  norm_num at this
  exact_mod_cast this

/-! ### C96: uneven axes -/

/-- C96: an axis with two neighbouring pairs of values that are not equally far apart is refused, whatever the other arguments are. -/
theorem c96_uneven (s1 s2 : ℝ × ℝ) (x y : List ℝ) (t dt vel mf : ℝ) (hdt : 0 < dt)
    (h : (∃ i, i + 1 < x.length ∧ x.getD (i + 1) 0 - x.getD i 0 ≠ x.getD 1 0 - x.getD 0 0) ∨
      2 ≤ x.length ∧ 2 ≤ y.length ∧ ∃ i, i + 1 < y.length ∧ y.getD (i + 1) 0 - y.getD i 0 ≠ y.getD 1 0 - y.getD 0 0) :
    sensitivityKernel s1 s2 x y t dt vel mf = .error .valueError := by
  have key : ∀ z : List ℝ, (∃ i, i + 1 < z.length ∧ z.getD (i + 1) 0 - z.getD i 0 ≠ z.getD 1 0 - z.getD 0 0) → ¬ evenlySpaced z := by
    rintro z ⟨i, hi, hne⟩ he
    refine hne (he _ ?_)
    rw [List.mem_iff_getElem?]
    refine ⟨i, ?_⟩
    rw [List.getElem?_zipWith, List.getElem?_tail, List.getElem?_eq_getElem (by omega), List.getElem?_eq_getElem hi]
    simp [List.getD_eq_getElem?_getD, List.getElem?_eq_getElem hi, List.getElem?_eq_getElem (show i < z.length by omega)]
  have len : ∀ z : List ℝ, (∃ i, i + 1 < z.length ∧ z.getD (i + 1) 0 - z.getD i 0 ≠ z.getD 1 0 - z.getD 0 0) → ¬ z.length < 2 := by
    rintro z ⟨i, hi, hne⟩; omega
  unfold sensitivityKernel
  rcases h with h | ⟨hx, hy, h⟩
  · simp [not_le.2 hdt, len x h, key x h, bind, Except.bind, throw, throwThe, MonadExceptOf.throw]
  · by_cases he : evenlySpaced x
    · simp [not_le.2 hdt, not_lt.2 hx, not_lt.2 hy, he, key y h, bind, Except.bind, throw, throwThe, MonadExceptOf.throw]
    · simp [not_le.2 hdt, not_lt.2 hx, he, bind, Except.bind, throw, throwThe, MonadExceptOf.throw]

/-- the values 0, 1 and 3 -/
example : sensitivityKernel (0, 0) (1, 1) [0, 1, 3] [0, 1] 10 1 1 10 = .error .valueError :=
  c96_uneven _ _ _ _ _ _ _ _ (by norm_num) (.inl ⟨1, by decide, by norm_num⟩)

/-! ### C138: the a-priori covariance -/

/-- C138: the a-priori covariance of two cells of the grid in an inversion falls off with the distance of the cells in both coordinates:
`(std · scaling / length)² exp(- distance / length)`. -/
theorem c138_covariance (env : GridEnv) (cm : CmArgs) (p : Prepared) (C : Matrix (Fin env.cells.length) (Fin env.cells.length) ℝ)
    (D : Matrix (Fin p.rows.length) (Fin p.rows.length) ℝ) (h : covariances env cm p = .ok (C, D)) (i j : Fin env.cells.length) :
    C i j = ((cm.stdModel : ℝ) * cm.scaling / cm.corrLen) ^ 2 *
      Real.exp (-Real.sqrt ((((env.cells.get i).1 : ℝ) - (env.cells.get j).1) ^ 2 + (((env.cells.get i).2 : ℝ) - (env.cells.get j).2) ^ 2) / cm.corrLen) := by
  unfold covariances at h
  cases hd : dataCovariance (rowCorrs p.rows) p.freq0 p.freq1 ((p.tw.1 : ℝ), (p.tw.2 : ℝ)) with
  | error e => rw [hd] at h; simp [bind, Except.bind] at h
  | ok cd =>
    rw [hd] at h
    simp only [bind, Except.bind, pure, Except.pure, Except.ok.injEq, Prod.mk.injEq] at h
    rw [← h.1]
    simp [modelCovariance, planeDist, cellPos]

/-- the covariances of an inversion without data exist -/
example (env : GridEnv) (cm : CmArgs) (p : Prepared) (hp : p.rows = []) : ∃ C D, covariances env cm p = .ok (C, D) := by
  obtain ⟨rows, tw, f0, f1⟩ := p
  subst hp
  exact ⟨_, _, rfl⟩

end SeisMIC
