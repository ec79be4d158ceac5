import Verif.Model.ToMatrix
import Verif.Props.StreamSelect

/-!
# C228: the matrix of a stream
-/

namespace SeisMIC

variable {V : Type}

/-! ### Specification -/

/-- The code matches the pattern, if there is one, without regard to case. -/
def CodeOk (pat : Option Str) (code : Str) : Prop := ∀ p, pat = some p → fnmatch (code.map Char.toUpper) (p.map Char.toUpper) = true

/-- The correlation was asked for: codes match, and its window ends in the requested time. -/
def AskedFor (c : Codes) (times : Option (Int × Int)) (tr : CTr V) : Prop :=
  CodeOk c.network tr.stats.network ∧ CodeOk c.station tr.stats.station ∧ CodeOk c.location tr.stats.location ∧ CodeOk c.channel tr.stats.channel ∧
    ∀ a b, times = some (a, b) → a < tr.stats.corrEnd ∧ tr.stats.corrEnd ≤ b

open Classical in
/-- the correlations that were asked for, in the order of the stream -/
noncomputable def askedFor (c : Codes) (times : Option (Int × Int)) (st : List (CTr V)) : List (CTr V) := st.filter fun tr => decide (AskedFor c times tr)

/-! ### Lemmas -/

theorem codeMatches_iff (pat : Option Str) (code : Str) : codeMatches pat code = true ↔ CodeOk pat code := by
  unfold codeMatches CodeOk
  cases pat <;> simp

/-- the traces whose data fill the rows, in order of the rows -/
def matrixTraces (st : List (CTr V)) (c : Codes) (times : Option (Int × Int)) : List (CTr V) :=
  isort startLe (match times with
    | some (a, b) => selectCorrTime (selectCodes st c) a b true
    | none => selectCodes st c)

theorem matrixTraces_perm (st : List (CTr V)) (c : Codes) (times : Option (Int × Int)) (ht : ∀ a b, times = some (a, b) → a < b) :
    (matrixTraces st c times).Perm (askedFor c times st) := by
  classical
  unfold matrixTraces askedFor
  refine (isort_perm _ _).trans ?_
  cases times with
  | none =>
    refine List.Perm.of_eq ?_
    unfold selectCodes
    refine List.filter_congr fun tr _ => ?_
    rw [Bool.eq_iff_iff, decide_eq_true_iff]
    simp only [Bool.and_eq_true, codeMatches_iff, AskedFor]
    constructor
    · rintro ⟨⟨⟨h1, h2⟩, h3⟩, h4⟩
      exact ⟨h1, h2, h3, h4, fun a b h => by cases h⟩
    · rintro ⟨h1, h2, h3, h4, -⟩
      exact ⟨⟨⟨h1, h2⟩, h3⟩, h4⟩
  | some t =>
    obtain ⟨a, b⟩ := t
    refine (c23_select_exact (selectCodes st c) a b true fun _ => ht a b rfl).1.trans (List.Perm.of_eq ?_)
    unfold selectCodes
    rw [List.filter_filter]
    refine List.filter_congr fun tr _ => ?_
    rw [Bool.eq_iff_iff, decide_eq_true_iff (p := AskedFor c (some (a, b)) tr)]
    simp only [Bool.and_eq_true, decide_eq_true_eq, codeMatches_iff, AskedFor, InWindow, if_true]
    constructor
    · rintro ⟨h5, ⟨⟨h1, h2⟩, h3⟩, h4⟩
      exact ⟨h1, h2, h3, h4, fun a' b' h => by cases h; exact h5⟩
    · rintro ⟨h1, h2, h3, h4, h5⟩
      exact ⟨h5 a b rfl, ⟨⟨h1, h2⟩, h3⟩, h4⟩

theorem toMatrix_eq (st : List (CTr V)) (c : Codes) (times : Option (Int × Int)) :
    toMatrix st c times = match matrixTraces st c times with
      | [] => .error .indexError
      | first :: rest => ((first :: rest).mapM fun tr => assignMatrixRow first.stats.npts.toNat tr.data) >>= fun rows =>
        .ok (rows, (first :: rest).map fun tr => tr.stats) := by
  unfold toMatrix matrixTraces
  cases times with
  | none =>
    simp only
    split <;> rename_i h <;> simp [h] <;> rfl
  | some t =>
    simp only
    split <;> rename_i h <;> simp [h] <;> rfl

/-! ### C228 -/

/-- **C228** (rows). If all correlations that were asked for have the number of samples `n` that their headers tell, and there is at least one, the matrix has one row
for each of them, with its data, in order of time; the headers are in the same order. -/
theorem c228_rows_partial (st : List (CTr V)) (c : Codes) (times : Option (Int × Int)) (ht : ∀ a b, times = some (a, b) → a < b) (n : Nat)
    (hn : ∀ tr ∈ st, AskedFor c times tr → tr.stats.npts = n ∧ tr.data.length = n) (tr : CTr V) (htr : tr ∈ st) (hask : AskedFor c times tr) :
    ∃ sel : List (CTr V), sel.Perm (askedFor c times st) ∧ sel.Pairwise (fun x y => x.stats.corrStart ≤ y.stats.corrStart) ∧
      toMatrix st c times = .ok (sel.map fun tr => tr.data, sel.map fun tr => tr.stats) := by
  classical
  have hp := matrixTraces_perm st c times ht
  have hmem : ∀ x, x ∈ matrixTraces st c times ↔ x ∈ st ∧ AskedFor c times x := by
    intro x
    rw [hp.mem_iff]
    unfold askedFor
    simp
  refine ⟨matrixTraces st c times, hp, isort_startLe_sorted _, ?_⟩
  rw [toMatrix_eq]
  have hne : matrixTraces st c times ≠ [] := List.ne_nil_of_mem ((hmem tr).2 ⟨htr, hask⟩)
  cases hm : matrixTraces st c times with
  | nil => exact absurd hm hne
  | cons first rest =>
    have hall : ∀ x ∈ first :: rest, x.stats.npts = n ∧ x.data.length = n := fun x hx =>
      hn x ((hmem x).1 (hm ▸ hx)).1 ((hmem x).1 (hm ▸ hx)).2
    have hrows : (first :: rest).mapM (fun tr => assignMatrixRow first.stats.npts.toNat tr.data) = .ok ((first :: rest).map fun tr => tr.data) := by
      refine mapM_ok _ _ _ fun x hx => ?_
      unfold assignMatrixRow
      rw [if_pos]
      rw [(hall x hx).2, (hall first (by simp)).1]
      simp
    simp only [hrows]
    rfl

/-- **C228** (nothing found). If no correlation was asked for, there is an `IndexError`. -/
theorem c228_none (st : List (CTr V)) (c : Codes) (times : Option (Int × Int)) (ht : ∀ a b, times = some (a, b) → a < b)
    (h : ∀ tr ∈ st, ¬ AskedFor c times tr) : toMatrix st c times = .error .indexError := by
  classical
  rw [toMatrix_eq]
  have hp := matrixTraces_perm st c times ht
  have he : askedFor c times st = [] := by
    unfold askedFor
    rw [List.filter_eq_nil_iff]
    intro x hx
    simpa using h x hx
  rw [he] at hp
  rw [hp.eq_nil]

/-- **C228** (different lengths). If two correlations that were asked for have different numbers of samples, none of them one, there is a `ValueError`: nothing is cut
or filled. -/
theorem c228_refused (st : List (CTr V)) (c : Codes) (times : Option (Int × Int)) (ht : ∀ a b, times = some (a, b) → a < b)
    (x y : CTr V) (hx : x ∈ st) (hy : y ∈ st) (ax : AskedFor c times x) (ay : AskedFor c times y)
    (hxy : x.data.length ≠ y.data.length) (h1 : x.data.length ≠ 1) (h2 : y.data.length ≠ 1) : toMatrix st c times = .error .valueError := by
  classical
  have hp := matrixTraces_perm st c times ht
  have hmem : ∀ x, x ∈ matrixTraces st c times ↔ x ∈ st ∧ AskedFor c times x := by
    intro x
    rw [hp.mem_iff]
    unfold askedFor
    simp
  rw [toMatrix_eq]
  cases hm : matrixTraces st c times with
  | nil =>
    have := (hmem x).2 ⟨hx, ax⟩
    rw [hm] at this
    cases this
  | cons first rest =>
    have hbad : ∃ z ∈ first :: rest, z.data.length ≠ first.stats.npts.toNat ∧ z.data.length ≠ 1 := by
      rw [← hm]
      by_cases h : x.data.length = first.stats.npts.toNat
      · exact ⟨y, (hmem y).2 ⟨hy, ay⟩, by omega, h2⟩
      · exact ⟨x, (hmem x).2 ⟨hx, ax⟩, h, h1⟩
    have key : ∀ (n : Nat) (l : List (CTr V)), (∃ z ∈ l, z.data.length ≠ n ∧ z.data.length ≠ 1) →
        l.mapM (fun tr => assignMatrixRow n tr.data) = .error .valueError := by
      intro n l
      induction l with
      | nil => rintro ⟨z, hz, -⟩; cases hz
      | cons a l ih =>
        rintro ⟨z, hz, g1, g2⟩
        rw [List.mapM_cons]
        have hcase : assignMatrixRow n a.data = .error .valueError ∨ ∃ r, assignMatrixRow n a.data = .ok r := by
          unfold assignMatrixRow
          split
          · exact Or.inr ⟨_, rfl⟩
          · split
            · exact Or.inr ⟨_, rfl⟩
            · exact Or.inl rfl
        rcases hcase with he | ⟨r, hr⟩
        · rw [he]
          rfl
        · rcases List.mem_cons.1 hz with rfl | hz'
          · exfalso
            unfold assignMatrixRow at hr
            rw [if_neg g1] at hr
            split at hr
            · rename_i hd
              rw [hd] at g2
              exact g2 rfl
            · cases hr
          · rw [hr, ih ⟨z, hz', g1, g2⟩]
            rfl
    simp only [key _ _ hbad]
    rfl

example : toMatrix [exTr c!"S-S" 20 30 [some 1, some 2], exTr c!"S-S" 0 10 [some 5, none, some 2]] ⟨none, none, none, none⟩ none = .error .valueError := by
  decide +kernel

example : toMatrix [exTr c!"S-S" 20 30 [some 1, some 2], exTr c!"T-T" 0 10 [some 3], exTr c!"S-S" 0 10 [some 5, none]] ⟨none, some c!"s*", none, none⟩ (some (0, 40)) =
    .ok ([[some 5, none], [some 1, some 2]], [(exTr c!"S-S" 0 10 [some 5, none]).stats, (exTr c!"S-S" 20 30 [some 1, some 2]).stats]) := by
  decide +kernel

/-- **C228** (violated). A correlation of a single sample is not refused but repeated over its whole row. -/
theorem c228_single_violated : toMatrix [exTr c!"S-S" 0 10 [some 1, some 2], exTr c!"S-S" 20 30 [some 7]] ⟨none, none, none, none⟩ none =
    .ok ([[some 1, some 2], [some 7, some 7]], [(exTr c!"S-S" 0 10 [some 1, some 2]).stats, (exTr c!"S-S" 20 30 [some 7]).stats]) := by
  decide +kernel

end SeisMIC
