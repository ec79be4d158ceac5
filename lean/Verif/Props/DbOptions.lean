import Verif.Lemmas.DbOptions

/-!
# Options, modes and compression of the correlation database: C16 - C19
-/

namespace SeisMIC

variable {ν : Type} [DecidableEq ν]

/-! ## C16 -/

/-- **C16** Different options are always refused: for all options `co0` with
which the database was created and all options `co` that differ from them in
anything that influences the correlations, opening raises `PermissionError`
unless forced. -/
theorem c16_different_refused (co0 co : Options ν) (h : ¬ SameRelevant co0 co) :
    openGuard (some (coToHdf5 co0)) (some co) false = .error .permissionError := by
  unfold openGuard
  simp only
  rw [if_pos]
  have hne : ¬ optionsEq (coToHdf5 (coToHdf5 co0)) (coToHdf5 co) = true := by
    intro he
    apply h
    rw [optionsEq_iff] at he
    obtain ⟨h1, h2, h3, h4⟩ := he
    have k1 := (converted_lookups (coToHdf5 co0) co).1.1 h1
    have k2 := (converted_lookups (coToHdf5 co0) co).2.1.1 h2
    have k3 := (converted_lookups (coToHdf5 co0) co).2.2.1 h3
    refine ⟨?_, ?_, ?_, ?_⟩
    · intro k hk; rw [← k1 k hk, lookup_other, if_neg hk]
    · intro k hk; rw [← k2 k hk, lookup_corrArgs, if_neg hk]
    · intro k hk hk'; rw [← k3 k hk hk', lookup_subdivision, if_neg (by simp only [hk, hk', or_self, not_false_eq_true])]
    · rw [← coToHdf5_pre_filter co, ← h4, coToHdf5_pre_filter, coToHdf5_pre_filter]
  rw [Bool.not_eq_true] at hne
  simp [hne]

/-- **C16** Equal options are never refused, if neither list of preprocessing
steps contains two consecutive masking steps. Missing: consecutive masking
steps, see `c16_equal_accepted_violated`. -/
theorem c16_equal_accepted_partial (co0 co : Options ν) (force : Bool) (h : SameRelevant co0 co)
    (h0 : NoAdjacentMasks co0) (h1 : NoAdjacentMasks co) :
    openGuard (some (coToHdf5 co0)) (some co) force = .ok (some (coToHdf5 co0)) := by
  unfold openGuard
  simp only
  have he : optionsEq (coToHdf5 (coToHdf5 co0)) (coToHdf5 co) = true := by
    rw [optionsEq_iff]
    obtain ⟨k1, k2, k3, k4⟩ := h
    refine ⟨?_, ?_, ?_, ?_⟩
    · rw [(converted_lookups _ _).1]
      intro k hk; rw [lookup_other, if_neg hk, k1 k hk]
    · rw [(converted_lookups _ _).2.1]
      intro k hk; rw [lookup_corrArgs, if_neg hk, k2 k hk]
    · rw [(converted_lookups _ _).2.2]
      intro k hk hk'
      rw [lookup_subdivision, if_neg (by simp only [hk, hk', or_self, not_false_eq_true]), k3 k hk hk']
    · have hno : NoAdjacentMasks (coToHdf5 co0) := by
        intro l hl i x y hx _ hxy
        rw [coToHdf5_pre co0 h0] at hl
        obtain ⟨l0, hl0, rfl⟩ := Option.map_eq_some_iff.1 hl
        have := List.mem_of_getElem? hx
        rw [List.mem_filter] at this
        simp [hxy.1] at this
      rw [coToHdf5_pre _ hno, coToHdf5_pre_filter, coToHdf5_pre co h1, k4]
  simp [he]

/-- **C16** With `force` nothing is refused; without stored options they are
stored; without options nothing is checked. -/
theorem c16_otherwise (stored : Option (Options ν)) (co : Options ν) (force : Bool) :
    openGuard stored (none : Option (Options ν)) force = .ok stored ∧
    openGuard none (some co) force = .ok (some (coToHdf5 co)) ∧
    (∀ old, openGuard (some old) (some co) true = .ok (some old)) := by
  refine ⟨rfl, rfl, ?_⟩
  intro old
  unfold openGuard
  simp

/-- the options stored first stay, whatever is opened later and however often -/
theorem c16_stored_options_stay (co0 : Options ν) (l : List (Option (Options ν) × Bool)) :
    l.foldl (fun (s : Option (Options ν)) c => match openGuard s c.1 c.2 with
      | .ok s' => s'
      | .error _ => s) (some (coToHdf5 co0)) = some (coToHdf5 co0) := by
  induction l with
  | nil => rfl
  | cons c l ih =>
    rw [List.foldl_cons]
    have : (match openGuard (some (coToHdf5 co0)) c.1 c.2 with
      | .ok s' => s'
      | .error _ => some (coToHdf5 co0)) = some (coToHdf5 co0) := by
      unfold openGuard
      rcases c with ⟨_ | co, b⟩
      · rfl
      · simp only; split <;> simp_all
        rename_i h; split at h <;> simp_all
    rw [this]; exact ih

def exampleOptions (len : Nat) (steps : List (ProcStep Nat)) : Options Nat :=
  { other := [(c!"sampling_rate", 25), (c!"read_len", len)]
    corrArgs := [(c!"lengthToSave", 100), (c!"combinations", 1)]
    subdivision := [(c!"corr_len", 3600), (c!"delete_subdivision", 0)]
    preProcessing := some steps }

/-- options that differ in the reading length and a masking step agree in what
is relevant and are accepted; other lengths of the correlation are refused -/
example :
    let a := exampleOptions 86400 [⟨c!"seismic.preprocessing_stream.cos_taper_st", 1⟩,
      ⟨c!"seismic.preprocessing_stream.stream_mask_at_utc", 2⟩]
    let b := exampleOptions 3600 [⟨c!"seismic.preprocessing_stream.cos_taper_st", 1⟩]
    let c := { b with corrArgs := [(c!"lengthToSave", 50)] }
    openGuard (some (coToHdf5 a)) (some b) false = .ok (some (coToHdf5 a)) ∧
    openGuard (some (coToHdf5 a)) (some c) false = .error .permissionError := by
  decide

/-- **C16** is violated: with two consecutive masking steps a database that has
just been created with some options is refused when opened again with the same
options. -/
theorem c16_equal_accepted_violated :
    let m (n : Nat) : ProcStep Nat := ⟨c!"seismic.preprocessing_stream.stream_mask_at_utc", n⟩
    let co := exampleOptions 86400 [m 1, m 2]
    SameRelevant co co ∧
    openGuard none (some co) false = .ok (some (coToHdf5 co)) ∧
    openGuard (some (coToHdf5 co)) (some co) false = .error .permissionError := by
  refine ⟨⟨fun _ _ => rfl, fun _ _ => rfl, fun _ _ _ => rfl, rfl⟩, by decide, by decide⟩

/-! ## C17 -/

/-- **C17** (what is removed) The stored options contain none of the keys that do
not influence the correlations and all others unchanged; steps that do not mask
are kept in order; with no two consecutive masking steps no masking step is
kept. -/
theorem c17_what_is_stored (co : Options ν) :
    (∀ k ∈ ignoredKeys, (coToHdf5 co).other.lookup k = none) ∧
    (∀ k, k ∉ ignoredKeys → (coToHdf5 co).other.lookup k = co.other.lookup k) ∧
    (coToHdf5 co).corrArgs.lookup "combinations".toList = none ∧
    (coToHdf5 co).preProcessing.map (fun l => l.filter fun s => !isMask s) =
      co.preProcessing.map (fun l => l.filter fun s => !isMask s) ∧
    (NoAdjacentMasks co →
      (coToHdf5 co).preProcessing = co.preProcessing.map fun l => l.filter fun s => !isMask s) := by
  refine ⟨?_, ?_, ?_, coToHdf5_pre_filter co, coToHdf5_pre co⟩
  · intro k hk; rw [lookup_other, if_pos hk]
  · intro k hk; rw [lookup_other, if_neg hk]
  · rw [lookup_corrArgs, if_pos rfl]

theorem filter_idem (keys : List Str) (d : List (Str × ν)) :
    keys.foldl (fun d k => popKey k d) d = d.filter fun e => !(keys.contains e.1) := by
  induction keys generalizing d with
  | nil =>
    simp only [List.foldl_nil]
    exact (List.filter_eq_self.2 (by simp)).symm
  | cons a l ih =>
    rw [List.foldl_cons, ih]
    unfold popKey
    rw [List.filter_filter]
    apply List.filter_congr
    intro e _
    by_cases h : e.1 = a <;> simp [h]

/-- **C17** (idempotent) for options without two consecutive masking steps.
Missing for the full property: `c17_idempotent_violated`. -/
theorem c17_idempotent_partial (co : Options ν) (h : NoAdjacentMasks co) :
    coToHdf5 (coToHdf5 co) = coToHdf5 co := by
  have hno : NoAdjacentMasks (coToHdf5 co) := by
    intro l hl i x y hx _ hxy
    rw [coToHdf5_pre co h] at hl
    obtain ⟨l0, hl0, rfl⟩ := Option.map_eq_some_iff.1 hl
    have := List.mem_of_getElem? hx
    rw [List.mem_filter] at this
    simp [hxy.1] at this
  have h4 : (coToHdf5 (coToHdf5 co)).preProcessing = (coToHdf5 co).preProcessing := by
    rw [coToHdf5_pre _ hno, coToHdf5_pre_filter, coToHdf5_pre co h]
  have h1 : (coToHdf5 (coToHdf5 co)).other = (coToHdf5 co).other := by
    unfold coToHdf5
    simp only [filter_idem, List.filter_filter, Bool.and_self]
  have h2 : (coToHdf5 (coToHdf5 co)).corrArgs = (coToHdf5 co).corrArgs := by
    unfold coToHdf5 popKey
    simp only [List.filter_filter, Bool.and_self]
  have h3 : (coToHdf5 (coToHdf5 co)).subdivision = (coToHdf5 co).subdivision := by
    unfold coToHdf5 popKey
    simp only [List.filter_filter]
    apply List.filter_congr
    intro e _
    cases decide (e.1 ≠ c!"delete_subdivision") <;> cases decide (e.1 ≠ c!"recombine_subdivision") <;> rfl
  rcases hh : coToHdf5 (coToHdf5 co) with ⟨a, b, c, d⟩
  rcases hg : coToHdf5 co with ⟨a', b', c', d'⟩
  rw [hh, hg] at h1 h2 h3 h4
  simp_all

/-- **C17** is violated for two consecutive masking steps. -/
theorem c17_idempotent_violated :
    let m (n : Nat) : ProcStep Nat := ⟨c!"seismic.preprocessing_stream.stream_mask_at_utc", n⟩
    coToHdf5 (coToHdf5 (exampleOptions 86400 [m 1, m 2])) ≠ coToHdf5 (exampleOptions 86400 [m 1, m 2]) := by
  decide

/-! ## C18 -/

/-- **C18** (mode) -/
theorem c18_mode (hasOptions force : Bool) (mode path : Str) :
    (openMode hasOptions mode force path).1 =
      if hasOptions = false ∧ force = false then "r".toList else mode := by
  unfold openMode
  simp only
  by_cases hm : mode = c!"r"
  · cases hasOptions <;> cases force <;> simp [hm]
  · cases hasOptions <;> cases force <;> simp [hm]

theorem getLastD_splitOn (c : Char) (s t : Str) (h : c ∉ t) :
    (splitOn c (s ++ c :: t)).getLastD [] = t := by
  induction s with
  | nil => simp [splitOn, splitOn_eq_single c t h]
  | cons d s ih =>
    simp only [List.cons_append, splitOn]
    split
    · rcases hh : splitOn c (s ++ c :: t) with _ | ⟨x, l⟩
      · exact absurd hh (splitOn_ne_nil _ _)
      · rw [hh] at ih; simpa using ih
    · have hne : splitOn c (s ++ c :: t) ≠ [] := splitOn_ne_nil _ _
      have h2 : 2 ≤ (splitOn c (s ++ c :: t)).length := by
        clear ih hne
        induction s with
        | nil => simp [splitOn, splitOn_eq_single c t h]
        | cons e s ih =>
          simp only [List.cons_append, splitOn]
          split
          · simp; have := List.length_pos_iff.2 (splitOn_ne_nil c (s ++ c :: t)); omega
          · split
            · rename_i h; simp [h] at ih
            · rename_i h; simpa [h] using ih
      rcases hh : splitOn c (s ++ c :: t) with _ | ⟨x, _ | ⟨y, l⟩⟩
      · exact absurd hh hne
      · rw [hh] at h2; simp at h2
      · rw [hh] at ih; simpa using ih

theorem getLastD_splitOn_decomp (c : Char) (s : Str) :
    (c ∉ s ∧ (splitOn c s).getLastD [] = s) ∨
    ∃ u, s = u ++ c :: (splitOn c s).getLastD [] := by
  by_cases h : c ∈ s
  · right
    -- last occurrence
    obtain ⟨u, t, hs, ht⟩ : ∃ u t, s = u ++ c :: t ∧ c ∉ t := by
      induction s with
      | nil => simp at h
      | cons d s ih =>
        by_cases hc : c ∈ s
        · obtain ⟨u, t, rfl, ht⟩ := ih hc
          exact ⟨d :: u, t, by simp, ht⟩
        · have : c = d := by simpa [hc] using h
          subst this
          exact ⟨[], s, by simp, hc⟩
    exact ⟨u, by rw [hs, getLastD_splitOn c u t ht]⟩
  · left; exact ⟨h, by simp [splitOn_eq_single c s h]⟩

/-- **C18** (file name) The name ends in `.h5`; a suffix that is there is not
doubled, and if there is none it is appended. (A path that is just `h5` is left
as it is.) -/
theorem c18_file_name (hasOptions force : Bool) (mode path : Str) (h : path ≠ "h5".toList) :
    let r := (openMode hasOptions mode force path).2
    (∃ u, r = u ++ ".h5".toList) ∧
    ((∃ u, path = u ++ ".h5".toList) → r = path) ∧
    ((¬ ∃ u, path = u ++ ".h5".toList) → r = path ++ ".h5".toList) := by
  have hd : (".h5".toList : Str) = '.' :: c!"h5" := rfl
  have h5 : ("h5".toList : Str) = c!"h5" := rfl
  intro r
  have hr : r = if (splitOn '.' path).getLastD [] = c!"h5" then path else path ++ c!".h5" := rfl
  have key : (splitOn '.' path).getLastD [] = c!"h5" ↔ ∃ u, path = u ++ ".h5".toList := by
    constructor
    · intro hh
      obtain ⟨_, h2⟩ | ⟨u, hu⟩ := getLastD_splitOn_decomp '.' path
      · rw [h2] at hh; exact absurd hh h
      · rw [hh] at hu; exact ⟨u, hu⟩
    · rintro ⟨u, rfl⟩
      rw [hd, getLastD_splitOn '.' u c!"h5" (by decide)]
  by_cases hh : (splitOn '.' path).getLastD [] = c!"h5"
  · rw [if_pos hh] at hr
    rw [hr]
    exact ⟨key.1 hh, fun _ => rfl, fun hn => absurd (key.1 hh) hn⟩
  · rw [if_neg hh] at hr
    rw [hr]
    exact ⟨⟨path, rfl⟩, fun hn => absurd (key.2 hn) hh, fun _ => rfl⟩

example : openMode false c!"a" false c!"/corr/XN-XN.A-B" = (c!"r", c!"/corr/XN-XN.A-B.h5") ∧
    openMode true c!"a" false c!"XN-XN.A-B.h5" = (c!"a", c!"XN-XN.A-B.h5") ∧
    openMode true c!"a" false c!"h5" = (c!"a", c!"h5") := by decide

/-! ## C19 -/

/-- distance of two numbers -/
def natDist (a b : Nat) : Nat := (a - b) + (b - a)

theorem compressionLevel_eq (n : Nat) : compressionLevel n = if n = 0 then 1 else if n ≤ 9 then n else 9 := by
  by_cases h : n ≤ 9
  · have : n ∈ List.range 10 := List.mem_range.2 (by omega)
    revert this
    generalize hn : n = m
    intro hm
    have : ∀ m ∈ List.range 10, compressionLevel m = if m = 0 then 1 else if m ≤ 9 then m else 9 := by decide
    exact this m hm
  · have h0 : n ≠ 0 := by omega
    rw [if_neg h0, if_neg h]
    unfold compressionLevel
    have hr : (List.range 9).map (· + 1) = [1, 2, 3, 4, 5, 6, 7, 8, 9] := by decide
    simp only [hr]
    have hc : ([1, 2, 3, 4, 5, 6, 7, 8, 9] : List Nat).contains n = false := by
      rw [Bool.eq_false_iff]; intro hc
      rw [List.contains_iff_mem] at hc
      simp at hc; omega
    rw [hc]
    have ha : argminFirst (([1, 2, 3, 4, 5, 6, 7, 8, 9] : List Nat).map fun a => (a - n) + (n - a)) = 8 := by
      have step : ∀ (x y : Nat) (l : List Nat), y < x → argminFirst (x :: y :: l) = argminFirst (y :: l) + 1 := by
        intro x y l h
        rw [argminFirst, if_neg]
        simp; omega
      simp only [List.map_cons, List.map_nil]
      rw [step _ _ _ (by omega), step _ _ _ (by omega), step _ _ _ (by omega), step _ _ _ (by omega),
        step _ _ _ (by omega), step _ _ _ (by omega), step _ _ _ (by omega), step _ _ _ (by omega)]
      rfl
    rw [ha]; rfl

/-- **C19** (level) For every requested level the effective level is between 1
and 9 and no other valid level is closer. -/
theorem c19_level (n : Nat) :
    1 ≤ compressionLevel n ∧ compressionLevel n ≤ 9 ∧
    (1 ≤ n → n ≤ 9 → compressionLevel n = n) ∧
    ∀ k, 1 ≤ k → k ≤ 9 → natDist (compressionLevel n) n ≤ natDist k n := by
  rw [compressionLevel_eq]
  unfold natDist
  refine ⟨?_, ?_, ?_, ?_⟩
  · split
    · omega
    · split <;> omega
  · split
    · omega
    · split <;> omega
  · intro h1 h2; rw [if_neg (by omega), if_pos h2]
  · intro k h1 h2
    split
    · omega
    · split <;> omega

theorem compAt_letters (a ds : Str) (ha : a ≠ []) (hl : ∀ c ∈ a, c.isAlpha = true)
    (hd : ds ≠ []) (hds : ∀ c ∈ ds, c.isDigit = true) : compAt (a ++ ds) = some (a, ds) := by
  have tw : ds.takeWhile Char.isDigit = ds := by
    clear hd
    induction ds with
    | nil => rfl
    | cons d ds ih =>
      rw [List.takeWhile_cons, if_pos (hds d (by simp)), ih fun c hc => hds c (by simp [hc])]
  induction a with
  | nil => exact absurd rfl ha
  | cons c a ih =>
    have hc : isWordChar c = true := by
      unfold isWordChar Char.isAlphanum; simp [hl c (by simp)]
    simp only [List.cons_append, compAt, hc, if_true]
    cases a with
    | nil =>
      cases ds with
      | nil => exact absurd rfl hd
      | cons d ds =>
        have : d.isDigit = true := hds d (by simp)
        simp only [List.nil_append, List.head?_cons, Option.map_some, Option.getD_some, this, if_true, tw]
    | cons e a =>
      have he : e.isDigit = false := by
        have := hl e (by simp)
        rw [Bool.eq_false_iff]
        intro h
        simp only [Char.isDigit, Char.isAlpha, Char.isUpper, Char.isLower, Bool.or_eq_true, Bool.and_eq_true,
          decide_eq_true_eq, ge_iff_le, UInt32.le_iff_toNat_le] at this h
        simp at this h
        omega
      simp only [List.cons_append, List.head?_cons, Option.map_some, Option.getD_some, he, Bool.false_eq_true, if_false]
      have := ih (by simp) (fun x hx => hl x (by simp [hx]))
      simp only [List.cons_append] at this
      rw [this]; rfl

/-- **C19** A string made of the name of a method and a level: `gzip` is
accepted with the closest valid level, every other method raises
`ValueError`. -/
theorem c19_method_and_level (alg ds : Str) (ha : alg ≠ []) (hl : ∀ c ∈ alg, c.isAlpha = true)
    (hd : ds ≠ []) (hds : ∀ c ∈ ds, c.isDigit = true) :
    compressionOf (some (alg ++ ds)) =
      if alg = "gzip".toList then .ok (some ("gzip".toList, compressionLevel (natOfDigits ds)))
      else .error .valueError := by
  unfold compressionOf
  have hf : compFind (alg ++ ds) = some (alg, ds) := by
    have := compAt_letters alg ds ha hl hd hds
    cases alg with
    | nil => exact absurd rfl ha
    | cons c alg => simp only [List.cons_append, compFind] at this ⊢; rw [this]; rfl
  simp only [hf]
  by_cases h : alg = c!"gzip"
  · have h' : alg = "gzip".toList := h
    rw [if_pos h', if_neg (by simp [h]), h]; rfl
  · have h' : ¬ alg = "gzip".toList := h
    rw [if_neg h', if_pos h]

/-- **C19** The name of a method and a number `n` written in decimal notation: `gzip` is accepted
with the level between 1 and 9 that is closest to `n`. -/
theorem c19_number (n : Nat) :
    ∃ k, compressionOf (some ("gzip".toList ++ (toString n).toList)) = .ok (some ("gzip".toList, k)) ∧
      1 ≤ k ∧ k ≤ 9 ∧ ∀ j, 1 ≤ j → j ≤ 9 → natDist k n ≤ natDist j n := by
  have hs : (toString n).toList = Nat.toDigits 10 n := Nat.toList_repr
  have hn : natOfDigits (Nat.toDigits 10 n) = n := by
    have h := Nat.ofDigitChars_toDigits (b := 10) (n := n) (by omega) (by omega)
    rw [Nat.ofDigitChars_eq_foldl] at h
    exact h
  refine ⟨compressionLevel n, ?_, (c19_level n).1, (c19_level n).2.1, (c19_level n).2.2.2⟩
  rw [hs, c19_method_and_level _ _ (by decide) (by decide) Nat.toDigits_ne_nil
    (fun c hc => Nat.isDigit_of_mem_toDigits (by omega) (by omega) hc), if_pos rfl, hn]

example : compressionOf (some "gzip12".toList) = .ok (some ("gzip".toList, 9)) := by rfl

/-- **C19** Whatever the string, what is accepted is gzip with a level between 1
and 9. -/
theorem c19_accepted_is_valid (s name : Str) (n : Nat)
    (h : compressionOf (some s) = .ok (some (name, n))) : name = "gzip".toList ∧ 1 ≤ n ∧ n ≤ 9 := by
  unfold compressionOf at h
  simp only at h
  split at h
  · cases h
  · split at h
    · cases h
    · rename_i hn
      simp at hn
      cases h
      exact ⟨hn, (c19_level _).1, (c19_level _).2.1⟩

theorem compAt_nodigit (s : Str) (h : ∀ c ∈ s, c.isDigit = false) : compAt s = none := by
  induction s with
  | nil => rfl
  | cons c s ih =>
    simp only [compAt]
    split
    · have : ¬ (s.head?.map Char.isDigit).getD false = true := by
        cases s with
        | nil => simp
        | cons d s => simp [h d (by simp)]
      rw [if_neg this, ih fun d hd => h d (by simp [hd])]; rfl
    · rfl

/-- **C19** A string without a level is rejected, though with `IndexError`. -/
theorem c19_no_level (s : Str) (h : ∀ c ∈ s, c.isDigit = false) :
    compressionOf (some s) = .error .indexError := by
  have : compFind s = none := by
    induction s with
    | nil => rfl
    | cons c s ih =>
      simp only [compFind]
      rw [compAt_nodigit _ h, ih fun d hd => h d (by simp [hd])]; rfl
  unfold compressionOf
  simp only [this]

example : compressionOf (some c!"gzip3") = .ok (some (c!"gzip", 3)) ∧
    compressionOf (some c!"gzip42") = .ok (some (c!"gzip", 9)) ∧
    compressionOf (some c!"lzf3") = .error .valueError ∧
    compressionOf (some c!"gzip") = .error .indexError ∧
    compressionOf none = .ok none := by decide

/-- **C19** is violated for strings with other text around: the first match in
the string is used. -/
theorem c19_other_rejected_violated :
    compressionOf (some c!"lzf, gzip5 or so") = .ok (some (c!"gzip", 5)) := by decide

end SeisMIC
