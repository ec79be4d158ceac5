import Verif.Model.MonitorFiles
import Verif.Lemmas.Glob
import Verif.Lemmas.Strings
import Mathlib.Tactic.Push

/-! # Files used for monitoring: C54, C55 -/

namespace SeisMIC

/-! ### C54 -/

/-- a code without the separators of a file name -/
def NameCode (s : Str) : Prop := '.' ∉ s ∧ '-' ∉ s

instance (s : Str) : Decidable (NameCode s) := by unfold NameCode; infer_instance

/-- name of the correlation file of two stations -/
def corrName (n1 n2 s1 s2 : Str) : Str := n1 ++ ['-'] ++ n2 ++ '.' :: (s1 ++ ['-'] ++ s2 ++ '.' :: c!"h5")

theorem allMatch_pair (a b p : Str) : allMatch [a, b] p = true ↔ fnmatch a p = true ∧ fnmatch b p = true := by
  unfold allMatch
  rw [decide_eq_true_eq, List.filter_eq_self]
  simp

theorem corrName_split (n1 n2 s1 s2 : Str) (h1 : NameCode n1) (h2 : NameCode n2) (h3 : NameCode s1) (h4 : NameCode s2) :
    splitOn '.' (corrName n1 n2 s1 s2) = [n1 ++ ['-'] ++ n2, s1 ++ ['-'] ++ s2, c!"h5"] ∧
    splitOn '-' (n1 ++ ['-'] ++ n2) = [n1, n2] ∧ splitOn '-' (s1 ++ ['-'] ++ s2) = [s1, s2] := by
  refine ⟨?_, splitOn_pair '-' n1 n2 h1.2 h2.2, splitOn_pair '-' s1 s2 h3.2 h4.2⟩
  unfold corrName
  rw [splitOn_append '.' _ _ (by simp [h1.1, h2.1]), splitOn_append '.' _ _ (by simp [h3.1, h4.1])]
  rfl

theorem corrName_glob (n1 n2 s1 s2 : Str) : fnmatch (corrName n1 n2 s1 s2) c!"*-*.*-*.h5" = true := by
  rw [fnmatch_star]
  refine ⟨n1, '-' :: (n2 ++ '.' :: (s1 ++ ['-'] ++ s2 ++ '.' :: c!"h5")), by simp [corrName], ?_⟩
  rw [fnmatch_cons _ _ _ (by decide)]
  refine ⟨_, rfl, ?_⟩
  rw [fnmatch_star]
  refine ⟨n2, _, rfl, ?_⟩
  rw [fnmatch_cons _ _ _ (by decide)]
  refine ⟨_, rfl, ?_⟩
  rw [fnmatch_star]
  refine ⟨s1, '-' :: (s2 ++ '.' :: c!"h5"), by simp, ?_⟩
  rw [fnmatch_cons _ _ _ (by decide)]
  refine ⟨_, rfl, ?_⟩
  rw [fnmatch_star]
  refine ⟨s2, _, rfl, ?_⟩
  rw [fnmatch_plain _ _ (by decide)]

/-- what the request for the networks or stations of a pair means in the program: one of
its patterns matches both codes -/
def NetReq.Pair (r : NetReq) (a b : Str) : Prop :=
  match r with
  | .one p => fnmatch a p = true ∧ fnmatch b p = true
  | .many l => ∃ p ∈ l, fnmatch a p = true ∧ fnmatch b p = true
  | .other => True

theorem mem_corrFindFilter (indir : Str) (listing : List Str) (net sta : NetReq) (n1 n2 s1 s2 : Str) (h1 : NameCode n1)
    (h2 : NameCode n2) (h3 : NameCode s1) (h4 : NameCode s2) (hl : corrName n1 n2 s1 s2 ∈ listing) :
    (n1 ++ ['-'] ++ n2, s1 ++ ['-'] ++ s2, indir ++ '/' :: corrName n1 n2 s1 s2) ∈ corrFindFilter indir listing net sta ↔
      fileSelected net sta (corrName n1 n2 s1 s2) = true := by
  obtain ⟨e1, e2, e3⟩ := corrName_split n1 n2 s1 s2 h1 h2 h3 h4
  have hh : (corrName n1 n2 s1 s2).head? ≠ some '.' := by
    unfold corrName
    cases n1 with
    | nil => simp
    | cons c n =>
      have : c ≠ '.' := fun e => h1.1 (by simp [e])
      simp [this]
  unfold corrFindFilter
  constructor
  · intro h
    obtain ⟨f, hf, he⟩ := List.mem_map.1 h
    simp only [Prod.mk.injEq, List.append_cancel_left_eq, List.cons.injEq, true_and] at he
    rw [← he.2.2]
    exact (List.mem_filter.1 hf).2
  · intro h
    refine List.mem_map.2 ⟨corrName n1 n2 s1 s2, List.mem_filter.2 ⟨List.mem_filter.2 ⟨hl, ?_⟩, h⟩, ?_⟩
    · simp [corrName_glob, hh]
    · rw [e1]; rfl

/-- **C54** A correlation file of the directory is selected iff a requested pattern matches
both networks and a requested pattern matches both stations, unless both networks and
stations are given as lists. Partial: with two lists the stations are not compared
(`c54_lists_violated`), and two codes that match different patterns of a list are not
selected (`c54_mixed_violated`). -/
theorem c54_selected_partial (indir : Str) (listing : List Str) (net sta : NetReq) (n1 n2 s1 s2 : Str) (h1 : NameCode n1)
    (h2 : NameCode n2) (h3 : NameCode s1) (h4 : NameCode s2) (hl : corrName n1 n2 s1 s2 ∈ listing)
    (hlist : ¬ ((∃ l, net = .many l) ∧ ∃ l, sta = .many l)) :
    (n1 ++ ['-'] ++ n2, s1 ++ ['-'] ++ s2, indir ++ '/' :: corrName n1 n2 s1 s2) ∈ corrFindFilter indir listing net sta ↔
      net.Pair n1 n2 ∧ sta.Pair s1 s2 := by
  rw [mem_corrFindFilter indir listing net sta n1 n2 s1 s2 h1 h2 h3 h4 hl]
  obtain ⟨e1, e2, e3⟩ := corrName_split n1 n2 s1 s2 h1 h2 h3 h4
  unfold fileSelected
  simp only [e1, List.getD_cons_zero, List.getD_cons_succ, e2, e3]
  have hany : ∀ (l : List Str) (a b : Str), (l.any (allMatch [a, b])) = true ↔ NetReq.Pair (.many l) a b := by
    intro l a b
    simp only [List.any_eq_true, allMatch_pair, NetReq.Pair]
  have hone : ∀ (p a b : Str), allMatch [a, b] p = true ↔ NetReq.Pair (.one p) a b := fun p a b => allMatch_pair a b p
  cases net with
  | one p =>
    dsimp only
    by_cases hp : allMatch [n1, n2] p = true
    · rw [if_pos hp]
      rw [hone] at hp
      cases sta with
      | one q => simp only [hone, hp, true_and]
      | many l => simp only [Bool.false_or, hany, hp, true_and]
      | other => simp [NetReq.Pair] at hp ⊢; exact hp
    · rw [if_neg hp]
      rw [hone] at hp
      simp [hp]
  | many l =>
    dsimp only
    by_cases hp : l.any (allMatch [n1, n2]) = true
    · rw [if_pos hp]
      rw [hany] at hp
      cases sta with
      | one q => simp only [hone, hp, true_and]
      | many l' => exact absurd ⟨⟨l, rfl⟩, ⟨l', rfl⟩⟩ hlist
      | other => simp only [true_iff]; exact ⟨hp, trivial⟩
    · rw [if_neg hp]
      rw [hany] at hp
      simp [hp]
  | other =>
    cases sta with
    | one q => simp only [hone, NetReq.Pair, true_and]
    | many l => simp only [Bool.false_or, hany]; simp [NetReq.Pair]
    | other => simp [NetReq.Pair]

/-- **C54** With one pattern for the networks and one for the stations, a file is selected
iff both networks match the one and both stations the other. -/
theorem c54_single (indir : Str) (listing : List Str) (pn ps n1 n2 s1 s2 : Str) (h1 : NameCode n1)
    (h2 : NameCode n2) (h3 : NameCode s1) (h4 : NameCode s2) (hl : corrName n1 n2 s1 s2 ∈ listing) (hb1 : '[' ∉ pn)
    (hb2 : '[' ∉ ps) :
    (n1 ++ ['-'] ++ n2, s1 ++ ['-'] ++ s2, indir ++ '/' :: corrName n1 n2 s1 s2) ∈
      corrFindFilter indir listing (.one pn) (.one ps) ↔ (Glob pn n1 ∧ Glob pn n2) ∧ Glob ps s1 ∧ Glob ps s2 := by
  rw [c54_selected_partial indir listing _ _ n1 n2 s1 s2 h1 h2 h3 h4 hl (by rintro ⟨⟨l, h⟩, _⟩; cases h)]
  simp only [NetReq.Pair, fnmatch_iff_glob pn _ hb1, fnmatch_iff_glob ps _ hb2]

/-- **C54** violated: if networks and stations are given as lists, the stations are not
compared, whatever the stations are -/
theorem c54_lists_violated (indir : Str) (listing : List Str) (l l' : List Str) (n1 n2 s1 s2 : Str) (h1 : NameCode n1)
    (h2 : NameCode n2) (h3 : NameCode s1) (h4 : NameCode s2) (hl : corrName n1 n2 s1 s2 ∈ listing) :
    (n1 ++ ['-'] ++ n2, s1 ++ ['-'] ++ s2, indir ++ '/' :: corrName n1 n2 s1 s2) ∈
      corrFindFilter indir listing (.many l) (.many l') ↔ NetReq.Pair (.many l) n1 n2 := by
  rw [mem_corrFindFilter indir listing _ _ n1 n2 s1 s2 h1 h2 h3 h4 hl]
  obtain ⟨e1, e2, e3⟩ := corrName_split n1 n2 s1 s2 h1 h2 h3 h4
  unfold fileSelected
  simp only [e1, List.getD_cons_zero, List.getD_cons_succ, e2, e3]
  have hany : ∀ (l : List Str) (a b : Str), (l.any (allMatch [a, b])) = true ↔ NetReq.Pair (.many l) a b := by
    intro l a b
    simp only [List.any_eq_true, allMatch_pair, NetReq.Pair]
  by_cases hp : l.any (allMatch [n1, n2]) = true
  · rw [if_pos hp]
    rw [hany] at hp
    simp [hp]
  · rw [if_neg hp]
    rw [hany] at hp
    simp [hp]

/-- **C54** violated: a correlation between two requested networks is not selected -/
theorem c54_mixed_violated :
    corrFindFilter c!"d" [corrName c!"A" c!"B" c!"S" c!"T"] (.many [c!"A", c!"B"]) (.one c!"*") = [] ∧
    corrFindFilter c!"d" [corrName c!"A" c!"A" c!"X" c!"Y"] (.many [c!"A", c!"B"]) (.many [c!"S"]) =
      [(c!"A-A", c!"X-Y", c!"d/A-A.X-Y.h5")] := by
  constructor <;> decide

/-- **C54** Only files of the directory are selected, and each at most as often as it is
listed. -/
theorem c54_from_directory (indir : Str) (listing : List Str) (net sta : NetReq) (x : Str × Str × Str)
    (hx : x ∈ corrFindFilter indir listing net sta) :
    ∃ f ∈ listing, x.2.2 = indir ++ '/' :: f ∧ fnmatch f c!"*-*.*-*.h5" = true := by
  obtain ⟨f, hf, rfl⟩ := List.mem_map.1 hx
  have := (List.mem_filter.1 (List.mem_filter.1 hf).1)
  refine ⟨f, this.1, rfl, ?_⟩
  simp only [Bool.and_eq_true] at this
  exact this.2.1

/-- Hypotheses of `c54_selected_partial`. -/
example : corrFindFilter c!"d" [c!"A-B.S-T.h5", c!"A-A.S-S.h5", c!"other.txt"] (.one c!"A") (.many [c!"T", c!"S*"]) =
    [(c!"A-A", c!"S-S", c!"d/A-A.S-S.h5")] := by
  decide

/-! ### C55 -/

theorem joinWith_append (sep : Str) (l : List Str) (hl : l ≠ []) (x : Str) :
    joinWith sep (l ++ [x]) = joinWith sep l ++ sep ++ x := by
  induction l with
  | nil => exact absurd rfl hl
  | cons a l ih =>
    cases l with
    | nil => simp [joinWith]
    | cons b l =>
      have := ih (by simp)
      simp only [List.cons_append, joinWith] at this ⊢
      rw [this]
      simp [List.append_assoc]

theorem joinWith_splitOn (c : Char) (s : Str) : joinWith [c] (splitOn c s) = s := by
  induction s with
  | nil => rfl
  | cons d s ih =>
    unfold splitOn
    split
    · rename_i h
      subst h
      cases hs : splitOn d s with
      | nil => exact absurd hs (splitOn_ne_nil d s)
      | cons x xs =>
        rw [hs] at ih
        simp only [joinWith]
        rw [ih]
        rfl
    · cases hs : splitOn c s with
      | nil => exact absurd hs (splitOn_ne_nil c s)
      | cons x xs =>
        rw [hs] at ih
        simp only
        cases xs with
        | nil => simp only [joinWith] at ih ⊢; rw [ih]
        | cons y ys => simp only [joinWith] at ih ⊢; rw [← ih]; simp

theorem joinWith_take_prefix (sep : Str) (l : List Str) (k : Nat) : ∃ v, joinWith sep l = joinWith sep (l.take k) ++ v := by
  induction l generalizing k with
  | nil => exact ⟨[], by simp [joinWith]⟩
  | cons a l ih =>
    cases k with
    | zero => exact ⟨joinWith sep (a :: l), by simp [joinWith]⟩
    | succ k =>
      rw [List.take_succ_cons]
      cases l with
      | nil => exact ⟨[], by simp [joinWith]⟩
      | cons b l =>
        cases k with
        | zero =>
          refine ⟨sep ++ joinWith sep (b :: l), ?_⟩
          simp [joinWith]
        | succ k =>
          obtain ⟨v, hv⟩ := ih (k + 1)
          refine ⟨v, ?_⟩
          rw [List.take_succ_cons] at hv ⊢
          simp only [joinWith]
          rw [hv]
          simp

/-- a file begins with the base of its group -/
theorem groupBase_prefix (f : Str) : ∃ v, f = groupBase f ++ v := by
  obtain ⟨v, hv⟩ := joinWith_take_prefix c!"." (splitOn '.' f) ((splitOn '.' f).length - 2)
  refine ⟨v, ?_⟩
  have := joinWith_splitOn '.' f
  rw [← this]
  unfold groupBase
  rw [this]
  rw [← hv, this]

theorem glob_self (p r : Str) (h : '[' ∉ p) : Glob (p ++ ['*']) (p ++ r) := by
  induction p with
  | nil =>
    have := Glob.star r Glob.nil
    simpa using this
  | cons c p ih =>
    have ih := ih fun hc => h (by simp [hc])
    by_cases h1 : c = '*'
    · subst h1
      exact Glob.star ['*'] ih
    · by_cases h2 : c = '?'
      · subst h2
        exact Glob.any '?' ih
      · exact Glob.lit h1 h2 (fun e => h (by simp [e])) ih

theorem fnmatch_self (f : Str) (h : '[' ∉ f) : fnmatch f (groupBase f ++ c!"*") = true := by
  obtain ⟨v, hv⟩ := groupBase_prefix f
  have hb : '[' ∉ groupBase f := by
    intro hc
    apply h
    rw [hv]
    exact List.mem_append_left _ hc
  rw [fnmatch_iff_glob _ _ (by simp [hb])]
  conv => arg 2; rw [hv]
  exact glob_self _ _ hb

theorem avStep_decreases (m : AvMethod) (readable : Str → Bool) (f0 : Str) (l rest : List Str) (g : Option (List Str))
    (hf : '[' ∉ f0) (h : avStep m readable (f0 :: l) = .ok (rest, g)) :
    rest.length < (f0 :: l).length ∧ ∀ f ∈ rest, f ∈ f0 :: l := by
  unfold avStep at h
  simp only [bind, Except.bind] at h
  split at h
  · cases h
  · simp only [pure, Except.pure, Except.ok.injEq, Prod.mk.injEq] at h
    obtain ⟨hr, _⟩ := h
    subst hr
    constructor
    · have hm : f0 ∈ (f0 :: l).filter fun f => fnmatch f (groupBase f0 ++ c!"*") :=
        List.mem_filter.2 ⟨by simp, fnmatch_self f0 hf⟩
      rw [List.filter_cons_of_neg (by simp only [hm]; decide)]
      exact Nat.lt_succ_of_le (List.length_filter_le _ _)
    · intro f hf
      exact (List.mem_filter.1 hf).1

/-- **C55** The averaging loop ends after at most as many passes as there are files, if no
path contains `[`. Partial: otherwise it may run forever (`c55_loop_violated`). -/
theorem c55_terminates_partial (m : AvMethod) (readable : Str → Bool) (fuel : Nat) (infiles : List Str)
    (hb : ∀ f ∈ infiles, '[' ∉ f) (hfuel : infiles.length ≤ fuel) : ∃ r, avLoop m readable fuel infiles = some r := by
  induction fuel generalizing infiles with
  | zero =>
    rw [Nat.le_zero, List.length_eq_zero_iff] at hfuel
    subst hfuel
    exact ⟨_, rfl⟩
  | succ fuel ih =>
    cases infiles with
    | nil => exact ⟨_, rfl⟩
    | cons f0 l =>
      unfold avLoop
      cases hs : avStep m readable (f0 :: l) with
      | error e => exact ⟨_, rfl⟩
      | ok p =>
        obtain ⟨rest, g⟩ := p
        obtain ⟨h1, h2⟩ := avStep_decreases m readable f0 l rest g (hb f0 (by simp)) hs
        obtain ⟨r, hr⟩ := ih rest (fun f hf => hb f (h2 f hf)) (by omega)
        simp only [hr]
        exact ⟨_, rfl⟩

/-- **C55** violated: if the path of the results contains brackets, the loop does not end. -/
theorem c55_loop_violated (fuel : Nat) :
    avLoop .autoComponents (fun _ => true) fuel [c!"/run[1]/DV-A-A.S-S.Z-Z.npz"] = none := by
  have hstep : avStep .autoComponents (fun _ => true) [c!"/run[1]/DV-A-A.S-S.Z-Z.npz"] =
      .ok ([c!"/run[1]/DV-A-A.S-S.Z-Z.npz"], none) := by decide +kernel
  induction fuel with
  | zero => rfl
  | succ fuel ih =>
    unfold avLoop
    rw [hstep]
    simp only [ih]
    rfl

/-- **C55** violated: a pair of stations whose name begins with the name of another pair is
averaged with it -/
theorem c55_prefix_violated :
    avLoop .crossStations (fun _ => true) 2 [c!"/r/DV-A-A.S-T.Z-Z.npz", c!"/r/DV-A-A.S-T2.Z-Z.npz"] =
      some (.ok [[c!"/r/DV-A-A.S-T.Z-Z.npz", c!"/r/DV-A-A.S-T2.Z-Z.npz"]]) := by
  decide +kernel

/-- **C55** violated: if `av` occurs anywhere in the path of the results, nothing is
averaged -/
theorem c55_path_violated :
    avLoop .autoComponents (fun _ => true) 2 [c!"/home/dave/DV-A-A.S-S.Z-Z.npz", c!"/home/dave/DV-A-A.S-S.E-E.npz"] =
      some (.ok []) ∧
    avLoop .autoComponents (fun _ => true) 2 [c!"/home/dan/DV-A-A.S-S.Z-Z.npz", c!"/home/dan/DV-A-A.S-S.E-E.npz"] =
      some (.ok [[c!"/home/dan/DV-A-A.S-S.Z-Z.npz", c!"/home/dan/DV-A-A.S-S.E-E.npz"]]) := by
  constructor <;> decide +kernel

/-- the files selected by the method that are not averages -/
def AvSelected (m : AvMethod) (f : Str) : Prop := isSub c!"av" f = false ∧ methodSelects m f = .ok true

instance (m : AvMethod) (f : Str) : Decidable (AvSelected m f) := by
  unfold AvSelected
  have : DecidableEq (Except PyErr Bool) := by infer_instance
  infer_instance

theorem scanGroup_spec (m : AvMethod) (l : List Str) (r : Option (List Str)) (h : scanGroup m l = .ok r) :
    ((∃ f ∈ l, m.ch ∈ splitOn '.' f) → r = none) ∧
    ((∀ f ∈ l, m.ch ∉ splitOn '.' f) → r = some (l.filter fun f => decide (AvSelected m f))) := by
  induction l generalizing r with
  | nil =>
    simp only [scanGroup, Except.ok.injEq] at h
    subst h
    refine ⟨?_, fun _ => rfl⟩
    rintro ⟨f, hf, _⟩
    cases hf
  | cons f l ih =>
    unfold scanGroup at h
    by_cases hch : m.ch ∈ splitOn '.' f
    · rw [if_pos hch] at h
      simp only [pure, Except.pure, Except.ok.injEq] at h
      exact ⟨fun _ => h.symm, fun hn => absurd hch (hn f (by simp))⟩
    · rw [if_neg hch] at h
      by_cases hav : isSub c!"av" f = true
      · rw [if_pos hav] at h
        obtain ⟨h1, h2⟩ := ih r h
        refine ⟨?_, ?_⟩
        · rintro ⟨g, hg, hgc⟩
          rcases List.mem_cons.1 hg with rfl | hg
          · exact absurd hgc hch
          · exact h1 ⟨g, hg, hgc⟩
        · intro hn
          rw [h2 fun g hg => hn g (by simp [hg]), List.filter_cons_of_neg]
          simp [AvSelected, hav]
      · rw [if_neg hav] at h
        simp only [bind, Except.bind] at h
        cases hs : methodSelects m f with
        | error e => rw [hs] at h; cases h
        | ok s =>
          rw [hs] at h
          simp only at h
          cases hr : scanGroup m l with
          | error e => rw [hr] at h; cases h
          | ok r' =>
            rw [hr] at h
            simp only [pure, Except.pure, Except.ok.injEq] at h
            obtain ⟨h1, h2⟩ := ih r' hr
            refine ⟨?_, ?_⟩
            · rintro ⟨g, hg, hgc⟩
              rcases List.mem_cons.1 hg with rfl | hg
              · exact absurd hgc hch
              · rw [← h, h1 ⟨g, hg, hgc⟩]; rfl
            · intro hn
              rw [← h, h2 fun g hg => hn g (by simp [hg])]
              simp only [Option.map_some, Option.some.injEq]
              have hav' : isSub c!"av" f = false := by simpa using hav
              cases s with
              | true => rw [List.filter_cons_of_pos (by simp [AvSelected, hav', hs])]; rfl
              | false => rw [List.filter_cons_of_neg (by simp [AvSelected, hs])]; rfl

theorem splitOn_cons_sep (c : Char) (a s : Str) : splitOn c (a ++ c :: s) = splitOn c a ++ splitOn c s := by
  induction a with
  | nil => simp [splitOn]
  | cons d a ih =>
    rw [List.cons_append, splitOn, splitOn]
    by_cases h : d = c
    · rw [if_pos h, if_pos h, ih]; rfl
    · rw [if_neg h, if_neg h, ih]
      cases ha : splitOn c a with
      | nil => exact absurd ha (splitOn_ne_nil c a)
      | cons x xs => rfl

/-- which results a method averages: components of one station with themselves, different components of one station, all of
one station, or all of two different stations -/
def AvMethod.wants (m : AvMethod) (s1 s2 c1 c2 : Str) : Bool := match m with
  | .autoComponents => decide (c1 = c2 ∧ s1 = s2)
  | .crossComponents => decide (c1 ≠ c2 ∧ s1 = s2)
  | .stationWide => decide (s1 = s2)
  | .crossStations => decide (s1 ≠ s2)

/-- **C55 (the results used by each method).** Whether a result with the name `<beginning>.<station>-<station>.<channel>-<channel>.npz`
is used depends only on the two stations and the two channels: autocorrelations of components, cross-correlations of
components, all correlations of one station, or those of two stations. -/
theorem c55_selected (m : AvMethod) (pre s1 s2 c1 c2 : Str) (h1 : '-' ∉ s1) (h2 : '-' ∉ s2) (h3 : '-' ∉ c1) (h4 : '-' ∉ c2)
    (g1 : '.' ∉ s1) (g2 : '.' ∉ s2) (g3 : '.' ∉ c1) (g4 : '.' ∉ c2) :
    methodSelects m (pre ++ '.' :: (s1 ++ '-' :: s2) ++ '.' :: (c1 ++ '-' :: c2) ++ c!".npz") = .ok (m.wants s1 s2 c1 c2) := by
  have e : splitOn '.' (pre ++ '.' :: (s1 ++ '-' :: s2) ++ '.' :: (c1 ++ '-' :: c2) ++ c!".npz") =
      splitOn '.' pre ++ [s1 ++ '-' :: s2, c1 ++ '-' :: c2, c!"npz"] := by
    rw [show pre ++ '.' :: (s1 ++ '-' :: s2) ++ '.' :: (c1 ++ '-' :: c2) ++ c!".npz" =
      pre ++ '.' :: ((s1 ++ '-' :: s2) ++ '.' :: ((c1 ++ '-' :: c2) ++ '.' :: c!"npz")) by simp]
    rw [splitOn_cons_sep, splitOn_cons_sep, splitOn_cons_sep, splitOn_eq_single '.' (s1 ++ '-' :: s2) (by simp [g1, g2]),
      splitOn_eq_single '.' (c1 ++ '-' :: c2) (by simp [g3, g4])]
    rfl
  have es : splitOn '-' (s1 ++ '-' :: s2) = [s1, s2] := by rw [splitOn_append _ _ _ h1, splitOn_eq_single _ _ h2]
  have ec : splitOn '-' (c1 ++ '-' :: c2) = [c1, c2] := by rw [splitOn_append _ _ _ h3, splitOn_eq_single _ _ h4]
  unfold methodSelects
  rw [e]
  simp only [List.reverse_append, List.reverse_cons, List.reverse_nil, List.nil_append, List.cons_append, List.getElem?_cons_succ,
    List.getElem?_cons_zero, es, ec, bind, Except.bind, pure, Except.pure]
  cases m <;> simp only [AvMethod.wants]
  · by_cases hc : c1 = c2 <;> by_cases hs : s1 = s2 <;> simp [hc, hs]
  · by_cases hc : c1 = c2 <;> by_cases hs : s1 = s2 <;> simp [hc, hs]
  · by_cases hs : s1 = s2 <;> simp [hs]

example : methodSelects .autoComponents c!"/r.1/DV-A-A.S-T.Z-Z.npz" = .ok false := c55_selected .autoComponents c!"/r.1/DV-A-A" c!"S" c!"T" c!"Z" c!"Z"
  (by decide) (by decide) (by decide) (by decide) (by decide) (by decide) (by decide) (by decide)

/-- no name of a group is the beginning of a file of another group -/
def Separated (infiles : List Str) : Prop :=
  ∀ f ∈ infiles, ∀ g ∈ infiles, (∃ v, g = groupBase f ++ v) → groupBase g = groupBase f

/-- the average that belongs to a network and station pair -/
def groupOf (m : AvMethod) (readable : Str → Bool) (infiles : List Str) (b : Str) : List Str :=
  infiles.filter fun f => decide (groupBase f = b) && decide (AvSelected m f) && readable f

/-- **C55** If no path contains pattern characters and no name of a station pair is the
beginning of another one, the loop computes exactly one average for every network and
station pair with at least two readable results that are selected by the method and without
an existing average, and this average combines exactly these results. Partial: otherwise
see `c55_prefix_violated`, `c55_path_violated`. -/
theorem c55_groups_partial (m : AvMethod) (readable : Str → Bool) (fuel : Nat) (infiles : List Str)
    (hplain : ∀ f ∈ infiles, Plain f) (hsep : Separated infiles) (gs : List (List Str))
    (h : avLoop m readable fuel infiles = some (.ok gs)) :
    (∀ g, g ∈ gs ↔ ∃ b, (∃ f ∈ infiles, groupBase f = b) ∧ (∀ f ∈ infiles, groupBase f = b → m.ch ∉ splitOn '.' f) ∧
      g = groupOf m readable infiles b ∧ 2 ≤ g.length) ∧
    gs.Pairwise (fun g g' => ∀ f ∈ g, f ∉ g') := by
  induction fuel generalizing infiles gs with
  | zero =>
    cases infiles with
    | nil =>
      simp only [avLoop, Option.some.injEq, Except.ok.injEq] at h
      subst h
      simp
    | cons f l => cases h
  | succ fuel ih =>
    cases hinf : infiles with
    | nil =>
      subst hinf
      simp only [avLoop, Option.some.injEq, Except.ok.injEq] at h
      subst h
      simp
    | cons f0 l =>
      rw [hinf] at h
      unfold avLoop at h
      cases hs : avStep m readable (f0 :: l) with
      | error e => rw [hs] at h; cases h
      | ok p =>
        obtain ⟨rest, g0⟩ := p
        rw [hs] at h
        simp only at h
        rw [← hinf] at hs ⊢
        have hf0 : f0 ∈ infiles := by rw [hinf]; simp
        -- the files of the group
        have hfilt : ∀ f ∈ infiles, (fnmatch f (groupBase f0 ++ c!"*") = true ↔ groupBase f = groupBase f0) := by
          intro f hf
          have hpb : Plain (groupBase f0) := by
            intro c hc
            obtain ⟨v, hv⟩ := groupBase_prefix f0
            exact hplain f0 hf0 c (by rw [hv]; exact List.mem_append_left _ hc)
          rw [fnmatch_prefix f _ hpb]
          constructor
          · intro hv; exact hsep f0 hf0 f hf hv
          · intro he; rw [← he]; exact groupBase_prefix f
        have hfe : infiles.filter (fun f => fnmatch f (groupBase f0 ++ c!"*")) = infiles.filter fun f => decide (groupBase f = groupBase f0) := by
          apply List.filter_congr
          intro f hf
          rw [Bool.eq_iff_iff, decide_eq_true_eq]
          exact hfilt f hf
        have hstep : ∃ sel, scanGroup m (infiles.filter fun f => decide (groupBase f = groupBase f0)) = .ok sel ∧
            rest = infiles.filter (fun f => decide (groupBase f ≠ groupBase f0)) ∧
            g0 = (if 2 ≤ ((sel.getD []).filter readable).length then some ((sel.getD []).filter readable) else none) := by
          rw [hinf] at hs
          unfold avStep at hs
          simp only [bind, Except.bind] at hs
          rw [← hinf, hfe] at hs
          split at hs
          · cases hs
          · rename_i sel hsel
            simp only [pure, Except.pure, Except.ok.injEq, Prod.mk.injEq] at hs
            refine ⟨sel, hsel, ?_, hs.2.symm⟩
            rw [← hs.1]
            apply List.filter_congr
            intro f hf
            simp [hf]
        obtain ⟨sel, hsel, hrest, hg0⟩ := hstep
        obtain ⟨hsel1, hsel2⟩ := scanGroup_spec m _ sel hsel
        have hmr : ∀ f, f ∈ rest ↔ f ∈ infiles ∧ groupBase f ≠ groupBase f0 := by
          intro f; rw [hrest, List.mem_filter, decide_eq_true_eq]
        -- the rest
        cases hl : avLoop m readable fuel rest with
        | none => rw [hl] at h; cases h
        | some r =>
          rw [hl] at h
          cases r with
          | error e => cases h
          | ok gs' =>
            simp only [Option.map_some, Except.map, Option.some.injEq, Except.ok.injEq] at h
            obtain ⟨ih1, ih2⟩ := ih rest (fun f hf => hplain f ((hmr f).1 hf).1)
              (fun f hf g hg => hsep f ((hmr f).1 hf).1 g ((hmr g).1 hg).1) gs' hl
            have hgrest : ∀ b, b ≠ groupBase f0 → groupOf m readable rest b = groupOf m readable infiles b := by
              intro b hb
              unfold groupOf
              rw [hrest, List.filter_filter]
              apply List.filter_congr
              intro f _
              by_cases hfb : groupBase f = b
              · simp [hfb, hb]
              · simp [hfb]
            -- the first group
            have hfirst : ∀ g, (g0 = some g) ↔ ((∀ f ∈ infiles, groupBase f = groupBase f0 → m.ch ∉ splitOn '.' f) ∧
                g = groupOf m readable infiles (groupBase f0) ∧ 2 ≤ g.length) := by
              intro g
              by_cases hex : ∃ f ∈ infiles.filter (fun f => decide (groupBase f = groupBase f0)), m.ch ∈ splitOn '.' f
              · have := hsel1 hex
                subst this
                have hg0' : g0 = none := by rw [hg0]; simp
                rw [hg0']
                obtain ⟨f, hf, hfc⟩ := hex
                rw [List.mem_filter, decide_eq_true_eq] at hf
                constructor
                · intro h; cases h
                · rintro ⟨hn, _⟩; exact absurd hfc (hn f hf.1 hf.2)
              · push Not at hex
                have := hsel2 hex
                subst this
                have hgo : (((infiles.filter fun f => decide (groupBase f = groupBase f0)).filter fun f => decide (AvSelected m f)).filter readable) =
                    groupOf m readable infiles (groupBase f0) := by
                  unfold groupOf
                  rw [List.filter_filter, List.filter_filter]
                  apply List.filter_congr
                  intro f _
                  cases decide (groupBase f = groupBase f0) <;> cases decide (AvSelected m f) <;> cases readable f <;> rfl
                simp only [Option.getD_some, hgo] at hg0
                have hn : ∀ f ∈ infiles, groupBase f = groupBase f0 → m.ch ∉ splitOn '.' f := by
                  intro f hf hb
                  exact hex f (List.mem_filter.2 ⟨hf, by simp [hb]⟩)
                rw [hg0]
                split
                · rename_i h2
                  simp only [Option.some.injEq]
                  constructor
                  · rintro rfl; exact ⟨hn, rfl, h2⟩
                  · rintro ⟨_, rfl, _⟩; rfl
                · rename_i h2
                  constructor
                  · intro h; cases h
                  · rintro ⟨_, rfl, h3⟩; exact absurd h3 h2
            have hgs : ∀ g, g ∈ gs ↔ g0 = some g ∨ g ∈ gs' := by
              intro g
              rw [← h]
              cases g0 with
              | none => simp
              | some g1 =>
                simp only [List.mem_cons, Option.some.injEq]
                constructor
                · rintro (rfl | h)
                  · exact Or.inl rfl
                  · exact Or.inr h
                · rintro (rfl | h)
                  · exact Or.inl rfl
                  · exact Or.inr h
            constructor
            · intro g
              rw [hgs, hfirst, ih1]
              constructor
              · rintro (⟨h1, h2, h3⟩ | ⟨b, ⟨f, hf, hfb⟩, h2, h3, h4⟩)
                · exact ⟨groupBase f0, ⟨f0, hf0, rfl⟩, h1, h2, h3⟩
                · have hb : b ≠ groupBase f0 := by rw [← hfb]; exact ((hmr f).1 hf).2
                  refine ⟨b, ⟨f, ((hmr f).1 hf).1, hfb⟩, ?_, ?_, h4⟩
                  · intro f' hf' hb'
                    exact h2 f' ((hmr f').2 ⟨hf', by rw [hb']; exact hb⟩) hb'
                  · rw [h3, hgrest b hb]
              · rintro ⟨b, ⟨f, hf, hfb⟩, h2, h3, h4⟩
                by_cases hb : b = groupBase f0
                · subst hb
                  exact Or.inl ⟨h2, h3, h4⟩
                · right
                  refine ⟨b, ⟨f, (hmr f).2 ⟨hf, by rw [hfb]; exact hb⟩, hfb⟩, ?_, ?_, h4⟩
                  · intro f' hf' hb'
                    exact h2 f' ((hmr f').1 hf').1 hb'
                  · rw [h3, hgrest b hb]
            · rw [← h]
              cases hg0' : g0 with
              | none => exact ih2
              | some g1 =>
                refine List.pairwise_cons.2 ⟨?_, ih2⟩
                intro g hg f hf hfg
                obtain ⟨_, hg1, _⟩ := (hfirst g1).1 hg0'
                rw [hg1] at hf
                have e1 : groupBase f = groupBase f0 := by
                  have := (List.mem_filter.1 hf).2
                  simp only [Bool.and_eq_true, decide_eq_true_eq] at this
                  exact this.1.1
                obtain ⟨b, _, _, hgb, _⟩ := (ih1 g).1 hg
                rw [hgb] at hfg
                exact ((hmr f).1 (List.mem_filter.1 hfg).1).2 e1

/-- Hypotheses of `c55_groups_partial`: results of two stations, one of them with an average
already. -/
example :
    let l := [c!"/r/DV-A-A.S-S.Z-Z.npz", c!"/r/DV-A-A.T-T.Z-Z.npz", c!"/r/DV-A-A.S-S.E-E.npz", c!"/r/DV-A-A.T-T.E-E.npz",
      c!"/r/DV-A-A.S-S.E-Z.npz", c!"/r/DV-A-A.T-T.av-auto.npz"]
    (∀ f ∈ l, Plain f) ∧ avLoop .autoComponents (fun _ => true) 6 l =
      some (.ok [[c!"/r/DV-A-A.S-S.Z-Z.npz", c!"/r/DV-A-A.S-S.E-E.npz"]]) := by
  constructor <;> decide +kernel

end SeisMIC
