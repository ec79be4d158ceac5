import Verif.Model.MassDownload
import Verif.Props.FileStructure
import Verif.Lemmas.Datetime
import Verif.Lemmas.Strings
import Mathlib.Tactic.Ring
import Mathlib.Tactic.Linarith
import Mathlib.Algebra.Order.Ring.Int

/-!
# C142: mass download
-/

namespace SeisMIC

/-! ### Specification -/

/-- codes as they occur: without `.` and `/` -/
def Channel.Plain (ch : Channel) : Prop := ∀ s ∈ [ch.net, ch.sta, ch.loc, ch.cha], '.' ∉ s ∧ '/' ∉ s

/-- the available samples of a period, limits included -/
def between (l : List Int) (a b : Int) : List Int := l.filter fun t => decide (a ≤ t) && decide (t ≤ b)

/-! ### Names of files -/

theorem natDigits_inj (a b : Nat) (h : natDigits a = natDigits b) : a = b := by
  unfold natDigits at h
  rw [← Nat.ofDigitChars_toDigits (b := 10) (n := a) (by decide) (by decide), h, Nat.ofDigitChars_toDigits (by decide) (by decide)]

theorem pad3_inj (a b : Nat) (h : pad3 a = pad3 b) : a = b := by
  have key : ∀ n, Nat.ofDigitChars 10 (pad3 n) 0 = n := by
    intro n
    unfold pad3 Nat.ofDigitChars
    rw [List.foldl_append]
    have : ∀ k, List.foldl (fun (sofar : Nat) (c : Char) => 10 * sofar + (c.toNat - '0'.toNat)) 0 (List.replicate k '0') = 0 := by
      intro k
      induction k with
      | zero => rfl
      | succ k ih => rw [List.replicate_succ, List.foldl_cons]; exact ih
    rw [this]
    exact Nat.ofDigitChars_toDigits (by decide) (by decide)
  rw [← key a, h, key b]

theorem natDigits_plain (n : Nat) : '.' ∉ natDigits n ∧ '/' ∉ natDigits n := by
  constructor <;> intro h <;> have := Nat.isDigit_of_mem_toDigits (by decide) (by decide) h <;> revert this <;> decide

theorem pad3_plain (n : Nat) : '.' ∉ pad3 n ∧ '/' ∉ pad3 n := by
  unfold pad3
  obtain ⟨h1, h2⟩ := natDigits_plain n
  constructor <;> rw [List.mem_append, List.mem_replicate] <;> rintro (⟨-, h⟩ | h)
  · revert h; decide
  · exact h1 h
  · revert h; decide
  · exact h2 h

theorem pathJoin_inj (root a b : Str) (ha : a.head? ≠ some '/') (hb : b.head? ≠ some '/') (h : pathJoin root a = pathJoin root b) : a = b := by
  unfold pathJoin at h
  rw [if_neg ha, if_neg hb] at h
  split at h
  · exact List.append_cancel_left h
  · exact (List.cons.inj (List.append_cancel_left h)).2

theorem head_natDigits (n : Nat) (s : Str) : (natDigits n ++ s).head? ≠ some '/' := by
  have hne : natDigits n ≠ [] := Nat.toDigits_ne_nil
  obtain ⟨c, l, h⟩ := List.exists_cons_of_ne_nil hne
  rw [h]
  intro hh
  apply (natDigits_plain n).2
  rw [h]
  simp only [List.cons_append, List.head?_cons, Option.some.injEq] at hh
  simp [hh]

theorem head_join (n : Nat) (sep x : Str) (l : List Str) : (joinWith sep (natDigits n :: x :: l)).head? ≠ some '/' := by
  simp only [joinWith, List.append_assoc]
  exact head_natDigits _ _

theorem julday_dayNo (c : Civil) (h : c.Valid) : c.dayNo = daysBeforeYear c.year + (c.julday : Int) - 1 := by
  have := daysBeforeMonth_nonneg c.year c.month h.2.2.1
  unfold Civil.dayNo Civil.julday
  omega

theorem same_day (a b : Civil) (ha : a.Valid) (hb : b.Valid) (h : a.dayNo = b.dayNo) : a.year = b.year ∧ a.julday = b.julday := by
  have h1 := dayNo_bounds a ha
  have h2 := dayNo_bounds b hb
  have hy : a.year = b.year := by
    rcases lt_trichotomy a.year b.year with hlt | he | hlt
    · have := daysBeforeYear_lt _ _ hlt
      have := daysBeforeYear_succ a.year
      omega
    · exact he
    · have := daysBeforeYear_lt _ _ hlt
      have := daysBeforeYear_succ b.year
      omega
  have h3 := julday_dayNo a ha
  have h4 := julday_dayNo b hb
  rw [hy] at h3
  exact ⟨hy, by omega⟩

/-- **C142** (names) Each channel and day has its own file: two times and two channels have the same file if and only if the channels are equal and the
times are on the same day. -/
theorem c142_own_file (root : Str) (a b : Channel) (ha : a.Plain) (hb : b.Plain) (t u : Civil) (ht : t.Valid) (hu : u.Valid) :
    sdsPath root a t = sdsPath root b u ↔ a = b ∧ t.dayNo = u.dayNo := by
  constructor
  · intro h
    have h := pathJoin_inj root _ _ (head_join _ _ _ _) (head_join _ _ _ _) h
    have key : ∀ (ch : Channel) (hc : ch.Plain) (c : Civil),
        splitOn '/' (joinWith c!"/" [natDigits c.year.toNat, ch.net, ch.sta, ch.cha ++ c!".D",
          joinWith c!"." [ch.net, ch.sta, ch.loc, ch.cha, c!"D", natDigits c.year.toNat, pad3 c.julday]]) =
        [natDigits c.year.toNat, ch.net, ch.sta, ch.cha ++ c!".D",
          joinWith c!"." [ch.net, ch.sta, ch.loc, ch.cha, c!"D", natDigits c.year.toNat, pad3 c.julday]] := by
      intro ch hc c
      have e1 := (natDigits_plain c.year.toNat).2
      have e2 := (pad3_plain c.julday).2
      have e3 := (hc ch.net (by simp)).2
      have e4 := (hc ch.sta (by simp)).2
      have e5 := (hc ch.loc (by simp)).2
      have e6 := (hc ch.cha (by simp)).2
      have e7 : '/' ∉ ch.cha ++ c!".D" := by simp [e6]
      have e8 : '/' ∉ joinWith c!"." [ch.net, ch.sta, ch.loc, ch.cha, c!"D", natDigits c.year.toNat, pad3 c.julday] := by
        simp [joinWith, e1, e2, e3, e4, e5, e6]
      generalize joinWith c!"." [ch.net, ch.sta, ch.loc, ch.cha, c!"D", natDigits c.year.toNat, pad3 c.julday] = last at e8 ⊢
      simp only [joinWith]
      rw [List.append_assoc, List.append_assoc, List.append_assoc, List.append_assoc]
      show splitOn '/' (_ ++ '/' :: (_ ++ '/' :: (_ ++ '/' :: (_ ++ '/' :: last)))) = _
      rw [splitOn_append _ _ _ e1, splitOn_append _ _ _ e3, splitOn_append _ _ _ e4, splitOn_append _ _ _ e7, splitOn_eq_single _ _ e8]
    have h' := congrArg (splitOn '/') h
    rw [key a ha t, key b hb u] at h'
    simp only [List.cons.injEq, and_true] at h'
    obtain ⟨hy, hn, hs, hc, hl⟩ := h'
    have hc := List.append_cancel_right hc
    have key2 : ∀ (ch : Channel) (hc : ch.Plain) (c : Civil),
        splitOn '.' (joinWith c!"." [ch.net, ch.sta, ch.loc, ch.cha, c!"D", natDigits c.year.toNat, pad3 c.julday]) =
        [ch.net, ch.sta, ch.loc, ch.cha, c!"D", natDigits c.year.toNat, pad3 c.julday] := by
      intro ch hc c
      have e1 := (natDigits_plain c.year.toNat).1
      have e2 := (pad3_plain c.julday).1
      have e3 := (hc ch.net (by simp)).1
      have e4 := (hc ch.sta (by simp)).1
      have e5 := (hc ch.loc (by simp)).1
      have e6 := (hc ch.cha (by simp)).1
      have e7 : '.' ∉ c!"D" := by decide
      simp only [joinWith]
      rw [List.append_assoc, List.append_assoc, List.append_assoc, List.append_assoc, List.append_assoc, List.append_assoc]
      show splitOn '.' (_ ++ '.' :: (_ ++ '.' :: (_ ++ '.' :: (_ ++ '.' :: (_ ++ '.' :: (_ ++ '.' :: pad3 c.julday)))))) = _
      rw [splitOn_append _ _ _ e3, splitOn_append _ _ _ e4, splitOn_append _ _ _ e5, splitOn_append _ _ _ e6, splitOn_append _ _ _ e7, splitOn_append _ _ _ e1,
        splitOn_eq_single _ _ e2]
    have h'' := congrArg (splitOn '.') hl
    rw [key2 a ha t, key2 b hb u] at h''
    simp only [List.cons.injEq, and_true] at h''
    obtain ⟨-, -, hloc, -, -, -, hj⟩ := h''
    have hj := pad3_inj _ _ hj
    have hy := natDigits_inj _ _ hy
    have y1 := ht.1
    have y2 := hu.1
    have hy : t.year = u.year := by omega
    refine ⟨?_, ?_⟩
    · cases a; cases b; simp_all
    · rw [julday_dayNo t ht, julday_dayNo u hu, hy, hj]
  · rintro ⟨rfl, h⟩
    obtain ⟨h1, h2⟩ := same_day t u ht hu h
    unfold sdsPath
    rw [h1, h2]

/-- **C142** (names) The file is the one that is read for this channel and day (`c66_sds`). -/
theorem c142_read_name (strftime : Civil → Str → Str) (root : Str) (ch : Channel) (hp : ch.Plain) (hne : ch.net ≠ [] ∧ ch.sta ≠ [] ∧ ch.cha ≠ []) (t : Civil)
    (hr : '%' ∉ root ∧ root ≠ [] ∧ root.getLast? ≠ some '/') (hst : ∀ x, '%' ∉ x → strftime t x = x) (hY : strftime t c!"%Y" = natDigits t.year.toNat)
    (hj : strftime t c!"%j" = pad3 t.julday) :
    currentPattern strftime (ch.net ++ '.' :: (ch.sta ++ '.' :: (ch.loc ++ '.' :: ch.cha))) t (sdsStructure root) = .ok (sdsPath root ch t) := by
  have e := fun s hs => hp s hs
  rw [c66_sds strftime root ch.net ch.sta ch.loc ch.cha t (e _ (by simp)).1 (e _ (by simp)).1 (e _ (by simp)).1 (e _ (by simp)).1 hst hr ?_]
  · rw [hY, hj]
    unfold sdsPath pathJoin
    rw [if_neg (head_join _ _ _ _), if_neg (by rintro (h | h); exact hr.2.1 h; exact hr.2.2 h)]
    simp [joinWith]
  · intro x hx
    simp only [List.mem_cons, List.not_mem_nil, or_false] at hx
    rcases hx with rfl | rfl | rfl | rfl
    · rw [hY]; exact ⟨Nat.toDigits_ne_nil, (natDigits_plain _).2⟩
    · exact ⟨hne.1, (e _ (by simp)).2⟩
    · exact ⟨hne.2.1, (e _ (by simp)).2⟩
    · exact ⟨hne.2.2, (e _ (by simp)).2⟩

/-! ### Downloads -/

theorem downloadChunk_kept (root : Str) (avail : Channel → List Int) (files : SdsFiles) (r : Channel × Int × Int) (p : Str) (l : List Int)
    (h : files p = some l) : downloadChunk root avail files r p = some l := by
  unfold downloadChunk mseedStorage
  by_cases hp : (files (sdsPath root r.1 (civilOf r.2.1))).isSome = true
  · rw [if_pos hp]; exact h
  · rw [if_neg hp]
    simp only
    split
    · exact h
    · simp only
      rw [if_neg]
      · exact h
      · rintro rfl
        rw [h] at hp
        exact hp rfl

theorem download_kept (root : Str) (avail : Channel → List Int) (L : List (Channel × Int × Int)) (files : SdsFiles) (p : Str) (l : List Int)
    (h : files p = some l) : L.foldl (downloadChunk root avail) files p = some l := by
  induction L generalizing files with
  | nil => exact h
  | cons r L ih => exact ih _ (downloadChunk_kept root avail files r p l h)

/-- **C142** Files that exist are never changed, by any number of downloads of any channels and periods. -/
theorem c142_kept (root : Str) (ro : Bool) (runs : List ((Channel → List Int) × List Channel × Int × Int)) (files : SdsFiles) (p : Str) (l : List Int)
    (h : files p = some l) : runs.foldl (fun f r => downloadMdl root ro r.1 r.2.1 r.2.2.1 r.2.2.2 f) files p = some l := by
  induction runs generalizing files with
  | nil => exact h
  | cons r runs ih => exact ih _ (download_kept root _ _ files p l h)

/-- the effect of one interval on one path -/
theorem downloadChunk_none (root : Str) (avail : Channel → List Int) (files : SdsFiles) (r : Channel × Int × Int) (p : Str) (h : files p = none) :
    downloadChunk root avail files r p =
      if sdsPath root r.1 (civilOf r.2.1) = p ∧ between (avail r.1) r.2.1 r.2.2 ≠ [] then some (between (avail r.1) r.2.1 r.2.2) else none := by
  unfold downloadChunk mseedStorage
  by_cases hp : sdsPath root r.1 (civilOf r.2.1) = p
  · rw [hp, h, if_neg (by simp)]
    unfold between
    simp only [true_and]
    split
    · next hd => rw [if_neg (by simpa using hd)]; exact h
    · simp only [if_true]
  · have hc : ¬ (sdsPath root r.1 (civilOf r.2.1) = p ∧ between (avail r.1) r.2.1 r.2.2 ≠ []) := fun hh => hp hh.1
    rw [if_neg hc]
    by_cases hs : (files (sdsPath root r.1 (civilOf r.2.1))).isSome = true
    · rw [if_pos hs]; exact h
    · rw [if_neg hs]
      simp only
      split
      · exact h
      · simp only
        rw [if_neg (fun hh => hp hh.symm)]
        exact h

theorem download_none (root : Str) (avail : Channel → List Int) (L : List (Channel × Int × Int)) (files : SdsFiles) (p : Str) (dat : List Int)
    (h : files p = none) (hL : ∀ r ∈ L, sdsPath root r.1 (civilOf r.2.1) = p → between (avail r.1) r.2.1 r.2.2 = dat) :
    L.foldl (downloadChunk root avail) files p = if (∃ r ∈ L, sdsPath root r.1 (civilOf r.2.1) = p) ∧ dat ≠ [] then some dat else none := by
  induction L generalizing files with
  | nil => rw [if_neg (by simp)]; exact h
  | cons r L ih =>
    rw [List.foldl_cons]
    have h1 := downloadChunk_none root avail files r p h
    by_cases hc : sdsPath root r.1 (civilOf r.2.1) = p ∧ between (avail r.1) r.2.1 r.2.2 ≠ []
    · rw [if_pos hc] at h1
      rw [download_kept root avail L _ p _ h1]
      have hd := hL r (by simp) hc.1
      rw [hd] at hc ⊢
      rw [if_pos ⟨⟨r, by simp, hc.1⟩, hc.2⟩]
    · rw [if_neg hc] at h1
      rw [ih _ h1 fun r hr => hL r (by simp [hr])]
      congr 1
      apply propext
      constructor
      · rintro ⟨⟨r', a, b⟩, c⟩; exact ⟨⟨r', by simp [a], b⟩, c⟩
      · rintro ⟨⟨r', a, b⟩, c⟩
        rcases List.mem_cons.1 a with rfl | a
        · exact absurd ⟨b, by rw [hL r' (by simp) b]; exact c⟩ hc
        · exact ⟨⟨r', a, b⟩, c⟩

/-- **C142** A download that is repeated does not change anything. -/
theorem c142_again (root : Str) (ro : Bool) (avail : Channel → List Int) (chs : List Channel) (start stop : Int) (files : SdsFiles) :
    downloadMdl root ro avail chs start stop (downloadMdl root ro avail chs start stop files) = downloadMdl root ro avail chs start stop files := by
  funext p
  unfold downloadMdl
  generalize ((mdlChunks start stop).flatMap fun c => chs.map fun ch => (ch, c)) = L
  cases h : L.foldl (downloadChunk root avail) files p with
  | some l => exact download_kept root avail L _ p l h
  | none =>
    have hempty : ∀ (L : List (Channel × Int × Int)) (files : SdsFiles), L.foldl (downloadChunk root avail) files p = none →
        files p = none ∧ ∀ r ∈ L, sdsPath root r.1 (civilOf r.2.1) = p → between (avail r.1) r.2.1 r.2.2 = [] := by
      intro L
      induction L with
      | nil => intro files h; exact ⟨h, nofun⟩
      | cons r L ih =>
        intro files h
        obtain ⟨h1, h2⟩ := ih _ h
        have h0 : files p = none := by
          cases hf : files p with
          | none => rfl
          | some l => rw [downloadChunk_kept root avail files r p l hf] at h1; cases h1
        refine ⟨h0, fun r' hr' hp => ?_⟩
        rcases List.mem_cons.1 hr' with rfl | hr'
        · by_contra hne
          rw [downloadChunk_none root avail files r' p h0, if_pos ⟨hp, hne⟩] at h1
          cases h1
        · exact h2 r' hr' hp
    obtain ⟨-, h2⟩ := hempty L files h
    rw [download_none root avail L _ p [] h h2, if_neg (by simp)]

theorem civilOf_valid (t : Int) (h0 : 0 ≤ t) (h1 : t < daysBeforeYear 10000 * dayUs) : (civilOf t).Valid ∧ (civilOf t).dayNo = t / dayUs := by
  have e : (⟨1, 1, 1, 0⟩ : Civil).abs = 0 := by decide
  have h : (⟨1, 1, 1, 0⟩ : Civil).add t = .ok (civilOf t) := by
    unfold Civil.add
    rw [e]
    simp only [zero_add]
    rw [if_pos ⟨h0, h1⟩]
  obtain ⟨hv, ha⟩ := add_ok _ _ _ h
  refine ⟨hv, ?_⟩
  rw [← (abs_bounds _ hv).2.2, ha, e, zero_add]

/-- **C142** (content) The content of the archive after a download, for every channel and every day. Files that exist are kept. The files of the channels that are downloaded contain the available
samples of the 24 hours that begin on this day at the time of day of the start of the download, up to the end of the download. Nothing else is written. -/
theorem c142_files (root : Str) (ro : Bool) (avail : Channel → List Int) (chs : List Channel) (hchs : ∀ ch ∈ chs, ch.Plain) (start stop : Int) (h0 : 0 ≤ start)
    (h1 : stop ≤ daysBeforeYear 10000 * dayUs) (files : SdsFiles) (ch : Channel) (hch : ch.Plain) (t : Civil) (ht : t.Valid) :
    let a := t.dayNo * dayUs + start % dayUs
    let new := between (avail ch) a (min (a + dayUs) stop)
    downloadMdl root ro avail chs start stop files (sdsPath root ch t) =
      match files (sdsPath root ch t) with
      | some l => some l
      | none => if ch ∈ chs ∧ start ≤ a ∧ a < stop ∧ new ≠ [] then some new else none := by
  intro a new
  have hd : (0 : Int) < dayUs := by decide
  unfold downloadMdl
  cases hf : files (sdsPath root ch t) with
  | some l => exact download_kept root avail _ files _ l hf
  | none =>
    set L := ((mdlChunks start stop).flatMap fun c => chs.map fun ch => (ch, c)) with hL
    have hmem : ∀ r, r ∈ L ↔ r.1 ∈ chs ∧ ∃ k : Nat, start + (k : Int) * dayUs < stop ∧
        r.2 = (start + (k : Int) * dayUs, min (start + ((k : Int) + 1) * dayUs) stop) := by
      intro r
      rw [hL, List.mem_flatMap]
      have hk : ∀ k : Nat, k < ((stop - start + dayUs - 1) / dayUs).toNat ↔ start + (k : Int) * dayUs < stop := by
        intro k
        rw [Int.lt_toNat, Int.lt_iff_add_one_le, Int.le_ediv_iff_mul_le hd, add_mul]
        constructor <;> intro h <;> omega
      constructor
      · rintro ⟨c, hc, hr⟩
        obtain ⟨ch', hc', rfl⟩ := List.mem_map.1 hr
        unfold mdlChunks at hc
        obtain ⟨k, hk', rfl⟩ := List.mem_map.1 hc
        exact ⟨hc', k, (hk k).1 (List.mem_range.1 hk'), rfl⟩
      · rintro ⟨hc, k, hk', hr⟩
        refine ⟨r.2, ?_, List.mem_map.2 ⟨r.1, hc, rfl⟩⟩
        rw [hr]
        exact List.mem_map.2 ⟨k, List.mem_range.2 ((hk k).2 hk'), rfl⟩
    -- the request that writes this file
    have hpath : ∀ r ∈ L, sdsPath root r.1 (civilOf r.2.1) = sdsPath root ch t ↔ r.1 = ch ∧ r.2.1 = a := by
      intro r hr
      obtain ⟨hc, k, hk, e⟩ := (hmem r).1 hr
      have hk0 : (0 : Int) ≤ (k : Int) * dayUs := Int.mul_nonneg (by omega) hd.le
      have e1 : r.2.1 = start + (k : Int) * dayUs := by rw [e]
      obtain ⟨hv, hn⟩ := civilOf_valid r.2.1 (by rw [e1]; omega) (by rw [e1]; omega)
      rw [c142_own_file root r.1 ch (hchs _ hc) hch _ _ hv ht, hn]
      constructor
      · rintro ⟨h, h'⟩
        refine ⟨h, ?_⟩
        show r.2.1 = t.dayNo * dayUs + start % dayUs
        rw [← h', e1]
        have h3 := Int.ediv_mul_add_emod (start + k * dayUs) dayUs
        rw [Int.add_mul_emod_self_right] at h3
        omega
      · rintro ⟨h, h'⟩
        refine ⟨h, ?_⟩
        rw [h']
        show (t.dayNo * dayUs + start % dayUs) / dayUs = _
        rw [add_comm, Int.add_mul_ediv_right _ _ hd.ne', Int.ediv_eq_zero_of_lt (Int.emod_nonneg _ hd.ne') (Int.emod_lt_of_pos _ hd), zero_add]
    rw [download_none root avail L files _ new hf (by
      intro r hr hp
      obtain ⟨hc, k, hk, e⟩ := (hmem r).1 hr
      obtain ⟨rfl, h2⟩ := (hpath r hr).1 hp
      show _ = between _ a (min (a + dayUs) stop)
      rw [h2, e]
      rw [e] at h2
      simp only at h2 ⊢
      rw [← h2, add_mul, one_mul, add_assoc])]
    congr 1
    apply propext
    constructor
    · rintro ⟨⟨r, hr, hp⟩, hne⟩
      obtain ⟨hc, k, hk, e⟩ := (hmem r).1 hr
      obtain ⟨rfl, h2⟩ := (hpath r hr).1 hp
      rw [e] at h2
      simp only at h2
      have hk0 : (0 : Int) ≤ (k : Int) * dayUs := Int.mul_nonneg (by omega) hd.le
      exact ⟨hc, by omega, by omega, hne⟩
    · rintro ⟨hc, ha, hs, hne⟩
      refine ⟨?_, hne⟩
      have hk : a = start + ((t.dayNo - start / dayUs).toNat : Int) * dayUs := by
        have h3 := Int.ediv_mul_add_emod start dayUs
        have h4 : start / dayUs ≤ t.dayNo := by
          have h5 : start / dayUs * dayUs ≤ t.dayNo * dayUs := by
            have : start ≤ t.dayNo * dayUs + start % dayUs := ha
            omega
          exact le_of_mul_le_mul_right h5 hd
        rw [Int.toNat_of_nonneg (by omega), sub_mul]
        show t.dayNo * dayUs + start % dayUs = _
        omega
      refine ⟨(ch, start + ((t.dayNo - start / dayUs).toNat : Int) * dayUs, min (start + (((t.dayNo - start / dayUs).toNat : Int) + 1) * dayUs) stop), ?_, ?_⟩
      · exact (hmem _).2 ⟨hc, _, by rw [← hk]; exact hs, rfl⟩
      · exact (hpath _ ((hmem _).2 ⟨hc, _, by rw [← hk]; exact hs, rfl⟩)).2 ⟨rfl, hk.symm⟩

/-- **C142** (part) A download that begins at midnight puts every available sample of the period into the file of its day, unless this file existed before; the file then contains all samples
of the day that are available in the period, and at most the first one of the next day besides. Missing: downloads that begin at another time (`c142_unaligned_violated`), days that have
been downloaded in part before (`c142_incomplete_violated`), the last sample if it falls on midnight. -/
theorem c142_complete_partial (root : Str) (ro : Bool) (avail : Channel → List Int) (chs : List Channel) (hchs : ∀ ch ∈ chs, ch.Plain) (start stop : Int) (h0 : 0 ≤ start)
    (h1 : stop ≤ daysBeforeYear 10000 * dayUs) (hmid : start % dayUs = 0) (files : SdsFiles) (ch : Channel) (hch : ch ∈ chs) (x : Int) (hx : x ∈ avail ch)
    (hs : start ≤ x) (he : x ≤ stop) (he' : x / dayUs * dayUs < stop) (t : Civil) (ht : t.Valid) (htx : t.dayNo = x / dayUs) (hf : files (sdsPath root ch t) = none) :
    ∃ l, downloadMdl root ro avail chs start stop files (sdsPath root ch t) = some l ∧ x ∈ l ∧
      ∀ y, y ∈ l ↔ y ∈ avail ch ∧ start ≤ y ∧ y ≤ stop ∧ (y / dayUs = t.dayNo ∨ y = (t.dayNo + 1) * dayUs) := by
  have hd : (0 : Int) < dayUs := by decide
  have h := c142_files root ro avail chs hchs start stop h0 h1 files ch (hchs ch hch) t ht
  simp only [hf, hmid, add_zero] at h
  have hsd : start ≤ t.dayNo * dayUs := by
    have h3 := Int.ediv_mul_add_emod start dayUs
    have h4 : start / dayUs ≤ x / dayUs := Int.ediv_le_ediv hd hs
    have := Int.mul_le_mul_of_nonneg_right h4 hd.le
    rw [htx]
    omega
  have hxd := Int.ediv_mul_add_emod x dayUs
  have hx1 := Int.emod_nonneg x hd.ne'
  have hx2 := Int.emod_lt_of_pos x hd
  have hmem : ∀ y, y ∈ between (avail ch) (t.dayNo * dayUs) (min (t.dayNo * dayUs + dayUs) stop) ↔
      y ∈ avail ch ∧ start ≤ y ∧ y ≤ stop ∧ (y / dayUs = t.dayNo ∨ y = (t.dayNo + 1) * dayUs) := by
    intro y
    unfold between
    rw [List.mem_filter]
    simp only [Bool.and_eq_true, decide_eq_true_eq, le_min_iff]
    have hyd := Int.ediv_mul_add_emod y dayUs
    have hy1 := Int.emod_nonneg y hd.ne'
    have hy2 := Int.emod_lt_of_pos y hd
    constructor
    · rintro ⟨a, b, c, e⟩
      refine ⟨a, by omega, e, ?_⟩
      rcases Int.lt_or_le y (t.dayNo * dayUs + dayUs) with hlt | hge
      · left
        have q1 : t.dayNo ≤ y / dayUs := Int.le_ediv_of_mul_le hd b
        have q2 : y / dayUs < t.dayNo + 1 := Int.ediv_lt_of_lt_mul hd (by rw [add_mul, one_mul]; exact hlt)
        omega
      · right
        rw [add_mul, one_mul]
        omega
    · rintro ⟨a, b, c, e⟩
      refine ⟨a, ?_, ?_, c⟩
      · rcases e with e | e
        · rw [← e]; omega
        · rw [e, add_mul, one_mul]; omega
      · rcases e with e | e
        · rw [← e]; omega
        · rw [e, add_mul, one_mul]
  have hxl : x ∈ between (avail ch) (t.dayNo * dayUs) (min (t.dayNo * dayUs + dayUs) stop) := (hmem x).2 ⟨hx, hs, he, Or.inl htx.symm⟩
  rw [if_pos ⟨hch, hsd, by rw [htx]; exact he', List.ne_nil_of_mem hxl⟩] at h
  exact ⟨_, h, hxl, hmem⟩

/-- **C142** (violated). If a download does not begin at midnight, the samples before this time of the day are not in the file of their day but in the one of the day before. -/
theorem c142_unaligned_violated (root : Str) (ro : Bool) (avail : Channel → List Int) (chs : List Channel) (hchs : ∀ ch ∈ chs, ch.Plain) (start stop : Int) (h0 : 0 ≤ start)
    (h1 : stop ≤ daysBeforeYear 10000 * dayUs) (ch : Channel) (hch : ch ∈ chs) (x : Int) (hx : x ∈ avail ch) (hs : start ≤ x) (he : x ≤ stop)
    (hmid : x % dayUs < start % dayUs) (t t' : Civil) (ht : t.Valid) (ht' : t'.Valid) (htx : t.dayNo = x / dayUs) (htx' : t'.dayNo = x / dayUs - 1) :
    (∀ l, downloadMdl root ro avail chs start stop (fun _ => none) (sdsPath root ch t) = some l → x ∉ l) ∧
      ∃ l, downloadMdl root ro avail chs start stop (fun _ => none) (sdsPath root ch t') = some l ∧ x ∈ l := by
  have hd : (0 : Int) < dayUs := by decide
  have h := c142_files root ro avail chs hchs start stop h0 h1 (fun _ => none) ch (hchs ch hch) t ht
  have h' := c142_files root ro avail chs hchs start stop h0 h1 (fun _ => none) ch (hchs ch hch) t' ht'
  simp only at h h'
  have hxd := Int.ediv_mul_add_emod x dayUs
  have hx1 := Int.emod_nonneg x hd.ne'
  have hx2 := Int.emod_lt_of_pos start hd
  have hsd := Int.ediv_mul_add_emod start dayUs
  constructor
  · intro l hl hxl
    rw [h] at hl
    split at hl
    · cases hl
      unfold between at hxl
      rw [List.mem_filter] at hxl
      simp only [Bool.and_eq_true, decide_eq_true_eq] at hxl
      rw [htx] at hxl
      omega
    · cases hl
  · have e : t'.dayNo * dayUs = x / dayUs * dayUs - dayUs := by rw [htx', sub_mul, one_mul]
    have hxl : x ∈ between (avail ch) (t'.dayNo * dayUs + start % dayUs) (min (t'.dayNo * dayUs + start % dayUs + dayUs) stop) := by
      unfold between
      rw [List.mem_filter]
      simp only [Bool.and_eq_true, decide_eq_true_eq, le_min_iff]
      have := Int.emod_lt_of_pos x hd
      exact ⟨hx, by omega, by omega, he⟩
    have hlt : start ≤ t'.dayNo * dayUs + start % dayUs := by
      have h5 : start / dayUs < x / dayUs := by
        by_contra hc
        have h6 := Int.mul_le_mul_of_nonneg_right (not_lt.1 hc) hd.le
        omega
      have h7 : start / dayUs ≤ t'.dayNo := by omega
      have := Int.mul_le_mul_of_nonneg_right h7 hd.le
      omega
    rw [if_pos ⟨hch, hlt, by have := Int.emod_lt_of_pos x hd; omega, List.ne_nil_of_mem hxl⟩] at h'
    exact ⟨_, h', hxl⟩

/-- **C142** (violated). A day that was downloaded in part is never completed: after a download that ends within the day, a later download of the whole day adds nothing to the file. -/
theorem c142_incomplete_violated (root : Str) (ro : Bool) (avail : Channel → List Int) (chs : List Channel) (hchs : ∀ ch ∈ chs, ch.Plain) (start mid stop : Int) (h0 : 0 ≤ start)
    (hmid : start % dayUs = 0) (hm : start < mid) (h1 : mid ≤ daysBeforeYear 10000 * dayUs) (hday : mid ≤ start + dayUs) (ch : Channel) (hch : ch ∈ chs)
    (x : Int) (hx : x ∈ avail ch) (hs : start ≤ x) (he : x ≤ mid) (t : Civil) (ht : t.Valid) (htx : t.dayNo = start / dayUs) :
    ∃ l, downloadMdl root ro avail chs start stop (downloadMdl root ro avail chs start mid fun _ => none) (sdsPath root ch t) = some l ∧ ∀ y ∈ l, y ≤ mid := by
  have hd : (0 : Int) < dayUs := by decide
  have h := c142_files root ro avail chs hchs start mid h0 h1 (fun _ => none) ch (hchs ch hch) t ht
  have hsd := Int.ediv_mul_add_emod start dayUs
  have e : t.dayNo * dayUs = start := by rw [htx]; omega
  simp only [hmid, add_zero, e] at h
  have hxl : x ∈ between (avail ch) start (min (start + dayUs) mid) := by
    unfold between
    rw [List.mem_filter]
    simp only [Bool.and_eq_true, decide_eq_true_eq, le_min_iff]
    exact ⟨hx, hs, by omega, he⟩
  rw [if_pos ⟨hch, le_refl _, hm, List.ne_nil_of_mem hxl⟩] at h
  refine ⟨_, download_kept root avail _ _ _ _ h, fun y hy => ?_⟩
  unfold between at hy
  rw [List.mem_filter] at hy
  simp only [Bool.and_eq_true, decide_eq_true_eq, le_min_iff] at hy
  exact hy.2.2.2

/-- **C142** (violated). A client that was created with `read_only=True` extends the archive by a mass download all the same. -/
theorem c142_read_only_violated (root : Str) :
    ∃ (avail : Channel → List Int) (chs : List Channel) (start stop : Int) (p : Str), downloadMdl root true avail chs start stop (fun _ => none) p ≠ none := by
  let ch : Channel := ⟨c!"AB", c!"X", [], c!"HHZ"⟩
  have hch : ch.Plain := by unfold Channel.Plain; decide
  have hv : (⟨1, 1, 1, 0⟩ : Civil).Valid := by decide
  refine ⟨fun _ => [0], [ch], 0, dayUs, sdsPath root ch ⟨1, 1, 1, 0⟩, ?_⟩
  obtain ⟨l, h, -⟩ := c142_complete_partial root true (fun _ => [0]) [ch] (by simpa using hch) 0 dayUs (le_refl _) (by decide) (by decide) (fun _ => none) ch (by simp) 0
    (by simp) (le_refl _) (by decide) (by decide) ⟨1, 1, 1, 0⟩ hv (by decide) rfl
  rw [h]
  exact nofun

/-- two channels of a station and a download of May 2015: the hypotheses of `c142_complete_partial`, and of `c142_unaligned_violated` if it begins at noon -/
example :
    let chs : List Channel := [⟨c!"AB", c!"X", [], c!"HHZ"⟩, ⟨c!"AB", c!"X", c!"00", c!"HHN"⟩]
    let t : Civil := ⟨2015, 5, 3, 0⟩
    let start := (⟨2015, 5, 1, 0⟩ : Civil).abs
    let stop := (⟨2015, 6, 1, 0⟩ : Civil).abs
    let x := t.abs + hourUs
    (∀ ch ∈ chs, ch.Plain) ∧ 0 ≤ start ∧ stop ≤ daysBeforeYear 10000 * dayUs ∧ start % dayUs = 0 ∧ start ≤ x ∧ x ≤ stop ∧ x / dayUs * dayUs < stop ∧ t.Valid ∧
      t.dayNo = x / dayUs ∧ x % dayUs < (start + 12 * hourUs) % dayUs ∧ (⟨2015, 5, 2, 0⟩ : Civil).dayNo = x / dayUs - 1 := by
  refine ⟨?_, by decide, by decide, by decide, by decide, by decide, by decide, by decide, by decide, by decide, by decide⟩
  unfold Channel.Plain
  decide

end SeisMIC
