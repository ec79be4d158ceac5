import Verif.Model.Summary
import Verif.Lemmas.Strings
import Verif.Props.MorePlot
import Verif.Props.StartUp
import Verif.Props.StreamSelect

/-!
# C191: printed summaries show the correlations of a stream
-/

namespace SeisMIC

variable {V : Type}

/-! ## characters -/

theorem natStr_digits (n : Nat) : ∀ c ∈ natStr n, c.isDigit = true := fun _ hc => Nat.isDigit_of_mem_toDigits (by decide) (by decide) hc

theorem fixedDigits_digits (w n : Nat) : ∀ c ∈ fixedDigits w n, c.isDigit = true := by
  induction w generalizing n with
  | zero => intro c hc; cases hc
  | succ w ih =>
    intro c hc
    rw [fixedDigits] at hc
    rcases List.mem_append.1 hc with hc | hc
    · exact ih _ c hc
    · rw [List.mem_singleton.1 hc]
      have : ∀ k, k < 10 → (digitChar k).isDigit = true := by decide
      exact this _ (Nat.mod_lt _ (by decide))

theorem notMem_natStr (c : Char) (h : c.isDigit = false) (n : Nat) : c ∉ natStr n := fun hc => by
  rw [natStr_digits n c hc] at h; cases h

theorem notMem_fixedDigits (c : Char) (h : c.isDigit = false) (w n : Nat) : c ∉ fixedDigits w n := fun hc => by
  rw [fixedDigits_digits w n c hc] at h; cases h

theorem newline_notMem_timeText (t : Int) : '\n' ∉ timeText t := by
  have h := notMem_fixedDigits '\n' (by decide)
  simp only [timeText, List.mem_append, h, false_or, or_false]
  decide

theorem notMem_oneDecimal (c : Char) (h : c.isDigit = false) (h' : c ≠ '.') (x : Rat) : c ∉ oneDecimal x := by
  have h := notMem_natStr c h
  simp [oneDecimal, List.mem_append, h, h']

theorem newline_notMem_ctrText (w : Nat) (p m : Bool) (s : CorrStats V) (h : '\n' ∉ s.ident) : '\n' ∉ ctrText w p m s := by
  have h1 := newline_notMem_timeText
  have h2 := notMem_oneDecimal '\n' (by decide) (by decide)
  have h3 := notMem_natStr '\n' (by decide)
  have h4 : '\n' ∉ padTo w s.ident := by
    unfold padTo
    simp [h, List.mem_replicate]
  unfold ctrText
  simp only [List.mem_append, h1, h3, h4, false_or, or_false]
  cases p <;> cases m <;> split <;> simp [h2]

theorem splitOn_joinWith (c : Char) (l : List Str) (hne : l ≠ []) (h : ∀ x ∈ l, c ∉ x) : splitOn c (joinWith [c] l) = l := by
  induction l with
  | nil => exact absurd rfl hne
  | cons x l ih =>
    cases l with
    | nil => exact splitOn_eq_single c x (h x (by simp))
    | cons y l =>
      rw [joinWith, List.append_assoc, List.singleton_append, splitOn_append c x _ (h x (by simp)), ih (by simp) fun z hz => h z (by simp [hz])]

/-- **C191** The lines of a summary of a stream that is not too long: the number of correlations and one line for each correlation,
in the order of the stream -/
theorem c191_lines (preview masked : CTr V → Bool) (extended : Bool) (st : List (CTr V)) (hne : st ≠ [])
    (hs : st.length ≤ 20 ∨ extended = true) (hid : ∀ tr ∈ st, '\n' ∉ tr.stats.ident) :
    splitOn '\n' (streamText preview masked extended st) =
      (natStr st.length ++ c!" Correlation(s) in Stream:") ::
        st.map fun tr => ctrText (longestId st) (preview tr) (masked tr) tr.stats := by
  have hb : (decide (st.length ≤ 20) || extended) = true := by
    rcases hs with h | h
    · simp [h]
    · simp [h]
  unfold streamText
  simp only [hb]
  have e : natStr st.length ++ c!" Correlation(s) in Stream:\n" ++
      joinWith c!"\n" (st.map fun tr => ctrText (longestId st) (preview tr) (masked tr) tr.stats) =
      (natStr st.length ++ c!" Correlation(s) in Stream:") ++
        '\n' :: joinWith c!"\n" (st.map fun tr => ctrText (longestId st) (preview tr) (masked tr) tr.stats) := by simp
  rw [e, splitOn_append, splitOn_joinWith]
  · simpa using hne
  · intro x hx
    obtain ⟨tr, ht, rfl⟩ := List.mem_map.1 hx
    exact newline_notMem_ctrText _ _ _ _ (hid tr ht)
  · have := notMem_natStr '\n' (by decide) st.length
    simp only [List.mem_append, this, false_or]
    decide

/-- **C191** A longer stream is summarised by its number of correlations, its first and its last correlation and the number of those
left out -/
theorem c191_short (preview masked : CTr V → Bool) (st : List (CTr V)) (first last : CTr V) (mid : List (CTr V))
    (hst : st = first :: mid ++ [last]) (hl : 20 < st.length) (h1 : '\n' ∉ first.stats.ident) (h2 : '\n' ∉ last.stats.ident) :
    splitOn '\n' (streamText preview masked false st) =
      [natStr (mid.length + 2) ++ c!" Correlation(s) in Stream:", [], ctrText 0 (preview first) (masked first) first.stats,
        c!"...", c!"(" ++ natStr mid.length ++ c!" other correlations)", c!"...", ctrText 0 (preview last) (masked last) last.stats,
        [], c!"[Use \"print(Stream.__str__(extended=True))\" to print all correlaitons]"] := by
  have hb : (decide (st.length ≤ 20) || false) = false := by simp; omega
  have hh : st.head? = some first := by rw [hst]; rfl
  have hla : st.getLast? = some last := by rw [hst]; exact List.getLast?_concat
  have hlen : st.length = mid.length + 2 := by rw [hst]; simp
  unfold streamText
  simp only [hb, hh, hla]
  have e : ∀ A B C D : Str, A ++ c!" Correlation(s) in Stream:\n" ++ c!"\n" ++ B ++ c!"\n" ++ c!"...\n(" ++ C ++ c!" other correlations)\n...\n" ++
      D ++ c!"\n\n[Use \"print(Stream.__str__(extended=True))\" to print all correlaitons]" =
      joinWith ['\n'] [A ++ c!" Correlation(s) in Stream:", [], B, c!"...", c!"(" ++ C ++ c!" other correlations)", c!"...", D,
        [], c!"[Use \"print(Stream.__str__(extended=True))\" to print all correlaitons]"] := by
    intro A B C D
    simp [joinWith]
  rw [e, splitOn_joinWith _ _ (by simp), hlen, Nat.add_sub_cancel]
  have n1 := newline_notMem_ctrText 0 (preview first) (masked first) _ h1
  have n2 := newline_notMem_ctrText 0 (preview last) (masked last) _ h2
  have n3 := notMem_natStr '\n' (by decide)
  intro x hx
  simp only [List.mem_cons, List.not_mem_nil, or_false] at hx
  rcases hx with rfl | rfl | rfl | rfl | rfl | rfl | rfl | rfl | rfl
  · simp only [List.mem_append, n3, false_or]; decide
  · decide
  · exact n1
  · decide
  · simp only [List.mem_append, n3, or_false]; decide
  · decide
  · exact n2
  · decide
  · decide

/-! ## what a line tells -/

theorem length_timeText (t : Int) : (timeText t).length = 27 := by simp [timeText, length_fixedDigits]

/-- printed times are the same iff the times are, to the microsecond -/
theorem timeText_eq (t u : Int) (ht : InYears t) (hu : InYears u) (h : timeText t = timeText u) : t / 1000 = u / 1000 := by
  obtain ⟨a0, a1, a2, a3, a4, a5⟩ := civil_bounds t ht
  obtain ⟨b0, b1, b2, b3, b4, b5⟩ := civil_bounds u hu
  unfold timeText at h
  simp only [List.append_assoc] at h
  have l (w : Nat) : ∀ a b : Nat, (fixedDigits w a).length = (fixedDigits w b).length := by simp [length_fixedDigits]
  obtain ⟨e1, h⟩ := List.append_inj h (l 4 _ _)
  obtain ⟨_, h⟩ := List.append_inj h rfl
  obtain ⟨e2, h⟩ := List.append_inj h (l 2 _ _)
  obtain ⟨_, h⟩ := List.append_inj h rfl
  obtain ⟨e3, h⟩ := List.append_inj h (l 2 _ _)
  obtain ⟨_, h⟩ := List.append_inj h rfl
  obtain ⟨e4, h⟩ := List.append_inj h (l 2 _ _)
  obtain ⟨_, h⟩ := List.append_inj h rfl
  obtain ⟨e5, h⟩ := List.append_inj h (l 2 _ _)
  obtain ⟨_, h⟩ := List.append_inj h rfl
  obtain ⟨e6, h⟩ := List.append_inj h (l 2 _ _)
  obtain ⟨_, h⟩ := List.append_inj h rfl
  obtain ⟨e7, h⟩ := List.append_inj h (l 6 _ _)
  unfold dayUs at a4 b4
  have f1 := fixedDigits_inj (w := 4) (by omega) (by omega) e1
  have f2 := fixedDigits_inj (w := 2) (by omega) (by omega) e2
  have f3 := fixedDigits_inj (w := 2) (by omega) (by omega) e3
  have f4 := fixedDigits_inj (w := 2) (by omega) (by omega) e4
  have f5 := fixedDigits_inj (w := 2) (by omega) (by omega) e5
  have f6 := fixedDigits_inj (w := 2) (by omega) (by omega) e6
  have f7 := fixedDigits_inj (w := 6) (by omega) (by omega) e7
  have hy : (civilOf (t / 1000)).year = (civilOf (u / 1000)).year := by omega
  have hd : (civilOf (t / 1000)).dayNo = (civilOf (u / 1000)).dayNo := by
    unfold Civil.dayNo; rw [hy, f2, f3]
  unfold Civil.abs dayUs at a5 b5
  rw [hd] at a5
  omega

theorem append_stop {c : Char} {a b x y : Str} (ha : c ∉ a) (hb : c ∉ b) (h : a ++ c :: x = b ++ c :: y) : a = b ∧ x = y := by
  induction a generalizing b with
  | nil =>
    cases b with
    | nil => simpa using h
    | cons d b => simp at h; exact absurd (by simp [h.1]) hb
  | cons d a ih =>
    cases b with
    | nil => simp at h; exact absurd (by simp [h.1]) ha
    | cons e b =>
      simp only [List.cons_append, List.cons.injEq] at h
      obtain ⟨h1, h2⟩ := ih (fun hm => ha (by simp [hm])) (fun hm => hb (by simp [hm])) h.2
      exact ⟨by rw [h.1, h1], h2⟩

theorem padTo_inj {w : Nat} {a b : Str} (ha : a.getLast? ≠ some ' ') (hb : b.getLast? ≠ some ' ') (h : padTo w a = padTo w b) : a = b := by
  have strip : ∀ (x : Str) (n : Nat), x.getLast? ≠ some ' ' → ((x ++ List.replicate n ' ').reverse.dropWhile (· == ' ')).reverse = x := by
    intro x n hx
    rw [List.reverse_append, List.reverse_replicate]
    have : ∀ (n : Nat) (y : Str), y.head? ≠ some ' ' → (List.replicate n ' ' ++ y).dropWhile (· == ' ') = y := by
      intro n y hy
      induction n with
      | zero =>
        cases y with
        | nil => rfl
        | cons c y =>
          have : (c == ' ') = false := by simpa using hy
          simp [this]
      | succ n ih => rw [List.replicate_succ, List.cons_append, List.dropWhile_cons]; simpa using ih
    rw [this n _ (by rwa [List.head?_reverse]), List.reverse_reverse]
  unfold padTo at h
  rw [← strip a (w - a.length) ha, h, strip b _ hb]

theorem le_longestId (st : List (CTr V)) (tr : CTr V) (h : tr ∈ st) : tr.stats.ident.length ≤ longestId st := by
  unfold longestId
  have : ∀ (l : List Nat) (a : Nat), a ≤ l.foldl max a ∧ ∀ x ∈ l, x ≤ l.foldl max a := by
    intro l
    induction l with
    | nil => intro a; simp
    | cons b l ih =>
      intro a
      simp only [List.foldl_cons]
      obtain ⟨h1, h2⟩ := ih (max a b)
      refine ⟨by omega, fun x hx => ?_⟩
      rcases List.mem_cons.1 hx with rfl | hx
      · omega
      · exact h2 x hx
  exact (this _ 0).2 _ (List.mem_map.2 ⟨tr, h, rfl⟩)

/-- **C191** In the lines of a stream the identifiers are padded with blanks to the same width, so all columns are below each
other: the identifier (network, station, location and channel) is followed by blanks up to the width of the longest one, then the
times of start and end follow. -/
theorem c191_columns (preview masked : CTr V → Bool) (st : List (CTr V)) (tr : CTr V) (h : tr ∈ st) :
    let line := ctrText (longestId st) (preview tr) (masked tr) tr.stats
    let w := longestId st
    let ident := tr.stats.network ++ c!"." ++ tr.stats.station ++ c!"." ++ tr.stats.location ++ c!"." ++ tr.stats.channel
    line.take w = ident ++ List.replicate (w - ident.length) ' ' ∧
    (line.drop w).take 63 = c!" | " ++ timeText tr.stats.corrStart ++ c!" - " ++ timeText tr.stats.corrEnd ++ c!" | " := by
  have hl := le_longestId st tr h
  have hp : (padTo (longestId st) tr.stats.ident).length = longestId st := by simp [padTo]; omega
  simp only [ctrText, List.append_assoc]
  constructor
  · rw [List.take_append_of_le_length (by omega), List.take_of_length_le (by omega)]
    simp only [padTo, CorrStats.ident, List.append_assoc]
  · rw [List.drop_append, List.drop_of_length_le (by omega), hp, Nat.sub_self, List.drop_zero, List.nil_append]
    have hx := length_timeText tr.stats.corrStart
    have hy := length_timeText tr.stats.corrEnd
    simp only [← List.append_assoc]
    rw [List.take_append_of_le_length (by simp; omega), List.take_append_of_le_length (by simp; omega),
      List.take_append_of_le_length (by simp; omega), List.take_append_of_le_length (by simp; omega),
      List.take_append_of_le_length (by simp; omega), List.take_of_length_le (by simp; omega)]

/-- **C191** Two correlations of a stream are described by the same line only if they have the same identifier, start and end
(to the microsecond) and number of samples. -/
theorem c191_tells (preview masked : CTr V → Bool) (st : List (CTr V)) (a b : CTr V) (ha : a ∈ st) (hb : b ∈ st)
    (ya : InYears a.stats.corrStart ∧ InYears a.stats.corrEnd) (yb : InYears b.stats.corrStart ∧ InYears b.stats.corrEnd)
    (na : 0 ≤ a.stats.npts) (nb : 0 ≤ b.stats.npts) (ia : a.stats.ident.getLast? ≠ some ' ') (ib : b.stats.ident.getLast? ≠ some ' ')
    (h : ctrText (longestId st) (preview a) (masked a) a.stats = ctrText (longestId st) (preview b) (masked b) b.stats) :
    a.stats.ident = b.stats.ident ∧ a.stats.corrStart / 1000 = b.stats.corrStart / 1000 ∧
      a.stats.corrEnd / 1000 = b.stats.corrEnd / 1000 ∧ a.stats.npts = b.stats.npts := by
  have la := le_longestId st a ha
  have lb := le_longestId st b hb
  unfold ctrText at h
  simp only [List.append_assoc] at h
  obtain ⟨e1, h⟩ := List.append_inj h (by simp [padTo]; omega)
  obtain ⟨_, h⟩ := List.append_inj h rfl
  obtain ⟨e2, h⟩ := List.append_inj h (by rw [length_timeText, length_timeText])
  obtain ⟨_, h⟩ := List.append_inj h rfl
  obtain ⟨e3, h⟩ := List.append_inj h (by rw [length_timeText, length_timeText])
  obtain ⟨_, h⟩ := List.append_inj h rfl
  refine ⟨padTo_inj ia ib e1, timeText_eq _ _ ya.1 yb.1 e2, timeText_eq _ _ ya.2 yb.2 e3, ?_⟩
  have hrate : ∀ s : CorrStats V, ∃ x : Str, ',' ∉ x ∧
      (if s.samplingRate < 1 / 10 then oneDecimal s.delta ++ c!" s, " else oneDecimal s.samplingRate ++ c!" Hz, ") = x ++ ',' :: [' '] := by
    intro s
    have hc := notMem_oneDecimal ',' (by decide) (by decide)
    split
    · exact ⟨oneDecimal s.delta ++ c!" s", by simp [hc], by simp⟩
    · exact ⟨oneDecimal s.samplingRate ++ c!" Hz", by simp [hc], by simp⟩
  obtain ⟨xa, hxa, ea⟩ := hrate a.stats
  obtain ⟨xb, hxb, eb⟩ := hrate b.stats
  rw [ea, eb] at h
  simp only [List.append_assoc, List.cons_append, List.nil_append] at h
  obtain ⟨_, h⟩ := append_stop hxa hxb h
  simp only [List.cons.injEq, true_and] at h
  obtain ⟨h, _⟩ := append_stop (c := ' ') (notMem_natStr ' ' (by decide) _) (notMem_natStr ' ' (by decide) _) h
  have := natStr_inj h
  omega

/-- **C191** A stream is made of a list of correlations, in their order, and of nothing else. -/
theorem c191_init (l : List (Option (CTr V))) (st : List (CTr V)) : corrStreamInit l = .ok st ↔ l = st.map some := by
  induction l generalizing st with
  | nil => cases st <;> simp [corrStreamInit]
  | cons x l ih =>
    cases x with
    | none => cases st <;> simp [corrStreamInit]
    | some tr =>
      rw [corrStreamInit]
      cases hr : corrStreamInit l with
      | error e =>
        simp only [Except.map]
        constructor
        · intro h; cases h
        · intro h
          cases st with
          | nil => cases h
          | cons y st =>
            simp only [List.map_cons, List.cons.injEq] at h
            rw [(ih st).2 h.2] at hr; cases hr
      | ok r =>
        have hr' := (ih r).1 hr
        simp only [Except.map, Except.ok.injEq]
        cases st with
        | nil => simp
        | cons y st =>
          rw [hr', List.map_cons, List.cons.injEq, List.cons.injEq, Option.some.injEq]
          exact and_congr_right fun _ => ⟨fun h => by rw [h], fun h => List.map_injective_iff.2 (Option.some_injective _) h⟩

/-- **C191** (negation of a part) The sampling rate is shown with one decimal only: two correlations with different rates
can have the same line. -/
theorem c191_rate_violated : ∃ a b : CTr Nat, a.stats.samplingRate ≠ b.stats.samplingRate ∧
    ctrText 12 false false a.stats = ctrText 12 false false b.stats :=
  ⟨⟨{ (CorrStats.default : CorrStats Nat) with samplingRate := 25 }, []⟩,
    ⟨{ (CorrStats.default : CorrStats Nat) with samplingRate := 25 + 1 / 25 }, []⟩, by decide +kernel, by decide +kernel⟩

/-- the summary of a small stream -/
example : streamText (fun _ => false) (fun _ => false) false [exTr c!"A-A" 63082281600000000000 63082281610000000000 [some 2], exTr c!"AB-B" 63082281600000000000 63082281610500000000 []] =
    c!"2 Correlation(s) in Stream:\nN-N.A-A..HHZ-HHZ  | 2000-01-01T00:00:00.000000Z - 2000-01-01T00:00:10.000000Z | 1.0 Hz, 1 samples\nN-N.AB-B..HHZ-HHZ | 2000-01-01T00:00:00.000000Z - 2000-01-01T00:00:10.500000Z | 1.0 Hz, 0 samples" := by
  decide +kernel

/-- a stream of 21 correlations -/
example : let tr := exTr c!"A-A" 63082281600000000000 63082281610000000000 [some 2]
    List.replicate 21 tr = tr :: List.replicate 19 tr ++ [tr] ∧ 20 < (List.replicate 21 tr).length ∧ '\n' ∉ tr.stats.ident := by
  decide +kernel

/-- its correlations meet the hypotheses -/
example : let tr := exTr c!"A-A" 63082281600000000000 63082281610000000000 [some 2]
    '\n' ∉ tr.stats.ident ∧ InYears tr.stats.corrStart ∧ InYears tr.stats.corrEnd ∧ 0 ≤ tr.stats.npts ∧ tr.stats.ident.getLast? ≠ some ' ' := by
  decide +kernel

end SeisMIC
