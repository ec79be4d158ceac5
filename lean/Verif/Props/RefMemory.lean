import Verif.Model.RefMemory

/-!
# C183: the reference trace that a matrix of correlations remembers
-/

namespace SeisMIC

/-! ## Specification -/

/-- the references that were extracted from bulk `i` in a session with calls `cs` and results `out` -/
def extractedFrom {X : Type} (i : Nat) (cs : List (Nat × RCall X)) (out : List (ROut X)) : List RefTrc :=
  (cs.zip out).filterMap fun p => match p.2 with
    | .ref r => if p.1.1 = i then some r else none
    | _ => none

/-! ## Lemmas -/

/-- only a call that returns a reference changes the attribute -/
theorem call_ref {X : Type} (b : RBulk) (c : RCall X) :
    (b.call c).1.ref = (match (b.call c).2.2 with | .ref r => some r | _ => none).or b.ref := by
  cases c with
  | process f =>
    simp only [RBulk.call]
    cases (f b.cur).2 <;> rfl
  | extract m p =>
    simp only [RBulk.call]
    cases b.extract m p <;> rfl
  | extractMulti w m p =>
    simp only [RBulk.call]
    cases b.extractMulti w m p <;> rfl
  | measure given f =>
    simp only [RBulk.call]
    cases (f b.cur (given.or b.ref)).1 <;> rfl
  | shift given f =>
    simp only [RBulk.call]
    cases f b.cur given <;> rfl
  | copy => rfl
  | part f =>
    simp only [RBulk.call]
    cases f b.cur <;> rfl

theorem sessionCall_get {X : Type} (st : List RBulk) (i j : Nat) (c : RCall X) (b : RBulk) (hb : st[j]? = some b) :
    (sessionCall st i c).1[j]? = some (if i = j then (b.call c).1 else b) := by
  have hj : j < st.length := (List.getElem?_eq_some_iff.1 hb).1
  unfold sessionCall
  cases hi : st[i]? with
  | none =>
    have : i ≠ j := by rintro rfl; rw [hb] at hi; cases hi
    simp [hb, this]
  | some bi =>
    simp only
    rw [List.getElem?_append_left (by simpa using hj), List.getElem?_set]
    split
    · rename_i h
      subst h
      rw [hb] at hi
      cases hi
      simp [hj]
    · simp [hb]

/-! ## C183 -/

/-- **C183** (part) Whatever is called, on this or on other matrices: the reference that a matrix remembers is the one that was extracted
last from it, as it was at that time, or the one that it had at the beginning if none was extracted. -/
theorem c183_history {X : Type} (cs : List (Nat × RCall X)) (st : List RBulk) (i : Nat) (b : RBulk) (hb : st[i]? = some b) :
    ∃ b', (session st cs).2[i]? = some b' ∧ b'.ref = ((extractedFrom i cs (session st cs).1).getLast?).or b.ref := by
  induction cs generalizing st b with
  | nil => exact ⟨b, hb, rfl⟩
  | cons c cs ih =>
    obtain ⟨j, c⟩ := c
    have hg := sessionCall_get st j i c b hb
    obtain ⟨b', h1, h2⟩ := ih (sessionCall st j c).1 _ hg
    refine ⟨b', h1, ?_⟩
    rw [h2]
    simp only [session]
    by_cases hji : j = i
    · subst hji
      have ho : (sessionCall st j c).2 = (b.call c).2.2 := by simp [sessionCall, hb]
      rw [if_pos rfl, call_ref b c, ho]
      cases hc : (b.call c).2.2 with
      | ref r =>
        simp only [extractedFrom, List.zip_cons_cons, List.filterMap_cons, if_true, Option.some_or]
        rw [List.getLast?_cons]
        cases (List.filterMap _ (cs.zip _)).getLast? <;> rfl
      | done => simp [extractedFrom]
      | failed e => simp [extractedFrom]
      | value x => simp [extractedFrom]
    · rw [if_neg hji]
      have : extractedFrom i ((j, c) :: cs) ((sessionCall st j c).2 :: (session (sessionCall st j c).1 cs).1) =
          extractedFrom i cs (session (sessionCall st j c).1 cs).1 := by
        simp only [extractedFrom, List.zip_cons_cons, List.filterMap_cons, if_neg hji]
        cases (sessionCall st j c).2 <;> rfl
      rw [this]

/-- **C183** (part) A measurement uses the reference that is given; if none is given, `stretch` and `find_clock_shift` use the one that is
remembered, and without one the measurement computes its own from the present data; `measure_shift` never uses the one that is
remembered. A given reference is not remembered. -/
theorem c183_used {X : Type} (b : RBulk) (f : RData → Option RefTrc → Except PyErr X × RData) (g : RData → Option RefTrc → Except PyErr X) :
    (∀ r : RefTrc, (b.call (.measure (some r) f)).2.2 = measured (f b.cur (some r)).1 ∧ (b.call (.measure (some r) f)).1.ref = b.ref) ∧
    (∀ r : RefTrc, b.ref = some r → (b.call (.measure none f)).2.2 = measured (f b.cur (some r)).1) ∧
    (b.ref = none → (b.call (.measure none f)).2.2 = measured (f b.cur none).1) ∧
    (∀ given : Option RefTrc, (b.call (.shift given g)).2.2 = measured (g b.cur given) ∧ (b.call (.shift given g)).1 = b) := by
  refine ⟨fun r => ⟨rfl, rfl⟩, fun r h => ?_, fun h => ?_, fun given => ⟨rfl, rfl⟩⟩
  · simp [RBulk.call, h]
  · simp [RBulk.call, h]

/-- **C183** (part) What is extracted is the reference of the data at this time, and it is what is remembered; if the extraction fails, the old
reference is kept. -/
theorem c183_extract {X : Type} (b : RBulk) (method : Str) (pct : ℝ) :
    (∀ l, extractTrace b.cur.lag.npts b.cur.data method pct = .ok l →
      (b.call (.extract method pct : RCall X)).1 = ⟨b.cur, some (.one l)⟩ ∧ (b.call (.extract method pct : RCall X)).2.2 = .ref (.one l)) ∧
    (∀ e, extractTrace b.cur.lag.npts b.cur.data method pct = .error e →
      (b.call (.extract method pct : RCall X)).1 = b ∧ (b.call (.extract method pct : RCall X)).2.2 = .failed e) ∧
    (∀ (w : List Int ⊕ Int) l, w ≠ .inr 0 → extractMulti b.cur.lag.npts b.cur.starts b.cur.ends b.cur.data w method pct = .ok l →
      (b.call (.extractMulti w method pct : RCall X)).1 = ⟨b.cur, some (.many l)⟩ ∧ (b.call (.extractMulti w method pct : RCall X)).2.2 = .ref (.many l)) ∧
    (∀ (w : List Int ⊕ Int) e, w ≠ .inr 0 → extractMulti b.cur.lag.npts b.cur.starts b.cur.ends b.cur.data w method pct = .error e →
      (b.call (.extractMulti w method pct : RCall X)).1 = b ∧ (b.call (.extractMulti w method pct : RCall X)).2.2 = .failed e) ∧
    (b.call (.extractMulti (.inr 0) method pct : RCall X)) = b.call (.extract method pct) := by
  have hw : ∀ w : List Int ⊕ Int, w ≠ .inr 0 → b.extractMulti w method pct =
      (extractMulti b.cur.lag.npts b.cur.starts b.cur.ends b.cur.data w method pct).map .many := by
    intro w hw
    unfold RBulk.extractMulti
    split
    · exact absurd rfl hw
    · rfl
  refine ⟨fun l h => ?_, fun e h => ?_, fun w l h1 h => ?_, fun w e h1 h => ?_, rfl⟩
  · simp [RBulk.call, RBulk.extract, h, Except.map, RBulk.store]
  · simp [RBulk.call, RBulk.extract, h, Except.map, RBulk.store]
  · simp [RBulk.call, hw w h1, h, Except.map, RBulk.store]
  · simp [RBulk.call, hw w h1, h, Except.map, RBulk.store]

/-- **C183** (part) A copy remembers the same reference; a part of a matrix (`slice`, `[a:b]`, `select_corr_time`) remembers none. The new
matrix has the next free number, and all other matrices are as before. -/
theorem c183_new {X : Type} (st : List RBulk) (i : Nat) (b : RBulk) (hb : st[i]? = some b) (f : RData → Except PyErr RData) :
    (sessionCall st i (.copy : RCall X)).1 = st ++ [b] ∧
    (∀ d, f b.cur = .ok d → (sessionCall st i (.part f : RCall X)).1 = st ++ [⟨d, none⟩]) ∧
    (∀ e, f b.cur = .error e → (sessionCall st i (.part f : RCall X)).1 = st) := by
  have hs : st.set i b = st := by
    obtain ⟨h, rfl⟩ := List.getElem?_eq_some_iff.1 hb
    exact List.set_getElem_self h
  refine ⟨?_, fun d h => ?_, fun e h => ?_⟩
  · simp [sessionCall, hb, RBulk.call, hs]
  · simp [sessionCall, hb, RBulk.call, h, hs]
  · simp [sessionCall, hb, RBulk.call, h, hs]

/-- three lags, one correlation -/
def exRBulk : RBulk := ⟨⟨⟨-1, 3, 1⟩, [0], [1], [[some 1, some 2, some 3]]⟩, none⟩

/-- `trim(starttime, endtime)` -/
def trimR (a e : Rat) (d : RData) : RData × Option PyErr :=
  let r := corrMatTrim d.data d.lag a e
  ({ d with data := r.1, lag := r.2 }, none)

theorem exRBulk_extract : ∃ r, r.length = 3 ∧ extractTrace exRBulk.cur.lag.npts exRBulk.cur.data c!"mean" 50 = .ok r :=
  ⟨_, by simp [exRBulk], if_pos rfl⟩

theorem exRBulk_trim : (trimR 0 0 exRBulk.cur).1.data = [[some 2]] ∧ (trimR 0 0 exRBulk.cur).1.lag = ⟨0, 1, 1⟩ := by
  have h1 : (((0 : Rat) - (-1)) * 1).floor = 1 := by decide +kernel
  simp only [trimR, exRBulk, corrMatTrim, h1]
  constructor <;> rfl

/-- a matrix exists, a reference is extracted from it, and a measurement uses it -/
example : [exRBulk][0]? = some exRBulk ∧
    ∃ r, (session [exRBulk] [(0, (.extract c!"mean" 50 : RCall Nat)), (0, .process (trimR 0 0)), (0, .copy), (1, .extract c!"other" 50)]).1 =
      [.ref r, .done, .done, .failed .valueError] := by
  obtain ⟨r, _, h⟩ := exRBulk_extract
  refine ⟨rfl, .one r, ?_⟩
  have h1 := ((c183_extract (X := Nat) exRBulk c!"mean" 50).1 r h)
  have h0 : sessionCall [exRBulk] 0 (.extract c!"mean" 50 : RCall Nat) = ([⟨exRBulk.cur, some (.one r)⟩], .ref (.one r)) := by
    unfold sessionCall
    simp only [List.getElem?_cons_zero]
    rw [h1.1, h1.2]
    rfl
  simp only [session, h0]
  rfl

/-- **C183** (part, violated) The documentation of `stretch` says that a reference is extracted if none is given. After `extract_trace` and a
processing of the matrix, here `trim`, it is the old reference that is used, even if it does not fit the matrix any more. -/
theorem c183_stale_violated : ∃ (b : RBulk) (b1 b2 : RBulk) (r : List (Option ℝ)), b.ref = none ∧
    (b.call (.extract c!"mean" 50 : RCall Nat)).1 = b1 ∧ (b1.call (.process (trimR 0 0) : RCall Nat)).1 = b2 ∧
    (∀ f : RData → Option RefTrc → Except PyErr Nat × RData, (b2.call (.measure none f)).2.2 = measured (f b2.cur (some (.one r))).1) ∧
    r.length = 3 ∧ b2.cur.lag.npts = 1 ∧ b2.cur.data = [[some 2]] := by
  obtain ⟨r, h1, h2⟩ := exRBulk_extract
  refine ⟨exRBulk, ⟨exRBulk.cur, some (.one r)⟩, ⟨(trimR 0 0 exRBulk.cur).1, some (.one r)⟩, r, rfl, ((c183_extract exRBulk c!"mean" 50).1 r h2).1, rfl, fun f => rfl, h1, ?_, exRBulk_trim.1⟩
  rw [exRBulk_trim.2]

end SeisMIC
