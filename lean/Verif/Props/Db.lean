import Verif.Lemmas.DbRead
import Verif.Lemmas.Combis

/-!
# The correlation database: C09, C13 - C15, C20
-/

namespace SeisMIC

variable {δ : Type}

/-! ## C13 -/

/-- **C13** For every sequence of additions `as` (each a stream of traces) the
dataset found at a place is the one that was there before, and if there was
none, the first one added for this place. -/
theorem c13_first_write_wins (f : H5 δ) (as : List (List (HPath × δ))) (p : HPath) :
    (as.foldl H5.add f).lookup p = (f.lookup p).or (as.flatten.lookup p) := by
  induction as generalizing f with
  | nil => simp
  | cons a as ih =>
    rw [List.foldl_cons, ih, lookup_add, List.flatten_cons, List.lookup_append]
    cases f.lookup p <;> simp

/-- **C13** In particular nothing that is stored changes or disappears. -/
theorem c13_never_overwritten (f : H5 δ) (as : List (List (HPath × δ))) (p : HPath) (d : δ)
    (h : f.lookup p = some d) : (as.foldl H5.add f).lookup p = some d := by
  rw [c13_first_write_wins, h]; rfl

/-- and the stored options stay -/
theorem c13_options_kept (f : H5 δ) (a : List (HPath × δ)) : (f.add a).hasCo = f.hasCo := by
  unfold H5.add
  induction a generalizing f with
  | nil => rfl
  | cons e a ih =>
    rw [List.foldl_cons, ih]
    unfold H5.addOne; split <;> rfl

/-- two writes for the same place: the first stays, another place is added -/
example :
    let p : HPath := ⟨c!"subdivision", c!"A-B", c!"S-T", c!"Z-Z", c!"1", c!"2"⟩
    let q : HPath := ⟨c!"subdivision", c!"A-B", c!"S-T", c!"Z-Z", c!"2", c!"3"⟩
    let f : H5 Nat := ⟨true, [(p, 1)]⟩
    ([[(p, 2), (q, 3)], [(q, 4)]].foldl H5.add f).sets = [(p, 1), (q, 3)] := by decide

/-! ## C14 -/

theorem getData_literal (f : H5 δ) (tag n1 s1 c1 n2 s2 c2 cst cet : Str)
    (h : SaneReq n1 s1 c1 n2 s2 c2) (ht : SaneName tag) (hs : SaneName cst) (he : SaneName cet) :
    f.getData (n1 ++ '-' :: n2) (s1 ++ '-' :: s2) (c1 ++ '-' :: c2) tag (some cst) (some cet) =
      (let (net, sta, cha) := requestCodes n1 s1 c1 n2 s2 c2
       let p : HPath := ⟨tag, net, sta, cha, cst, cet⟩
       match f.lookup p with
         | some d => .ok [.corr p d]
         | none => .error .keyError) := by
  rw [getData_start _ _ _ _ _ _ _ _ _ _ h]
  have hr := requestCodes_sane h
  rcases hreq : requestCodes n1 s1 c1 n2 s2 c2 with ⟨net, sta, cha⟩
  rw [hreq] at hr
  simp only [Option.getD_some]
  apply if_pos
  rw [noWild_str]
  intro x hx
  simp [HPath.comps] at hx
  rcases hx with rfl | rfl | rfl | rfl | rfl | rfl
  · exact ⟨ht.plain.noStar, ht.plain.noQuestion⟩
  · exact ⟨hr.1.plain.noStar, hr.1.plain.noQuestion⟩
  · exact ⟨hr.2.1.plain.noStar, hr.2.1.plain.noQuestion⟩
  · exact ⟨hr.2.2.plain.noStar, hr.2.2.plain.noQuestion⟩
  · exact ⟨hs.plain.noStar, hs.plain.noQuestion⟩
  · exact ⟨he.plain.noStar, he.plain.noQuestion⟩

/-- **C14** A trace added to a free place is returned, and nothing else, when
it is requested by its codes, tag and time window. -/
theorem c14_read_back (f : H5 δ) (tag n1 s1 c1 n2 s2 c2 cst cet : Str) (d : δ)
    (h : SaneReq n1 s1 c1 n2 s2 c2) (ht : SaneName tag) (hs : SaneName cst) (he : SaneName cet)
    (p : HPath) (hp : p = ⟨tag, (requestCodes n1 s1 c1 n2 s2 c2).1, (requestCodes n1 s1 c1 n2 s2 c2).2.1,
      (requestCodes n1 s1 c1 n2 s2 c2).2.2, cst, cet⟩)
    (hfree : f.lookup p = none) :
    (f.add [(p, d)]).getData (n1 ++ '-' :: n2) (s1 ++ '-' :: s2) (c1 ++ '-' :: c2) tag
      (some cst) (some cet) = .ok [.corr p d] := by
  rw [getData_literal _ _ _ _ _ _ _ _ _ _ h ht hs he]
  have : (f.add [(p, d)]).lookup p = some d := by
    rw [lookup_add, hfree]; simp [List.lookup_cons]
  rcases hr : requestCodes n1 s1 c1 n2 s2 c2 with ⟨net, sta, cha⟩
  rw [hr] at hp
  simp only at hp ⊢
  rw [← hp, this]

/-- **C14** It stays readable whatever is added later. -/
theorem c14_read_back_later (f : H5 δ) (tag n1 s1 c1 n2 s2 c2 cst cet : Str) (d : δ)
    (h : SaneReq n1 s1 c1 n2 s2 c2) (ht : SaneName tag) (hs : SaneName cst) (he : SaneName cet)
    (p : HPath) (hp : p = ⟨tag, (requestCodes n1 s1 c1 n2 s2 c2).1, (requestCodes n1 s1 c1 n2 s2 c2).2.1,
      (requestCodes n1 s1 c1 n2 s2 c2).2.2, cst, cet⟩)
    (hfree : f.lookup p = none) (later : List (List (HPath × δ))) :
    (later.foldl H5.add (f.add [(p, d)])).getData (n1 ++ '-' :: n2) (s1 ++ '-' :: s2) (c1 ++ '-' :: c2) tag
      (some cst) (some cet) = .ok [.corr p d] := by
  rw [getData_literal _ _ _ _ _ _ _ _ _ _ h ht hs he]
  have : (later.foldl H5.add (f.add [(p, d)])).lookup p = some d := by
    rw [c13_first_write_wins, lookup_add, hfree]; simp [List.lookup_cons]
  rcases hr : requestCodes n1 s1 c1 n2 s2 c2 with ⟨net, sta, cha⟩
  rw [hr] at hp
  simp only at hp ⊢
  rw [← hp, this]

/-- **C14** What was never written raises `KeyError`. -/
theorem c14_missing (f : H5 δ) (tag n1 s1 c1 n2 s2 c2 cst cet : Str)
    (h : SaneReq n1 s1 c1 n2 s2 c2) (ht : SaneName tag) (hs : SaneName cst) (he : SaneName cet)
    (hno : ∀ d, (⟨tag, (requestCodes n1 s1 c1 n2 s2 c2).1, (requestCodes n1 s1 c1 n2 s2 c2).2.1,
      (requestCodes n1 s1 c1 n2 s2 c2).2.2, cst, cet⟩, d) ∉ f.sets) :
    f.getData (n1 ++ '-' :: n2) (s1 ++ '-' :: s2) (c1 ++ '-' :: c2) tag (some cst) (some cet) =
      .error .keyError := by
  rw [getData_literal _ _ _ _ _ _ _ _ _ _ h ht hs he]
  rcases hr : requestCodes n1 s1 c1 n2 s2 c2 with ⟨net, sta, cha⟩
  rw [hr] at hno
  simp only at hno ⊢
  have : f.lookup ⟨tag, net, sta, cha, cst, cet⟩ = none := by
    unfold H5.lookup
    rw [List.lookup_eq_none_iff]
    intro e he'
    simp
    intro heq
    exact hno e.2 (by rw [heq]; exact he')
  rw [this]

/-- the hypotheses are met by ordinary codes, given in either order -/
example : SaneReq c!"IU" c!"HRV" c!"BHZ" c!"YP" c!"NE01" c!"HHZ" ∧ SaneName c!"subdivision" ∧
    SaneName c!"2020001T000000.0000Z" ∧
    requestCodes c!"YP" c!"NE01" c!"HHZ" c!"IU" c!"HRV" c!"BHZ" =
      (c!"IU-YP", c!"HRV-NE01", c!"BHZ-HHZ") := by
  unfold SaneReq; decide

/-! ## C09 -/

/-- **C09** Reading and removing do not depend on the order in which the two
stations are given. -/
theorem c09_either_order (f : H5 δ) (tag n1 s1 c1 n2 s2 c2 : Str) (cst cet : Option Str) (st : Str)
    (h : SaneReq n1 s1 c1 n2 s2 c2) :
    f.getData (n2 ++ '-' :: n1) (s2 ++ '-' :: s1) (c2 ++ '-' :: c1) tag cst cet =
      f.getData (n1 ++ '-' :: n2) (s1 ++ '-' :: s2) (c1 ++ '-' :: c2) tag cst cet ∧
    f.removeData (n2 ++ '-' :: n1) (s2 ++ '-' :: s1) (c2 ++ '-' :: c1) tag st =
      f.removeData (n1 ++ '-' :: n2) (s1 ++ '-' :: s2) (c1 ++ '-' :: c2) tag st := by
  have h' : SaneReq n2 s2 c2 n1 s1 c1 := by
    obtain ⟨a, b, c, d, e, g⟩ := h; exact ⟨d, e, g, a, b, c⟩
  constructor
  · rw [getData_start _ _ _ _ _ _ _ _ _ _ h, getData_start _ _ _ _ _ _ _ _ _ _ h',
      requestCodes_swap n1 s1 c1 n2 s2 c2 h.noSep]
  · rw [removeData_start _ _ _ _ _ _ _ _ _ h, removeData_start _ _ _ _ _ _ _ _ _ h',
      requestCodes_swap n1 s1 c1 n2 s2 c2 h.noSep]

/-- The codes under which the correlator stores a pair are the codes under which
it is looked up, if the order of the concatenated codes agrees with the order of
the names with dots. -/
theorem corrCodes_eq_requestCodes (a b : TrHead)
    (h : a.net ++ a.sta ++ a.cha ≤ b.net ++ b.sta ++ b.cha ↔
      dotName a.net a.sta a.cha ≤ dotName b.net b.sta b.cha) :
    corrCodes a b = requestCodes a.net a.sta a.cha b.net b.sta b.cha := by
  rw [corrCodes_eq]
  unfold requestCodes
  by_cases h1 : a.net ++ a.sta ++ a.cha ≤ b.net ++ b.sta ++ b.cha
  · rw [if_pos h1, if_pos (h.1 h1)]; simp [dash]
  · rw [if_neg h1, if_neg (mt h.2 h1)]; simp [dash]

/-- **C09**, what holds: a correlation stored under the codes given by the
correlator is found with the codes of the two stations in either order, if the
order by concatenated codes agrees with the order by names with dots.
Missing for the full property: `c09_found_violated`. -/
theorem c09_found_partial (f : H5 δ) (a b : TrHead) (tag cst cet : Str) (d : δ)
    (hreq : SaneReq a.net a.sta a.cha b.net b.sta b.cha)
    (ht : SaneName tag) (hs : SaneName cst) (he : SaneName cet)
    (h : a.net ++ a.sta ++ a.cha ≤ b.net ++ b.sta ++ b.cha ↔
      dotName a.net a.sta a.cha ≤ dotName b.net b.sta b.cha)
    (p : HPath) (hp : p = ⟨tag, (corrCodes a b).1, (corrCodes a b).2.1, (corrCodes a b).2.2, cst, cet⟩)
    (hst : f.lookup p = some d) :
    f.getData (a.net ++ '-' :: b.net) (a.sta ++ '-' :: b.sta) (a.cha ++ '-' :: b.cha) tag
      (some cst) (some cet) = .ok [.corr p d] ∧
    f.getData (b.net ++ '-' :: a.net) (b.sta ++ '-' :: a.sta) (b.cha ++ '-' :: a.cha) tag
      (some cst) (some cet) = .ok [.corr p d] := by
  rw [(c09_either_order f tag _ _ _ _ _ _ _ _ cst hreq).1, and_self,
    getData_literal _ _ _ _ _ _ _ _ _ _ hreq ht hs he, ← corrCodes_eq_requestCodes a b h]
  rcases hr : corrCodes a b with ⟨net, sta, cha⟩
  rw [hr] at hp
  simp only at hp ⊢
  rw [← hp, hst]

/-- **C09** holds for networks with codes of the same length and stations with
codes of the same length. -/
theorem c09_found_equal_length (f : H5 δ) (a b : TrHead) (tag cst cet : Str) (d : δ)
    (hreq : SaneReq a.net a.sta a.cha b.net b.sta b.cha)
    (ht : SaneName tag) (hs : SaneName cst) (he : SaneName cet)
    (hn : a.net.length = b.net.length) (hl : a.sta.length = b.sta.length)
    (p : HPath) (hp : p = ⟨tag, (corrCodes a b).1, (corrCodes a b).2.1, (corrCodes a b).2.2, cst, cet⟩)
    (hst : f.lookup p = some d) :
    f.getData (a.net ++ '-' :: b.net) (a.sta ++ '-' :: b.sta) (a.cha ++ '-' :: b.cha) tag
      (some cst) (some cet) = .ok [.corr p d] ∧
    f.getData (b.net ++ '-' :: a.net) (b.sta ++ '-' :: a.sta) (b.cha ++ '-' :: a.cha) tag
      (some cst) (some cet) = .ok [.corr p d] := by
  apply c09_found_partial f a b tag cst cet d hreq ht hs he ?_ p hp hst
  unfold dotName
  rw [List.append_assoc, List.append_assoc, append_le_append _ _ _ _ hn, append_le_append _ _ _ _ hl,
    append_le_append _ _ _ _ hn, cons_le_cons, append_le_append _ _ _ _ hl, cons_le_cons]
  simp

/-- the hypotheses are met, e.g. by two stations of one network -/
example : SaneReq c!"XN" c!"NEP06" c!"HHZ" c!"XN" c!"NEP07" c!"HHE" ∧
    corrCodes ⟨c!"XN", c!"NEP07", [], c!"HHE", 0⟩ ⟨c!"XN", c!"NEP06", [], c!"HHZ", 0⟩ =
      (c!"XN-XN", c!"NEP06-NEP07", c!"HHZ-HHE") := by
  unfold SaneReq; decide

/-- **C09** is violated in general: for the stations `S1` and `S10` of one
network the correlator stores under `S10-S1` ("XNS10HHZ" < "XNS1HHZ"), but both
orders of the request are turned into `S1-S10` ("XN.S1.HHZ" < "XN.S10.HHZ") and
raise `KeyError`. -/
theorem c09_found_violated :
    let a : TrHead := ⟨c!"XN", c!"S1", [], c!"HHZ", 0⟩
    let b : TrHead := ⟨c!"XN", c!"S10", [], c!"HHZ", 0⟩
    let cc := corrCodes a b
    let f : H5 Nat := ⟨true, [(⟨c!"subdivision", cc.1, cc.2.1, cc.2.2, c!"t0", c!"t1"⟩, 7)]⟩
    cc.2.1 = c!"S10-S1" ∧
    f.getData c!"XN-XN" c!"S1-S10" c!"HHZ-HHZ" c!"subdivision" (some c!"t0") (some c!"t1") = .error .keyError ∧
    f.getData c!"XN-XN" c!"S10-S1" c!"HHZ-HHZ" c!"subdivision" (some c!"t0") (some c!"t1") = .error .keyError ∧
    f.getData c!"XN-XN" c!"S10-S1" c!"HHZ-HHZ" c!"subdivision" none none = .error .keyError := by
  decide

/-! ## C15 -/

/-- **C15** (no wildcard) For every database `remove_data` removes exactly the
correlations of the tag, the codes and the start time; if there are none it
changes nothing. -/
theorem c15_literal_exact (f : H5 δ) (tag cst n1 s1 c1 n2 s2 c2 : Str)
    (h : SaneReq n1 s1 c1 n2 s2 c2) (ht : SaneName tag) (hc : SaneName cst) :
    f.removeData (n1 ++ '-' :: n2) (s1 ++ '-' :: s2) (c1 ++ '-' :: c2) tag cst =
      .ok { f with sets := f.sets.filter fun e => !decide (e.1.tag = tag ∧
        (e.1.net, e.1.sta, e.1.cha) = requestCodes n1 s1 c1 n2 s2 c2 ∧ e.1.cst = cst) } :=
  removeData_literal f tag cst n1 s1 c1 n2 s2 c2 h ht hc

/-- **C15** (wildcard `*` in the start time) If there are correlations of the tag
and codes, exactly those whose start time matches are removed. Missing: `?`, see
`c15_question_violated`, and bracket expressions. -/
theorem c15_star_exact_partial (f : H5 δ) (tag cst n1 s1 c1 n2 s2 c2 : Str)
    (h : SaneReq n1 s1 c1 n2 s2 c2) (ht : SaneName tag)
    (hc : cst ≠ [] ∧ '/' ∉ cst ∧ '?' ∉ cst ∧ '[' ∉ cst) (hw : '*' ∈ cst)
    (hex : ∃ e ∈ f.sets, e.1.tag = tag ∧ (e.1.net, e.1.sta, e.1.cha) = requestCodes n1 s1 c1 n2 s2 c2) :
    ∃ f', f.removeData (n1 ++ '-' :: n2) (s1 ++ '-' :: s2) (c1 ++ '-' :: c2) tag cst = .ok f' ∧
      f'.hasCo = f.hasCo ∧ f'.sets.Sublist f.sets ∧
      ∀ e, e ∈ f'.sets ↔ e ∈ f.sets ∧ ¬ (e.1.tag = tag ∧
        (e.1.net, e.1.sta, e.1.cha) = requestCodes n1 s1 c1 n2 s2 c2 ∧ Glob cst e.1.cst) := by
  obtain ⟨f', h1, h2, b, h3, h4⟩ := removeData_star f tag cst n1 s1 c1 n2 s2 c2 h ht hc hw hex
  refine ⟨f', h1, h2, by rw [h3]; exact List.filter_sublist, ?_⟩
  intro e
  rw [h3, List.mem_filter]
  constructor
  · rintro ⟨he, hb⟩
    refine ⟨he, ?_⟩
    rintro ⟨k1, k2, k3⟩
    have := (h4 e.1).2 ⟨k1, k2, k3, e, he, k1, k2, rfl⟩
    rw [hb] at this; cases this
  · rintro ⟨he, hn⟩
    refine ⟨he, ?_⟩
    by_cases hb : b e.1 = true
    · exact hb
    · rw [Bool.not_eq_true] at hb
      obtain ⟨k1, k2, k3, _⟩ := (h4 e.1).1 hb
      exact absurd ⟨k1, k2, k3⟩ hn

/-- **C15** A `*` in one of the codes is rejected for every database. -/
theorem c15_wildcard_codes_rejected (f : H5 δ) (net sta cha tag cst : Str)
    (h : '*' ∈ net ∨ '*' ∈ sta ∨ '*' ∈ cha) :
    f.removeData net sta cha tag cst = .error .valueError := by
  unfold H5.removeData
  have : (net ++ sta ++ cha).contains '*' = true := by
    rw [List.contains_iff_mem]; simp; grind
  simp only [this, if_true]
  rfl

/-- the hypotheses are met: a request that removes one of two start times -/
example :
    let p : HPath := ⟨c!"subdivision", c!"A-B", c!"S-T", c!"Z-Z", c!"2020001", c!"2"⟩
    let q : HPath := ⟨c!"subdivision", c!"A-B", c!"S-T", c!"Z-Z", c!"2021001", c!"3"⟩
    let f : H5 Nat := ⟨true, [(p, 1), (q, 2)]⟩
    f.removeData c!"B-A" c!"T-S" c!"Z-Z" c!"subdivision" c!"2020*" = .ok ⟨true, [(q, 2)]⟩ ∧
    f.removeData c!"A-B" c!"S-T" c!"Z-Z" c!"subdivision" c!"2020001" = .ok ⟨true, [(q, 2)]⟩ ∧
    f.removeData c!"A-*" c!"S-T" c!"Z-Z" c!"subdivision" c!"2020001" = .error .valueError := by
  refine ⟨?_, ?_, ?_⟩ <;> rfl

/-- **C15** is violated for `?`: it is treated like `*`, so the request `1?`
also removes the start time `100`. -/
theorem c15_question_violated :
    let p (t : Str) : HPath := ⟨c!"subdivision", c!"A-B", c!"S-T", c!"Z-Z", t, c!"2"⟩
    let f : H5 Nat := ⟨true, [(p c!"10", 1), (p c!"100", 2)]⟩
    f.removeData c!"A-B" c!"S-T" c!"Z-Z" c!"subdivision" c!"1?" = .ok ⟨true, []⟩ := by
  rfl

/-- **C15**, error branch: with a wildcard in the start time and no correlation
of these codes the call raises `KeyError` (without wildcard it only warns). -/
theorem c15_star_missing :
    let f : H5 Nat := ⟨true, []⟩
    f.removeData c!"A-B" c!"S-T" c!"Z-Z" c!"subdivision" c!"2020*" = .error .keyError ∧
    f.removeData c!"A-B" c!"S-T" c!"Z-Z" c!"subdivision" c!"2020" = .ok f := by
  constructor <;> rfl

/-! ## C20 -/

/-- the correlation is addressed by a request with explicit codes; a time that is
not given matches every time -/
def Addressed (tag net sta cha : Str) (cst cet : Option Str) (p : HPath) : Prop :=
  p.tag = tag ∧ p.net = net ∧ p.sta = sta ∧ p.cha = cha ∧
  (∀ t, cst = some t → p.cst = t) ∧ (∀ t, cet = some t → p.cet = t)

instance (tag net sta cha : Str) (cst cet : Option Str) (p : HPath) :
    Decidable (Addressed tag net sta cha cst cet p) := by
  unfold Addressed
  have : ∀ (o : Option Str) (x : Str), Decidable (∀ t, o = some t → x = t) := by
    intro o x
    cases o with
    | none => exact isTrue (by simp)
    | some y => exact decidable_of_iff (x = y) (by simp)
  infer_instance

/-- **C20**, for explicit codes and tag and a missing start or end time: the
result is exactly the list of the addressed correlations, each once, if there is
a correlation with these codes (and this start time, if given); else
`KeyError`. -/
theorem c20_times_exact (f : H5 δ) (hf : f.Sane) (tag n1 s1 c1 n2 s2 c2 : Str) (cst cet : Option Str)
    (h : SaneReq n1 s1 c1 n2 s2 c2) (ht : SaneName tag) (hs : ∀ t, cst = some t → SaneName t)
    (he : ∀ t, cet = some t → SaneName t) (hno : cst = none ∨ cet = none)
    (net sta cha : Str) (hr : requestCodes n1 s1 c1 n2 s2 c2 = (net, sta, cha)) :
    f.getData (n1 ++ '-' :: n2) (s1 ++ '-' :: s2) (c1 ++ '-' :: c2) tag cst cet =
      if ∃ e ∈ f.sets, Addressed tag net sta cha cst none e.1 then
        .ok ((f.sets.filter fun e => decide (Addressed tag net sta cha cst cet e.1)).map
          fun e => .corr e.1 e.2)
      else .error .keyError := by
  rw [getData_start _ _ _ _ _ _ _ _ _ _ h, hr]
  have hsane := requestCodes_sane h
  rw [hr] at hsane
  have hall : ∀ x ∈ [tag, net, sta, cha], SaneName x := by
    intro x hx; simp at hx
    rcases hx with rfl | rfl | rfl | rfl <;>
      first | exact ht | exact hsane.1 | exact hsane.2.1 | exact hsane.2.2
  have hp := plain_slashPath hall
  have hcomp := pathComps_slashPath_slash _ fun x hx => ⟨(hall x hx).1, (hall x hx).2.1⟩
  simp only
  rcases cst with _ | st
  · have e4 : ∀ e : HPath × δ, Addressed tag net sta cha none none e.1 ↔
        [tag, net, sta, cha].isPrefixOf e.1.comps = true := by
      intro e; rw [isPrefixOf4]; unfold Addressed; simp
    rcases cet with _ | et
    · have hstr : HPath.str ⟨tag, net, sta, cha, c!"*", c!"*"⟩ =
          slashPath [tag, net, sta, cha] ++ '/' :: '*' :: ['/', '*'] := by
        simp [HPath.str, HPath.comps, slashPath]
      simp only [Option.getD_none, hstr]
      rw [if_neg (by rw [noWild_iff]; simp)]
      have hq : '?' ∉ slashPath [tag, net, sta, cha] ++ '/' :: '*' :: ['/', '*'] := by
        simp [hp.noQuestion]
      rw [replaceQuestion_id _ hq, replaceSlashStar_mid _ _ hp.noStar]
      rw [show slashPath [tag, net, sta, cha] ++ '/' :: '*' :: ['/', '*'] =
        (slashPath [tag, net, sta, cha] ++ ['/']) ++ '*' :: ['/', '*'] by simp]
      rw [headD_splitOn_star _ _ (by simp [hp.noStar]), hcomp]
      by_cases hex : ∃ e ∈ f.sets, [tag, net, sta, cha].isPrefixOf e.1.comps = true
      · simp only [e4]
        rw [if_pos hex, traverse_eq _ _ _ (by simp) hex]
        congr 2
        apply List.filter_congr
        intro e he'
        rw [Bool.eq_iff_iff, Bool.and_eq_true, decide_eq_true_eq]
        constructor
        · rintro ⟨h1, _⟩; exact h1
        · intro h1
          refine ⟨h1, ?_⟩
          rw [isPrefixOf4] at h1
          unfold nameMatches
          rw [Bool.or_eq_true]; left
          rw [fnmatch_plain_append _ _ _ hp]
          refine ⟨slashPath [e.1.cst, e.1.cet], ?_, ?_⟩
          · unfold HPath.str HPath.comps
            rw [← slashPath_append]; simp [h1]
          · simp only [replaceSlashStar]
            rw [fnmatch_star]
            exact ⟨[], _, rfl, fnmatch_star_only _⟩
      · simp only [e4]
        rw [if_neg hex, traverse_missing _ _ _ (by simp) hex]
    · have hstr : HPath.str ⟨tag, net, sta, cha, c!"*", et⟩ =
          slashPath [tag, net, sta, cha] ++ '/' :: '*' :: ('/' :: et) := by
        simp [HPath.str, HPath.comps, slashPath]
      have hets := he et rfl
      simp only [Option.getD_none, Option.getD_some, hstr]
      rw [if_neg (by rw [noWild_iff]; simp)]
      have hq : '?' ∉ slashPath [tag, net, sta, cha] ++ '/' :: '*' :: ('/' :: et) := by
        simp [hp.noQuestion, hets.2.2.2.1]
      have hpe : Plain ('/' :: et) := by
        intro c hc
        rw [List.mem_cons] at hc
        obtain rfl | hc := hc
        · decide
        · exact hets.plain c hc
      rw [replaceQuestion_id _ hq, replaceSlashStar_mid _ _ hp.noStar, replaceSlashStar_id _ hpe.noStar]
      rw [show slashPath [tag, net, sta, cha] ++ '/' :: '*' :: ('/' :: et) =
        (slashPath [tag, net, sta, cha] ++ ['/']) ++ '*' :: ('/' :: et) by simp]
      rw [headD_splitOn_star _ _ (by simp [hp.noStar]), hcomp]
      by_cases hex : ∃ e ∈ f.sets, [tag, net, sta, cha].isPrefixOf e.1.comps = true
      · simp only [e4]
        rw [if_pos hex, traverse_eq _ _ _ (by simp) hex]
        congr 2
        apply List.filter_congr
        intro e he'
        have hes := hf e he'
        rw [Bool.eq_iff_iff, Bool.and_eq_true, decide_eq_true_eq]
        have hsub : isSub e.1.str (slashPath [tag, net, sta, cha] ++ '*' :: ('/' :: et)) = false := by
          rw [Bool.eq_false_iff]
          intro hsub
          have hcount := isSub_count hsub
          unfold HPath.str at hcount
          rw [count_slashPath _ fun x hx => (hes x hx).2.1] at hcount
          rw [List.count_append, count_slashPath _ fun x hx => (hall x hx).2.1] at hcount
          have : List.count '/' et = 0 := List.count_eq_zero.2 hets.2.1
          simp [HPath.comps, List.count_cons, this] at hcount
        unfold nameMatches
        rw [hsub, Bool.or_false, isPrefixOf4, fnmatch_plain_append _ _ _ hp]
        unfold Addressed
        simp only [fnmatch_star, fnmatch_plain _ _ hpe]
        constructor
        · rintro ⟨h1, v, hv, u, v', huv, rfl⟩
          refine ⟨h1.1, h1.2.1, h1.2.2.1, h1.2.2.2, by simp, ?_⟩
          intro t ht'; cases ht'
          have e1 : e.1.str = slashPath [tag, net, sta, cha] ++ ('/' :: e.1.cst ++ '/' :: e.1.cet) := by
            simp [HPath.str, HPath.comps, slashPath, h1]
          rw [e1] at hv
          have e2 := List.append_cancel_left hv
          rw [huv] at e2
          have hce : '/' ∉ e.1.cet := (hes e.1.cet (by simp [HPath.comps])).2.1
          have e3 := congrArg List.reverse e2
          simp only [List.reverse_append, List.reverse_cons, List.append_assoc] at e3
          have e4 := congrArg (splitOn '/') e3
          rw [show e.1.cet.reverse ++ ([('/' : Char)] ++ (e.1.cst.reverse ++ ['/'])) =
            e.1.cet.reverse ++ '/' :: (e.1.cst.reverse ++ ['/']) by simp,
            show et.reverse ++ ([('/' : Char)] ++ u.reverse) = et.reverse ++ '/' :: u.reverse by simp,
            splitOn_append '/' e.1.cet.reverse _ (by simpa using hce),
            splitOn_append '/' et.reverse _ (by simpa using hets.2.1)] at e4
          have e6 := (List.cons.inj e4).1
          exact List.reverse_inj.1 e6
        · rintro ⟨h1, h2, h3, h4, _, h6⟩
          refine ⟨⟨h1, h2, h3, h4⟩, '/' :: e.1.cst ++ '/' :: e.1.cet, ?_, '/' :: e.1.cst, '/' :: et, ?_, rfl⟩
          · simp [HPath.str, HPath.comps, slashPath, h1, h2, h3, h4]
          · rw [h6 et rfl]
      · simp only [e4]
        rw [if_neg hex, traverse_missing _ _ _ (by simp) hex]
  · obtain hno | rfl := hno
    · cases hno
    have hst := hs st rfl
    have hall' : ∀ x ∈ [tag, net, sta, cha, st], SaneName x := by
      intro x hx
      rw [show [tag, net, sta, cha, st] = [tag, net, sta, cha] ++ [st] from rfl, List.mem_append] at hx
      obtain hx | hx := hx
      · exact hall x hx
      · simp at hx; subst hx; exact hst
    have hp' := plain_slashPath hall'
    have hcomp' := pathComps_slashPath_slash _ fun x hx => ⟨(hall' x hx).1, (hall' x hx).2.1⟩
    have e5 : ∀ e : HPath × δ, Addressed tag net sta cha (some st) none e.1 ↔
        [tag, net, sta, cha, st].isPrefixOf e.1.comps = true := by
      intro e; rw [isPrefixOf5]; unfold Addressed; simp
    have hstr : HPath.str ⟨tag, net, sta, cha, st, c!"*"⟩ =
        slashPath [tag, net, sta, cha, st] ++ '/' :: '*' :: [] := by
      simp [HPath.str, HPath.comps, slashPath]
    simp only [Option.getD_none, Option.getD_some, hstr]
    rw [if_neg (by rw [noWild_iff]; simp)]
    have hq : '?' ∉ slashPath [tag, net, sta, cha, st] ++ '/' :: '*' :: [] := by
      simp [hp'.noQuestion]
    rw [replaceQuestion_id _ hq, replaceSlashStar_mid _ _ hp'.noStar]
    rw [show slashPath [tag, net, sta, cha, st] ++ '/' :: '*' :: [] =
      (slashPath [tag, net, sta, cha, st] ++ ['/']) ++ '*' :: [] by simp]
    rw [headD_splitOn_star _ _ (by simp [hp'.noStar]), hcomp']
    by_cases hex : ∃ e ∈ f.sets, [tag, net, sta, cha, st].isPrefixOf e.1.comps = true
    · simp only [e5]
      rw [if_pos hex, traverse_eq _ _ _ (by simp) hex]
      congr 2
      apply List.filter_congr
      intro e he'
      rw [Bool.eq_iff_iff, Bool.and_eq_true, decide_eq_true_eq]
      constructor
      · rintro ⟨h1, _⟩; exact h1
      · intro h1
        refine ⟨h1, ?_⟩
        rw [isPrefixOf5] at h1
        unfold nameMatches
        rw [Bool.or_eq_true]; left
        rw [show replaceSlashStar [] = [] from rfl, fnmatch_prefix _ _ hp']
        refine ⟨slashPath [e.1.cet], ?_⟩
        unfold HPath.str HPath.comps
        rw [← slashPath_append]; simp [h1]
    · simp only [e5]
      rw [if_neg hex, traverse_missing _ _ _ (by simp) hex]

/-- **C20** (nothing is missing) For requests with wildcards in any component,
if every component is a literal code or starts with a wildcard: every stored
correlation whose components match is in the result. The codes are assumed to be
in order already (this is so whenever one of them is just `*`).
Missing for the full property: `c20_inner_wildcard_violated`, `c20_overmatch_violated`, `c20_options_dataset_violated`. -/
theorem c20_complete_partial (f : H5 δ) (hf : f.Sane) (net sta cha tag : Str) (cst cet : Option Str)
    (hsort : sortRequest net sta cha = .ok (net, sta, cha))
    (hw : ∀ x ∈ [tag, net, sta, cha], LiteralOrWild x) (hs : ∀ t, cst = some t → SaneName t)
    (he : ∀ t, cet = some t → SaneName t) (p : HPath) (d : δ) (hp : f.lookup p = some d)
    (hm : Glob tag p.tag ∧ Glob net p.net ∧ Glob sta p.sta ∧ Glob cha p.cha ∧
      (∀ t, cst = some t → p.cst = t) ∧ (∀ t, cet = some t → p.cet = t)) :
    ∃ r, f.getData net sta cha tag cst cet = .ok r ∧ .corr p d ∈ r := by
  have hmem : (p, d) ∈ f.sets := by
    unfold H5.lookup at hp
    obtain ⟨l1, l2, h1, h2⟩ := List.lookup_eq_some_iff.1 hp
    rw [h1]; simp
  unfold H5.getData
  rw [hsort]
  simp only [bind, Except.bind]
  -- the list of patterns
  have hall : ∀ x ∈ [tag, net, sta, cha, cst.getD c!"*", cet.getD c!"*"], LiteralOrWild x := by
    intro x hx
    rw [show [tag, net, sta, cha, cst.getD c!"*", cet.getD c!"*"] =
      [tag, net, sta, cha] ++ [cst.getD c!"*", cet.getD c!"*"] from rfl, List.mem_append] at hx
    obtain hx | hx := hx
    · exact hw x hx
    · simp at hx
      rcases hx with rfl | rfl
      · cases cst with
        | none => right; decide
        | some t => left; exact hs t rfl
      · cases cet with
        | none => right; decide
        | some t => left; exact he t rfl
  have hgl : ∀ y ∈ List.zip [tag, net, sta, cha, cst.getD c!"*", cet.getD c!"*"] p.comps,
      Glob y.1 y.2 := by
    have hstar : ∀ s : Str, Glob c!"*" s := fun s => by
      rw [glob_star_iff]; exact ⟨s, [], by simp, .nil⟩
    intro y hy
    simp [HPath.comps] at hy
    rcases hy with rfl | rfl | rfl | rfl | rfl | rfl
    · exact hm.1
    · exact hm.2.1
    · exact hm.2.2.1
    · exact hm.2.2.2.1
    · cases cst with
      | none => exact hstar _
      | some t => simp only [Option.getD_some]; rw [hm.2.2.2.2.1 t rfl]; exact glob_plain (hs t rfl).plain
    · cases cet with
      | none => exact hstar _
      | some t => simp only [Option.getD_some]; rw [hm.2.2.2.2.2 t rfl]; exact glob_plain (he t rfl).plain
  have hstr : HPath.str ⟨tag, net, sta, cha, cst.getD c!"*", cet.getD c!"*"⟩ =
      slashPath [tag, net, sta, cha, cst.getD c!"*", cet.getD c!"*"] := rfl
  have hlen : p.comps.length = [tag, net, sta, cha, cst.getD c!"*", cet.getD c!"*"].length := rfl
  have hsan := hf _ hmem
  rw [hstr]
  by_cases hnw : noWild (slashPath [tag, net, sta, cha, cst.getD c!"*", cet.getD c!"*"]) = true
  · rw [if_pos hnw]
    have hpl : ∀ x ∈ [tag, net, sta, cha, cst.getD c!"*", cet.getD c!"*"], Plain x := by
      rw [noWild_iff] at hnw
      intro x hx c hc
      have hcs : c ∈ slashPath [tag, net, sta, cha, cst.getD c!"*", cet.getD c!"*"] := by
        rw [mem_slashPath]; exact .inr ⟨x, hx, hc⟩
      refine ⟨fun e => hnw.1 (e ▸ hcs), fun e => hnw.2 (e ▸ hcs), fun e => ?_⟩
      obtain h | h := hall x hx
      · exact h.plain.noBracket (e ▸ hc)
      · exact h.2.1 (e ▸ hc)
    have hpe : p = ⟨tag, net, sta, cha, cst.getD c!"*", cet.getD c!"*"⟩ := by
      have g := fun y hy => (glob_plain_iff (hpl _ (List.of_mem_zip hy).1)).1 (hgl y hy)
      have g1 := g (tag, p.tag) (by simp [HPath.comps])
      have g2 := g (net, p.net) (by simp [HPath.comps])
      have g3 := g (sta, p.sta) (by simp [HPath.comps])
      have g4 := g (cha, p.cha) (by simp [HPath.comps])
      have g5 := g (_, p.cst) (by simp [HPath.comps]; right; right; right; right; left; rfl)
      have g6 := g (_, p.cet) (by simp [HPath.comps]; right; right; right; right; right; rfl)
      cases p; simp_all
    rw [← hpe, hp]
    exact ⟨_, rfl, by simp⟩
  · rw [if_neg hnw]
    exact traverse_complete f _ p d hmem hall hgl hlen hnw

/-- the hypotheses are met: all channels of a pair of stations -/
example :
    let p (c t : Str) : HPath := ⟨c!"subdivision", c!"A-B", c!"S-T", c, t, c!"9"⟩
    let f : H5 Nat := ⟨true, [(p c!"Z-Z" c!"1", 1), (p c!"E-Z" c!"2", 2)]⟩
    sortRequest c!"A-B" c!"S-T" c!"*" = .ok (c!"A-B", c!"S-T", c!"*") ∧
    (∀ x ∈ [c!"subdivision", c!"A-B", c!"S-T", c!"*"], LiteralOrWild x) ∧
    f.getData c!"A-B" c!"S-T" c!"*" c!"subdivision" none none =
      .ok [.corr (p c!"Z-Z" c!"1") 1, .corr (p c!"E-Z" c!"2") 2] := by
  refine ⟨by decide, by decide, by decide⟩

/-- **C20** is violated (something is missing): a wildcard in the middle of a
component raises `KeyError`, because the text before the wildcard is opened as a
group; the network `A-*` finds nothing, because the request is sorted as text and
becomes `*-A` with the stations exchanged. -/
theorem c20_inner_wildcard_violated :
    let p : HPath := ⟨c!"subdivision", c!"A-B", c!"S-T", c!"HHZ-HHZ", c!"1", c!"9"⟩
    let f : H5 Nat := ⟨true, [(p, 1)]⟩
    Glob c!"HH?-HHZ" p.cha ∧
    f.getData c!"A-B" c!"S-T" c!"HH?-HHZ" c!"subdivision" none none = .error .keyError ∧
    Glob c!"A-*" p.net ∧
    f.getData c!"A-*" c!"S-T" c!"HHZ-HHZ" c!"subdivision" none none = .ok [] := by
  refine ⟨(fnmatch_iff_glob _ _ (by decide)).1 (by decide), by decide,
    (fnmatch_iff_glob _ _ (by decide)).1 (by decide), by decide⟩

/-- **C20** is violated (too much is returned): the request for channels ending
in `Z` returns the channel `HHE-HHE`, because the pattern of the channel is also
compared with the formatted time, which ends in `Z`. -/
theorem c20_overmatch_violated :
    let p : HPath := ⟨c!"subdivision", c!"A-B", c!"S-T", c!"HHE-HHE", c!"2020001T000000.0000Z",
      c!"2020002T000000.0000Z"⟩
    let f : H5 Nat := ⟨true, [(p, 1)]⟩
    ¬ Glob c!"*Z" p.cha ∧
    f.getData c!"A-B" c!"S-T" c!"*Z" c!"subdivision" none none = .ok [.corr p 1] := by
  refine ⟨mt (fnmatch_iff_glob _ _ (by decide)).2 (by decide), by decide⟩

/-- **C20** is violated (not a correlation): a request with wildcards everywhere
also returns the dataset with the options. -/
theorem c20_options_dataset_violated :
    let p : HPath := ⟨c!"subdivision", c!"A-B", c!"S-T", c!"Z-Z", c!"1", c!"9"⟩
    let f : H5 Nat := ⟨true, [(p, 1)]⟩
    f.getData c!"*" c!"*" c!"*" c!"*" none none = .ok [.co, .corr p 1] := by
  decide

/-- the hypotheses are met and both cases occur -/
example :
    let p (c t : Str) : HPath := ⟨c!"subdivision", c!"A-B", c!"S-T", c, t, c!"9"⟩
    let f : H5 Nat := ⟨true, [(p c!"Z-Z" c!"1", 1), (p c!"Z-Z" c!"2", 2), (p c!"Z-Z1" c!"1", 3)]⟩
    f.Sane ∧ SaneReq c!"A" c!"S" c!"Z" c!"B" c!"T" c!"Z" ∧
    f.getData c!"A-B" c!"S-T" c!"Z-Z" c!"subdivision" none none =
      .ok [.corr (p c!"Z-Z" c!"1") 1, .corr (p c!"Z-Z" c!"2") 2] ∧
    f.getData c!"A-B" c!"S-T" c!"Z-Z" c!"subdivision" (some c!"2") none =
      .ok [.corr (p c!"Z-Z" c!"2") 2] ∧
    f.getData c!"A-B" c!"S-T" c!"Z-E" c!"subdivision" none none = .error .keyError := by
  refine ⟨?_, ?_, ?_, ?_, ?_⟩
  · unfold H5.Sane; decide
  · unfold SaneReq; decide
  · decide
  · decide
  · decide

end SeisMIC
