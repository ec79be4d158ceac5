import Verif.Model.Interstat
import Verif.Props.Combis

/-!
# C135: combinations of stations within a distance
-/

namespace SeisMIC

/-! ### Specification -/

/-- the name of a combination of two stations -/
def pairName (a b : Str × Str) : Str := a.1 ++ '-' :: b.1 ++ '.' :: a.2 ++ '-' :: b.2

/-- The combination is wanted: its stations are in the list (in this order, or the same station twice) and their distance is at most `dis`. -/
def Wanted (dist : Rat × Rat → Rat × Rat → Rat) (pos : Str × Str → Rat × Rat) (stations : List (Str × Str)) (dis : Rat) (a b : Str × Str) : Prop :=
  ∃ i j : Nat, i ≤ j ∧ stations[i]? = some a ∧ stations[j]? = some b ∧ dist (pos a) (pos b) ≤ dis

/-- the stations are at the positions `pos` -/
def AtPos (pos : Str × Str → Rat × Rat) (inv : Inv) : Prop := ∀ x ∈ inv, (x.lat, x.lon) = pos (x.net, x.sta)

/-- the remote service knows the station: its answer begins with it and has right positions -/
def Answers (remote : Str → Str → Except PyErr Inv) (pos : Str × Str → Rat × Rat) (a : Str × Str) : Prop :=
  ∃ x l, remote a.1 a.2 = .ok (x :: l) ∧ (x.net, x.sta) = a ∧ AtPos pos (x :: l)

/-- the station is in the inventory -/
def Known (inv : Inv) (a : Str × Str) : Prop := ∃ x ∈ inv, (x.net, x.sta) = a

/-! ### Lemmas -/

theorem selectOrLoad_spec (remote : Str → Str → Except PyErr Inv) (pos : Str × Str → Rat × Rat) (st : InvStore) (a : Str × Str)
    (hpos : AtPos pos st.inventory) (ha : Known st.inventory a ∨ Answers remote pos a) (hreq : ∀ r ∈ st.requests, Known st.inventory r) (hnd : st.requests.Nodup) :
    ∃ st' x l, selectOrLoad remote st a.1 a.2 = (st', .ok (x :: l)) ∧ (x.lat, x.lon) = pos a ∧ AtPos pos st'.inventory ∧ Known st'.inventory a ∧
      (∀ b, Known st.inventory b → Known st'.inventory b) ∧ (∀ r ∈ st'.requests, Known st'.inventory r) ∧ st'.requests.Nodup ∧
      ∀ r ∈ st'.requests, r ∈ st.requests ∨ (r = a ∧ ¬ Known st.inventory a) := by
  unfold selectOrLoad
  simp only
  by_cases h : selectInv st.inventory a.1 a.2 ≠ []
  · rw [if_pos h]
    obtain ⟨x, l, hx⟩ := List.exists_cons_of_ne_nil h
    have hm : x ∈ selectInv st.inventory a.1 a.2 := by rw [hx]; simp
    unfold selectInv at hm
    rw [List.mem_filter, decide_eq_true_eq] at hm
    have he : (x.net, x.sta) = a := Prod.ext hm.2.1 hm.2.2
    refine ⟨st, x, l, by rw [hx], ?_, hpos, ⟨x, hm.1, he⟩, fun _ h => h, hreq, hnd, fun r hr => .inl hr⟩
    rw [hpos x hm.1, he]
  · rw [if_neg h]
    have hun : ¬ Known st.inventory a := by
      rintro ⟨x, hx, he⟩
      apply h
      apply List.ne_nil_of_mem (a := x)
      unfold selectInv
      rw [List.mem_filter, decide_eq_true_eq]
      exact ⟨hx, congrArg Prod.fst he, congrArg Prod.snd he⟩
    obtain ⟨x, l, hr, he, hp⟩ := ha.resolve_left hun
    rw [hr]
    simp only [writeInventory]
    refine ⟨_, x, l, rfl, ?_, ?_, ⟨x, by simp, he⟩, ?_, ?_, ?_, ?_⟩
    · rw [hp x (by simp), he]
    · intro y hy
      rcases List.mem_append.1 hy with hy | hy
      · exact hpos y hy
      · exact hp y hy
    · rintro b ⟨y, hy, hb⟩
      exact ⟨y, List.mem_append_left _ hy, hb⟩
    · intro r hr
      rcases List.mem_append.1 hr with hr | hr
      · obtain ⟨y, hy, hb⟩ := hreq r hr
        exact ⟨y, List.mem_append_left _ hy, hb⟩
      · rw [List.mem_singleton.1 hr]
        exact ⟨x, by simp, he⟩
    · rw [List.nodup_append]
      refine ⟨hnd, by simp, ?_⟩
      rintro r hr b hb rfl
      rw [List.mem_singleton] at hb
      exact hun (by have := hreq r hr; rw [hb] at this; exact this)
    · intro r hr
      rcases List.mem_append.1 hr with hr | hr
      · exact .inl hr
      · exact .inr ⟨by simpa using hr, hun⟩

/-- what the loops keep -/
structure DistInv (remote : Str → Str → Except PyErr Inv) (pos : Str × Str → Rat × Rat) (inv0 : Inv) (stations : List (Str × Str)) (st : InvStore) : Prop where
  pos : AtPos pos st.inventory
  req : ∀ r ∈ st.requests, Known st.inventory r
  nodup : st.requests.Nodup
  keep : ∀ b, Known inv0 b → Known st.inventory b
  only : ∀ r ∈ st.requests, r ∈ stations ∧ ¬ Known inv0 r

theorem DistInv.select {remote : Str → Str → Except PyErr Inv} {pos : Str × Str → Rat × Rat} {inv0 : Inv} {stations : List (Str × Str)} {st : InvStore}
    (h : DistInv remote pos inv0 stations st) (hst : ∀ a ∈ stations, Known inv0 a ∨ Answers remote pos a) (a : Str × Str) (ha : a ∈ stations) :
    ∃ st' x l, selectOrLoad remote st a.1 a.2 = (st', .ok (x :: l)) ∧ (x.lat, x.lon) = pos a ∧ DistInv remote pos inv0 stations st' := by
  obtain ⟨st', x, l, h1, h2, h3, -, h5, h6, h7, h8⟩ := selectOrLoad_spec remote pos st a h.pos
    ((hst a ha).imp (h.keep a) id) h.req h.nodup
  refine ⟨st', x, l, h1, h2, h3, h6, h7, fun b hb => h5 b (h.keep b hb), fun r hr => ?_⟩
  rcases h8 r hr with h9 | ⟨rfl, h9⟩
  · exact h.only r h9
  · exact ⟨ha, fun hk => h9 (h.keep _ hk)⟩

theorem distInner_spec (remote : Str → Str → Except PyErr Inv) (dist : Rat × Rat → Rat × Rat → Rat) (pos : Str × Str → Rat × Rat) (dis : Rat)
    (inv0 : Inv) (stations : List (Str × Str)) (hst : ∀ a ∈ stations, Known inv0 a ∨ Answers remote pos a) (a : Str × Str) (x : InvStation) (t : Inv)
    (hx : (x.lat, x.lon) = pos a) (l : List (Str × Str)) (hl : ∀ b ∈ l, b ∈ stations) (acc : List Str) (st : InvStore) (h : DistInv remote pos inv0 stations st) :
    ∃ st', distInner remote dist dis a (x :: t) l acc st = ⟨acc ++ (l.filter fun b => decide (dist (pos a) (pos b) ≤ dis)).map (pairName a), st', none⟩ ∧
      DistInv remote pos inv0 stations st' := by
  induction l generalizing acc st with
  | nil => exact ⟨st, by simp [distInner], h⟩
  | cons b l ih =>
    obtain ⟨st', y, u, h1, h2, h3⟩ := h.select hst b (hl b (by simp))
    obtain ⟨st'', g1, g2⟩ := ih (fun c hc => hl c (by simp [hc]))
      (if decide (dist (pos a) (pos b) ≤ dis) then acc ++ [dash (a.1, b.1) ++ c!"." ++ dash (a.2, b.2)] else acc) st' h3
    refine ⟨st'', ?_, g2⟩
    unfold distInner
    rw [h1]
    simp only [filterStatDist, hx, h2]
    rw [g1]
    congr 1
    by_cases hd : dist (pos a) (pos b) ≤ dis
    · rw [List.filter_cons_of_pos (by simpa using hd), if_pos (by simpa using hd), List.map_cons, List.append_assoc]
      simp [pairName, dash]
    · rw [List.filter_cons_of_neg (by simpa using hd), if_neg (by simpa using hd)]

theorem distOuter_spec (remote : Str → Str → Except PyErr Inv) (dist : Rat × Rat → Rat × Rat → Rat) (pos : Str × Str → Rat × Rat) (dis : Rat)
    (inv0 : Inv) (stations : List (Str × Str)) (hst : ∀ a ∈ stations, Known inv0 a ∨ Answers remote pos a)
    (l : List (Str × Str)) (hl : ∀ b ∈ l, b ∈ stations) (acc : List Str) (st : InvStore) (h : DistInv remote pos inv0 stations st) :
    ∃ out st', distOuter remote dist dis l acc st = ⟨acc ++ out, st', none⟩ ∧ DistInv remote pos inv0 stations st' ∧
      ∀ c, c ∈ out ↔ ∃ a b, Wanted dist pos l dis a b ∧ c = pairName a b := by
  induction l generalizing acc st with
  | nil =>
    refine ⟨[], st, by simp [distOuter], h, fun c => ?_⟩
    simp [Wanted]
  | cons a l ih =>
    obtain ⟨st1, x, u, h1, h2, h3⟩ := h.select hst a (hl a (by simp))
    obtain ⟨st2, g1, g2⟩ := distInner_spec remote dist pos dis inv0 stations hst a x u h2 (a :: l) hl acc st1 h3
    obtain ⟨out, st3, f1, f2, f3⟩ := ih (fun c hc => hl c (by simp [hc]))
      (acc ++ ((a :: l).filter fun b => decide (dist (pos a) (pos b) ≤ dis)).map (pairName a)) st2 g2
    refine ⟨((a :: l).filter fun b => decide (dist (pos a) (pos b) ≤ dis)).map (pairName a) ++ out, st3, ?_, f2, fun c => ?_⟩
    · unfold distOuter
      rw [h1]
      simp only [g1]
      rw [if_neg (by simp), f1, List.append_assoc]
    · rw [List.mem_append, f3, List.mem_map]
      constructor
      · rintro (⟨b, hb, rfl⟩ | ⟨p, q, ⟨i, j, h4, h5, h6, h7⟩, rfl⟩)
        · rw [List.mem_filter, decide_eq_true_eq] at hb
          obtain ⟨j, hj⟩ := List.mem_iff_getElem?.1 hb.1
          exact ⟨a, b, ⟨0, j, by omega, rfl, hj, hb.2⟩, rfl⟩
        · exact ⟨p, q, ⟨i + 1, j + 1, by omega, by simpa using h5, by simpa using h6, h7⟩, rfl⟩
      · rintro ⟨p, q, ⟨i, j, h4, h5, h6, h7⟩, rfl⟩
        cases i with
        | zero =>
          simp only [List.getElem?_cons_zero, Option.some.injEq] at h5
          subst h5
          left
          refine ⟨q, ?_, rfl⟩
          rw [List.mem_filter, decide_eq_true_eq]
          exact ⟨List.mem_of_getElem? h6, h7⟩
        | succ i =>
          obtain ⟨j, rfl⟩ : ∃ j', j = j' + 1 := ⟨j - 1, by omega⟩
          right
          exact ⟨p, q, ⟨i, j, by omega, by simpa using h5, by simpa using h6, h7⟩, rfl⟩

theorem append_le_of_lt (n1 n2 s1 s2 : Str) (hl : n1.length = n2.length) (h : n1 < n2) : n1 ++ s1 ≤ n2 ++ s2 := by
  induction n1 generalizing n2 with
  | nil =>
    cases n2 with
    | nil => exact absurd h (List.lt_irrefl _)
    | cons c n2 => simp at hl
  | cons c n1 ih =>
    cases n2 with
    | nil => simp at hl
    | cons d n2 =>
      simp only [List.cons_append]
      rw [List.cons_le_cons_iff]
      rw [List.cons_lt_cons_iff] at h
      rcases h with h | ⟨rfl, h⟩
      · exact .inl h
      · exact .inr ⟨rfl, ih n2 (by simpa using hl) h⟩

theorem append_le_left (n s1 s2 : Str) (h : s1 ≤ s2) : n ++ s1 ≤ n ++ s2 := by
  induction n with
  | nil => exact h
  | cons c n ih =>
    simp only [List.cons_append]
    rw [List.cons_le_cons_iff]
    exact .inr ⟨rfl, ih⟩

/-! ### C135 -/

/-- **C135** (the combinations). If each station is in the inventory files or known to the remote service, the requested combinations are exactly those of
two stations of the list (or of a station with itself) whose distance is at most `dis`. Only stations without an inventory file are requested from the remote
service, and each of them at most once. -/
theorem c135_pairs (remote : Str → Str → Except PyErr Inv) (dist : Rat × Rat → Rat × Rat → Rat) (pos : Str × Str → Rat × Rat) (dis : Rat)
    (stations : List (Str × Str)) (files : List (Str × Inv)) (hf : files ≠ []) (hpos : AtPos pos (files.flatMap Prod.snd)) (inv : Inv)
    (hst : ∀ a ∈ stations, Known (files.flatMap Prod.snd) a ∨ Answers remote pos a) :
    ∃ combis st, findInterstatDist remote dist c!"betweenStations" stations none ⟨inv, files, []⟩ dis = (some combis, st, none) ∧
      (∀ c, c ∈ combis ↔ ∃ a b, Wanted dist pos stations dis a b ∧ c = pairName a b) ∧
      st.requests.Nodup ∧ ∀ r ∈ st.requests, r ∈ stations ∧ ¬ Known (files.flatMap Prod.snd) r := by
  obtain ⟨out, st, h1, h2, h3⟩ := distOuter_spec remote dist pos dis (files.flatMap Prod.snd) stations hst stations (fun _ h => h) []
    ⟨files.flatMap Prod.snd, files, []⟩ ⟨hpos, by simp, by simp, fun _ h => h, by simp⟩
  refine ⟨out, st, ?_, h3, h2.nodup, h2.only⟩
  unfold findInterstatDist readInventory
  simp only [ne_eq, not_true_eq_false, if_false]
  rw [if_neg (by simpa using hf)]
  simp only [h1]
  simp

/-- **C135** (near stations are correlated). The traces of two stations of the list within the distance are selected, in both orders. -/
theorem c135_selected (dist : Rat × Rat → Rat × Rat → Rat) (pos : Str × Str → Rat × Rat) (dis : Rat) (stations : List (Str × Str)) (combis : List Str)
    (hc : ∀ c, c ∈ combis ↔ ∃ a b, Wanted dist pos stations dis a b ∧ c = pairName a b) (a b : TrHead)
    (hp : (Plain a.net ∧ Plain a.sta ∧ Plain a.cha) ∧ (Plain b.net ∧ Plain b.sta ∧ Plain b.cha))
    (h : Wanted dist pos stations dis (a.net, a.sta) (b.net, b.sta)) : isInXcombis a b combis = true ∧ isInXcombis b a combis = true :=
  c06_named_pair_selected a b combis hp.1 hp.2 (.inl ((hc _).2 ⟨_, _, h, rfl⟩))

/-- **C135** (other stations are not). If all codes of networks have one length and all codes of stations, too, only the traces of such pairs are selected.
Missing: codes of different lengths (`c135_prefix_violated`). -/
theorem c135_only_partial (dist : Rat × Rat → Rat × Rat → Rat) (pos : Str × Str → Rat × Rat) (dis : Rat) (stations : List (Str × Str)) (combis : List Str)
    (hc : ∀ c, c ∈ combis ↔ ∃ a b, Wanted dist pos stations dis a b ∧ c = pairName a b) (ln ls : Nat)
    (hlen : ∀ s ∈ stations, s.1.length = ln ∧ s.2.length = ls ∧ Plain s.1 ∧ Plain s.2) (a b : TrHead) (ha : a.net.length = ln ∧ a.sta.length = ls)
    (hb : b.net.length = ln ∧ b.sta.length = ls) (h : isInXcombis a b combis = true) :
    Wanted dist pos stations dis (a.net, a.sta) (b.net, b.sta) ∨ Wanted dist pos stations dis (b.net, b.sta) (a.net, a.sta) := by
  have plain : ∀ p q, Wanted dist pos stations dis p q → Plain (pairName p q) ∧ p.1.length = ln ∧ p.2.length = ls ∧ q.1.length = ln ∧ q.2.length = ls := by
    rintro p q ⟨i, j, -, hi, hj, -⟩
    obtain ⟨h1, h2, h3, h4⟩ := hlen p (List.mem_of_getElem? hi)
    obtain ⟨g1, g2, g3, g4⟩ := hlen q (List.mem_of_getElem? hj)
    refine ⟨?_, h1, h2, g1, g2⟩
    intro c hc
    unfold pairName at hc
    simp only [List.append_assoc, List.cons_append, List.mem_append, List.mem_cons] at hc
    rcases hc with hc | rfl | hc | rfl | hc | rfl | hc
    · exact h3 c hc
    · decide
    · exact g3 c hc
    · decide
    · exact h4 c hc
    · decide
    · exact g4 c hc
  have key : ∀ (x y : TrHead) (p q : Str × Str), x.net.length = ln → x.sta.length = ls → y.net.length = ln → y.sta.length = ls →
      Wanted dist pos stations dis p q → fnmatch (combiName x y) (pairName p q ++ ['*']) = true → p = (x.net, x.sta) ∧ q = (y.net, y.sta) := by
    intro x y p q hx1 hx2 hy1 hy2 hw hm
    obtain ⟨hpl, e1, e2, e3, e4⟩ := plain p q hw
    rw [fnmatch_prefix _ _ hpl] at hm
    obtain ⟨v, hv⟩ := hm
    unfold combiName pairName at hv
    simp only [List.append_assoc, List.cons_append] at hv
    obtain ⟨f1, hv⟩ := List.append_inj hv (by omega)
    obtain ⟨f2, hv⟩ := List.append_inj (List.cons.inj hv).2 (by omega)
    obtain ⟨f3, hv⟩ := List.append_inj (List.cons.inj hv).2 (by omega)
    obtain ⟨f4, hv⟩ := List.append_inj (List.cons.inj hv).2 (by omega)
    exact ⟨Prod.ext f1.symm f3.symm, Prod.ext f2.symm f4.symm⟩
  rw [isInXcombis_iff] at h
  obtain ⟨c, hcm, hm⟩ := h combis rfl
  obtain ⟨p, q, hw, rfl⟩ := (hc c).1 hcm
  rcases hm with hm | hm
  · obtain ⟨rfl, rfl⟩ := key a b p q ha.1 ha.2 hb.1 hb.2 hw hm
    exact .inl hw
  · obtain ⟨rfl, rfl⟩ := key b a p q hb.1 hb.2 ha.1 ha.2 hw hm
    exact .inr hw

/-- positions for the examples: one station at 0 and one at 100 -/
def examplePos (a : Str × Str) : Rat × Rat := if a.2 = c!"S10" ∨ a.2 = c!"B" then (100, 0) else (0, 0)

/-- distance for the examples -/
def exampleDist (p q : Rat × Rat) : Rat := if p.1 ≤ q.1 then q.1 - p.1 else p.1 - q.1

/-- **C135** (violated). The combination of the station `S1` with itself is requested, too, and used as a prefix: the traces of `S1` and of the far station
`S10` are correlated although no distance is below the limit. -/
theorem c135_prefix_violated :
    ∃ combis st, findInterstatDist (fun n s => .ok [⟨n, s, (examplePos (n, s)).1, 0⟩]) exampleDist c!"betweenStations" [(c!"X", c!"S1"), (c!"X", c!"S10")] none
      ⟨[], [(c!"X.S1.xml", [⟨c!"X", c!"S1", 0, 0⟩])], []⟩ 50 = (some combis, st, none) ∧
      ¬ exampleDist (examplePos (c!"X", c!"S1")) (examplePos (c!"X", c!"S10")) ≤ 50 ∧
      isInXcombis ⟨c!"X", c!"S1", [], c!"HHZ", 0⟩ ⟨c!"X", c!"S10", [], c!"HHZ", 0⟩ combis = true := by
  refine ⟨[c!"X-X.S1-S1", c!"X-X.S10-S10"], ⟨[⟨c!"X", c!"S1", 0, 0⟩, ⟨c!"X", c!"S10", 100, 0⟩],
    [(c!"X.S1.xml", [⟨c!"X", c!"S1", 0, 0⟩]), (c!"X.S10.xml", [⟨c!"X", c!"S10", 100, 0⟩])], [(c!"X", c!"S10")]⟩, ?_, ?_, ?_⟩ <;> decide +kernel

/-- **C135** (violated). The combinations are named in the order of the list, but existing correlations are looked for under the name in the order of the
concatenated codes: those of the stations `A.Z` and `AA.B` are selected, but never recognised as existing. -/
theorem c135_existing_violated :
    isInXcombis ⟨c!"A", c!"Z", [], c!"HHZ", 0⟩ ⟨c!"AA", c!"B", [], c!"HHZ", 0⟩ [pairName (c!"A", c!"Z") (c!"AA", c!"B")] = true ∧
    networkStationCombis [(c!"A", c!"Z"), (c!"AA", c!"B")] c!"betweenStations" (some [pairName (c!"A", c!"Z") (c!"AA", c!"B")]) = .ok [] ∧
    corrCodes ⟨c!"A", c!"Z", [], c!"HHZ", 0⟩ ⟨c!"AA", c!"B", [], c!"HHZ", 0⟩ = (c!"AA-A", c!"B-Z", c!"HHZ-HHZ") := by
  refine ⟨?_, ?_, ?_⟩ <;> decide +kernel

/-- **C135** (existing correlations). If the stations are sorted by network and station, and the codes of networks have one length, existing correlations of
each requested pair of two stations are looked for. Missing: codes of different lengths (`c135_existing_violated`). -/
theorem c135_existing_partial (dist : Rat × Rat → Rat × Rat → Rat) (pos : Str × Str → Rat × Rat) (dis : Rat) (stations : List (Str × Str)) (combis : List Str)
    (hc : ∀ c, c ∈ combis ↔ ∃ a b, Wanted dist pos stations dis a b ∧ c = pairName a b) (ln : Nat) (hlen : ∀ s ∈ stations, s.1.length = ln)
    (hsort : stations.Pairwise fun a b => a.1 < b.1 ∨ (a.1 = b.1 ∧ a.2 < b.2)) (a b : Str × Str) (hab : a ≠ b) (hw : Wanted dist pos stations dis a b) :
    ∃ l, networkStationCombis stations c!"betweenStations" (some combis) = .ok l ∧ (a.1 ++ '-' :: b.1, a.2 ++ '-' :: b.2) ∈ l := by
  have hname := (hc _).2 ⟨a, b, hw, rfl⟩
  obtain ⟨i, j, hij, hi, hj, -⟩ := hw
  have hlt : i < j := by
    rcases Nat.lt_or_ge i j with h | h
    · exact h
    · obtain rfl : i = j := by omega
      rw [hi] at hj
      exact absurd (Option.some.inj hj) hab
  have hil := (List.getElem?_eq_some_iff.1 hi).1
  have hjl := (List.getElem?_eq_some_iff.1 hj).1
  have hs := List.pairwise_iff_getElem.1 hsort i j hil hjl hlt
  rw [(List.getElem?_eq_some_iff.1 hi).2, (List.getElem?_eq_some_iff.1 hj).2] at hs
  have hle : a.1 ++ a.2 ++ [] ≤ b.1 ++ b.2 ++ [] := by
    rw [List.append_nil, List.append_nil]
    rcases hs with h | ⟨h1, h2⟩
    · exact append_le_of_lt _ _ _ _ (by rw [hlen a (List.mem_of_getElem? hi), hlen b (List.mem_of_getElem? hj)]) h
    · rw [h1]
      exact append_le_left _ _ _ (List.le_of_lt h2)
  have hsc : sortComb a.1 a.2 b.1 b.2 [] [] = ((a.1, b.1), (a.2, b.2), ([], [])) := by
    rw [sortComb_eq, if_pos hle]
  have ga : stations.getD i ([], []) = a := by rw [List.getD_eq_getElem?_getD, hi]; rfl
  have gb : stations.getD j ([], []) = b := by rw [List.getD_eq_getElem?_getD, hj]; rfl
  unfold networkStationCombis
  simp only [if_true]
  refine ⟨_, rfl, List.mem_map.2 ⟨(i, j), List.mem_filter.2 ⟨mem_pairsFrom.2 ⟨hil, by omega, hjl⟩, ?_⟩, ?_⟩⟩
  · simp only [ga, gb, hsc]
    have hne : a.1 ≠ b.1 ∨ a.2 ≠ b.2 := by
      by_cases h1 : a.1 = b.1
      · exact .inr fun h2 => hab (Prod.ext h1 h2)
      · exact .inl h1
    rw [if_pos hne]
    rw [List.contains_iff_mem]
    unfold pairName at hname
    simpa [dash] using hname
  · simp only [ga, gb, hsc, dash]
    simp

/-- **C135** (violated). If the remote service fails, the combinations found so far remain and are used, and the search can not be repeated: the second
call is refused. -/
theorem c135_interrupted_violated :
    let remote : Str → Str → Except PyErr Inv := fun _ _ => .error .osError
    let st : InvStore := ⟨[], [(c!"X.S1.xml", [⟨c!"X", c!"S1", 0, 0⟩])], []⟩
    ∃ st', findInterstatDist remote exampleDist c!"betweenStations" [(c!"X", c!"S1"), (c!"X", c!"S2")] none st 50 = (some [c!"X-X.S1-S1"], st', some .osError) ∧
      ∀ (remote' : Str → Str → Except PyErr Inv) (dist : Rat × Rat → Rat × Rat → Rat) (stations : List (Str × Str)) (dis : Rat),
        (findInterstatDist remote' dist c!"betweenStations" stations (some [c!"X-X.S1-S1"]) st' dis).2.2 = some .valueError := by
  refine ⟨⟨[⟨c!"X", c!"S1", 0, 0⟩], [(c!"X.S1.xml", [⟨c!"X", c!"S1", 0, 0⟩])], [(c!"X", c!"S2")]⟩, by decide +kernel, fun remote' dist stations dis => rfl⟩

/-- **C135**: other methods and requested combinations are refused, and the combinations stay as they are -/
theorem c135_refused (remote : Str → Str → Except PyErr Inv) (dist : Rat × Rat → Rat × Rat → Rat) (method : Str) (stations : List (Str × Str))
    (rcombis : Option (List Str)) (st : InvStore) (dis : Rat) (hf : st.files ≠ []) (h : method ≠ c!"betweenStations" ∨ rcombis ≠ none) :
    (findInterstatDist remote dist method stations rcombis st dis).1 = rcombis ∧
      (findInterstatDist remote dist method stations rcombis st dis).2.1.requests = st.requests ∧
      (findInterstatDist remote dist method stations rcombis st dis).2.2 = some .valueError := by
  unfold findInterstatDist readInventory
  by_cases hm : method = c!"betweenStations"
  · obtain ⟨r, rfl⟩ := Option.ne_none_iff_exists'.1 (h.resolve_left (fun h => h hm))
    rw [if_neg (by simpa using hm), if_neg (by simpa using hf)]
    exact ⟨rfl, rfl, rfl⟩
  · rw [if_pos hm]
    exact ⟨rfl, rfl, rfl⟩

/-- stations in this order -/
example : [(c!"X", c!"S1"), (c!"X", c!"S2"), (c!"Y", c!"A")].Pairwise fun a b : Str × Str => a.1 < b.1 ∨ (a.1 = b.1 ∧ a.2 < b.2) := by decide

/-- two near stations, one of them from the remote service -/
example : findInterstatDist (fun n s => .ok [⟨n, s, 0, 0⟩]) exampleDist c!"betweenStations" [(c!"X", c!"S1"), (c!"X", c!"S2")] none
    ⟨[], [(c!"X.S1.xml", [⟨c!"X", c!"S1", 0, 0⟩])], []⟩ 50 =
    (some [c!"X-X.S1-S1", c!"X-X.S1-S2", c!"X-X.S2-S2"], ⟨[⟨c!"X", c!"S1", 0, 0⟩, ⟨c!"X", c!"S2", 0, 0⟩],
      [(c!"X.S1.xml", [⟨c!"X", c!"S1", 0, 0⟩]), (c!"X.S2.xml", [⟨c!"X", c!"S2", 0, 0⟩])], [(c!"X", c!"S2")]⟩, none) := by decide +kernel

example : AtPos (fun _ => (0, 0)) [⟨c!"X", c!"S1", 0, 0⟩] ∧ Known [⟨c!"X", c!"S1", 0, 0⟩] (c!"X", c!"S1") ∧
    Answers (fun n s => .ok [⟨n, s, 0, 0⟩]) (fun _ => (0, 0)) (c!"X", c!"S2") := by
  refine ⟨?_, ⟨⟨c!"X", c!"S1", 0, 0⟩, by simp, rfl⟩, ⟨_, [], rfl, rfl, ?_⟩⟩ <;> intro x hx <;> rw [List.mem_singleton.1 hx]

end SeisMIC
