import Verif.Model.SacHeader

/-!
# C206: the geometry of a correlation does not depend on the correlations that were made before
-/

namespace SeisMIC

/-! ### Specification -/

/-- the header of the recording has coordinates of its own -/
def RecHeader.At (s : RecHeader) (c : Coord) : Prop := s.stla = some c.la ∧ s.stlo = some c.lo ∧ s.stel = some c.el

/-- the SAC part of the header has coordinates -/
def RecHeader.SacAt (s : RecHeader) (c : Coord) : Prop := ∃ p, s.sac = some p ∧ p.stla = some c.la ∧ p.stlo = some c.lo ∧ p.stel = some c.el

/-- the header of a correlation has the coordinates `a` of its first and `b` of its second station, their distance in kilometres, azimuth and back azimuth -/
def CorrGeo.Between (geod : Rat × Rat → Rat × Rat → Rat × Rat × Rat) (g : CorrGeo) (a b : Coord) : Prop :=
  (g.stla, g.stlo, g.stel) = (some a.la, some a.lo, some a.el) ∧ (g.evla, g.evlo, g.evel) = (some b.la, some b.lo, some b.el) ∧
    g.az = some (geod (a.la, a.lo) (b.la, b.lo)).1 ∧ g.baz = some (geod (a.la, a.lo) (b.la, b.lo)).2.1 ∧
    g.dist = some ((geod (a.la, a.lo) (b.la, b.lo)).2.2 / 1000)

/-- the codes that decide which station is the first one -/
def RecHeader.code (s : RecHeader) : Str := s.net ++ s.sta ++ s.cha

variable (geod : Rat × Rat → Rat × Rat → Rat × Rat × Rat) (inv : Str → Str → Option Coord)

/-! ### Lemmas -/

theorem between_inventory (g : CorrGeo) (s1 s2 : RecHeader) (a b : Coord) (h1 : inv s1.net s1.sta = some a) (h2 : inv s2.net s2.sta = some b) :
    (g.fromInventory geod inv s1 s2).Between geod a b := by
  unfold CorrGeo.fromInventory
  rw [h1]
  simp only [h2]
  exact ⟨rfl, rfl, rfl, rfl, rfl⟩

theorem combineSac_noSac (s1 s2 : RecHeader) (h1 : s1.sac = none) : (combineSac geod inv s1 s2).2 = (s1, s2) := by
  unfold combineSac
  simp only
  split
  · split <;> rfl
  · rw [h1]

/-! ### Theorems -/

/-- **C206** (one correlation). If the headers of both recordings have coordinates, these are used; otherwise, if the SAC parts of both have coordinates, these; if the header of
the first has none at all, those of the inventory. -/
theorem c206_once (s1 s2 : RecHeader) (a b : Coord) :
    (s1.At a → s2.At b → (combineSac geod inv s1 s2).1.Between geod a b ∧ (combineSac geod inv s1 s2).2 = (s1, s2)) ∧
    (s1.stel = none → s1.SacAt a → s2.SacAt b → (combineSac geod inv s1 s2).1.Between geod a b) ∧
    (s1.stel = none → s1.sac = none → inv s1.net s1.sta = some a → inv s2.net s2.sta = some b →
      (combineSac geod inv s1 s2).1.Between geod a b ∧ (combineSac geod inv s1 s2).2 = (s1, s2)) := by
  refine ⟨?_, ?_, ?_⟩
  · rintro ⟨h1, h2, h3⟩ ⟨h4, h5, h6⟩
    unfold combineSac
    simp only [h1, h2, h3, h4, h5, h6, Option.isSome_some, if_true, CorrGeo.setCoords]
    exact ⟨⟨rfl, rfl, rfl, rfl, rfl⟩, by trivial⟩
  · rintro h0 ⟨p, hp, h1, h2, h3⟩ ⟨q, hq, h4, h5, h6⟩
    unfold combineSac
    simp only [h0, Option.isSome_none, hp, hq, h1, h2, h3, h4, h5, h6, CorrGeo.setCoords, Option.bind_some, RecHeader.updateSac, Option.some_or]
    exact ⟨rfl, rfl, rfl, rfl, rfl⟩
  · intro h0 hs h1 h2
    unfold combineSac
    simp only [h0, hs, Option.isSome_none]
    exact ⟨between_inventory geod inv _ s1 s2 a b h1 h2, by trivial⟩

/-- **C206** Full statement: making a correlation does not change the headers of the recordings, so that the header of each correlation, with its geometry and sampling rate, is the
same as if no correlation had been made before.
Proved for recordings without SAC parts, for any sequence of correlations. Missing: recordings read from SAC files, see `c206_coordinates_violated` and `c206_rate_violated`. -/
theorem c206_history_partial (st : List RecHeader) (hs : ∀ s ∈ st, s.sac = none) (pairs : List (Nat × Nat)) (hp : ∀ p ∈ pairs, p.1 < st.length ∧ p.2 < st.length) :
    ∃ gs, correlateAll geod inv st pairs = .ok (gs, st) ∧ gs.length = pairs.length ∧
      ∀ (k i j : Nat), pairs[k]? = some (i, j) → ∃ g, gs[k]? = some g ∧ correlateRec geod inv st i j = .ok (g, st) := by
  have hone : ∀ i j, i < st.length → j < st.length → ∃ g, correlateRec geod inv st i j = .ok (g, st) := by
    intro i j hi hj
    unfold correlateRec
    rw [List.getElem?_eq_getElem hi, List.getElem?_eq_getElem hj]
    simp only
    rw [combineSac_noSac geod inv _ _ (hs _ (List.getElem_mem hi)), combineSac_noSac geod inv _ _ (hs _ (List.getElem_mem hj))]
    simp only [List.set_getElem_self]
    split
    · exact ⟨_, rfl⟩
    · exact ⟨_, rfl⟩
  induction pairs with
  | nil => exact ⟨[], rfl, rfl, by simp⟩
  | cons p rest ih =>
    obtain ⟨gs, h1, h2, h3⟩ := ih fun q hq => hp q (List.mem_cons_of_mem _ hq)
    obtain ⟨g, hg⟩ := hone p.1 p.2 (hp p (by simp)).1 (hp p (by simp)).2
    refine ⟨g :: gs, ?_, by simp [h2], ?_⟩
    · unfold correlateAll
      simp only [hg, h1]
    · intro k i j hk
      cases k with
      | zero =>
        simp only [List.getElem?_cons_zero, Option.some.injEq] at hk
        exact ⟨g, by simp, by rw [hk] at hg; exact hg⟩
      | succ k => exact h3 k i j (by simpa using hk)

/-- a recording of a SAC file that still has the header of the file, or whose header has got the entries of its SAC part -/
def RecHeader.FromSac (coord : Str → Str → Coord) (s : RecHeader) : Prop :=
  s.SacAt (coord s.net s.sta) ∧ ((s.stla = none ∧ s.stlo = none ∧ s.stel = none) ∨ s.At (coord s.net s.sta))

theorem fromSac_update (coord : Str → Str → Coord) (s : RecHeader) (h : s.FromSac coord) :
    s.updateSac.FromSac coord ∧ (s.updateSac.net, s.updateSac.sta, s.updateSac.cha) = (s.net, s.sta, s.cha) := by
  obtain ⟨⟨p, hp, h1, h2, h3⟩, -⟩ := h
  unfold RecHeader.updateSac
  rw [hp]
  refine ⟨⟨⟨p, rfl, h1, h2, h3⟩, .inr ?_⟩, rfl⟩
  simp only [RecHeader.At, h1, h2, h3, Option.some_or]
  trivial

theorem combineSac_fromSac (coord : Str → Str → Coord) (hinv : ∀ n s, inv n s = some (coord n s)) (s1 s2 : RecHeader) (h1 : s1.FromSac coord) (h2 : s2.FromSac coord) :
    (combineSac geod inv s1 s2).1.Between geod (coord s1.net s1.sta) (coord s2.net s2.sta) ∧
      (combineSac geod inv s1 s2).2.1.FromSac coord ∧ (combineSac geod inv s1 s2).2.2.FromSac coord ∧
      ((combineSac geod inv s1 s2).2.1.net, (combineSac geod inv s1 s2).2.1.sta, (combineSac geod inv s1 s2).2.1.cha) = (s1.net, s1.sta, s1.cha) ∧
      ((combineSac geod inv s1 s2).2.2.net, (combineSac geod inv s1 s2).2.2.sta, (combineSac geod inv s1 s2).2.2.cha) = (s2.net, s2.sta, s2.cha) := by
  rcases h1.2 with ⟨-, -, hn⟩ | ha
  · refine ⟨(c206_once geod inv s1 s2 _ _).2.1 hn h1.1 h2.1, ?_⟩
    have u1 := fromSac_update coord s1 h1
    have u2 := fromSac_update coord s2 h2
    have h1' := h1
    have h2' := h2
    obtain ⟨⟨p, hp, e1, e2, e3⟩, -⟩ := h1'
    obtain ⟨⟨q, hq, e4, e5, e6⟩, -⟩ := h2'
    have : (combineSac geod inv s1 s2).2 = (s1.updateSac, s2.updateSac) := by
      unfold combineSac
      simp only [hn, Option.isSome_none, hp, hq, e1, e2, e3, e4, e5, e6, CorrGeo.setCoords, Option.bind_some]
      rfl
    rw [this]
    exact ⟨u1.1, u2.1, u1.2, u2.2⟩
  · rcases h2.2 with ⟨m1, -, -⟩ | hb
    · have : combineSac geod inv s1 s2 = (((combineSac geod inv s1 s2).1), s1, s2) ∧
          (combineSac geod inv s1 s2).1.Between geod (coord s1.net s1.sta) (coord s2.net s2.sta) := by
        obtain ⟨a1, a2, a3⟩ := ha
        unfold combineSac
        simp only [a1, a2, a3, m1, Option.isSome_some, if_true, CorrGeo.setCoords]
        exact ⟨by trivial, between_inventory geod inv _ s1 s2 _ _ (hinv _ _) (hinv _ _)⟩
      rw [this.1]
      exact ⟨this.2, h1, h2, rfl, rfl⟩
    · obtain ⟨g1, g2⟩ := (c206_once geod inv s1 s2 _ _).1 ha hb
      rw [g2]
      exact ⟨g1, h1, h2, rfl, rfl⟩

/-- **C206** (SAC files and an inventory). If the inventory has all stations, with the same coordinates as the SAC files, each correlation has the coordinates and the
distance of its stations, whatever was correlated before. The first station is the one that comes first in the alphabet.
Missing for the full property: `c206_coordinates_violated`, `c206_rate_violated`. -/
theorem c206_inventory_partial (coord : Str → Str → Coord) (hinv : ∀ n s, inv n s = some (coord n s)) (st : List RecHeader) (hs : ∀ s ∈ st, s.FromSac coord)
    (pairs : List (Nat × Nat)) (hp : ∀ p ∈ pairs, p.1 < st.length ∧ p.2 < st.length) :
    ∃ gs st', correlateAll geod inv st pairs = .ok (gs, st') ∧ gs.length = pairs.length ∧
      ∀ (k i j : Nat) (s1 s2 : RecHeader), pairs[k]? = some (i, j) → st[i]? = some s1 → st[j]? = some s2 → ∃ g, gs[k]? = some g ∧
        if isort strLe [s1.code, s2.code] = [s1.code, s2.code] then g.Between geod (coord s1.net s1.sta) (coord s2.net s2.sta)
        else g.Between geod (coord s2.net s2.sta) (coord s1.net s1.sta) := by
  have key : ∀ (pairs : List (Nat × Nat)) (cur : List RecHeader), (∀ p ∈ pairs, p.1 < st.length ∧ p.2 < st.length) → (∀ s ∈ cur, s.FromSac coord) →
      cur.map (fun s => (s.net, s.sta, s.cha)) = st.map (fun s => (s.net, s.sta, s.cha)) →
      ∃ gs st', correlateAll geod inv cur pairs = .ok (gs, st') ∧ gs.length = pairs.length ∧
        ∀ (k i j : Nat) (s1 s2 : RecHeader), pairs[k]? = some (i, j) → st[i]? = some s1 → st[j]? = some s2 → ∃ g, gs[k]? = some g ∧
          if isort strLe [s1.code, s2.code] = [s1.code, s2.code] then g.Between geod (coord s1.net s1.sta) (coord s2.net s2.sta)
          else g.Between geod (coord s2.net s2.sta) (coord s1.net s1.sta) := by
    intro pairs
    induction pairs with
    | nil => intro cur _ _ _; exact ⟨[], cur, rfl, rfl, by simp⟩
    | cons p rest ih =>
      obtain ⟨i, j⟩ := p
      intro cur hp hcur hcodes
      have hlen : cur.length = st.length := by simpa using congrArg List.length hcodes
      obtain ⟨hi, hj⟩ := hp (i, j) (by simp)
      simp only at hi hj
      have hi' : i < cur.length := by omega
      have hj' : j < cur.length := by omega
      have hci : (cur[i].net, cur[i].sta, cur[i].cha) = (st[i].net, st[i].sta, st[i].cha) := by
        have := congrArg (fun l => l[i]?) hcodes
        simpa [hi, hi'] using this
      have hcj : (cur[j].net, cur[j].sta, cur[j].cha) = (st[j].net, st[j].sta, st[j].cha) := by
        have := congrArg (fun l => l[j]?) hcodes
        simpa [hj, hj'] using this
      obtain ⟨a1, a2, a3, a4, a5⟩ := combineSac_fromSac geod inv coord hinv cur[i] cur[j] (hcur _ (List.getElem_mem _)) (hcur _ (List.getElem_mem _))
      obtain ⟨b1, b2, b3, b4, b5⟩ := combineSac_fromSac geod inv coord hinv cur[j] cur[i] (hcur _ (List.getElem_mem _)) (hcur _ (List.getElem_mem _))
      simp only [Prod.mk.injEq] at hci hcj
      obtain ⟨ci1, ci2, ci3⟩ := hci
      obtain ⟨cj1, cj2, cj3⟩ := hcj
      have hset : ∀ (x y : RecHeader) (m n : Nat) (hm : m < cur.length) (hn : n < cur.length), x.FromSac coord → y.FromSac coord →
          (x.net, x.sta, x.cha) = (cur[m].net, cur[m].sta, cur[m].cha) → (y.net, y.sta, y.cha) = (cur[n].net, cur[n].sta, cur[n].cha) →
          (∀ s ∈ (cur.set m x).set n y, s.FromSac coord) ∧ ((cur.set m x).set n y).map (fun s => (s.net, s.sta, s.cha)) = st.map (fun s => (s.net, s.sta, s.cha)) := by
        intro x y m n hm hn hx hy hxc hyc
        refine ⟨?_, ?_⟩
        · intro s hs
          rcases List.mem_or_eq_of_mem_set hs with h | h
          · rcases List.mem_or_eq_of_mem_set h with h | h
            · exact hcur s h
            · rw [h]; exact hx
          · rw [h]; exact hy
        · rw [List.map_set, List.map_set, hxc, hyc, ← hcodes]
          refine List.ext_getElem (by simp) fun l l1 l2 => ?_
          simp only [List.getElem_set, List.getElem_map]
          split
          · rename_i h; subst h; rfl
          · split
            · rename_i h; subst h; rfl
            · rfl
      have hcode1 : st[i].code = cur[i].net ++ cur[i].sta ++ cur[i].cha := by rw [RecHeader.code, ci1, ci2, ci3]
      have hcode2 : st[j].code = cur[j].net ++ cur[j].sta ++ cur[j].cha := by rw [RecHeader.code, cj1, cj2, cj3]
      have step : ∃ g st', correlateRec geod inv cur i j = .ok (g, st') ∧ (∀ s ∈ st', s.FromSac coord) ∧
          st'.map (fun s => (s.net, s.sta, s.cha)) = st.map (fun s => (s.net, s.sta, s.cha)) ∧
          if isort strLe [st[i].code, st[j].code] = [st[i].code, st[j].code] then g.Between geod (coord st[i].net st[i].sta) (coord st[j].net st[j].sta)
          else g.Between geod (coord st[j].net st[j].sta) (coord st[i].net st[i].sta) := by
        unfold correlateRec
        rw [List.getElem?_eq_getElem hi', List.getElem?_eq_getElem hj']
        simp only
        rw [← hcode1, ← hcode2]
        split
        · rename_i h
          obtain ⟨c1, c2⟩ := hset _ _ j i hj' hi' b2 b3 b4 b5
          refine ⟨_, _, rfl, c1, c2, ?_⟩
          rw [← cj1, ← cj2, ← ci1, ← ci2]
          exact b1
        · rename_i h
          obtain ⟨c1, c2⟩ := hset _ _ i j hi' hj' a2 a3 a4 a5
          refine ⟨_, _, rfl, c1, c2, ?_⟩
          rw [if_pos (Decidable.of_not_not h), ← cj1, ← cj2, ← ci1, ← ci2]
          exact a1
      obtain ⟨g, cur', hg, hc1, hc2, hgeo⟩ := step
      obtain ⟨gs, st', h1, h2, h3⟩ := ih cur' (fun q hq => hp q (List.mem_cons_of_mem _ hq)) hc1 hc2
      refine ⟨g :: gs, st', ?_, by simp [h2], ?_⟩
      · unfold correlateAll
        simp only [hg, h1]
      · intro k i' j' s1 s2 hk hs1 hs2
        cases k with
        | zero =>
          simp only [List.getElem?_cons_zero, Option.some.injEq, Prod.mk.injEq] at hk
          obtain ⟨rfl, rfl⟩ := hk
          rw [List.getElem?_eq_getElem hi, Option.some.injEq] at hs1
          rw [List.getElem?_eq_getElem hj, Option.some.injEq] at hs2
          subst hs1 hs2
          exact ⟨g, rfl, hgeo⟩
        | succ k => exact h3 k i' j' s1 s2 (by simpa using hk) hs1 hs2
  exact key pairs st hp hs rfl

/-- a recording of a SAC file with 100 samples per second, resampled to 25 -/
def sacRecording (sta : Str) (la lo : Rat) : RecHeader :=
  ⟨c!"AB", sta, c!"HHZ", 25, 250, none, none, none, some ⟨some la, some lo, some 0, some (1 / 100), some 1000⟩⟩

/-- the hypotheses of the theorems can be met -/
example : (∀ s ∈ [{ sacRecording c!"S1" 1 2 with sac := none }, { sacRecording c!"S2" 3 4 with sac := none }], s.sac = none) ∧
    (∀ s ∈ [sacRecording c!"S1" 1 2, sacRecording c!"S2" 3 4], s.FromSac fun _ s => if s = c!"S1" then ⟨1, 2, 0⟩ else ⟨3, 4, 0⟩) := by
  refine ⟨?_, ?_⟩
  · intro s hs
    simp only [List.mem_cons, List.not_mem_nil, or_false] at hs
    rcases hs with rfl | rfl <;> rfl
  · intro s hs
    simp only [List.mem_cons, List.not_mem_nil, or_false] at hs
    rcases hs with rfl | rfl
    · exact ⟨⟨_, rfl, rfl, rfl, rfl⟩, .inl ⟨rfl, rfl, rfl⟩⟩
    · exact ⟨⟨_, rfl, rfl, rfl, rfl⟩, .inl ⟨rfl, rfl, rfl⟩⟩

/-- **C206 is violated** (coordinates). Two recordings of SAC files, without an inventory. Their cross-correlation has the coordinates of both stations if it is made first. After the
auto-correlation of the first recording it has no distance and only the coordinates of the first station. -/
theorem c206_coordinates_violated :
    (∃ g st, correlateAll geod (fun _ _ => none) [sacRecording c!"S1" 1 2, sacRecording c!"S2" 3 4] [(0, 1)] = .ok ([g], st) ∧ g.Between geod ⟨1, 2, 0⟩ ⟨3, 4, 0⟩) ∧
    ∃ g0 g st, correlateAll geod (fun _ _ => none) [sacRecording c!"S1" 1 2, sacRecording c!"S2" 3 4] [(0, 0), (0, 1)] = .ok ([g0, g], st) ∧
      g.dist = none ∧ g.evla = none ∧ g.stla = some 1 := by
  have e : isort strLe [c!"AB" ++ c!"S1" ++ c!"HHZ", c!"AB" ++ c!"S2" ++ c!"HHZ"] = [c!"AB" ++ c!"S1" ++ c!"HHZ", c!"AB" ++ c!"S2" ++ c!"HHZ"] := by decide
  have e0 : isort strLe [c!"AB" ++ c!"S1" ++ c!"HHZ", c!"AB" ++ c!"S1" ++ c!"HHZ"] = [c!"AB" ++ c!"S1" ++ c!"HHZ", c!"AB" ++ c!"S1" ++ c!"HHZ"] := by decide
  refine ⟨?_, ?_⟩
  · simp only [correlateAll, correlateRec, sacRecording, List.getElem?_cons_zero, List.getElem?_cons_succ, e, ne_eq, not_true, if_false]
    exact ⟨_, _, rfl, rfl, rfl, rfl, rfl, rfl⟩
  · simp only [correlateAll, correlateRec, sacRecording, List.getElem?_cons_zero, List.getElem?_cons_succ, e0, ne_eq, not_true, if_false, combineSac, Option.isSome_none,
      CorrGeo.setCoords, Option.bind_some, RecHeader.updateSac, Option.some_or, List.set_cons_zero, if_true, CorrGeo.fromInventory]
    exact ⟨_, _, _, rfl, rfl, rfl, rfl⟩

/-- **C206 is violated** (sampling rate). The recordings were resampled to 25 samples per second. Their cross-correlation has this rate. If it is made once more, the rate
in its header is that of the files, 100, since the first time has changed the headers of the recordings. -/
theorem c206_rate_violated :
    ∃ g0 g st, correlateAll geod (fun _ _ => none) [sacRecording c!"S1" 1 2, sacRecording c!"S2" 3 4] [(0, 1), (0, 1)] = .ok ([g0, g], st) ∧
      g0.rate = some 25 ∧ g.rate = some 100 ∧ st.map (·.npts) = [1000, 1000] := by
  have e : isort strLe [c!"AB" ++ c!"S1" ++ c!"HHZ", c!"AB" ++ c!"S2" ++ c!"HHZ"] = [c!"AB" ++ c!"S1" ++ c!"HHZ", c!"AB" ++ c!"S2" ++ c!"HHZ"] := by decide
  simp only [correlateAll, correlateRec, sacRecording, List.getElem?_cons_zero, List.getElem?_cons_succ, ne_eq, not_true, if_false, combineSac, Option.isSome_none,
    CorrGeo.setCoords, Option.bind_some, RecHeader.updateSac, Option.some_or, List.set_cons_zero, List.set_cons_succ, if_true, e, Option.map_some,
    Option.getD_some]
  exact ⟨_, _, _, rfl, rfl, by simp [CorrGeo.setDist]; decide +kernel, rfl⟩

theorem setCoords_rate (g : CorrGeo) (a b c d e f : Option Rat) : (g.setCoords a b c d e f).1.rate = g.rate := by
  unfold CorrGeo.setCoords
  cases a <;> cases b <;> cases c <;> cases d <;> cases e <;> cases f <;> rfl

theorem fromInventory_rate (g : CorrGeo) (s1 s2 : RecHeader) : (g.fromInventory geod inv s1 s2).rate = g.rate := by
  unfold CorrGeo.fromInventory
  cases inv s1.net s1.sta <;> cases inv s2.net s2.sta <;> rfl

theorem combineSac_rate (s1 s2 : RecHeader) : (combineSac geod inv s1 s2).1.rate = if s1.rate = s2.rate then some s1.rate else none := by
  unfold combineSac
  simp only
  split
  · have h := setCoords_rate { rate := if s1.rate = s2.rate then some s1.rate else none } s1.stla s1.stlo s1.stel s2.stla s2.stlo s2.stel
    generalize CorrGeo.setCoords { rate := if s1.rate = s2.rate then some s1.rate else none } s1.stla s1.stlo s1.stel s2.stla s2.stlo s2.stel = r at h ⊢
    rcases r with ⟨g, b | b⟩
    · exact (fromInventory_rate geod inv g s1 s2).trans h
    · exact h
  · split
    · exact fromInventory_rate geod inv _ s1 s2
    · rename_i c1 _
      have h := setCoords_rate { rate := if s1.rate = s2.rate then some s1.rate else none } c1.stla c1.stlo c1.stel (s2.sac.bind (·.stla)) (s2.sac.bind (·.stlo)) (s2.sac.bind (·.stel))
      generalize CorrGeo.setCoords { rate := if s1.rate = s2.rate then some s1.rate else none } c1.stla c1.stlo c1.stel (s2.sac.bind (·.stla)) (s2.sac.bind (·.stlo))
        (s2.sac.bind (·.stel)) = r at h ⊢
      rcases r with ⟨g, b | b⟩
      · exact (fromInventory_rate geod inv g s1 s2).trans h
      · exact h

/-- **C206** (sampling rate, part) The header of a correlation has the sampling rate of its two recordings if their present headers agree about it, and none otherwise.
Missing: that the headers still have the sampling rates with which they were read, see `c206_rate_violated`. -/
theorem c206_rate_partial (st st' : List RecHeader) (i j : Nat) (h1 h2 : RecHeader) (hi : st[i]? = some h1) (hj : st[j]? = some h2) (g : CorrGeo)
    (h : correlateRec geod inv st i j = .ok (g, st')) : (h1.rate = h2.rate → g.rate = some h1.rate) ∧ (h1.rate ≠ h2.rate → g.rate = none) := by
  unfold correlateRec at h
  rw [hi, hj] at h
  simp only at h
  split at h
  · injection h with h
    have : g = (combineSac geod inv h2 h1).1 := (congrArg Prod.fst h).symm
    rw [this, combineSac_rate]
    exact ⟨fun e => by rw [if_pos e.symm, e], fun e => if_neg fun e' => e e'.symm⟩
  · injection h with h
    have : g = (combineSac geod inv h1 h2).1 := (congrArg Prod.fst h).symm
    rw [this, combineSac_rate]
    exact ⟨fun e => if_pos e, fun e => if_neg e⟩

end SeisMIC
