import Verif.Model.Spatial
import Verif.Spec.Spatial
import Verif.Lemmas.ListAux
import Verif.Lemmas.Stack
import Mathlib.Tactic.Ring
import Mathlib.Tactic.Linarith
import Mathlib.Tactic.Push

/-! # Grids and curves of velocity changes: C57, C58, C59, C61, C62 -/

namespace SeisMIC

theorem argminQ_spec (l : List Rat) (hl : l ≠ []) :
    ∃ h : argminQ l < l.length, (∀ x ∈ l, l[argminQ l] ≤ x) ∧ ∀ (j : Nat) (hj : j < argminQ l), l[argminQ l] < l[j] := by
  have hex : ∃ m ∈ l, ∀ x ∈ l, m ≤ x := by
    clear * - hl
    induction l with
    | nil => exact absurd rfl hl
    | cons a l ih =>
      by_cases hn : l = []
      · subst hn; exact ⟨a, by simp, by simp⟩
      · obtain ⟨m, hm, hmin⟩ := ih hn
        rcases le_total a m with h | h
        · refine ⟨a, by simp, ?_⟩
          intro x hx
          rcases List.mem_cons.1 hx with rfl | hx
          · exact le_refl _
          · exact le_trans h (hmin x hx)
        · refine ⟨m, by simp [hm], ?_⟩
          intro x hx
          rcases List.mem_cons.1 hx with rfl | hx
          · exact h
          · exact hmin x hx
  obtain ⟨m, hm, hmin⟩ := hex
  have h : argminQ l < l.length := by
    unfold argminQ
    apply List.findIdx_lt_length_of_exists
    exact ⟨m, hm, by simpa using hmin⟩
  have hp : ∀ x ∈ l, l[argminQ l] ≤ x := by
    have := List.findIdx_getElem (xs := l) (p := fun x => l.all fun y => decide (x ≤ y)) (w := h)
    intro x hx
    exact of_decide_eq_true (List.all_eq_true.1 this x hx)
  refine ⟨h, hp, ?_⟩
  intro j hj
  have := List.not_of_lt_findIdx (p := fun x => l.all fun y => decide (x ≤ y)) (xs := l) (i := j) hj
  have hj' : j < l.length := by omega
  by_contra hc
  rw [not_lt] at hc
  have : ¬ ∀ x ∈ l, l[j] ≤ x := by simpa using this
  exact this fun x hx => le_trans hc (hp x hx)

theorem argminQ_map {α : Type} (l : List α) (f : α → Rat) (hl : l ≠ []) :
    ∃ m, l[argminQ (l.map f)]? = some m ∧ ∀ (j : Nat) (x : α), l[j]? = some x →
      f m ≤ f x ∧ (j < argminQ (l.map f) → f m < f x) := by
  obtain ⟨h, h1, h2⟩ := argminQ_spec (l.map f) (by simpa using hl)
  have h' : argminQ (l.map f) < l.length := by simpa using h
  refine ⟨l[argminQ (l.map f)], List.getElem?_eq_getElem h', ?_⟩
  intro j x hx
  obtain ⟨hj, rfl⟩ := List.getElem?_eq_some_iff.1 hx
  constructor
  · have := h1 _ (List.mem_map.2 ⟨_, List.getElem_mem hj, rfl⟩)
    rwa [List.getElem_map] at this
  · intro hjk
    have := h2 j hjk
    rwa [List.getElem_map, List.getElem_map] at this

theorem absQ_eq (x : Rat) : absQ x = |x| := by
  unfold absQ
  split
  · rename_i h; rw [abs_of_neg h]
  · rename_i h; rw [abs_of_nonneg (not_lt.1 h)]

theorem nearest_closest (c : Curve) (utc : Int) (hs : c.starts ≠ []) : Spec.Closest c.starts utc (c.nearest utc) := by
  obtain ⟨s, hs', h⟩ := argminQ_map c.starts (fun s => absQ ((s - utc : Int) : Rat)) hs
  have key : ∀ s : Int, absQ ((s - utc : Int) : Rat) = ((|s - utc| : Int) : Rat) := by
    intro s; rw [absQ_eq]; exact_mod_cast rfl
  refine ⟨s, hs', ?_⟩
  intro j s' hj
  obtain ⟨h1, h2⟩ := h j s' hj
  constructor
  · simp only [key] at h1
    exact_mod_cast h1
  · intro hjk
    have h3 := h2 hjk
    simp only [key] at h3
    exact_mod_cast h3

theorem closest_unique (starts : List Int) (utc : Int) (k k' : Nat) (h : Spec.Closest starts utc k)
    (h' : Spec.Closest starts utc k') : k = k' := by
  obtain ⟨s, hs, h1⟩ := h
  obtain ⟨s', hs', h2⟩ := h'
  rcases lt_trichotomy k k' with hlt | heq | hgt
  · have a := (h2 k s hs).2 hlt
    have b := (h1 k' s' hs').1
    omega
  · exact heq
  · have a := (h1 k' s' hs').2 hgt
    have b := (h2 k s hs).1
    omega

/-! ### C57 -/

/-- a sequence of requests for kernels on the same grid, with the answers -/
def kernelRequests (g : Geo) (kern : KKey → Except PyErr (List Rat)) :
    List (KKey × List Rat) → List (List Pt × List Pt × Rat) → List (Except PyErr (List (List Rat)))
  | _, [] => []
  | cache, (l0, l1, t) :: rs =>
    (computeKernels g kern cache l0 l1 t).1 :: kernelRequests g kern (computeKernels g kern cache l0 l1 t).2 rs

/-- all entries of the cache are kernels -/
def CacheOk (kern : KKey → Except PyErr (List Rat)) (cache : List (KKey × List Rat)) : Prop :=
  ∀ key k, (key, k) ∈ cache → kern key = .ok k

theorem lookup_mem {α β : Type} [BEq α] [LawfulBEq α] (l : List (α × β)) (a : α) (b : β) (h : l.lookup a = some b) :
    (a, b) ∈ l := by
  induction l with
  | nil => cases h
  | cons p l ih =>
    obtain ⟨x, y⟩ := p
    rw [List.lookup_cons] at h
    split at h
    · rename_i he
      have := eq_of_beq he
      simp only [Option.some.injEq] at h
      simp [this, h]
    · exact List.mem_cons_of_mem _ (ih h)

theorem kernelLoop_spec (kern : KKey → Except PyErr (List Rat)) (t : Rat) (cache : List (KKey × List Rat))
    (l : List (Pt × Pt)) (hc : CacheOk kern cache) :
    (kernelLoop kern t cache l).1 = l.mapM (fun p => kern (p.1, p.2, t)) ∧ CacheOk kern (kernelLoop kern t cache l).2 := by
  induction l generalizing cache with
  | nil => exact ⟨rfl, hc⟩
  | cons p l ih =>
    obtain ⟨a, b⟩ := p
    unfold kernelLoop
    rw [List.mapM_cons]
    split
    · rename_i k hk
      have := hc _ _ (lookup_mem _ _ _ hk)
      obtain ⟨h1, h2⟩ := ih cache hc
      refine ⟨?_, h2⟩
      simp only [this, h1, bind, Except.bind, pure, Except.pure, Except.map]
    · cases hk : kern (a, b, t) with
      | error e => exact ⟨rfl, hc⟩
      | ok k =>
        have hc' : CacheOk kern (((a, b, t), k) :: cache) := by
          intro key k' hm
          rcases List.mem_cons.1 hm with h | h
          · simp only [Prod.mk.injEq] at h
            rw [h.1, h.2, hk]
          · exact hc key k' h
        obtain ⟨h1, h2⟩ := ih _ hc'
        refine ⟨?_, h2⟩
        simp only [h1, bind, Except.bind, pure, Except.pure, Except.map]

theorem computeKernels_spec (g : Geo) (kern : KKey → Except PyErr (List Rat)) (cache : List (KKey × List Rat))
    (l0 l1 : List Pt) (t : Rat) (hc : CacheOk kern cache) :
    (computeKernels g kern cache l0 l1 t).1 = (do
      let q0 ← g.cart l0
      let q1 ← g.cart l1
      (q0.zip q1).mapM fun p => kern (p.1, p.2, t)) ∧ CacheOk kern (computeKernels g kern cache l0 l1 t).2 := by
  unfold computeKernels
  cases g.cart l0 with
  | error e => exact ⟨rfl, hc⟩
  | ok q0 =>
    cases g.cart l1 with
    | error e => exact ⟨rfl, hc⟩
    | ok q1 =>
      obtain ⟨h1, h2⟩ := kernelLoop_spec kern t cache (q0.zip q1) hc
      exact ⟨by simp only [h1, bind, Except.bind], h2⟩

/-- **C57** Whatever kernels were requested before on a grid, and whether these requests
failed or not, every request is answered with the kernels of the requested pairs and lapse
time, in the order of the request, as if nothing had been computed before. -/
theorem c57_cache (g : Geo) (kern : KKey → Except PyErr (List Rat)) (rs : List (List Pt × List Pt × Rat)) :
    kernelRequests g kern [] rs = rs.map fun r => (do
      let q0 ← g.cart r.1
      let q1 ← g.cart r.2.1
      (q0.zip q1).mapM fun p => kern (p.1, p.2, r.2.2)) := by
  have main : ∀ cache, CacheOk kern cache → kernelRequests g kern cache rs = rs.map fun r => (do
      let q0 ← g.cart r.1
      let q1 ← g.cart r.2.1
      (q0.zip q1).mapM fun p => kern (p.1, p.2, r.2.2)) := by
    induction rs with
    | nil => intro _ _; rfl
    | cons r rs ih =>
      intro cache hc
      obtain ⟨l0, l1, t⟩ := r
      obtain ⟨h1, h2⟩ := computeKernels_spec g kern cache l0 l1 t hc
      unfold kernelRequests
      rw [List.map_cons, h1, ih _ h2]
  exact main [] (fun _ _ h => by cases h)

/-- Two requests that share a pair. -/
example :
    let g : Geo := { lat0 := 0, lon0 := 0, east := id, north := id }
    kernelRequests g (fun k => if k.2.2 = 0 then .error .valueError else .ok [k.1.1, k.2.1.1]) []
      [([(1, 2)], [(3, 4)], 1), ([(1, 2), (3, 4)], [(3, 4), (3, 4)], 1), ([(1, 2)], [(-1, 4)], 1)] =
      [.ok [[2, 4]], .ok [[2, 4], [4, 4]], .error .valueError] := by
  decide +kernel

/-! ### C58 -/

/-- several additions; an addition that raises an exception leaves the grid as it was -/
def addMany (g : Geo) (ord : List Pt → List Pt) : Option Stations → List (List Pt) → Option Stations
  | s, [] => s
  | s, l :: ls =>
    match addStations g ord s l with
    | .ok s' => addMany g ord (some s') ls
    | .error _ => addMany g ord s ls

/-- north and east of the lower left corner -/
def Geo.Accepts (g : Geo) (l : List Pt) : Prop := ∀ p ∈ l, g.lat0 ≤ p.1 ∧ g.lon0 ≤ p.2

theorem cart_ok (g : Geo) (l : List Pt) : (g.Accepts l → g.cart l = .ok (l.map fun p => (g.east p.2, g.north p.1))) ∧
    (¬ g.Accepts l → g.cart l = .error .valueError) := by
  unfold Geo.cart Geo.Accepts
  constructor
  · intro h
    rw [if_neg]
    simp only [Bool.or_eq_true, List.any_eq_true, decide_eq_true_eq, not_or, not_exists, not_and, not_lt]
    exact ⟨fun p hp => (h p hp).1, fun p hp => (h p hp).2⟩
  · intro h
    rw [if_pos]
    simp only [Bool.or_eq_true, List.any_eq_true, decide_eq_true_eq]
    by_contra hc
    apply h
    intro p hp
    constructor
    · by_contra h1; exact hc (Or.inl ⟨p, hp, not_le.1 h1⟩)
    · by_contra h1; exact hc (Or.inr ⟨p, hp, not_le.1 h1⟩)

/-- the latitudes and longitudes, and the positions, that a grid knows -/
def knownLL (s : Option Stations) : List Pt := match s with
  | some s => s.ll
  | none => []

def knownXY (s : Option Stations) : List Pt := match s with
  | some s => s.xy
  | none => []

theorem addStations_spec (g : Geo) (ord : List Pt → List Pt) (hord : ∀ l, (ord l).Nodup ∧ ∀ p, p ∈ ord l ↔ p ∈ l)
    (s : Option Stations) (l : List Pt) :
    match addStations g ord s l with
    | .ok s' => g.Accepts l ∧ s'.ll.Nodup ∧ s'.xy.Nodup ∧ (∀ p, p ∈ s'.ll ↔ p ∈ knownLL s ∨ p ∈ l) ∧
        (∀ q, q ∈ s'.xy ↔ q ∈ knownXY s ∨ ∃ p ∈ l, q = (g.east p.2, g.north p.1))
    | .error _ => ¬ g.Accepts l ∨ l = [] := by
  unfold addStations
  by_cases ha : g.Accepts l
  · rw [(cart_ok g l).1 ha]
    simp only [bind, Except.bind]
    cases s with
    | none =>
      by_cases hl : l = []
      · subst hl; simp [throw, throwThe, MonadExceptOf.throw]
      · simp only [List.map_eq_nil_iff, hl, if_false, pure, Except.pure]
        refine ⟨ha, (hord _).1, (hord _).1, ?_, ?_⟩
        · intro p; rw [(hord _).2]; simp [knownLL]
        · intro q
          rw [(hord _).2]
          simp only [knownXY, List.mem_map, List.not_mem_nil, false_or]
          constructor
          · rintro ⟨p, hp, rfl⟩; exact ⟨p, hp, rfl⟩
          · rintro ⟨p, hp, rfl⟩; exact ⟨p, hp, rfl⟩
    | some s =>
      by_cases hl : s.xy ++ l.map (fun p => (g.east p.2, g.north p.1)) = []
      · simp only [hl, if_true]
        rw [List.append_eq_nil_iff, List.map_eq_nil_iff] at hl
        exact Or.inr hl.2
      · simp only [hl, if_false, pure, Except.pure]
        refine ⟨ha, (hord _).1, (hord _).1, ?_, ?_⟩
        · intro p; rw [(hord _).2, List.mem_append]; rfl
        · intro q
          rw [(hord _).2, List.mem_append]
          simp only [knownXY, List.mem_map]
          constructor
          · rintro (h | ⟨p, hp, rfl⟩)
            · exact Or.inl h
            · exact Or.inr ⟨p, hp, rfl⟩
          · rintro (h | ⟨p, hp, rfl⟩)
            · exact Or.inl h
            · exact Or.inr ⟨p, hp, rfl⟩
  · rw [(cart_ok g l).2 ha]
    simp only [bind, Except.bind]
    exact Or.inl ha

/-- **C58** After any sequence of additions of stations the grid knows every station of the
accepted additions once, and no other, by its coordinates and by its position. -/
theorem c58_stations (g : Geo) (ord : List Pt → List Pt) (hord : ∀ l, (ord l).Nodup ∧ ∀ p, p ∈ ord l ↔ p ∈ l)
    (ls : List (List Pt)) :
    (knownLL (addMany g ord none ls)).Nodup ∧ (knownXY (addMany g ord none ls)).Nodup ∧
    (∀ p, p ∈ knownLL (addMany g ord none ls) ↔ ∃ l ∈ ls, g.Accepts l ∧ p ∈ l) ∧
    (∀ q, q ∈ knownXY (addMany g ord none ls) ↔ ∃ l ∈ ls, g.Accepts l ∧ ∃ p ∈ l, q = (g.east p.2, g.north p.1)) := by
  have main : ∀ s, (knownLL s).Nodup → (knownXY s).Nodup →
      (knownLL (addMany g ord s ls)).Nodup ∧ (knownXY (addMany g ord s ls)).Nodup ∧
      (∀ p, p ∈ knownLL (addMany g ord s ls) ↔ p ∈ knownLL s ∨ ∃ l ∈ ls, g.Accepts l ∧ p ∈ l) ∧
      (∀ q, q ∈ knownXY (addMany g ord s ls) ↔
        q ∈ knownXY s ∨ ∃ l ∈ ls, g.Accepts l ∧ ∃ p ∈ l, q = (g.east p.2, g.north p.1)) := by
    induction ls with
    | nil => intro s h1 h2; exact ⟨h1, h2, by simp [addMany], by simp [addMany]⟩
    | cons l ls ih =>
      intro s h1 h2
      have hs := addStations_spec g ord hord s l
      unfold addMany
      cases ha : addStations g ord s l with
      | error e =>
        rw [ha] at hs
        obtain ⟨i1, i2, i3, i4⟩ := ih s h1 h2
        refine ⟨i1, i2, ?_, ?_⟩
        · intro p
          simp only [i3, List.mem_cons, exists_eq_or_imp]
          constructor
          · rintro (h | h)
            · exact Or.inl h
            · exact Or.inr (Or.inr h)
          · rintro (h | ⟨h3, h4⟩ | h)
            · exact Or.inl h
            · rcases hs with hs | hs
              · exact absurd h3 hs
              · subst hs; cases h4
            · exact Or.inr h
        · intro q
          simp only [i4, List.mem_cons, exists_eq_or_imp]
          constructor
          · rintro (h | h)
            · exact Or.inl h
            · exact Or.inr (Or.inr h)
          · rintro (h | ⟨h3, p, h4, _⟩ | h)
            · exact Or.inl h
            · rcases hs with hs | hs
              · exact absurd h3 hs
              · subst hs; cases h4
            · exact Or.inr h
      | ok s' =>
        rw [ha] at hs
        obtain ⟨hacc, n1, n2, m1, m2⟩ := hs
        obtain ⟨i1, i2, i3, i4⟩ := ih (some s') n1 n2
        refine ⟨i1, i2, ?_, ?_⟩
        · intro p
          have : p ∈ knownLL (some s') ↔ p ∈ knownLL s ∨ p ∈ l := m1 p
          simp only [i3, this, List.mem_cons, exists_eq_or_imp, hacc, true_and, or_assoc]
        · intro q
          have : q ∈ knownXY (some s') ↔ q ∈ knownXY s ∨ ∃ p ∈ l, q = (g.east p.2, g.north p.1) := m2 q
          simp only [i4, this, List.mem_cons, exists_eq_or_imp, hacc, true_and, or_assoc]
  obtain ⟨h1, h2, h3, h4⟩ := main none List.nodup_nil List.nodup_nil
  refine ⟨h1, h2, ?_, ?_⟩
  · intro p; rw [h3]; simp [knownLL]
  · intro q; rw [h4]; simp [knownXY]

/-- Hypotheses of `c58_stations`: removing duplicates in order of appearance is a possible
order. -/
example : addMany { lat0 := 0, lon0 := 0, east := id, north := id } List.eraseDups none
    [[(1, 2), (1, 2)], [(-1, 5)], [(3, 4), (1, 2)]] = some { xy := [(2, 1), (4, 3)], ll := [(1, 2), (3, 4)] } := by
  decide +kernel

/-! ### C61 -/

/-- **C61** A position that is found is the closest grid point, the first one of several. -/
theorem c61_closest (g : Geo) (grid : List Pt) (res : Rat) (p : Pt) (k : Nat) (hg : grid ≠ [])
    (h : findCoord g grid res p = .ok k) :
    ∃ c, grid[k]? = some c ∧ ∀ (j : Nat) (c' : Pt), grid[j]? = some c' →
      sqDist c (g.east p.2, g.north p.1) ≤ sqDist c' (g.east p.2, g.north p.1) ∧
      (j < k → sqDist c (g.east p.2, g.north p.1) < sqDist c' (g.east p.2, g.north p.1)) := by
  unfold findCoord at h
  by_cases ha : g.Accepts [p]
  · rw [(cart_ok g [p]).1 ha] at h
    simp only [bind, Except.bind, List.map_cons, List.map_nil] at h
    split at h
    · cases h
    · simp only [pure, Except.pure, Except.ok.injEq] at h
      subst h
      exact argminQ_map grid (fun c => sqDist c (g.east p.2, g.north p.1)) hg
  · rw [(cart_ok g [p]).2 ha] at h
    cases h

/-- **C61** The positions of several points are the positions of the single points (closest
grid points), if they are found. -/
theorem c61_closest_array (g : Geo) (grid : List Pt) (res : Rat) (ps : List Pt) (ks : List Nat) (hg : grid ≠ [])
    (h : findCoords g grid res ps = .ok ks) :
    ks.length = ps.length ∧ ∀ (i : Nat) (p : Pt) (k : Nat), ps[i]? = some p → ks[i]? = some k →
      ∃ c, grid[k]? = some c ∧ ∀ c' ∈ grid, sqDist c (g.east p.2, g.north p.1) ≤ sqDist c' (g.east p.2, g.north p.1) := by
  unfold findCoords at h
  by_cases ha : g.Accepts ps
  · rw [(cart_ok g ps).1 ha] at h
    simp only [bind, Except.bind] at h
    split at h
    · cases h
    · simp only [pure, Except.pure, Except.ok.injEq] at h
      subst h
      refine ⟨by simp, ?_⟩
      intro i p k hp hk
      rw [List.getElem?_map, List.getElem?_map, hp] at hk
      simp only [Option.map_some, Option.some.injEq] at hk
      subst hk
      obtain ⟨c, hc, h1⟩ := argminQ_map grid (fun c => sqDist c (g.east p.2, g.north p.1)) hg
      refine ⟨c, hc, ?_⟩
      intro c' hc'
      obtain ⟨j, hj, rfl⟩ := List.mem_iff_getElem.1 hc'
      exact (h1 j _ (List.getElem?_eq_getElem hj)).1
  · rw [(cart_ok g ps).2 ha] at h
    cases h

/-- farther than one cell from the grid, in one of the directions -/
def OutsideGrid (grid : List Pt) (res : Rat) (q : Pt) : Prop :=
  (∀ c ∈ grid, res < |c.1 - q.1|) ∨ ∀ c ∈ grid, res < |c.2 - q.2|

/-- **C61** A point south or west of the corner is rejected; any other point is rejected iff
its easting is farther than one cell from the grid. Partial: points north of the grid are
not rejected (`c61_north_violated`). -/
theorem c61_rejected_partial (g : Geo) (grid : List Pt) (res : Rat) (p : Pt) (hres : 0 ≤ res) (hy : ∃ c ∈ grid, c.2 ≤ 0) (hn : g.lat0 ≤ p.1 → 0 ≤ g.north p.1) :
    findCoord g grid res p = .error .valueError ↔
      (p.1 < g.lat0 ∨ p.2 < g.lon0) ∨ ∀ c ∈ grid, res < |c.1 - g.east p.2| := by
  unfold findCoord
  by_cases ha : g.Accepts [p]
  · have ha' : g.lat0 ≤ p.1 ∧ g.lon0 ≤ p.2 := ha p (by simp)
    rw [(cart_ok g [p]).1 ha]
    simp only [bind, Except.bind, List.map_cons, List.map_nil, Bool.or_eq_true, List.all_eq_true, decide_eq_true_eq, absQ_eq]
    have hnorth : ¬ ∀ c ∈ grid, res < c.2 - g.north p.1 := by
      intro hc
      obtain ⟨c, hcm, hc0⟩ := hy
      have := hc c hcm
      have := hn ha'.1
      linarith
    split
    · rename_i hc
      simp only [throw, throwThe, MonadExceptOf.throw, true_iff]
      exact Or.inr (hc.resolve_right hnorth)
    · rename_i hc
      simp only [pure, Except.pure, reduceCtorEq, false_iff, not_or, not_lt]
      exact ⟨⟨ha'.1, ha'.2⟩, fun h => hc (Or.inl h)⟩
  · rw [(cart_ok g [p]).2 ha]
    simp only [bind, Except.bind, true_iff]
    left
    by_contra hc
    rw [not_or, not_lt, not_lt] at hc
    apply ha
    intro q hq
    rw [List.mem_singleton] at hq
    rw [hq]; exact hc

/-- **C61** violated: a point far to the north of the grid is assigned to the last row. -/
theorem c61_north_violated :
    let g : Geo := { lat0 := 0, lon0 := 0, east := id, north := id }
    let grid := gridPoints (gridAxis 2 1) (gridAxis 2 1)
    OutsideGrid grid 1 (1, 1000) ∧ findCoord g grid 1 (1000, 1) = .ok 7 := by
  constructor
  · right; decide +kernel
  · decide +kernel

/-- **C61** violated: in a list, a point outside the grid is accepted if another one is
inside. -/
theorem c61_array_violated :
    let g : Geo := { lat0 := 0, lon0 := 0, east := id, north := id }
    let grid := gridPoints (gridAxis 2 1) (gridAxis 2 1)
    findCoords g grid 1 [(1, 1000), (1, 1)] = .ok [5, 4] ∧ findCoords g grid 1 [(1, 1000)] = .error .valueError := by
  constructor <;> decide +kernel

/-- **C61** A list is rejected iff a point is south or west of the corner, or the eastings
of all points, or the northings of all points, are outside. Partial: for each point the
property asks for its own check (`c61_array_violated`). -/
theorem c61_array_partial (g : Geo) (grid : List Pt) (res : Rat) (ps : List Pt) :
    findCoords g grid res ps = .error .valueError ↔ ¬ g.Accepts ps ∨
      (∀ p ∈ ps, ∀ c ∈ grid, res < |c.1 - g.east p.2|) ∨ ∀ p ∈ ps, ∀ c ∈ grid, res < |c.2 - g.north p.1| := by
  unfold findCoords
  by_cases ha : g.Accepts ps
  · rw [(cart_ok g ps).1 ha]
    simp only [bind, Except.bind, Bool.or_eq_true, List.all_eq_true, decide_eq_true_eq, absQ_eq, List.mem_map,
      forall_exists_index, and_imp, forall_apply_eq_imp_iff₂, ha, not_true, false_or]
    split
    · rename_i hc
      simp only [throw, throwThe, MonadExceptOf.throw, true_iff]
      exact hc
    · rename_i hc
      simp only [pure, Except.pure, reduceCtorEq, false_iff]
      exact hc
  · rw [(cart_ok g ps).2 ha]
    simp only [bind, Except.bind, true_iff]
    exact Or.inl ha

/-! ### C62 -/

/-- the datum that a curve contributes at a time: value and coherence at the closest start
time, if the curve covers the time and both are valid -/
def Contributes (utc : Int) (c : Curve) (d : Datum) : Prop :=
  (∃ s e, c.starts.head? = some s ∧ c.ends.getLast? = some e ∧ s ≤ utc ∧ utc ≤ e) ∧
  (∃ k, Spec.Closest c.starts utc k ∧ c.value[k]? = some (some d.val) ∧ c.corr[k]? = some (some d.corr)) ∧
  1 / 1000 < d.corr ∧ d.corr < 1 ∧ d.stat0 = c.stat0 ∧ d.stat1 = c.stat1 ∧ d.proc = c.proc

theorem extractOne_some (utc : Int) (c : Curve) (d : Datum) :
    extractOne utc c = .ok (some d) ↔ Contributes utc c d := by
  unfold extractOne Contributes
  constructor
  · intro h
    split at h
    · rename_i s e hs he
      split at h
      · cases h
      · rename_i hcov
        push Not at hcov
        split at h
        · rename_i v r hv hr
          split at h
          · cases h
          · rename_i hval
            push Not at hval
            simp only [Except.ok.injEq, Option.some.injEq] at h
            subst h
            refine ⟨⟨s, e, hs, he, hcov.1, hcov.2⟩, ⟨c.nearest utc, nearest_closest c utc ?_, hv, hr⟩, hval.1, hval.2, rfl, rfl, rfl⟩
            intro hn; rw [hn] at hs; cases hs
        · cases h
        · cases h
    · cases h
  · rintro ⟨⟨s, e, hs, he, h1, h2⟩, ⟨k, hk, hv, hr⟩, h3, h4, h5, h6, h7⟩
    have hk' : k = c.nearest utc := closest_unique _ _ _ _ hk (nearest_closest c utc (by intro hn; rw [hn] at hs; cases hs))
    subst hk'
    rw [hs, he]
    simp only
    rw [if_neg (by push Not; exact ⟨h1, h2⟩), hv, hr]
    simp only
    rw [if_neg (by push Not; exact ⟨h3, h4⟩)]
    obtain ⟨_, _, _, _, _⟩ := d
    simp only at h5 h6 h7
    simp [h5, h6, h7]

/-- a curve with data at all of its times -/
def Curve.Complete (c : Curve) : Prop :=
  c.starts ≠ [] ∧ c.ends ≠ [] ∧ c.value.length = c.starts.length ∧ c.corr.length = c.starts.length

theorem extractOne_total (utc : Int) (c : Curve) (hc : c.Complete) : ∃ o, extractOne utc c = .ok o := by
  obtain ⟨h1, h2, h3, h4⟩ := hc
  unfold extractOne
  obtain ⟨s, hs⟩ : ∃ s, c.starts.head? = some s := by
    cases h : c.starts with
    | nil => exact absurd h h1
    | cons a l => exact ⟨a, rfl⟩
  obtain ⟨e, he⟩ : ∃ e, c.ends.getLast? = some e := ⟨_, List.getLast?_eq_getLast_of_ne_nil h2⟩
  rw [hs, he]
  simp only
  split
  · exact ⟨_, rfl⟩
  · obtain ⟨s', hs', _⟩ := nearest_closest c utc h1
    obtain ⟨hlt, _⟩ := List.getElem?_eq_some_iff.1 hs'
    rw [List.getElem?_eq_getElem (by omega : c.nearest utc < c.value.length),
      List.getElem?_eq_getElem (by omega : c.nearest utc < c.corr.length)]
    cases c.value[c.nearest utc]'(by omega) with
    | none => exact ⟨_, rfl⟩
    | some v =>
      cases c.corr[c.nearest utc]'(by omega) with
      | none => exact ⟨_, rfl⟩
      | some r =>
        simp only
        split <;> exact ⟨_, rfl⟩

theorem mapM_forall2 {ε α β : Type} (l : List α) (f : α → Except ε β) (r : List β) (h : l.mapM f = .ok r) :
    List.Forall₂ (fun a b => f a = .ok b) l r := by
  induction l generalizing r with
  | nil =>
    simp only [List.mapM_nil, pure, Except.pure, Except.ok.injEq] at h
    subst h
    exact .nil
  | cons a l ih =>
    rw [List.mapM_cons] at h
    cases hf : f a with
    | error e => rw [hf] at h; cases h
    | ok b =>
      rw [hf] at h
      cases hl : l.mapM f with
      | error e => rw [hl] at h; cases h
      | ok r' =>
        rw [hl] at h
        simp only [bind, Except.bind, pure, Except.pure, Except.ok.injEq] at h
        subst h
        exact .cons hf (ih r' hl)

/-- the data of the curves, in their order: at every curve its datum, if it has one -/
def Collects (utc : Int) (curves : List Curve) (data : List Datum) : Prop :=
  ∃ sel : List (Option Datum), sel.length = curves.length ∧ data = sel.filterMap id ∧
    ∀ (k : Nat) (c : Curve), curves[k]? = some c → ∀ d, sel[k]? = some (some d) ↔ Contributes utc c d

theorem collects_mapM (utc : Int) (curves : List Curve) (sel : List (Option Datum))
    (h : curves.mapM (extractOne utc) = .ok sel) : Collects utc curves (sel.filterMap id) := by
  have hf := mapM_forall2 _ _ _ h
  refine ⟨sel, hf.length_eq.symm, rfl, ?_⟩
  intro k c hc d
  obtain ⟨hk, rfl⟩ := List.getElem?_eq_some_iff.1 hc
  have hk' : k < sel.length := by rw [← hf.length_eq]; exact hk
  rw [List.getElem?_eq_getElem hk', Option.some.injEq, ← extractOne_some]
  have := hf.get hk hk'
  simp only [List.get_eq_getElem] at this
  rw [this]
  simp

/-- **C62** The data used for an inversion are, in the order of the curves, exactly the
values and coherences of the curves that cover the time, at the closest start time, where
both are valid. -/
theorem c62_used (g : Geo) (ord : List Pt → List Pt) (st : Option Stations) (utc : Int) (curves : List Curve)
    (data : List Datum) (st' : Stations) (p : Option Proc) (h : extractInfo g ord st utc curves = .ok (data, st', p)) :
    Collects utc curves data ∧ data ≠ [] := by
  unfold extractInfo at h
  simp only [bind, Except.bind] at h
  split at h
  · cases h
  · rename_i sel hsel
    have := collects_mapM utc curves sel hsel
    split at h
    · cases h
    · rename_i d hd
      split at h
      · cases h
      · split at h
        · cases h
        · simp only [pure, Except.pure, Except.ok.injEq, Prod.mk.injEq] at h
          rw [← h.1]
          refine ⟨this, ?_⟩
          intro hn
          rw [hn] at hd
          cases hd

/-- **C62** If no curve contributes, an IndexError is raised. -/
theorem c62_none (g : Geo) (ord : List Pt → List Pt) (st : Option Stations) (utc : Int) (curves : List Curve)
    (hc : ∀ c ∈ curves, c.Complete) (hn : ∀ c ∈ curves, ¬ ∃ d, Contributes utc c d) :
    extractInfo g ord st utc curves = .error .indexError := by
  have hall : ∀ c ∈ curves, extractOne utc c = .ok none := by
    intro c hcm
    obtain ⟨o, ho⟩ := extractOne_total utc c (hc c hcm)
    cases o with
    | none => exact ho
    | some d => exact absurd ⟨d, (extractOne_some utc c d).1 ho⟩ (hn c hcm)
  have hm : curves.mapM (extractOne utc) = .ok (List.replicate curves.length none) := by
    clear hc hn
    induction curves with
    | nil => rfl
    | cons c l ih =>
      rw [List.mapM_cons, hall c (by simp), ih fun c hc => hall c (by simp [hc])]
      rfl
  unfold extractInfo
  rw [hm]
  simp only [bind, Except.bind]
  have : (List.replicate curves.length (none : Option Datum)).filterMap id = [] := by
    rw [List.filterMap_eq_nil_iff]
    intro a ha
    rw [List.eq_of_mem_replicate ha]; rfl
  rw [this]
  rfl

/-- **C62** If a curve contributes and all stations of the contributing curves are north-east
of the corner of the grid, no exception is raised. -/
theorem c62_succeeds (g : Geo) (ord : List Pt → List Pt) (hord : ∀ l, (ord l).Nodup ∧ ∀ p, p ∈ ord l ↔ p ∈ l)
    (st : Option Stations) (utc : Int) (curves : List Curve) (hc : ∀ c ∈ curves, c.Complete)
    (hn : ∃ c ∈ curves, ∃ d, Contributes utc c d)
    (hpos : ∀ c ∈ curves, g.Accepts [c.stat0, c.stat1]) :
    ∃ r, extractInfo g ord st utc curves = .ok r := by
  have hm : ∃ sel, curves.mapM (extractOne utc) = .ok sel := by
    clear hn hpos
    induction curves with
    | nil => exact ⟨[], rfl⟩
    | cons c l ih =>
      obtain ⟨o, ho⟩ := extractOne_total utc c (hc c (by simp))
      obtain ⟨sel, hs⟩ := ih fun c h => hc c (by simp [h])
      exact ⟨o :: sel, by rw [List.mapM_cons, ho, hs]; rfl⟩
  obtain ⟨sel, hsel⟩ := hm
  have hf := mapM_forall2 _ _ _ hsel
  obtain ⟨sel', hlen, hdata, hk⟩ := collects_mapM utc curves sel hsel
  have hmem : ∀ d ∈ sel.filterMap id, ∃ c ∈ curves, d.stat0 = c.stat0 ∧ d.stat1 = c.stat1 := by
    intro d hd
    rw [hdata, List.mem_filterMap] at hd
    obtain ⟨o, ho, hod⟩ := hd
    simp only [id_eq] at hod
    subst hod
    obtain ⟨k, hk1, hk2⟩ := List.mem_iff_getElem.1 ho
    have hkc : k < curves.length := by omega
    have := (hk k curves[k] (List.getElem?_eq_getElem hkc) d).1 (by rw [List.getElem?_eq_getElem hk1, hk2])
    exact ⟨curves[k], List.getElem_mem hkc, this.2.2.2.2.1, this.2.2.2.2.2.1⟩
  have hne : sel.filterMap id ≠ [] := by
    obtain ⟨c, hcm, d, hd⟩ := hn
    obtain ⟨k, hkc, rfl⟩ := List.mem_iff_getElem.1 hcm
    have := (hk k curves[k] (List.getElem?_eq_getElem hkc) d).2 hd
    intro he
    have hm : d ∈ sel.filterMap id := by
      rw [hdata, List.mem_filterMap]
      exact ⟨some d, List.mem_of_getElem? this, rfl⟩
    rw [he] at hm
    cases hm
  have ha0 : g.Accepts ((sel.filterMap id).map (·.stat0)) := by
    intro p hp
    obtain ⟨d, hd, rfl⟩ := List.mem_map.1 hp
    obtain ⟨c, hcm, h0, _⟩ := hmem d hd
    rw [h0]; exact hpos c hcm _ (by simp)
  have ha1 : g.Accepts ((sel.filterMap id).map (·.stat1)) := by
    intro p hp
    obtain ⟨d, hd, rfl⟩ := List.mem_map.1 hp
    obtain ⟨c, hcm, _, h1⟩ := hmem d hd
    rw [h1]; exact hpos c hcm _ (by simp)
  unfold extractInfo
  rw [hsel]
  simp only [bind, Except.bind]
  rw [List.getLast?_eq_getLast_of_ne_nil hne]
  simp only
  have h1 := addStations_spec g ord hord st ((sel.filterMap id).map (·.stat0))
  cases hs1 : addStations g ord st ((sel.filterMap id).map (·.stat0)) with
  | error e =>
    rw [hs1] at h1
    rcases h1 with h1 | h1
    · exact absurd ha0 h1
    · exact absurd (List.map_eq_nil_iff.1 h1) hne
  | ok s1 =>
    simp only
    have h2 := addStations_spec g ord hord (some s1) ((sel.filterMap id).map (·.stat1))
    cases hs2 : addStations g ord (some s1) ((sel.filterMap id).map (·.stat1)) with
    | error e =>
      rw [hs2] at h2
      rcases h2 with h2 | h2
      · exact absurd ha1 h2
      · exact absurd (List.map_eq_nil_iff.1 h2) hne
    | ok s2 => exact ⟨_, rfl⟩

/-- three curves: valid, without value at the time, not covering the time -/
def exCurves : List Curve :=
  [{ starts := [0, 10, 20], ends := [10, 20, 30], value := [some 1, some 2, some 3],
     corr := [some (1/2), some (1/3), some (1/4)], stat0 := (1, 1), stat1 := (2, 2), proc := none },
   { starts := [0, 10, 20], ends := [10, 20, 30], value := [some 1, none, some 3],
     corr := [some (1/2), some (1/3), some (1/4)], stat0 := (1, 1), stat1 := (3, 2), proc := none },
   { starts := [20], ends := [30], value := [some 1], corr := [some (1/2)], stat0 := (1, 1), stat1 := (2, 2), proc := none }]

/-- Hypotheses of `c62_used`, `c62_succeeds` and `c62_none`. -/
example : (extractInfo { lat0 := 0, lon0 := 0, east := id, north := id } List.eraseDups none 11 exCurves).map (·.1) =
      .ok [{ val := 2, corr := 1/3, stat0 := (1, 1), stat1 := (2, 2), proc := none }] ∧
    extractInfo { lat0 := 0, lon0 := 0, east := id, north := id } List.eraseDups none 31 exCurves = .error .indexError ∧
    ∀ c ∈ exCurves, c.Complete := by
  refine ⟨by decide +kernel, by decide +kernel, ?_⟩
  unfold Curve.Complete
  decide

end SeisMIC
