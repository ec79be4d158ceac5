import Verif.Spec.CorrStats
import Verif.Lemmas.Combis
import Verif.Lemmas.DbOptions
import Mathlib.Tactic.Linarith
import Mathlib.Tactic.Ring
import Mathlib.Tactic.FieldSimp
import Mathlib.Algebra.Order.Ring.Rat

/-!
# C10, C21, C22, C83, C84: headers of correlation traces
-/

namespace SeisMIC

variable {V δ : Type}

theorem CorrStats.consistent_default : (CorrStats.default : CorrStats V).Consistent := by
  constructor <;> simp [CorrStats.default]

theorem CorrStats.consistent_refresh (s : CorrStats V) : s.refresh.Consistent := by
  unfold CorrStats.refresh
  constructor
  · by_cases h : s.samplingRate = 0
    · left; simp [h]
    · right; simp only [if_neg h]; field_simp
  · intro h; simp at h; simp [h]
  · intro h; simp at h; simp [h]
  · rfl
  · rfl

theorem CorrStats.set_consistent (s s' : CorrStats V) (a : Assign V) (hs : s.Consistent)
    (h : s.set a = .ok s') : s'.Consistent := by
  cases a <;> simp only [CorrStats.set] at h
  case component v =>
    split at h
    · cases h
    · split at h
      · cases h; exact ⟨hs.1, hs.2, hs.3, hs.4, hs.5⟩
      · cases h
  all_goals first
    | cases h; exact CorrStats.consistent_refresh _
    | cases h; exact ⟨hs.1, hs.2, hs.3, hs.4, hs.5⟩
    | cases h

/-- **C21** After any sequence of assignments (refused ones are ignored by the
caller) to a header with the default values, the derived fields fit. -/
theorem c21_consistent (as : List (Assign V)) : (CorrStats.default.setAll as).Consistent := by
  have : ∀ (as : List (Assign V)) (s : CorrStats V), s.Consistent → (s.setAll as).Consistent := by
    intro as
    induction as with
    | nil => intro s hs; exact hs
    | cons a as ih =>
      intro s hs
      unfold CorrStats.setAll
      rw [List.foldl_cons]
      apply ih
      cases h : s.set a with
      | error e => exact hs
      | ok s' => exact CorrStats.set_consistent s s' a hs h
  exact this as _ CorrStats.consistent_default

/-- **C21** The same for any header that is consistent already. -/
theorem c21_preserved (s : CorrStats V) (hs : s.Consistent) (as : List (Assign V)) :
    (s.setAll as).Consistent := by
  induction as generalizing s with
  | nil => exact hs
  | cons a as ih =>
    unfold CorrStats.setAll
    rw [List.foldl_cons]
    apply ih
    cases h : s.set a with
    | error e => exact hs
    | ok s' => exact CorrStats.set_consistent s s' a hs h

/-- **C21** A header that is built from a dictionary is consistent, whatever
the dictionary says about the derived fields. -/
theorem c21_from_dictionary (as : List (Assign V)) (s : CorrStats V)
    (h : CorrStats.ofHeader as = .ok s) : s.Consistent := by
  unfold CorrStats.ofHeader at h
  have : ∀ (as : List (Assign V)) (s0 : CorrStats V), s0.Consistent →
      as.foldlM (fun s a => match a with
        | .starttime _ | .endtime _ | .endLag _ => Except.ok s
        | a => s.set a) s0 = Except.ok s → s.Consistent := by
    intro as
    induction as with
    | nil => intro s0 h0 h; cases h; exact h0
    | cons a as ih =>
      intro s0 h0 h
      rw [List.foldlM_cons] at h
      have key : ∀ s1, s0.set a = .ok s1 → s1.Consistent := fun s1 => CorrStats.set_consistent s0 s1 a h0
      cases a
      case starttime => exact ih s0 h0 h
      case endtime => exact ih s0 h0 h
      case endLag => exact ih s0 h0 h
      all_goals
        revert h
        simp only
        intro h
        cases hs : s0.set _ with
        | error e => rw [hs] at h; cases h
        | ok s1 => rw [hs] at h; exact ih s1 (key s1 hs) h
  exact this as _ CorrStats.consistent_default h

/-- **C21**, last sample: the lag times of the samples end at `end_lag`. -/
theorem c21_last_lag (s : CorrStats V) (hs : s.Consistent) (h : 0 < s.npts) :
    s.times.getLast? = some s.endLag ∧ s.times.head? = some s.startLag ∧ s.times.length = s.npts := by
  obtain ⟨n, hn⟩ : ∃ n : Nat, s.npts = n + 1 := ⟨(s.npts - 1).toNat, by omega⟩
  unfold CorrStats.times
  have : s.npts.toNat = n + 1 := by omega
  rw [this]
  refine ⟨?_, ?_, ?_⟩
  · rw [List.range_succ, List.map_append, List.getLast?_append]
    simp only [List.map_cons, List.map_nil, List.getLast?_singleton, Option.some_or]
    rw [hs.end_lag (by omega), hn]; push_cast; congr 1; ring
  · rw [List.range_succ_eq_map]; simp
  · simp; omega

example : (CorrStats.default.setAll [.delta (1 / 4), .startLag (-2), .npts 17, .endLag 5,
    .corrEnd 10, .other c!"a" (1 : Nat), .component c!"Z"]).endLag = 2 := by decide +kernel

/-- **C22** Assigning to a derived field is refused and the header stays as it
is. -/
theorem c22_read_only (s : CorrStats V) (a : Assign V)
    (ha : (∃ v, a = .starttime v) ∨ (∃ v, a = .endtime v) ∨ (∃ v, a = .endLag v)) :
    s.set a = .error .attributeError ∧ s.setAll [a] = s := by
  rcases ha with ⟨v, rfl⟩ | ⟨v, rfl⟩ | ⟨v, rfl⟩ <;> exact ⟨rfl, rfl⟩

/-- **C22**: only these assignments are refused as read only. -/
theorem c22_only_derived (s : CorrStats V) (a : Assign V) (h : s.set a = .error .attributeError) :
    (∃ v, a = .starttime v) ∨ (∃ v, a = .endtime v) ∨ (∃ v, a = .endLag v) := by
  cases a <;> simp only [CorrStats.set] at h <;> try cases h
  case component v =>
    split at h
    · cases h
    · split at h <;> cases h
  all_goals simp

/-- **C84** Setting the component of a correlation to `x-y` replaces the last
letter of both channels and reads back. -/
theorem c84_component (s : CorrStats V) (a b : Str) (u v x y : Char) (ha : '-' ∉ a ++ [u]) (hb : '-' ∉ b ++ [v])
    (hx : x ≠ '-') (hy : y ≠ '-') (hs : s.channel = a ++ [u] ++ '-' :: (b ++ [v])) :
    s.set (.component [x, '-', y]) = .ok { s with channel := a ++ [x] ++ '-' :: (b ++ [y]) } ∧
    CorrStats.component { s with channel := a ++ [x] ++ '-' :: (b ++ [y]) } = .ok [x, '-', y] ∧
    s.component = .ok [u, '-', v] := by
  have h1 : splitOn '-' s.channel = [a ++ [u], b ++ [v]] := by
    rw [hs]; simpa using splitOn_pair '-' _ _ ha hb
  have h2 : splitOn '-' [x, '-', y] = [[x], [y]] := by
    have := splitOn_pair '-' [x] [y] (by simp [Ne.symm hx]) (by simp [Ne.symm hy])
    simpa using this
  have ha' : '-' ∉ a ++ [x] := by
    simp only [List.mem_append, List.mem_singleton, not_or] at ha ⊢
    exact ⟨ha.1, Ne.symm hx⟩
  have hb' : '-' ∉ b ++ [y] := by
    simp only [List.mem_append, List.mem_singleton, not_or] at hb ⊢
    exact ⟨hb.1, Ne.symm hy⟩
  refine ⟨?_, ?_, ?_⟩
  · simp only [CorrStats.set]
    rw [if_neg (by simp), h1, h2]
    simp
  · simp only [CorrStats.component]
    rw [show splitOn '-' (a ++ [x] ++ '-' :: (b ++ [y])) = [a ++ [x], b ++ [y]] by
      simpa using splitOn_pair '-' _ _ ha' hb']
    simp
  · simp only [CorrStats.component]
    rw [h1]
    simp

/-- **C84** Everything that is not three characters long is refused. -/
theorem c84_length (s : CorrStats V) (v : Str) (h : v.length ≠ 3) :
    s.set (.component v) = .error .valueError := by
  simp [CorrStats.set, h]

/-- **C84** is violated for strings of three characters that are no pair of
components: `'ZZ-'` is accepted and produces a broken channel code. -/
theorem c84_component_violated :
    (({ CorrStats.default with channel := c!"HHZ-HHE" } : CorrStats Nat).set (.component c!"ZZ-")).map
      (fun s => (s.channel, s.component)) = .ok (c!"HHZZ-HH", .ok c!"Z-H") := by decide

section combine
variable [DecidableEq V] (geod : Coord → Coord → Rat × Rat × Rat) (inv : Str → Str → Option Coord)

omit [DecidableEq V] in
theorem setAll_append (s : CorrStats V) (a b : List (Assign V)) :
    s.setAll (a ++ b) = (s.setAll a).setAll b := by
  unfold CorrStats.setAll; rw [List.foldl_append]

/-- the header of a combination apart from the start lag -/
def combineBase (s1 s2 : Stats V) : CorrStats V :=
  { (CorrStats.default.setAll ([.corrStart (max s1.start s2.start), .corrEnd (min s1.stop s2.stop),
    .network (s1.net ++ c!"-" ++ s2.net), .station (s1.sta ++ c!"-" ++ s2.sta),
    .location (s1.loc ++ c!"-" ++ s2.loc), .channel (s1.cha ++ c!"-" ++ s2.cha)]
    ++ (if s1.samplingRate = s2.samplingRate then [.samplingRate s1.samplingRate] else [])
    ++ (if s1.npts = s2.npts then [.npts s1.npts] else [])
    ++ (if s1.calib = s2.calib then [.calib s1.calib] else [])
    ++ (s1.extra.filter fun kv => s2.extra.lookup kv.1 = some kv.2).map fun kv => .other kv.1 kv.2) : CorrStats V)
    with geo := combineGeo geod inv s1 s2 }

theorem combineStats_eq (s1 s2 : Stats V) (l : Rat) :
    combineStats geod inv s1 s2 l = { combineBase geod inv s1 s2 with startLag := l }.refresh := rfl

omit [DecidableEq V] in
theorem setAll_others (s : CorrStats V) (kvs : List (Str × V)) :
    s.setAll (kvs.map fun kv => .other kv.1 kv.2) =
      { s with extra := kvs.foldl (fun d kv => dictSet d kv.1 kv.2) s.extra } := by
  induction kvs generalizing s with
  | nil => rfl
  | cons kv kvs ih =>
    rw [List.map_cons, CorrStats.setAll, List.foldl_cons]
    exact ih _

omit [DecidableEq V] in
theorem foldl_dictSet_lookup (kvs : List (Str × V)) (d : List (Str × V)) (k : Str)
    (hnd : (kvs.map (·.1)).Nodup) :
    (kvs.foldl (fun d kv => dictSet d kv.1 kv.2) d).lookup k =
      (kvs.lookup k).or (d.lookup k) := by
  have hset : ∀ (d : List (Str × V)) (k k' : Str) (v : V),
      (dictSet d k' v).lookup k = if k = k' then some v else d.lookup k := by
    intro d k k' v
    induction d with
    | nil =>
      simp only [dictSet, List.lookup]
      by_cases h : k = k'
      · simp [h]
      · have : (k == k') = false := by simp [h]
        simp [this, h]
    | cons x d ih =>
      obtain ⟨a, b⟩ := x
      simp only [dictSet]
      by_cases h : a = k'
      · subst h
        rw [if_pos rfl]
        by_cases hk : k = a
        · simp [List.lookup, hk]
        · have : (k == a) = false := by simp [hk]
          simp [List.lookup, this, hk]
      · rw [if_neg h]
        by_cases hk : k = a
        · subst hk
          simp [List.lookup, h]
        · have : (k == a) = false := by simp [hk]
          simp only [List.lookup, this, ih]
  induction kvs generalizing d with
  | nil => simp
  | cons kv kvs ih =>
    rw [List.foldl_cons, ih _ (List.nodup_cons.1 hnd).2, hset]
    by_cases h : k = kv.1
    · subst h
      have : kvs.lookup kv.1 = none := by
        rw [List.lookup_eq_none_iff]
        intro p hp
        have := (List.nodup_cons.1 hnd).1
        simp only [List.mem_map, not_exists, not_and] at this
        have := this p hp
        simp [Ne.symm this]
      rw [this]; simp [List.lookup]
    · have : (k == kv.1) = false := by simp [h]
      simp [List.lookup, this, h]

/-- the fields of a header that are not changed by the optional assignments -/
def codes6 (s : CorrStats V) : Int × Int × Str × Str × Str × Str :=
  (s.corrStart, s.corrEnd, s.network, s.station, s.location, s.channel)

omit [DecidableEq V] in
theorem codes6_opt (s : CorrStats V) (c : Prop) [Decidable c] (a : Assign V)
    (ha : (∃ v, a = .samplingRate v) ∨ (∃ v, a = .npts v) ∨ (∃ v, a = .calib v)) :
    codes6 (s.setAll (if c then [a] else [])) = codes6 s := by
  split
  · rcases ha with ⟨v, rfl⟩ | ⟨v, rfl⟩ | ⟨v, rfl⟩ <;> rfl
  · rfl

theorem combineBase_fields (s1 s2 : Stats V) :
    codes6 (combineBase geod inv s1 s2) = (max s1.start s2.start, min s1.stop s2.stop,
      s1.net ++ c!"-" ++ s2.net, s1.sta ++ c!"-" ++ s2.sta, s1.loc ++ c!"-" ++ s2.loc,
      s1.cha ++ c!"-" ++ s2.cha) := by
  unfold combineBase
  rw [setAll_append, setAll_others, setAll_append, setAll_append, setAll_append]
  have h1 := codes6_opt (V := V)
  show codes6 _ = _
  refine (codes6_opt _ (s1.calib = s2.calib) (.calib s1.calib) (by simp)).trans ?_
  refine (codes6_opt _ (s1.npts = s2.npts) (.npts s1.npts) (by simp)).trans ?_
  exact (codes6_opt _ (s1.samplingRate = s2.samplingRate) (.samplingRate s1.samplingRate) (by simp))

/-- **C83** The header of a correlation: the time window is the intersection of
the windows of the two traces, the codes are joined with a dash, the start lag
is the one that was given, and the sampling rate is the common one. -/
theorem c83_combined_header (s1 s2 : Stats V) (l : Rat) :
    let s := combineStats geod inv s1 s2 l
    s.corrStart = max s1.start s2.start ∧ s.corrEnd = min s1.stop s2.stop ∧
    s.network = s1.net ++ '-' :: s2.net ∧ s.station = s1.sta ++ '-' :: s2.sta ∧
    s.location = s1.loc ++ '-' :: s2.loc ∧ s.channel = s1.cha ++ '-' :: s2.cha ∧
    s.startLag = l ∧ (s1.samplingRate = s2.samplingRate → s.samplingRate = s1.samplingRate) ∧
    s.Consistent := by
  intro s
  have hs : s = { combineBase geod inv s1 s2 with startLag := l }.refresh := rfl
  refine ⟨?_, ?_, ?_, ?_, ?_, ?_, ?_, ?_, ?_⟩
  on_goal 9 => rw [hs]; exact CorrStats.consistent_refresh _
  all_goals
    rw [hs]
    have h6 := combineBase_fields geod inv s1 s2
    simp only [codes6, Prod.mk.injEq] at h6
    simp only [CorrStats.refresh]
  · exact h6.1
  · exact h6.2.1
  · simpa using h6.2.2.1
  · simpa using h6.2.2.2.1
  · simpa using h6.2.2.2.2.1
  · simpa using h6.2.2.2.2.2
  · intro h
    unfold combineBase
    rw [if_pos h, setAll_append, setAll_others]
    simp only [setAll_append]
    split <;> split <;> rfl

/-- the coordinates of the two stations are those of the headers, or, if one of the headers has
none, those of the inventory -/
def Located (inv : Str → Str → Option Coord) (s1 s2 : Stats V) (a b : Coord) : Prop :=
  (s1.coords = some a ∧ s2.coords = some b) ∨
    ((s1.coords = none ∨ s2.coords = none) ∧ inv s1.net s1.sta = some a ∧ inv s2.net s2.sta = some b)

/-- **C83** The geometry in the header: the coordinates of the first and of the second station,
their distance in kilometres, and azimuth and back azimuth in this order. Without coordinates of
both stations there is none. -/
theorem c83_geometry (s1 s2 : Stats V) (l : Rat) :
    (∀ a b az baz dist, Located inv s1 s2 a b → geod a b = (az, baz, dist) →
      (combineStats geod inv s1 s2 l).geo = some (a, b, dist / 1000, az, baz)) ∧
    ((∀ a b, ¬ Located inv s1 s2 a b) → (combineStats geod inv s1 s2 l).geo = none) := by
  have hg : (combineStats geod inv s1 s2 l).geo = combineGeo geod inv s1 s2 := by
    rw [combineStats_eq]; rfl
  rw [hg]
  unfold combineGeo Located
  constructor
  · rintro a b az baz dist (⟨h1, h2⟩ | ⟨h0, h1, h2⟩) hgeo
    · simp only [h1, h2, hgeo]
    · rcases h0 with h0 | h0
      · simp only [h0, h1, h2, hgeo]
      · cases hc : s1.coords <;> simp only [h0, h1, h2, hgeo]
  · intro h
    cases h1 : s1.coords <;> cases h2 : s2.coords <;> cases h3 : inv s1.net s1.sta <;> cases h4 : inv s2.net s2.sta <;>
      simp_all

/-- **C83** Of all other entries exactly those are kept that are equal in both
headers. -/
theorem c83_common_entries (s1 s2 : Stats V) (l : Rat) (h1 : (s1.extra.map (·.1)).Nodup) (k : Str) (v : V) :
    (combineStats geod inv s1 s2 l).extra.lookup k = some v ↔
      s1.extra.lookup k = some v ∧ s2.extra.lookup k = some v := by
  rw [combineStats_eq]
  unfold combineBase
  rw [setAll_append, setAll_others]
  simp only [CorrStats.refresh]
  have hextra : (CorrStats.setAll CorrStats.default ([.corrStart (max s1.start s2.start), .corrEnd (min s1.stop s2.stop),
    .network (s1.net ++ c!"-" ++ s2.net), .station (s1.sta ++ c!"-" ++ s2.sta),
    .location (s1.loc ++ c!"-" ++ s2.loc), .channel (s1.cha ++ c!"-" ++ s2.cha)]
    ++ (if s1.samplingRate = s2.samplingRate then [.samplingRate s1.samplingRate] else [])
    ++ (if s1.npts = s2.npts then [.npts s1.npts] else [])
    ++ (if s1.calib = s2.calib then [.calib s1.calib] else [])) : CorrStats V).extra = [] := by
    split <;> split <;> split <;>
      simp [CorrStats.setAll, CorrStats.set, CorrStats.refresh, CorrStats.default]
  rw [hextra]
  rw [foldl_dictSet_lookup _ _ _ (by
    have : ∀ (p : Str × V → Bool) (l : List (Str × V)), (l.map (·.1)).Nodup → ((l.filter p).map (·.1)).Nodup := by
      intro p l hl
      exact List.Nodup.sublist (List.Sublist.map _ List.filter_sublist) hl
    exact this _ _ h1)]
  simp only [List.lookup, Option.or_none]
  clear hextra
  revert h1
  generalize s1.extra = e1
  intro h1
  induction e1 with
  | nil => simp
  | cons kv e1 ih =>
    have hnd := List.nodup_cons.1 h1
    have hnone : ∀ w, e1.lookup kv.1 ≠ some w := by
      intro w
      rw [lookup_none_of_not_mem e1 kv.1 hnd.1]; simp
    by_cases hk : k = kv.1
    · subst hk
      by_cases hc : s2.extra.lookup kv.1 = some kv.2
      · rw [List.filter_cons_of_pos (by simpa using hc)]
        simp only [List.lookup, BEq.rfl]
        constructor
        · intro h; cases h; exact ⟨rfl, hc⟩
        · rintro ⟨h, _⟩; exact h
      · rw [List.filter_cons_of_neg (by simpa using hc)]
        refine (ih hnd.2).trans ?_
        simp only [List.lookup, BEq.rfl, Option.some.injEq]
        constructor
        · rintro ⟨h, _⟩; exact absurd h (hnone _)
        · rintro ⟨rfl, h⟩; exact absurd h hc
    · have hb : (k == kv.1) = false := by simp [hk]
      have : ((kv :: e1).filter fun kv => s2.extra.lookup kv.1 = some kv.2).lookup k =
          (e1.filter fun kv => s2.extra.lookup kv.1 = some kv.2).lookup k := by
        by_cases hc : s2.extra.lookup kv.1 = some kv.2
        · rw [List.filter_cons_of_pos (by simpa using hc)]
          simp only [List.lookup, hb]
        · rw [List.filter_cons_of_neg (by simpa using hc)]
      rw [this]
      refine (ih hnd.2).trans ?_
      simp only [List.lookup, hb]

example :
    let s := combineStats (V := Nat) (fun _ _ => (0, 0, 0)) (fun _ _ => none)
      ⟨c!"XN", c!"A", [], c!"Z", 0, 9, 2, 10, 1, none, [(c!"a", 1), (c!"b", 2)]⟩
      ⟨c!"XN", c!"B", [], c!"Z", 3, 12, 2, 10, 1, none, [(c!"b", 2), (c!"a", 3)]⟩ (-5)
    s.corrStart = 3 ∧ s.corrEnd = 9 ∧ s.station = c!"A-B" ∧ s.endLag = -1 / 2 ∧ s.extra = [(c!"b", 2)] := by
  decide +kernel

/-! ### Exchange of the stations -/

/-- sort key of a header -/
def hKey (h : Stats V) : Str := h.net ++ h.sta ++ h.cha

omit [DecidableEq V] in
theorem alphabetical_cond (h1 h2 : Stats V) :
    (isort strLe [h1.net ++ h1.sta ++ h1.cha, h2.net ++ h2.sta ++ h2.cha] =
      [h1.net ++ h1.sta ++ h1.cha, h2.net ++ h2.sta ++ h2.cha]) ↔ hKey h1 ≤ hKey h2 := by
  rw [isort_pair]
  unfold hKey
  by_cases h : h1.net ++ h1.sta ++ h1.cha ≤ h2.net ++ h2.sta ++ h2.cha
  · rw [if_pos (by rw [strLe_iff]; exact h)]; exact ⟨fun _ => h, fun _ => rfl⟩
  · rw [if_neg (by rw [strLe_iff]; exact h)]
    constructor
    · intro h'; injection h' with h1' _; exact absurd (h1' ▸ List.le_refl _) h
    · intro h'; exact absurd h' h

theorem alphabetical_le (h1 h2 : Stats V) (l e : Rat) (data : List δ) (h : hKey h1 ≤ hKey h2) :
    alphabeticalCorrelation geod inv h1 h2 l e data = (combineStats geod inv h1 h2 l, data) := by
  unfold alphabeticalCorrelation
  simp only
  rw [if_neg (by rw [ne_eq, not_not, alphabetical_cond]; exact h)]

theorem alphabetical_gt (h1 h2 : Stats V) (l e : Rat) (data : List δ) (h : ¬ hKey h1 ≤ hKey h2) :
    alphabeticalCorrelation geod inv h1 h2 l e data = (combineStats geod inv h2 h1 (-e), data.reverse) := by
  unfold alphabeticalCorrelation
  simp only
  rw [if_pos (by rw [ne_eq, alphabetical_cond]; exact h)]

/-- **C10** `CorrTrace`: if `start_lag` and `end_lag` are the lags of the first
and of the last sample, then the trace is the same whichever station comes
first (the correlation of the exchanged stations being the reversed one, with
the lags of opposite sign), header, lag times and data, unless both traces have
the same network, station and channel codes.
Missing for the full property: `c10_inner_violated`, `c10_same_codes_violated`. -/
theorem c10_exchange_partial (h1 h2 : Stats V) (startLag endLag : Rat) (data : List δ)
    (hne : h1.net ++ h1.sta ++ h1.cha ≠ h2.net ++ h2.sta ++ h2.cha) :
    corrTrace geod inv h1 h2 startLag endLag data =
      corrTrace geod inv h2 h1 (-endLag) (-startLag) data.reverse := by
  unfold corrTrace
  by_cases h : hKey h1 ≤ hKey h2
  · have h' : ¬ hKey h2 ≤ hKey h1 := fun h' => hne (List.le_antisymm h h')
    rw [alphabetical_le _ _ _ _ _ _ _ h, alphabetical_gt _ _ _ _ _ _ _ h']
    simp
  · have h' : hKey h2 ≤ hKey h1 := (List.le_total _ _).resolve_left h
    rw [alphabetical_gt _ _ _ _ _ _ _ h, alphabetical_le _ _ _ _ _ _ _ h']

/-- **C10** The codes of a stored correlation are in alphabetical order. -/
theorem c10_alphabetical (h1 h2 : Stats V) (startLag endLag : Rat) (data : List δ) :
    ∃ a b : Stats V, ((a, b) = (h1, h2) ∨ (a, b) = (h2, h1)) ∧
      a.net ++ a.sta ++ a.cha ≤ b.net ++ b.sta ++ b.cha ∧
      let tr := corrTrace geod inv h1 h2 startLag endLag data
      tr.1.network = a.net ++ '-' :: b.net ∧ tr.1.station = a.sta ++ '-' :: b.sta ∧
      tr.1.channel = a.cha ++ '-' :: b.cha ∧ tr.1.npts = data.length ∧ tr.1.Consistent := by
  by_cases h : hKey h1 ≤ hKey h2
  · refine ⟨h1, h2, .inl rfl, h, ?_⟩
    have hc := c83_combined_header geod inv h1 h2 startLag
    unfold corrTrace
    rw [alphabetical_le _ _ _ _ _ _ _ h]
    exact ⟨hc.2.2.1, hc.2.2.2.1, hc.2.2.2.2.2.1, rfl, CorrStats.consistent_refresh _⟩
  · refine ⟨h2, h1, .inr rfl, (List.le_total _ _).resolve_left h, ?_⟩
    have hc := c83_combined_header geod inv h2 h1 (-endLag)
    unfold corrTrace
    rw [alphabetical_gt _ _ _ _ _ _ _ h]
    refine ⟨hc.2.2.1, hc.2.2.2.1, hc.2.2.2.2.2.1, ?_, CorrStats.consistent_refresh _⟩
    simp [CorrStats.setAll, CorrStats.set, CorrStats.refresh]

/-- **C10** The samples keep their lags up to the sign: if `end_lag` is the lag
of the last sample, then the lag times of the stored trace are those of the
samples, with opposite sign if the stations were exchanged. -/
theorem c10_lags (h1 h2 : Stats V) (startLag : Rat) (data : List δ)
    (hsr : h1.samplingRate = h2.samplingRate) (h0 : h1.samplingRate ≠ 0) :
    let endLag := startLag + (data.length - 1) / h1.samplingRate
    let lags := (List.range data.length).map fun i : Nat => startLag + i / h1.samplingRate
    let tr := corrTrace geod inv h1 h2 startLag endLag data
    lagged tr = lags.zip data ∨ lagged tr = ((lags.map (-·)).zip data).reverse := by
  intro endLag lags tr
  have key : ∀ (a b : Stats V) (l : Rat) (d : List δ), a.samplingRate = b.samplingRate →
      a.samplingRate = h1.samplingRate → d.length = data.length →
      CorrStats.times ((combineStats geod inv a b l).setAll [.npts d.length]) =
        (List.range data.length).map fun i : Nat => l + i / h1.samplingRate := by
    intro a b l d hab ha hdl
    have hc := c83_combined_header geod inv a b l
    have hsr' := hc.2.2.2.2.2.2.2.1 hab
    have hl := hc.2.2.2.2.2.2.1
    unfold CorrStats.times
    simp only [CorrStats.setAll, List.foldl_cons, List.foldl_nil, CorrStats.set, CorrStats.refresh]
    rw [hdl, hsr', hl, ha, if_neg h0]
    simp only [Int.toNat_natCast]
    apply List.map_congr_left
    intro i _
    ring
  by_cases h : hKey h1 ≤ hKey h2
  · left
    show lagged (corrTrace geod inv h1 h2 startLag endLag data) = _
    unfold corrTrace lagged
    rw [alphabetical_le _ _ _ _ _ _ _ h]
    simp only
    rw [key h1 h2 startLag data hsr rfl rfl]
  · right
    show lagged (corrTrace geod inv h1 h2 startLag endLag data) = _
    unfold corrTrace lagged
    rw [alphabetical_gt _ _ _ _ _ _ _ h]
    simp only
    rw [key h2 h1 (-endLag) data.reverse hsr.symm hsr.symm (by simp)]
    rw [List.zip_eq_zipWith, List.zip_eq_zipWith, List.reverse_zipWith (by simp [lags])]
    congr 1
    apply List.ext_getElem
    · simp [lags]
    · intro i hi1 hi2
      simp only [List.length_map, List.length_range] at hi1
      simp only [List.getElem_map, List.getElem_range, List.getElem_reverse, lags, endLag,
        List.length_map, List.length_range]
      have hcast : ((data.length - 1 - i : Nat) : Rat) = (data.length : Rat) - 1 - i := by
        rw [Nat.cast_sub (by omega), Nat.cast_sub (by omega)]; simp
      rw [hcast]; ring

/-- **C10** is violated by `_pxcorr_inner`: it passes as `end_lag` the lag after
the last sample. The zero lag sample (value 2) of a correlation of `S1` with
`S10`, which has to be flipped, ends up at lag -1. -/
theorem c10_inner_violated :
    let h (sta : Str) : Stats Nat := ⟨c!"XN", sta, [], c!"HHZ", 0, 10, 1, 11, 1, none, []⟩
    lagged (innerTrace (fun _ _ => (0, 0, 0)) (fun _ _ => none) 1 (h c!"S1") (h c!"S10") (-1) [1, 2, 3]) =
      [((-2 : Rat), 3), (-1, 2), (0, 1)] ∧
    lagged (innerTrace (fun _ _ => (0, 0, 0)) (fun _ _ => none) 1 (h c!"S10") (h c!"S1") (-1) [3, 2, 1]) =
      [((-1 : Rat), 3), (0, 2), (1, 1)] := by decide +kernel

/-- **C10** for `_pxcorr_inner`: data and header are independent of the order,
apart from the lag times, which are one sample too early if the trace was
flipped (`start_lag` is right if the stations are passed in alphabetical
order).
Missing for the full property: `c10_inner_violated`, `c10_same_codes_violated`. -/
theorem c10_inner_partial (sr startLag : Rat) (h1 h2 : Stats V) (row : List δ)
    (hlt : h1.net ++ h1.sta ++ h1.cha < h2.net ++ h2.sta ++ h2.cha) :
    let a := innerTrace geod inv sr h1 h2 startLag row
    let b := innerTrace geod inv sr h2 h1 (-(startLag + (row.length - 1) / sr)) row.reverse
    a.2 = b.2 ∧ a.1.noLags = b.1.noLags ∧ a.1.startLag = startLag ∧ b.1.startLag = startLag - 1 / sr := by
  intro a b
  have h : hKey h1 ≤ hKey h2 := List.le_of_lt hlt
  have h' : ¬ hKey h2 ≤ hKey h1 := by
    intro h'
    exact absurd hlt (List.not_lt.2 h')
  have ha : a = ((combineStats geod inv h1 h2 startLag).setAll [.npts row.length], row) := by
    show innerTrace geod inv sr h1 h2 startLag row = _
    unfold innerTrace corrTrace
    simp only
    rw [alphabetical_le _ _ _ _ _ _ _ h]
  have hb : b = ((combineStats geod inv h1 h2 (startLag - 1 / sr)).setAll [.npts row.length], row) := by
    show innerTrace geod inv sr h2 h1 _ row.reverse = _
    unfold innerTrace corrTrace
    simp only
    rw [alphabetical_gt _ _ _ _ _ _ _ h', List.reverse_reverse]
    simp only [List.length_reverse]
    congr 3
    ring
  rw [ha, hb]
  refine ⟨rfl, ?_, rfl, rfl⟩
  rw [combineStats_eq, combineStats_eq]
  rfl

/-- **C10** is violated for two locations of one station: the codes that decide
about the order are equal. -/
theorem c10_same_codes_violated :
    let h (loc : Str) : Stats Nat := ⟨c!"XN", c!"S1", loc, c!"HHZ", 0, 10, 1, 11, 1, none, []⟩
    (corrTrace (fun _ _ => (0, 0, 0)) (fun _ _ => none) (h c!"00") (h c!"10") (-1) 1 [1, 2, 3]).2 = [1, 2, 3] ∧
    (corrTrace (fun _ _ => (0, 0, 0)) (fun _ _ => none) (h c!"10") (h c!"00") (-1) 1 [3, 2, 1]).2 = [3, 2, 1] := by
  decide +kernel

end combine

end SeisMIC
