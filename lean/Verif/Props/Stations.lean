import Verif.Spec.Stations
import Verif.Spec.Combis
import Verif.Lemmas.Combis
import Verif.Lemmas.DbRead
import Verif.Lemmas.Strings
import Verif.Lemmas.TraceUtils

/-!
# C80, C89 - C91: which stations are used
-/

namespace SeisMIC

/-! ### C80 -/

theorem glob_append_inv {p q s : Str} (h : Glob (p ++ q) s) : ∃ u v, s = u ++ v ∧ Glob p u ∧ Glob q v := by
  induction p generalizing s with
  | nil => exact ⟨[], s, rfl, .nil, h⟩
  | cons c p ih =>
    rw [List.cons_append] at h
    cases h with
    | star u h =>
      obtain ⟨a, b, rfl, h1, h2⟩ := ih h
      exact ⟨u ++ a, b, by simp, .star u h1, h2⟩
    | any c h =>
      obtain ⟨a, b, rfl, h1, h2⟩ := ih h
      exact ⟨c :: a, b, rfl, .any c h1, h2⟩
    | lit x y z h =>
      obtain ⟨a, b, rfl, h1, h2⟩ := ih h
      exact ⟨c :: a, b, rfl, .lit x y z h1, h2⟩

/-- the pattern of the channel directory looks at the channel code -/
theorem chanDir_match (d : SdsDir) (component : Str) (hc : '[' ∉ component) (ht : d.typ.length = 1) :
    fnmatch d.name (c!"??" ++ component ++ c!".?") = true ↔ Glob ('?' :: '?' :: component) d.chan := by
  have h0 : '[' ∉ c!"??" ++ component ++ c!".?" := by simp [hc]
  rw [fnmatch_iff_glob _ _ h0]
  obtain ⟨t, ht⟩ := List.length_eq_one_iff.1 ht
  unfold SdsDir.name
  rw [ht]
  have hdot : ∀ v, Glob c!".?" v ↔ ∃ x, v = ['.', x] := by
    intro v
    constructor
    · intro h
      cases h with
      | lit _ _ _ h =>
        cases h with
        | any c h => cases h; exact ⟨c, rfl⟩
        | lit _ h _ _ => exact absurd rfl h
    · rintro ⟨x, rfl⟩
      exact .lit (by decide) (by decide) (by decide) (.any x .nil)
  constructor
  · intro h
    obtain ⟨u, v, e, h1, h2⟩ := glob_append_inv h
    obtain ⟨x, rfl⟩ := (hdot v).1 h2
    have : d.chan = u := by
      have e' : d.chan ++ ['.', t] = u ++ ['.', x] := by simpa using e
      exact (List.append_inj' e' rfl).1
    rw [this]
    exact h1
  · intro h
    have := glob_append h ((hdot ['.', t]).2 ⟨t, rfl⟩)
    simpa using this

theorem chanDir_chan (d : SdsDir) (hd : '.' ∉ d.chan) : (splitOn '.' d.name).headD [] = d.chan := by
  unfold SdsDir.name
  have : d.chan ++ c!"." ++ d.typ = d.chan ++ '.' :: d.typ := by simp
  rw [this, splitOn_append _ _ _ hd]
  rfl

theorem mem_getAvailable (arch : List SdsDir) (hp : ProperArchive arch) (n : Str) (hn : n ≠ []) :
    (∃ l, getAvailableStations arch n = .ok l ∧
      ∀ x, x ∈ l ↔ ∃ d ∈ arch, fnmatch d.net n = true ∧ x = (d.net, d.sta)) ∨
    (getAvailableStations arch n = .error .fileNotFoundError ∧ ∀ d ∈ arch, fnmatch d.net n = false) := by
  unfold getAvailableStations
  simp only [if_neg hn]
  set l := ((arch.filter fun d => d.year.length = 4 && fnmatch d.net n).map fun d => (d.net, d.sta)).eraseDups with hl
  have hmem : ∀ x, x ∈ l ↔ ∃ d ∈ arch, fnmatch d.net n = true ∧ x = (d.net, d.sta) := by
    intro x
    rw [hl, List.mem_eraseDups, List.mem_map]
    constructor
    · rintro ⟨d, hd, rfl⟩
      obtain ⟨h1, h2⟩ := List.mem_filter.1 hd
      simp only [Bool.and_eq_true] at h2
      exact ⟨d, h1, h2.2, rfl⟩
    · rintro ⟨d, h1, h2, rfl⟩
      exact ⟨d, List.mem_filter.2 ⟨h1, by simp [(hp d h1).1, h2]⟩, rfl⟩
  by_cases h : l = []
  · right
    rw [if_pos h]
    refine ⟨rfl, ?_⟩
    intro d hd
    by_contra hc
    have := (hmem (d.net, d.sta)).2 ⟨d, hd, by simpa using hc, rfl⟩
    rw [h] at this
    cases this
  · left
    rw [if_neg h]
    exact ⟨l, rfl, hmem⟩

theorem shrink_net_of (net : NetArg) (h : ∀ n, net ≠ .many [n]) : net.shrink = net := by
  unfold NetArg.shrink
  split
  · next n => exact absurd rfl (h n)
  · rfl

theorem shrink_sta_codes (ss : List Str) (h : ss.length ≠ 1) : (staCodes ss).shrink = staCodes ss := by
  cases ss with
  | nil => rfl
  | cons s ss =>
    cases ss with
    | nil => exact absurd rfl h
    | cons s' ss => rfl

/-- a request that is not a list with a single entry -/
def NotSingle (net : NetArg) (sta : StaArg) : Prop :=
  (∀ n, net ≠ .many [n]) ∧ ∀ e, sta ≠ .many [e]

theorem codes_mem (ss : List Str) (i : Nat) (e : StaElem) :
    (ss.map StaElem.code)[i]? = some e ↔ ∃ s, ss[i]? = some s ∧ e = .code s := by
  rw [List.getElem?_map]
  cases ss[i]? with
  | none => simp
  | some s => simp [eq_comm]

theorem requestPairs_spec (arch : List SdsDir) (hp : ProperArchive arch) (net : NetArg) (sta : StaArg)
    (hdoc : Documented net sta) (hs : NotSingle net sta) :
    (∃ pairs, requestPairs arch net sta = .ok pairs ∧
      ∀ n e, (n, e) ∈ pairs ↔ ∃ s, e = .code s ∧ Asked arch net sta n s) ∨
    (requestPairs arch net sta = .error .fileNotFoundError ∧ sta = .one c!"*" ∧
      ∃ ns n, net = .many ns ∧ n ∈ ns ∧ ∀ d ∈ arch, fnmatch d.net n = false) := by
  unfold requestPairs
  rw [shrink_net_of net hs.1]
  cases hdoc with
  | @strings n s h =>
    left
    have e : (StaArg.one s).shrink = .one s := rfl
    rw [e]
    simp only
    have : ¬ (n = c!"*" ∧ '*' ∉ s) := fun ⟨h1, h2⟩ => h2 (h h1)
    rw [if_neg this]
    refine ⟨_, rfl, ?_⟩
    intro n' e'
    simp only [List.mem_singleton, Prod.mk.injEq]
    constructor
    · rintro ⟨rfl, rfl⟩; exact ⟨s, rfl, .strings _ _⟩
    · rintro ⟨s', rfl, ha⟩
      generalize hN : NetArg.one n = N at ha
      generalize hS : StaArg.one s = S at ha
      cases ha with
      | strings => cases hN; cases hS; exact ⟨rfl, rfl⟩
      | zip => cases hN
      | oneNet => cases hS
      | wildcard => cases hN
  | @zip ns ss h =>
    left
    have hl : ss.length ≠ 1 := by
      intro hl
      obtain ⟨x, rfl⟩ := List.length_eq_one_iff.1 hl
      exact hs.2 (.code x) rfl
    rw [shrink_sta_codes ss hl]
    unfold staCodes
    simp only [List.length_map, h, ne_eq, not_true, if_false]
    refine ⟨_, rfl, ?_⟩
    intro n e
    constructor
    · intro hm
      obtain ⟨i, hi⟩ := List.getElem?_of_mem hm
      rw [List.getElem?_zip_eq_some] at hi
      obtain ⟨s, h1, h2⟩ := (codes_mem ss i e).1 hi.2
      exact ⟨s, h2, .zip hi.1 h1⟩
    · rintro ⟨s, rfl, ha⟩
      generalize hN : NetArg.many ns = N at ha
      generalize hS : StaArg.many (ss.map StaElem.code) = S at ha
      cases ha with
      | strings => cases hN
      | @zip ns' ss' i n s hn hs' =>
        cases hN
        have : ss = ss' := by
          have e : ss.map StaElem.code = ss'.map StaElem.code := by simpa [staCodes] using hS
          exact List.map_injective_iff.2 (fun a b h => by cases h; rfl) e
        subst this
        apply List.mem_of_getElem? (i := i)
        rw [List.getElem?_zip_eq_some]
        exact ⟨hn, (codes_mem _ _ _).2 ⟨s, hs', rfl⟩⟩
      | oneNet => cases hN
      | wildcard => cases hS
  | @oneNet n ss =>
    left
    have hl : ss.length ≠ 1 := by
      intro hl
      obtain ⟨x, rfl⟩ := List.length_eq_one_iff.1 hl
      exact hs.2 (.code x) rfl
    rw [shrink_sta_codes ss hl]
    unfold staCodes
    simp only
    refine ⟨_, rfl, ?_⟩
    intro n' e
    simp only [List.map_map, List.mem_map, Function.comp, Prod.mk.injEq]
    constructor
    · rintro ⟨s, hs', rfl, rfl⟩
      exact ⟨s, rfl, .oneNet hs'⟩
    · rintro ⟨s, rfl, ha⟩
      generalize hN : NetArg.one n = N at ha
      generalize hS : StaArg.many (ss.map StaElem.code) = S at ha
      cases ha with
      | strings => cases hS
      | zip => cases hN
      | @oneNet n'' s' ss' hs' =>
        cases hN
        have : ss = ss' := by
          have e : ss.map StaElem.code = ss'.map StaElem.code := by simpa [staCodes] using hS
          exact List.map_injective_iff.2 (fun a b h => by cases h; rfl) e
        subst this
        exact ⟨s, hs', rfl, rfl⟩
      | wildcard => cases hS
  | @wildcard ns hne =>
    have e : (StaArg.one c!"*").shrink = .one c!"*" := rfl
    rw [e]
    simp only [if_true]
    by_cases hall : ∀ n ∈ ns, ∃ d ∈ arch, fnmatch d.net n = true
    · left
      have hex : ∀ n, n ∈ ns → ∃ l, getAvailableStations arch n = .ok l ∧
          ∀ x, x ∈ l ↔ ∃ d ∈ arch, fnmatch d.net n = true ∧ x = (d.net, d.sta) := by
        intro n hn
        rcases mem_getAvailable arch hp n (hne n hn) with h | ⟨-, h⟩
        · exact h
        · obtain ⟨d, hd, hm⟩ := hall n hn
          rw [h d hd] at hm
          cases hm
      choose! g hg using hex
      refine ⟨((ns.map g).flatten).map fun p => (p.1, .code p.2), ?_, ?_⟩
      · rw [mapM_ok _ _ g (fun n hn => (hg n hn).1)]
        rfl
      · intro n e
        simp only [List.mem_map, Prod.mk.injEq, List.mem_flatten]
        constructor
        · rintro ⟨p, ⟨l, ⟨m, hm, rfl⟩, hpl⟩, rfl, rfl⟩
          obtain ⟨d, hd, h1, rfl⟩ := ((hg m hm).2 p).1 hpl
          exact ⟨d.sta, rfl, .wildcard hm hd h1⟩
        · rintro ⟨s, rfl, ha⟩
          generalize hN : NetArg.many ns = N at ha
          generalize hS : StaArg.one c!"*" = S at ha
          cases ha with
          | strings => cases hN
          | zip => cases hS
          | oneNet => cases hS
          | @wildcard ns' m d hm hd h1 =>
            cases hN
            exact ⟨(d.net, d.sta), ⟨g m, ⟨m, hm, rfl⟩, ((hg m hm).2 _).2 ⟨d, hd, h1, rfl⟩⟩, rfl, rfl⟩
    · right
      push Not at hall
      obtain ⟨n, hn, hno⟩ := hall
      refine ⟨?_, trivial, ns, n, rfl, hn, fun d hd => by simpa using hno d hd⟩
      have key : ns.mapM (getAvailableStations arch) = .error .fileNotFoundError := by
        clear e hs
        induction ns with
        | nil => cases hn
        | cons m ns ih =>
          rw [List.mapM_cons]
          rcases mem_getAvailable arch hp m (hne m (by simp)) with ⟨l, hl, hl2⟩ | ⟨h, -⟩
          · rw [hl]
            rcases List.mem_cons.1 hn with rfl | hn'
            · exfalso
              have : l ≠ [] := by
                rintro rfl
                unfold getAvailableStations at hl
                simp only [if_neg (hne n (by simp))] at hl
                split at hl
                · cases hl
                · next hne' => exact hne' (Except.ok.inj hl)
              obtain ⟨x, hx⟩ := List.exists_mem_of_ne_nil l this
              obtain ⟨d, hd, h1, -⟩ := (hl2 x).1 hx
              exact hno d hd h1
            · have := ih (fun a ha => hne a (by simp [ha])) hn'
              simp only [bind, Except.bind]
              rw [this]
          · rw [h]; rfl
      rw [key]
      rfl

theorem nodup_npUnique {α : Type} [BEq α] [LawfulBEq α] (le : α → α → Bool) (l : List α) : (npUnique le l).Nodup := by
  unfold npUnique
  exact (isort_perm le _).nodup_iff.2 (nodup_eraseDups _)

theorem mem_npUnique {α : Type} [BEq α] [LawfulBEq α] (le : α → α → Bool) (l : List α) (x : α) :
    x ∈ npUnique le l ↔ x ∈ l := by
  unfold npUnique
  rw [mem_isort, List.mem_eraseDups]

/-- **C80** For every archive and every documented request: the available data are
exactly the channels with the requested component of which network and station match
a requested pair, and the stations are exactly those of the available data, both
without duplicates. The only error is `FileNotFoundError`, if all stations of several
networks are requested and there is a network without data. -/
theorem c80_available (arch : List SdsDir) (hp : ProperArchive arch) (net : NetArg) (sta : StaArg) (component : Str)
    (hc : '[' ∉ component) (hdoc : Documented net sta) (hs : NotSingle net sta) :
    (∃ raw stations, availableData arch net sta component = .ok (raw, stations) ∧ raw.Nodup ∧ stations.Nodup ∧
      (∀ n s c, (n, s, c) ∈ raw ↔ ∃ d ∈ arch, d.net = n ∧ d.sta = s ∧ d.chan = c ∧ Glob ('?' :: '?' :: component) c ∧
        ∃ pn ps, Asked arch net sta pn ps ∧ fnmatch n pn = true ∧ fnmatch s ps = true) ∧
      (∀ n s, (n, s) ∈ stations ↔ ∃ c, (n, s, c) ∈ raw)) ∨
    (availableData arch net sta component = .error .fileNotFoundError ∧ sta = .one c!"*" ∧
      ∃ ns n, net = .many ns ∧ n ∈ ns ∧ ∀ d ∈ arch, fnmatch d.net n = false) := by
  rcases requestPairs_spec arch hp net sta hdoc hs with ⟨pairs, h1, h2⟩ | ⟨h1, h2⟩
  · left
    let g : Str × StaElem → List RawChan := fun p => match p.2 with
      | .code s => translateWildcards arch p.1 s component
      | .pair _ _ => []
    let f : Str × StaElem → Except PyErr (List RawChan) := fun p => match p.2 with
      | .code s => Except.ok (translateWildcards arch p.1 s component)
      | .pair _ _ => .error .typeError
    have hm : pairs.mapM f = .ok (pairs.map g) := by
      apply mapM_ok
      rintro ⟨n, e⟩ hne
      obtain ⟨s, rfl, -⟩ := (h2 n e).1 hne
      rfl
    have hav : availableData arch net sta component = .ok (npUnique rawLe (pairs.map g).flatten,
        npUnique pairLe ((npUnique rawLe (pairs.map g).flatten).map fun d => (d.1, d.2.1))) := by
      unfold availableData
      rw [h1]
      change (do
        let l ← pairs.mapM f
        let raw := npUnique rawLe l.flatten
        pure (raw, npUnique pairLe (raw.map fun d : RawChan => (d.1, d.2.1)))) = _
      rw [hm]
      rfl
    refine ⟨_, _, hav, nodup_npUnique _ _, nodup_npUnique _ _, ?_, ?_⟩
    · intro n s c
      rw [mem_npUnique, List.mem_flatten]
      constructor
      · rintro ⟨l, hl, hx⟩
        obtain ⟨⟨pn, e⟩, hpe, rfl⟩ := List.mem_map.1 hl
        obtain ⟨ps, rfl, ha⟩ := (h2 pn e).1 hpe
        obtain ⟨d, hd, hde⟩ := List.mem_map.1 hx
        obtain ⟨hd1, hd2⟩ := List.mem_filter.1 hd
        simp only [Bool.and_eq_true] at hd2
        obtain ⟨-, hdot, htyp⟩ := hp d hd1
        rw [chanDir_chan d hdot] at hde
        simp only [Prod.mk.injEq] at hde
        obtain ⟨rfl, rfl, rfl⟩ := hde
        exact ⟨d, hd1, rfl, rfl, rfl, (chanDir_match d component hc htyp).1 hd2.2, pn, ps, ha, hd2.1.1, hd2.1.2⟩
      · rintro ⟨d, hd, rfl, rfl, rfl, hg, pn, ps, ha, m1, m2⟩
        obtain ⟨-, hdot, htyp⟩ := hp d hd
        refine ⟨g (pn, .code ps), List.mem_map.2 ⟨_, (h2 pn _).2 ⟨ps, rfl, ha⟩, rfl⟩, ?_⟩
        refine List.mem_map.2 ⟨d, List.mem_filter.2 ⟨hd, ?_⟩, by rw [chanDir_chan d hdot]⟩
        simp only [Bool.and_eq_true]
        exact ⟨⟨m1, m2⟩, (chanDir_match d component hc htyp).2 hg⟩
    · intro n s
      rw [mem_npUnique, List.mem_map]
      constructor
      · rintro ⟨⟨a, b, c⟩, hx, he⟩
        simp only [Prod.mk.injEq] at he
        obtain ⟨rfl, rfl⟩ := he
        exact ⟨c, hx⟩
      · rintro ⟨c, hx⟩
        exact ⟨(n, s, c), hx, rfl⟩
  · right
    refine ⟨?_, h2⟩
    unfold availableData
    rw [h1]
    rfl

/-- **C80** (rejected requests) Every other request with codes raises `ValueError`. -/
theorem c80_rejected (arch : List SdsDir) (net : NetArg) (sta : StaArg) (component : Str)
    (hcodes : (∃ s, sta = .one s) ∨ ∃ ss, sta = staCodes ss) (hs : NotSingle net sta)
    (hne : ∀ ns, net = .many ns → ∀ n ∈ ns, n ≠ []) (hdoc : ¬ Documented net sta) :
    availableData arch net sta component = .error .valueError := by
  have key : requestPairs arch net sta = .error .valueError := by
    unfold requestPairs
    rw [shrink_net_of net hs.1]
    rcases hcodes with ⟨s, rfl⟩ | ⟨ss, rfl⟩
    · have e : (StaArg.one s).shrink = .one s := rfl
      rw [e]
      cases net with
      | one n =>
        simp only
        rw [if_pos]
        by_contra hc
        apply hdoc
        constructor
        intro hn
        by_contra hs'
        exact hc ⟨hn, hs'⟩
      | many ns =>
        simp only
        rw [if_neg]
        rintro rfl
        exact hdoc (.wildcard (hne ns rfl))
    · have hl : ss.length ≠ 1 := by
        intro hl
        obtain ⟨x, rfl⟩ := List.length_eq_one_iff.1 hl
        exact hs.2 (.code x) rfl
      rw [shrink_sta_codes ss hl]
      cases net with
      | one n => exact absurd .oneNet hdoc
      | many ns =>
        unfold staCodes
        simp only [List.length_map]
        rw [if_pos]
        intro h
        exact hdoc (.zip h)
  unfold availableData
  rw [key]
  rfl

/-- **C80** (lists with one entry) A list with one entry is the same as its entry. -/
theorem c80_single (arch : List SdsDir) (net : NetArg) (sta : StaArg) (component n s : Str) :
    availableData arch (.many [n]) sta component = availableData arch (.one n) sta component ∧
    availableData arch net (staCodes [s]) component = availableData arch net (.one s) component :=
  ⟨rfl, rfl⟩

/-- an archive with two years, two stations, and an unrelated one -/
def exampleArchive : List SdsDir := [⟨c!"2020", c!"AA", c!"S1", c!"HHZ", c!"D"⟩, ⟨c!"2021", c!"AA", c!"S1", c!"HHZ", c!"D"⟩,
  ⟨c!"2020", c!"AA", c!"S2", c!"HHN", c!"D"⟩, ⟨c!"2020", c!"BB", c!"S1", c!"HHZ", c!"D"⟩]

example : availableData exampleArchive (.one c!"AA") (staCodes [c!"S2", c!"S1"]) c!"?" =
    .ok ([(c!"AA", c!"S1", c!"HHZ"), (c!"AA", c!"S2", c!"HHN")], [(c!"AA", c!"S1"), (c!"AA", c!"S2")]) := by rfl

example : ProperArchive exampleArchive ∧ Documented (.one c!"AA") (staCodes [c!"S2", c!"S1"]) ∧
    NotSingle (.one c!"AA") (staCodes [c!"S2", c!"S1"]) := by
  refine ⟨by unfold ProperArchive; decide, .oneNet, ?_, ?_⟩
  · intro n h; cases h
  · intro e h; cases h

example : availableData exampleArchive (.many [c!"AA", c!"XX"]) (.one c!"*") c!"Z" = .error .fileNotFoundError := by rfl

example : availableData exampleArchive (.many [c!"AA", c!"BB"]) (.one c!"S1") c!"Z" = .error .valueError := by rfl

/-! ### C91: the options of the user -/

/-- **C91** (what holds) Unless one network and a list of stations are given, the
constructor leaves the options as they are.
Missing for the full property: `c91_options_violated`. -/
theorem c91_options_partial (network : NetArg) (station : StaArg)
    (h : (∃ ns : List Str, network = .many ns ∧ ns.length ≠ 1) ∨ (∃ s, station = .one s) ∨ ∃ e, station = .many [e]) :
    stationOptionAfter network station = station := by
  unfold stationOptionAfter
  rcases h with ⟨ns, rfl, h⟩ | ⟨s, rfl⟩ | ⟨e, rfl⟩
  · have : NetArg.shrink (.many ns) = .many ns := by
      apply shrink_net_of
      rintro n hn
      cases hn
      exact h rfl
    rw [this]
  · split
    · next h => cases h
    · rfl
  · split
    · next h => cases h; rfl
    · rfl

/-- **C91** is violated: with one network and a list of at least two stations the list in
the options is overwritten, and a second `Correlator` made from the same options fails
with `TypeError`. -/
theorem c91_options_violated (arch : List SdsDir) (n s1 s2 : Str) (ss : List Str) (component : Str) :
    stationOptionAfter (.one n) (staCodes (s1 :: s2 :: ss)) ≠ staCodes (s1 :: s2 :: ss) ∧
    availableData arch (.one n) (stationOptionAfter (.one n) (staCodes (s1 :: s2 :: ss))) component =
      .error .typeError := by
  constructor
  · intro h
    simp [stationOptionAfter, NetArg.shrink, staCodes] at h
  · rfl

/-! ### C89: combinations of stations -/

theorem name_iff (x y : Str × Str) (e : Str × Str) :
    e = (dash (sortComb x.1 x.2 y.1 y.2 [] []).1, dash (sortComb x.1 x.2 y.1 y.2 [] []).2.1) ↔ StationName x y e := by
  rw [sortComb_eq]
  unfold StationName
  simp only [List.append_nil]
  by_cases h : x.1 ++ x.2 ≤ y.1 ++ y.2
  · simp [h, dash]
  · simp [h, dash]

/-- **C89** For every list of stations and every documented method, without a list of
requested combinations: the listed combinations are exactly the alphabetical names of
the pairs of stations that the method combines. -/
theorem c89_combinations (stations : List (Str × Str)) (method : Str) (hm : method ∈ methods) :
    ∃ out, networkStationCombis stations method none = .ok out ∧
      ∀ e, e ∈ out ↔ ∃ (i j : Nat) (x y : Str × Str), stations[i]? = some x ∧ stations[j]? = some y ∧
        StationsSelected method i j x y ∧ StationName x y e := by
  have hget : ∀ (i : Nat) x, stations[i]? = some x → stations.getD i ([], []) = x := by
    intro i x h; simp [List.getD, h]
  have hlt : ∀ i : Nat, i < stations.length → ∃ x, stations[i]? = some x := fun i h => ⟨_, List.getElem?_eq_getElem h⟩
  have hpairs : ∀ (f : Nat → Nat) (e : Str × Str),
      e ∈ (pairsFrom stations.length f).map (fun (i, j) =>
        (dash (sortComb (stations.getD i ([], [])).1 (stations.getD i ([], [])).2 (stations.getD j ([], [])).1
            (stations.getD j ([], [])).2 [] []).1,
          dash (sortComb (stations.getD i ([], [])).1 (stations.getD i ([], [])).2 (stations.getD j ([], [])).1
            (stations.getD j ([], [])).2 [] []).2.1)) ↔
      ∃ (i j : Nat) (x y : Str × Str), stations[i]? = some x ∧ stations[j]? = some y ∧ f i ≤ j ∧ StationName x y e := by
    intro f e
    rw [List.mem_map]
    constructor
    · rintro ⟨⟨i, j⟩, hij, he⟩
      obtain ⟨h1, h2, h3⟩ := mem_pairsFrom.1 hij
      obtain ⟨x, hx⟩ := hlt i h1
      obtain ⟨y, hy⟩ := hlt j h3
      simp only [hget i x hx, hget j y hy] at he
      exact ⟨i, j, x, y, hx, hy, h2, (name_iff x y e).1 he.symm⟩
    · rintro ⟨i, j, x, y, hx, hy, h2, he⟩
      refine ⟨(i, j), mem_pairsFrom.2 ⟨(List.getElem?_eq_some_iff.1 hx).1, h2, (List.getElem?_eq_some_iff.1 hy).1⟩, ?_⟩
      simp only [hget i x hx, hget j y hy]
      exact ((name_iff x y e).2 he).symm
  simp only [methods, List.mem_cons, List.not_mem_nil, or_false] at hm
  unfold networkStationCombis StationsSelected
  rcases hm with rfl | rfl | rfl | rfl | rfl
  · refine ⟨_, rfl, ?_⟩
    intro e
    simp only [List.mem_map, List.mem_filter, if_true]
    constructor
    · rintro ⟨⟨i, j⟩, ⟨hij, hd⟩, he⟩
      obtain ⟨h1, h2, h3⟩ := mem_pairsFrom.1 hij
      obtain ⟨x, hx⟩ := hlt i h1
      obtain ⟨y, hy⟩ := hlt j h3
      simp only [hget i x hx, hget j y hy] at he hd
      refine ⟨i, j, x, y, hx, hy, ⟨h2, ?_⟩, (name_iff x y e).1 he.symm⟩
      rintro rfl
      simp at hd
    · rintro ⟨i, j, x, y, hx, hy, ⟨h2, hne⟩, he⟩
      refine ⟨(i, j), ⟨mem_pairsFrom.2 ⟨(List.getElem?_eq_some_iff.1 hx).1, h2, (List.getElem?_eq_some_iff.1 hy).1⟩, ?_⟩, ?_⟩
      · simp only [hget i x hx, hget j y hy]
        have : x.1 ≠ y.1 ∨ x.2 ≠ y.2 := by
          by_contra hc
          push Not at hc
          exact hne (Prod.ext hc.1 hc.2)
        rw [if_pos this]
      · simp only [hget i x hx, hget j y hy]
        exact ((name_iff x y e).2 he).symm
  · refine ⟨_, rfl, ?_⟩
    intro e
    have e1 : ¬ "betweenComponents".toList = "betweenStations".toList := by decide
    simp only [List.mem_map, e1, if_false, true_or, if_true]
    constructor
    · rintro ⟨x, hx, rfl⟩
      obtain ⟨i, hi⟩ := List.getElem?_of_mem hx
      exact ⟨i, i, x, x, hi, hi, rfl, Or.inl ⟨List.le_refl _, by simp [dash]⟩⟩
    · rintro ⟨i, j, x, y, hx, hy, rfl, he⟩
      rw [hx] at hy
      cases hy
      refine ⟨x, List.mem_of_getElem? hx, ?_⟩
      rcases he with ⟨-, rfl⟩ | ⟨h, -⟩
      · simp [dash]
      · exact absurd (List.le_refl _) h
  · refine ⟨_, rfl, ?_⟩
    intro e
    have e1 : ¬ "autoComponents".toList = "betweenStations".toList := by decide
    simp only [List.mem_map, e1, if_false, or_true, if_true]
    constructor
    · rintro ⟨x, hx, rfl⟩
      obtain ⟨i, hi⟩ := List.getElem?_of_mem hx
      exact ⟨i, i, x, x, hi, hi, rfl, Or.inl ⟨List.le_refl _, by simp [dash]⟩⟩
    · rintro ⟨i, j, x, y, hx, hy, rfl, he⟩
      rw [hx] at hy
      cases hy
      refine ⟨x, List.mem_of_getElem? hx, ?_⟩
      rcases he with ⟨-, rfl⟩ | ⟨h, -⟩
      · simp [dash]
      · exact absurd (List.le_refl _) h
  · refine ⟨_, rfl, ?_⟩
    intro e
    have e1 : ¬ "allSimpleCombinations".toList = "betweenStations".toList := by decide
    have e2 : ¬ ("allSimpleCombinations".toList = "betweenComponents".toList ∨
      "allSimpleCombinations".toList = "autoComponents".toList) := by decide
    simp only [e1, e2, if_false, if_true]
    exact hpairs id e
  · refine ⟨_, rfl, ?_⟩
    intro e
    have e1 : ¬ "allCombinations".toList = "betweenStations".toList := by decide
    have e2 : ¬ ("allCombinations".toList = "betweenComponents".toList ∨
      "allCombinations".toList = "autoComponents".toList) := by decide
    have e3 : ¬ "allCombinations".toList = "allSimpleCombinations".toList := by decide
    simp only [e1, e2, e3, if_false]
    refine (hpairs (fun _ => 0) e).trans ?_
    simp

example : networkStationCombis [(c!"B", c!"X"), (c!"A", c!"Y"), (c!"A", c!"Z")] c!"betweenStations" none =
    .ok [(c!"A-B", c!"Y-X"), (c!"A-B", c!"Z-X"), (c!"A-A", c!"Y-Z")] := by rfl

/-- **C89** (requested combinations) With a list of requested combinations only those are
listed whose alphabetical name is in the list. -/
theorem c89_requested (stations : List (Str × Str)) (combis : List Str) :
    ∃ out, networkStationCombis stations c!"betweenStations" (some combis) = .ok out ∧
      ∀ e, e ∈ out → e.1 ++ '.' :: e.2 ∈ combis := by
  refine ⟨_, rfl, ?_⟩
  intro e he
  simp only [List.mem_map, List.mem_filter] at he
  obtain ⟨⟨i, j⟩, ⟨-, h⟩, rfl⟩ := he
  simp only at h
  split at h
  · simpa using h
  · cases h

/-- **C89** is violated: a combination that is requested in the other order is correlated
but not listed, so its existing data are not found. -/
theorem c89_requested_violated :
    isInXcombis ⟨c!"AA", c!"S1", [], c!"HHZ", 0⟩ ⟨c!"AA", c!"S2", [], c!"HHZ", 0⟩ [c!"AA-AA.S2-S1"] = true ∧
    networkStationCombis [(c!"AA", c!"S1"), (c!"AA", c!"S2")] c!"betweenStations" (some [c!"AA-AA.S2-S1"]) = .ok [] := by
  constructor
  · decide
  · rfl

/-! ### C90: stations of requested combinations -/

theorem split_unique (c : Char) (a b a' b' : Str) (ha : c ∉ a) (ha' : c ∉ a') (h : a ++ c :: b = a' ++ c :: b') :
    a = a' ∧ b = b' := by
  induction a generalizing a' with
  | nil =>
    cases a' with
    | nil => exact ⟨rfl, by simpa using h⟩
    | cons x a' =>
      exfalso
      simp only [List.nil_append, List.cons_append, List.cons.injEq] at h
      exact ha' (by simp [h.1])
  | cons y a ih =>
    cases a' with
    | nil =>
      exfalso
      simp only [List.nil_append, List.cons_append, List.cons.injEq] at h
      exact ha (by simp [h.1])
    | cons x a' =>
      simp only [List.cons_append, List.cons.injEq] at h
      obtain ⟨rfl, h⟩ := h
      obtain ⟨rfl, rfl⟩ := ih a' (fun hm => ha (by simp [hm])) (fun hm => ha' (by simp [hm])) h
      exact ⟨rfl, rfl⟩

/-- the first pattern of `_filter_by_rcombis` -/
theorem first_match (x y : Str × Str) (n s : Str) (hx1 : ProperCode x.1) (hx2 : ProperCode x.2) (hy1 : ProperCode y.1)
    (hy2 : ProperCode y.2) (hn : ProperCode n) (hs : ProperCode s) :
    fnmatch (requestName x y) (n ++ c!"-*." ++ s ++ c!"-*") = true ↔ (n, s) = x := by
  have e : n ++ c!"-*." ++ s ++ c!"-*" = (n ++ ['-']) ++ '*' :: (('.' :: s ++ ['-']) ++ ['*']) := by simp
  have p1 : Plain (n ++ ['-']) := by
    intro c hc
    rcases List.mem_append.1 hc with hc | hc
    · exact hn.2.2 c hc
    · obtain rfl : c = '-' := by simpa using hc
      decide
  have p2 : Plain ('.' :: s ++ ['-']) := by
    intro c hc
    rcases List.mem_append.1 hc with hc | hc
    · rcases List.mem_cons.1 hc with rfl | hc
      · decide
      · exact hs.2.2 c hc
    · obtain rfl : c = '-' := by simpa using hc
      decide
  rw [e, fnmatch_plain_append _ _ _ p1]
  constructor
  · rintro ⟨v, hv, hm⟩
    obtain ⟨u, w, rfl, hw⟩ := (fnmatch_star _ _).1 hm
    obtain ⟨z, rfl⟩ := (fnmatch_prefix _ _ p2).1 hw
    unfold requestName at hv
    have h1 : x.1 ++ '-' :: (y.1 ++ '.' :: (x.2 ++ '-' :: y.2)) = n ++ '-' :: (u ++ '.' :: (s ++ '-' :: z)) := by
      simpa using hv
    obtain ⟨a1, a2⟩ := split_unique _ _ _ _ _ hx1.1 hn.1 h1
    -- the name has one dot
    have hdot : '.' ∉ u := by
      have hc := congrArg (List.count '.') a2
      simp only [List.count_append, List.count_cons, List.count_eq_zero_of_not_mem hy1.2.1,
        List.count_eq_zero_of_not_mem hx2.2.1, List.count_eq_zero_of_not_mem hy2.2.1] at hc
      apply List.count_eq_zero.1
      simp at hc
      omega
    obtain ⟨-, a4⟩ := split_unique _ _ _ _ _ hy1.2.1 hdot a2
    obtain ⟨a5, -⟩ := split_unique _ _ _ _ _ hx2.1 hs.1 a4
    exact Prod.ext a1.symm a5.symm
  · rintro rfl
    refine ⟨y.1 ++ '.' :: s ++ '-' :: y.2, by simp [requestName], ?_⟩
    refine (fnmatch_star _ _).2 ⟨y.1, '.' :: s ++ '-' :: y.2, by simp, ?_⟩
    exact (fnmatch_prefix _ _ p2).2 ⟨y.2, by simp⟩

/-- the second pattern of `_filter_by_rcombis` -/
theorem second_match (x y : Str × Str) (n s : Str) (hx1 : ProperCode x.1) (hx2 : ProperCode x.2) (hy1 : ProperCode y.1)
    (hy2 : ProperCode y.2) (hn : ProperCode n) (hs : ProperCode s) :
    fnmatch (requestName x y) (c!"*-" ++ n ++ c!".*-" ++ s) = true ↔ (n, s) = y := by
  have e : c!"*-" ++ n ++ c!".*-" ++ s = '*' :: (('-' :: n ++ ['.']) ++ '*' :: '-' :: s) := by simp
  have p1 : Plain ('-' :: n ++ ['.']) := by
    intro c hc
    rcases List.mem_append.1 hc with hc | hc
    · rcases List.mem_cons.1 hc with rfl | hc
      · decide
      · exact hn.2.2 c hc
    · obtain rfl : c = '.' := by simpa using hc
      decide
  have p2 : Plain ('-' :: s) := by
    intro c hc
    rcases List.mem_cons.1 hc with rfl | hc
    · decide
    · exact hs.2.2 c hc
  rw [e, fnmatch_star]
  constructor
  · rintro ⟨p, v, hv, hm⟩
    obtain ⟨w, rfl, hw⟩ := (fnmatch_plain_append _ _ _ p1).1 hm
    obtain ⟨q, z, rfl, hz⟩ := (fnmatch_star _ _).1 hw
    obtain rfl := (fnmatch_plain _ _ p2).1 hz
    unfold requestName at hv
    have h1 : x.1 ++ '-' :: (y.1 ++ '.' :: (x.2 ++ '-' :: y.2)) = p ++ '-' :: (n ++ '.' :: (q ++ '-' :: s)) := by
      simpa using hv
    have hc := congrArg (List.count '-') h1
    simp only [List.count_append, List.count_cons, List.count_eq_zero_of_not_mem hx1.1,
      List.count_eq_zero_of_not_mem hx2.1, List.count_eq_zero_of_not_mem hy1.1, List.count_eq_zero_of_not_mem hy2.1] at hc
    simp at hc
    have hp : '-' ∉ p := by apply List.count_eq_zero.1; omega
    have hq : '-' ∉ q := by apply List.count_eq_zero.1; omega
    obtain ⟨-, a2⟩ := split_unique _ _ _ _ _ hx1.1 hp h1
    obtain ⟨a3, a4⟩ := split_unique _ _ _ _ _ hy1.2.1 hn.2.1 a2
    obtain ⟨-, a5⟩ := split_unique _ _ _ _ _ hx2.1 hq a4
    exact Prod.ext a3.symm a5.symm
  · rintro rfl
    refine ⟨x.1, '-' :: n ++ '.' :: x.2 ++ '-' :: s, by simp [requestName], ?_⟩
    refine (fnmatch_plain_append _ _ _ p1).2 ⟨x.2 ++ '-' :: s, by simp, ?_⟩
    exact (fnmatch_star _ _).2 ⟨x.2, '-' :: s, rfl, (fnmatch_plain _ _ p2).2 rfl⟩

/-- **C90** (requests without channels) For every list of stations and every list of
requested combinations of two stations: the stations that are kept are exactly those
named in a request.
Missing: requests with channel codes, see `c90_channels_violated`. -/
theorem c90_kept_partial (stations : List (Str × Str)) (req : List ((Str × Str) × (Str × Str)))
    (hst : ∀ x ∈ stations, ProperCode x.1 ∧ ProperCode x.2)
    (hreq : ∀ r ∈ req, ProperCode r.1.1 ∧ ProperCode r.1.2 ∧ ProperCode r.2.1 ∧ ProperCode r.2.2) :
    filterByRcombis stations (some (req.map fun r => requestName r.1 r.2)) c!"betweenStations" =
      stations.filter fun x => decide (∃ r ∈ req, x = r.1 ∨ x = r.2) := by
  unfold filterByRcombis
  simp only [ne_eq, not_true, if_false]
  apply List.filter_congr
  rintro ⟨n, s⟩ hx
  obtain ⟨hn, hs⟩ := hst _ hx
  apply decide_eq_decide.2
  have hne : ∀ pat, (List.filter (fun c => fnmatch c pat) (req.map fun r => requestName r.1 r.2) ≠ []) ↔
      ∃ r ∈ req, fnmatch (requestName r.1 r.2) pat = true := by
    intro pat
    rw [ne_eq, List.filter_eq_nil_iff]
    simp
  rw [← ne_eq, ← ne_eq, hne, hne]
  constructor
  · rintro (⟨r, hr, h⟩ | ⟨r, hr, h⟩)
    · obtain ⟨r1, r2, r3, r4⟩ := hreq r hr
      exact ⟨r, hr, Or.inl ((first_match r.1 r.2 n s r1 r2 r3 r4 hn hs).1 h)⟩
    · obtain ⟨r1, r2, r3, r4⟩ := hreq r hr
      exact ⟨r, hr, Or.inr ((second_match r.1 r.2 n s r1 r2 r3 r4 hn hs).1 h)⟩
  · rintro ⟨r, hr, h | h⟩
    · obtain ⟨r1, r2, r3, r4⟩ := hreq r hr
      exact Or.inl ⟨r, hr, (first_match r.1 r.2 n s r1 r2 r3 r4 hn hs).2 h⟩
    · obtain ⟨r1, r2, r3, r4⟩ := hreq r hr
      exact Or.inr ⟨r, hr, (second_match r.1 r.2 n s r1 r2 r3 r4 hn hs).2 h⟩

example : filterByRcombis [(c!"AA", c!"S1"), (c!"AA", c!"S2"), (c!"BB", c!"S1")]
    (some [requestName (c!"AA", c!"S1") (c!"BB", c!"S1")]) c!"betweenStations" = [(c!"AA", c!"S1"), (c!"BB", c!"S1")] := by
  decide

/-- **C90** (no list, other methods) Without a list of requests or with another method all
stations are kept. -/
theorem c90_all_kept (stations : List (Str × Str)) (rcombis : Option (List Str)) (method : Str)
    (h : rcombis = none ∨ method ≠ c!"betweenStations") : filterByRcombis stations rcombis method = stations := by
  unfold filterByRcombis
  rcases h with rfl | h
  · rfl
  · cases rcombis with
    | none => rfl
    | some r => simp only; rw [if_pos h]

/-- **C90** is violated for requests with channels, which the selection of traces
understands: the second station is removed. -/
theorem c90_channels_violated :
    isInXcombis ⟨c!"AA", c!"S1", [], c!"HHZ", 0⟩ ⟨c!"BB", c!"S2", [], c!"HHZ", 0⟩ [c!"AA-BB.S1-S2.HHZ-HHZ"] = true ∧
    filterByRcombis [(c!"AA", c!"S1"), (c!"BB", c!"S2")] (some [c!"AA-BB.S1-S2.HHZ-HHZ"]) c!"betweenStations" =
      [(c!"AA", c!"S1")] := by decide

end SeisMIC
