import Verif.Model.SpecWindows
import Verif.Props.WindowOrder
import Verif.Props.Segments
import Verif.Props.Preprocess

/-!
# C214: the data of the spectra of a spectrogram
-/

namespace SeisMIC

variable {β φ σ : Type}

/-- the value of a trace at a time -/
def WTr.at (t : WTr β) (k : Int) : Option β := GapTr.at (t.head.start, t.data) k

theorem eraseDups_replicate {α : Type} [BEq α] [LawfulBEq α] (n : Nat) (i : α) : (List.replicate (n + 1) i).eraseDups = [i] := by
  rw [List.replicate_succ, List.eraseDups_cons]
  have : (List.replicate n i).filter (fun b => !b == i) = [] := by
    rw [List.filter_eq_nil_iff]
    intro x hx
    simp [List.eq_of_mem_replicate hx]
  rw [this]
  rfl

/-- the trace of a contiguous part -/
def partTr (h : TrHead) (p : Part β) : WTr β := ⟨{ h with start := p.1 }, p.2.map some⟩

theorem partsApart_pairwise (l : List (Part β)) (hl : PartsApart l) : l.Pairwise fun a b => a.1 < b.1 := by
  induction l with
  | nil => exact .nil
  | cons a l ih =>
    refine List.pairwise_cons.2 ⟨fun b hb => ?_, ih hl.tail⟩
    have := hl.lt b hb
    omega

theorem mergeObs_parts (h : TrHead) (l : List (Part β)) (hl : PartsApart l) (hne : ∀ p ∈ l, p.2 ≠ []) :
    (mergeObs (l.map (partTr h))).head? = (mergeParts l).map fun g => (⟨{ h with start := g.1 }, g.2⟩ : WTr β) := by
  match l, hl, hne with
  | [], _, _ => rfl
  | [p], _, hne =>
    rw [mergeObs_self _ (by simp) (by
      intro t ht
      simp only [List.map_cons, List.map_nil, List.mem_singleton] at ht
      subst ht
      simpa [partTr] using hne p (by simp))]
    rfl
  | p :: q :: r, hl, hne =>
    set l := p :: q :: r with hlist
    set i : Str × Str × Str × Str := (h.net, h.sta, h.loc, h.cha) with hi
    have hid : ∀ t ∈ l.map (partTr h), t.id = i := by
      intro t ht
      obtain ⟨x, _, rfl⟩ := List.mem_map.1 ht
      rfl
    have h1 : ((l.map (partTr h)).filter fun t => !t.data.isEmpty) = l.map (partTr h) := by
      rw [List.filter_eq_self]
      intro t ht
      obtain ⟨x, hx, rfl⟩ := List.mem_map.1 ht
      simpa [partTr] using hne x hx
    have hpw : l.Pairwise fun a b => a.1 < b.1 := by
      exact partsApart_pairwise l hl
    have h2 : isort mergeLe (l.map (partTr h)) = l.map (partTr h) := by
      apply isort_eq_self
      rw [List.pairwise_map]
      refine hpw.imp ?_
      intro a b hab
      unfold mergeLe
      rw [if_neg (by simp [partTr]), if_neg (by simp [partTr]), if_neg (by simp [partTr]), if_neg (by simp [partTr]),
        if_pos (show (partTr h a).head.start ≠ (partTr h b).head.start from (show a.1 ≠ b.1 by omega))]
      exact decide_eq_true (show a.1 ≤ b.1 by omega)
    have h3 : ((l.map (partTr h)).filter fun t => t.id == i) = l.map (partTr h) := by
      rw [List.filter_eq_self]
      intro t ht
      simp [hid t ht]
    have h4 : ((l.map (partTr h)).map WTr.id).eraseDups = [i] := by
      have : (l.map (partTr h)).map WTr.id = List.replicate (r.length + 1 + 1) i := by
        rw [List.eq_replicate_iff]
        refine ⟨by simp [hlist], ?_⟩
        intro b hb
        obtain ⟨t, ht, rfl⟩ := List.mem_map.1 hb
        exact hid t ht
      rw [this, eraseDups_replicate]
    unfold mergeObs
    simp only [h1, h2, h4]
    have h5 : ([i].filter fun j => decide (1 < ((l.map (partTr h)).filter fun t => t.id == j).length)) = [i] := by
      rw [List.filter_cons_of_pos]
      · rfl
      · rw [h3]; simp [hlist]
    rw [h5]
    simp only [List.filterMap_cons, List.filterMap_nil, h3]
    have h6 := mergeGaps_parts l
    obtain ⟨d, hd, -⟩ := (mergeParts_facts l hl hne).2 p (q :: r) rfl
    rw [hd] at h6 ⊢
    have h7 : (l.map (partTr h)).map (fun x => (x.head.start, x.data)) = l.map fun p => (p.1, p.2.map some) := by
      rw [List.map_map]; rfl
    have h8 : l.map (partTr h) = partTr h p :: (q :: r).map (partTr h) := rfl
    rw [h8] at h7 ⊢
    simp only [h7, h6, Option.map_some]
    rfl

theorem mapM_option_eq {α γ : Type} (g : α → Option γ) (l : List α) :
    (∀ ys, l.mapM g = some ys → ∀ x ∈ l, g x ≠ none) ∧ (l.mapM g = none → ∃ x ∈ l, g x = none) := by
  induction l with
  | nil => exact ⟨fun _ _ x hx => absurd hx List.not_mem_nil, fun h => by cases h⟩
  | cons a l ih =>
    rw [List.mapM_cons]
    cases ha : g a with
    | none => exact ⟨fun ys h => by simp at h, fun _ => ⟨a, by simp, ha⟩⟩
    | some b =>
      cases hl : l.mapM g with
      | none =>
        refine ⟨fun ys h => by simp at h, fun _ => ?_⟩
        obtain ⟨x, hx, h⟩ := ih.2 hl
        exact ⟨x, by simp [hx], h⟩
      | some ys =>
        refine ⟨fun _ _ x hx => ?_, fun h => by simp at h⟩
        rcases List.mem_cons.1 hx with rfl | hx
        · rw [ha]; simp
        · exact ih.1 ys hl x hx

theorem mapM_option_map {α γ : Type} (g : α → Option γ) (f : α → γ) (l : List α) (h : ∀ x ∈ l, g x = some (f x)) : l.mapM g = some (l.map f) := by
  induction l with
  | nil => rfl
  | cons a l ih => rw [List.mapM_cons, h a (by simp), ih fun x hx => h x (by simp [hx])]; rfl

/-- the trace whose spectra are computed, for a stream with one trace -/
theorem specTrace_one (op : List β → Option (List β)) (hop : ∀ d d', op d = some d' → d'.length = d.length) (t : WTr β) :
    ((∃ a d, RunAt (t.head.start, t.data) a d ∧ op d = none) → specTrace op [t] = none) ∧
    ((∀ a d, RunAt (t.head.start, t.data) a d → op d ≠ none) →
      specTrace op [t] = (mergeParts ((splitParts t.head.start t.data).map fun p => (p.1, (op p.2).getD p.2))).map fun g => ⟨{ t.head with start := g.1 }, g.2⟩) := by
  have hs : splitStream [t] = (splitParts t.head.start t.data).map (partTr t.head) := by
    unfold splitStream
    simp only [List.flatMap_cons, List.flatMap_nil, List.append_nil]
    rfl
  have hg : ∀ p : Part β, ((op ((partTr t.head p).data.filterMap _root_.id)).map fun d => (partTr t.head p).with ((partTr t.head p).head.start, d.map some)) =
      (op p.2).map fun d => partTr t.head (p.1, d) := by
    intro p
    have : (partTr t.head p).data.filterMap _root_.id = p.2 := by
      simp [partTr, List.filterMap_map]
    rw [this]
    rfl
  constructor
  · rintro ⟨a, d, hr, h⟩
    have hm := (mem_splitParts (t.head.start, t.data) a d).2 hr
    unfold specTrace
    rw [hs]
    split
    · rfl
    · rename_i ps hps
      exfalso
      refine (mapM_option_eq _ _).1 ps hps (partTr t.head (a, d)) (List.mem_map.2 ⟨_, hm, rfl⟩) ?_
      rw [hg]
      simp only [h, Option.map_none]
  · intro h
    have hmm := mapM_option_map (fun u : WTr β => (op (u.data.filterMap _root_.id)).map fun d => u.with (u.head.start, d.map some))
      (fun u : WTr β => u.with (u.head.start, ((op (u.data.filterMap _root_.id)).getD (u.data.filterMap _root_.id)).map some))
      ((splitParts t.head.start t.data).map (partTr t.head)) (by
        intro u hu
        obtain ⟨p, hp, rfl⟩ := List.mem_map.1 hu
        have : (partTr t.head p).data.filterMap _root_.id = p.2 := by
          simp [partTr, List.filterMap_map]
        rw [this]
        have hn := h p.1 p.2 ((mem_splitParts (t.head.start, t.data) p.1 p.2).1 hp)
        cases hv : op p.2 with
        | none => exact absurd hv hn
        | some d => rfl)
    unfold specTrace
    rw [hs, hmm]
    simp only
    have hmap : ((splitParts t.head.start t.data).map (partTr t.head)).map
        (fun u : WTr β => u.with (u.head.start, ((op (u.data.filterMap _root_.id)).getD (u.data.filterMap _root_.id)).map some)) =
        ((splitParts t.head.start t.data).map fun p => (p.1, (op p.2).getD p.2)).map (partTr t.head) := by
      rw [List.map_map, List.map_map]
      apply List.map_congr_left
      intro p _
      have : (partTr t.head p).data.filterMap _root_.id = p.2 := by
        simp [partTr, List.filterMap_map]
      simp only [Function.comp, this]
      rfl
    rw [hmap]
    obtain ⟨f1, f2, -⟩ := splitParts_facts t.head.start t.data
    have hlen : ∀ d, ((op d).getD d).length = d.length := by
      intro d
      cases hv : op d with
      | none => rfl
      | some d' => exact hop d d' hv
    apply mergeObs_parts
    · exact partsApart_map (fun d => (op d).getD d) (fun p _ => hlen p.2) f1
    · intro p hp
      obtain ⟨q, hq, rfl⟩ := List.mem_map.1 hp
      have := (f2 q hq).1
      intro hnil
      apply this
      have h' := hlen q.2
      simp only at hnil
      rw [hnil] at h'
      exact List.length_eq_zero_iff.1 h'.symm

/-- **C214** (one channel, part) A stream with one trace is skipped if and only if it has no samples or preprocessing fails for one of its contiguous parts. Otherwise windows
follow each other from the first to the last sample, and each sample of a window is missing, if it is missing in the data, or that of the contiguous part of the trace around it,
preprocessed alone. Missing: streams with several channels, see `c214_channel_violated`. -/
theorem c214_spectrum_partial (op : List β → Option (List β)) (hop : ∀ d d', op d = some d' → d'.length = d.length) (t : WTr β) (win : Nat) (hw : 0 < win) :
    (specTrace op [t] = none ↔ (∀ k, t.at k = none) ∨ ∃ a d, RunAt (t.head.start, t.data) a d ∧ op d = none) ∧
    ∀ out, specTrace op [t] = some out →
      (∃ first last, t.at first ≠ none ∧ t.at last ≠ none ∧ (∀ k, t.at k ≠ none → first ≤ k ∧ k ≤ last) ∧
        ∀ s, s ∈ (specWindows win out).map Prod.fst ↔ ∃ k : Nat, s = first + k * win ∧ s + win ≤ last) ∧
      ∀ s w, (s, w) ∈ specWindows win out → w.length = win + 1 ∧ ∀ i ≤ win, (t.at (s + i) = none → w[i]? = some none) ∧
        ∀ a d, RunAt (t.head.start, t.data) a d → a ≤ s + i → s + i < a + d.length → ∃ d' x, op d = some d' ∧ d'[(s + i - a).toNat]? = some x ∧ w[i]? = some (some x) := by
  obtain ⟨s1, s2⟩ := specTrace_one op hop t
  by_cases hfail : ∃ a d, RunAt (t.head.start, t.data) a d ∧ op d = none
  · have := s1 hfail
    exact ⟨⟨fun _ => .inr hfail, fun _ => this⟩, fun out h => by rw [this] at h; cases h⟩
  · have hok : ∀ a d, RunAt (t.head.start, t.data) a d → op d ≠ none := fun a d hr h => hfail ⟨a, d, hr, h⟩
    have hlen : ∀ d, ((op d).getD d).length = d.length := by
      intro d
      cases hv : op d with
      | none => rfl
      | some d' => exact hop d d' hv
    obtain ⟨m1, m2⟩ := merge_runs_all (t.head.start, t.data) (fun d => (op d).getD d) hlen _ rfl
    have s2 := s2 hok
    generalize mergeParts ((splitParts t.head.start t.data).map fun p => (p.1, (op p.2).getD p.2)) = r at m1 m2 s2
    constructor
    · rw [s2, Option.map_eq_none_iff, m1]
      exact ⟨.inl, fun h => h.resolve_right hfail⟩
    · intro out hout
      rw [s2] at hout
      cases r with
      | none => cases hout
      | some g =>
        obtain ⟨g1, g2, ⟨x1, g3⟩, x2, g4⟩ := m2 g rfl
        simp only [Option.map_some, Option.some.injEq] at hout
        subst hout
        have hpres : ∀ k, t.at k ≠ none → GapTr.at g k ≠ none := by
          intro k hk
          obtain ⟨x, hx⟩ := Option.ne_none_iff_exists'.1 hk
          obtain ⟨a, d, hr, hak, hd⟩ := exists_run (t.head.start, t.data) k x hx
          have hlt : (k - a).toNat < d.length := (List.getElem?_eq_some_iff.1 hd).1
          have := g1 a d hr (k - a).toNat hlt
          rw [show a + ((k - a).toNat : Int) = k by omega] at this
          rw [this, List.getElem?_eq_getElem (by rw [hlen]; exact hlt)]
          simp
        constructor
        · refine ⟨g.1, g.1 + g.2.length - 1, ?_, ?_, ?_, ?_⟩
          · intro h
            rw [g2 g.1 h] at g3; cases g3
          · intro h
            rw [g2 _ h] at g4; cases g4
          · intro k hk
            have := hpres k hk
            constructor
            · by_contra hlt
              exact this (at_before g.1 g.2 k (by omega))
            · by_contra hlt
              exact this (at_after g.1 g.2 k (by omega))
          · intro s
            unfold specWindows slideStarts
            simp only [List.map_map, List.mem_map, List.mem_range, Function.comp]
            have hw' : (0 : Int) < win := by exact_mod_cast hw
            constructor
            · rintro ⟨k, hk, rfl⟩
              refine ⟨k, rfl, ?_⟩
              have h1 : (k : Int) + 1 ≤ (g.1 + g.2.length - 1 - g.1) / win := by omega
              have h2 := Int.mul_le_of_le_ediv hw' h1
              have h3 : ((k : Int) + 1) * win = k * win + win := by ring
              omega
            · rintro ⟨k, rfl, hk⟩
              refine ⟨k, ?_, rfl⟩
              have h1 : (k : Int) + 1 ≤ (g.1 + g.2.length - 1 - g.1) / win := by
                rw [Int.le_ediv_iff_mul_le hw']
                have h3 : ((k : Int) + 1) * win = k * win + win := by ring
                omega
              omega
        · intro s w hmem
          unfold specWindows at hmem
          simp only [List.mem_map, Prod.mk.injEq] at hmem
          obtain ⟨s', -, rfl, rfl⟩ := hmem
          refine ⟨by simp, ?_⟩
          intro i hi
          rw [List.getElem?_map, List.getElem?_range (by omega), Option.map_some]
          constructor
          · intro h
            exact congrArg some (g2 _ h)
          · intro a d hr h1 h2
            cases hv : op d with
            | none => exact absurd hv (hok a d hr)
            | some d' =>
              have hlt : (s' + i - a).toNat < d'.length := by rw [hop d d' hv]; omega
              have := g1 a d hr (s' + i - a).toNat (by omega)
              rw [hv, Option.getD_some, show a + ((s' + i - a).toNat : Int) = s' + i by omega, List.getElem?_eq_getElem hlt] at this
              exact ⟨d', _, rfl, List.getElem?_eq_getElem hlt, congrArg some this⟩

/-- **C214** (series) Every spectrum of the series, with any number of processes, is that of the samples of a window of one of the streams, at the start of the window. -/
theorem c214_series (freq : List (Option β) → Option φ) (spec : List (Option β) → Option σ) (op : List β → Option (List β)) (win : Nat) (streams : List (List (WTr β)))
    (size : Nat) (f : φ) (series : List (Int × σ)) (h : spectralSeries (streams.map (specStream freq spec op win)) size = .ok (f, series)) (s : Int) (x : σ)
    (hx : (s, x) ∈ series) : ∃ st ∈ streams, ∃ out w, specTrace op st = some out ∧ (s, w) ∈ specWindows win out ∧ spec w = some x := by
  unfold spectralSeries at h
  simp only at h
  split at h
  · cases h
  · split at h
    · injection h with h
      injection h with _ h
      rw [← h, mem_isort, List.mem_flatMap] at hx
      obtain ⟨r, -, hx⟩ := hx
      unfold procSpectra windowsOf procStreams at hx
      simp only [List.mem_filterMap, List.mem_flatMap, List.mem_map, List.mem_filter] at hx
      obtain ⟨w, ⟨s0, ⟨⟨s1, n⟩, ⟨hs1, -⟩, rfl⟩, hw⟩, hspec⟩ := hx
      have hm : s1 ∈ streams.map (specStream freq spec op win) := (List.mem_zipIdx' hs1).2 ▸ List.getElem_mem _
      obtain ⟨st, hst, rfl⟩ := List.mem_map.1 hm
      refine ⟨st, hst, ?_⟩
      unfold specStream at hw
      cases ho : specTrace op st with
      | none => simp only [ho, Option.map_none, Option.getD_none] at hw; cases hw
      | some out =>
        simp only [ho, Option.map_some, Option.getD_some, List.mem_map] at hw
        obtain ⟨w', hw', rfl⟩ := hw
        simp only [Option.map_eq_some_iff, Prod.mk.injEq] at hspec
        obtain ⟨y, hy, rfl, rfl⟩ := hspec
        exact ⟨out, w'.2, rfl, hw', hy⟩
    · cases h

/-- a header of the example -/
def specHead (cha : Str) : TrHead := ⟨c!"AB", c!"S1", [], cha, 0⟩

/-- **C214** (violated: channels) Of several channels of the station only one is used, and which one depends on the gaps: without gaps the first one, but a second one with a gap
takes its place. -/
theorem c214_channel_violated :
    (specTrace some [(⟨specHead c!"HHZ", [some 1, some 2, some 3, some (4 : Int)]⟩ : WTr Int), ⟨specHead c!"HHN", [some 5, some 6, some 7, some 8]⟩]).map (specWindows 1) =
      some [(0, [some 1, some 2]), (1, [some 2, some 3]), (2, [some 3, some 4])] ∧
    (specTrace some [(⟨specHead c!"HHZ", [some 1, some 2, some 3, some (4 : Int)]⟩ : WTr Int), ⟨specHead c!"HHN", [some 5, none, some 7, some 8]⟩]).map (specWindows 1) =
      some [(0, [some 5, none]), (1, [none, some 7]), (2, [some 7, some 8])] := by
  have h1 : specTrace some [(⟨specHead c!"HHZ", [some 1, some 2, some 3, some (4 : Int)]⟩ : WTr Int), ⟨specHead c!"HHN", [some 5, some 6, some 7, some 8]⟩] =
      some ⟨specHead c!"HHZ", [some 1, some 2, some 3, some 4]⟩ := by decide +kernel
  have h2 : specTrace some [(⟨specHead c!"HHZ", [some 1, some 2, some 3, some (4 : Int)]⟩ : WTr Int), ⟨specHead c!"HHN", [some 5, none, some 7, some 8]⟩] =
      some ⟨specHead c!"HHN", [some 5, none, some 7, some 8]⟩ := by decide +kernel
  rw [h1, h2]
  exact ⟨rfl, rfl⟩

/-- a trace with a gap and a window without gaps -/
example : specTrace (fun d : List Int => some (d.map (· * 10))) [(⟨specHead c!"HHZ", [none, some 1, some 2, some 3, none, some 4]⟩ : WTr Int)] =
      some ⟨{ specHead c!"HHZ" with start := 1 }, [some 10, some 20, some 30, none, some 40]⟩ ∧
    (∀ d d' : List Int, some (d.map (· * 10)) = some d' → d'.length = d.length) := by
  refine ⟨by decide +kernel, ?_⟩
  intro d d' h
  injection h with h
  rw [← h, List.length_map]

/-- a series of two streams with two processes -/
example : spectralSeries ([[(⟨specHead c!"HHZ", [some 1, some 2, some (3 : Int)]⟩ : WTr Int)], [⟨{ specHead c!"HHZ" with start := 10 }, [some 4, some 5]⟩]].map
    (specStream (fun _ => some 'f') (fun w => some (w.filterMap id).sum) some 1)) 2 = .ok ('f', [(0, 3), (1, 5), (10, 9)]) := by decide +kernel

end SeisMIC
