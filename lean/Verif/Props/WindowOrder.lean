import Verif.Model.WindowOrder
import Verif.Model.Run
import Verif.Lemmas.Run
import Verif.Props.Parallel
import Verif.Props.Consume
import Verif.Props.Segments

/-!
# C202: all processes work on the same traces
-/

namespace SeisMIC

variable {α β γ : Type}

/-! ### Specification -/

/-- the spectrum of one trace alone -/
def traceSpectrum [Zero β] (td : List (List β → List β)) (pad : List β → List β) (fft : List β → List α)
    (fd : List (List α → List α)) (t : WTr β) : List α := chain fd (fft (pad (chain td t.row)))

/-- the correlation of two traces with their headers -/
def pairResult [Zero β] (td : List (List β → List β)) (pad : List β → List β) (fft : List β → List α)
    (fd : List (List α → List α)) (corr : Int → Int → List α → List α → List γ) (x y : WTr β) : TrHead × TrHead × List γ :=
  (x.head, y.head, corr x.head.start y.head.start (traceSpectrum td pad fft fd x) (traceSpectrum td pad fft fd y))

/-- a trace cut to the window, with masked samples where it has none -/
def WTr.cut (a b : Int) (t : WTr β) : WTr β := t.with (trimGap a b (t.head.start, t.data))

/-- one trace for each combination of network, station, location and channel, with samples and a channel code -/
structure OnePerChannel (st : List (WTr β)) : Prop where
  distinct : (st.map fun t => (t.head.net, t.head.sta, t.head.loc, t.head.cha)).Nodup
  samples : ∀ t ∈ st, t.data ≠ []
  channel : ∀ t ∈ st, t.head.cha ≠ []

/-- in alphabetical order of network, station and channel -/
def Alphabetical (st : List (WTr β)) : Prop := st.Pairwise fun x y => trLe x.head y.head = true

/-! ### Lemmas -/

theorem sortCodes_heads (st : List (WTr β)) : (sortCodes st).map WTr.head = isort trLe (st.map WTr.head) :=
  isort_map_of WTr.head _ trLe (fun _ _ => rfl) st

theorem sortCodes_sorted (st : List (WTr β)) : Alphabetical (sortCodes st) :=
  isort_sorted _ (fun x y h => trLe_total x.head y.head h) (fun x y z h1 h2 => trLe_trans x.head y.head z.head h1 h2) st

theorem sortCodes_self (st : List (WTr β)) (h : Alphabetical st) : sortCodes st = st := isort_eq_self _ _ h

theorem sortCodes_perm (st : List (WTr β)) : (sortCodes st).Perm st := isort_perm _ _

theorem OnePerChannel.perm {st st' : List (WTr β)} (h : OnePerChannel st) (hp : st'.Perm st) : OnePerChannel st' :=
  ⟨(hp.map _).nodup_iff.2 h.distinct, fun t ht => h.samples t (hp.mem_iff.1 ht), fun t ht => h.channel t (hp.mem_iff.1 ht)⟩

theorem OnePerChannel.sublist {st st' : List (WTr β)} (h : OnePerChannel st) (hs : st'.Sublist st) : OnePerChannel st' :=
  ⟨h.distinct.sublist (hs.map _), fun t ht => h.samples t (hs.subset ht), fun t ht => h.channel t (hs.subset ht)⟩

theorem dropUnused_sublist (combis : List (Nat × Nat)) (win : List (WTr β)) : (dropUnused combis win).Sublist win := by
  unfold dropUnused
  have h := (List.filter_sublist (p := fun i => combis.any fun p => p.1 == i || p.2 == i) (l := List.range win.length)).filterMap (fun i => win[i]?)
  rwa [filterMap_getElem?_range] at h

theorem mergeObs_self (st : List (WTr β)) (hd : (st.map WTr.id).Nodup) (hs : ∀ t ∈ st, t.data ≠ []) : mergeObs st = st := by
  have h1 : (st.filter fun t => !t.data.isEmpty) = st := by
    rw [List.filter_eq_self]
    intro t ht
    simpa using hs t ht
  have h2 : ∀ i, (st.filter fun t => t.id == i).length ≤ 1 := by
    intro i
    have := List.nodup_iff_count_le_one.1 hd i
    rwa [List.count, List.countP_map, List.countP_eq_length_filter] at this
  unfold mergeObs
  rw [h1]
  have h3 : ((isort mergeLe st).map WTr.id).eraseDups.filter (fun i => decide (1 < (st.filter fun t => t.id == i).length)) = [] := by
    rw [List.filter_eq_nil_iff]
    intro i _
    have := h2 i
    simp only [decide_eq_true_eq]
    omega
  simp only [h3, List.filterMap_nil, List.nil_append]
  rw [List.filter_eq_self]
  intro t _
  exact decide_eq_true (h2 _)

theorem mapM_congr_on {α β : Type} (l : List α) (f g : α → Except PyErr β) (h : ∀ x ∈ l, f x = g x) : l.mapM f = l.mapM g := by
  induction l with
  | nil => rfl
  | cons x l ih => rw [List.mapM_cons, List.mapM_cons, h x (by simp), ih fun y hy => h y (by simp [hy])]

/-- if all processes hold the same stream, the results are those of the pairs of traces -/
theorem windowCorrelations_same [Zero β] [AddCommMonoid α] [AddCommMonoid γ] (p : Nat) (hp : 0 < p) (fftsize width : Nat)
    (td : List (List β → List β)) (pad : List β → List β) (fft : List β → List α) (fd : List (List α → List α))
    (corr : Int → Int → List α → List α → List γ) (S : List (WTr β)) (own : Nat → List (WTr β)) (hown : ∀ r < p, own r = S)
    (combis : List (Nat × Nat)) (hc : ∀ ij ∈ combis, ij.1 < S.length ∧ ij.2 < S.length)
    (hfd : ∀ t ∈ S, (traceSpectrum td pad fft fd t).length = fftsize) (hcorr : ∀ s s' x y, (corr s s' x y).length = width) :
    windowCorrelations p fftsize width (td.map rowStep) pad fft (fd.map rowStep) corr own combis =
      .ok (combis.filterMap fun ij => (S[ij.1]?).bind fun x => (S[ij.2]?).map fun y => pairResult td pad fft fd corr x y) := by
  have e0 : own 0 = S := hown 0 hp
  set cor : List (List α) → Nat × Nat → List γ := fun B ij =>
    corr (((S.map fun t => t.head.start)[ij.1]?).getD 0) (((S.map fun t => t.head.start)[ij.2]?).getD 0) (B.getD ij.1 []) (B.getD ij.2 []) with hcor
  have key := c02_parallel_eq_serial p hp fftsize width td pad fft fd cor combis (S.map WTr.row)
    (by
      intro x hx
      obtain ⟨t, ht, rfl⟩ := List.mem_map.1 hx
      exact hfd t ht)
    (fun ij _ => hcorr _ _ _ _)
  unfold pxcorrMatrix at key
  unfold windowCorrelations
  have eB : (List.range p).mapM (fun r => rankSpectra p r fftsize (td.map rowStep) pad fft (fd.map rowStep) ((own r).map WTr.row)) =
      (List.range p).mapM (fun r => rankSpectra p r fftsize (td.map rowStep) pad fft (fd.map rowStep) (S.map WTr.row)) := by
    refine mapM_congr_on _ _ _ ?_
    intro r hr
    rw [hown r (List.mem_range.1 hr)]
  rw [eB]
  cases hB : (List.range p).mapM (fun r => rankSpectra p r fftsize (td.map rowStep) pad fft (fd.map rowStep) (S.map WTr.row)) with
  | error e =>
    rw [hB] at key
    cases key
  | ok Bs =>
    rw [hB] at key
    simp only [bind, Except.bind, pure, Except.pure, Except.ok.injEq] at key ⊢
    have eC : (List.range p).map (fun r => rankCorrelations p r width
        (fun B ij => corr ((((own r).map fun t => t.head.start)[ij.1]?).getD 0) ((((own r).map fun t => t.head.start)[ij.2]?).getD 0)
          (B.getD ij.1 []) (B.getD ij.2 [])) combis (allreduceSum Bs)) =
        (List.range p).map (fun r => rankCorrelations p r width cor combis (allreduceSum Bs)) := by
      refine List.map_congr_left ?_
      intro r hr
      rw [hown r (List.mem_range.1 hr)]
    rw [eC, key, e0]
    unfold specCorrelations
    have ez : (combis.map (cor (specSpectra td pad fft fd (S.map WTr.row)))).zip combis =
        combis.map fun ij => (cor (specSpectra td pad fft fd (S.map WTr.row)) ij, ij) := by
      clear hc key eC
      induction combis with
      | nil => rfl
      | cons c cs ih => rw [List.map_cons, List.zip_cons_cons, ih, List.map_cons]
    rw [ez, List.map_map]
    rw [← List.filterMap_eq_map]
    refine List.filterMap_congr ?_
    intro ij hij
    obtain ⟨h1, h2⟩ := hc ij hij
    simp only [Function.comp_def, hcor, specSpectra, List.getElem?_map, List.getElem?_eq_getElem h1, List.getElem?_eq_getElem h2,
      Option.map_some, Option.getD_some, Option.bind_some, List.getD_eq_getElem?_getD, pairResult, traceSpectrum]

/-- indices of combinations -/
theorem calc_bounds (fiss : Int → Str) (st : List (WTr β)) (ex : ExDict) (method : Str) (rcombis : Option (List Str)) (hm : method ∈ methods)
    (hc : ∀ t ∈ st, t.head.cha ≠ []) (combis : List (Nat × Nat))
    (h : calcCrossCombis fiss (st.map WTr.head) ex method rcombis = .ok combis) : ∀ ij ∈ combis, ij.1 < st.length ∧ ij.2 < st.length := by
  rw [calc_filter fiss _ ex method rcombis hm (fun _ a ha => by
    obtain ⟨t, ht, rfl⟩ := List.mem_map.1 ha
    exact hc t ht)] at h
  injection h with h
  intro ij hij
  rw [← h] at hij
  have := (mem_prodL _ _).1 (List.mem_filter.1 hij).1
  simpa [length_isort] using this

/-- the traces that `windowPairs` keeps -/
theorem dropUnused_heads (combis : List (Nat × Nat)) (W : List (WTr β)) :
    ((List.range (W.map WTr.head).length).filter fun i => !(((List.range (W.map WTr.head).length).filter fun i =>
      !(combis.any fun p => p.1 == i || p.2 == i)).contains i)).map (fun i => (W.map WTr.head).getD i ⟨[], [], [], [], 0⟩) =
      (dropUnused combis W).map WTr.head := by
  unfold dropUnused
  rw [List.length_map]
  have e : ((List.range W.length).filter fun i => !(((List.range W.length).filter fun i =>
      !(combis.any fun p => p.1 == i || p.2 == i)).contains i)) =
      (List.range W.length).filter fun i => combis.any fun p => p.1 == i || p.2 == i := by
    refine List.filter_congr ?_
    intro i hi
    rw [List.mem_range] at hi
    cases hb : (combis.any fun p => p.1 == i || p.2 == i) with
    | true =>
      rw [Bool.not_eq_true', ← Bool.not_eq_true, List.contains_iff_mem, List.mem_filter]
      rintro ⟨_, h⟩
      rw [hb] at h
      cases h
    | false =>
      rw [Bool.not_eq_false', List.contains_iff_mem, List.mem_filter]
      exact ⟨List.mem_range.2 hi, by rw [hb]; rfl⟩
  rw [e, List.map_filterMap, ← List.filterMap_eq_map]
  refine List.filterMap_congr ?_
  intro i hi
  have hi' := List.mem_range.1 (List.mem_filter.1 hi).1
  simp only [List.getElem?_eq_getElem hi', Option.map_some, List.getD_eq_getElem?_getD, List.getElem?_map, Option.getD_some, Function.comp_def]

theorem dropUnused_all (combis : List (Nat × Nat)) (W : List (WTr β)) :
    ((List.range (W.map WTr.head).length).filter fun i => !(combis.any fun p => p.1 == i || p.2 == i)) = [] ↔
      ¬ (dropUnused combis W).length < W.length := by
  have hl : (dropUnused combis W).length = ((List.range W.length).filter fun i => combis.any fun p => p.1 == i || p.2 == i).length := by
    unfold dropUnused
    rw [List.length_filterMap_eq_countP, List.countP_eq_length]
    intro i hi
    have hi' := List.mem_range.1 (List.mem_filter.1 hi).1
    simp [hi']
  rw [List.length_map, List.filter_eq_nil_iff, hl, not_lt]
  constructor
  · intro h
    rw [List.filter_eq_self.2]
    · simp
    · intro i hi
      have := h i hi
      cases hb : (combis.any fun p => p.1 == i || p.2 == i) with
      | true => rfl
      | false => rw [hb] at this; exact absurd rfl this
  · intro h i hi
    have h1 := (List.filter_sublist (p := fun i => combis.any fun p => p.1 == i || p.2 == i) (l := List.range W.length)).eq_of_length_le (by simpa using h)
    rw [← h1] at hi
    simp [(List.mem_filter.1 hi).2]

/-- what the window looks like before it is preprocessed: the same on all processes, with the pairs of `windowPairs` -/
theorem window_before (fiss : Int → Str) (ex : ExDict) (method : Str) (rcombis : Option (List Str)) (hm : method ∈ methods)
    (parts : List (List (WTr β))) (h1 : OnePerChannel parts.flatten) :
    ∃ (K : List (WTr β)) (combis : List (Nat × Nat)), K.Sublist (sortCodes parts.flatten) ∧ Alphabetical K ∧ OnePerChannel K ∧
      (combis ≠ [] → calcCrossCombis fiss (K.map WTr.head) ex method rcombis = .ok combis) ∧
      windowPairs fiss ex method rcombis (parts.flatten.map WTr.head) =
        .ok (combis.filterMap fun ij => (K[ij.1]?).bind fun x => (K[ij.2]?).map fun y => (x.head, y.head)) ∧
      ∀ (subdiv : Bool) (pre : List (WTr β) → Except PyErr (List (WTr β))) (a b : Int),
        windowStreams fiss ex method rcombis subdiv pre a b parts =
          if combis = [] then .ok none
          else if subdivUsed ex subdiv then
            match pre K with
            | .error .valueError => .ok none
            | .error e => .error e
            | .ok w => (calcCrossCombis fiss (w.map WTr.head) ex method rcombis).map fun c =>
                finishWindow a b (fun r => if r = 0 then sortCodes w else w) c
          else .ok (finishWindow a b (fun _ => K) combis) := by
  set W := sortCodes parts.flatten with hW
  have hWs : Alphabetical W := sortCodes_sorted _
  have hWo : OnePerChannel W := h1.perm (sortCodes_perm _)
  have hWh : isort trLe (parts.flatten.map WTr.head) = W.map WTr.head := (sortCodes_heads _).symm
  have hcalc : ∀ st : List (WTr β), OnePerChannel st → ∃ c, calcCrossCombis fiss (st.map WTr.head) ex method rcombis = .ok c := by
    intro st hst
    exact ⟨_, calc_filter fiss _ ex method rcombis hm (fun _ a ha => by
      obtain ⟨t, ht, rfl⟩ := List.mem_map.1 ha
      exact hst.channel t ht)⟩
  obtain ⟨c0, e0⟩ := hcalc W hWo
  by_cases hc0 : c0 = []
  · subst hc0
    refine ⟨W, [], List.Sublist.refl _, hWs, hWo, fun h => absurd rfl h, ?_, ?_⟩
    · unfold windowPairs
      simp only [hWh, e0, bind, Except.bind, if_pos, pure, Except.pure, List.filterMap_nil]
    · intro subdiv pre a b
      unfold windowStreams
      simp only [← hW, e0, bind, Except.bind, if_pos, pure, Except.pure]
  · set K := dropUnused c0 W with hK
    have hsub : K.Sublist W := dropUnused_sublist _ _
    have hKs : Alphabetical K := List.Pairwise.sublist hsub hWs
    have hKo : OnePerChannel K := hWo.sublist hsub
    obtain ⟨c1, e1⟩ := hcalc K hKo
    have e2 : ¬ K.length < W.length → c1 = c0 := by
      intro h
      have : K = W := hsub.eq_of_length_le (not_lt.1 h)
      rw [this, e0] at e1
      injection e1 with e1
      exact e1.symm
    have e3 : (if decide (K.length < W.length) = true then calcCrossCombis fiss (K.map WTr.head) ex method rcombis else pure c0) = .ok c1 := by
      by_cases h : K.length < W.length
      · rw [if_pos (decide_eq_true h)]; exact e1
      · rw [if_neg (by simpa using h), e2 h]; rfl
    refine ⟨K, c1, hsub, hKs, hKo, fun _ => e1, ?_, ?_⟩
    · have hb := calc_bounds fiss K ex method rcombis hm hKo.channel c1 e1
      have hget : c1.map (fun p => ((K.map WTr.head).getD p.1 ⟨[], [], [], [], 0⟩, (K.map WTr.head).getD p.2 ⟨[], [], [], [], 0⟩)) =
          c1.filterMap fun ij => (K[ij.1]?).bind fun x => (K[ij.2]?).map fun y => (x.head, y.head) := by
        rw [← List.filterMap_eq_map]
        refine List.filterMap_congr ?_
        intro ij hij
        obtain ⟨b1, b2⟩ := hb ij hij
        simp only [List.getElem?_eq_getElem b1, List.getElem?_eq_getElem b2, Option.bind_some, Option.map_some, Function.comp_def,
          List.getD_eq_getElem?_getD, List.getElem?_map, Option.getD_some]
      rw [← hget]
      unfold windowPairs
      simp only [hWh, e0, bind, Except.bind, if_neg hc0, dropUnused_heads, ← hK]
      by_cases h : K.length < W.length
      · have hp : ((List.range (W.map WTr.head).length).filter fun i => !(c0.any fun p => p.1 == i || p.2 == i)) ≠ [] :=
          fun hh => (dropUnused_all c0 W).1 hh h
        rw [if_pos hp, e1]
        rfl
      · have hp : ((List.range (W.map WTr.head).length).filter fun i => !(c0.any fun p => p.1 == i || p.2 == i)) = [] :=
          (dropUnused_all c0 W).2 h
        rw [if_neg (by rw [hp]; exact fun h => h rfl), e2 h]
        rfl
    · intro subdiv pre a b
      have hown : (fun r : Nat => dropUnused c0 (if r = 0 then sortCodes W else W)) = fun _ => K := by
        funext r
        rw [sortCodes_self W hWs, ite_self]
      have hown2 : (fun r : Nat => if r = 0 ∧ decide (K.length < W.length) = true then sortCodes K else K) = fun _ => K := by
        funext r
        rw [sortCodes_self K hKs, ite_self]
      unfold windowStreams
      simp only [← hW, e0, bind, Except.bind, if_neg hc0, sortCodes_self W hWs, ite_self, ← hK, e3, sortCodes_self K hKs]
      by_cases hc1 : c1 = []
      · rw [if_pos hc1, if_pos hc1]; rfl
      · rw [if_neg hc1, if_neg hc1]
        cases subdivUsed ex subdiv with
        | false => rfl
        | true =>
          simp only [if_true]
          cases hp : pre K with
          | error e => cases e <;> rfl
          | ok w => rfl

theorem finish_some {a b : Int} {own : Nat → List (WTr β)} {c : List (Nat × Nat)} {r : (Nat → List (WTr β)) × List (Nat × Nat)}
    (h : finishWindow a b own c = some r) : r.2 = c ∧ ∀ k, r.1 k = (mergeObs (own k)).map (WTr.cut a b) := by
  unfold finishWindow at h
  split at h
  · cases h
  · cases h
    exact ⟨rfl, fun _ => rfl⟩

theorem cut_getElem (a b : Int) (td : List (List β → List β)) [Zero β] (pad : List β → List β) (fft : List β → List α)
    (fd : List (List α → List α)) (corr : Int → Int → List α → List α → List γ) (K : List (WTr β)) (c : List (Nat × Nat)) :
    (c.filterMap fun ij => ((K.map (WTr.cut a b))[ij.1]?).bind fun x => ((K.map (WTr.cut a b))[ij.2]?).map fun y => pairResult td pad fft fd corr x y) =
      (c.filterMap fun ij => (K[ij.1]?).bind fun x => (K[ij.2]?).map fun y => (x, y)).map
        fun x => pairResult td pad fft fd corr (x.1.cut a b) (x.2.cut a b) := by
  rw [List.map_filterMap]
  refine List.filterMap_congr ?_
  intro ij _
  rw [List.getElem?_map, List.getElem?_map]
  cases K[ij.1]? <;> cases K[ij.2]? <;> rfl

/-- **C202** (data preprocessed before the windows are cut, always the case if there are no existing correlations) However the traces of a window were read by the processes, and
for every number of processes: the pairs that are correlated are those of the whole window, and what is computed for a pair
is the correlation of these two traces. -/
theorem c202_plain [Zero β] [AddCommMonoid α] [AddCommMonoid γ] (fftsize width : Nat) (a b : Int)
    (td : List (List β → List β)) (pad : List β → List β) (fft : List β → List α) (fd : List (List α → List α))
    (corr : Int → Int → List α → List α → List γ) (hfd : ∀ t : WTr β, (traceSpectrum td pad fft fd (t.cut a b)).length = fftsize)
    (hcorr : ∀ s s' x y, (corr s s' x y).length = width)
    (fiss : Int → Str) (ex : ExDict) (method : Str) (rcombis : Option (List Str)) (hm : method ∈ methods)
    (subdiv : Bool) (hsd : subdiv = true → ex = [])
    (pre : List (WTr β) → Except PyErr (List (WTr β))) (parts : List (List (WTr β))) (h1 : OnePerChannel parts.flatten) :
    ∃ pairs : List (WTr β × WTr β), (∀ x ∈ pairs, x.1 ∈ parts.flatten ∧ x.2 ∈ parts.flatten) ∧
      windowPairs fiss ex method rcombis (parts.flatten.map WTr.head) = .ok (pairs.map fun x => (x.1.head, x.2.head)) ∧
      match windowStreams fiss ex method rcombis subdiv pre a b parts with
      | .error _ => False
      | .ok none => pairs = []
      | .ok (some (own, combis)) => ∀ p, 0 < p →
        windowCorrelations p fftsize width (td.map rowStep) pad fft (fd.map rowStep) corr own combis =
          .ok (pairs.map fun x => pairResult td pad fft fd corr (x.1.cut a b) (x.2.cut a b)) := by
  obtain ⟨K, combis, hsub, hKs, hKo, hcalc, hpairs, hws⟩ := window_before fiss ex method rcombis hm parts h1
  have hmem : ∀ t ∈ K, t ∈ parts.flatten := fun t ht => (sortCodes_perm _).mem_iff.1 (hsub.subset ht)
  refine ⟨combis.filterMap fun ij => (K[ij.1]?).bind fun x => (K[ij.2]?).map fun y => (x, y), ?_, ?_, ?_⟩
  · intro x hx
    obtain ⟨ij, _, h⟩ := List.mem_filterMap.1 hx
    obtain ⟨x1, hx1, h⟩ := Option.bind_eq_some_iff.1 h
    obtain ⟨x2, hx2, h⟩ := Option.map_eq_some_iff.1 h
    subst h
    exact ⟨hmem _ (List.mem_of_getElem? hx1), hmem _ (List.mem_of_getElem? hx2)⟩
  · rw [hpairs, List.map_filterMap]
    congr 1
    refine List.filterMap_congr ?_
    intro ij _
    cases K[ij.1]? <;> cases K[ij.2]? <;> rfl
  · rw [hws]
    by_cases hc : combis = []
    · rw [if_pos hc, hc]
      rfl
    · rw [if_neg hc, if_neg (by cases subdiv <;> simp_all [subdivUsed])]
      have hb := calc_bounds fiss K ex method rcombis hm hKo.channel combis (hcalc hc)
      cases hf : finishWindow a b (fun _ => K) combis with
      | none =>
        exfalso
        unfold finishWindow at hf
        split at hf
        · next h =>
          obtain ⟨ij, rest, rfl⟩ := List.exists_cons_of_ne_nil hc
          have := (hb ij (by simp)).1
          have h' : K = [] := List.isEmpty_iff.1 h
          rw [h'] at this
          simp at this
        · cases hf
      | some r =>
        obtain ⟨own, c⟩ := r
        obtain ⟨f1, f2⟩ := finish_some hf
        simp only at f1 f2 ⊢
        subst f1
        intro p hp
        rw [windowCorrelations_same p hp fftsize width td pad fft fd corr (K.map (WTr.cut a b)) own
          (fun r _ => by rw [f2, mergeObs_self K hKo.distinct hKo.samples]) c (by simpa using hb)
          (fun t ht => by obtain ⟨u, _, rfl⟩ := List.mem_map.1 ht; exact hfd u) hcorr, cut_getElem]

/-- **C202** (windows that are preprocessed one by one) The same holds for one process, and for several if the preprocessed
window is in alphabetical order.
Missing: windows in another order, see `c202_gap_violated`. -/
theorem c202_subdiv_partial [Zero β] [AddCommMonoid α] [AddCommMonoid γ] (fftsize width : Nat) (a b : Int)
    (td : List (List β → List β)) (pad : List β → List β) (fft : List β → List α) (fd : List (List α → List α))
    (corr : Int → Int → List α → List α → List γ) (hfd : ∀ t : WTr β, (traceSpectrum td pad fft fd (t.cut a b)).length = fftsize)
    (hcorr : ∀ s s' x y, (corr s s' x y).length = width)
    (fiss : Int → Str) (ex : ExDict) (method : Str) (rcombis : Option (List Str)) (hm : method ∈ methods)
    (pre : List (WTr β) → Except PyErr (List (WTr β))) (parts : List (List (WTr β))) (h1 : OnePerChannel parts.flatten) (hex : ex ≠ [])
    (own : Nat → List (WTr β)) (combis : List (Nat × Nat))
    (hws : windowStreams fiss ex method rcombis true pre a b parts = .ok (some (own, combis))) :
    ∃ (K w : List (WTr β)) (pairs : List (WTr β × WTr β)) (c : List (Nat × Nat)), K.Sublist (sortCodes parts.flatten) ∧ pre K = .ok w ∧
      (∀ x ∈ pairs, x.1 ∈ w ∧ x.2 ∈ w) ∧ calcCrossCombis fiss (w.map WTr.head) ex method rcombis = .ok c ∧
      pairs = c.filterMap (fun ij => ((sortCodes w)[ij.1]?).bind fun x => ((sortCodes w)[ij.2]?).map fun y => (x, y)) ∧
      (OnePerChannel w → ∀ p, 0 < p → (p = 1 ∨ Alphabetical w) →
        windowCorrelations p fftsize width (td.map rowStep) pad fft (fd.map rowStep) corr own combis =
          .ok (pairs.map fun x => pairResult td pad fft fd corr (x.1.cut a b) (x.2.cut a b))) := by
  obtain ⟨K, c0, hsub, hKs, hKo, hcalc, hpairs, hws'⟩ := window_before fiss ex method rcombis hm parts h1
  rw [hws'] at hws
  split at hws
  · cases hws
  · rw [if_pos (by simp [subdivUsed, hex])] at hws
    cases hpre : pre K with
    | error e =>
      rw [hpre] at hws
      cases e <;> cases hws
    | ok w =>
      rw [hpre] at hws
      cases hcw : calcCrossCombis fiss (w.map WTr.head) ex method rcombis with
      | error e => simp only [hcw] at hws; cases hws
      | ok c =>
        simp only [hcw, Except.map, Except.ok.injEq] at hws
        obtain ⟨f1, f2⟩ := finish_some hws
        simp only at f1 f2
        subst f1
        refine ⟨K, w, _, _, hsub, hpre, ?_, hcw, rfl, ?_⟩
        · intro x hx
          obtain ⟨ij, _, h⟩ := List.mem_filterMap.1 hx
          obtain ⟨x1, hx1, h⟩ := Option.bind_eq_some_iff.1 h
          obtain ⟨x2, hx2, h⟩ := Option.map_eq_some_iff.1 h
          subst h
          exact ⟨(sortCodes_perm _).mem_iff.1 (List.mem_of_getElem? hx1), (sortCodes_perm _).mem_iff.1 (List.mem_of_getElem? hx2)⟩
        · intro hw p hp hord
          have hSo : OnePerChannel (sortCodes w) := hw.perm (sortCodes_perm _)
          have hown : ∀ r < p, own r = (sortCodes w).map (WTr.cut a b) := by
            intro r hr
            rw [f2]
            have : (if r = 0 then sortCodes w else w) = sortCodes w := by
              rcases hord with h | h
              · rw [if_pos (by omega)]
              · rw [sortCodes_self w h, ite_self]
            rw [this, mergeObs_self _ hSo.distinct hSo.samples]
          have hb := calc_bounds fiss w ex method rcombis hm hw.channel combis hcw
          rw [windowCorrelations_same p hp fftsize width td pad fft fd corr ((sortCodes w).map (WTr.cut a b)) own hown combis
            (by simpa [sortCodes, length_isort] using hb) (fun t ht => by obtain ⟨u, _, rfl⟩ := List.mem_map.1 ht; exact hfd u) hcorr, cut_getElem]

/-! ### Windows without gaps -/

/-- a trace without masked samples that begins with the window -/
structure NoGaps (a : Int) (t : WTr β) : Prop where
  start : t.head.start = a
  full : none ∉ t.data
  samples : t.data ≠ []

/-- functions of single traces as they are: lengths are kept, traces without gaps are not interpolated, the steps of the
parameter file treat each trace on its own and mask nothing -/
structure WinOps.Tracewise (o : WinOps β) : Prop where
  detrend : ∀ d, (o.detrend d).length = d.length
  taper : ∀ d, (o.taper d).length = d.length
  resp : ∀ d, (o.resp d).length = d.length
  interp : ∀ d : List (Option β), none ∉ d → o.interp d = .ok d
  steps : ∃ f : List (Option β) → List (Option β), (∀ d, none ∉ d → none ∉ f d ∧ (f d).length = d.length) ∧
    ∀ st, o.steps st = .ok (st.map fun t => ⟨t.head, f t.data⟩)

theorem unmask (d : List (Option β)) (h : none ∉ d) : ∃ e : List β, d = e.map some ∧ e.length = d.length := by
  induction d with
  | nil => exact ⟨[], rfl, rfl⟩
  | cons x d ih =>
    obtain ⟨e, he, hl⟩ := ih (fun hh => h (List.mem_cons_of_mem _ hh))
    cases x with
    | none => exact absurd List.mem_cons_self h
    | some v => exact ⟨v :: e, by rw [he]; rfl, by simp [hl]⟩

theorem splitParts_full (s : Int) (d : List β) (h : d ≠ []) : splitParts s (d.map some) = [(s, d)] := by
  induction d generalizing s with
  | nil => exact absurd rfl h
  | cons x d ih =>
    cases d with
    | nil => rfl
    | cons y d =>
      rw [List.map_cons, splitParts, ih (s + 1) (by simp)]
      simp

theorem NoGaps.mk' (a : Int) (h : TrHead) (d : List β) (hs : h.start = a) (hd : d ≠ []) : NoGaps a (⟨h, d.map some⟩ : WTr β) :=
  ⟨hs, by simp, by simpa using hd⟩

theorem with_self (t : WTr β) (d : List (Option β)) : t.with (t.head.start, d) = ⟨t.head, d⟩ := rfl

theorem splitStream_full (a : Int) (st : List (WTr β)) (h : ∀ t ∈ st, NoGaps a t) : splitStream st = st := by
  unfold splitStream
  induction st with
  | nil => rfl
  | cons t st ih =>
    rw [List.flatMap_cons, ih fun u hu => h u (List.mem_cons_of_mem _ hu)]
    have ht := h t List.mem_cons_self
    obtain ⟨e, he, hl⟩ := unmask t.data ht.full
    have hne : e ≠ [] := by
      intro h0
      rw [h0] at he
      exact ht.samples he
    rw [he, splitParts_full _ e hne]
    simp only [List.map_cons, List.map_nil, List.cons_append, List.nil_append]
    rw [with_self, ← he]

/-- changing the samples of complete traces -/
theorem complete_map (a : Int) (st : List (WTr β)) (g : List β → List β) (hg : ∀ d, (g d).length = d.length) (h : ∀ t ∈ st, NoGaps a t) :
    ∀ t ∈ st.map (fun t => t.with (t.head.start, (g (t.data.filterMap _root_.id)).map some)), NoGaps a t := by
  intro t ht
  obtain ⟨u, hu, rfl⟩ := List.mem_map.1 ht
  have h1 := h u hu
  obtain ⟨e, he, hl⟩ := unmask u.data h1.full
  rw [with_self]
  refine NoGaps.mk' a _ _ h1.start ?_
  have : u.data.filterMap _root_.id = e := by rw [he]; simp [List.filterMap_map]
  rw [this, ← List.length_pos_iff, hg, hl, List.length_pos_iff]
  exact h1.samples

theorem id_map_with (st : List (WTr β)) (g : WTr β → GapTr β) : (st.map fun t => t.with (g t)).map WTr.id = st.map WTr.id := by
  rw [List.map_map]
  rfl

theorem detrend_full (a : Int) (op : List β → List β) (t : WTr β) (h : NoGaps a t) :
    (detrendTrace op (t.head.start, t.data)).map t.with = .ok (t.with (t.head.start, (op (t.data.filterMap _root_.id)).map some)) := by
  obtain ⟨e, he, hl⟩ := unmask t.data h.full
  have hne : e ≠ [] := by
    intro h0
    rw [h0] at he
    exact h.samples he
  have hf : t.data.filterMap _root_.id = e := by rw [he]; simp [List.filterMap_map]
  rw [hf]
  unfold detrendTrace
  rw [he, splitParts_full _ e hne]
  rfl

/-- order of the codes only depends on the ids -/
theorem alphabetical_of_ids {st st' : List (WTr β)} (h : (st'.map WTr.id).Sublist (st.map WTr.id)) (hs : Alphabetical st) : Alphabetical st' := by
  have key : ∀ l : List (WTr β), Alphabetical l ↔ (l.map WTr.id).Pairwise fun x y =>
      trLe ⟨x.1, x.2.1, x.2.2.1, x.2.2.2, 0⟩ ⟨y.1, y.2.1, y.2.2.1, y.2.2.2, 0⟩ = true := by
    intro l
    rw [List.pairwise_map]
    rfl
  rw [key] at hs ⊢
  exact hs.sublist h

/-- preprocessing keeps the alphabetical order of a window whose traces have no gaps and begin together -/
theorem preprocessWin_order (o : WinOps β) (ho : o.Tracewise) (a b a0 : Int) (hab : a ≤ b) (K w : List (WTr β)) (hK : ∀ t ∈ K, NoGaps a0 t)
    (h1 : OnePerChannel K) (hs : Alphabetical K) (hw : preprocessWin o a b K = .ok w) : OnePerChannel w ∧ Alphabetical w := by
  obtain ⟨f, hf1, hf2⟩ := ho.steps
  -- detrending
  have e1 : K.mapM (fun t => (detrendTrace o.detrend (t.head.start, t.data)).map t.with) =
      .ok (K.map fun t => t.with (t.head.start, (o.detrend (t.data.filterMap _root_.id)).map some)) :=
    mapM_ok _ _ _ fun t ht => detrend_full a0 _ t (hK t ht)
  set K1 := K.map fun t => t.with (t.head.start, (o.detrend (t.data.filterMap _root_.id)).map some) with hK1
  have c1 : ∀ t ∈ K1, NoGaps a0 t := complete_map a0 K _ ho.detrend hK
  have i1 : K1.map WTr.id = K.map WTr.id := id_map_with K _
  -- gaps
  have e2 : K1.mapM (fun t => (o.interp t.data).map fun d => t.with (t.head.start, d)) = .ok K1 := by
    have := mapM_ok K1 (fun t : WTr β => (o.interp t.data).map fun d => t.with (t.head.start, d)) (fun t => t)
      (fun t ht => by rw [ho.interp _ (c1 t ht).full]; rfl)
    rwa [List.map_id'] at this
  set K2 := (K1.filter fun t => o.retain t.data.length).map fun t => t.with (t.head.start, (o.taper (t.data.filterMap _root_.id)).map some) with hK2
  have c1' : ∀ t ∈ K1.filter (fun t => o.retain t.data.length), NoGaps a0 t := fun t ht => c1 t (List.mem_filter.1 ht).1
  have c2 : ∀ t ∈ K2, NoGaps a0 t := complete_map a0 _ _ ho.taper c1'
  have i2 : (K2.map WTr.id).Sublist (K.map WTr.id) := by
    rw [hK2, id_map_with, ← i1]
    exact List.filter_sublist.map _
  have e3 : gapHandlerSt o K1 = .ok K2 := by
    unfold gapHandlerSt
    rw [e2]
    simp only [bind, Except.bind, pure, Except.pure, splitStream_full a0 K1 c1]
    rw [← hK2, mergeObs_self K2 (h1.distinct.sublist i2) fun t ht => (c2 t ht).samples]
  have hcha : ∀ l : List (WTr β), (l.map WTr.id).Sublist (K.map WTr.id) → ∀ t ∈ l, t.head.cha ≠ [] := by
    intro l hl t ht
    have := hl.subset (List.mem_map_of_mem (f := WTr.id) ht)
    obtain ⟨u, hu, he⟩ := List.mem_map.1 this
    have h2 : u.head.cha = t.head.cha := congrArg (fun x : Str × Str × Str × Str => x.2.2.2) he
    rw [← h2]
    exact h1.channel u hu
  unfold preprocessWin at hw
  rw [e1] at hw
  simp only [bind, Except.bind, e3] at hw
  split at hw
  · cases hw
    exact ⟨⟨List.nodup_nil, by simp, by simp⟩, List.Pairwise.nil⟩
  · unfold afterGaps at hw
    have e4 : isort (fun x y : WTr β => decide (x.head.start ≤ y.head.start)) (splitStream K2) = K2 := by
      rw [splitStream_full a0 K2 c2]
      refine isort_eq_self _ _ ?_
      rw [List.pairwise_iff_forall_sublist]
      intro x y hxy
      have hx := hxy.subset (show x ∈ [x, y] by simp)
      have hy := hxy.subset (show y ∈ [x, y] by simp)
      rw [(c2 x hx).start, (c2 y hy).start]
      simp
    rw [e4] at hw
    set K3 := K2.map fun t => t.with (t.head.start, (o.resp (t.data.filterMap _root_.id)).map some) with hK3
    have c3 : ∀ t ∈ K3, NoGaps a0 t := complete_map a0 K2 _ ho.resp c2
    have i3 : (K3.map WTr.id).Sublist (K.map WTr.id) := by rw [hK3, id_map_with]; exact i2
    simp only [hf2, bind, Except.bind, pure, Except.pure] at hw
    set K4 := (K3.filter fun t => o.long t.data.length).map fun t => (⟨t.head, f t.data⟩ : WTr β) with hK4
    have i4 : (K4.map WTr.id).Sublist (K.map WTr.id) := by
      refine List.Sublist.trans ?_ i3
      rw [hK4, List.map_map]
      exact List.filter_sublist.map _
    have n4 : ∀ t ∈ K4, t.data ≠ [] := by
      intro t ht
      obtain ⟨u, hu, rfl⟩ := List.mem_map.1 ht
      have hc := c3 u (List.mem_filter.1 hu).1
      have h5 := (hf1 u.data hc.full).2
      intro h0
      have h0' : f u.data = [] := h0
      rw [h0'] at h5
      exact hc.samples (List.length_eq_zero_iff.1 h5.symm)
    rw [mergeObs_self K4 (h1.distinct.sublist i4) n4] at hw
    injection hw with hw
    have iw : (w.map WTr.id).Sublist (K.map WTr.id) := by
      rw [← hw]
      refine List.Sublist.trans (List.filter_sublist.map _) ?_
      rw [id_map_with]
      exact i4
    refine ⟨⟨h1.distinct.sublist iw, ?_, hcha w iw⟩, alphabetical_of_ids iw hs⟩
    intro t ht
    rw [← hw] at ht
    obtain ⟨u, _, rfl⟩ := List.mem_map.1 (List.mem_filter.1 ht).1
    rw [← List.length_pos_iff]
    simp only [WTr.with, trimGap, List.length_map, List.length_range]
    omega

/-- **C202** (windows that are preprocessed one by one) If the traces of the window have no gaps and begin together, then every number
of processes gives the same correlations as one process.
Missing: windows with gaps, see `c202_gap_violated`. -/
theorem c202_complete_partial [Zero β] [AddCommMonoid α] [AddCommMonoid γ] (p : Nat) (hp : 0 < p) (fftsize width : Nat) (a b : Int) (hab : a ≤ b)
    (td : List (List β → List β)) (pad : List β → List β) (fft : List β → List α) (fd : List (List α → List α))
    (corr : Int → Int → List α → List α → List γ) (hfd : ∀ t : WTr β, (traceSpectrum td pad fft fd (t.cut a b)).length = fftsize)
    (hcorr : ∀ s s' x y, (corr s s' x y).length = width)
    (fiss : Int → Str) (ex : ExDict) (method : Str) (rcombis : Option (List Str)) (hm : method ∈ methods)
    (o : WinOps β) (ho : o.Tracewise) (parts : List (List (WTr β))) (h1 : OnePerChannel parts.flatten) (a0 : Int)
    (hfull : ∀ t ∈ parts.flatten, NoGaps a0 t) (own : Nat → List (WTr β)) (combis : List (Nat × Nat))
    (hws : windowStreams fiss ex method rcombis true (preprocessWin o a b) a b parts = .ok (some (own, combis))) :
    windowCorrelations p fftsize width (td.map rowStep) pad fft (fd.map rowStep) corr own combis =
      windowCorrelations 1 fftsize width (td.map rowStep) pad fft (fd.map rowStep) corr own combis := by
  by_cases hex : ex = []
  · obtain ⟨pairs, _, _, h⟩ := c202_plain fftsize width a b td pad fft fd corr hfd hcorr fiss ex method rcombis hm true (fun _ => hex)
      (preprocessWin o a b) parts h1
    rw [hws] at h
    exact (h p hp).trans (h 1 (by decide)).symm
  obtain ⟨K, w, pairs, c, hsub, hpre, _, _, _, hres⟩ := c202_subdiv_partial fftsize width a b td pad fft fd corr hfd hcorr fiss ex method
    rcombis hm (preprocessWin o a b) parts h1 hex own combis hws
  obtain ⟨hw1, hw2⟩ := preprocessWin_order o ho a b a0 hab K w
    (fun t ht => hfull t ((sortCodes_perm _).mem_iff.1 (hsub.subset ht))) ((h1.perm (sortCodes_perm _)).sublist hsub)
    ((sortCodes_sorted _).sublist hsub) hpre
  rw [hres hw1 p hp (.inr hw2), hres hw1 1 (by decide) (.inl rfl)]

/-- the station AAA has a correlation file; it contains nothing for the window -/
def anyExisting : ExDict := [(c!"XX.AAA", [(c!"XX.AAA", [])])]

/-- two stations without gaps, read by two processes -/
def fullWindow : List (WTr Int) :=
  [⟨⟨c!"XX", c!"BBB", [], c!"HHZ", 0⟩, [some 7, some 8, some 0]⟩, ⟨⟨c!"XX", c!"AAA", [], c!"HHZ", 0⟩, [some 1, some 2, some 3]⟩]

/-- the hypotheses of the theorems are met: the window, an operation that pads and transforms nothing, the product of the samples;
the streams are those of `c202_complete_partial` -/
example : OnePerChannel ((fullWindow.map fun t => [t]).flatten) ∧ (∀ t ∈ (fullWindow.map fun t => [t]).flatten, NoGaps 0 t) ∧
    (∀ t : WTr Int, (traceSpectrum [] (fun x => x) (fun x => x) [] (t.cut 0 2)).length = 3) ∧
    (∀ (s s' : Int) (x y : List Int), ((fun (_ _ : Int) (x y : List Int) => (List.range 3).map fun i => x.getD i 0 * y.getD i 0) s s' x y).length = 3) ∧
    anyExisting ≠ [] ∧ (∃ r, windowStreams (fun _ => []) anyExisting c!"betweenStations" none true
      (preprocessWin ⟨fun d => d, .ok, fun n => decide (2 ≤ n), fun _ => true, fun d => d, fun d => d, .ok⟩ 0 2) 0 2
      (fullWindow.map fun t => [t]) = .ok (some r) ∧ r.2 = [(0, 1)]) := by
  refine ⟨⟨by decide, by decide, by decide⟩, ?_, fun t => by simp [traceSpectrum, chain, WTr.row, WTr.cut, WTr.with, trimGap], by simp, by decide,
    ⟨_, rfl, by decide +kernel⟩⟩
  intro t ht
  have : t.head.start = 0 ∧ none ∉ t.data ∧ t.data ≠ [] := by
    revert t
    decide
  exact ⟨this.1, this.2.1, this.2.2⟩

/-- operations that are `WinOps.Tracewise` -/
example : (⟨fun d => d, .ok, fun n => decide (2 ≤ n), fun _ => true, fun d => d, fun d => d.map fun x => 2 * x, .ok⟩ : WinOps Int).Tracewise :=
  ⟨fun _ => rfl, fun _ => rfl, fun d => List.length_map _, fun _ _ => rfl, fun d => d, fun _ h => ⟨h, rfl⟩, fun st => by
    change Except.ok st = _
    congr 1
    exact (List.map_id' st).symm⟩

/-! ### The violation -/

/-- two stations in a window of six samples; the second one has a gap -/
def gapWindow : List (WTr Int) :=
  [⟨⟨c!"XX", c!"AAA", [], c!"HHZ", 0⟩, [some 1, some 2, some 3, some 4, some 5, some 6]⟩,
   ⟨⟨c!"XX", c!"BBB", [], c!"HHZ", 0⟩, [some 7, some 8, none, none, some 9, some 10]⟩]

/-- no detrending, tapers, responses or steps; parts with at least two samples are kept -/
def plainOps : WinOps Int := ⟨fun d => d, .ok, fun n => decide (2 ≤ n), fun _ => true, fun d => d, fun d => d, .ok⟩

/-- **C202** is violated: the second of two stations has a gap and the windows are preprocessed one by one. With two processes, what is
stored as the correlation of the stations AAA and BBB is the correlation of AAA with itself, whatever the processing; one process
computes the right one. -/
theorem c202_gap_violated [AddCommMonoid α] [AddCommMonoid γ] (fft : List Int → List α) (corr : Int → Int → List α → List α → List γ)
    (fftsize width : Nat) (hfft : ∀ x, x.length = 6 → (fft x).length = fftsize) (hcorr : ∀ s s' x y, (corr s s' x y).length = width) :
    ∃ own combis, windowStreams (fun _ => []) anyExisting c!"betweenStations" none true (preprocessWin plainOps 0 5) 0 5 (gapWindow.map fun t => [t]) =
        .ok (some (own, combis)) ∧
      windowCorrelations 2 fftsize width [] (fun x => x) fft [] corr own combis =
        .ok [(⟨c!"XX", c!"AAA", [], c!"HHZ", 0⟩, ⟨c!"XX", c!"BBB", [], c!"HHZ", 0⟩,
          corr 0 0 (fft [1, 2, 3, 4, 5, 6]) (fft [1, 2, 3, 4, 5, 6]))] ∧
      windowCorrelations 1 fftsize width [] (fun x => x) fft [] corr own combis =
        .ok [(⟨c!"XX", c!"AAA", [], c!"HHZ", 0⟩, ⟨c!"XX", c!"BBB", [], c!"HHZ", 0⟩,
          corr 0 0 (fft [1, 2, 3, 4, 5, 6]) (fft [7, 8, 0, 0, 9, 10]))] := by
  obtain ⟨own, combis, h, h0, h1, hc⟩ : ∃ own combis,
      windowStreams (fun _ => []) anyExisting c!"betweenStations" none true (preprocessWin plainOps 0 5) 0 5 (gapWindow.map fun t => [t]) =
        .ok (some (own, combis)) ∧ own 0 = gapWindow ∧ own 1 = gapWindow.reverse ∧ combis = [(0, 1)] := by
    refine ⟨_, _, rfl, ?_, ?_, ?_⟩ <;> decide +kernel
  refine ⟨own, combis, h, ?_, ?_⟩
  · subst hc
    have m0 : ownMask 2 2 0 = [true, false] := by decide
    have m1 : ownMask 2 2 1 = [false, true] := by decide
    have n0 : ownMask 1 2 0 = [true] := by decide
    have n1 : ownMask 1 2 1 = [false] := by decide
    have z1 : ∀ x : List α, x.length = fftsize → List.zipWith (· + ·) x (List.replicate fftsize 0) = x := by
      intro x hx
      refine List.ext_getElem (by simp [hx]) ?_
      intro i h1 h2
      simp
    have z2 : ∀ x : List α, x.length = fftsize → List.zipWith (· + ·) (List.replicate fftsize 0) x = x := by
      intro x hx
      refine List.ext_getElem (by simp [hx]) ?_
      intro i h1 h2
      simp
    have z3 : ∀ x : List γ, x.length = width → List.zipWith (· + ·) x (List.replicate width 0) = x := by
      intro x hx
      refine List.ext_getElem (by simp [hx]) ?_
      intro i h1 h2
      simp
    have hf := hfft [1, 2, 3, 4, 5, 6] rfl
    unfold windowCorrelations
    rw [show List.range 2 = [0, 1] from rfl]
    simp only [List.mapM_cons, List.mapM_nil, h0, h1]
    simp [rankSpectra, rankCorrelations, applyAllOwn, gapWindow, WTr.row, m0, m1, n0, n1, selectMask, assignMask, allreduceSum, matAdd,
      bind, Except.bind, pure, Except.pure, List.replicate_succ, z1 _ hf, z2 _ hf, z3 _ (hcorr _ _ _ _)]
    rw [h0]
    rfl
  · have := windowCorrelations_same 1 (by decide) fftsize width [] (fun x => x) fft [] corr gapWindow own
      (fun r hr => by obtain rfl : r = 0 := by omega
                      exact h0) combis (by rw [hc]; decide)
      (fun t ht => by
        refine hfft _ ?_
        rw [gapWindow, List.mem_cons, List.mem_singleton] at ht
        rcases ht with rfl | rfl <;> rfl) hcorr
    rw [hc] at this
    rw [hc]
    exact this

end SeisMIC
