import Verif.Props.AverageDv

/-! # Averages of velocity changes: order and repetition of the inputs (C218) -/

namespace SeisMIC

/-! ### order -/

theorem notNan_perm {l l' : List F} (h : l.Perm l') : (notNan l).Perm (notNan l') := h.filterMap _

theorem nanmean_perm {l l' : List F} (h : l.Perm l') : nanmean l = nanmean l' := by
  have hp := notNan_perm h
  unfold nanmean
  cases hv : notNan l with
  | nil => rw [hv] at hp; rw [List.nil_perm.1 hp]
  | cons a v =>
    rw [hv] at hp
    cases hv' : notNan l' with
    | nil => rw [hv'] at hp; cases List.perm_nil.1 hp
    | cons b w =>
      rw [hv'] at hp
      simp only [hp.sum_eq, hp.length_eq]

theorem avCode_perm {a b : Str} {l l' : List Str} (h : l.Perm l') (ha : a ∈ l) (hb : b ∈ l') : avCode a l = avCode b l' := by
  unfold avCode
  by_cases hall : ∀ c ∈ l, c = a
  · have hba : b = a := hall b (h.mem_iff.2 hb)
    subst hba
    rw [if_pos (by simpa using hall), if_pos (by simpa using fun c hc => hall c (h.mem_iff.2 hc))]
  · rw [if_neg (by simpa using hall), if_neg]
    intro hc
    have hc : ∀ c ∈ l', c = b := by simpa using hc
    exact hall fun c hcl => (hc c (h.mem_iff.1 hcl)).trans (hc a (h.mem_iff.1 ha)).symm

/-- all results are given on the same grid of times and stretches -/
def OneGrid (dvs : List Dv) : Prop :=
  ∀ d ∈ dvs, ∀ e ∈ dvs, shapeOf d.sim = shapeOf e.sim ∧ d.axis = e.axis ∧ d.valueType = e.valueType

theorem selectDvs_grid (d0 : Dv) (l : List Dv) (h : ∀ d ∈ l, shapeOf d.sim = shapeOf d0.sim ∧ d.axis = d0.axis) :
    selectDvs d0 l = if l.all (fun d => decide (d.method = d0.method)) then .ok (l.filter fun d => !d.averaged)
      else .error .typeError := by
  induction l with
  | nil => rfl
  | cons d l ih =>
    have ih := ih fun e he => h e (by simp [he])
    have hg : d.sameGrid d0 = true := by
      simp [Dv.sameGrid, (h d (by simp)).1, (h d (by simp)).2]
    unfold selectDvs
    by_cases hm : d.method = d0.method
    · rw [if_neg (not_not.2 hm), ih]
      by_cases ha : l.all (fun d => decide (d.method = d0.method)) = true
      · rw [if_pos ha, if_pos (by simp only [List.all_cons, hm, decide_true, ha, Bool.and_self])]
        cases hav : d.averaged <;> simp [hav, hg, bind, Except.bind, pure, Except.pure]
      · rw [if_neg ha, if_neg (by simp only [List.all_cons, hm, decide_true, Bool.true_and]; exact ha)]
        rfl
    · rw [if_pos hm, if_neg (by simp [hm])]
      rfl

/-- two averages agree except for the order of the scatter -/
def SameAverage : Except PyErr DvAverage → Except PyErr DvAverage → Prop
  | .ok a, .ok b => a.dv = b.dv ∧ a.nStat = b.nStat ∧
      (∀ s, a.stretches = some s → ∃ t, b.stretches = some t ∧ s.Perm t) ∧ (a.stretches = none → b.stretches = none) ∧
      (∀ s, a.corrs = some s → ∃ t, b.corrs = some t ∧ s.Perm t) ∧ (a.corrs = none → b.corrs = none)
  | .error e, .error f => e = f
  | _, _ => False

theorem all_method_perm {l l' : List Dv} (h : l.Perm l') {a b : Dv} (ha : a ∈ l) (hb : b ∈ l') :
    l.all (fun d => decide (d.method = a.method)) = l'.all (fun d => decide (d.method = b.method)) := by
  rw [Bool.eq_iff_iff]
  simp only [List.all_eq_true, decide_eq_true_eq]
  constructor
  · intro hl c hc
    exact (hl c (h.mem_iff.2 hc)).trans (hl b (h.mem_iff.2 hb)).symm
  · intro hl c hc
    exact (hl c (h.mem_iff.1 hc)).trans (hl a (h.mem_iff.1 ha)).symm

theorem meanMat_perm {l l' : List Dv} (h : l.Perm l') (m n : Nat) : meanMat l m n = meanMat l' m n := by
  unfold meanMat
  refine List.map_congr_left fun i _ => List.map_congr_left fun j _ => ?_
  exact nanmean_perm (h.map _)

theorem scatter_perm {l l' : List Dv} (h : l.Perm l') (sc : Bool) (f : Dv → List F) :
    (∀ s, (if sc then some (l.map f) else none) = some s → ∃ t, (if sc then some (l'.map f) else none) = some t ∧ s.Perm t) ∧
    ((if sc then some (l.map f) else none) = none → (if sc then some (l'.map f) else none) = none) := by
  cases sc with
  | false => simp
  | true => simpa using h.map f

/-- **C218** If all results are given on the same grid of times and stretches, the order in
which they are passed has no influence on `average_components`: similarities, values,
correlations, codes and the number of stations are the same, so are the exceptions, and the
scatter contains the same curves. Partial: without a common grid see `c218_order_violated`. -/
theorem c218_order_partial (dvs dvs' : List Dv) (hp : dvs.Perm dvs') (hg : OneGrid dvs) (sc : Bool) :
    SameAverage (averageComponents dvs sc) (averageComponents dvs' sc) := by
  cases dvs with
  | nil => rw [List.nil_perm.1 hp]; rfl
  | cons d0 rest =>
    cases dvs' with
    | nil => cases List.perm_nil.1 hp
    | cons e0 rest' =>
      have he0 : e0 ∈ d0 :: rest := hp.mem_iff.2 (by simp)
      unfold averageComponents
      simp only
      rw [selectDvs_grid d0 _ fun d hd => ⟨(hg d hd d0 (by simp)).1, (hg d hd d0 (by simp)).2.1⟩,
        selectDvs_grid e0 _ fun d hd => ⟨(hg d (hp.mem_iff.2 hd) e0 he0).1, (hg d (hp.mem_iff.2 hd) e0 he0).2.1⟩,
        ← all_method_perm hp (a := d0) (b := e0) (by simp) (by simp)]
      by_cases hm : (d0 :: rest).all (fun d => decide (d.method = d0.method)) = true
      · simp only [hm, if_true, bind, Except.bind]
        have hf : ((d0 :: rest).filter fun d => !d.averaged).Perm ((e0 :: rest').filter fun d => !d.averaged) := hp.filter _
        have hsub : ∀ d ∈ (d0 :: rest).filter (fun d => !d.averaged), d ∈ d0 :: rest := fun d hd => (List.mem_filter.1 hd).1
        have hmm : ∀ d ∈ d0 :: rest, d.method = d0.method := by simpa using hm
        generalize (d0 :: rest).filter (fun d => !d.averaged) = U at hf hsub
        generalize (e0 :: rest').filter (fun d => !d.averaged) = V at hf
        cases U with
        | nil => rw [List.nil_perm.1 hf]; rfl
        | cons u us =>
          cases V with
          | nil => cases List.perm_nil.1 hf
          | cons v vs =>
            have hu := hsub u (by simp)
            have hv := hsub v (hf.mem_iff.2 (by simp))
            obtain ⟨g1, g2, g3⟩ := hg u hu v hv
            have g4 : u.method = v.method := (hmm u hu).trans (hmm v hv).symm
            simp only [g1]
            by_cases hc : (shapeOf v.sim).2 = 0
            · simp only [hc, if_true]
              rfl
            · simp only [hc, if_false]
              refine ⟨?_, ?_, (scatter_perm hf sc _).1, (scatter_perm hf sc _).2, (scatter_perm hf sc _).1, (scatter_perm hf sc _).2⟩
              · simp only [meanMat_perm hf, g2, g3, g4,
                  avCode_perm (hf.map (·.channel)) (a := u.channel) (b := v.channel) (by simp) (by simp),
                  avCode_perm (hf.map (·.station)) (a := u.station) (b := v.station) (by simp) (by simp),
                  avCode_perm (hf.map (·.network)) (a := u.network) (b := v.network) (by simp) (by simp)]
              · refine List.map_congr_left fun i _ => ?_
                exact (hf.filter _).length_eq
      · simp only [hm, bind, Except.bind]
        rfl

/-- **C218** The memory saving variant does not depend on the order either if no input is an
average itself. -/
theorem c218_mem_save_partial (dvs dvs' : List Dv) (hp : dvs.Perm dvs') (hg : OneGrid dvs)
    (hav : ∀ d ∈ dvs, ¬ ∃ u v, d.channel ++ d.network ++ d.station = u ++ c!"av" ++ v) (sc : Bool) :
    SameAverage (averageMemSave dvs sc) (averageMemSave dvs' sc) := by
  have hav' : ∀ d ∈ dvs, d.averaged = false := by
    intro d hd
    have := hav d hd
    rw [← isSub_iff] at this
    simpa [Dv.averaged] using this
  cases dvs with
  | nil => rw [List.nil_perm.1 hp]; rfl
  | cons d0 rest =>
    cases dvs' with
    | nil => cases List.perm_nil.1 hp
    | cons e0 rest' =>
      have he0 : e0 ∈ d0 :: rest := hp.mem_iff.2 (by simp)
      unfold averageMemSave
      simp only
      rw [selectDvs_grid d0 _ fun d hd => ⟨(hg d hd d0 (by simp)).1, (hg d hd d0 (by simp)).2.1⟩,
        selectDvs_grid e0 _ fun d hd => ⟨(hg d (hp.mem_iff.2 hd) e0 he0).1, (hg d (hp.mem_iff.2 hd) e0 he0).2.1⟩,
        ← all_method_perm hp (a := d0) (b := e0) (by simp) (by simp)]
      by_cases hm : (d0 :: rest).all (fun d => decide (d.method = d0.method)) = true
      · simp only [hm, if_true, bind, Except.bind]
        have hmm : ∀ d ∈ d0 :: rest, d.method = d0.method := by simpa using hm
        have f1 : (d0 :: rest).filter (fun d => !d.averaged) = d0 :: rest :=
          List.filter_eq_self.2 fun d hd => by simp [hav' d hd]
        have f2 : (e0 :: rest').filter (fun d => !d.averaged) = e0 :: rest' :=
          List.filter_eq_self.2 fun d hd => by simp [hav' d (hp.mem_iff.2 hd)]
        rw [f1, f2]
        obtain ⟨g1, g2, g3⟩ := hg d0 (by simp) e0 he0
        have g4 : d0.method = e0.method := (hmm e0 he0).symm
        simp only [g1]
        by_cases hc : (shapeOf e0.sim).2 = 0
        · simp only [hc, if_true]
          rfl
        · simp only [hc, if_false]
          have hn : ∀ i, ((d0 :: rest).filter fun d => (d.value.getD i none).isSome).length =
              ((e0 :: rest').filter fun d => (d.value.getD i none).isSome).length := fun i => (hp.filter _).length_eq
          have hs : ∀ i j, ((d0 :: rest).map fun d => nan0 ((d.sim.getD i []).getD j none)).sum =
              ((e0 :: rest').map fun d => nan0 ((d.sim.getD i []).getD j none)).sum := fun i j => (hp.map _).sum_eq
          refine ⟨?_, ?_, (scatter_perm hp sc _).1, (scatter_perm hp sc _).2, (scatter_perm hp sc _).1, (scatter_perm hp sc _).2⟩
          · simp only [hn, hs, g2, g3, g4,
              avCode_perm (hp.map (·.channel)) (a := d0.channel) (b := e0.channel) (by simp) (by simp),
              avCode_perm (hp.map (·.station)) (a := d0.station) (b := e0.station) (by simp) (by simp),
              avCode_perm (hp.map (·.network)) (a := d0.network) (b := e0.network) (by simp) (by simp)]
          · simp only [hn]
      · simp only [hm, bind, Except.bind]
        rfl

/-- three results on one grid in two orders -/
example : let d : Dv := ⟨c!"A", c!"S", c!"Z", c!"m", c!"stretch", [1, 2], [[some (1/2), none]], [some 1], [some (1/2)]⟩
    OneGrid [d, { d with channel := c!"E", sim := [[some 0, some 1]] }, { d with channel := c!"N" }] ∧
    ∀ e ∈ [d, { d with channel := c!"E", sim := [[some 0, some 1]] }, { d with channel := c!"N" }],
      ¬ ∃ u v, e.channel ++ e.network ++ e.station = u ++ c!"av" ++ v := by
  refine ⟨?_, ?_⟩
  · unfold OneGrid; decide +kernel
  · intro d hd
    rw [← isSub_iff]
    revert d
    decide +kernel

/-- **C218** violated: if the grids differ, only the results on the grid of the first one are
averaged, so the order decides which measurements contribute -/
theorem c218_order_violated :
    let d : Dv := ⟨c!"A", c!"S", c!"Z", c!"m", c!"stretch", [1, 2], [[some (1/2), some 0]], [some 1], [some (1/2)]⟩
    let e : Dv := { d with channel := c!"E", axis := [1, 3], sim := [[some 0, some (4/5)]], value := [some 3], corr := [some (4/5)] }
    (∃ a, averageComponents [d, e] false = .ok a ∧ a.dv.value = [some 1] ∧ a.nStat = [1]) ∧
    ∃ a, averageComponents [e, d] false = .ok a ∧ a.dv.value = [some 3] ∧ a.nStat = [1] := by
  refine ⟨⟨_, rfl, ?_, ?_⟩, ⟨_, rfl, ?_, ?_⟩⟩ <;> decide +kernel

/-- **C218** The average of the results inside of a region (`average_dvs_by_coords`) does not depend on the order of the results either.
Partial: without a common grid see `c218_order_violated`. -/
theorem c218_coords_partial (dvs dvs' : List (Dv × DvPos)) (hp : dvs.Perm dvs') (hg : OneGrid (dvs.map Prod.fst)) (lat lon el : Rat × Rat) (std : Bool) :
    SameAverage (averageByCoords dvs lat lon el std) (averageByCoords dvs' lat lon el std) := by
  unfold averageByCoords selectByCoords
  simp only
  generalize (fun d : Dv × DvPos =>
    !(decide (d.1.channel = c!"av")) &&
    (decide (lat.1 ≤ d.2.stla ∧ d.2.stla ≤ lat.2) && decide (lat.1 ≤ d.2.evla ∧ d.2.evla ≤ lat.2) &&
     decide (lon.1 ≤ d.2.stlo ∧ d.2.stlo ≤ lon.2) && decide (lon.1 ≤ d.2.evlo ∧ d.2.evlo ≤ lon.2) &&
     decide (el.1 ≤ d.2.stel ∧ d.2.stel ≤ el.2) && decide (el.1 ≤ d.2.evel ∧ d.2.evel ≤ el.2))) = P
  have hf : (dvs.filter P).Perm (dvs'.filter P) := hp.filter P
  have he : (dvs.filter P).isEmpty = (dvs'.filter P).isEmpty := by
    rw [Bool.eq_iff_iff, List.isEmpty_iff_length_eq_zero, List.isEmpty_iff_length_eq_zero, hf.length_eq]
  rw [he]
  cases (dvs'.filter P).isEmpty with
  | true => rfl
  | false =>
    simp only [Bool.false_eq_true, if_false, bind, Except.bind]
    have hsub : ∀ d ∈ (dvs.filter P).map Prod.fst, d ∈ dvs.map Prod.fst := by
      intro d hd
      obtain ⟨e, he, rfl⟩ := List.mem_map.1 hd
      exact List.mem_map.2 ⟨e, (List.mem_filter.1 he).1, rfl⟩
    have := c218_order_partial _ _ (hf.map Prod.fst) (fun d hd e he => hg d (hsub d hd) e (hsub e he)) std
    cases h1 : averageComponents ((dvs.filter P).map Prod.fst) std with
    | error e =>
      rw [h1] at this
      cases h2 : averageComponents ((dvs'.filter P).map Prod.fst) std with
      | error f => rw [h2] at this; exact this
      | ok b => rw [h2] at this; exact this.elim
    | ok a =>
      rw [h1] at this
      cases h2 : averageComponents ((dvs'.filter P).map Prod.fst) std with
      | error f => rw [h2] at this; exact this.elim
      | ok b =>
        rw [h2] at this
        obtain ⟨t1, t2⟩ := this
        exact ⟨by simp only [t1], t2⟩

/-! ### repetition -/

theorem notNan_replicate (n : Nat) (x : F) : notNan (List.replicate n x) = match x with | none => [] | some y => List.replicate n y := by
  cases x with
  | none => simp [notNan]
  | some y => simp [notNan]

theorem nanmean_replicate (n : Nat) (x : F) : nanmean (List.replicate (n + 1) x) = x := by
  unfold nanmean
  rw [notNan_replicate]
  cases x with
  | none => rfl
  | some y =>
    simp only [List.replicate_succ]
    rw [← List.replicate_succ]
    congr 1
    have : ((n + 1 : Nat) : Rat) ≠ 0 := by positivity
    simp only [List.sum_replicate, List.length_replicate, nsmul_eq_mul]
    field_simp

theorem avCode_replicate (n : Nat) (c : Str) : avCode c (List.replicate n c) = c := by
  unfold avCode
  rw [if_pos (by simp)]

/-- **C218** The average of any number of copies of one result has its similarities and its
codes, the same value and correlation at each time for any number of copies, and counts a
copy wherever the correlation is defined. -/
theorem c218_copies (d : Dv) (n : Nat) (hav : ¬ ∃ u v, d.channel ++ d.network ++ d.station = u ++ c!"av" ++ v)
    (hrow : ∀ row ∈ d.sim, row.length = (shapeOf d.sim).2) (hne : (shapeOf d.sim).2 ≠ 0) :
    ∃ a a1, averageComponents (List.replicate (n + 1) d) false = .ok a ∧ averageComponents [d] false = .ok a1 ∧
      a.dv = a1.dv ∧ a.dv.sim = d.sim ∧ a.dv.axis = d.axis ∧
      a.dv.network = d.network ∧ a.dv.station = d.station ∧ a.dv.channel = d.channel ∧
      (∀ (i : Nat) (row : List F), d.sim[i]? = some row → ∃ c, a.dv.corr[i]? = some c ∧ Spec.NanMax row c) ∧
      ∀ i : Nat, i < d.sim.length → a.nStat[i]? = some (if (d.corr.getD i none).isSome then n + 1 else 0) := by
  have hav' : d.averaged = false := by
    rw [← isSub_iff] at hav
    simpa [Dv.averaged] using hav
  have hmean : ∀ k, meanMat (List.replicate (k + 1) d) (shapeOf d.sim).1 (shapeOf d.sim).2 = d.sim := by
    intro k
    unfold meanMat
    simp only [List.map_replicate, nanmean_replicate]
    apply List.ext_getElem
    · simp [shapeOf]
    · intro i h1 h2
      have hl := hrow d.sim[i] (List.getElem_mem h2)
      apply List.ext_getElem
      · simp [hl]
      · intro j g1 g2
        simp [List.getD_eq_getElem?_getD, h2, g2]
  have key : ∀ k, ∃ a, averageComponents (List.replicate (k + 1) d) false = .ok a ∧
      a.dv = { d with corr := (d.sim.map (bestOfRow d.axis)).map Prod.fst, value := (d.sim.map (bestOfRow d.axis)).map Prod.snd } ∧
      a.nStat = (List.range (shapeOf d.sim).1).map fun i => ((List.replicate (k + 1) d).filter fun d => (d.corr.getD i none).isSome).length := by
    intro k
    have hsel : selectDvs d (List.replicate (k + 1) d) = .ok (List.replicate (k + 1) d) := by
      rw [selectDvs_grid d _ fun e he => by rw [List.eq_of_mem_replicate he]; exact ⟨rfl, rfl⟩, if_pos]
      · rw [List.filter_eq_self.2]
        intro e he
        rw [List.eq_of_mem_replicate he, hav']
        rfl
      · simp
    have hcons : List.replicate (k + 1) d = d :: List.replicate k d := rfl
    unfold averageComponents
    rw [hcons]
    simp only
    rw [← hcons, hsel]
    simp only [bind, Except.bind]
    rw [hcons]
    simp only [hne, if_false]
    refine ⟨_, rfl, ?_, rfl⟩
    rw [← hcons, hmean k]
    simp only [List.map_replicate, avCode_replicate]
  obtain ⟨a, h1, h2, h3⟩ := key n
  obtain ⟨a1, g1, g2, g3⟩ := key 0
  refine ⟨a, a1, h1, g1, h2.trans g2.symm, by rw [h2], by rw [h2], by rw [h2], by rw [h2], by rw [h2], ?_, ?_⟩
  · intro i row hi
    refine ⟨nanmax row, ?_, nanmax_spec row⟩
    rw [h2]
    simp [hi, bestOfRow]
  · intro i hi
    rw [h3]
    cases hc : (d.corr.getD i none).isSome with
    | true =>
      rw [List.getElem?_map, List.getElem?_range (by simpa [shapeOf] using hi)]
      simp only [Option.map_some]
      rw [List.filter_eq_self.2 (fun e he => by rw [List.eq_of_mem_replicate he]; exact hc)]
      simp
    | false =>
      rw [List.getElem?_map, List.getElem?_range (by simpa [shapeOf] using hi)]
      simp only [Option.map_some]
      rw [List.filter_eq_nil_iff.2 (fun e he => by rw [List.eq_of_mem_replicate he, hc]; simp)]
      simp

/-- a result that satisfies the hypotheses -/
example : let d : Dv := ⟨c!"A", c!"S", c!"Z", c!"m", c!"stretch", [1, 2], [[some (1/2), none], [none, none]], [some 1, none], [some (1/2), none]⟩
    (¬ ∃ u v, d.channel ++ d.network ++ d.station = u ++ c!"av" ++ v) ∧
    (∀ row ∈ d.sim, row.length = (shapeOf d.sim).2) ∧ (shapeOf d.sim).2 ≠ 0 := by
  refine ⟨?_, ?_, ?_⟩
  · rw [← isSub_iff]; decide +kernel
  · decide +kernel
  · decide +kernel

end SeisMIC
