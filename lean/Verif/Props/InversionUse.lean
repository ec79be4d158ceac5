import Verif.Props.InversionRun

/-!
# C138, C58: what an inversion of curves fits, and the stations that it adds to the grid
-/

namespace SeisMIC

open Matrix

/-! ### Specification -/

/-- the key of the kernel of a measurement: both stations on the grid and the centre of the lapse time window -/
def kernelKey (g : Geo) (tw : Rat × Rat) (d : Datum) : KKey :=
  ((g.east d.stat0.2, g.north d.stat0.1), (g.east d.stat1.2, g.north d.stat1.1), (tw.1 + tw.2) / 2)

/-- the time and the curves of a call -/
def GridCall.input : GridCall → Int × List Curve
  | .dvGrid _ _ _ utc curves => (utc, curves)
  | .resolution _ _ utc curves => (utc, curves)
  | .posterior _ _ utc curves => (utc, curves)
  | .tsvd _ _ utc curves => (utc, curves)

/-! ### Best fit -/

/-- **C138** (best fit). The velocity changes that are returned for some curves and a time, whatever was done with the grid before, are the ones that fit the measurements best: each
curve that has a valid measurement at the time contributes the value there, predicted with the kernel of its two stations, with a standard deviation from its coherence; no other model of
the form `C w` has a smaller sum of misfit and a-priori cost, and those with the same sum are equal. -/
theorem c138_best_fit (env : GridEnv) (calls : List GridCall) (cm : CmArgs) (hL : 0 < cm.corrLen) (args : InvArgs) (utc : Int) (curves : List Curve)
    (hc : ∀ c ∈ curves, c.Complete) (hn : ∃ c ∈ curves, ∃ d, Contributes utc c d) (hpos : ∀ c ∈ curves, env.geo.Accepts [c.stat0, c.stat1])
    (hk : ∀ key, ∃ k, env.kern key = .ok k) (hset : ∀ c ∈ curves, ∃ t, invSettings args c.proc = .ok t ∧ ValidSettings t) :
    ∃ (rows : List (List Rat × Datum)) (tw : Rat × Rat) (f0 f1 : Rat), Collects utc curves (rows.map Prod.snd) ∧
      (∃ d, rows.getLast?.map Prod.snd = some d ∧ invSettings args d.proc = .ok (tw, f0, f1)) ∧
      (∀ r ∈ rows, env.kern (kernelKey env.geo tw r.2) = .ok r.1) ∧
      ∃ (m : Fin env.cells.length → ℝ) (σ : Fin rows.length → ℝ) (w : Fin env.cells.length → ℝ),
        (∀ b, (dvGridCall env (afterCalls env calls) b cm args utc curves).1 = .ok m) ∧
        (∀ i, dataVariance (rows.get i).2.corr ((f1 : ℝ) - f0) ((tw.1 : ℝ), (tw.2 : ℝ)) (((f1 : ℝ) + f0) / 2) = .ok (σ i)) ∧
        let C := modelCovariance (cm.scaling : ℝ) cm.corrLen cm.stdModel (cellPos env.cells)
        let G : Matrix (Fin rows.length) (Fin env.cells.length) ℝ := Matrix.of fun i k => (((rows.get i).1.getD k 0 : Rat) : ℝ)
        let vals : Fin rows.length → ℝ := fun i => ((rows.get i).2.val : ℝ)
        m = C *ᵥ w ∧ ∀ w', misfit G σ vals m + priorCost C w ≤ misfit G σ vals (C *ᵥ w') + priorCost C w' ∧
          (misfit G σ vals (C *ᵥ w') + priorCost C w' ≤ misfit G σ vals m + priorCost C w → C *ᵥ w' = m) := by
  obtain ⟨⟨data, st, proc⟩, hr⟩ := c62_succeeds env.geo List.eraseDups (fun l => ⟨nodup_eraseDups _, fun p => List.mem_eraseDups⟩) none utc curves hc hn hpos
  have hcol := (c62_used _ _ _ _ _ _ _ _ hr).1
  have hu := usedData_extractInfo _ _ _ _ _ hr
  simp only at hu
  have hmem := usedData_mem _ _ _ _ _ hu
  obtain ⟨sel, h1, h2, ⟨d, h3, h4⟩, h5, h6⟩ := (usedData_ok _ _ _ _ _).1 hu
  obtain ⟨c, hcm, hcd⟩ := hmem d (List.mem_of_getLast? h3)
  obtain ⟨t, ht1, ht2⟩ := hset c hcm
  have hpc : c.proc = proc := by rw [← hcd.2.2.2.2.2.2, h4]
  rw [hpc] at ht1
  obtain ⟨tw, f0, f1⟩ := t
  have hrows : data.mapM (kernelOf env ((tw.1 + tw.2) / 2)) = .ok (data.map fun d => (kernelOf env ((tw.1 + tw.2) / 2) d).toOption.getD []) :=
    mapM_ok _ _ _ fun x _ => by
      obtain ⟨k, hk⟩ := hk ((env.geo.east x.stat0.2, env.geo.north x.stat0.1), (env.geo.east x.stat1.2, env.geo.north x.stat1.1), (tw.1 + tw.2) / 2)
      unfold kernelOf
      rw [hk]
      rfl
  have hp : preparedOf env args utc curves = .ok ⟨(data.map fun d => (kernelOf env ((tw.1 + tw.2) / 2) d).toOption.getD []).zip data, tw, f0, f1⟩ := by
    unfold preparedOf
    rw [hu]
    simp only
    rw [ht1]
    simp only
    rw [kernelsOf_eq env data _ h5 h6, hrows]
    rfl
  have hcorr : ∀ x ∈ (data.map fun d => (kernelOf env ((tw.1 + tw.2) / 2) d).toOption.getD []).zip data, 0 < x.2.corr ∧ x.2.corr < 1 := fun x hx => by
    obtain ⟨c', -, h7⟩ := hmem x.2 (List.of_mem_zip hx).2
    have := h7.2.2.1
    exact ⟨by linarith, h7.2.2.2.1⟩
  have hmz : ((data.map fun d => (kernelOf env ((tw.1 + tw.2) / 2) d).toOption.getD []).zip data).map Prod.snd = data := List.map_snd_zip (by simp)
  have hkey : ∀ r ∈ (data.map fun d => (kernelOf env ((tw.1 + tw.2) / 2) d).toOption.getD []).zip data, env.kern (kernelKey env.geo tw r.2) = .ok r.1 := by
    intro r hr
    obtain ⟨i, hi, rfl⟩ := List.mem_iff_getElem.1 hr
    have hi' : i < data.length := by simpa using hi
    rw [List.getElem_zip, List.getElem_map]
    obtain ⟨k, hk⟩ := hk (kernelKey env.geo tw data[i])
    have : kernelOf env ((tw.1 + tw.2) / 2) data[i] = .ok k := hk
    rw [this, hk]
    rfl
  generalize (data.map fun d => (kernelOf env ((tw.1 + tw.2) / 2) d).toOption.getD []).zip data = rows at hp hcorr hmz hkey
  obtain ⟨m, D, hcov, hinv, g1, -⟩ := calls_of_prepared env calls cm hL args utc curves _ hp ht2 hcorr
  simp only at D hcov hinv
  refine ⟨rows, tw, f0, f1, ?_, ⟨d, ?_, ?_⟩, hkey, ?_⟩
  · rw [hmz]; exact hcol
  · rw [← List.getLast?_map, hmz]; exact h3
  · rw [h4]; exact ht1
  obtain ⟨σ, w, k1, k2, k3⟩ := c97_inversion (kernelMatrix env.cells.length rows) (cellPos env.cells) (cm.scaling : ℝ) (cm.corrLen : ℝ) (cm.stdModel : ℝ) (f0 : ℝ)
    (f1 : ℝ) ((tw.1 : ℝ), (tw.2 : ℝ)) (rowCorrs rows) (datumVals rows) (by exact_mod_cast hL) ht2.variance (fun i => by
      obtain ⟨a, b⟩ := hcorr _ (List.get_mem rows i)
      constructor
      · unfold rowCorrs; exact_mod_cast a
      · unfold rowCorrs; exact_mod_cast b)
  have hm : m = modelCovariance (cm.scaling : ℝ) cm.corrLen cm.stdModel (cellPos env.cells) *ᵥ w := by
    unfold computeDvGrid at k2
    unfold covariances at hcov
    simp only at hcov
    cases hd : dataCovariance (rowCorrs rows) (f0 : ℝ) (f1 : ℝ) ((tw.1 : ℝ), (tw.2 : ℝ)) with
    | error e => rw [hd] at k2; cases k2
    | ok d' =>
      rw [hd] at k2 hcov
      simp only [bind, Except.bind, pure, Except.pure, Except.ok.injEq, Prod.mk.injEq, true_and] at k2 hcov
      subst hcov
      rw [hinv] at k2
      exact Except.ok.inj k2
  refine ⟨m, σ, w, g1, k1, hm, fun w' => ?_⟩
  rw [hm]
  exact k3 w'

example : (exampleCurve 0 1 (some exampleProc)).Complete ∧ (∃ d, Contributes 5 (exampleCurve 0 1 (some exampleProc)) d) ∧
    oneCell.geo.Accepts [(exampleCurve 0 1 (some exampleProc)).stat0, (exampleCurve 0 1 (some exampleProc)).stat1] ∧ (∀ key, ∃ k, oneCell.kern key = .ok k) ∧
    ∃ t, invSettings ⟨none, none, none⟩ (exampleCurve 0 1 (some exampleProc)).proc = .ok t ∧ ValidSettings t := by
  have h : extractOne 5 (exampleCurve 0 1 (some exampleProc)) = .ok (some ⟨1, 1 / 2, (1, 1), (2, 2), some exampleProc⟩) := by decide +kernel
  refine ⟨?_, ⟨_, (extractOne_some _ _ _).1 h⟩, ?_, fun key => ⟨_, rfl⟩, ((10, 20), 1 / 2, 1), by decide +kernel, by norm_num, by norm_num, by norm_num, by norm_num⟩
  · unfold Curve.Complete exampleCurve
    simp
  · unfold Geo.Accepts exampleCurve oneCell
    simp

/-! ### Stations -/

theorem runCall_stations (env : GridEnv) (s : GridState env.cells.length) (c : GridCall) :
    (runCall env s c).2.stations = (extractSt env s.stations c.input.1 c.input.2).2 ∧
    ((∃ a, (runCall env s c).1 = .ok a) → ∃ r, (extractSt env s.stations c.input.1 c.input.2).1 = .ok r) := by
  have key : ∀ args utc curves, ∃ r s1, prepare env s args utc curves = (r, s1) ∧ s1.stations = (extractSt env s.stations utc curves).2 ∧
      ((∃ p, r = .ok p) → ∃ q, (extractSt env s.stations utc curves).1 = .ok q) := by
    intro args utc curves
    refine ⟨(prepare env s args utc curves).1, (prepare env s args utc curves).2, rfl, ?_⟩
    unfold prepare
    generalize extractSt env s.stations utc curves = o
    obtain ⟨r, st⟩ := o
    cases r with
    | error e => exact ⟨rfl, fun ⟨p, h⟩ => by cases h⟩
    | ok dp =>
      simp only
      cases invSettings args dp.2 with
      | error e => exact ⟨rfl, fun _ => ⟨_, rfl⟩⟩
      | ok t => exact ⟨rfl, fun _ => ⟨_, rfl⟩⟩
  cases c with
  | dvGrid r cm args utc curves =>
    obtain ⟨p, s1, e1, hs, hok⟩ := key args utc curves
    unfold runCall dvGridCall GridCall.input
    simp only [e1]
    cases p with
    | error e => exact ⟨hs, fun ⟨a, h⟩ => by cases h⟩
    | ok p =>
      refine ⟨?_, fun _ => hok ⟨p, rfl⟩⟩
      simp only
      split
      · exact hs
      · split
        · exact hs
        · split
          · split
            · exact hs
            · exact hs
          · exact hs
  | resolution cm args utc curves =>
    obtain ⟨p, s1, e1, hs, hok⟩ := key args utc curves
    unfold runCall resolutionCall GridCall.input
    simp only [e1]
    cases p with
    | error e => exact ⟨hs, fun ⟨a, h⟩ => by cases h⟩
    | ok p =>
      refine ⟨?_, fun _ => hok ⟨p, rfl⟩⟩
      simp only
      split
      · exact hs
      · split
        · exact hs
        · exact hs
  | posterior cm args utc curves =>
    obtain ⟨p, s1, e1, hs, hok⟩ := key args utc curves
    unfold runCall posteriorCall GridCall.input
    simp only [e1]
    cases p with
    | error e => exact ⟨hs, fun ⟨a, h⟩ => by cases h⟩
    | ok p =>
      refine ⟨?_, fun _ => hok ⟨p, rfl⟩⟩
      simp only
      split
      · exact hs
      · exact hs
  | tsvd cutoff args utc curves =>
    obtain ⟨p, s1, e1, hs, hok⟩ := key args utc curves
    unfold runCall tsvdCall GridCall.input
    simp only [e1]
    cases p with
    | error e => exact ⟨hs, fun ⟨a, h⟩ => by cases h⟩
    | ok p => exact ⟨hs, fun _ => hok ⟨p, rfl⟩⟩

/-- **C58** (stations of inversions). After a call that succeeds, the grid knows the stations that it knew before and both stations of each curve with a valid measurement at the
time, and no others, each once, both as coordinates and as positions on the grid. -/
theorem c58_inversion (env : GridEnv) (hord : ∀ l, (env.ord l).Nodup ∧ ∀ p, p ∈ env.ord l ↔ p ∈ l) (calls : List GridCall) (c : GridCall)
    (hok : ∃ a, (runCall env (afterCalls env calls) c).1 = .ok a) :
    let before := (afterCalls env calls).stations
    let after := (afterCalls env (calls ++ [c])).stations
    let added : Pt → Prop := fun p => ∃ cu ∈ c.input.2, (∃ d, Contributes c.input.1 cu d) ∧ (p = cu.stat0 ∨ p = cu.stat1)
    (knownLL after).Nodup ∧ (knownXY after).Nodup ∧ (∀ p, p ∈ knownLL after ↔ p ∈ knownLL before ∨ added p) ∧
      ∀ q, q ∈ knownXY after ↔ q ∈ knownXY before ∨ ∃ p, added p ∧ q = (env.geo.east p.2, env.geo.north p.1) := by
  intro before after added
  have hafter : after = (extractSt env before c.input.1 c.input.2).2 := by
    show (afterCalls env (calls ++ [c])).stations = _
    unfold afterCalls
    rw [List.foldl_append]
    exact (runCall_stations env _ c).1
  obtain ⟨r, hr⟩ := (runCall_stations env _ c).2 hok
  rw [hafter]
  change (extractSt env before c.input.1 c.input.2).1 = .ok r at hr
  unfold extractSt at hr ⊢
  cases hm : c.input.2.mapM (extractOne c.input.1) with
  | error e => rw [hm] at hr; cases hr
  | ok sel =>
    rw [hm] at hr
    simp only at hr ⊢
    have hadd : ∀ p, (p ∈ (sel.filterMap id).map (·.stat0) ∨ p ∈ (sel.filterMap id).map (·.stat1)) ↔ added p := by
      obtain ⟨sel', g1, g2, g3⟩ := collects_mapM _ _ _ hm
      have hd : ∀ d, d ∈ sel.filterMap id ↔ ∃ cu ∈ c.input.2, Contributes c.input.1 cu d := by
        intro d
        rw [g2]
        constructor
        · intro hd
          obtain ⟨o, ho, hox⟩ := List.mem_filterMap.1 hd
          simp only [id_eq] at hox
          subst hox
          obtain ⟨k, hk⟩ := List.mem_iff_getElem?.1 ho
          have hkl : k < c.input.2.length := by rw [← g1]; exact (List.getElem?_eq_some_iff.1 hk).1
          exact ⟨_, List.getElem_mem hkl, (g3 k _ (List.getElem?_eq_getElem hkl) d).1 hk⟩
        · rintro ⟨cu, hcu, hcon⟩
          obtain ⟨k, hk⟩ := List.mem_iff_getElem?.1 hcu
          exact List.mem_filterMap.2 ⟨_, List.mem_of_getElem? ((g3 k cu hk d).2 hcon), rfl⟩
      intro p
      simp only [List.mem_map]
      constructor
      · rintro (⟨d, h1, rfl⟩ | ⟨d, h1, rfl⟩)
        · obtain ⟨cu, h2, h3⟩ := (hd d).1 h1
          exact ⟨cu, h2, ⟨d, h3⟩, .inl h3.2.2.2.2.1⟩
        · obtain ⟨cu, h2, h3⟩ := (hd d).1 h1
          exact ⟨cu, h2, ⟨d, h3⟩, .inr h3.2.2.2.2.2.1⟩
      · rintro ⟨cu, h2, ⟨d, h3⟩, rfl | rfl⟩
        · exact .inl ⟨d, (hd d).2 ⟨cu, h2, h3⟩, h3.2.2.2.2.1⟩
        · exact .inr ⟨d, (hd d).2 ⟨cu, h2, h3⟩, h3.2.2.2.2.2.1⟩
    cases hl : (sel.filterMap id).getLast? with
    | none => rw [hl] at hr; cases hr
    | some d =>
      rw [hl] at hr
      simp only at hr ⊢
      have s1 := addStations_spec env.geo env.ord hord before ((sel.filterMap id).map (·.stat0))
      cases h0 : addStations env.geo env.ord before ((sel.filterMap id).map (·.stat0)) with
      | error e => rw [h0] at hr; cases hr
      | ok s0 =>
        rw [h0] at hr s1
        simp only at hr s1 ⊢
        have s2 := addStations_spec env.geo env.ord hord (some s0) ((sel.filterMap id).map (·.stat1))
        cases h1 : addStations env.geo env.ord (some s0) ((sel.filterMap id).map (·.stat1)) with
        | error e => rw [h1] at hr; cases hr
        | ok s1' =>
          rw [h1] at s2
          simp only at s2 ⊢
          obtain ⟨-, a1, a2, a3, a4⟩ := s2
          obtain ⟨-, -, -, b3, b4⟩ := s1
          refine ⟨a1, a2, fun p => ?_, fun q => ?_⟩
          · show p ∈ s1'.ll ↔ _
            rw [a3, ← hadd p]
            show p ∈ s0.ll ∨ _ ↔ _
            rw [b3, or_assoc]
          · show q ∈ s1'.xy ↔ _
            rw [a4]
            show q ∈ s0.xy ∨ _ ↔ _
            rw [b4, or_assoc]
            refine or_congr_right ?_
            constructor
            · rintro (⟨p, h, rfl⟩ | ⟨p, h, rfl⟩)
              · exact ⟨p, (hadd p).1 (.inl h), rfl⟩
              · exact ⟨p, (hadd p).1 (.inr h), rfl⟩
            · rintro ⟨p, h, rfl⟩
              rcases (hadd p).2 h with h | h
              · exact .inl ⟨p, h, rfl⟩
              · exact .inr ⟨p, h, rfl⟩

/-- a call that succeeds on a new grid -/
example : ∃ a, (runCall oneCell (afterCalls oneCell []) (.tsvd 1 ⟨none, none, none⟩ 5 [exampleCurve 0 1 (some exampleProc)])).1 = .ok a := by
  have h0 : CacheOk oneCell.kern (newGrid oneCell.cells.length).cache := fun _ _ h => absurd h List.not_mem_nil
  have h1 := (prepare_eq oneCell (newGrid _) h0 ⟨none, none, none⟩ 5 [exampleCurve 0 1 (some exampleProc)]).1
  have h2 : preparedOf oneCell ⟨none, none, none⟩ 5 [exampleCurve 0 1 (some exampleProc)] =
    .ok ⟨[([1], ⟨1, 1 / 2, (1, 1), (2, 2), some exampleProc⟩)], (10, 20), 1 / 2, 1⟩ := by decide +kernel
  rw [h2] at h1
  unfold runCall tsvdCall afterCalls
  simp only [List.foldl_nil]
  revert h1
  generalize prepare oneCell (newGrid oneCell.cells.length) ⟨none, none, none⟩ 5 [exampleCurve 0 1 (some exampleProc)] = o
  obtain ⟨o1, o2⟩ := o
  intro h1
  simp only at h1
  subst h1
  exact ⟨_, rfl⟩

end SeisMIC
