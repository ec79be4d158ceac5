import Verif.Props.WfcRun
import Verif.Lemmas.ListAux

/-!
# C121: averages of the waveform coherences of components
-/

namespace SeisMIC

/-! ### Specification -/

/-- the coherence of trace `j` in time window `i` with the reference named `k`; NaN if there is none -/
noncomputable def entryOf (w : Wfc) (k : Str) (i j : Nat) : Option ℝ := (((w.panel.lookup k).getD []).getD i []).getD j none

/-- all coherences are for the same references, with arrays of the same shape -/
def Compatible (wfcs : List Wfc) : Prop :=
  ∀ w ∈ wfcs, ∀ w' ∈ wfcs, w.panel.map (fun kv => (kv.1, kv.2.map List.length)) = w'.panel.map (fun kv => (kv.1, kv.2.map List.length))

/-- `order` lists the elements of a set, in any order -/
def ListsSet (order : List WfcKey → List WfcKey) : Prop := ∀ l, (order l).Nodup ∧ ∀ k, k ∈ order l ↔ k ∈ l

/-! ### Lemmas -/

theorem panelGet_lookup (p : List (Str × List (List (Option ℝ)))) (k : Str) :
    panelGet p k = match p.lookup k with | none => .error .keyError | some v => .ok v := by
  unfold panelGet
  induction p with
  | nil => rfl
  | cons kv p ih =>
    rw [List.find?_cons, List.lookup_cons]
    by_cases h : kv.1 = k
    · subst h; simp
    · rw [show (decide (kv.1 = k)) = false by simpa using h, show (k == kv.1) = false by simpa using fun e => h e.symm]
      exact ih

theorem lookup_shape (p q : List (Str × List (List (Option ℝ)))) (k : Str)
    (h : p.map (fun kv => (kv.1, kv.2.map List.length)) = q.map (fun kv => (kv.1, kv.2.map List.length))) :
    (p.lookup k).map (List.map List.length) = (q.lookup k).map (List.map List.length) := by
  induction p generalizing q with
  | nil =>
    cases q with
    | nil => rfl
    | cons b q => simp at h
  | cons a p ih =>
    cases q with
    | nil => simp at h
    | cons b q =>
      simp only [List.map_cons, List.cons.injEq, Prod.mk.injEq] at h
      rw [List.lookup_cons, List.lookup_cons, ← h.1.1]
      cases hk : k == a.1 with
      | true => simp [h.1.2]
      | false => simpa using ih q h.2

theorem lookup_isSome (p : List (Str × List (List (Option ℝ)))) (k : Str) (h : k ∈ p.map Prod.fst) : ∃ v, p.lookup k = some v := by
  induction p with
  | nil => simp at h
  | cons a p ih =>
    rw [List.lookup_cons]
    cases hk : k == a.1 with
    | true => exact ⟨_, rfl⟩
    | false =>
      refine ih ?_
      rw [List.map_cons, List.mem_cons] at h
      rcases h with h | h
      · rw [h] at hk; simp at hk
      · exact h

theorem lookup_map_val (p : List (Str × List (List (Option ℝ)))) (g : Str → List (List (Option ℝ))) (k : Str) (h : k ∈ p.map Prod.fst) :
    (p.map fun kv => (kv.1, g kv.1)).lookup k = some (g k) := by
  induction p with
  | nil => simp at h
  | cons a p ih =>
    rw [List.map_cons, List.lookup_cons]
    cases hk : k == a.1 with
    | true => rw [show k = a.1 by simpa using hk]
    | false =>
      refine ih ?_
      rw [List.map_cons, List.mem_cons] at h
      rcases h with h | h
      · rw [h] at hk; simp at hk
      · exact h

theorem getD_of_lengths (a b : List (List (Option ℝ))) (h : a.map List.length = b.map List.length) (i : Nat) :
    (a.getD i []).length = (b.getD i []).length := by
  have : ∀ c : List (List (Option ℝ)), (c.getD i []).length = (c.map List.length).getD i 0 := by
    intro c
    simp only [List.getD_eq_getElem?_getD, List.getElem?_map]
    cases c[i]? <;> rfl
  rw [this, this, h]

/-- the mean of arrays of the same shape -/
theorem nanmeanArrays_ok (a0 : List (List (Option ℝ))) (arrays : List (List (List (Option ℝ)))) (h0 : arrays.headD [] = a0)
    (h : ∀ a ∈ arrays, a.map List.length = a0.map List.length) :
    ∃ m, nanmeanArrays arrays = .ok m ∧ m.map List.length = a0.map List.length ∧
      ∀ i j, (m.getD i []).getD j none = maMean (arrays.map fun a => (a.getD i []).getD j none) := by
  refine ⟨a0.mapIdx fun i row => row.mapIdx fun j _ => maMean (arrays.map fun a => (a.getD i []).getD j none), ?_, ?_, ?_⟩
  · unfold nanmeanArrays
    simp only [h0]
    rw [if_neg]
    simp only [List.any_eq_true, decide_eq_true_eq, not_exists, not_and, not_not]
    exact h
  · refine List.ext_getElem (by simp) fun i h1 h2 => ?_
    simp
  · intro i j
    have hnone : (∀ a ∈ arrays, (a.getD i []).getD j none = (none : Option ℝ)) →
        maMean (arrays.map fun a => (a.getD i []).getD j none) = none := by
      intro hn
      have e : (arrays.map fun a => (a.getD i []).getD j none).filterMap id = [] := by
        rw [List.filterMap_eq_nil_iff]
        intro x hx
        obtain ⟨a, ha, rfl⟩ := List.mem_map.1 hx
        exact hn a ha
      unfold maMean
      rw [e]
    have hlen : ∀ a ∈ arrays, (a.getD i []).length = (a0.getD i []).length := fun a ha => getD_of_lengths a a0 (h a ha) i
    by_cases hj : j < (a0.getD i []).length
    · have hi : i < a0.length := by
        by_contra hc
        rw [List.getD_eq_default _ _ (by omega)] at hj
        simp at hj
      rw [List.getD_eq_getElem _ _ hi] at hj
      rw [List.getD_eq_getElem (a0.mapIdx _) _ (by simpa using hi), List.getElem_mapIdx, List.getD_eq_getElem _ _ (by simpa using hj), List.getElem_mapIdx]
    · rw [hnone fun a ha => List.getD_eq_default _ _ (by rw [hlen a ha]; omega)]
      rw [List.getD_eq_default]
      by_cases hi : i < a0.length
      · rw [List.getD_eq_getElem (a0.mapIdx _) _ (by simpa using hi), List.getElem_mapIdx, List.length_mapIdx]
        rw [List.getD_eq_getElem _ _ hi] at hj
        omega
      · rw [List.getD_eq_default _ _ (by simpa using hi)]
        simp

theorem isMean_unique (v : List ℝ) (x y : Option ℝ) (hx : IsMean v x) (hy : IsMean v y) : x = y := by
  by_cases hv : v = []
  · rw [hx.1 hv, hy.1 hv]
  · obtain ⟨a, rfl, ha⟩ := hx.2 hv
    obtain ⟨b, rfl, hb⟩ := hy.2 hv
    have hp : ((v.length : Nat) : ℝ) ≠ 0 := by exact_mod_cast (List.length_pos_iff.2 hv).ne'
    exact congrArg some (mul_right_cancel₀ hp (ha.trans hb.symm))

theorem isMean_perm {v v' : List ℝ} (h : v.Perm v') (x : Option ℝ) (hx : IsMean v x) : IsMean v' x := by
  refine ⟨fun h' => hx.1 (by subst h'; exact h.eq_nil), fun h' => ?_⟩
  obtain ⟨y, hy, hs⟩ := hx.2 (by rintro rfl; exact h' h.symm.eq_nil)
  exact ⟨y, hy, by rw [← h.length_eq, ← h.sum_eq, hs]⟩

/-! ### C121 -/

/-- **C121** (average). The average of coherences with the same references and shapes, and the same band and window, has for each reference, window and trace the mean of the values that
are not NaN. Its channel code is `av`.
Missing for the full property: `c121_references_violated`, `c121_failure_violated`. -/
theorem c121_average_partial (w0 : Wfc) (ws : List Wfc) (hp : ∀ w ∈ w0 :: ws, w.params = w0.params) (hc : Compatible (w0 :: ws)) :
    ∃ out, averageWfc (w0 :: ws) = .ok out ∧ (out.net, out.sta, out.cha) = (w0.net, w0.sta, c!"av") ∧ out.params = w0.params ∧
      out.panel.map (fun kv => (kv.1)) = w0.panel.map Prod.fst ∧
      ∀ k ∈ w0.panel.map Prod.fst, ∀ i j, MeanOfValid ((w0 :: ws).map fun w => entryOf w k i j) (entryOf out k i j) := by
  have hkeys : ∀ w ∈ w0 :: ws, w.panel.map Prod.fst = w0.panel.map Prod.fst := by
    intro w hw
    have := congrArg (List.map Prod.fst) (hc w hw w0 (by simp))
    simpa [List.map_map, Function.comp_def] using this
  have hget : ∀ k ∈ w0.panel.map Prod.fst, ∀ w ∈ w0 :: ws, panelGet w.panel k = .ok ((w.panel.lookup k).getD []) := by
    intro k hk w hw
    rw [panelGet_lookup]
    obtain ⟨v, hv⟩ := lookup_isSome w.panel k (by rw [hkeys w hw]; exact hk)
    rw [hv]
    rfl
  have hm : ∀ k ∈ w0.panel.map Prod.fst, ∃ m, nanmeanArrays ((w0 :: ws).map fun w => (w.panel.lookup k).getD []) = .ok m ∧
      ∀ i j, (m.getD i []).getD j none = maMean ((w0 :: ws).map fun w => entryOf w k i j) := by
    intro k hk
    obtain ⟨m, h1, -, h3⟩ := nanmeanArrays_ok ((w0.panel.lookup k).getD []) ((w0 :: ws).map fun w => (w.panel.lookup k).getD []) rfl (by
      intro a ha
      obtain ⟨w, hw, rfl⟩ := List.mem_map.1 ha
      have := lookup_shape _ _ k (hc w hw w0 (by simp))
      obtain ⟨v, hv⟩ := lookup_isSome w.panel k (by rw [hkeys w hw]; exact hk)
      obtain ⟨v0, hv0⟩ := lookup_isSome w0.panel k hk
      rw [hv, hv0] at this ⊢
      exact Option.some.inj this)
    refine ⟨m, h1, fun i j => ?_⟩
    rw [h3 i j, List.map_map]
    rfl
  choose! g hg1 hg2 using hm
  have hpanel : w0.panel.mapM (fun kv => (do
      let arrays ← (w0 :: ws).mapM fun w => panelGet w.panel kv.1
      let m ← nanmeanArrays arrays
      .ok (kv.1, m) : Except PyErr _)) = .ok (w0.panel.map fun kv => (kv.1, g kv.1)) := by
    refine mapM_ok _ _ _ fun kv hkv => ?_
    have hk : kv.1 ∈ w0.panel.map Prod.fst := List.mem_map.2 ⟨kv, hkv, rfl⟩
    rw [mapM_ok (w0 :: ws) (fun w => panelGet w.panel kv.1) (fun w => (w.panel.lookup kv.1).getD []) (hget kv.1 hk)]
    simp only [bind, Except.bind]
    rw [hg1 kv.1 hk]
  refine ⟨⟨w0.net, w0.sta, c!"av", w0.params, w0.panel.map fun kv => (kv.1, g kv.1), [], none⟩, ?_, rfl, rfl, ?_, ?_⟩
  · unfold averageWfc
    simp only [bind, Except.bind]
    rw [if_neg (by
      simp only [List.any_eq_true, decide_eq_true_eq, not_exists, not_and, not_not]
      exact hp)]
    simp only [bind, Except.bind] at hpanel
    rw [hpanel]
  · simp [List.map_map, Function.comp_def]
  · intro k hk i j
    have : entryOf ⟨w0.net, w0.sta, c!"av", w0.params, w0.panel.map fun kv => (kv.1, g kv.1), [], none⟩ k i j =
        maMean ((w0 :: ws).map fun w => entryOf w k i j) := by
      conv_lhs => unfold entryOf
      simp only
      rw [lookup_map_val _ g k hk, Option.getD_some, hg2 k hk]
    rw [this]
    exact maMean_eq _

/-- **C121** (order of the components). The order of the components has no influence on the averages.
Missing for the full property: `c121_references_violated`, `c121_failure_violated`. -/
theorem c121_order_partial (wfcs wfcs' : List Wfc) (hperm : wfcs.Perm wfcs') (hne : wfcs ≠ []) (hp : ∀ w ∈ wfcs, ∀ w' ∈ wfcs, w.params = w'.params)
    (hc : Compatible wfcs) : ∃ out out', averageWfc wfcs = .ok out ∧ averageWfc wfcs' = .ok out' ∧ out.params = out'.params ∧
      out.panel.map Prod.fst = out'.panel.map Prod.fst ∧ ∀ k ∈ out.panel.map Prod.fst, ∀ i j, entryOf out k i j = entryOf out' k i j := by
  obtain ⟨w0, ws, rfl⟩ := List.exists_cons_of_ne_nil hne
  obtain ⟨w0', ws', rfl⟩ := List.exists_cons_of_ne_nil (l := wfcs') (by rintro rfl; exact hne hperm.eq_nil)
  have hmem : ∀ w ∈ w0' :: ws', w ∈ w0 :: ws := fun w hw => hperm.mem_iff.2 hw
  obtain ⟨out, h1, -, h3, h4, h5⟩ := c121_average_partial w0 ws (fun w hw => hp w hw w0 (by simp)) hc
  obtain ⟨out', g1, -, g3, g4, g5⟩ := c121_average_partial w0' ws' (fun w hw => hp w (hmem w hw) w0' (hmem _ (by simp)))
    (fun w hw w' hw' => hc w (hmem w hw) w' (hmem w' hw'))
  have hk : w0'.panel.map Prod.fst = w0.panel.map Prod.fst := by
    have := congrArg (List.map Prod.fst) (hc w0' (hmem _ (by simp)) w0 (by simp))
    simpa [List.map_map, Function.comp_def] using this
  refine ⟨out, out', h1, g1, ?_, ?_, ?_⟩
  · rw [h3, g3]
    exact hp _ (by simp) _ (hmem _ (by simp))
  · exact h4.trans (hk.symm.trans g4.symm)
  · intro k hkk i j
    have hkk' : k ∈ w0.panel.map Prod.fst := by rw [← h4]; exact hkk
    refine isMean_unique _ _ _ (isMean_perm ((hperm.map _).filterMap id) _ (h5 k hkk' i j)) (g5 k (by rw [hk]; exact hkk') i j)

/-- **C121** (refused). Coherences of different bands or windows are not averaged. -/
theorem c121_refused (wfcs : List Wfc) (w w' : Wfc) (hw : w ∈ wfcs) (hw' : w' ∈ wfcs) (h : w.params ≠ w'.params) : averageWfc wfcs = .error .valueError := by
  obtain ⟨w0, ws, rfl⟩ := List.exists_cons_of_ne_nil (List.ne_nil_of_mem hw)
  unfold averageWfc
  simp only [bind, Except.bind]
  rw [if_pos]
  rw [List.any_eq_true]
  by_cases h0 : w.params = w0.params
  · exact ⟨w', hw', by rw [← h0]; simpa using fun e => h e.symm⟩
  · exact ⟨w, hw, by simpa using h0⟩

/-- **C121** (not satisfied: different references). If the first component has fewer references than another one, the others are left out of the average without a warning: the result only has the
references of the first; in the opposite order there is a `KeyError`. -/
theorem c121_references_violated (net sta : Str) (p : WfcParams) (a b : Option ℝ) :
    let one : Wfc := ⟨net, sta, c!"ZZ", p, [(reftrKey 0, [[a]])], [], none⟩
    let two : Wfc := ⟨net, sta, c!"EE", p, [(reftrKey 0, [[a]]), (reftrKey 1, [[b]])], [], none⟩
    (∃ out, averageWfc [one, two] = .ok out ∧ out.panel.map Prod.fst = [reftrKey 0]) ∧ averageWfc [two, one] = .error .keyError := by
  intro one two
  have h10 : reftrKey 0 ≠ reftrKey 1 := fun h => absurd (reftrKey_injective h) (by decide)
  have h10' : ¬ reftrKey 0 = reftrKey 1 := h10
  constructor
  · refine ⟨⟨net, sta, c!"av", p, [(reftrKey 0, [[maMean [a, a]]])], [], none⟩, ?_, rfl⟩
    simp [averageWfc, one, two, panelGet, nanmeanArrays, bind, Except.bind, pure, Except.pure]
  · simp [averageWfc, one, two, panelGet, nanmeanArrays, bind, Except.bind, pure, Except.pure, h10', List.find?]

/-- **C121** (groups). After all processes have finished without an exception, the coherences of all processes are averaged in groups: there is one average for each combination of
stations, band and window that occurs, and it is the average of all coherences of this combination, whichever process computed them.
Missing for the full property: `c121_references_violated`, `c121_failure_violated`. -/
theorem c121_groups_partial (order : List WfcKey → List WfcKey) (ho : ListsSet order) (jobs : List (List (List Wfc × Option PyErr)))
    (hj : ∀ rank ∈ jobs, ∀ job ∈ rank, job.2 = none)
    (hc : Compatible (jobs.flatMap fun rank => rank.flatMap Prod.fst)) :
    ∃ out, wfcBulk order jobs = .ok out ∧ (out.map Prod.fst).Nodup ∧
      (∀ k, k ∈ out.map Prod.fst ↔ ∃ rank ∈ jobs, ∃ job ∈ rank, ∃ w ∈ job.1, (w.net, w.sta, w.params) = k) ∧
      ∀ k av, (k, av) ∈ out → (av.net, av.sta, av.params) = k ∧
        averageWfc ((jobs.flatMap fun rank => rank.flatMap Prod.fst).filter fun w => decide ((w.net, w.sta, w.params) = k)) = .ok av := by
  have hcol : ∀ rank : List (List Wfc × Option PyErr), (∀ job ∈ rank, job.2 = none) → collectYields rank = .ok (rank.flatMap Prod.fst) := by
    intro rank hr
    induction rank with
    | nil => rfl
    | cons job rank ih =>
      obtain ⟨l, e⟩ := job
      obtain rfl : e = none := hr (l, e) (by simp)
      unfold collectYields
      rw [ih fun j hj => hr j (by simp [hj])]
      rfl
  set all := jobs.flatMap fun rank => rank.flatMap Prod.fst with hall
  have hav : ∀ k ∈ order (all.map Wfc.key), ∃ av, averageWfc (all.filter fun w => decide (w.key = k)) = .ok av ∧ (av.net, av.sta, av.params) = k := by
    intro k hk
    obtain ⟨w, hw, hwk⟩ := List.mem_map.1 ((ho _).2 k |>.1 hk)
    have hmem : w ∈ all.filter fun w => decide (w.key = k) := List.mem_filter.2 ⟨hw, by simpa using hwk⟩
    obtain ⟨w0, ws, hws⟩ := List.exists_cons_of_ne_nil (List.ne_nil_of_mem hmem)
    have hkey : ∀ w ∈ w0 :: ws, w.key = k ∧ w ∈ all := by
      intro w hw
      rw [← hws, List.mem_filter] at hw
      exact ⟨by simpa using hw.2, hw.1⟩
    have hpar : ∀ w ∈ w0 :: ws, w.params = w0.params := by
      intro w hw
      have := (hkey w hw).1.trans (hkey w0 (by simp)).1.symm
      exact congrArg (fun k : WfcKey => k.2.2) this
    obtain ⟨av, h1, h2, h3, -⟩ := c121_average_partial w0 ws hpar (fun w hw w' hw' => hc w (hkey w hw).2 w' (hkey w' hw').2)
    refine ⟨av, by rw [hws]; exact h1, ?_⟩
    rw [← (hkey w0 (by simp)).1, h3]
    simp only [Prod.mk.injEq] at h2
    rw [h2.1, h2.2.1]
    rfl
  have : Inhabited Wfc := ⟨⟨[], [], [], ⟨0, 0, 0, 0⟩, [], [], none⟩⟩
  choose! g hg1 hg2 using hav
  have hout : wfcBulk order jobs = .ok ((order (all.map Wfc.key)).map fun k => (k, g k)) := by
    unfold wfcBulk
    rw [mapM_ok jobs collectYields (fun rank => rank.flatMap Prod.fst) (fun rank hr => hcol rank (hj rank hr))]
    simp only [bind, Except.bind]
    rw [← List.flatMap_def]
    refine mapM_ok _ _ _ fun k hk => ?_
    rw [show (List.flatMap (fun rank => List.flatMap Prod.fst rank) jobs) = all from rfl, hg1 k hk]
  refine ⟨_, hout, ?_, ?_, ?_⟩
  · simp only [List.map_map, Function.comp_def, List.map_id']
    exact (ho _).1
  · intro k
    simp only [List.map_map, Function.comp_def, List.map_id']
    rw [(ho _).2 k, List.mem_map, hall]
    simp only [List.mem_flatMap]
    constructor
    · rintro ⟨w, ⟨rank, hr, job, hjob, hw⟩, rfl⟩
      exact ⟨rank, hr, job, hjob, w, hw, rfl⟩
    · rintro ⟨rank, hr, job, hjob, w, hw, rfl⟩
      exact ⟨w, ⟨rank, hr, job, hjob, hw⟩, rfl⟩
  · intro k av hkav
    obtain ⟨k', hk', he⟩ := List.mem_map.1 hkav
    simp only [Prod.mk.injEq] at he
    obtain ⟨rfl, rfl⟩ := he
    exact ⟨hg2 _ hk', hg1 _ hk'⟩

/-- **C121** (not satisfied: one failure). An exception in the computation for one combination of stations is not caught: nothing is written for any combination. -/
theorem c121_failure_violated (order : List WfcKey → List WfcKey) (jobs : List (List (List Wfc × Option PyErr))) (rank : List (List Wfc × Option PyErr))
    (hr : rank ∈ jobs) (job : List Wfc × Option PyErr) (hjob : job ∈ rank) (hjob2 : job.2 ≠ none) : ∃ e, wfcBulk order jobs = .error e := by
  have hc : ∀ rank : List (List Wfc × Option PyErr), job ∈ rank → ∃ e, collectYields rank = .error e := by
    intro rank hjr
    induction rank with
    | nil => simp at hjr
    | cons j rank ih =>
      obtain ⟨l, e⟩ := j
      cases e with
      | some e => exact ⟨e, rfl⟩
      | none =>
        rcases List.mem_cons.1 hjr with rfl | h
        · exact absurd rfl hjob2
        · obtain ⟨e, he⟩ := ih h
          exact ⟨e, by unfold collectYields; rw [he]; rfl⟩
  have hm : ∃ e, jobs.mapM collectYields = .error e := by
    induction jobs with
    | nil => simp at hr
    | cons r jobs ih =>
      rw [List.mapM_cons]
      rcases List.mem_cons.1 hr with rfl | h
      · obtain ⟨e, he⟩ := hc _ hjob
        exact ⟨e, by rw [he]; rfl⟩
      · obtain ⟨e, he⟩ := ih h
        cases h1 : collectYields r with
        | error e' => exact ⟨e', rfl⟩
        | ok l => exact ⟨e, by rw [he]; rfl⟩
  obtain ⟨e, he⟩ := hm
  exact ⟨e, by unfold wfcBulk; rw [he]; rfl⟩

/-- the hypotheses of the theorems can be met: two processes with a component each, `order` removes duplicates -/
example (net sta : Str) (p : WfcParams) :
    let w : Str → ℝ → Wfc := fun c x => ⟨net, sta, c, p, [(reftrKey 0, [[some x, none]])], [], none⟩
    ListsSet List.dedup ∧ Compatible ([[([w c!"ZZ" 1], none)], [([w c!"EE" (1 / 2)], none)]].flatMap fun rank : List (List Wfc × Option PyErr) => rank.flatMap Prod.fst) := by
  intro w
  refine ⟨fun l => ⟨List.nodup_dedup l, fun k => List.mem_dedup⟩, ?_⟩
  intro a ha b hb
  simp only [List.flatMap_cons, List.flatMap_nil, List.append_nil, List.cons_append, List.nil_append, List.mem_cons, List.not_mem_nil, or_false] at ha hb
  rcases ha with rfl | rfl <;> rcases hb with rfl | rfl <;> rfl

/-! ### C122: the grid -/

/-- centre frequency and centre of the lapse time window -/
def centreOf (w : Wfc) : Rat × Rat := ((w.params.freqMin + w.params.freqMax) / 2, w.params.twStart + w.params.twLen / 2)

/-- the mean of the coherence: the saved one, or, if there is none, the mean over the references of the means over the traces -/
def HasMean (w : Wfc) (x : Option ℝ) : Prop :=
  match w.mean with
  | some m => x = m
  | none => ∃ avs, avs.length = w.panel.length ∧ (∀ (j : Nat) (kv : Str × List (List (Option ℝ))), w.panel[j]? = some kv → ∃ a, avs[j]? = some a ∧ MeanOfValid kv.2.flatten a) ∧
      MeanOfValid avs x

theorem centre_eq (w : Wfc) : w.params.centre = centreOf w := by
  unfold WfcParams.centre centreOf
  rw [add_comm w.params.freqMax]

theorem hasMean_withMean (w : Wfc) : ∃ x, w.withMean.mean = some x ∧ HasMean w x := by
  unfold Wfc.withMean HasMean
  cases h : w.mean with
  | some m => exact ⟨m, h, rfl⟩
  | none =>
    refine ⟨_, rfl, w.panel.map (fun kv => maMean kv.2.flatten), by simp, ?_, ?_⟩
    · intro j kv hj
      exact ⟨_, by rw [List.getElem?_map, hj]; rfl, maMean_eq _⟩
    · have := maMean_eq ((w.panel.map fun kv => (kv.1 ++ c!"_av", maMean kv.2.flatten)).map Prod.snd)
      unfold MeanOfValid
      convert this using 2
      rw [List.map_map]
      rfl

theorem sortedSet_pairwise (l : List Rat) : (sortedSet l).Pairwise (· < ·) := by
  have h1 : (sortedSet l).Pairwise fun x y => decide (x ≤ y) = true := isort_sorted _
    (by intro a b h; simp at h ⊢; exact h.le) (by intro a b c h1 h2; simp at h1 h2 ⊢; exact h1.trans h2) _
  have h2 : (sortedSet l).Nodup := (isort_perm _ _).nodup_iff.2 (List.nodup_dedup l)
  refine (h1.and h2).imp ?_
  rintro a b ⟨h, hn⟩
  exact lt_of_le_of_ne (by simpa using h) hn

theorem mem_sortedSet (l : List Rat) (x : Rat) : x ∈ sortedSet l ↔ x ∈ l := by
  unfold sortedSet
  rw [mem_isort, List.mem_dedup]

/-- the value of a cell -/
noncomputable def cellAt (g : List Rat × List Rat × List (List (Option ℝ))) (f t : Rat) : Option ℝ := (g.2.2.getD (g.2.1.idxOf f) []).getD (g.1.idxOf t) none

/-- a grid with rows for `fr` and columns for `lw` -/
def Shaped (fr lw : List Rat) (g : List (List (Option ℝ))) : Prop := g.length = fr.length ∧ ∀ row ∈ g, row.length = lw.length

/-- one assignment -/
theorem grid_set (fr lw : List Rat) (g : List (List (Option ℝ))) (hg : Shaped fr lw g) (f t f' t' : Rat) (hf : f ∈ fr) (ht : t ∈ lw) (x : Option ℝ) :
    Shaped fr lw (g.modify (fr.idxOf f) fun row => row.set (lw.idxOf t) x) ∧
      cellAt (lw, fr, g.modify (fr.idxOf f) fun row => row.set (lw.idxOf t) x) f' t' = if f' = f ∧ t' = t then x else cellAt (lw, fr, g) f' t' := by
  have hfi : fr.idxOf f < g.length := by rw [hg.1]; exact List.idxOf_lt_length_of_mem hf
  have hti : lw.idxOf t < lw.length := List.idxOf_lt_length_of_mem ht
  constructor
  · refine ⟨by simpa using hg.1, fun row hrow => ?_⟩
    obtain ⟨i, hi, rfl⟩ := List.mem_iff_getElem.1 hrow
    rw [List.getElem_modify]
    split
    · rw [List.length_set]; exact hg.2 _ (List.getElem_mem _)
    · exact hg.2 _ (List.getElem_mem _)
  · unfold cellAt
    simp only [List.getD_eq_getElem?_getD, List.getElem?_modify]
    by_cases h1 : f' = f
    · subst h1
      simp only [if_true]
      rw [List.getElem?_eq_getElem hfi]
      simp only [Option.map_eq_map, Option.map_some, Option.getD_some, true_and]
      by_cases h2 : t' = t
      · subst h2
        rw [if_pos rfl, List.getElem?_set_self (by rw [hg.2 _ (List.getElem_mem _)]; exact hti)]
        rfl
      · rw [if_neg h2, List.getElem?_set_ne]
        intro he
        exact h2 ((List.idxOf_inj ht).1 he).symm
    · have hne : ¬ fr.idxOf f = fr.idxOf f' := fun he => h1 ((List.idxOf_inj hf).1 he).symm
      rw [if_neg (fun h => h1 h.1)]
      simp [hne]

/-- all assignments: the last one counts -/
theorem grid_fold (fr lw : List Rat) (l : List Wfc) (hl : ∀ w ∈ l, (centreOf w).1 ∈ fr ∧ (centreOf w).2 ∈ lw) (g : List (List (Option ℝ)))
    (hg : Shaped fr lw g) (f t : Rat) :
    cellAt (lw, fr, l.foldl (fun g w => g.modify (fr.idxOf w.params.centre.1) fun row =>
      row.set (lw.idxOf w.params.centre.2) (w.withMean.mean.getD none)) g) f t =
    match (l.filter fun w => decide (centreOf w = (f, t))).getLast? with
    | none => cellAt (lw, fr, g) f t
    | some w => w.withMean.mean.getD none := by
  induction l generalizing g with
  | nil => rfl
  | cons w l ih =>
    obtain ⟨h1, h2⟩ := hl w (by simp)
    obtain ⟨g1, g2⟩ := grid_set fr lw g hg (centreOf w).1 (centreOf w).2 f t h1 h2 (w.withMean.mean.getD none)
    rw [List.foldl_cons, centre_eq, ih (fun w' hw' => hl w' (by simp [hw'])) _ g1, g2, List.filter_cons]
    by_cases hw : centreOf w = (f, t)
    · have hd : decide (centreOf w = (f, t)) = true := by simpa using hw
      have hp : f = (centreOf w).1 ∧ t = (centreOf w).2 := by rw [hw]; exact ⟨rfl, rfl⟩
      simp only [if_pos hd, if_pos hp, List.getLast?_cons]
      cases hlast : (l.filter fun w => decide (centreOf w = (f, t))).getLast? with
      | none => rfl
      | some w' => rfl
    · have hd : ¬ decide (centreOf w = (f, t)) = true := by simpa using hw
      simp only [if_neg hd]
      cases hlast : (l.filter fun w => decide (centreOf w = (f, t))).getLast? with
      | some w' => rfl
      | none =>
        simp only
        rw [if_neg]
        rintro ⟨rfl, rfl⟩
        exact hw rfl

/-- the value of a cell is that of the last coherence with this centre -/
theorem wfcGrid_cell (l : List Wfc) (f t : Rat) : cellAt (wfcGrid l) f t =
    match (l.filter fun w => decide (centreOf w = (f, t))).getLast? with
    | none => none
    | some w => w.withMean.mean.getD none := by
  have h := grid_fold (wfcGrid l).2.1 (wfcGrid l).1 l (by
    intro w hw
    unfold wfcGrid
    simp only [mem_sortedSet]
    exact ⟨List.mem_map.2 ⟨w, hw, by rw [centre_eq]⟩, List.mem_map.2 ⟨w, hw, by rw [centre_eq]⟩⟩)
    ((wfcGrid l).2.1.map fun _ => (wfcGrid l).1.map fun _ => none) ⟨by simp, by
      intro row hrow
      obtain ⟨_, _, rfl⟩ := List.mem_map.1 hrow
      simp⟩ f t
  refine (show cellAt (wfcGrid l) f t = _ from h).trans ?_
  cases hlast : (l.filter fun w => decide (centreOf w = (f, t))).getLast? with
  | some w' => rfl
  | none =>
    simp only
    unfold cellAt
    simp only [List.getD_eq_getElem?_getD, List.getElem?_map]
    cases (wfcGrid l).2.1[(wfcGrid l).2.1.idxOf f]? with
    | none => rfl
    | some _ =>
      simp only [Option.map_some, Option.getD_some, List.getElem?_map]
      cases (wfcGrid l).1[(wfcGrid l).1.idxOf t]? <;> rfl

/-- **C122** (axes). The axes of the grid are the centre frequencies and the centres of the lapse time windows that occur, each once and in increasing order, and the grid has a row for each
frequency and a column for each lapse time. -/
theorem c122_axes (l : List Wfc) : (wfcGrid l).1.Pairwise (· < ·) ∧ (wfcGrid l).2.1.Pairwise (· < ·) ∧
    (∀ t, t ∈ (wfcGrid l).1 ↔ ∃ w ∈ l, (centreOf w).2 = t) ∧ (∀ f, f ∈ (wfcGrid l).2.1 ↔ ∃ w ∈ l, (centreOf w).1 = f) ∧
    Shaped (wfcGrid l).2.1 (wfcGrid l).1 (wfcGrid l).2.2 := by
  refine ⟨sortedSet_pairwise _, sortedSet_pairwise _, ?_, ?_, ?_⟩
  · intro t
    unfold wfcGrid
    simp only [mem_sortedSet, List.mem_map, centre_eq]
  · intro f
    unfold wfcGrid
    simp only [mem_sortedSet, List.mem_map, centre_eq]
  · have : ∀ (fr lw : List Rat) (l : List Wfc) (hl : ∀ w ∈ l, (centreOf w).1 ∈ fr ∧ (centreOf w).2 ∈ lw) (g : List (List (Option ℝ))), Shaped fr lw g →
        Shaped fr lw (l.foldl (fun g w => g.modify (fr.idxOf w.params.centre.1) fun row =>
          row.set (lw.idxOf w.params.centre.2) (w.withMean.mean.getD none)) g) := by
      intro fr lw l
      induction l with
      | nil => intro _ g hg; exact hg
      | cons w l ih =>
        intro hl g hg
        obtain ⟨h1, h2⟩ := hl w (by simp)
        rw [List.foldl_cons]
        refine ih (fun w' hw' => hl w' (by simp [hw'])) _ ?_
        rw [centre_eq]
        exact (grid_set fr lw g hg _ _ 0 0 h1 h2 _).1
    refine this _ _ l ?_ _ ⟨by rw [List.length_map]; rfl, by
      intro row hrow
      obtain ⟨_, _, rfl⟩ := List.mem_map.1 hrow
      rw [List.length_map]
      rfl⟩
    intro w hw
    show (centreOf w).1 ∈ sortedSet _ ∧ (centreOf w).2 ∈ sortedSet _
    simp only [mem_sortedSet]
    exact ⟨List.mem_map.2 ⟨w, hw, by rw [centre_eq]⟩, List.mem_map.2 ⟨w, hw, by rw [centre_eq]⟩⟩

/-- **C122** (values). If no two coherences have the same centres, the value of the cell at the centres of a coherence is its mean; all other cells are NaN.
Missing for the full property: `c122_centres_violated`. -/
theorem c122_cells_partial (l : List Wfc) (hd : l.Pairwise fun w w' => centreOf w ≠ centreOf w') :
    (∀ w ∈ l, HasMean w (cellAt (wfcGrid l) (centreOf w).1 (centreOf w).2)) ∧
    ∀ f t, (∀ w ∈ l, centreOf w ≠ (f, t)) → cellAt (wfcGrid l) f t = none := by
  constructor
  · intro w hw
    have hf : l.filter (fun w' => decide (centreOf w' = ((centreOf w).1, (centreOf w).2))) = [w] := by
      induction l with
      | nil => simp at hw
      | cons a l ih =>
        rw [List.pairwise_cons] at hd
        rw [List.filter_cons]
        rcases List.mem_cons.1 hw with rfl | hw'
        · rw [if_pos (by simp)]
          congr 1
          rw [List.filter_eq_nil_iff]
          intro b hb
          simpa using fun h => hd.1 b hb h.symm
        · rw [if_neg (by simpa using hd.1 w hw')]
          exact ih hd.2 hw'
    rw [wfcGrid_cell, hf]
    obtain ⟨x, h1, h2⟩ := hasMean_withMean w
    simp only [List.getLast?_singleton, h1, Option.getD_some]
    exact h2
  · intro f t h
    rw [wfcGrid_cell, List.filter_eq_nil_iff.2 (by intro w hw; simpa using h w hw)]
    rfl

/-- **C122** (not satisfied: equal centres). Different bands can have the same centre frequency, for example 1 to 3 Hz and 0.5 to 3.5 Hz, and windows of different length the same centre: of such coherences only the last one is in
the grid, the others disappear without a warning. -/
theorem c122_centres_violated (net sta cha : Str) (a b : ℝ) (hab : a ≠ b) :
    let w : Rat → Rat → ℝ → Wfc := fun f0 f1 x => ⟨net, sta, cha, ⟨f0, f1, 5, 10⟩, [], [], some (some x)⟩
    let l := [w 1 3 a, w (1 / 2) (7 / 2) b]
    (w 1 3 a).params ≠ (w (1 / 2) (7 / 2) b).params ∧ wfcGrid l = ([10], [2], [[some b]]) ∧ ∀ row ∈ (wfcGrid l).2.2, some a ∉ row := by
  intro w l
  have h : wfcGrid l = ([10], [2], [[some b]]) := by
    have e1 : (w 1 3 a).params.centre = (2, 10) := by
      show ((3 + 1) / 2, 5 + 10 / 2) = ((2 : Rat), (10 : Rat))
      norm_num
    have e2 : (w (1 / 2) (7 / 2) b).params.centre = (2, 10) := by
      show ((7 / 2 + 1 / 2) / 2, 5 + 10 / 2) = ((2 : Rat), (10 : Rat))
      norm_num
    unfold wfcGrid
    simp only [l, List.map_cons, List.map_nil, e1, e2, List.foldl_cons, List.foldl_nil]
    have s1 : sortedSet [10, 10] = [10] := by decide +kernel
    have s2 : sortedSet [2, 2] = [2] := by decide +kernel
    rw [s1, s2]
    simp [w, Wfc.withMean]
  refine ⟨?_, h, ?_⟩
  · intro he
    have := congrArg WfcParams.freqMin he
    simp only [w] at this
    norm_num at this
  · rw [h]
    intro row hrow
    simp only [List.mem_singleton] at hrow
    subst hrow
    simpa using hab

/-- the hypothesis can be met: two bands and two windows -/
example (net sta cha : Str) : [(⟨1, 3, 5, 10⟩ : WfcParams), ⟨2, 6, 5, 10⟩, ⟨1, 3, 15, 10⟩].map (fun p => (⟨net, sta, cha, p, [(reftrKey 0, [[some 1, none, some (1 / 2)]])], [], none⟩ : Wfc))
    |>.Pairwise fun w w' => centreOf w ≠ centreOf w' := by
  simp [centreOf]
  norm_num

end SeisMIC
