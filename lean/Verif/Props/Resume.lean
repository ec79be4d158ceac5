import Verif.Lemmas.Resume

/-!
# C36, C87: windows of a run, restarting a run
-/

namespace SeisMIC

variable {δ : Type}

/-! ### C87 -/

/-- **C87**. For every window, every dictionary of existing data and every method:
removing the traces that are in no combination (and computing the combinations
of the remaining ones) leaves the correlated pairs as they are, in the same
order: they are the pairs of the complete sorted window that the first
computation selects. -/
theorem c87_pruning (fiss : Int → Str) (ex : ExDict) (method : Str) (rcombis : Option (List Str))
    (win : List TrHead) (hm : method ∈ methods)
    (hc : method = "betweenComponents".toList → ∀ a ∈ win, a.cha ≠ []) :
    ∃ (S : List TrHead) (combis : List (Nat × Nat)), S.Perm win ∧ (S.Pairwise fun a b => trLe a b = true) ∧
      calcCrossCombis fiss win ex method rcombis = .ok combis ∧
      ∃ pairs, windowPairs fiss ex method rcombis win = .ok pairs ∧
        pairs.map some = combis.map fun p => (S[p.1]?).bind fun a => (S[p.2]?).map fun b => (a, b) := by
  refine ⟨isort trLe win, _, isort_perm _ _, isort_sorted _ trLe_total trLe_trans _,
    calc_filter fiss win ex method rcombis hm hc, _, windowPairs_eq fiss ex method rcombis win hm hc, ?_⟩
  unfold pairsOf
  rw [List.map_map]
  apply List.map_congr_left
  intro p hp
  have hp := (mem_prodL _ _).1 (List.mem_filter.1 hp).1
  simp only [List.mem_range] at hp
  simp [List.getD, hp.1, hp.2]

/-- a window with a trace that is not used: only the pair A-B is missing -/
example :
    let a : TrHead := ⟨c!"XN", c!"A", [], c!"HHZ", 0⟩
    let b : TrHead := ⟨c!"XN", c!"B", [], c!"HHZ", 0⟩
    let c : TrHead := ⟨c!"XN", c!"C", [], c!"HHZ", 0⟩
    windowPairs (fun _ => c!"t") [] c!"betweenStations" (some [c!"XN-XN.B-C"]) [c, a, b] = .ok [(b, c)] := by
  decide

/-! ### C36 -/

/-- **C36** (if the restart gets past looking up the existing data) Let a run over
`wins` be started on any directory `dir`, be killed at any point, started again,
killed again, and so on any number of times. If a further run can look up the
existing data (`findExistingTimes` returns), it ends, and afterwards every file
contains under every path exactly what an uninterrupted run leaves there: what
was there before, and otherwise the correlation of the pair.
Missing: the look-up may fail, see `c36_restart_violated`. -/
theorem c36_resume_partial (c : RunCfg δ) (stations : List (Str × Str)) (wins : List (List TrHead))
    (dir d : CorrDir δ) (g : Str → Str → Str → Str → Str) (ex ex₀ : ExDict) (hm : c.method ∈ methods)
    (hc : c.method = "betweenComponents".toList → ∀ w ∈ wins, ∀ a ∈ w, a.cha ≠ [])
    (hst : ∀ s ∈ stations, NoSep s.1 ∧ NoSep s.2)
    (hw : ∀ w ∈ wins, ∀ a ∈ w, NoSep a.net ∧ NoSep a.sta) (hp : dir.Placed) (hend : EndFixed c dir wins g)
    (hkills : AfterKills c stations wins dir d)
    (hex₀ : findExistingTimes dir stations c.method c.rcombis "subdivision".toList = .ok ex₀)
    (hex : findExistingTimes d stations c.method c.rcombis "subdivision".toList = .ok ex) :
    ∃ full rest, c.run ex₀ wins = .ok full ∧ c.run ex wins = .ok rest ∧
      ∀ f p, (d.addAll rest).get f p = (dir.addAll full).get f p := by
  refine ⟨c.outputs ex₀ wins, c.outputs ex wins, run_eq c ex₀ wins hm hc, run_eq c ex wins hm hc, ?_⟩
  have inv : ∀ d, AfterKills c stations wins dir d → d.Placed ∧ EndFixed c d wins g ∧
      ∀ f p, (d.addAll (c.outputs [] wins)).get f p = (dir.addAll (c.outputs [] wins)).get f p := by
    intro d h
    induction h with
    | start => exact ⟨hp, hend, fun _ _ => rfl⟩
    | kill d ex out l _ hfe hrun hl ih =>
      obtain ⟨h1, h2, h3⟩ := ih
      rw [run_eq c ex wins hm hc] at hrun
      cases hrun
      refine ⟨placed_addAll d l h1, endFixed_addAll c d wins g l h2 (fun o ho =>
        outputs_mem c ex wins o (killed_mem _ _ hl o ho)), fun f p => ?_⟩
      rw [killed_get c d stations wins g ex hst hw h1 h2 hfe l hl f p]
      exact h3 f p
  intro f p
  obtain ⟨h1, h2, h3⟩ := inv d hkills
  rw [complete_get c d stations wins g ex hst hw h1 h2 hex f p, h3 f p,
    complete_get c dir stations wins g ex₀ hst hw hp hend hex₀ f p]

/-- **C36** (nothing is changed) Nothing that is in the directory is changed by any
number of killed runs and a complete one. -/
theorem c36_keeps (c : RunCfg δ) (stations : List (Str × Str)) (wins : List (List TrHead))
    (dir d : CorrDir δ) (hkills : AfterKills c stations wins dir d) (rest : List (Out δ)) (f : Str) (p : HPath)
    (v : δ) : (dir.get f p = some v → d.get f p = some v) ∧
      (d.get f p = some v → (d.addAll rest).get f p = some v) := by
  have step : ∀ (d : CorrDir δ) l, d.get f p = some v → (d.addAll l).get f p = some v := by
    intro d l h
    rw [get_addAll, h]; rfl
  refine ⟨fun h => ?_, step d rest⟩
  induction hkills with
  | start => exact h
  | kill d ex out l _ _ _ _ ih => exact step d l ih

/-- **C36** (skipping is sound) A completed run leaves the same as a run that
computes all pairs without looking for existing data. -/
theorem c36_skipping (c : RunCfg δ) (stations : List (Str × Str)) (wins : List (List TrHead))
    (dir : CorrDir δ) (g : Str → Str → Str → Str → Str) (ex : ExDict) (hm : c.method ∈ methods)
    (hc : c.method = "betweenComponents".toList → ∀ w ∈ wins, ∀ a ∈ w, a.cha ≠ [])
    (hst : ∀ s ∈ stations, NoSep s.1 ∧ NoSep s.2)
    (hw : ∀ w ∈ wins, ∀ a ∈ w, NoSep a.net ∧ NoSep a.sta) (hp : dir.Placed) (hend : EndFixed c dir wins g)
    (hex : findExistingTimes dir stations c.method c.rcombis "subdivision".toList = .ok ex) :
    ∃ all out, c.run [] wins = .ok all ∧ c.run ex wins = .ok out ∧
      ∀ f p, (dir.addAll out).get f p = (dir.addAll all).get f p :=
  ⟨_, _, run_eq c [] wins hm hc, run_eq c ex wins hm hc,
    complete_get c dir stations wins g ex hst hw hp hend hex⟩

/-- run of the examples: two stations, the correlation is a pair of start times -/
def exampleRun : RunCfg (Int × Int) :=
  ⟨fun t => (toString t).toList, c!"betweenStations", none, fun a b => (toString (max a.start b.start + 9)).toList,
    fun a b => (a.start, b.start)⟩

/-- windows of the examples -/
def exampleWins : List (List TrHead) :=
  [0, 10].map fun t => [⟨c!"XN", c!"A", [], c!"HHZ", t⟩, ⟨c!"XN", c!"B", [], c!"HHZ", t⟩]

def exampleDir : CorrDir (Int × Int) :=
  [(c!"XN-XN.A-B.h5", ⟨true, [(⟨c!"subdivision", c!"XN-XN", c!"A-B", c!"HHZ-HHZ", c!"0", c!"9"⟩, (0, 0))]⟩)]

/-- the hypotheses are met: a run is killed after the first of two windows; the
restart finds the first one and computes only the second -/
example :
    let stations := [(c!"XN", c!"A"), (c!"XN", c!"B")]
    let o (t u : Str) (v : Int × Int) : Out (Int × Int) :=
      ⟨⟨c!"subdivision", c!"XN-XN", c!"A-B", c!"HHZ-HHZ", t, u⟩, v⟩
    findExistingTimes ([] : CorrDir (Int × Int)) stations c!"betweenStations" none c!"subdivision" = .ok [] ∧
    exampleRun.run [] exampleWins = .ok [o c!"0" c!"9" (0, 0), o c!"10" c!"19" (10, 10)] ∧
    CorrDir.addAll [] [o c!"0" c!"9" (0, 0)] = exampleDir ∧
    ∃ ex, findExistingTimes exampleDir stations c!"betweenStations" none c!"subdivision" = .ok ex ∧
      exampleRun.run ex exampleWins = .ok [o c!"10" c!"19" (10, 10)] := by
  refine ⟨by rfl, by decide +kernel, by rfl,
    [(c!"XN.A", [(c!"XN.B", [(c!"HHZ-HHZ", [c!"0"])])])], by rfl, by decide +kernel⟩

example : exampleDir.Placed ∧
    EndFixed exampleRun exampleDir exampleWins (fun _ _ _ t => if t = c!"0" then c!"9" else c!"19") := by
  refine ⟨⟨by decide, ?_⟩, ?_, ?_⟩
  · intro f hf e he
    simp only [exampleDir, List.mem_singleton] at hf
    subst hf
    simp only [List.mem_singleton] at he
    subst he
    rfl
  · intro f hf e he _
    simp only [exampleDir, List.mem_singleton] at hf
    subst hf
    simp only [List.mem_singleton] at he
    subst he
    rfl
  · decide +kernel

/-- **C36** is violated: with stations `S1`, `S2` and `S22` a restart after a
(killed or complete) run fails with `KeyError` while looking up the existing
data, so the run cannot be resumed. -/
theorem c36_restart_violated :
    let stations := [(c!"XN", c!"S1"), (c!"XN", c!"S2"), (c!"XN", c!"S22")]
    let win : List TrHead := [⟨c!"XN", c!"S1", [], c!"HHZ", 0⟩, ⟨c!"XN", c!"S2", [], c!"HHZ", 0⟩,
      ⟨c!"XN", c!"S22", [], c!"HHZ", 0⟩]
    findExistingTimes ([] : CorrDir (Int × Int)) stations c!"betweenStations" none c!"subdivision" = .ok [] ∧
    ∃ out, exampleRun.run [] [win] = .ok out ∧
      findExistingTimes (CorrDir.addAll [] (out.take 2)) stations c!"betweenStations" none
        c!"subdivision" = .error .keyError := by
  let o (s : Str) : Out (Int × Int) := ⟨⟨c!"subdivision", c!"XN-XN", s, c!"HHZ-HHZ", c!"0", c!"9"⟩, (0, 0)⟩
  exact ⟨by rfl, [o c!"S1-S2", o c!"S1-S22", o c!"S22-S2"], by decide +kernel, by rfl⟩

end SeisMIC
