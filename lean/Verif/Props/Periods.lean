import Verif.Model.Periods
import Verif.Props.SameLength
import Verif.Lemmas.StreamWindows
import Mathlib.Tactic.Linarith
import Mathlib.Tactic.Tauto

/-!
# C170: a period can be correlated in parts
-/

namespace SeisMIC

variable {δ : Type}

/-! ## Specification -/

/-- the parts into which the boundaries `t0, t1, ..., tn` divide a period -/
def parts (t0 : Int) (ts : List Int) : List (Int × Int) := (t0 :: ts).zip ts

/-- the boundaries follow each other, and all but the last are a multiple of the increment after the first -/
def OnGrid (inc : Int) : Int → List Int → Prop
  | _, [] => True
  | _, [_] => True
  | t0, t1 :: t2 :: ts => (∃ k : Nat, t1 = t0 + k * inc) ∧ t1 ≤ t2 ∧ OnGrid inc t1 (t2 :: ts)

/-- what the runs are about: stations whose codes have the same length, data of these stations, a directory with correlations of them;
the end of a correlated window follows from codes and start -/
structure RunsOver (c : RunCfg δ) (stations : List (Str × Str)) (wins : Int → List (List TrHead)) (dir : CorrDir δ)
    (g : Str → Str → Str → Str → Str) : Prop where
  same : SameLength stations
  data : ∀ t, ∀ w ∈ wins t, ∀ a ∈ w, (a.net, a.sta) ∈ stations
  method : c.method ∈ methods
  channel : c.method = "betweenComponents".toList → ∀ t, ∀ w ∈ wins t, ∀ a ∈ w, a.cha ≠ []
  placed : dir.Placed
  ofStations : dir.OfStations stations
  ends : ∀ t, EndFixed c dir (wins t) g

/-- no two pairs of traces have the same place in the database but different correlations -/
def Unambiguous (c : RunCfg δ) (wins : Int → List (List TrHead)) : Prop :=
  ∀ t, ∀ w ∈ wins t, ∀ a ∈ w, ∀ b ∈ w, ∀ t', ∀ w' ∈ wins t', ∀ a' ∈ w', ∀ b' ∈ w',
    (c.out (a, b)).path = (c.out (a', b')).path → c.val a b = c.val a' b'

/-! ## Lemmas -/

theorem arange_append (t0 t1 t2 inc : Int) (hinc : 0 < inc) (k : Nat) (h1 : t1 = t0 + k * inc) (h2 : t1 ≤ t2) :
    arange t0 t2 inc = arange t0 t1 inc ++ arange t1 t2 inc := by
  unfold arange
  have e1 : (-((t0 - t1) / inc)).toNat = k := by
    have : t0 - t1 = -(k : Int) * inc := by rw [h1]; ring
    rw [this, Int.mul_ediv_cancel _ hinc.ne']; omega
  have e2 : (-((t0 - t2) / inc)).toNat = k + (-((t1 - t2) / inc)).toNat := by
    have h : t0 - t2 = (t1 - t2) + -(k : Int) * inc := by rw [h1]; ring
    have h3 : (t1 - t2) / inc ≤ 0 := by
      have := Int.ediv_le_ediv hinc (show t1 - t2 ≤ 0 by omega)
      simpa using this
    rw [h, Int.add_mul_ediv_right _ _ hinc.ne']
    omega
  rw [e1, e2, List.range_add, List.map_append, List.map_map]
  congr 1
  refine List.map_congr_left fun i _ => ?_
  simp only [Function.comp_apply]
  rw [h1]; push_cast; ring

variable {c : RunCfg δ} {stations : List (Str × Str)} {wins : Int → List (List TrHead)} {dir : CorrDir δ}
  {g : Str → Str → Str → Str → Str}

theorem mem_periodWindows {inc : Int} {q : Int × Int} {w : List TrHead} (h : w ∈ periodWindows wins inc q) :
    ∃ t ∈ arange q.1 q.2 inc, w ∈ wins t := List.mem_flatMap.1 h

theorem RunsOver.endFixed (h : RunsOver c stations wins dir g) (inc : Int) (q : Int × Int) :
    EndFixed c dir (periodWindows wins inc q) g :=
  ⟨(h.ends 0).1, fun w hw => by
    obtain ⟨t, -, hwt⟩ := mem_periodWindows hw
    exact (h.ends t).2 w hwt⟩

/-- a run succeeds, leaves what a run without looking for existing data leaves, and the directory is as required again -/
theorem period_ok (h : RunsOver c stations wins dir g) (inc : Int) (q : Int × Int) :
    ∃ d, c.period stations wins inc dir q = .ok d ∧ RunsOver c stations wins d g ∧
      ∀ f p, d.get f p = (dir.addAll (c.outputs [] (periodWindows wins inc q))).get f p := by
  obtain ⟨ex, hex⟩ := c160_lookup stations h.same dir h.placed h.ofStations c.method h.method c.rcombis
  have hrun := run_eq c ex (periodWindows wins inc q) h.method (fun hb w hw => by
    obtain ⟨t, -, hwt⟩ := mem_periodWindows hw
    exact h.channel hb t w hwt)
  have hwin : ∀ w ∈ periodWindows wins inc q, ∀ a ∈ w, (a.net, a.sta) ∈ stations := fun w hw => by
    obtain ⟨t, -, hwt⟩ := mem_periodWindows hw
    exact h.data t w hwt
  have hmem : ∀ o ∈ c.outputs ex (periodWindows wins inc q), ∃ w ∈ periodWindows wins inc q, ∃ a ∈ w, ∃ b ∈ w, o = c.out (a, b) :=
    fun o ho => outputs_mem c ex _ o ho
  refine ⟨dir.addAll (c.outputs ex (periodWindows wins inc q)), ?_, ?_, ?_⟩
  · unfold RunCfg.period
    rw [hex]
    simp only [bind, Except.bind, hrun]
    rfl
  · refine ⟨h.same, h.data, h.method, h.channel, placed_addAll _ _ h.placed,
      ofStations_addAll c stations _ hwin dir _ hmem h.ofStations, fun t => ⟨?_, (h.ends t).2⟩⟩
    exact (endFixed_addAll c dir _ g _ (h.endFixed inc q) hmem).1
  · have hst : ∀ s ∈ stations, NoSep s.1 ∧ NoSep s.2 := fun s hs => (h.same.codes s hs).1
    exact complete_get c dir stations _ g ex hst (fun w hw a ha => hst _ (hwin w hw a ha)) h.placed (h.endFixed inc q) hex

theorem periods_ok (h : RunsOver c stations wins dir g) (inc : Int) (qs : List (Int × Int)) :
    ∃ d, c.periods stations wins inc dir qs = .ok d ∧ RunsOver c stations wins d g ∧
      ∀ f p, d.get f p = (dir.addAll (c.outputs [] (qs.flatMap (periodWindows wins inc)))).get f p := by
  induction qs generalizing dir with
  | nil => exact ⟨dir, rfl, h, fun _ _ => rfl⟩
  | cons q qs ih =>
    obtain ⟨d1, h1, h2, h3⟩ := period_ok h inc q
    obtain ⟨d2, h4, h5, h6⟩ := ih h2
    refine ⟨d2, ?_, h5, fun f p => ?_⟩
    · unfold RunCfg.periods at h4 ⊢
      rw [List.foldlM_cons, h1]
      exact h4
    · have : c.outputs [] ((q :: qs).flatMap (periodWindows wins inc)) =
          c.outputs [] (periodWindows wins inc q) ++ c.outputs [] (qs.flatMap (periodWindows wins inc)) := by
        simp [RunCfg.outputs, List.flatMap_cons]
      rw [h6, get_addAll, h3, this, get_addAll, get_addAll, List.find?_append, Option.or_assoc]
      cases (c.outputs [] (periodWindows wins inc q)).find? _ <;> simp

theorem parts_windows (wins : Int → List (List TrHead)) (inc : Int) (hinc : 0 < inc) (t0 : Int) (ts : List Int)
    (h0 : ∀ t ∈ ts.head?, t0 ≤ t) (hg : OnGrid inc t0 ts) (hne : ts ≠ []) :
    (parts t0 ts).flatMap (periodWindows wins inc) = periodWindows wins inc (t0, ts.getLastD t0) := by
  induction ts generalizing t0 with
  | nil => exact absurd rfl hne
  | cons t1 ts ih =>
    cases ts with
    | nil => simp [parts]
    | cons t2 ts =>
      obtain ⟨⟨k, hk⟩, h12, hg'⟩ := hg
      have := ih t1 (by simpa using h12) hg' (by simp)
      have hp : parts t0 (t1 :: t2 :: ts) = (t0, t1) :: parts t1 (t2 :: ts) := rfl
      have hlast : t1 ≤ (t2 :: ts).getLastD t1 := by
        clear this hp ih h0 hne hk
        induction ts generalizing t1 t2 with
        | nil => simpa using h12
        | cons t3 ts ih =>
          obtain ⟨-, h23, hg''⟩ := hg'
          have := ih t2 t3 h23 hg''
          simp only [List.getLastD_cons] at this ⊢
          omega
      rw [hp, List.flatMap_cons, this]
      unfold periodWindows
      simp only [List.getLastD_cons] at hlast ⊢
      rw [← List.flatMap_append, ← arange_append t0 t1 _ inc hinc k hk hlast]

/-! ## The property -/

/-- **C170** (in parts) A period is divided at multiples of the read increment. The runs over the parts, one after another, leave the same
correlations as one run over the whole period; none of them raises an exception. -/
theorem c170_parts (c : RunCfg δ) (stations : List (Str × Str)) (wins : Int → List (List TrHead)) (dir : CorrDir δ)
    (g : Str → Str → Str → Str → Str) (h : RunsOver c stations wins dir g) (inc : Int) (hinc : 0 < inc) (t0 t1 : Int) (ts : List Int)
    (h01 : t0 ≤ t1) (hg : OnGrid inc t0 (t1 :: ts)) :
    ∃ d whole, c.periods stations wins inc dir (parts t0 (t1 :: ts)) = .ok d ∧
      c.period stations wins inc dir (t0, (t1 :: ts).getLastD t0) = .ok whole ∧
      ∀ f p, d.get f p = whole.get f p := by
  obtain ⟨d, h1, -, h2⟩ := periods_ok h inc (parts t0 (t1 :: ts))
  obtain ⟨w, h3, -, h4⟩ := period_ok h inc (t0, (t1 :: ts).getLastD t0)
  refine ⟨d, w, h1, h3, fun f p => ?_⟩
  rw [h2, h4, parts_windows wins inc hinc t0 (t1 :: ts) (by simpa using h01) hg (by simp)]

/-- **C170** (in any order) The runs may be done in any order, overlap, and be repeated: if they read at the same times as the run over the
whole period, and no two pairs of traces claim the same place with different correlations, they leave the same. -/
theorem c170_any_order (c : RunCfg δ) (stations : List (Str × Str)) (wins : Int → List (List TrHead)) (dir : CorrDir δ)
    (g : Str → Str → Str → Str → Str) (h : RunsOver c stations wins dir g) (hu : Unambiguous c wins) (inc : Int) (t0 t1 : Int)
    (qs : List (Int × Int)) (hq : ∀ t, t ∈ arange t0 t1 inc ↔ ∃ q ∈ qs, t ∈ arange q.1 q.2 inc) :
    ∃ d whole, c.periods stations wins inc dir qs = .ok d ∧ c.period stations wins inc dir (t0, t1) = .ok whole ∧
      ∀ f p, d.get f p = whole.get f p := by
  obtain ⟨d, h1, -, h2⟩ := periods_ok h inc qs
  obtain ⟨w, h3, -, h4⟩ := period_ok h inc (t0, t1)
  refine ⟨d, w, h1, h3, fun f p => ?_⟩
  rw [h2, h4, get_addAll, get_addAll]
  congr 1
  have hwin : ∀ w, w ∈ qs.flatMap (periodWindows wins inc) ↔ w ∈ periodWindows wins inc (t0, t1) := by
    intro w
    unfold periodWindows
    simp only [List.mem_flatMap]
    constructor
    · rintro ⟨q, hq1, t, ht, hw⟩
      exact ⟨t, (hq t).2 ⟨q, hq1, ht⟩, hw⟩
    · rintro ⟨t, ht, hw⟩
      obtain ⟨q, hq1, ht'⟩ := (hq t).1 ht
      exact ⟨q, hq1, t, ht', hw⟩
  have hmem : ∀ ws : List (List TrHead), ∀ o, o ∈ c.outputs [] ws ↔ ∃ w ∈ ws, o ∈ c.outputs [] [w] := by
    intro ws o
    simp [RunCfg.outputs]
  have hout : ∀ o, o ∈ c.outputs [] (qs.flatMap (periodWindows wins inc)) ↔ o ∈ c.outputs [] (periodWindows wins inc (t0, t1)) := by
    intro o
    rw [hmem, hmem (periodWindows wins inc (t0, t1))]
    exact exists_congr fun w => by rw [hwin]
  have hval : ∀ o ∈ c.outputs [] (periodWindows wins inc (t0, t1)), ∀ o' ∈ c.outputs [] (periodWindows wins inc (t0, t1)),
      o.path = o'.path → o.val = o'.val := by
    intro o ho o' ho' hpath
    obtain ⟨w, hw, a, ha, b, hb, rfl⟩ := outputs_mem c [] _ o ho
    obtain ⟨w', hw', a', ha', b', hb', rfl⟩ := outputs_mem c [] _ o' ho'
    obtain ⟨t, -, hwt⟩ := mem_periodWindows hw
    obtain ⟨t', -, hwt'⟩ := mem_periodWindows hw'
    exact hu t w hwt a ha b hb t' w' hwt' a' ha' b' hb' hpath
  generalize c.outputs [] (qs.flatMap (periodWindows wins inc)) = l at hout
  generalize c.outputs [] (periodWindows wins inc (t0, t1)) = l' at hout hval
  cases h5 : l.find? (fun o => decide (f = o.file ∧ p = o.path)) with
  | none =>
    have : l'.find? (fun o => decide (f = o.file ∧ p = o.path)) = none := by
      rw [List.find?_eq_none] at h5 ⊢
      exact fun o ho => h5 o ((hout o).2 ho)
    rw [this]
  | some o =>
    have ho := List.mem_of_find?_eq_some h5
    have hP := List.find?_some h5
    cases h6 : l'.find? (fun o => decide (f = o.file ∧ p = o.path)) with
    | none => exact absurd hP (List.find?_eq_none.1 h6 o ((hout o).1 ho))
    | some o' =>
      have ho' := List.mem_of_find?_eq_some h6
      have hP' := List.find?_some h6
      simp only [decide_eq_true_eq] at hP hP'
      simp only [Option.map_some]
      rw [hval o ((hout o).1 ho) o' ho' (hP.2.symm.trans hP'.2)]

/-! ## Cases -/

/-- two stations, one window for each read increment; the correlation shows when the window began -/
def periodRun : RunCfg Str :=
  ⟨fun t => (toString t).toList, c!"betweenStations", none, fun a b => (toString (max a.start b.start)).toList ++ c!" end",
    fun a b => (toString (max a.start b.start)).toList⟩

def periodStations : List (Str × Str) := [(c!"XN", c!"A"), (c!"XN", c!"B")]

def periodWins (t : Int) : List (List TrHead) := [[⟨c!"XN", c!"A", [], c!"HHZ", t⟩, ⟨c!"XN", c!"B", [], c!"HHZ", t⟩]]

/-- the conditions of both theorems are met -/
theorem periodRun_ok : RunsOver periodRun periodStations periodWins [] (fun _ _ _ t => t ++ c!" end") ∧
    Unambiguous periodRun periodWins := by
  refine ⟨⟨⟨?_, by decide, by decide⟩, ?_, by decide, ?_, ⟨by simp, by simp⟩, by intro f hf; simp at hf, fun t => ⟨by simp, ?_⟩⟩, ?_⟩
  · unfold NoSep; decide
  · intro t w hw a ha
    simp only [periodWins, List.mem_singleton] at hw
    subst hw
    simp only [List.mem_cons, List.not_mem_nil, or_false] at ha
    rcases ha with rfl | rfl <;> simp [periodStations]
  · intro h
    exact absurd h (by decide)
  · intro w _ a _ b _
    rfl
  · intro t w _ a _ b _ t' w' _ a' _ b' _ h
    have := congrArg HPath.cst h
    exact this

/-- two parts, and one run over the whole period: two correlations -/
example : OnGrid 10 0 [10, 20] ∧ parts 0 [10, 20] = [(0, 10), (10, 20)] ∧
    (periodWindows periodWins 10 (0, 20)).length = 2 ∧
    ∃ all, periodRun.run [] (periodWindows periodWins 10 (0, 20)) = .ok all ∧ all.map Out.val = [c!"0", c!"10"] :=
  ⟨⟨⟨1, rfl⟩, by decide, trivial⟩, rfl, by decide, _, by rfl, by decide +kernel⟩

/-- runs in another order, with a part that is repeated, read at the same times -/
example : ∀ t, t ∈ arange 0 20 10 ↔ ∃ q ∈ [((10 : Int), (20 : Int)), (0, 20)], t ∈ arange q.1 q.2 10 := by
  intro t
  have e1 : arange 0 20 10 = [0, 10] := by decide
  have e2 : arange 10 20 10 = [10] := by decide
  simp only [e1, e2, List.mem_cons, List.not_mem_nil, or_false, exists_eq_or_imp, exists_eq_left]
  tauto

/-- A boundary that is not a multiple of the increment: the second run reads at other times, so there are other correlations. -/
example : arange 0 20 10 = [0, 10] ∧ (parts 0 [15, 20]).flatMap (fun q => arange q.1 q.2 10) = [0, 10, 15] ∧
    ¬ OnGrid 10 0 [15, 20] := by
  refine ⟨by decide, by decide, ?_⟩
  rintro ⟨⟨k, hk⟩, -⟩
  omega

end SeisMIC
