import Verif.Model.CorrWindows
import Verif.Props.WindowOrder
import Verif.Props.Preprocess
import Verif.Props.TraceUtils
import Verif.Props.Run

/-!
# C203: the windows of a read period hold the data of their times
-/

namespace SeisMIC

variable {β : Type}

/-! ### Specification -/

/-- the value of a trace at a time, `none` if there is no valid sample -/
def WTr.sampleAt (t : WTr β) (x : Int) : Option β := GapTr.at (t.head.start, t.data) x

/-- the traces of a stream in an interval of `len` samples: those with a valid sample in it, each with exactly the samples of the interval -/
def intervalOf (a len : Int) (st : List (WTr β)) : List (WTr β) :=
  (st.filter fun t => (List.range len.toNat).any fun j : Nat => (t.sampleAt (a + j)).isSome).map fun t => t.trim a (a + len - 1)

/-- all traces reach from `s` to `e`, as after `preprocess_stream` -/
def Spans (s e : Int) (st : List (WTr β)) : Prop := ∀ t ∈ st, t.head.start = s ∧ t.stop = e

/-! ### Lemmas -/

theorem lt_ceilDiv (a b : Int) (hb : 0 < b) (k : Nat) : k < ceilDiv a b ↔ (k : Int) * b < a := by
  unfold ceilDiv
  rw [Int.lt_toNat]
  constructor
  · intro h
    have h1 : -a / b < -(k : Int) := by omega
    have := (Int.ediv_lt_iff_lt_mul hb).1 h1
    nlinarith
  · intro h
    have h1 : -a / b < -(k : Int) := (Int.ediv_lt_iff_lt_mul hb).2 (by nlinarith)
    omega

theorem trim_id (a b : Int) (t : WTr β) : (t.trim a b).id = t.id := rfl

theorem trim_sampleAt (a b : Int) (t : WTr β) (x : Int) : (t.trim a b).sampleAt x = if a ≤ x ∧ x ≤ b then t.sampleAt x else none :=
  trimGap_at a b (t.head.start, t.data) x

theorem sampleAt_outside (t : WTr β) (x : Int) (h : x < t.head.start ∨ t.stop < x) : t.sampleAt x = none := by
  unfold WTr.sampleAt GapTr.at
  unfold WTr.stop at h
  split
  · rfl
  · rw [List.getElem?_eq_none (by simp only at *; omega)]
    rfl

/-- cutting a part that contains the samples of the interval -/
theorem trim_trim (a b c d : Int) (t : WTr β) (h : ∀ x, a ≤ x → x ≤ b → t.head.start ≤ x → x ≤ t.stop → c ≤ x ∧ x ≤ d) :
    (t.trim c d).trim a b = t.trim a b := by
  have hh : ∀ x, a ≤ x → x ≤ b → (t.trim c d).sampleAt x = t.sampleAt x := by
    intro x h1 h2
    rw [trim_sampleAt]
    by_cases hx : t.head.start ≤ x ∧ x ≤ t.stop
    · rw [if_pos (h x h1 h2 hx.1 hx.2)]
    · rw [sampleAt_outside t x (by omega), ite_self]
  have hd : ((t.trim c d).trim a b).data = (t.trim a b).data := by
    change (List.range _).map _ = (List.range _).map _
    refine List.map_congr_left ?_
    intro k hk
    rw [List.mem_range] at hk
    exact hh (a + k) (by omega) (by omega)
  have : ∀ u v : WTr β, u.head = v.head → u.data = v.data → u = v := by
    rintro ⟨_, _⟩ ⟨_, _⟩ h1 h2
    simp only at h1 h2
    rw [h1, h2]
  exact this _ _ rfl hd

theorem trim_allMasked (a len : Int) (t : WTr β) :
    ((t.trim a (a + len - 1)).data.all (·.isNone)) = !((List.range len.toNat).any fun j : Nat => (t.sampleAt (a + j)).isSome) := by
  change ((List.range (a + len - 1 - a + 1).toNat).map fun k : Nat => t.sampleAt (a + k)).all _ = _
  rw [show a + len - 1 - a + 1 = len by omega, List.all_map, List.not_any_eq_all_not]
  congr 1
  funext k
  simp only [Function.comp]
  cases t.sampleAt (a + k) <;> rfl

theorem intervalOf_append (a len : Int) (st st' : List (WTr β)) : intervalOf a len (st ++ st') = intervalOf a len st ++ intervalOf a len st' := by
  simp [intervalOf]

theorem intervalOf_flatten (a len : Int) (sts : List (List (WTr β))) : (sts.map (intervalOf a len)).flatten = intervalOf a len sts.flatten := by
  induction sts with
  | nil => rfl
  | cons st sts ih => rw [List.map_cons, List.flatten_cons, ih, List.flatten_cons, intervalOf_append]

theorem foldl_min_start (ts : List (WTr β)) (s : Int) (h : ∀ u ∈ ts, u.head.start = s) : ts.foldl (fun m u => min m u.head.start) s = s := by
  induction ts with
  | nil => rfl
  | cons x ts ih =>
    rw [List.foldl_cons, h x (by simp), min_self]
    exact ih fun y hy => h y (by simp [hy])

theorem foldl_max_stop (ts : List (WTr β)) (e : Int) (h : ∀ u ∈ ts, u.stop = e) : ts.foldl (fun m u => max m u.stop) e = e := by
  induction ts with
  | nil => rfl
  | cons x ts ih =>
    rw [List.foldl_cons, h x (by simp), max_self]
    exact ih fun y hy => h y (by simp [hy])

theorem map_zipIdx_range {γ δ : Type} (n : Nat) (f : Nat → γ) (g : γ × Nat → δ) :
    ((List.range n).map f).zipIdx.map g = (List.range n).map fun k => g (f k, k) := by
  refine List.ext_getElem (by simp) ?_
  intro i h1 h2
  simp

/-! ### Theorems -/

/-- **C203** (streams whose traces all reach from `s` to `e`, as after preprocessing) The windows begin at `s`, `s + inc`, … before
`e`, and each holds the samples of its interval.
Missing: streams whose traces begin or end at different times, see the `c203_…_violated` theorems. -/
theorem c203_windows_partial [DecidableEq β] (len inc readLen s e : Int) (hl : 0 < len) (hi : 0 < inc) (st : List (WTr β)) (hne : st ≠ [])
    (hs : Spans s e st) :
    generateCorrInc len inc readLen st = (List.range (ceilDiv (e - s) inc)).map fun k : Nat => intervalOf (s + k * inc) len st := by
  obtain ⟨t, ts, rfl⟩ := List.exists_cons_of_ne_nil hne
  obtain ⟨ht1, ht2⟩ := hs t (by simp)
  have hsl : slideWindows len inc (t :: ts) =
      (List.range (ceilDiv (e - s) inc)).map fun k : Nat => sliceStream (s + k * inc) (s + k * inc + len - 1) (t :: ts) := by
    unfold slideWindows
    simp only
    rw [ht1, ht2, foldl_min_start ts s fun u hu => (hs u (by simp [hu])).1, foldl_max_stop ts e fun u hu => (hs u (by simp [hu])).2]
    refine List.filter_eq_self.2 ?_
    intro w hw
    obtain ⟨k, hk, rfl⟩ := List.mem_map.1 hw
    rw [List.mem_range, lt_ceilDiv _ _ hi] at hk
    have h0 : (0 : Int) ≤ k * inc := by positivity
    unfold sliceStream
    rw [List.filter_cons_of_pos (by rw [ht1, ht2]; exact decide_eq_true (by omega))]
    rfl
  unfold generateCorrInc
  simp only
  rw [hsl, map_zipIdx_range]
  refine List.map_congr_left ?_
  intro k hk
  rw [List.mem_range, lt_ceilDiv _ _ hi] at hk
  have h0 : (0 : Int) ≤ k * inc := by positivity
  simp only [ht1]
  have e1 : sliceStream (s + k * inc) (s + k * inc + len - 1) (t :: ts) =
      (t :: ts).map fun u => u.trim (max (s + k * inc) u.head.start) (min (s + k * inc + len - 1) u.stop) := by
    unfold sliceStream
    rw [List.filter_eq_self.2]
    intro u hu
    rw [(hs u hu).1, (hs u hu).2]
    exact decide_eq_true (by omega)
  rw [removeIf_eq, e1, List.map_map, List.filter_map, intervalOf]
  have e2 : ∀ u : WTr β, ((fun u : WTr β => u.trim (s + k * inc) (s + k * inc + len - 1)) ∘
      fun u => u.trim (max (s + k * inc) u.head.start) (min (s + k * inc + len - 1) u.stop)) u = u.trim (s + k * inc) (s + k * inc + len - 1) := by
    intro u
    exact trim_trim _ _ _ _ u fun x _ _ _ _ => by omega
  rw [List.map_congr_left fun u _ => e2 u]
  congr 1
  refine List.filter_congr ?_
  intro u _
  rw [Function.comp_apply, e2, trim_allMasked, Bool.not_not]

/-- **C203** (streams whose traces all reach from `s` to `e`) In terms of samples: the window with number `k` has `len` samples
beginning at `s + k * inc`. It holds a value for a channel and a time iff the time is in its interval and the stream has this value.
Every time before `e` is in a window if the windows are at least as long as the step, and in one only if they are as long.
Missing: see `c203_windows_partial`. -/
theorem c203_samples_partial [DecidableEq β] (len inc readLen s e : Int) (hl : 0 < len) (hi : 0 < inc) (st : List (WTr β)) (hne : st ≠ [])
    (hs : Spans s e st) :
    (∀ (k : Nat) (w : List (WTr β)), (generateCorrInc len inc readLen st)[k]? = some w →
      (∀ u ∈ w, u.head.start = s + k * inc ∧ u.data.length = len.toNat) ∧
      ∀ id x v, (∃ u ∈ w, u.id = id ∧ u.sampleAt x = some v) ↔
        (s + k * inc ≤ x ∧ x < s + k * inc + len) ∧ ∃ t ∈ st, t.id = id ∧ t.sampleAt x = some v) ∧
    ∀ x, s ≤ x → x < e →
      (inc ≤ len → ∃ k : Nat, k < (generateCorrInc len inc readLen st).length ∧ s + k * inc ≤ x ∧ x < s + k * inc + len) ∧
      (inc = len → ∀ k k' : Nat, s + k * inc ≤ x ∧ x < s + k * inc + len → s + k' * inc ≤ x ∧ x < s + k' * inc + len → k = k') := by
  rw [c203_windows_partial len inc readLen s e hl hi st hne hs]
  refine ⟨?_, ?_⟩
  · intro k w hw
    rw [List.getElem?_map, Option.map_eq_some_iff] at hw
    obtain ⟨k', hk', rfl⟩ := hw
    obtain ⟨_, rfl⟩ := List.getElem?_eq_some_iff.1 hk'
    rw [List.getElem_range]
    refine ⟨?_, ?_⟩
    · intro u hu
      obtain ⟨t, _, rfl⟩ := List.mem_map.1 hu
      refine ⟨rfl, ?_⟩
      change ((List.range _).map _).length = _
      rw [List.length_map, List.length_range]
      congr 1
      omega
    · intro id x v
      constructor
      · rintro ⟨u, hu, hid, hx⟩
        obtain ⟨t, ht, rfl⟩ := List.mem_map.1 hu
        rw [trim_sampleAt] at hx
        split at hx
        · next h => exact ⟨⟨h.1, by omega⟩, t, (List.mem_filter.1 ht).1, hid, hx⟩
        · cases hx
      · rintro ⟨⟨h1, h2⟩, t, ht, hid, hx⟩
        refine ⟨t.trim _ _, List.mem_map_of_mem (List.mem_filter.2 ⟨ht, ?_⟩), hid, ?_⟩
        · rw [List.any_eq_true]
          refine ⟨(x - (s + k * inc)).toNat, List.mem_range.2 (by omega), ?_⟩
          rw [show s + k * inc + ((x - (s + k * inc)).toNat : Int) = x by omega, hx]
          rfl
        · rw [trim_sampleAt, if_pos ⟨h1, by omega⟩, hx]
  · intro x h1 h2
    refine ⟨?_, ?_⟩
    · intro hle
      have hq : 0 ≤ (x - s) / inc := Int.ediv_nonneg (by omega) (by omega)
      have hm := Int.emod_add_mul_ediv (x - s) inc
      have hm1 := Int.emod_nonneg (x - s) (by omega : inc ≠ 0)
      have hm2 := Int.emod_lt_of_pos (x - s) hi
      have hk : (((x - s) / inc).toNat : Int) = (x - s) / inc := Int.toNat_of_nonneg hq
      have hmc := Int.mul_comm inc ((x - s) / inc)
      refine ⟨((x - s) / inc).toNat, ?_, ?_, ?_⟩
      · rw [List.length_map, List.length_range, lt_ceilDiv _ _ hi, hk]
        omega
      · rw [hk]; omega
      · rw [hk]; omega
    · intro hil k k' a b
      subst hil
      have h3 : (k : Int) * inc < (k' + 1) * inc := by linarith [a.1, b.2]
      have h4 : (k' : Int) * inc < (k + 1) * inc := by linarith [b.1, a.2]
      have h5 := lt_of_mul_lt_mul_right h3 hi.le
      have h6 := lt_of_mul_lt_mul_right h4 hi.le
      omega

/-- **C203** (processes) If the traces of all processes reach from `s` to `e` and the read period has as many increments, there is no
deadlock, and what is gathered in turn `k` are the samples of all processes in the same interval. Processes may have no data.
Missing: see `c203_windows_partial`. -/
theorem c203_processes_partial [DecidableEq β] (len inc readLen s e : Int) (hl : 0 < len) (hi : 0 < inc)
    (hread : ceilDiv readLen inc = ceilDiv (e - s) inc) (ranks : List (List (WTr β))) (hp : ranks ≠ []) (hs : ∀ st ∈ ranks, Spans s e st) :
    (gatherWindows len inc readLen ranks).map (fun turns => turns.map List.flatten) =
      some ((List.range (ceilDiv (e - s) inc)).map fun k : Nat => intervalOf (s + k * inc) len ranks.flatten) := by
  have h1 : ∀ st ∈ ranks, generateCorrInc len inc readLen st =
      (List.range (ceilDiv (e - s) inc)).map fun k : Nat => intervalOf (s + k * inc) len st := by
    intro st hst
    by_cases hne : st = []
    · subst hne
      unfold generateCorrInc
      simp only
      rw [hread]
      refine List.ext_getElem (by simp) ?_
      intro i _ _
      simp [intervalOf]
    · exact c203_windows_partial len inc readLen s e hl hi st hne (hs st hst)
  unfold gatherWindows
  simp only
  rw [List.map_congr_left h1]
  obtain ⟨st, sts, rfl⟩ := List.exists_cons_of_ne_nil hp
  rw [List.map_cons]
  simp only
  rw [if_pos]
  · simp only [Option.map_some, Option.some.injEq, List.map_map, List.length_map, List.length_range]
    refine List.map_congr_left ?_
    intro k hk
    rw [List.mem_range] at hk
    rw [← intervalOf_flatten]
    simp only [Function.comp, List.map_cons, List.map_map, List.flatten_cons]
    congr 1
    · simp [List.getD_eq_getElem?_getD, hk]
    · congr 1
      refine List.map_congr_left ?_
      intro u _
      simp [List.getD_eq_getElem?_getD, hk]
  · rw [List.all_eq_true]
    intro v hv
    obtain ⟨u, _, rfl⟩ := List.mem_map.1 hv
    simp

theorem intervalOf_onePerChannel (a len : Int) (hl : 0 < len) (st : List (WTr β)) (hd : (st.map fun t => (t.head.net, t.head.sta, t.head.loc, t.head.cha)).Nodup) (hc : ∀ t ∈ st, t.head.cha ≠ []) :
    OnePerChannel (intervalOf a len st) := by
  refine ⟨?_, ?_, ?_⟩
  · unfold intervalOf
    rw [List.map_map]
    exact hd.sublist (List.filter_sublist.map _)
  · intro t ht
    obtain ⟨u, _, rfl⟩ := List.mem_map.1 ht
    rw [← List.length_pos_iff]
    simp only [WTr.trim, WTr.with, trimGap, List.length_map, List.length_range]
    omega
  · intro t ht
    obtain ⟨u, hu, rfl⟩ := List.mem_map.1 ht
    exact hc u (List.mem_filter.1 hu).1

/-- **C203** (from the preprocessed streams of all processes to the correlations) If the traces of all processes reach from `s` to `e`
and each channel is one trace, then for every turn of the loop: the pairs that are correlated are pairs of traces with samples in the
interval of the turn, chosen as if one process had read everything, and the results are the correlations of the samples of this interval
(followed by one missing sample, since windows are cut to `len + 1` samples in the end), for any number of processes.
Missing: see `c203_windows_partial`. -/
theorem c203_correlations_partial {α γ : Type} [DecidableEq β] [Zero β] [AddCommMonoid α] [AddCommMonoid γ] (len inc readLen s e : Int) (hl : 0 < len)
    (hi : 0 < inc) (hread : ceilDiv readLen inc = ceilDiv (e - s) inc) (ranks : List (List (WTr β))) (hp : ranks ≠ [])
    (hs : ∀ st ∈ ranks, Spans s e st) (hd : (ranks.flatten.map fun t => (t.head.net, t.head.sta, t.head.loc, t.head.cha)).Nodup) (hch : ∀ t ∈ ranks.flatten, t.head.cha ≠ [])
    (fftsize width : Nat) (td : List (List β → List β)) (pad : List β → List β) (fft : List β → List α) (fd : List (List α → List α))
    (corr : Int → Int → List α → List α → List γ) (hfd : ∀ (a : Int) (t : WTr β), (traceSpectrum td pad fft fd (t.cut a (a + len))).length = fftsize)
    (hcorr : ∀ s s' x y, (corr s s' x y).length = width)
    (fiss : Int → Str) (ex : ExDict) (method : Str) (rcombis : Option (List Str)) (hm : method ∈ methods)
    (pre : List (WTr β) → Except PyErr (List (WTr β))) :
    ∃ turns, gatherWindows len inc readLen ranks = some turns ∧ turns.length = ceilDiv (e - s) inc ∧
      ∀ (k : Nat) (parts : List (List (WTr β))), turns[k]? = some parts →
        ∃ pairs : List (WTr β × WTr β),
          (∀ x ∈ pairs, x.1 ∈ intervalOf (s + k * inc) len ranks.flatten ∧ x.2 ∈ intervalOf (s + k * inc) len ranks.flatten) ∧
          windowPairs fiss ex method rcombis ((intervalOf (s + k * inc) len ranks.flatten).map WTr.head) =
            .ok (pairs.map fun x => (x.1.head, x.2.head)) ∧
          match windowStreams fiss ex method rcombis false pre (s + k * inc) (s + k * inc + len) parts with
          | .error _ => False
          | .ok none => pairs = []
          | .ok (some (own, combis)) => ∀ p, 0 < p →
            windowCorrelations p fftsize width (td.map rowStep) pad fft (fd.map rowStep) corr own combis =
              .ok (pairs.map fun x => pairResult td pad fft fd corr (x.1.cut (s + k * inc) (s + k * inc + len))
                (x.2.cut (s + k * inc) (s + k * inc + len))) := by
  have h := c203_processes_partial len inc readLen s e hl hi hread ranks hp hs
  rw [Option.map_eq_some_iff] at h
  obtain ⟨turns, h1, h2⟩ := h
  refine ⟨turns, h1, ?_, ?_⟩
  · have := congrArg List.length h2
    simpa using this
  · intro k parts hk
    have h3 : parts.flatten = intervalOf (s + k * inc) len ranks.flatten := by
      have h4 := congrArg (fun l => l[k]?) h2
      simp only [List.getElem?_map, hk, Option.map_some] at h4
      symm at h4
      rw [Option.map_eq_some_iff] at h4
      obtain ⟨k', hk', h5⟩ := h4
      obtain ⟨_, rfl⟩ := List.getElem?_eq_some_iff.1 hk'
      rw [← h5, List.getElem_range]
    have h4 := c202_plain fftsize width (s + k * inc) (s + k * inc + len) td pad fft fd corr (hfd _) hcorr fiss ex method rcombis hm false
      (fun h => by cases h) pre parts (by rw [h3]; exact intervalOf_onePerChannel _ _ hl _ hd hch)
    rw [h3] at h4
    exact h4

/-- **C203** The traces that `preprocess_stream` returns reach from its start to its end, so the theorems above hold for them. -/
theorem c203_preprocessed (o : WinOps β) (a b : Int) (hab : a ≤ b) (st w : List (WTr β)) (h : preprocessWin o a b st = .ok w) : Spans a b w := by
  unfold preprocessWin at h
  simp only [bind, Except.bind] at h
  split at h
  · cases h
  · split at h
    · cases h
    · split at h
      · cases h
        intro t ht
        cases ht
      · unfold afterGaps at h
        simp only [bind, Except.bind] at h
        split at h
        · cases h
        · cases h
          intro t ht
          obtain ⟨u, _, rfl⟩ := List.mem_map.1 (List.mem_filter.1 ht).1
          refine ⟨rfl, ?_⟩
          simp only [WTr.stop, WTr.with, trimGap, List.length_map, List.length_range]
          omega

/-! ### Violations -/

/-- a trace of the station with samples `start`, `start + 1`, … -/
def rampTr (sta : Str) (start : Int) (n : Nat) : WTr Int := ⟨⟨c!"XX", sta, [], c!"HHZ", start⟩, (List.range n).map fun k : Nat => some (start + k)⟩

/-- the hypotheses are met: two processes with two and one stations, one process without data; windows of 4 samples that overlap -/
example : let ranks := [[rampTr c!"AAA" 0 10, rampTr c!"BBB" 0 10], [rampTr c!"CCC" 0 10], []]
    (∀ st ∈ ranks, Spans 0 9 st) ∧ ceilDiv 10 2 = ceilDiv (9 - 0) 2 ∧
    (generateCorrInc 4 2 10 [rampTr c!"CCC" 0 10])[4]? = some [⟨⟨c!"XX", c!"CCC", [], c!"HHZ", 8⟩, [some 8, some 9, none, none]⟩] := by
  refine ⟨?_, by decide, by decide +kernel⟩
  unfold Spans
  decide +kernel

/-- **C203** is violated for windows that are preprocessed one by one (nothing is cut or padded before). The windows of a process begin
with its own data: if they begin 5 samples late, so do all its windows, and of the window with the samples 10 to 19 only half is left when
it is cut to its time. If they begin more than a window late, the process has a window less, and the others wait for it forever. -/
theorem c203_late_violated :
    generateCorrInc 10 10 30 [rampTr c!"AAA" 0 31] = [[rampTr c!"AAA" 0 10], [rampTr c!"AAA" 10 10], [rampTr c!"AAA" 20 10]] ∧
    (generateCorrInc 10 10 30 [rampTr c!"BBB" 5 26])[1]? = some [rampTr c!"BBB" 15 10] ∧
    ((rampTr c!"BBB" 15 10).trim 10 19).data = List.replicate 5 none ++ [some 15, some 16, some 17, some 18, some 19] ∧
    gatherWindows 10 10 30 [[rampTr c!"AAA" 0 31], [rampTr c!"BBB" 11 20]] = none := by
  refine ⟨by decide +kernel, by decide +kernel, by decide +kernel, by decide +kernel⟩

/-- **C203** is violated for windows that are preprocessed one by one: the trace that is first in the list is not the earliest one. The
windows begin with the earliest trace but are cut as if they began with the first one, so that of 10 samples in each window 5 are lost. -/
theorem c203_first_violated :
    generateCorrInc 10 10 30 [rampTr c!"AAA" 5 15, rampTr c!"BBB" 0 20] =
      [[(rampTr c!"AAA" 5 5).trim 5 14, (rampTr c!"BBB" 5 5).trim 5 14], [(rampTr c!"AAA" 15 5).trim 15 24, (rampTr c!"BBB" 15 5).trim 15 24]] := by
  decide +kernel

/-- **C203** is violated for windows that are preprocessed one by one: after a gap longer than a window all data are lost. -/
theorem c203_gap_violated :
    generateCorrInc 10 10 60 [rampTr c!"AAA" 0 10, rampTr c!"AAA" 40 21] = [[rampTr c!"AAA" 0 10], [], []] := by
  decide +kernel

end SeisMIC
