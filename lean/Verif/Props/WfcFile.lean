import Verif.Model.WfcFile
import Verif.Props.Header
import Verif.Props.Wfc

/-!
# C140: saving and reading waveform coherences
-/

namespace SeisMIC

/-! ### Specification -/

/-- a field of a header that can be saved with a coherence: one that can be saved with a result (`GoodField`), and whose name is not the name of another part of
the file: it is not `mean` or `file`, does not end in `_av` and does not contain `reftr` -/
def WfcField (kv : Str × HVal) : Prop :=
  GoodField kv ∧ kv.1 ≠ c!"mean" ∧ kv.1 ≠ c!"file" ∧ ¬ c!"_av" <:+ kv.1 ∧ ¬ c!"reftr" <:+: kv.1

/-- a coherence as `CorrBulk.wfc` computes it for `n` references with averages (`avg`) or without -/
structure WfcComputed (w : WfcObj) (n : Nat) (avg : Bool) (p : WfcParams) : Prop where
  panel : w.panel.map Prod.fst = (List.range n).map reftrKey
  av : w.av.map Prod.fst = if avg then (List.range n).map fun i => reftrKey i ++ c!"_av" else []
  proc : w.proc = [(c!"tw_start", p.twStart), (c!"tw_len", p.twLen), (c!"freq_min", p.freqMin), (c!"freq_max", p.freqMax)]
  header : ∀ kv ∈ w.header, WfcField kv
  keys : (w.header.map Prod.fst).Nodup

/-! ### Lemmas -/

theorem reftrKey_not_av (i : Nat) : ¬ c!"_av" <:+ reftrKey i := by
  rintro ⟨t, ht⟩
  have h1 : (t ++ c!"_av").getLast? = some 'v' := by simp
  rw [ht] at h1
  have hne : natDigits i ≠ [] := Nat.toDigits_ne_nil
  unfold reftrKey at h1
  rw [List.getLast?_append_of_ne_nil _ hne] at h1
  have hm : 'v' ∈ Nat.toDigits 10 i := List.mem_of_getLast? h1
  have := Nat.isDigit_of_mem_toDigits (by norm_num) (by norm_num) hm
  exact absurd this (by decide)

theorem part_reftr (i : Nat) : wfcPart (reftrKey i) = .panel := by
  unfold wfcPart
  rw [if_neg (by rw [List.isSuffixOf_iff_suffix]; exact reftrKey_not_av i), if_neg ?_, if_pos ⟨[], c!"_" ++ natDigits i, rfl⟩]
  unfold reftrKey
  simp

theorem part_av (k : Str) : wfcPart (k ++ c!"_av") = .av := by
  unfold wfcPart
  rw [if_pos (by rw [List.isSuffixOf_iff_suffix]; exact ⟨k, rfl⟩)]

theorem part_field (kv : Str × HVal) (h : WfcField kv) : wfcPart kv.1 = .stats := by
  unfold wfcPart
  rw [if_neg (by rw [List.isSuffixOf_iff_suffix]; exact h.2.2.2.1), if_neg h.2.1, if_neg h.2.2.2.2]

/-- the four names of the processing -/
def procNames : List Str := [c!"tw_start", c!"tw_len", c!"freq_min", c!"freq_max"]

theorem part_proc : ∀ k ∈ procNames, wfcPart k = .stats := by decide

theorem filter_all {α : Type} (l : List α) (p : α → Bool) (h : ∀ x ∈ l, p x = true) : l.filter p = l := List.filter_eq_self.2 h

theorem filter_none {α : Type} (l : List α) (p : α → Bool) (h : ∀ x ∈ l, p x = false) : l.filter p = [] :=
  List.filter_eq_nil_iff.2 fun x hx => by rw [h x hx]; exact Bool.false_ne_true

/-- the parts of a file -/
theorem wfc_parts {α : Type} (m : α) (A P S : List (Str × α)) (hA : ∀ kv ∈ A, wfcPart kv.1 = .av) (hP : ∀ kv ∈ P, wfcPart kv.1 = .panel)
    (hS : ∀ kv ∈ S, wfcPart kv.1 = .stats) :
    let file := (c!"mean", m) :: A ++ P ++ S
    (file.filter fun kv => wfcPart kv.1 = .av) = A ∧ (file.filter fun kv => wfcPart kv.1 = .mean) = [(c!"mean", m)] ∧
      (file.filter fun kv => wfcPart kv.1 = .panel) = P ∧ (file.filter fun kv => wfcPart kv.1 = .stats) = S := by
  intro file
  have hm : wfcPart c!"mean" = .mean := by decide
  have key : ∀ (L : List (Str × α)) (x y : WfcPart), (∀ kv ∈ L, wfcPart kv.1 = x) → (L.filter fun kv => wfcPart kv.1 = y) = if x = y then L else [] := by
    intro L x y h
    split
    · rename_i hxy
      exact filter_all _ _ fun kv hkv => by rw [h kv hkv]; exact decide_eq_true hxy
    · rename_i hxy
      exact filter_none _ _ fun kv hkv => by rw [h kv hkv]; exact decide_eq_false hxy
  have hM : ∀ kv ∈ [(c!"mean", m)], wfcPart kv.1 = .mean := by
    intro kv hkv
    rw [List.mem_singleton.1 hkv]
    exact hm
  have hf : ∀ y, (file.filter fun kv => wfcPart kv.1 = y) = (if WfcPart.mean = y then [(c!"mean", m)] else []) ++ (if WfcPart.av = y then A else []) ++
      (if WfcPart.panel = y then P else []) ++ (if WfcPart.stats = y then S else []) := by
    intro y
    rw [← key _ _ _ hA, ← key _ _ _ hP, ← key _ _ _ hS, ← key _ _ _ hM, ← List.filter_append, ← List.filter_append, ← List.filter_append]
    rfl
  refine ⟨?_, ?_, ?_, ?_⟩ <;> rw [hf] <;> simp

theorem lookup_append_right {β : Type} (l r : List (Str × β)) (k : Str) (h : k ∉ l.map Prod.fst) : (l ++ r).lookup k = r.lookup k := by
  induction l with
  | nil => rfl
  | cons e l ih =>
    obtain ⟨k', v⟩ := e
    simp only [List.map_cons, List.mem_cons, not_or] at h
    rw [List.cons_append, List.lookup_cons, beq_false_of_ne h.1]
    exact ih h.2

theorem enc_not_objs (rt : Int → Int) (kv : Str × HVal) (h : GoodField kv) : enc rt kv.2 ≠ .objs := by
  obtain ⟨-, h⟩ := h
  split at h
  · rcases h with ⟨t, h⟩ | ⟨l, h, -⟩ <;> rw [h] <;> simp [enc]
  · rcases h with ⟨t, h⟩ | ⟨l, h⟩ | ⟨l, h⟩ <;> rw [h] <;> simp [enc, toArray]

/-! ### Theorems -/

/-- **C140** (part) A coherence that is saved can be read, and then has the same coherences for each reference, the same averages and mean (also if they are not
computed yet), the same window and frequencies and the same header. Missing: headers with other fields (`c140_name_violated`, `c140_time_violated`). -/
theorem c140_round_trip_partial (rt : Int → Int) (w : WfcObj) (n : Nat) (avg : Bool) (p : WfcParams) (h : WfcComputed w n avg p) (ht : GoodTimes rt w.header) :
    ∃ file out, saveWfc rt w = .ok file ∧ readWfc file = .ok out ∧ SameHeader w.header out.header ∧
      out.panel = w.panel.map (fun kv => (kv.1, .panel kv.2)) ∧ out.av = w.av.map (fun kv => (kv.1, .value kv.2)) ∧
      (∀ x, w.mean = some x → out.mean = .value x) ∧ (w.mean = none → out.mean = .empty) ∧
      out.twStart = .value (some p.twStart) ∧ out.twLen = .value (some p.twLen) ∧ out.freqMin = .value (some p.freqMin) ∧
      out.freqMax = .value (some p.freqMax) := by
  have hg : ∀ kv ∈ w.header, GoodField kv := fun kv hkv => (h.header kv hkv).1
  have hproc : w.proc.map Prod.fst = procNames := by rw [h.proc]; rfl
  have hpn : ∀ k ∈ procNames, k ∈ noStats := by decide
  have hhk : ∀ k ∈ procNames, k ∉ w.header.map Prod.fst := by
    intro k hk hm
    obtain ⟨kv, hkv, rfl⟩ := List.mem_map.1 hm
    exact (hg kv hkv).1.1 (hpn _ hk)
  let H : List (Str × WArr) := w.header.map fun kv => (kv.1, WArr.np (enc rt kv.2))
  let Q : List (Str × WArr) := w.proc.map fun kv => (kv.1, WArr.value (some kv.2))
  let A : List (Str × WArr) := w.av.map fun kv => (kv.1, WArr.value kv.2)
  let P : List (Str × WArr) := w.panel.map fun kv => (kv.1, WArr.panel kv.2)
  let file : List (Str × WArr) := (c!"mean", meanArr w.mean) :: A ++ P ++ (H ++ Q)
  have hHk : H.map Prod.fst = w.header.map Prod.fst := by simp [H, Function.comp_def]
  have hQk : Q.map Prod.fst = procNames := by rw [← hproc]; simp [Q, Function.comp_def]
  have hAk : A.map Prod.fst = w.av.map Prod.fst := by simp [A, Function.comp_def]
  have hPk : P.map Prod.fst = (List.range n).map reftrKey := by rw [← h.panel]; simp [P, Function.comp_def]
  have hkw : dictSetAll H Q = H ++ Q := dictSetAll_new _ _ (by rw [hQk]; decide) fun k hk => by
    rw [hQk] at hk
    rw [hHk]
    exact hhk k hk
  have hA : ∀ k ∈ A.map Prod.fst, wfcPart k = .av := by
    intro k hk
    rw [hAk, h.av] at hk
    split at hk
    · obtain ⟨i, -, rfl⟩ := List.mem_map.1 hk
      exact part_av _
    · cases hk
  have hP : ∀ k ∈ P.map Prod.fst, wfcPart k = .panel := by
    intro k hk
    rw [hPk] at hk
    obtain ⟨i, -, rfl⟩ := List.mem_map.1 hk
    exact part_reftr i
  have hS : ∀ k ∈ (H ++ Q).map Prod.fst, wfcPart k = .stats := by
    intro k hk
    rw [List.map_append, List.mem_append, hHk, hQk] at hk
    rcases hk with hk | hk
    · obtain ⟨kv, hkv, rfl⟩ := List.mem_map.1 hk
      exact part_field kv (h.header kv hkv)
    · exact part_proc k hk
  have hAn : (A.map Prod.fst).Nodup := by
    rw [hAk, h.av]
    split
    · refine List.Nodup.map (fun i j hij => ?_) List.nodup_range
      exact reftrKey_injective (List.append_cancel_right hij)
    · exact List.nodup_nil
  have hPn : (P.map Prod.fst).Nodup := by
    rw [hPk]
    exact List.Nodup.map reftrKey_injective List.nodup_range
  have hSn : ((H ++ Q).map Prod.fst).Nodup := by
    rw [List.map_append, hHk, hQk, List.nodup_append]
    refine ⟨h.keys, by decide, ?_⟩
    rintro a ha b hb rfl
    exact hhk a hb ha
  have hm : wfcPart c!"mean" = .mean := by decide
  have hnodup : (file.map Prod.fst).Nodup := by
    simp only [file, List.map_append, List.map_cons]
    rw [List.nodup_append, List.cons_append, List.nodup_cons, List.nodup_append]
    refine ⟨⟨?_, hAn, hPn, ?_⟩, ?_, ?_⟩
    · intro hh
      rw [List.mem_append] at hh
      rcases hh with hh | hh
      · rw [hA _ hh] at hm; cases hm
      · rw [hP _ hh] at hm; cases hm
    · rintro a ha b hb rfl
      have := hA a ha
      rw [hP a hb] at this
      cases this
    · rw [← List.map_append]; exact hSn
    · rintro a ha b hb rfl
      rw [← List.map_append] at hb
      have hs := hS a hb
      rw [List.mem_cons, List.mem_append] at ha
      rcases ha with ha | ha | ha
      · rw [ha, hm] at hs; cases hs
      · rw [hA a ha] at hs; cases hs
      · rw [hP a ha] at hs; cases hs
  have hfile : c!"file" ∉ file.map Prod.fst := by
    have hfp : wfcPart c!"file" = .stats := by decide
    intro hh
    simp only [file, List.map_append, List.map_cons, List.mem_append, List.mem_cons] at hh
    rcases hh with ((hh | hh) | hh) | hh | hh
    · exact absurd hh (by decide)
    · rw [hA _ hh] at hfp; cases hfp
    · rw [hP _ hh] at hfp; cases hfp
    · rw [hHk] at hh
      obtain ⟨kv, hkv, he⟩ := List.mem_map.1 hh
      exact (h.header kv hkv).2.2.1 he
    · rw [hQk] at hh
      exact absurd hh (by decide)
  have hsave : saveWfc rt w = .ok file := by
    unfold saveWfc
    rw [saveHeader_good rt _ hg]
    simp only [bind, Except.bind, List.map_map, Function.comp_def]
    have hk' : dictSetAll (w.header.map fun kv => (kv.1, WArr.np (enc rt kv.2))) (w.proc.map fun kv => (kv.1, WArr.value (some kv.2))) = H ++ Q := hkw
    rw [hk']
    exact if_pos (⟨hnodup, hfile⟩ : (file.map Prod.fst).Nodup ∧ c!"file" ∉ file.map Prod.fst)
  obtain ⟨q1, q2, q3, q4⟩ := wfc_parts (meanArr w.mean) A P (H ++ Q) (fun kv hkv => hA _ (List.mem_map_of_mem hkv))
    (fun kv hkv => hP _ (List.mem_map_of_mem hkv)) (fun kv hkv => hS _ (List.mem_map_of_mem hkv))
  have hobj : (file.any fun kv => decide (kv.2 = .np .objs)) = false := by
    rw [List.any_eq_false]
    intro kv hkv
    simp only [decide_eq_true_eq]
    simp only [file, List.mem_append, List.mem_cons] at hkv
    rcases hkv with ((rfl | hkv) | hkv) | hkv | hkv
    · cases w.mean <;> simp [meanArr]
    · obtain ⟨x, -, rfl⟩ := List.mem_map.1 hkv; simp
    · obtain ⟨x, -, rfl⟩ := List.mem_map.1 hkv; simp
    · obtain ⟨x, hx, rfl⟩ := List.mem_map.1 hkv
      simpa using enc_not_objs rt x (hg x hx)
    · obtain ⟨x, -, rfl⟩ := List.mem_map.1 hkv; simp
  have hlk : ∀ k ∈ procNames, (H ++ Q).lookup k = Q.lookup k := fun k hk => lookup_append_right _ _ _ (by rw [hHk]; exact hhk k hk)
  have hQ : Q = [(c!"tw_start", .value (some p.twStart)), (c!"tw_len", .value (some p.twLen)), (c!"freq_min", .value (some p.freqMin)),
      (c!"freq_max", .value (some p.freqMax))] := by simp [Q, h.proc]
  have hload : loadHeader ((H ++ Q).map fun kv => (kv.1, kv.2.toNp)) = .ok (w.header.map fun kv => (kv.1, dec rt kv.2)) := by
    rw [List.map_append, loadHeader_append, loadHeader_skip (Q.map fun kv => (kv.1, kv.2.toNp))]
    · have : (H.map fun kv => (kv.1, kv.2.toNp)) = w.header.map fun kv => (kv.1, enc rt kv.2) := by simp [H, Function.comp_def, WArr.toNp]
      rw [this, loadHeader_good rt _ hg]
      simp [bind, Except.bind, pure, Except.pure]
    · intro kv hkv
      obtain ⟨x, hx, rfl⟩ := List.mem_map.1 hkv
      exact hpn _ (by rw [← hQk]; exact List.mem_map_of_mem hx)
  refine ⟨file, ⟨_, P, A, meanArr w.mean, .value (some p.twStart), .value (some p.twLen), .value (some p.freqMin), .value (some p.freqMax)⟩, hsave, ?_,
    sameHeader_dec rt _ ht, rfl, rfl, fun x hx => by rw [hx]; rfl, fun hx => by rw [hx]; rfl, rfl, rfl, rfl, rfl⟩
  unfold readWfc
  rw [hobj, q1, q2, q3, q4]
  have hst : ∀ k a, k ∈ procNames → Q.lookup k = some a → statsItem (H ++ Q) k = .ok a := by
    intro k a hk hq
    unfold statsItem
    rw [hlk k hk, hq]
  simp only [Bool.false_eq_true, if_false]
  rw [hst c!"tw_start" (.value (some p.twStart)) (by decide) (by rw [hQ]; rfl), hst c!"tw_len" (.value (some p.twLen)) (by decide) (by rw [hQ]; rfl),
    hst c!"freq_min" (.value (some p.freqMin)) (by decide) (by rw [hQ]; rfl), hst c!"freq_max" (.value (some p.freqMax)) (by decide) (by rw [hQ]; rfl), hload]
  rfl

/-- **C140** (violated). A field of the header whose name ends in `_av` is read as an average, and is missing in the header. -/
theorem c140_name_violated (rt : Int → Int) :
    let w : WfcObj := ⟨[(c!"gain_av", .num 2)], [], [], none, [(c!"tw_start", 1), (c!"tw_len", 1), (c!"freq_min", 1), (c!"freq_max", 2)]⟩
    ∃ file out, saveWfc rt w = .ok file ∧ readWfc file = .ok out ∧ out.header = [] ∧ out.av = [(c!"gain_av", .np (.nums [2]))] :=
  ⟨_, _, rfl, rfl, rfl, rfl⟩

/-- **C140** (violated). For a single correlation the list with its time is read as a time. -/
theorem c140_time_violated (rt : Int → Int) (t : Int) :
    let w : WfcObj := ⟨[(c!"corr_start", .times [t])], [], [], none, [(c!"tw_start", 1), (c!"tw_len", 1), (c!"freq_min", 1), (c!"freq_max", 2)]⟩
    ∃ file out, saveWfc rt w = .ok file ∧ readWfc file = .ok out ∧ out.header = [(c!"corr_start", .time (rt t))] :=
  ⟨_, _, rfl, rfl, rfl⟩

/-- **C140** (refused). A field of the header named like another part of the file, or like the parameter of the writing function, is refused: nothing is
written. -/
theorem c140_refused (rt : Int → Int) (w : WfcObj) (k : Str) (v : HVal) (hk : (k, v) ∈ w.header)
    (h : k = c!"mean" ∨ k = c!"file" ∨ k ∈ w.av.map Prod.fst ∨ k ∈ w.panel.map Prod.fst) : ∃ e, saveWfc rt w = .error e := by
  unfold saveWfc
  cases hs : saveHeader rt w.header with
  | error e => exact ⟨e, rfl⟩
  | ok a =>
    simp only [bind, Except.bind]
    have hkeys : ∀ (h : List (Str × HVal)) a, saveHeader rt h = .ok a → a.map Prod.fst = h.map Prod.fst := by
      intro h
      induction h with
      | nil => intro a ha; cases ha; rfl
      | cons e h ih =>
        obtain ⟨k, v⟩ := e
        intro a ha
        unfold saveHeader at ha
        have hfin : ∀ x, (do let r ← saveHeader rt h; pure ((k, x) :: r) : Except PyErr (List (Str × NpArr))) = .ok a → a.map Prod.fst = ((k, v) :: h).map Prod.fst := by
          intro x hx
          cases h2 : saveHeader rt h with
          | error e => rw [h2] at hx; cases hx
          | ok r =>
            rw [h2] at hx
            cases hx
            rw [List.map_cons, ih r h2, List.map_cons]
        simp only at ha
        split at ha
        · cases h1 : toTimestamps rt v with
          | error e => rw [h1] at ha; cases ha
          | ok x => rw [h1] at ha; exact hfin x ha
        · exact hfin _ ha
    have hka : k ∈ a.map Prod.fst := by rw [hkeys _ _ hs]; exact List.mem_map_of_mem hk
    have hset : ∀ (u : List (Str × WArr)) (d : List (Str × WArr)), k ∈ d.map Prod.fst → k ∈ (dictSetAll d u).map Prod.fst := by
      intro u
      induction u with
      | nil => exact fun d h => h
      | cons e u ih =>
        intro d hd
        refine ih _ ?_
        clear ih
        induction d with
        | nil => cases hd
        | cons x d ih =>
          unfold dictSet
          obtain ⟨k', v'⟩ := x
          simp only
          split
          · rename_i hkk
            rw [← hkk]
            simpa using hd
          · simp only [List.map_cons, List.mem_cons] at hd ⊢
            exact hd.imp_right ih
    have hm := hset (w.proc.map fun kv => (kv.1, WArr.value (some kv.2))) (a.map fun kv => (kv.1, WArr.np kv.2)) (by simpa [Function.comp_def] using hka)
    refine ⟨.typeError, if_neg ?_⟩
    rintro ⟨hn, hf⟩
    simp only [List.map_append, List.map_cons, List.map_map, Function.comp_def] at hn hf
    rcases h with rfl | rfl | h | h
    · rw [List.nodup_append] at hn
      exact hn.2.2 _ (by simp) _ hm rfl
    · exact hf (List.mem_append_right _ hm)
    · rw [List.nodup_append] at hn
      exact hn.2.2 k (List.mem_append_left _ (List.mem_cons_of_mem _ h)) _ hm rfl
    · rw [List.nodup_append] at hn
      exact hn.2.2 k (List.mem_append_right _ h) _ hm rfl

theorem statsItem_missing (file : List (Str × WArr)) (k : Str) (h : k ∉ file.map Prod.fst) :
    statsItem (file.filter fun kv => wfcPart kv.1 = .stats) k = .error .keyError := by
  have : (file.filter fun kv => wfcPart kv.1 = .stats).lookup k = none := by
    rw [List.lookup_eq_none_iff]
    intro kv hkv
    have hm : kv.1 ∈ file.map Prod.fst := List.mem_map.2 ⟨kv, (List.mem_filter.1 hkv).1, rfl⟩
    simp only [bne_iff_ne, ne_eq]
    exact fun e => h (e ▸ hm)
  unfold statsItem
  rw [this]

/-- **C140** (missing parts). A file without the mean, the lapse window or the frequency band is refused, whatever else it contains. -/
theorem c140_missing (file : List (Str × WArr)) (k : Str)
    (hk : k = c!"mean" ∨ k = c!"tw_start" ∨ k = c!"tw_len" ∨ k = c!"freq_min" ∨ k = c!"freq_max") (h : k ∉ file.map Prod.fst) :
    ∃ e, readWfc file = .error e := by
  cases hr : readWfc file with
  | error e => exact ⟨e, rfl⟩
  | ok out =>
    exfalso
    unfold readWfc at hr
    simp only [bind, Except.bind, pure, Except.pure] at hr
    rcases hk with rfl | hk
    · have hm : (file.filter fun kv => wfcPart kv.1 = .mean) = [] := by
        rw [List.filter_eq_nil_iff]
        intro kv hkv hp
        apply h
        have hp' := of_decide_eq_true hp
        unfold wfcPart at hp'
        split at hp'
        · cases hp'
        · split at hp'
          · rename_i e
            exact e ▸ List.mem_map.2 ⟨kv, hkv, rfl⟩
          · split at hp' <;> cases hp'
      rw [hm] at hr
      repeat' split at hr
      all_goals first | (rename_i hq; simp at hq; done) | cases hr
    · have hs := statsItem_missing file k h
      rcases hk with rfl | rfl | rfl | rfl <;> rw [hs] at hr <;> repeat' split at hr
      all_goals contradiction

/-- a file without the length of the lapse window -/
example : readWfc [(c!"mean", .empty), (c!"tw_start", .value (some 1)), (c!"freq_min", .value (some 1)), (c!"freq_max", .value (some 2))] = .error .keyError := by
  decide +kernel

/-- **C140** (patterns). A path with a `*` is read as the list of all matching files in the order of the listing; a file that can't be read makes all of it fail.
Other paths are read as one file. -/
theorem c140_pattern (glob : Str → List Str) (load : Str → Except PyErr (List (Str × WArr))) (path : Str) (hg : ∀ p ∈ glob path, '*' ∉ p) (n : Nat) :
    readWfcPath glob load (n + 2) path =
      some (if '*' ∈ path then ((glob path).mapM fun p => (load p).bind readWfc).map fun l => .many (l.map .one) else ((load path).bind readWfc).map .one) := by
  rw [readWfcPath]
  split
  · have : ∀ l : List Str, (∀ p ∈ l, '*' ∉ p) → readWfcPath.go glob load (n + 1) l = some ((l.mapM fun p => (load p).bind readWfc).map fun l => l.map .one) := by
      intro l
      induction l with
      | nil => intro _; rw [readWfcPath.go]; rfl
      | cons p l ih =>
        intro h
        rw [readWfcPath.go, readWfcPath, if_neg (h p (by simp)), ih fun q hq => h q (by simp [hq])]
        rw [List.mapM_cons]
        cases (load p).bind readWfc with
        | error e => rfl
        | ok w =>
          cases hl : l.mapM fun p => (load p).bind readWfc <;> rfl
    rw [this _ hg]
    cases (glob path).mapM fun p => (load p).bind readWfc <;> rfl
  · rfl

/-- **C140** (violated). A file whose name contains a `*` can't be read, whatever it contains: no number of nested calls is enough. -/
theorem c140_star_violated (glob : Str → List Str) (load : Str → Except PyErr (List (Str × WArr))) (path : Str) (h : '*' ∈ path) (hg : path ∈ glob path)
    (n : Nat) (r : WfcRead) : readWfcPath glob load n path ≠ some (.ok r) := by
  induction n generalizing r with
  | zero => rw [readWfcPath]; exact nofun
  | succ n ih =>
    rw [readWfcPath, if_pos h]
    have : ∀ l : List Str, path ∈ l → ∀ rs, readWfcPath.go glob load n l ≠ some (.ok rs) := by
      intro l
      induction l with
      | nil => exact fun hm => absurd hm List.not_mem_nil
      | cons p l ihl =>
        intro hm rs
        rw [readWfcPath.go]
        cases hp : readWfcPath glob load n p with
        | none => exact nofun
        | some x =>
          cases x with
          | error e => exact nofun
          | ok w =>
            rcases List.mem_cons.1 hm with rfl | hm
            · exact absurd hp (ih w)
            · simp only
              cases hl : readWfcPath.go glob load n l with
              | none => exact nofun
              | some y =>
                cases y with
                | error e => exact nofun
                | ok ws => exact absurd hl (ihl hm ws)
    cases hl : readWfcPath.go glob load n (glob path) with
    | none => exact nofun
    | some y =>
      cases y with
      | error e => exact nofun
      | ok ws => exact absurd hl (this _ hg ws)

/-- a coherence with two references -/
example : WfcComputed ⟨[(c!"network", .str c!"AB-AB"), (c!"corr_start", .times [0, 1000])], [(reftrKey 0, [[some 1, none]]), (reftrKey 1, [[some (1 / 2), some 1]])],
    [(reftrKey 0 ++ c!"_av", some 1), (reftrKey 1 ++ c!"_av", some (3 / 4))], some (some (7 / 8)),
    [(c!"tw_start", 5), (c!"tw_len", 10), (c!"freq_min", 1), (c!"freq_max", 2)]⟩ 2 true ⟨1, 2, 5, 10⟩ := by
  refine ⟨rfl, rfl, rfl, ?_, by decide⟩
  intro kv hkv
  simp only [List.mem_cons, List.not_mem_nil, or_false] at hkv
  unfold WfcField GoodField
  rcases hkv with rfl | rfl
  · refine ⟨⟨by decide, ?_⟩, by decide, by decide, by decide, by decide⟩
    rw [if_neg (by decide)]
    exact .inr (.inl ⟨_, rfl⟩)
  · refine ⟨⟨by decide, ?_⟩, by decide, by decide, by decide, by decide⟩
    rw [if_pos (by decide)]
    exact .inr ⟨_, rfl, by decide⟩

end SeisMIC
