import Verif.Model.Header
import Mathlib.Data.List.Forall2

/-!
# C56: saving and reading results
-/

namespace SeisMIC

/-! ### Specification -/

/-- a time rounded to microseconds, the precision of the comparison of times -/
def usec (t : Int) : Int := (t + 500) / 1000

/-- the same value; times are compared to the microsecond -/
def SameVal : HVal → HVal → Prop
  | .time s, .time t => usec s = usec t
  | .times l, .times m => l.map usec = m.map usec
  | a, b => a = b

/-- the four names of times in a header -/
def timeNames : List Str := [c!"starttime", c!"endtime", c!"corr_start", c!"corr_end"]

/-- the fields of a header that are saved and read: times (one time, or a list of several times)
under the four names for times, numbers, strings and lists of numbers under other names, that
are not names of other parts of the results -/
def GoodField (kv : Str × HVal) : Prop :=
  (kv.1 ∉ noStats ∧ c!"reftr".isPrefixOf kv.1 = false ∧ kv.1 ∉ [c!"stretches", c!"corrs", c!"n_stat"]) ∧
  if kv.1 ∈ timeNames then (∃ t, kv.2 = .time t) ∨ (∃ l, kv.2 = .times l ∧ l.length ≠ 1)
  else (∃ q, kv.2 = .num q) ∨ (∃ s, kv.2 = .str s) ∨ ∃ l, kv.2 = .nums l

/-- the times of a value -/
def HVal.timesOf : HVal → List Int
  | .time t => [t]
  | .times l => l
  | _ => []

/-- `b` is `a` after saving and reading: the same fields in the same order with the same values -/
def SameHeader (a b : List (Str × HVal)) : Prop := List.Forall₂ (fun x y => x.1 = y.1 ∧ SameVal x.2 y.2) a b

/-- timestamps are exact to half a microsecond, and the times of the header are whole
microseconds -/
def GoodTimes (rt : Int → Int) (h : List (Str × HVal)) : Prop :=
  ∀ kv ∈ h, ∀ t ∈ kv.2.timesOf, t % 1000 = 0 ∧ -500 ≤ rt t - t ∧ rt t - t < 500

/-! ### Lemmas -/

def enc (rt : Int → Int) : HVal → NpArr
  | .time t => .stamps [rt t]
  | .times l => .stamps (l.map rt)
  | v => toArray v

def dec (rt : Int → Int) : HVal → HVal
  | .time t => .time (rt t)
  | .times l => .times (l.map rt)
  | v => v

theorem saveHeader_good (rt : Int → Int) (h : List (Str × HVal)) (hg : ∀ kv ∈ h, GoodField kv) :
    saveHeader rt h = .ok (h.map fun kv => (kv.1, enc rt kv.2)) := by
  induction h with
  | nil => rfl
  | cons kv h ih =>
    obtain ⟨k, v⟩ := kv
    have hk := (hg (k, v) (by simp)).2
    simp only at hk
    unfold saveHeader
    rw [ih fun kv hkv => hg kv (by simp [hkv])]
    split at hk
    · rename_i ht
      rw [if_pos (show k ∈ timeKeys from ht)]
      rcases hk with ⟨t, rfl⟩ | ⟨l, rfl, _⟩ <;> rfl
    · rename_i ht
      rw [if_neg (show k ∉ timeKeys from ht)]
      rcases hk with ⟨t, rfl⟩ | ⟨l, rfl⟩ | ⟨l, rfl⟩ <;> rfl

theorem loadHeader_good (rt : Int → Int) (h : List (Str × HVal)) (hg : ∀ kv ∈ h, GoodField kv) :
    loadHeader (h.map fun kv => (kv.1, enc rt kv.2)) = .ok (h.map fun kv => (kv.1, dec rt kv.2)) := by
  induction h with
  | nil => rfl
  | cons kv h ih =>
    obtain ⟨k, v⟩ := kv
    obtain ⟨⟨hk1, hk2, -⟩, hk⟩ := hg (k, v) (by simp)
    simp only at hk hk1 hk2
    simp only [List.map_cons]
    unfold loadHeader
    rw [ih fun kv hkv => hg kv (by simp [hkv]), if_neg (by rw [hk2]; simp [hk1])]
    split at hk
    · rename_i ht
      rw [if_pos (show k ∈ timeKeys from ht)]
      rcases hk with ⟨t, rfl⟩ | ⟨l, rfl, hl⟩
      · rfl
      · match l, hl with
        | [], _ => rfl
        | a :: b :: l, _ => rfl
    · rename_i ht
      rw [if_neg (show k ∉ timeKeys from ht)]
      rcases hk with ⟨t, rfl⟩ | ⟨l, rfl⟩ | ⟨l, rfl⟩ <;> rfl

theorem loadHeader_append (a b : List (Str × NpArr)) :
    loadHeader (a ++ b) = (do let x ← loadHeader a; let y ← loadHeader b; pure (x ++ y)) := by
  induction a with
  | nil =>
    simp only [List.nil_append, loadHeader, bind, Except.bind, pure, Except.pure]
    cases loadHeader b <;> rfl
  | cons kv a ih =>
    obtain ⟨k, v⟩ := kv
    simp only [List.cons_append]
    rw [loadHeader.eq_2, loadHeader.eq_2]
    split
    · exact ih
    · split
      · rw [ih]
        cases fromTimestamps v <;> simp only [bind, Except.bind]
        cases loadHeader a <;> simp only [pure, Except.pure]
        cases loadHeader b <;> rfl
      · cases firstElement v with
        | error e => rfl
        | ok o =>
          cases o with
          | none => exact ih
          | some w =>
            simp only [bind, Except.bind]
            rw [ih]
            simp only [bind, Except.bind]
            cases loadHeader a <;> simp only [pure, Except.pure]
            cases loadHeader b <;> rfl

theorem loadHeader_skip (a : List (Str × NpArr)) (h : ∀ kv ∈ a, kv.1 ∈ noStats) : loadHeader a = .ok [] := by
  induction a with
  | nil => rfl
  | cons kv a ih =>
    obtain ⟨k, v⟩ := kv
    unfold loadHeader
    rw [if_pos (.inl (h (k, v) (by simp)))]
    exact ih fun kv hkv => h kv (by simp [hkv])

theorem usec_rt (t r : Int) (h : t % 1000 = 0 ∧ -500 ≤ r - t ∧ r - t < 500) : usec r = usec t := by
  unfold usec; omega

theorem sameHeader_dec (rt : Int → Int) (h : List (Str × HVal)) (ht : GoodTimes rt h) :
    SameHeader h (h.map fun kv => (kv.1, dec rt kv.2)) := by
  unfold SameHeader
  induction h with
  | nil => exact .nil
  | cons kv h ih =>
    refine .cons ⟨rfl, ?_⟩ (ih fun kv hkv => ht kv (by simp [hkv]))
    have hkv := ht kv (by simp)
    obtain ⟨k, v⟩ := kv
    cases v with
    | time t =>
      show usec t = usec (rt t)
      exact (usec_rt _ _ (hkv t (by simp [HVal.timesOf]))).symm
    | times l =>
      show l.map usec = (l.map rt).map usec
      rw [List.map_map]
      refine List.map_congr_left ?_
      intro t htl
      exact (usec_rt _ _ (hkv t htl)).symm
    | num q => rfl
    | str s => rfl
    | nums l => rfl
    | obj => rfl

/-! ### Correlations -/

/-- **C56** (part) Saving a matrix of correlations and reading it again gives the same header and
the same data. Missing: a list with a single time, fields with other names or objects
(`c56_single_violated`, `c56_object_violated`). -/
theorem c56_bulk_partial (rt : Int → Int) (h : List (Str × HVal)) (data : List (List F))
    (hg : ∀ kv ∈ h, GoodField kv) (ht : GoodTimes rt h) :
    ∃ file h', saveBulk rt h data = .ok file ∧ readBulk file = .ok (h', .mat data) ∧ SameHeader h h' := by
  have hd : ((h.map fun kv => (kv.1, enc rt kv.2)).map Prod.fst).contains c!"data" = false := by
    rw [Bool.eq_false_iff, ne_eq, List.contains_iff_mem]
    intro hm
    simp only [List.map_map, List.mem_map, Function.comp] at hm
    obtain ⟨kv, hkv, he⟩ := hm
    exact (hg kv hkv).1.1 (by rw [he]; decide)
  refine ⟨(c!"data", .mat data) :: h.map fun kv => (kv.1, enc rt kv.2), h.map fun kv => (kv.1, dec rt kv.2), ?_, ?_,
    sameHeader_dec rt h ht⟩
  · unfold saveBulk
    rw [saveHeader_good rt h hg]
    simp only [bind, Except.bind]
    rw [hd]
    rfl
  · unfold readBulk
    rw [show ((c!"data", NpArr.mat data) :: h.map fun kv => (kv.1, enc rt kv.2)) =
      [(c!"data", NpArr.mat data)] ++ h.map fun kv => (kv.1, enc rt kv.2) from rfl, loadHeader_append,
      loadHeader_skip [(c!"data", NpArr.mat data)] (by intro kv hkv; rw [List.mem_singleton.1 hkv]; exact (by decide : c!"data" ∈ noStats)), loadHeader_good rt h hg]
    rfl

/-- **C56** Correlations whose header has a field with the name `data`, which is the name of the
matrix in the file, are refused: the call fails and nothing is written. -/
theorem c56_data_refused (rt : Int → Int) (h : List (Str × HVal)) (data : List (List F)) (v : HVal)
    (hv : (∃ q, v = .num q) ∨ (∃ s, v = .str s) ∨ ∃ l, v = .nums l) (hg : ∀ kv ∈ h, GoodField kv) :
    saveBulk rt ((c!"data", v) :: h) data = .error .typeError := by
  unfold saveBulk saveHeader
  rw [saveHeader_good rt h hg]
  rcases hv with ⟨q, rfl⟩ | ⟨q, rfl⟩ | ⟨q, rfl⟩ <;> rfl

/-- **C56** is violated: a list with one time is read as a time, whatever the time is. -/
theorem c56_single_violated (rt : Int → Int) (k : Str) (hk : k ∈ timeNames) (t : Int) :
    ∃ file, saveHeader rt [(k, .times [t])] = .ok file ∧ loadHeader file = .ok [(k, .time (rt t))] := by
  have hn : ¬ (k ∈ noStats ∨ c!"reftr".isPrefixOf k = true) := by
    revert k
    decide
  refine ⟨[(k, .stamps [rt t])], ?_, ?_⟩
  · unfold saveHeader
    rw [if_pos (show k ∈ timeKeys from hk)]
    rfl
  · unfold loadHeader
    rw [if_neg hn, if_pos (show k ∈ timeKeys from hk)]
    rfl

/-- **C56** is violated: a header with an object (None, a dictionary) is saved without an error,
but the file cannot be read. -/
theorem c56_object_violated (rt : Int → Int) (h : List (Str × HVal)) (k : Str) (hg : ∀ kv ∈ h, GoodField kv)
    (hk : k ∉ timeNames ∧ k ∉ noStats ∧ c!"reftr".isPrefixOf k = false) (data : List (List F)) :
    ∃ file, saveBulk rt (h ++ [(k, .obj)]) data = .ok file ∧ readBulk file = .error .valueError := by
  have hs : ∀ a b, saveHeader rt (a ++ b) = (do let x ← saveHeader rt a; let y ← saveHeader rt b; pure (x ++ y)) := by
    intro a b
    induction a with
    | nil =>
      simp only [List.nil_append, saveHeader, bind, Except.bind, pure, Except.pure]
      cases saveHeader rt b <;> rfl
    | cons kv a ih =>
      obtain ⟨k, v⟩ := kv
      simp only [List.cons_append]
      rw [saveHeader.eq_2, saveHeader.eq_2, ih]
      simp only [bind, Except.bind, pure, Except.pure]
      by_cases hkt : k ∈ timeKeys
      · simp only [if_pos hkt]
        cases toTimestamps rt v <;> try rfl
        cases saveHeader rt a <;> cases saveHeader rt b <;> rfl
      · simp only [if_neg hkt]
        cases saveHeader rt a <;> cases saveHeader rt b <;> rfl
  have hso : saveHeader rt [(k, .obj)] = .ok [(k, .objs)] := by
    unfold saveHeader
    rw [if_neg (show k ∉ timeKeys from hk.1)]
    rfl
  have hd : (((h.map fun kv => (kv.1, enc rt kv.2)) ++ [(k, NpArr.objs)]).map Prod.fst).contains c!"data" = false := by
    rw [Bool.eq_false_iff, ne_eq, List.contains_iff_mem]
    intro hm
    simp only [List.map_append, List.map_map, List.mem_append, List.mem_map, Function.comp] at hm
    rcases hm with ⟨kv, hkv, he⟩ | ⟨kv, hkv, he⟩
    · exact (hg kv hkv).1.1 (by rw [he]; decide)
    · rw [List.mem_singleton.1 hkv] at he
      have he : k = c!"data" := he
      exact hk.2.1 (by rw [he]; decide)
  refine ⟨[(c!"data", .mat data)] ++ ((h.map fun kv => (kv.1, enc rt kv.2)) ++ [(k, .objs)]), ?_, ?_⟩
  · unfold saveBulk
    rw [hs, saveHeader_good rt h hg, hso]
    simp only [bind, Except.bind, pure, Except.pure]
    rw [hd]
    rfl
  · have hl : loadHeader [(k, .objs)] = .error .valueError := by
      unfold loadHeader
      rw [if_neg (by rw [hk.2.2]; simp [hk.2.1]), if_neg (show k ∉ timeKeys from hk.1)]
      rfl
    unfold readBulk
    rw [loadHeader_append, loadHeader_append,
      loadHeader_skip [(c!"data", NpArr.mat data)] (by intro kv hkv; rw [List.mem_singleton.1 hkv]; exact (by decide : c!"data" ∈ noStats)),
      loadHeader_good rt h hg, hl]
    rfl

/-! ### Velocity changes -/

theorem dictSet_new {V : Type} (d : List (Str × V)) (k : Str) (v : V) (h : k ∉ d.map Prod.fst) :
    dictSet d k v = d ++ [(k, v)] := by
  induction d with
  | nil => rfl
  | cons e d ih =>
    obtain ⟨k', v'⟩ := e
    simp only [List.map_cons, List.mem_cons, not_or] at h
    unfold dictSet
    rw [if_neg (fun hh => h.1 hh.symm), ih h.2]
    rfl

theorem dictSetAll_new {V : Type} (d u : List (Str × V)) (hn : (u.map Prod.fst).Nodup)
    (h : ∀ k ∈ u.map Prod.fst, k ∉ d.map Prod.fst) : dictSetAll d u = d ++ u := by
  unfold dictSetAll
  induction u generalizing d with
  | nil => simp
  | cons e u ih =>
    simp only [List.map_cons, List.nodup_cons] at hn
    rw [List.foldl_cons, dictSet_new _ _ _ (h e.1 (by simp)), ih _ hn.2]
    · simp
    · intro k hk hm
      simp only [List.map_append, List.mem_append] at hm
      rcases hm with hm | hm
      · exact h k (by simp [hk]) hm
      · simp only [List.map_cons, List.map_nil, List.mem_singleton] at hm
        rw [hm] at hk
        exact hn.1 hk

/-- names of the fields that a result adds -/
def resultNames : List Str := [c!"freq_min", c!"freq_max", c!"tw_len", c!"tw_start", c!"sides", c!"aligned",
  c!"method_array", c!"vt_array", c!"corr", c!"value", c!"sim_mat", c!"second_axis", c!"stretches", c!"corrs", c!"n_stat"]

theorem good_not_result (kv : Str × HVal) (h : GoodField kv) : kv.1 ∉ resultNames := by
  obtain ⟨⟨h1, -, h3⟩, -⟩ := h
  intro hm
  have : ∀ k ∈ resultNames, k ∈ noStats ∨ k ∈ [c!"stretches", c!"corrs", c!"n_stat"] := by decide
  rcases this _ hm with h | h
  · exact h1 h
  · exact h3 h

def present (l : List (Str × Option NpArr)) : List (Str × NpArr) := l.filterMap fun kv => kv.2.map fun v => (kv.1, v)

theorem saveDv_good (rt : Int → Int) (r : DvRes) (hg : ∀ kv ∈ r.header, GoodField kv) :
    saveDv rt r = .ok ((r.header.map fun kv => (kv.1, enc rt kv.2)) ++ (present (procFields r.proc) ++ present (resultFields r))) := by
  have hp : ∀ k ∈ (procFields r.proc).map Prod.fst, k ∈ resultNames := by
    cases r.proc with
    | none => intro k hk; cases hk
    | some p =>
      show ∀ k ∈ [c!"freq_min", c!"freq_max", c!"tw_len", c!"tw_start", c!"sides", c!"aligned"], k ∈ resultNames
      decide
  have hpn : ((procFields r.proc).map Prod.fst).Nodup := by
    cases r.proc with
    | none => exact List.nodup_nil
    | some p =>
      show [c!"freq_min", c!"freq_max", c!"tw_len", c!"tw_start", c!"sides", c!"aligned"].Nodup
      decide
  have hr : (resultFields r).map Prod.fst = [c!"method_array", c!"vt_array", c!"corr", c!"value", c!"sim_mat", c!"second_axis",
    c!"stretches", c!"corrs", c!"n_stat"] := rfl
  have hh : ∀ k ∈ resultNames, k ∉ ((r.header.map fun kv => (kv.1, enc rt kv.2)).map fun kv => (kv.1, some kv.2)).map Prod.fst := by
    intro k hk hm
    simp only [List.map_map, List.mem_map, Function.comp] at hm
    obtain ⟨kv, hkv, he⟩ := hm
    exact good_not_result kv (hg kv hkv) (by rw [he]; exact hk)
  unfold saveDv
  rw [saveHeader_good rt r.header hg]
  simp only [bind, Except.bind, pure, Except.pure]
  rw [dictSetAll_new _ (procFields r.proc) hpn (fun k hk => hh k (hp k hk)), dictSetAll_new]
  · rw [List.filterMap_append, List.filterMap_append, List.append_assoc]
    congr 2
    rw [List.filterMap_map]
    induction r.header with
    | nil => rfl
    | cons kv h ih => simp
  · rw [hr]; decide
  · rw [hr]
    intro k hk hm
    simp only [List.map_append, List.mem_append] at hm
    rcases hm with hm | hm
    · exact hh k ((show ∀ k ∈ [c!"method_array", c!"vt_array", c!"corr", c!"value", c!"sim_mat", c!"second_axis",
        c!"stretches", c!"corrs", c!"n_stat"], k ∈ resultNames by decide) k hk) hm
    · have hp' : ∀ k ∈ (procFields r.proc).map Prod.fst, k ∈ [c!"freq_min", c!"freq_max", c!"tw_len", c!"tw_start", c!"sides", c!"aligned"] := by
        cases r.proc with
        | none => intro k hk; cases hk
        | some p => exact fun k hk => hk
      exact (show ∀ k ∈ [c!"method_array", c!"vt_array", c!"corr", c!"value", c!"sim_mat", c!"second_axis",
        c!"stretches", c!"corrs", c!"n_stat"], k ∉ [c!"freq_min", c!"freq_max", c!"tw_len", c!"tw_start", c!"sides", c!"aligned"] by
        decide) k hk (hp' k hm)

theorem lookup_header (rt : Int → Int) (h : List (Str × HVal)) (hg : ∀ kv ∈ h, GoodField kv) (b : List (Str × NpArr))
    (k : Str) (hk : k ∈ resultNames) :
    ((h.map fun kv => (kv.1, enc rt kv.2)) ++ b).lookup k = b.lookup k := by
  induction h with
  | nil => rfl
  | cons kv h ih =>
    have hne : (k == kv.1) = false := by
      have := good_not_result kv (hg kv (by simp))
      simp only [beq_eq_false_iff_ne, ne_eq]
      rintro rfl
      exact this hk
    simp only [List.map_cons, List.cons_append, List.lookup_cons, hne]
    exact ih fun kv hkv => hg kv (by simp [hkv])

/-- what is read as header from the fields of the result -/
def extraHeader (r : DvRes) : List (Str × HVal) :=
  (match r.stretches with | some (_ :: _) => [(c!"stretches", HVal.obj)] | _ => []) ++
  (match r.corrs with | some (_ :: _) => [(c!"corrs", HVal.obj)] | _ => []) ++
  (match r.nStat with | some (some q :: _) => [(c!"n_stat", HVal.num q)] | some (none :: _) => [(c!"n_stat", HVal.obj)] | _ => [])

theorem loadHeader_mat (k : Str) (hk : k = c!"stretches" ∨ k = c!"corrs") (m : List (List F)) :
    loadHeader [(k, .mat m)] = .ok (match m with | _ :: _ => [(k, .obj)] | [] => []) := by
  rcases hk with rfl | rfl <;> cases m <;> rfl

theorem loadHeader_result (r : DvRes) : loadHeader (present (resultFields r)) = .ok (extraHeader r) := by
  have h6 : present (resultFields r) = [(c!"method_array", .strs [r.method]), (c!"vt_array", .strs [r.valueType]),
      (c!"corr", .data r.corr), (c!"value", .data r.value), (c!"sim_mat", .mat r.simMat), (c!"second_axis", .data r.secondAxis)] ++
      (present [(c!"stretches", r.stretches.map .mat)] ++ (present [(c!"corrs", r.corrs.map .mat)] ++
        present [(c!"n_stat", r.nStat.map .data)])) := by
    obtain ⟨header, method, vt, corr, value, sim, sa, st, cs, ns, proc⟩ := r
    cases st <;> cases cs <;> cases ns <;> rfl
  rw [h6, loadHeader_append, loadHeader_append, loadHeader_append]
  have e1 : loadHeader [(c!"method_array", .strs [r.method]), (c!"vt_array", .strs [r.valueType]),
      (c!"corr", .data r.corr), (c!"value", .data r.value), (c!"sim_mat", .mat r.simMat), (c!"second_axis", .data r.secondAxis)] = .ok [] := by
    apply loadHeader_skip
    intro kv hkv
    have : kv.1 ∈ [c!"method_array", c!"vt_array", c!"corr", c!"value", c!"sim_mat", c!"second_axis"] := List.mem_map_of_mem (f := Prod.fst) hkv
    exact (show ∀ k ∈ [c!"method_array", c!"vt_array", c!"corr", c!"value", c!"sim_mat", c!"second_axis"], k ∈ noStats by decide) _ this
  have e2 : loadHeader (present [(c!"stretches", r.stretches.map .mat)]) =
      .ok (match r.stretches with | some (_ :: _) => [(c!"stretches", HVal.obj)] | _ => []) := by
    cases r.stretches with
    | none => rfl
    | some m => cases m <;> rfl
  have e3 : loadHeader (present [(c!"corrs", r.corrs.map .mat)]) =
      .ok (match r.corrs with | some (_ :: _) => [(c!"corrs", HVal.obj)] | _ => []) := by
    cases r.corrs with
    | none => rfl
    | some m => cases m <;> rfl
  have e4 : loadHeader (present [(c!"n_stat", r.nStat.map .data)]) =
      .ok (match r.nStat with | some (some q :: _) => [(c!"n_stat", HVal.num q)] | some (none :: _) => [(c!"n_stat", HVal.obj)] | _ => []) := by
    cases r.nStat with
    | none => rfl
    | some m =>
      cases m with
      | nil => rfl
      | cons a m => cases a <;> rfl
  rw [e1, e2, e3, e4]
  simp only [bind, Except.bind, pure, Except.pure, List.nil_append, extraHeader, List.append_assoc]

/-- what is read as processing -/
def procRead : Option DvProc → Option (Rat × Rat × Rat × Rat × NpArr × Aligned)
  | some ⟨some fmin, some fmax, some tl, some ts, sides, al⟩ =>
    some (fmin, fmax, ts, tl, .text sides, .array (match al with | some q => .scalar q | none => .flag false))
  | _ => none

theorem readDv_eq (rt : Int → Int) (r : DvRes) (hg : ∀ kv ∈ r.header, GoodField kv) :
    ∃ file, saveDv rt r = .ok file ∧ readDv file = .ok
      { header := (r.header.map fun kv => (kv.1, dec rt kv.2)) ++ extraHeader r, method := r.method, valueType := r.valueType,
        corr := .data r.corr, value := .data r.value, simMat := .mat r.simMat, secondAxis := .data r.secondAxis,
        stretches := r.stretches.map .mat, corrs := r.corrs.map .mat, nStat := r.nStat.map .data,
        proc := procRead r.proc } := by
  refine ⟨_, saveDv_good rt r hg, ?_⟩
  have hl : loadHeader ((r.header.map fun kv => (kv.1, enc rt kv.2)) ++ (present (procFields r.proc) ++ present (resultFields r))) =
      .ok ((r.header.map fun kv => (kv.1, dec rt kv.2)) ++ extraHeader r) := by
    rw [loadHeader_append, loadHeader_append, loadHeader_good rt _ hg, loadHeader_result, loadHeader_skip]
    · rfl
    · intro kv hkv
      have hk : kv.1 ∈ (procFields r.proc).map Prod.fst := by
        unfold present at hkv
        rw [List.mem_filterMap] at hkv
        obtain ⟨x, hx, he⟩ := hkv
        cases hv : x.2 with
        | none => rw [hv] at he; cases he
        | some v =>
          rw [hv] at he
          simp only [Option.map_some, Option.some.injEq] at he
          rw [← he]
          exact List.mem_map_of_mem (f := Prod.fst) hx
      have hp' : ∀ k ∈ (procFields r.proc).map Prod.fst, k ∈ [c!"freq_min", c!"freq_max", c!"tw_len", c!"tw_start", c!"sides", c!"aligned"] := by
        cases r.proc with
        | none => intro k hk; cases hk
        | some p => exact fun k hk => hk
      exact (show ∀ k ∈ [c!"freq_min", c!"freq_max", c!"tw_len", c!"tw_start", c!"sides", c!"aligned"], k ∈ noStats by decide) _ (hp' _ hk)
  have hk := fun k hk => lookup_header rt r.header hg (present (procFields r.proc) ++ present (resultFields r)) k hk
  generalize (r.header.map fun kv => (kv.1, enc rt kv.2)) ++ (present (procFields r.proc) ++ present (resultFields r)) = file at hl hk
  obtain ⟨header, method, vt, corr, value, sim, sa, st, cs, ns, proc⟩ := r
  have k1 : file.lookup c!"vt_array" = some (.strs [vt]) := by
    rw [hk _ (by decide)]
    rcases proc with _ | ⟨_ | _, _ | _, _ | _, _ | _, sides, _ | _⟩ <;> rfl
  have k2 : file.lookup c!"method_array" = some (.strs [method]) := by
    rw [hk _ (by decide)]
    rcases proc with _ | ⟨_ | _, _ | _, _ | _, _ | _, sides, _ | _⟩ <;> rfl
  have k3 : file.lookup c!"corr" = some (.data corr) := by
    rw [hk _ (by decide)]
    rcases proc with _ | ⟨_ | _, _ | _, _ | _, _ | _, sides, _ | _⟩ <;> rfl
  have k4 : file.lookup c!"value" = some (.data value) := by
    rw [hk _ (by decide)]
    rcases proc with _ | ⟨_ | _, _ | _, _ | _, _ | _, sides, _ | _⟩ <;> rfl
  have k5 : file.lookup c!"sim_mat" = some (.mat sim) := by
    rw [hk _ (by decide)]
    rcases proc with _ | ⟨_ | _, _ | _, _ | _, _ | _, sides, _ | _⟩ <;> rfl
  have k6 : file.lookup c!"second_axis" = some (.data sa) := by
    rw [hk _ (by decide)]
    rcases proc with _ | ⟨_ | _, _ | _, _ | _, _ | _, sides, _ | _⟩ <;> rfl
  have k7 : file.lookup c!"stretches" = st.map .mat := by
    rw [hk _ (by decide)]
    rcases proc with _ | ⟨_ | _, _ | _, _ | _, _ | _, sides, _ | _⟩ <;> cases st <;> cases cs <;> cases ns <;> rfl
  have k8 : file.lookup c!"corrs" = cs.map .mat := by
    rw [hk _ (by decide)]
    rcases proc with _ | ⟨_ | _, _ | _, _ | _, _ | _, sides, _ | _⟩ <;> cases st <;> cases cs <;> cases ns <;> rfl
  have k9 : file.lookup c!"n_stat" = ns.map .data := by
    rw [hk _ (by decide)]
    rcases proc with _ | ⟨_ | _, _ | _, _ | _, _ | _, sides, _ | _⟩ <;> cases st <;> cases cs <;> cases ns <;> rfl
  have kp : loadProc file = .ok (procRead proc) := by
    unfold loadProc getItem
    rw [hk c!"freq_min" (by decide), hk c!"freq_max" (by decide), hk c!"tw_start" (by decide), hk c!"tw_len" (by decide),
      hk c!"sides" (by decide), hk c!"aligned" (by decide)]
    rcases proc with _ | ⟨_ | _, _ | _, _ | _, _ | _, sides, _ | _⟩ <;> cases st <;> cases cs <;> cases ns <;> rfl
  unfold readDv
  rw [hl, kp]
  simp only [getItem, k1, k2, k3, k4, k5, k6, k7, k8, k9, bind, Except.bind, firstText, pure, Except.pure]

/-- **C56** (part) Saving a velocity change and reading it again gives the same data, the same
method, and the same header; if it is not an average with the values of the components,
nothing is added to the header. If all four parameters of the processing are set, they are
read, too. Missing: averages (`c56_average_violated`), the processing with values that are
not set (`c56_processing_violated`), curves that are not aligned (`c56_aligned_violated`). -/
theorem c56_dv_partial (rt : Int → Int) (r : DvRes) (hg : ∀ kv ∈ r.header, GoodField kv) (ht : GoodTimes rt r.header) :
    ∃ file l, saveDv rt r = .ok file ∧ readDv file = .ok l ∧
      l.method = r.method ∧ l.valueType = r.valueType ∧ l.corr = .data r.corr ∧ l.value = .data r.value ∧
      l.simMat = .mat r.simMat ∧ l.secondAxis = .data r.secondAxis ∧ l.stretches = r.stretches.map .mat ∧
      l.corrs = r.corrs.map .mat ∧ l.nStat = r.nStat.map .data ∧
      (∃ h' extra, l.header = h' ++ extra ∧ SameHeader r.header h' ∧
        (r.stretches = none → r.corrs = none → r.nStat = none → extra = [])) ∧
      (∀ fmin fmax tl ts sides al, r.proc = some ⟨some fmin, some fmax, some tl, some ts, sides, al⟩ →
        ∃ a, l.proc = some (fmin, fmax, ts, tl, .text sides, a)) := by
  obtain ⟨file, h1, h2⟩ := readDv_eq rt r hg
  refine ⟨file, _, h1, h2, rfl, rfl, rfl, rfl, rfl, rfl, rfl, rfl, rfl, ⟨_, _, rfl, sameHeader_dec rt r.header ht, ?_⟩, ?_⟩
  · intro a b c
    unfold extraHeader
    rw [a, b, c]
    rfl
  · intro fmin fmax tl ts sides al hp
    simp only [hp, procRead]
    exact ⟨_, rfl⟩

/-- **C56** is violated: after reading an average with the values of the components, the header
has a field that it did not have. -/
theorem c56_average_violated (rt : Int → Int) (r : DvRes) (hg : ∀ kv ∈ r.header, GoodField kv)
    (row : List F) (rows : List (List F)) (hs : r.stretches = some (row :: rows)) :
    ∃ file l, saveDv rt r = .ok file ∧ readDv file = .ok l ∧ c!"stretches" ∈ l.header.map Prod.fst ∧
      c!"stretches" ∉ r.header.map Prod.fst := by
  obtain ⟨file, h1, h2⟩ := readDv_eq rt r hg
  refine ⟨file, _, h1, h2, ?_, ?_⟩
  · simp only [extraHeader, hs]
    simp
  · intro hm
    obtain ⟨kv, hkv, he⟩ := List.mem_map.1 hm
    exact good_not_result kv (hg kv hkv) (by rw [he]; decide)

/-- **C56** is violated: if the length of the window is not set, none of the parameters of the
processing is read. -/
theorem c56_processing_violated (rt : Int → Int) (r : DvRes) (hg : ∀ kv ∈ r.header, GoodField kv) (p : DvProc)
    (hp : r.proc = some p) (hn : p.twLen = none) :
    ∃ file l, saveDv rt r = .ok file ∧ readDv file = .ok l ∧ l.proc = none := by
  obtain ⟨file, h1, h2⟩ := readDv_eq rt r hg
  refine ⟨file, _, h1, h2, ?_⟩
  obtain ⟨a, b, c, d, e, f⟩ := p
  simp only at hn
  subst hn
  simp only [hp]
  cases a <;> cases b <;> cases d <;> rfl

/-- **C56** is violated: a curve that was not aligned counts as aligned after saving and reading,
and is ignored when the curves are aligned. -/
theorem c56_aligned_violated (rt : Int → Int) (r : DvRes) (hg : ∀ kv ∈ r.header, GoodField kv) (fmin fmax tl ts : Rat) (sides : Str)
    (hp : r.proc = some ⟨some fmin, some fmax, some tl, some ts, sides, none⟩) :
    ∃ file l, saveDv rt r = .ok file ∧ readDv file = .ok l ∧ l.notAligned = false := by
  obtain ⟨file, h1, h2⟩ := readDv_eq rt r hg
  refine ⟨file, _, h1, h2, ?_⟩
  simp only [DvLoaded.notAligned, hp, procRead]

/-- a header -/
def exHeader : List (Str × HVal) := [(c!"corr_start", .times [1000, 5000]), (c!"starttime", .time 7000),
  (c!"network", .str c!"X1"), (c!"delta", .num (1 / 25))]

example : (∀ kv ∈ exHeader, GoodField kv) ∧ GoodTimes (fun t => t + 120) exHeader := by
  constructor
  · intro kv hkv
    simp only [exHeader, List.mem_cons, List.not_mem_nil, or_false] at hkv
    rcases hkv with rfl | rfl | rfl | rfl
    · exact ⟨by decide, by rw [if_pos (by decide)]; exact .inr ⟨_, rfl, by decide⟩⟩
    · exact ⟨by decide, by rw [if_pos (by decide)]; exact .inl ⟨_, rfl⟩⟩
    · exact ⟨by decide, by rw [if_neg (by decide)]; exact .inr (.inl ⟨_, rfl⟩)⟩
    · exact ⟨by decide, by rw [if_neg (by decide)]; exact .inl ⟨_, rfl⟩⟩
  · unfold GoodTimes
    decide

end SeisMIC
