import Verif.Model.OptRecord
import Mathlib.Data.List.Basic
import Mathlib.Tactic.SplitIfs
import Mathlib.Tactic.Common

/-!
# C150: the options of every run are recorded
-/

namespace SeisMIC

/-! ### Specification: options with all times written as text -/

mutual
/-- all times are replaced by their text, everything else is kept -/
def Opt.textual (fmt : Int → Str) : Opt → Opt
  | .time t => .str (fmt t)
  | .list l => .list (textualList fmt l)
  | .dict l => .dict (textualDict fmt l)
  | .null => .null
  | .bool b => .bool b
  | .num q => .num q
  | .str s => .str s
def textualList (fmt : Int → Str) : List Opt → List Opt
  | [] => []
  | a :: l => a.textual fmt :: textualList fmt l
def textualDict (fmt : Int → Str) : List (Str × Opt) → List (Str × Opt)
  | [] => []
  | (k, a) :: l => (k, a.textual fmt) :: textualDict fmt l
end

mutual
theorem textual_plain (fmt : Int → Str) : ∀ o : Opt, o.plain = true → o.textual fmt = o
  | .time t, h => by simp [Opt.plain] at h
  | .list l, h => by
    rw [Opt.textual, textualList_plain fmt l (by simpa [Opt.plain] using h)]
  | .dict l, h => by
    rw [Opt.textual, textualDict_plain fmt l (by simpa [Opt.plain] using h)]
  | .null, _ => rfl
  | .bool _, _ => rfl
  | .num _, _ => rfl
  | .str _, _ => rfl
theorem textualList_plain (fmt : Int → Str) : ∀ l : List Opt, plainList l = true → textualList fmt l = l
  | [], _ => rfl
  | a :: l, h => by
    rw [plainList, Bool.and_eq_true] at h
    rw [textualList, textual_plain fmt a h.1, textualList_plain fmt l h.2]
theorem textualDict_plain (fmt : Int → Str) : ∀ l : List (Str × Opt), plainDict l = true → textualDict fmt l = l
  | [], _ => rfl
  | (k, a) :: l, h => by
    rw [plainDict, Bool.and_eq_true] at h
    rw [textualDict, textual_plain fmt a h.1, textualDict_plain fmt l h.2]
end

/-! ### Replacing a value by another of the same text -/

theorem textualDict_set (fmt : Int → Str) (key : Str) (v v' : Opt) (h : v'.textual fmt = v.textual fmt) :
    ∀ l : List (Str × Opt), l.lookup key = some v → textualDict fmt (setKey key v' l) = textualDict fmt l
  | [], hl => by simp at hl
  | (k, x) :: l, hl => by
    rw [setKey]
    by_cases hk : key = k
    · rw [if_pos hk]
      rw [List.lookup_cons, beq_iff_eq.2 hk] at hl
      cases hl
      rw [textualDict, textualDict, h]
    · rw [if_neg hk]
      rw [List.lookup_cons, beq_eq_false_iff_ne.2 hk] at hl
      rw [textualDict, textualDict, textualDict_set fmt key v v' h l hl]

theorem get_dict {key : Str} {o v : Opt} (h : o.get key = .ok v) : ∃ l, o = .dict l ∧ l.lookup key = some v := by
  cases o with
  | dict l =>
    refine ⟨l, rfl, ?_⟩
    unfold Opt.get at h
    dsimp only at h
    split at h
    · cases h; assumption
    · cases h
  | _ => simp [Opt.get] at h

theorem textual_set (fmt : Int → Str) {key : Str} {o v v' : Opt} (h : v'.textual fmt = v.textual fmt) (hg : o.get key = .ok v) :
    (o.set key v').textual fmt = o.textual fmt := by
  obtain ⟨l, rfl, hl⟩ := get_dict hg
  simp only [Opt.set, Opt.textual, textualDict_set fmt key v v' h l hl]

theorem textualList_eq_map (fmt : Int → Str) (l : List Opt) : textualList fmt l = l.map (Opt.textual fmt) := by
  induction l with
  | nil => rfl
  | cons a l ih => rw [textualList, ih]; rfl

theorem mapM_textual (fmt : Int → Str) (f : Opt → Except PyErr Opt) (hf : ∀ a b, f a = .ok b → b.textual fmt = a.textual fmt) :
    ∀ (l l' : List Opt), l.mapM f = .ok l' → textualList fmt l' = textualList fmt l
  | [], l', h => by
    rw [List.mapM_nil] at h; cases h; rfl
  | a :: l, l', h => by
    rw [List.mapM_cons] at h
    cases ha : f a with
    | error e => rw [ha] at h; cases h
    | ok b =>
      rw [ha] at h
      cases hl : l.mapM f with
      | error e => rw [hl] at h; cases h
      | ok bs =>
        rw [hl] at h; cases h
        rw [textualList, textualList, hf a b ha, mapM_textual fmt f hf l bs hl]

theorem formatTimes_textual (fmt : Int → Str) {o o' : Opt} (h : formatTimes fmt o = .ok o') : o'.textual fmt = o.textual fmt := by
  cases o with
  | list l =>
    unfold formatTimes at h
    dsimp only at h
    cases hm : l.mapM (formatTime fmt) with
    | error e => rw [hm] at h; cases h
    | ok l' =>
      rw [hm] at h; cases h
      simp only [Opt.textual]
      congr 1
      refine mapM_textual fmt _ ?_ l l' hm
      intro a b hab
      cases a <;> simp [formatTime] at hab
      subst hab
      rfl
  | _ => simp [formatTimes] at h

theorem get_set_ne {k k' : Str} {o v : Opt} (hne : k' ≠ k) : (o.set k v).get k' = o.get k' := by
  cases o with
  | dict l =>
    simp only [Opt.set, Opt.get]
    have : (setKey k v l).lookup k' = l.lookup k' := by
      induction l with
      | nil => rfl
      | cons x l ih =>
        obtain ⟨a, b⟩ := x
        rw [setKey]
        split
        · rename_i h
          rw [List.lookup_cons, List.lookup_cons, beq_eq_false_iff_ne.2 (by rw [← h]; exact hne)]
        · rw [List.lookup_cons, List.lookup_cons, ih]
    rw [this]
  | _ => rfl

theorem dumpStep_textual (fmt : Int → Str) {step step' : Opt} (h : dumpStep fmt step = .ok step') : step'.textual fmt = step.textual fmt := by
  unfold dumpStep at h
  cases hf : step.get c!"function" with
  | error e => rw [hf] at h; cases h
  | ok fv =>
    rw [hf] at h
    simp only [bind, Except.bind] at h
    split at h
    swap
    · cases h
    split_ifs at h with hm
    swap
    · cases h; rfl
    cases ha : step.get c!"args" with
    | error e => rw [ha] at h; cases h
    | ok args =>
      rw [ha] at h; dsimp only at h
      cases hs : args.get c!"starts" with
      | error e => rw [hs] at h; cases h
      | ok sv =>
        rw [hs] at h; dsimp only at h
        cases hfs : formatTimes fmt sv with
        | error e => rw [hfs] at h; cases h
        | ok starts =>
          rw [hfs] at h; dsimp only at h
          have h1 := textual_set fmt (formatTimes_textual fmt hfs) hs
          split at h
          · rename_i ev he
            cases hfe : formatTimes fmt ev with
            | error e => rw [hfe] at h; cases h
            | ok ends =>
              rw [hfe] at h; cases h
              have h2 := textual_set fmt (formatTimes_textual fmt hfe) he
              exact textual_set fmt (h2.trans h1) ha
          · cases h
            exact textual_set fmt h1 ha

theorem dumpOptions_textual (fmt : Int → Str) {o o' : Opt} (h : dumpOptions fmt o = .ok o') : o'.textual fmt = o.textual fmt := by
  unfold dumpOptions at h
  cases hc : o.get c!"co" with
  | error e => rw [hc] at h; cases h
  | ok co =>
    rw [hc] at h
    simp only [bind, Except.bind] at h
    cases hp : co.get c!"preProcessing" with
    | error e => rw [hp] at h; cases h
    | ok pv =>
      rw [hp] at h; dsimp only at h
      split at h
      swap
      · cases h
      rename_i steps
      cases hm : steps.mapM (dumpStep fmt) with
      | error e => rw [hm] at h; cases h
      | ok steps' =>
        rw [hm] at h; cases h
        have h1 : (Opt.list steps').textual fmt = (Opt.list steps).textual fmt := by
          simp only [Opt.textual]
          congr 1
          exact mapM_textual fmt _ (fun a b hab => dumpStep_textual fmt hab) steps steps' hm
        exact textual_set fmt (textual_set fmt h1 hp) hc

/-! ### C150 -/

/-- name of the record of a run -/
def recordName (tstr : Str) : Str := c!"params" ++ tstr ++ c!".txt"

theorem overwrite_self (fs : LogDir) (file : Str) (v : Opt) : (overwriteFile fs file v).lookup file = some v := by
  simp [overwriteFile]

theorem overwrite_other (fs : LogDir) {file name : Str} (v : Opt) (hne : name ≠ file) : (overwriteFile fs file v).lookup name = fs.lookup name := by
  rw [overwriteFile, List.lookup_cons, beq_eq_false_iff_ne.2 hne]
  dsimp only
  induction fs with
  | nil => rfl
  | cons x fs ih =>
    obtain ⟨k, w⟩ := x
    rw [List.filter_cons]
    split
    · rw [List.lookup_cons, List.lookup_cons, ih]
    · rename_i hk
      have hk' : k = file := by simpa using hk
      rw [List.lookup_cons, ih, hk', beq_eq_false_iff_ne.2 hne]

/-- **C150** If the start of a run does not fail, its record contains the options that were passed, with all times written as text; all other files
stay as they are. -/
theorem c150_recorded (fmt : Int → Str) (fs fs' : LogDir) (tstr : Str) (options : Opt) (h : recordOptions fmt fs tstr options = (fs', none)) :
    fs'.lookup (recordName tstr) = some (options.textual fmt) ∧ ∀ name, name ≠ recordName tstr → fs'.lookup name = fs.lookup name := by
  unfold recordOptions at h
  cases hd : dumpOptions fmt options with
  | error e => rw [hd] at h; simp at h
  | ok o =>
    rw [hd] at h
    dsimp only at h
    split_ifs at h with hp
    · cases h
      have ht : o = options.textual fmt := by
        rw [← dumpOptions_textual fmt hd, textual_plain fmt o hp]
      rw [← ht]
      exact ⟨overwrite_self fs _ o, fun name hne => overwrite_other fs o hne⟩
    · cases h

/-! #### Which options can be recorded -/

/-- the only times in a step of the preprocessing are the starts and ends of a mask -/
def StepTimes (step : Opt) : Prop :=
  (∃ f, step.get c!"function" = .ok (.str f) ∧ hasSub c!"stream_mask_at_utc" f = false ∧ step.plain = true) ∨
  ∃ (f : Str) (args : Opt) (ts : List Int), step.get c!"function" = .ok (.str f) ∧ hasSub c!"stream_mask_at_utc" f = true ∧
    step.get c!"args" = .ok args ∧ args.get c!"starts" = .ok (.list (ts.map Opt.time)) ∧
    ((args.get c!"ends" = .error .keyError ∧ (step.set c!"args" (args.set c!"starts" .null)).plain = true) ∨
      ∃ es : List Int, args.get c!"ends" = .ok (.list (es.map Opt.time)) ∧
        (step.set c!"args" ((args.set c!"starts" .null).set c!"ends" .null)).plain = true)

theorem plainDict_set {key : Str} {v v' : Opt} : ∀ {l : List (Str × Opt)}, plainDict (setKey key v l) = true → v'.plain = true →
    plainDict (setKey key v' l) = true
  | [], _, _ => rfl
  | (k, x) :: l, h, hv => by
    rw [setKey] at h ⊢
    split
    · rename_i hk
      rw [if_pos hk, plainDict, Bool.and_eq_true] at h
      rw [plainDict, hv, h.2]; rfl
    · rename_i hk
      rw [if_neg hk, plainDict, Bool.and_eq_true] at h
      rw [plainDict, h.1, plainDict_set h.2 hv]; rfl

theorem plain_set {o v v' : Opt} {key : Str} (h : (o.set key v).plain = true) (hv : v'.plain = true) : (o.set key v').plain = true := by
  cases o with
  | dict l =>
    simp only [Opt.set, Opt.plain] at h ⊢
    exact plainDict_set h hv
  | _ => simpa [Opt.set] using h

theorem plainDict_lookup {key : Str} {v : Opt} : ∀ {l : List (Str × Opt)}, plainDict l = true → l.lookup key = some v → v.plain = true
  | [], _, hl => by simp at hl
  | (k, x) :: l, h, hl => by
    rw [plainDict, Bool.and_eq_true] at h
    rw [List.lookup_cons] at hl
    split at hl
    · cases hl; exact h.1
    · exact plainDict_lookup h.2 hl

theorem plain_get {o v : Opt} {key : Str} (h : o.plain = true) (hg : o.get key = .ok v) : v.plain = true := by
  obtain ⟨l, rfl, hl⟩ := get_dict hg
  exact plainDict_lookup (by simpa [Opt.plain] using h) hl

theorem lookup_setKey {key : Str} {v w : Opt} : ∀ {l : List (Str × Opt)}, l.lookup key = some w → (setKey key v l).lookup key = some v
  | [], hl => by simp at hl
  | (k, x) :: l, hl => by
    rw [setKey]
    split
    · rename_i hk
      rw [List.lookup_cons, beq_iff_eq.2 hk]
    · rename_i hk
      rw [List.lookup_cons, beq_eq_false_iff_ne.2 hk] at hl ⊢
      exact lookup_setKey hl

theorem get_set {o v w : Opt} {key : Str} (hg : o.get key = .ok w) : (o.set key v).get key = .ok v := by
  obtain ⟨l, rfl, hl⟩ := get_dict hg
  simp [Opt.set, Opt.get, lookup_setKey hl]

theorem formatTimes_times (fmt : Int → Str) (ts : List Int) :
    formatTimes fmt (.list (ts.map Opt.time)) = .ok (.list (ts.map fun t => .str (fmt t))) ∧
      (Opt.list (ts.map fun t => .str (fmt t))).plain = true := by
  constructor
  · rw [formatTimes]
    have : (ts.map Opt.time).mapM (formatTime fmt) = .ok (ts.map fun t => Opt.str (fmt t)) := by
      induction ts with
      | nil => rfl
      | cons t ts ih =>
        rw [List.map_cons, List.mapM_cons, ih]; rfl
    rw [this]; rfl
  · rw [Opt.plain]
    induction ts with
    | nil => rfl
    | cons t ts ih => rw [List.map_cons, plainList, ih]; rfl

theorem dumpStep_plain (fmt : Int → Str) {step : Opt} (h : StepTimes step) : ∃ step', dumpStep fmt step = .ok step' ∧ step'.plain = true := by
  rcases h with ⟨f, hf, hm, hp⟩ | ⟨f, args, ts, hf, hm, ha, hs, he⟩
  · refine ⟨step, ?_, hp⟩
    unfold dumpStep
    rw [hf]
    simp only [bind, Except.bind, hm]
    rfl
  · obtain ⟨hft, hfp⟩ := formatTimes_times fmt ts
    rcases he with ⟨he, hp⟩ | ⟨es, he, hp⟩
    · refine ⟨step.set c!"args" (args.set c!"starts" (.list (ts.map fun t => .str (fmt t)))), ?_, ?_⟩
      · unfold dumpStep
        rw [hf]
        simp only [bind, Except.bind, hm, if_true, ha, hs, hft]
        rw [get_set_ne (by decide), he]
        rfl
      · have hargs : (args.set c!"starts" .null).plain = true := plain_get hp (get_set ha)
        exact plain_set hp (plain_set hargs hfp)
    · obtain ⟨hft2, hfp2⟩ := formatTimes_times fmt es
      refine ⟨step.set c!"args" ((args.set c!"starts" (.list (ts.map fun t => .str (fmt t)))).set c!"ends" (.list (es.map fun t => .str (fmt t)))), ?_, ?_⟩
      · unfold dumpStep
        rw [hf]
        simp only [bind, Except.bind, hm, if_true, ha, hs, hft]
        rw [get_set_ne (by decide), he]
        simp only [hft2]
        rfl
      · have hargs : ((args.set c!"starts" .null).set c!"ends" .null).plain = true := plain_get hp (get_set ha)
        refine plain_set hp ?_
        -- starts and ends are different keys
        obtain ⟨l, rfl, hl⟩ := get_dict hs
        simp only [Opt.set, Opt.plain] at hargs ⊢
        clear hl hs he hp ha
        induction l with
        | nil => rfl
        | cons x l ih =>
          obtain ⟨k, y⟩ := x
          by_cases h1 : c!"starts" = k
          · subst h1
            simp only [setKey] at hargs ⊢
            simp only [if_true] at hargs ⊢
            rw [setKey, if_neg (by decide), plainDict, Bool.and_eq_true] at hargs ⊢
            exact ⟨hfp, plainDict_set hargs.2 hfp2⟩
          · rw [setKey, if_neg h1] at hargs ⊢
            by_cases h2 : c!"ends" = k
            · rw [setKey, if_pos h2, plainDict, Bool.and_eq_true] at hargs ⊢
              exact ⟨hfp2, plainDict_set hargs.2 hfp⟩
            · rw [setKey, if_neg h2, plainDict, Bool.and_eq_true] at hargs ⊢
              exact ⟨hargs.1, ih hargs.2⟩

theorem mapM_dumpStep (fmt : Int → Str) : ∀ steps : List Opt, (∀ step ∈ steps, StepTimes step) →
    ∃ steps', steps.mapM (dumpStep fmt) = .ok steps' ∧ plainList steps' = true
  | [], _ => ⟨[], rfl, rfl⟩
  | a :: l, h => by
    obtain ⟨b, hb, hbp⟩ := dumpStep_plain fmt (h a List.mem_cons_self)
    obtain ⟨bs, hbs, hbsp⟩ := mapM_dumpStep fmt l (fun x hx => h x (List.mem_cons_of_mem _ hx))
    refine ⟨b :: bs, ?_, by rw [plainList, hbp, hbsp]; rfl⟩
    rw [List.mapM_cons, hb, hbs]; rfl

/-- **C150** (which runs can start) Options whose only times are the starts and ends of masks in the preprocessing are always recorded.
Missing: options with times in other places, see `c150_times_violated`. -/
theorem c150_accepted_partial (fmt : Int → Str) (fs : LogDir) (tstr : Str) (options co : Opt) (steps : List Opt)
    (hco : options.get c!"co" = .ok co) (hpre : co.get c!"preProcessing" = .ok (.list steps)) (hsteps : ∀ step ∈ steps, StepTimes step)
    (hrest : (options.set c!"co" (co.set c!"preProcessing" .null)).plain = true) :
    ∃ fs', recordOptions fmt fs tstr options = (fs', none) ∧ fs'.lookup (recordName tstr) = some (options.textual fmt) := by
  obtain ⟨steps', h1, h2⟩ := mapM_dumpStep fmt steps hsteps
  have hd : dumpOptions fmt options = .ok (options.set c!"co" (co.set c!"preProcessing" (.list steps'))) := by
    unfold dumpOptions
    rw [hco]
    simp only [bind, Except.bind, hpre, h1]
    rfl
  have hp : (options.set c!"co" (co.set c!"preProcessing" (.list steps'))).plain = true :=
    plain_set hrest (plain_set (plain_get hrest (get_set hco)) (by rw [Opt.plain]; exact h2))
  have hr : recordOptions fmt fs tstr options =
      (overwriteFile fs (recordName tstr) (options.set c!"co" (co.set c!"preProcessing" (.list steps'))), none) := by
    unfold recordOptions
    rw [hd]
    dsimp only
    rw [if_pos hp]; rfl
  exact ⟨_, hr, (c150_recorded fmt fs _ tstr options hr).1⟩

/-- options with a mask and with times for the selection of correlations -/
def sampleOptions (dv : Opt) : Opt :=
  .dict [(c!"proj_dir", .str c!"p"),
    (c!"co", .dict [(c!"subdir", .str c!"corr"), (c!"preProcessing", .list [
      .dict [(c!"function", .str c!"seismic.correlate.preprocessing_stream.detrend_st"), (c!"args", .dict [])],
      .dict [(c!"function", .str c!"seismic.correlate.preprocessing_stream.stream_mask_at_utc"),
        (c!"args", .dict [(c!"starts", .list [.time 0, .time 100]), (c!"ends", .list [.time 10, .time 110]), (c!"reverse", .bool false)])]])]),
    (c!"dv", dv)]

/-- the hypotheses of `c150_accepted_partial` are met by options with a mask -/
example : ∃ co steps, (sampleOptions (.dict [(c!"start_date", .str c!"2015")])).get c!"co" = .ok co ∧ co.get c!"preProcessing" = .ok (.list steps) ∧
    (∀ step ∈ steps, StepTimes step) ∧
    ((sampleOptions (.dict [(c!"start_date", .str c!"2015")])).set c!"co" (co.set c!"preProcessing" .null)).plain = true := by
  refine ⟨_, _, rfl, rfl, ?_, by decide⟩
  intro step hs
  rcases List.mem_cons.1 hs with rfl | hs
  · exact Or.inl ⟨_, rfl, by decide, by decide⟩
  · rw [List.mem_singleton] at hs; subst hs
    exact Or.inr ⟨_, _, [0, 100], rfl, by decide, rfl, rfl, Or.inr ⟨[10, 110], rfl, by decide⟩⟩

/-- **C150** is violated: times in the options for the velocity changes (as `pop_at_utcs` and `select_time` need them) cannot be recorded. The object
for monitoring cannot be created, and an earlier record of the same minute is emptied. -/
theorem c150_times_violated (fmt : Int → Str) (fs : LogDir) (tstr : Str) :
    ∃ options fs', recordOptions fmt fs tstr options = (fs', some .typeError) ∧ fs'.lookup (recordName tstr) = some (.str []) ∧
      ∃ t, options = sampleOptions (.dict [(c!"preprocessing", .list [.dict [(c!"function", .str c!"pop_at_utcs"),
        (c!"args", .dict [(c!"utcs", .time t)])]])]) := by
  refine ⟨sampleOptions (.dict [(c!"preprocessing", .list [.dict [(c!"function", .str c!"pop_at_utcs"), (c!"args", .dict [(c!"utcs", .time 0)])]])]),
    overwriteFile fs (recordName tstr) (.str []), ?_, overwrite_self _ _ _, 0, rfl⟩
  rfl

/-- **C150** is violated: of two runs that start in the same minute, only the options of the second are kept. -/
theorem c150_overwritten_violated (fmt : Int → Str) (fs : LogDir) (tstr : Str) (o o' : Opt) (fs' fs'' : LogDir)
    (h : recordOptions fmt fs tstr o = (fs', none)) (h' : recordOptions fmt fs' tstr o' = (fs'', none)) (hne : o.textual fmt ≠ o'.textual fmt) :
    fs'.lookup (recordName tstr) = some (o.textual fmt) ∧ fs''.lookup (recordName tstr) ≠ some (o.textual fmt) := by
  refine ⟨(c150_recorded fmt fs fs' tstr o h).1, ?_⟩
  rw [(c150_recorded fmt fs' fs'' tstr o' h').1]
  intro he
  exact hne (Option.some.inj he).symm

/-- two runs as in `c150_overwritten_violated` -/
example (fmt : Int → Str) : ∃ fs' fs'', recordOptions fmt [] c!"t" (sampleOptions .null) = (fs', none) ∧
    recordOptions fmt fs' c!"t" (sampleOptions (.num 1)) = (fs'', none) ∧ (sampleOptions .null).textual fmt ≠ (sampleOptions (.num 1)).textual fmt := by
  refine ⟨_, _, rfl, rfl, ?_⟩
  simp [sampleOptions, Opt.textual, textualDict]

end SeisMIC
