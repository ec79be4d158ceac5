import Verif.Props.Header

/-!
# C56: the processing of a velocity change in a file, whoever wrote the file
-/

namespace SeisMIC

/-- the file contains exactly one number under this name -/
def HasNumber (file : List (Str × NpArr)) (k : Str) (q : Rat) : Prop :=
  file.lookup k = some (.scalar q) ∨ file.lookup k = some (.nums [q])

/-! ### Lemmas -/

theorem toFloat_ok {a : NpArr} {q : Rat} (h : toFloat a = .ok q) : a = .scalar q ∨ a = .nums [q] := by
  unfold toFloat at h
  split at h
  · cases h
    exact .inl rfl
  · cases h
    exact .inr rfl
  · cases h

theorem number_cases (file : List (Str × NpArr)) (k : Str) :
    (∃ q, HasNumber file k q ∧ (getItem file k >>= toFloat) = .ok q) ∨
      (file.lookup k = none ∧ (getItem file k >>= toFloat) = .error .keyError) ∨
      ((∃ a, file.lookup k = some a ∧ ∀ q, a ≠ .scalar q ∧ a ≠ .nums [q]) ∧ (getItem file k >>= toFloat) = .error .typeError) := by
  unfold getItem
  cases hl : file.lookup k with
  | none => exact .inr (.inl ⟨rfl, rfl⟩)
  | some a =>
    have hb : ((match some a with | some a => Except.ok a | none => Except.error PyErr.keyError) >>= toFloat) = toFloat a := rfl
    rw [hb]
    cases ht : toFloat a with
    | ok q =>
      refine .inl ⟨q, ?_, rfl⟩
      rcases toFloat_ok ht with h | h
      · exact .inl (hl.trans (by rw [h]))
      · exact .inr (hl.trans (by rw [h]))
    | error e =>
      have he : e = .typeError := by
        unfold toFloat at ht
        split at ht <;> cases ht
        rfl
      refine .inr (.inr ⟨⟨a, rfl, fun q => ⟨?_, ?_⟩⟩, by rw [he]⟩)
      · rintro rfl
        cases ht
      · rintro rfl
        cases ht

theorem loadProc_eq (file : List (Str × NpArr)) : loadProc file =
    match (do
      let a ← getItem file c!"freq_min" >>= toFloat
      let b ← getItem file c!"freq_max" >>= toFloat
      let c ← getItem file c!"tw_start" >>= toFloat
      let d ← getItem file c!"tw_len" >>= toFloat
      pure (a, b, c, d, (file.lookup c!"sides").getD (.text c!"unknown"),
        match file.lookup c!"aligned" with | some x => Aligned.array x | none => Aligned.no) : Except PyErr _) with
    | .ok p => .ok (some p)
    | .error .keyError => .ok none
    | .error e => .error e := by
  unfold loadProc
  simp only [bind_assoc]
  rfl

theorem loadProc_some {file : List (Str × NpArr)} {a b c d : Rat} {s : NpArr} {al : Aligned} (h : loadProc file = .ok (some (a, b, c, d, s, al))) :
    HasNumber file c!"freq_min" a ∧ HasNumber file c!"freq_max" b ∧ HasNumber file c!"tw_start" c ∧ HasNumber file c!"tw_len" d ∧
      s = (file.lookup c!"sides").getD (.text c!"unknown") ∧ (al = .no ↔ file.lookup c!"aligned" = none) ∧
      ∀ x, al = .array x ↔ file.lookup c!"aligned" = some x := by
  rw [loadProc_eq] at h
  rcases number_cases file c!"freq_min" with ⟨q0, n0, e0⟩ | ⟨-, e0⟩ | ⟨-, e0⟩ <;> rw [e0] at h <;> try (cases h; done)
  rcases number_cases file c!"freq_max" with ⟨q1, n1, e1⟩ | ⟨-, e1⟩ | ⟨-, e1⟩ <;> rw [e1] at h <;> try (cases h; done)
  rcases number_cases file c!"tw_start" with ⟨q2, n2, e2⟩ | ⟨-, e2⟩ | ⟨-, e2⟩ <;> rw [e2] at h <;> try (cases h; done)
  rcases number_cases file c!"tw_len" with ⟨q3, n3, e3⟩ | ⟨-, e3⟩ | ⟨-, e3⟩ <;> rw [e3] at h <;> try (cases h; done)
  have h' := Option.some.inj (Except.ok.inj h)
  simp only [Prod.mk.injEq] at h'
  obtain ⟨rfl, rfl, rfl, rfl, rfl, rfl⟩ := h'
  refine ⟨n0, n1, n2, n3, rfl, ?_, fun x => ?_⟩
  · cases file.lookup c!"aligned" <;> simp
  · cases file.lookup c!"aligned" <;> simp

theorem readDv_proc {file : List (Str × NpArr)} {r : DvLoaded} (h : readDv file = .ok r) : loadProc file = .ok r.proc := by
  unfold readDv at h
  simp only [bind, Except.bind, pure, Except.pure] at h
  repeat' split at h
  all_goals first | (cases h; done) | skip
  cases h
  assumption

/-! ### C56 -/

/-- **C56** For every file that is read, whoever wrote it: the frequencies and the window that are reported are exactly the numbers the file has under
these names, and the sides and the flag of the alignment are those of the file. -/
theorem c56_processing (file : List (Str × NpArr)) (r : DvLoaded) (h : readDv file = .ok r) (a b c d : Rat) (s : NpArr) (al : Aligned)
    (hp : r.proc = some (a, b, c, d, s, al)) :
    HasNumber file c!"freq_min" a ∧ HasNumber file c!"freq_max" b ∧ HasNumber file c!"tw_start" c ∧ HasNumber file c!"tw_len" d ∧
      s = (file.lookup c!"sides").getD (.text c!"unknown") ∧ (al = .no ↔ file.lookup c!"aligned" = none) ∧
      ∀ x, al = .array x ↔ file.lookup c!"aligned" = some x :=
  loadProc_some ((readDv_proc h).trans (congrArg _ hp))

/-- **C56** No processing is reported only if one of the four numbers is missing in the file. -/
theorem c56_no_processing (file : List (Str × NpArr)) (r : DvLoaded) (h : readDv file = .ok r) (hp : r.proc = none) :
    ∃ k ∈ [c!"freq_min", c!"freq_max", c!"tw_start", c!"tw_len"], file.lookup k = none := by
  have h := (readDv_proc h).trans (congrArg _ hp)
  rw [loadProc_eq] at h
  rcases number_cases file c!"freq_min" with ⟨q0, n0, e0⟩ | ⟨l, e0⟩ | ⟨-, e0⟩ <;> rw [e0] at h <;> try (cases h; done)
  rotate_left
  · exact ⟨_, by simp, l⟩
  rcases number_cases file c!"freq_max" with ⟨q1, n1, e1⟩ | ⟨l, e1⟩ | ⟨-, e1⟩ <;> rw [e1] at h <;> try (cases h; done)
  rotate_left
  · exact ⟨_, by simp, l⟩
  rcases number_cases file c!"tw_start" with ⟨q2, n2, e2⟩ | ⟨l, e2⟩ | ⟨-, e2⟩ <;> rw [e2] at h <;> try (cases h; done)
  rotate_left
  · exact ⟨_, by simp, l⟩
  rcases number_cases file c!"tw_len" with ⟨q3, n3, e3⟩ | ⟨l, e3⟩ | ⟨-, e3⟩ <;> rw [e3] at h <;> try (cases h; done)
  exact ⟨_, by simp, l⟩

/-- **C56** If one of the four numbers is missing, no processing is reported: the other three are not returned. -/
theorem c56_all_or_nothing (file : List (Str × NpArr)) (r : DvLoaded) (h : readDv file = .ok r) (k : Str)
    (hk : k ∈ [c!"freq_min", c!"freq_max", c!"tw_start", c!"tw_len"]) (hm : file.lookup k = none) : r.proc = none := by
  cases hp : r.proc with
  | none => rfl
  | some p =>
    obtain ⟨a, b, c, d, s, al⟩ := p
    obtain ⟨h0, h1, h2, h3, -⟩ := c56_processing file r h a b c d s al hp
    simp only [List.mem_cons, List.not_mem_nil, or_false] at hk
    rcases hk with rfl | rfl | rfl | rfl
    · rcases h0 with e | e <;> rw [hm] at e <;> cases e
    · rcases h1 with e | e <;> rw [hm] at e <;> cases e
    · rcases h2 with e | e <;> rw [hm] at e <;> cases e
    · rcases h3 with e | e <;> rw [hm] at e <;> cases e

/-- a file with the results of one stretching; some of the numbers are arrays of one element -/
def procFile : List (Str × NpArr) :=
  [(c!"vt_array", .strs [c!"stretch"]), (c!"method_array", .strs [c!"single_ref"]), (c!"corr", .nums [1]), (c!"value", .nums [0]),
   (c!"sim_mat", .nums [1]), (c!"second_axis", .nums [0]), (c!"freq_min", .nums [1]), (c!"freq_max", .scalar 2), (c!"tw_start", .scalar 5),
   (c!"tw_len", .scalar 50), (c!"sides", .text c!"both")]

/-- it is read, with its processing -/
example : ∃ r, readDv procFile = .ok r ∧ r.proc = some (1, 2, 5, 50, .text c!"both", .no) := ⟨_, rfl, rfl⟩

/-- without the length of the window it is read, without a processing -/
example : ∃ r, readDv (procFile.filter (·.1 ≠ c!"tw_len")) = .ok r ∧ r.proc = none := ⟨_, rfl, rfl⟩

end SeisMIC
