import Verif.Model.DvStr
import Mathlib.Order.Defs.LinearOrder
import Mathlib.Order.Lattice

/-!
# C230: the printed summary of a velocity change
-/

namespace SeisMIC

/-! ### Specification -/

/-- `s` is the earliest of the times -/
def Earliest (l : List Int) (s : Int) : Prop := s ∈ l ∧ ∀ x ∈ l, s ≤ x

/-- `e` is the latest of the times -/
def Latest (l : List Int) (e : Int) : Prop := e ∈ l ∧ ∀ x ∈ l, x ≤ e

/-! ### Lemmas -/

theorem pyMin_earliest (l : List Int) (h : l ≠ []) : ∃ s, pyMin l = .ok s ∧ Earliest l s := by
  cases l with
  | nil => exact absurd rfl h
  | cons a l =>
    refine ⟨_, rfl, ?_⟩
    clear h
    unfold Earliest
    induction l generalizing a with
    | nil => simp
    | cons b l ih =>
      rw [List.foldl_cons]
      obtain ⟨h1, h2⟩ := ih (min a b)
      have h3 := h2 (min a b) (by simp)
      refine ⟨?_, ?_⟩
      · rcases List.mem_cons.1 h1 with h | h
        · rw [h]
          rcases le_total a b with g | g <;> simp [g]
        · simp [h]
      · intro x hx
        rcases List.mem_cons.1 hx with rfl | hx
        · exact h3.trans (min_le_left _ _)
        rcases List.mem_cons.1 hx with rfl | hx
        · exact h3.trans (min_le_right _ _)
        · exact h2 x (by simp [hx])

theorem pyMax_latest (l : List Int) (h : l ≠ []) : ∃ s, pyMax l = .ok s ∧ Latest l s := by
  cases l with
  | nil => exact absurd rfl h
  | cons a l =>
    refine ⟨_, rfl, ?_⟩
    clear h
    unfold Latest
    induction l generalizing a with
    | nil => simp
    | cons b l ih =>
      rw [List.foldl_cons]
      obtain ⟨h1, h2⟩ := ih (max a b)
      have h3 := h2 (max a b) (by simp)
      refine ⟨?_, ?_⟩
      · rcases List.mem_cons.1 h1 with h | h
        · rw [h]
          rcases le_total a b with g | g <;> simp [g]
        · simp [h]
      · intro x hx
        rcases List.mem_cons.1 hx with rfl | hx
        · exact (le_max_left _ _).trans h3
        rcases List.mem_cons.1 hx with rfl | hx
        · exact (le_max_right _ _).trans h3
        · exact h2 x (by simp [hx])

/-! ### C230 -/

/-- **C230** (time span). The summary of every velocity change with at least one time, in whatever order the times are, names the station and channel codes, the earliest
start and the latest end. For other measurements than time shifts it names the method, the type of the value and the processing, too. -/
theorem c230_span_partial (ctime : Int → Str) (d : DvShown) (hs : d.corrStart ≠ []) (he : d.corrEnd ≠ []) :
    ∃ text s e, d.str ctime = .ok text ∧ Earliest d.corrStart s ∧ Latest d.corrEnd e ∧
      (d.network ++ c!"." ++ d.station ++ c!"." ++ d.channel) <:+: text ∧ (c!"starttdate: " ++ ctime s) <:+: text ∧ (c!"enddate: " ++ ctime e) <:+: text ∧
      (d.method ≠ c!"time_shift" → (d.method ++ c!" " ++ d.valueType) <+: text ∧ d.processing <:+ text) := by
  obtain ⟨s, hs1, hs2⟩ := pyMin_earliest _ hs
  obtain ⟨e, he1, he2⟩ := pyMax_latest _ he
  unfold DvShown.str
  simp only [hs1, he1, bind, Except.bind, pure, Except.pure]
  by_cases hm : d.method = c!"time_shift"
  · rw [if_pos hm]
    refine ⟨_, s, e, rfl, hs2, he2, ?_, ?_, ?_, fun h => absurd hm h⟩
    · exact ⟨c!"Time shift estimate of ", c!".\nstarttdate: " ++ ctime s ++ c!"\nenddate: " ++ ctime e, by simp [List.append_assoc]⟩
    · exact ⟨c!"Time shift estimate of " ++ (d.network ++ c!"." ++ d.station ++ c!"." ++ d.channel) ++ c!".\n", c!"\nenddate: " ++ ctime e, by simp [List.append_assoc]⟩
    · exact ⟨c!"Time shift estimate of " ++ (d.network ++ c!"." ++ d.station ++ c!"." ++ d.channel) ++ c!".\nstarttdate: " ++ ctime s ++ c!"\n", [], by
        simp [List.append_assoc]⟩
  · rw [if_neg hm]
    refine ⟨_, s, e, rfl, hs2, he2, ?_, ?_, ?_, fun _ => ⟨?_, ?_⟩⟩
    · exact ⟨d.method ++ c!" " ++ d.valueType ++ c!" velocity change estimate of ", c!".\nstarttdate: " ++ ctime s ++ c!"\nenddate: " ++ ctime e ++
        c!"\n\nprocessed with the following parameters: " ++ d.processing, by simp [List.append_assoc]⟩
    · exact ⟨d.method ++ c!" " ++ d.valueType ++ c!" velocity change estimate of " ++ (d.network ++ c!"." ++ d.station ++ c!"." ++ d.channel) ++ c!".\n",
        c!"\nenddate: " ++ ctime e ++ c!"\n\nprocessed with the following parameters: " ++ d.processing, by simp [List.append_assoc]⟩
    · exact ⟨d.method ++ c!" " ++ d.valueType ++ c!" velocity change estimate of " ++ (d.network ++ c!"." ++ d.station ++ c!"." ++ d.channel) ++
        c!".\nstarttdate: " ++ ctime s ++ c!"\n", c!"\n\nprocessed with the following parameters: " ++ d.processing, by simp [List.append_assoc]⟩
    · exact ⟨c!" velocity change estimate of " ++ (d.network ++ c!"." ++ d.station ++ c!"." ++ d.channel) ++ c!".\nstarttdate: " ++ ctime s ++
        c!"\nenddate: " ++ ctime e ++ c!"\n\nprocessed with the following parameters: " ++ d.processing, by simp [List.append_assoc]⟩
    · exact ⟨_, rfl⟩

example : (⟨c!"A-A", c!"S-S", c!"Z-Z", c!"single_ref", c!"stretch", [5, 3], [7, 9], c!"{}"⟩ : DvShown).corrStart ≠ [] := by decide

/-- **C230** (violated). For time shifts the processing is not shown: different processing, same summary. -/
theorem c230_time_shift_violated (ctime : Int → Str) (d : DvShown) (hm : d.method = c!"time_shift") (p : Str) :
    DvShown.str ctime { d with processing := p } = d.str ctime := by
  unfold DvShown.str
  simp only [hm, if_true]

/-- **C230** (violated). A velocity change without times cannot be printed. -/
theorem c230_empty_violated (ctime : Int → Str) (d : DvShown) (hs : d.corrStart = []) : d.str ctime = .error .valueError := by
  unfold DvShown.str
  rw [hs]
  rfl

end SeisMIC
