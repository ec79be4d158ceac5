import Verif.Lemmas.Stream
import Mathlib.Data.List.Forall2

namespace SeisMIC

variable {V : Type}

theorem selectBool_nil {α : Type} (l : List α) : selectBool [] l = [] := by simp [selectBool]

theorem selectBool_cons {α : Type} (b : Bool) (ii : List Bool) (a : α) (l : List α) :
    selectBool (b :: ii) (a :: l) = if b then a :: selectBool ii l else selectBool ii l := by
  cases b <;> simp [selectBool]

theorem selectBool_length {α β : Type} (ii : List Bool) (a : List α) (b : List β) (h : a.length = b.length) :
    (selectBool ii a).length = (selectBool ii b).length := by
  induction ii generalizing a b with
  | nil => simp [selectBool_nil]
  | cons i ii ih =>
    cases a with
    | nil => cases b with
      | nil => simp [selectBool]
      | cons y b => simp at h
    | cons x a => cases b with
      | nil => simp at h
      | cons y b =>
        rw [selectBool_cons, selectBool_cons]
        have := ih a b (by simpa using h)
        cases i <;> simp [this]

theorem selectBool_zip {α β : Type} (ii : List Bool) (a : List α) (b : List β) (h : a.length = b.length) :
    (selectBool ii a).zip (selectBool ii b) = selectBool ii (a.zip b) := by
  induction ii generalizing a b with
  | nil => simp [selectBool_nil]
  | cons i ii ih =>
    cases a with
    | nil => simp [selectBool]
    | cons x a => cases b with
      | nil => simp at h
      | cons y b =>
        rw [selectBool_cons, selectBool_cons, List.zip_cons_cons, selectBool_cons]
        have := ih a b (by simpa using h)
        cases i <;> simp [this]

theorem selectBool_map {α β : Type} (ii : List Bool) (a : List α) (f : α → β) :
    selectBool ii (a.map f) = (selectBool ii a).map f := by
  induction ii generalizing a with
  | nil => simp [selectBool_nil]
  | cons i ii ih =>
    cases a with
    | nil => simp [selectBool]
    | cons x a =>
      rw [List.map_cons, selectBool_cons, selectBool_cons, ih]
      cases i <;> simp

theorem selectBool_filter {α : Type} (p : α → Bool) (l : List α) : selectBool (l.map p) l = l.filter p := by
  induction l with
  | nil => simp [selectBool]
  | cons a l ih =>
    rw [List.map_cons, selectBool_cons, ih, List.filter_cons]

theorem selectBool_replicate {α β : Type} (ii : List Bool) (x : α) (l : List β) :
    selectBool ii (List.replicate l.length x) = List.replicate (selectBool ii l).length x := by
  have : List.replicate l.length x = l.map fun _ => x := by simp
  rw [this, selectBool_map]
  simp

theorem rows_length (b : Bulk V) (h : b.Aligned) : b.rows.length = b.data.length := by
  have hc : b.channels.length = b.data.length := by
    unfold Bulk.channels
    split
    · rename_i l hl; exact h.cha l hl
    · simp
  simp [Bulk.rows, h.start, h.stop, h.loc, hc]

theorem channels_length (b : Bulk V) (h : b.Aligned) : b.channels.length = b.data.length := by
  unfold Bulk.channels
  split
  · rename_i l hl; exact h.cha l hl
  · simp

theorem rows_windows (b : Bulk V) (h : b.Aligned) :
    b.stats.corrStart.zip b.stats.corrEnd = b.rows.map fun r => (r.start, r.stop) := by
  unfold Bulk.rows
  rw [List.map_map]
  have : ((fun r : Row => (r.start, r.stop)) ∘ fun x : (Int × Int) × (Str × (Str × List F)) =>
      (⟨x.1.1, x.1.2, x.2.1, x.2.2.1, x.2.2.2⟩ : Row)) = Prod.fst := by
    funext x; rfl
  rw [this, List.map_fst_zip]
  have := channels_length b h
  simp [h.start, h.stop, h.loc, this]

theorem sliceIndex_eq (b : Bulk V) (h : b.Aligned) (s e : Int) (p : Bool) (hse : s < e) :
    sliceIndex b.stats s e p = .ok (b.rows.map fun r => decide (r.inRange s e p)) := by
  unfold sliceIndex
  have hne : ¬ e ≤ s := by omega
  rw [if_neg hne]
  have hz : ∀ f : Int → Int → Bool, List.zipWith f b.stats.corrStart b.stats.corrEnd =
      b.rows.map fun r => f r.start r.stop := by
    intro f
    have := congrArg (List.map fun x : Int × Int => f x.1 x.2) (rows_windows b h)
    rw [List.map_zip_eq_zipWith, List.map_map] at this
    exact this
  cases p
  · simp only [Bool.false_eq_true, ↓reduceIte, hz]
    congr 2
    funext r
    simp [Row.inRange, Bool.decide_and]
  · simp only [↓reduceIte, hz]
    congr 2
    funext r
    simp [Row.inRange, Bool.decide_and]

end SeisMIC
