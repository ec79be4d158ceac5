import Verif.Model.BulkOps

/-!
# Specification: every correlation is processed on its own
-/

namespace SeisMIC

/-- If `f` accepts the rows, the result has as many rows, and row `i` of it is what `f` returns for row `i` of the input alone. -/
def ProcessedAlone {α β : Type} (f : List α → Except PyErr (List β)) (rows : List α) : Prop :=
  ∀ out, f rows = .ok out → out.length = rows.length ∧
    ∀ (i : Nat) (row : α), rows[i]? = some row → ∃ r, out[i]? = some r ∧ f [row] = .ok [r]

/-- The same for a function that returns a header, too: for one row it is the same header. -/
def ProcessedAloneH {α β σ : Type} (f : List α → Except PyErr (List β × σ)) (rows : List α) : Prop :=
  ∀ out s, f rows = .ok (out, s) → out.length = rows.length ∧
    ∀ (i : Nat) (row : α), rows[i]? = some row → ∃ r, out[i]? = some r ∧ f [row] = .ok ([r], s)

/-- The same for a measurement, which has a list of values, one for each row, for each window. -/
def MeasuredAlone {α β : Type} (f : List α → Except PyErr (List (List β))) (rows : List α) : Prop :=
  ∀ out, f rows = .ok out → (∀ vals ∈ out, vals.length = rows.length) ∧
    ∀ (i : Nat) (row : α), rows[i]? = some row → f [row] = .ok (out.map fun vals => (vals.drop i).take 1)

end SeisMIC
