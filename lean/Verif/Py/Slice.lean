import Verif.Py.Basic

/-! # Slices `l[a:b]` and `l[::f]` -/

namespace SeisMIC

/-- normalised slice boundary for a list of length `n` -/
def sliceBound (n : Nat) (i : Int) : Nat := if i < 0 then (i + n).toNat else min i.toNat n

/-- `l[a:b]`; `none` is an omitted boundary -/
def pySlice {α : Type} (l : List α) (a b : Option Int) : List α :=
  let lo := match a with
    | none => 0
    | some i => sliceBound l.length i
  let hi := match b with
    | none => l.length
    | some i => sliceBound l.length i
  (l.drop lo).take (hi - lo)

/-- `l[::f]` for `f > 0` -/
def everyNth {α : Type} (f : Nat) (l : List α) : List α :=
  (List.range ((l.length + f - 1) / f)).filterMap fun k => l[k * f]?

end SeisMIC
