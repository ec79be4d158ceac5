import Verif.Py.Basic

/-!
# Sorting

Python's `list.sort`, obspy's `Stream.sort` and `np.argsort` on distinct keys
are stable sorts. Insertion sort is used because it computes in the kernel.
-/

namespace SeisMIC

/-- insert before the first element that is strictly greater (`le b a` fails) -/
def insertSorted {α : Type} (le : α → α → Bool) (a : α) : List α → List α
  | [] => [a]
  | b :: l => if le a b then a :: b :: l else b :: insertSorted le a l

/-- stable sort with respect to `le` -/
def isort {α : Type} (le : α → α → Bool) : List α → List α
  | [] => []
  | a :: l => insertSorted le a (isort le l)

end SeisMIC
