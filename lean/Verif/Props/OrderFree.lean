import Verif.Props.Run
import Verif.Props.Parallel

/-!
# C159: the order of the data has no influence
-/

namespace SeisMIC

variable {δ : Type}

/-- no two traces have the same network, station and channel -/
def DistinctCodes (win : List TrHead) : Prop :=
  win.Pairwise fun a b => ¬ (a.net = b.net ∧ a.sta = b.sta ∧ a.cha = b.cha)

theorem trLe_antisymm (a b : TrHead) (h : trLe a b = true) (h' : trLe b a = true) :
    a.net = b.net ∧ a.sta = b.sta ∧ a.cha = b.cha := by
  have anti := strLe_antisymm
  unfold trLe at *
  by_cases h1 : a.net = b.net
  · by_cases h2 : a.sta = b.sta
    · simp only [h1, h2, ne_eq, not_true_eq_false, if_false] at h h'
      exact ⟨h1, h2, anti _ _ h h'⟩
    · simp only [h1, h2, Ne.symm h2, ne_eq, not_true_eq_false, not_false_eq_true, if_false, if_true] at h h'
      exact absurd (anti _ _ h h') h2
  · simp only [h1, Ne.symm h1, ne_eq, not_false_eq_true, if_true] at h h'
    exact absurd (anti _ _ h h') h1

theorem isort_trLe_perm {l l' : List TrHead} (h : l.Perm l') (hd : DistinctCodes l) : isort trLe l = isort trLe l' := by
  have hp : (isort trLe l).Perm (isort trLe l') := (isort_perm _ _).trans (h.trans (isort_perm _ _).symm)
  refine List.Perm.eq_of_pairwise ?_ (isort_sorted trLe trLe_total trLe_trans l) (isort_sorted trLe trLe_total trLe_trans l') hp
  intro a b ha hb h1 h2
  by_contra hne
  have ha := mem_isort.1 ha
  have hb := h.mem_iff.2 (mem_isort.1 hb)
  have hs : ∀ {x y : TrHead}, ¬ (x.net = y.net ∧ x.sta = y.sta ∧ x.cha = y.cha) → ¬ (y.net = x.net ∧ y.sta = x.sta ∧ y.cha = x.cha) :=
    fun h e => h ⟨e.1.symm, e.2.1.symm, e.2.2.symm⟩
  have : Std.Symm fun x y : TrHead => ¬ (x.net = y.net ∧ x.sta = y.sta ∧ x.cha = y.cha) := ⟨fun _ _ => hs⟩
  exact List.Pairwise.forall hd ha hb hne (trLe_antisymm a b h1 h2)

/-- **C159** (traces) The pairs that are correlated in a window, and their order, do
not depend on the order in which the traces of the window are collected, if no two
of them have the same network, station and channel. -/
theorem c159_traces (fiss : Int → Str) (ex : ExDict) (method : Str) (rcombis : Option (List Str)) (win win' : List TrHead)
    (h : win.Perm win') (hd : DistinctCodes win) :
    windowPairs fiss ex method rcombis win = windowPairs fiss ex method rcombis win' := by
  unfold windowPairs
  rw [isort_trLe_perm h hd]

/-- **C159** (processes) Whatever the codes: the traces of a window, collected from
any number of processes, are in the same order, so the same pairs are correlated. -/
theorem c159_processes (fiss : Int → Str) (ex : ExDict) (method : Str) (rcombis : Option (List Str)) (p : Nat) (hp : 0 < p)
    (traces : List TrHead) :
    windowPairs fiss ex method rcombis ((List.range p).flatMap fun r => ownItems traces p r) =
      windowPairs fiss ex method rcombis traces := by
  rw [c01_items_partition traces p hp]

/-- **C159** (correlations) The database does not depend on the order in which
correlations are added, if no two belong to the same place of the same file. -/
theorem c159_database (dir : CorrDir δ) (l l' : List (Out δ)) (h : l.Perm l')
    (hd : l.Pairwise fun a b => ¬ (a.file = b.file ∧ a.path = b.path)) (f : Str) (q : HPath) :
    (dir.addAll l).get f q = (dir.addAll l').get f q := by
  rw [get_addAll, get_addAll]
  congr 2
  rw [← List.head?_filter, ← List.head?_filter]
  have hp := h.filter fun o => decide (f = o.file ∧ q = o.path)
  have hshort : (l.filter fun o => decide (f = o.file ∧ q = o.path)).length ≤ 1 := by
    have := hd.filter fun o => decide (f = o.file ∧ q = o.path)
    have hm : ∀ o ∈ l.filter (fun o => decide (f = o.file ∧ q = o.path)), f = o.file ∧ q = o.path :=
      fun o ho => by simpa using (List.mem_filter.1 ho).2
    generalize l.filter (fun o => decide (f = o.file ∧ q = o.path)) = k at *
    match k, this, hm with
    | [], _, _ => simp
    | [a], _, _ => simp
    | a :: b :: k, this, hm =>
      have h1 := hm a (by simp)
      have h2 := hm b (by simp)
      exact absurd ⟨by rw [← h1.1, h2.1], by rw [← h1.2, h2.2]⟩ ((List.pairwise_cons.1 this).1 b (by simp))
  generalize l.filter (fun o => decide (f = o.file ∧ q = o.path)) = k at *
  generalize l'.filter (fun o => decide (f = o.file ∧ q = o.path)) = k' at *
  match k, hshort, hp with
  | [], _, hp => rw [List.nil_perm.1 hp]
  | [a], _, hp => rw [List.singleton_perm.1 hp]

/-- Two traces of one station in both orders. -/
example :
    let a : TrHead := ⟨c!"XN", c!"S", c!"00", c!"HHE", 0⟩
    let b : TrHead := ⟨c!"XN", c!"S", c!"00", c!"HHZ", 0⟩
    DistinctCodes [b, a] ∧ windowPairs (fun _ => c!"t") [] c!"betweenComponents" none [b, a] = .ok [(a, b)] ∧
    windowPairs (fun _ => c!"t") [] c!"betweenComponents" none [a, b] = .ok [(a, b)] := by
  refine ⟨?_, by decide, by decide⟩
  unfold DistinctCodes
  decide

/-- The location is not used to sort: traces that differ in it only are correlated in
the order in which they are collected. The hypothesis of `c159_traces` is needed. -/
example :
    let a : TrHead := ⟨c!"XN", c!"S", c!"00", c!"HHZ", 0⟩
    let b : TrHead := ⟨c!"XN", c!"S", c!"10", c!"HHZ", 0⟩
    windowPairs (fun _ => c!"t") [] c!"allSimpleCombinations" none [a, b] = .ok [(a, a), (a, b), (b, b)] ∧
    windowPairs (fun _ => c!"t") [] c!"allSimpleCombinations" none [b, a] = .ok [(b, b), (b, a), (a, a)] := by
  decide

example :
    let o (s : Str) (n : Nat) : Out Nat := ⟨⟨c!"subdivision", c!"XN-XN", s, c!"HHZ-HHZ", c!"t", c!"u"⟩, n⟩
    let l := [o c!"A-A" 1, o c!"A-B" 2]
    (l.Pairwise fun a b => ¬ (a.file = b.file ∧ a.path = b.path)) ∧
    (CorrDir.addAll [] l).get c!"XN-XN.A-B.h5" (o c!"A-B" 2).path = some 2 ∧
    (CorrDir.addAll [] l.reverse).get c!"XN-XN.A-B.h5" (o c!"A-B" 2).path = some 2 := by
  decide

end SeisMIC
