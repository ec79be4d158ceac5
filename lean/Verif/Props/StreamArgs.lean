import Verif.Props.Taper
import Verif.Props.TraceUtils

/-!
# C76, C79: arguments of masking and tapering of streams
-/

namespace SeisMIC

/-- **C76** (intervals). With a list of ends the intervals that are masked are from each start to the end at the same place; with a length each start is followed by an interval of this length. -/
theorem c76_intervals (starts : List Rat) :
    (∀ ends : List Rat, ends.length = starts.length → ∃ ivs, maskIntervals starts (some ends) none = .ok ivs ∧ ivs.length = starts.length ∧
      ∀ (k : Nat) s e, starts[k]? = some s → ends[k]? = some e → ivs[k]? = some (s, e)) ∧
    ∀ len : Rat, ∃ ivs, maskIntervals starts none (some len) = .ok ivs ∧ ivs.length = starts.length ∧
      ∀ (k : Nat) s, starts[k]? = some s → ∃ e, ivs[k]? = some (s, e) ∧ e - s = len := by
  constructor
  · intro ends he
    refine ⟨starts.zip ends, ?_, by simp [he], fun k s e hs hk => ?_⟩
    · unfold maskIntervals
      simp [he]
    · rw [List.getElem?_zip_eq_some]
      exact ⟨hs, hk⟩
  · intro len
    refine ⟨starts.map fun s => (s, s + len), rfl, by simp, fun k s hs => ⟨s + len, ?_, by ring⟩⟩
    rw [List.getElem?_map, hs]
    rfl

example : maskIntervals [1, 5] none (some 2) = .ok [(1, 3), (5, 7)] := by decide +kernel

/-- **C79** (streams, tapering at gaps). In a stream that is tapered at gaps each trace is tapered at its own gaps: with a length that is longer than zero, a trace whose first and last samples are
valid keeps its length, its rate and its masked samples and no amplitude grows; every longest part without masked samples is tapered like a trace of its own, with the weights of
`c79_weights`.
Missing: traces that begin or end with masked samples, see `c79_masked_violated`. -/
theorem c79_stream_masked_partial (st : List (Rat × Bool × List (Option ℝ))) (taperLen : Rat) (hlen : 0 < taperLen) (k : Nat) (sr : Rat) (isInt : Bool)
    (data : List (Option ℝ)) (hk : st[k]? = some (sr, isInt, data)) (a b : ℝ) (h1 : data.head? = some (some a)) (h2 : data.getLast? = some (some b)) :
    ∃ out, (cosTaperSt st taperLen true)[k]? = some (sr, isInt, out) ∧ List.Forall₂ Tapered data out ∧
      ∃ segs : List (List (Option ℝ)), segs.flatten = data ∧ (∀ s ∈ segs, s ≠ [] ∧ (s.all (·.isSome) ∨ s.all (·.isNone))) ∧
        (segs.IsChain fun s t => ∃ hs ht, (s.getLast hs).isSome ≠ (t.head ht).isSome) ∧
        out = segs.flatMap fun s => if s.all (·.isSome) then orSame s (cosTaper isInt sr taperLen s) else s := by
  obtain ⟨out, g1, g2⟩ := c79_masked_partial isInt sr taperLen hlen data a b h1 h2
  refine ⟨out, ?_, g2, data.splitBy (fun a b => a.isSome == b.isSome), List.flatten_splitBy _ _, ?_, ?_, ?_⟩
  · unfold cosTaperSt
    rw [List.getElem?_map, hk]
    simp only [Option.map_some, if_true, g1]
    rfl
  · intro s hs
    refine ⟨fun h => List.nil_notMem_splitBy _ _ (h ▸ hs), ?_⟩
    have hc := List.isChain_of_mem_splitBy hs
    cases s with
    | nil => simp
    | cons x s =>
      have hall : ∀ (l : List (Option ℝ)) (x : Option ℝ), List.IsChain (fun a b => (a.isSome == b.isSome) = true) (x :: l) → ∀ y ∈ l, y.isSome = x.isSome := by
        intro l
        induction l with
        | nil => intro x _ y hy; cases hy
        | cons z l ih =>
          intro x hx y hy
          rw [List.isChain_cons_cons] at hx
          have hz : x.isSome = z.isSome := by simpa using hx.1
          rcases List.mem_cons.1 hy with rfl | hy
          · exact hz.symm
          · rw [hz]; exact ih z hx.2 y hy
      have := hall s x hc
      cases x with
      | none =>
        right
        rw [List.all_eq_true]
        intro y hy
        rcases List.mem_cons.1 hy with rfl | hy
        · rfl
        · have := this y hy
          cases y <;> simp_all
      | some v =>
        left
        rw [List.all_eq_true]
        intro y hy
        rcases List.mem_cons.1 hy with rfl | hy
        · rfl
        · exact this y hy
  · refine (List.isChain_getLast_head_splitBy _ data).imp fun s t ⟨hs, ht, h⟩ => ⟨hs, ht, ?_⟩
    simpa using h
  · unfold cosTaperMasked at g1
    rw [if_neg (not_le.2 hlen)] at g1
    split at g1
    · cases g1
    · rw [trimMasked_self data a b h1 h2] at g1
      exact (Except.ok.inj g1).symm

example : ([(1, false, [some 1, none, some 2])] : List (Rat × Bool × List (Option ℝ)))[0]? = some (1, false, [some 1, none, some 2]) ∧
    ([some 1, none, some 2] : List (Option ℝ)).head? = some (some 1) ∧ ([some 1, none, some 2] : List (Option ℝ)).getLast? = some (some 2) := ⟨rfl, rfl, rfl⟩

end SeisMIC
