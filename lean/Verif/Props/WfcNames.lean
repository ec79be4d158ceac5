import Verif.Props.Wfc

/-!
# C119: the names of the coherences, and correlations that are too short
-/

namespace SeisMIC

/-- **C119** (names). The coherences with the references are called `reftr_0`, `reftr_1` and so on, in the order of the references, their averages have the same
names with `_av` appended, and all names are different: no reference replaces another one. -/
theorem c119_names (refOf : List (List (Option ℝ)) → Except PyErr (List (List (Option ℝ)))) (codes : Str × Str × Str) (saveComps canSave : Bool)
    (data : List (List (Option ℝ))) (s : LagStats) (p : WfcParams) (w : Wfc) (h : wfcWindow refOf codes saveComps canSave data s p = .ok w) :
    ∃ refs, refOf (corrMatTrim data s (-(p.twStart + p.twLen)) (p.twStart + p.twLen)).1 = .ok refs ∧
      w.panel.map Prod.fst = (List.range refs.length).map (fun j => c!"reftr_" ++ (toString j).toList) ∧
      w.av.map Prod.fst = (List.range refs.length).map (fun j => c!"reftr_" ++ (toString j).toList ++ c!"_av") ∧
      (w.panel.map Prod.fst).Nodup ∧ (w.av.map Prod.fst).Nodup := by
  set cbt := corrMatTrim data s (-(p.twStart + p.twLen)) (p.twStart + p.twLen) with hcbt
  unfold wfcWindow at h
  simp only [bind, Except.bind] at h
  rw [← hcbt] at h
  split at h
  · cases h
  cases hr : refOf cbt.1 with
  | error e => rw [hr] at h; cases h
  | ok refs =>
    rw [hr] at h
    simp only at h
    cases hp : wfcMultiReftr cbt.2.npts cbt.1 refs [arangeInt (p.twStart * cbt.2.sr) ((p.twStart + p.twLen) * cbt.2.sr)] c!"both" with
    | error e => rw [hp] at h; cases h
    | ok panel =>
      rw [hp] at h
      simp only at h
      split at h
      · cases h
      obtain rfl := Except.ok.inj h
      unfold wfcMultiReftr at hp
      obtain ⟨hl, hall⟩ := mapM_getElem _ _ _ hp
      rw [List.length_zipIdx] at hl
      have hk : ∀ j : Nat, reftrKey j = c!"reftr_" ++ (toString j).toList := by
        intro j
        unfold reftrKey natDigits
        congr 1
        show _ = (Nat.repr j).toList
        rw [Nat.toList_repr]
      have h1 : panel.map Prod.fst = (List.range refs.length).map reftrKey := by
        refine List.ext_getElem (by simp [hl]) fun j g1 g2 => ?_
        rw [List.length_map] at g1
        obtain ⟨kv, hb, hkv⟩ := hall j (refs.zipIdx[j]'(by rw [List.length_zipIdx]; omega)) (List.getElem?_eq_getElem _)
        rw [List.getElem?_eq_getElem g1, Option.some.injEq] at hkv
        rw [List.getElem_map, hkv, List.getElem_map, List.getElem_range]
        simp only [bind, Except.bind] at hb
        split at hb
        · cases hb
        · rw [← Except.ok.inj hb, List.getElem_zipIdx, Nat.zero_add]
      have h2 : (panel.map fun kv => (kv.1 ++ c!"_av", maMean kv.2.flatten)).map Prod.fst = (List.range refs.length).map fun j => reftrKey j ++ c!"_av" := by
        rw [List.map_map, show (Prod.fst ∘ fun kv : Str × List (List (Option ℝ)) => (kv.1 ++ c!"_av", maMean kv.2.flatten)) =
          (fun k : Str => k ++ c!"_av") ∘ Prod.fst from rfl, ← List.map_map, h1, List.map_map]
        rfl
      refine ⟨refs, rfl, ?_, ?_, ?_, ?_⟩
      · exact h1.trans (List.map_congr_left fun j _ => hk j)
      · exact h2.trans (List.map_congr_left fun j _ => by rw [hk])
      · show (panel.map Prod.fst).Nodup
        rw [h1]
        exact List.nodup_range.map reftrKey_injective
      · show ((panel.map fun kv => (kv.1 ++ c!"_av", maMean kv.2.flatten)).map Prod.fst).Nodup
        rw [h2]
        exact List.nodup_range.map fun a b hab => reftrKey_injective (List.append_cancel_right hab)

/-- two references, hence two names -/
example : (∀ w, wfcWindow (fun d => .ok [d.headD [], d.headD []]) (c!"AB-AB", c!"S1-S1", c!"HHZ-HHZ") true true [List.replicate 41 none] (lagsFromTo (-20) 20 2)
    ⟨1 / 10, 1, 5 / 2, 5⟩ = .ok w → w.panel.map Prod.fst = [c!"reftr_0", c!"reftr_1"] ∧ w.av.map Prod.fst = [c!"reftr_0_av", c!"reftr_1_av"]) := by
  intro w hw
  obtain ⟨refs, h1, h2, h3, -⟩ := c119_names _ _ _ _ _ _ _ w hw
  obtain rfl := Except.ok.inj h1
  rw [h2, h3]
  decide

/-- **C119** (short correlations). If at most 20 samples remain within the end of the window, before and after zero lag, there is no coherence but a `ValueError`. -/
theorem c119_short (refOf : List (List (Option ℝ)) → Except PyErr (List (List (Option ℝ)))) (codes : Str × Str × Str) (saveComps canSave : Bool)
    (data : List (List (Option ℝ))) (s : LagStats) (p : WfcParams)
    (h : (corrMatTrim data s (-(p.twStart + p.twLen)) (p.twStart + p.twLen)).2.npts ≤ 20) :
    wfcWindow refOf codes saveComps canSave data s p = .error .valueError := by
  unfold wfcWindow
  simp only [bind, Except.bind]
  rw [if_pos h]

/-- a window that ends nine samples from zero lag, which leaves 19 samples, is refused -/
example : (corrMatTrim [List.replicate 41 (some (1 : ℝ))] (lagsFromTo (-20) 20 2) (-(1 + 7 / 2)) (1 + 7 / 2)).2.npts ≤ 20 := by
  have := dvTrim 20 9 (by norm_num) (by norm_num) 2 (by norm_num) [List.replicate 41 (1 : ℝ)] (by simp) (by simp)
  have e : (1 + 7 / 2 : Rat) = ((9 : Int) : Rat) / 2 := by norm_num
  have hm := corrMatTrim_map (fun x : ℝ => some x) [List.replicate 41 (1 : ℝ)] (lagsFromTo (-20) 20 2) (-(1 + 7 / 2)) (1 + 7 / 2)
  simp only [List.map_cons, List.map_nil, List.map_replicate] at hm
  rw [hm, e, this]
  simp [lagsFromTo]

end SeisMIC
