import Verif.Model.InversionRun
import Verif.Props.Spatial
import Verif.Props.Inversion
import Verif.Lemmas.DbRead
import Mathlib.Logic.Equiv.Fin.Basic
import Mathlib.Data.List.GetD

/-!
# C138: inversions with one grid object
-/

namespace SeisMIC

open Matrix

/-! ### The object does not matter -/

theorem cart_length (g : Geo) (l q : List Pt) (h : g.cart l = .ok q) : q.length = l.length := by
  unfold Geo.cart at h
  split at h
  · cases h
  · cases h
    simp

theorem addStations_eq (g : Geo) (ord : List Pt → List Pt) (s : Option Stations) (l : List Pt) (hl : l ≠ []) :
    (∃ e, g.cart l = .error e ∧ addStations g ord s l = .error e) ∨ ∃ q s', g.cart l = .ok q ∧ addStations g ord s l = .ok s' := by
  unfold addStations
  cases h : g.cart l with
  | error e => exact .inl ⟨e, rfl, rfl⟩
  | ok q =>
    have hq : q ≠ [] := by
      intro hq
      have := cart_length g l q h
      rw [hq] at this
      exact hl (List.length_eq_zero_iff.1 this.symm)
    right
    cases s with
    | none => exact ⟨q, ⟨ord q, ord l⟩, rfl, by simp only [bind, Except.bind, pure, Except.pure]; rw [if_neg hq]⟩
    | some s => exact ⟨q, ⟨ord (s.xy ++ q), ord (s.ll ++ l)⟩, rfl, by simp only [bind, Except.bind, pure, Except.pure]; rw [if_neg (by simp [hq])]⟩

/-- the data of a call, without the stations of the object -/
def usedData (g : Geo) (utc : Int) (curves : List Curve) : Except PyErr (List Datum × Option Proc) :=
  match curves.mapM (extractOne utc) with
  | .error e => .error e
  | .ok sel =>
    match (sel.filterMap id).getLast? with
    | none => .error .indexError
    | some d =>
      match g.cart ((sel.filterMap id).map (·.stat0)), g.cart ((sel.filterMap id).map (·.stat1)) with
      | .ok _, .ok _ => .ok (sel.filterMap id, d.proc)
      | .error e, _ => .error e
      | .ok _, .error e => .error e

theorem extractSt_eq (env : GridEnv) (st : Option Stations) (utc : Int) (curves : List Curve) :
    (extractSt env st utc curves).1 = usedData env.geo utc curves := by
  unfold extractSt usedData
  cases curves.mapM (extractOne utc) with
  | error e => rfl
  | ok sel =>
    simp only
    cases hd : (sel.filterMap id).getLast? with
    | none => rfl
    | some d =>
      have hne : sel.filterMap id ≠ [] := by
        intro h
        rw [h] at hd
        cases hd
      simp only
      rcases addStations_eq env.geo env.ord st ((sel.filterMap id).map (·.stat0)) (by simpa using hne) with ⟨e, h1, h2⟩ | ⟨q, s', h1, h2⟩
      · rw [h1, h2]
      · rw [h1, h2]
        simp only
        rcases addStations_eq env.geo env.ord (some s') ((sel.filterMap id).map (·.stat1)) (by simpa using hne) with ⟨e, h3, h4⟩ | ⟨q', s'', h3, h4⟩
        · rw [h3, h4]
        · rw [h3, h4]

/-- the kernels of the data -/
def kernelsOf (env : GridEnv) (data : List Datum) (t : Rat) : Except PyErr (List (List Rat)) := do
  let q0 ← env.geo.cart (data.map (·.stat0))
  let q1 ← env.geo.cart (data.map (·.stat1))
  (q0.zip q1).mapM fun p => env.kern (p.1, p.2, t)

/-- kernels, data, window and frequencies of a call, without the object -/
def preparedOf (env : GridEnv) (args : InvArgs) (utc : Int) (curves : List Curve) : Except PyErr Prepared :=
  match usedData env.geo utc curves with
  | .error e => .error e
  | .ok (data, proc) =>
    match invSettings args proc with
    | .error e => .error e
    | .ok (tw, f0, f1) => (kernelsOf env data ((tw.1 + tw.2) / 2)).map fun rows => ⟨rows.zip data, tw, f0, f1⟩

theorem prepare_eq (env : GridEnv) {nc : Nat} (s : GridState nc) (hs : CacheOk env.kern s.cache) (args : InvArgs) (utc : Int) (curves : List Curve) :
    (prepare env s args utc curves).1 = preparedOf env args utc curves ∧ CacheOk env.kern (prepare env s args utc curves).2.cache ∧
      (prepare env s args utc curves).2.vel = s.vel ∧ (prepare env s args utc curves).2.res = s.res := by
  unfold prepare preparedOf
  rw [← extractSt_eq env s.stations utc curves]
  generalize extractSt env s.stations utc curves = o
  obtain ⟨r, st⟩ := o
  cases r with
  | error e => exact ⟨rfl, hs, rfl, rfl⟩
  | ok dp =>
    obtain ⟨data, proc⟩ := dp
    simp only
    cases invSettings args proc with
    | error e => exact ⟨rfl, hs, rfl, rfl⟩
    | ok t =>
      obtain ⟨tw, f0, f1⟩ := t
      obtain ⟨h1, h2⟩ := computeKernels_spec env.geo env.kern s.cache (data.map (·.stat0)) (data.map (·.stat1)) ((tw.1 + tw.2) / 2) hs
      refine ⟨?_, h2, rfl, rfl⟩
      simp only [h1]
      rfl

/-- effect of a call: the kernels stay right, and the answer is that of a new object -/
theorem runCall_spec (env : GridEnv) (s : GridState env.cells.length) (hs : CacheOk env.kern s.cache) (c : GridCall) :
    (runCall env s c).1 = (runCall env (newGrid env.cells.length) c).1 ∧ CacheOk env.kern (runCall env s c).2.cache := by
  have h0 : CacheOk env.kern (newGrid env.cells.length).cache := fun _ _ h => absurd h List.not_mem_nil
  have key : ∀ args utc curves, ∃ r s1 s2, prepare env s args utc curves = (r, s1) ∧ prepare env (newGrid env.cells.length) args utc curves = (r, s2) ∧
      CacheOk env.kern s1.cache := by
    intro args utc curves
    obtain ⟨h1, h2, -⟩ := prepare_eq env s hs args utc curves
    obtain ⟨h3, -⟩ := prepare_eq env (newGrid env.cells.length) h0 args utc curves
    exact ⟨(prepare env s args utc curves).1, (prepare env s args utc curves).2, (prepare env (newGrid env.cells.length) args utc curves).2, rfl,
      Prod.ext (h3.trans h1.symm) rfl, h2⟩
  cases c with
  | dvGrid r cm args utc curves =>
    obtain ⟨p, s1, s2, e1, e2, hc⟩ := key args utc curves
    unfold runCall dvGridCall
    simp only [e1, e2]
    cases p with
    | error e => exact ⟨rfl, hc⟩
    | ok p =>
      simp only
      split
      · exact ⟨rfl, hc⟩
      · split
        · exact ⟨rfl, hc⟩
        · split
          · split
            · exact ⟨rfl, hc⟩
            · exact ⟨rfl, hc⟩
          · exact ⟨rfl, hc⟩
  | resolution cm args utc curves =>
    obtain ⟨p, s1, s2, e1, e2, hc⟩ := key args utc curves
    unfold runCall resolutionCall
    simp only [e1, e2]
    cases p with
    | error e => exact ⟨rfl, hc⟩
    | ok p =>
      simp only
      split
      · exact ⟨rfl, hc⟩
      · split
        · exact ⟨rfl, hc⟩
        · exact ⟨rfl, hc⟩
  | posterior cm args utc curves =>
    obtain ⟨p, s1, s2, e1, e2, hc⟩ := key args utc curves
    unfold runCall posteriorCall
    simp only [e1, e2]
    cases p with
    | error e => exact ⟨rfl, hc⟩
    | ok p =>
      simp only
      split
      · exact ⟨rfl, hc⟩
      · exact ⟨rfl, hc⟩
  | tsvd cutoff args utc curves =>
    obtain ⟨p, s1, s2, e1, e2, hc⟩ := key args utc curves
    unfold runCall tsvdCall
    simp only [e1, e2]
    cases p with
    | error e => exact ⟨rfl, hc⟩
    | ok p => exact ⟨rfl, hc⟩

theorem afterCalls_cache (env : GridEnv) (calls : List GridCall) : CacheOk env.kern (afterCalls env calls).cache := by
  unfold afterCalls
  have : ∀ s : GridState env.cells.length, CacheOk env.kern s.cache → CacheOk env.kern (calls.foldl (fun s c => (runCall env s c).2) s).cache := by
    induction calls with
    | nil => exact fun s h => h
    | cons c l ih => exact fun s h => ih _ (runCall_spec env s h c).2
  exact this _ fun _ _ h => absurd h List.not_mem_nil

/-- **C138** (history). Whatever was computed with a grid before, successful or not, a call has the answer, or the exception, that it has on a new grid. -/
theorem c138_history (env : GridEnv) (calls : List GridCall) (c : GridCall) :
    (runCall env (afterCalls env calls) c).1 = (runCall env (newGrid env.cells.length) c).1 :=
  (runCall_spec env _ (afterCalls_cache env calls) c).1

theorem resolution_invert {n : Nat} {κ : Type} [Fintype κ] (G : Matrix (Fin n) κ ℝ) (C : Matrix κ κ ℝ) (D : Matrix (Fin n) (Fin n) ℝ) (d : Fin n → ℝ) :
    (∃ e, invert G C D d = .error e ∧ resolution G C D = .error e) ∨ ∃ m r, invert G C D d = .ok m ∧ resolution G C D = .ok r := by
  unfold invert resolution
  cases npInv (G * C * Gᵀ + D) with
  | error e => exact .inl ⟨e, rfl, rfl⟩
  | ok b => exact .inr ⟨_, _, rfl, rfl⟩

/-- **C138** (joint or separate). After an inversion with resolution the object has the returned velocity changes and the resolution that a separate
computation returns on any grid object, and if one of both fails, so does the other, with the same exception. -/
theorem c138_joint (env : GridEnv) (calls calls' : List GridCall) (cm : CmArgs) (args : InvArgs) (utc : Int) (curves : List Curve) :
    let joint := dvGridCall env (afterCalls env calls) true cm args utc curves
    let separate := resolutionCall env (afterCalls env calls') cm args utc curves
    (∃ m r, joint.1 = .ok m ∧ joint.2.vel = some m ∧ joint.2.res = some r ∧ separate.1 = .ok r ∧ separate.2.res = some r ∧
      separate.2.vel = (afterCalls env calls').vel) ∨
    ∃ e, joint.1 = .error e ∧ separate.1 = .error e := by
  obtain ⟨h1, -, -, -⟩ := prepare_eq env _ (afterCalls_cache env calls) args utc curves
  obtain ⟨h2, -, h4, -⟩ := prepare_eq env _ (afterCalls_cache env calls') args utc curves
  unfold dvGridCall resolutionCall
  revert h1 h2 h4
  generalize prepare env (afterCalls env calls) args utc curves = o1
  generalize prepare env (afterCalls env calls') args utc curves = o2
  intro h1 h2 h4
  obtain ⟨r1, s1⟩ := o1
  obtain ⟨r2, s2⟩ := o2
  obtain rfl : r1 = r2 := h1.trans h2.symm
  cases r1 with
  | error e => exact .inr ⟨e, rfl, rfl⟩
  | ok p =>
    simp only
    cases hc : covariances env cm p with
    | error e => exact .inr ⟨e, rfl, rfl⟩
    | ok cd =>
      obtain ⟨c, d⟩ := cd
      simp only
      rcases resolution_invert (kernelMatrix env.cells.length p.rows) c d (datumVals p.rows) with ⟨e, e1, e2⟩ | ⟨m, r, e1, e2⟩
      · rw [e1, e2]
        exact .inr ⟨e, rfl, rfl⟩
      · rw [e1, e2]
        exact .inl ⟨m, r, rfl, rfl, rfl, rfl, rfl, h4⟩

/-- **C138** (failed calls). A call that fails, and the computation of the posterior covariance, leave the velocity changes and the resolution as they were;
the inversion without resolution and the truncated inversion leave the resolution, the resolution alone leaves the velocity changes. What they change is what
they return. -/
theorem c138_attributes (env : GridEnv) (calls : List GridCall) (c : GridCall) :
    let s := afterCalls env calls
    let o := runCall env s c
    match c, o.1 with
    | _, .error _ => o.2.vel = s.vel ∧ o.2.res = s.res
    | .dvGrid true _ _ _ _, .ok a => ∃ m, a = .cells m ∧ o.2.vel = some m
    | .dvGrid false _ _ _ _, .ok a => ∃ m, a = .cells m ∧ o.2.vel = some m ∧ o.2.res = s.res
    | .tsvd _ _ _ _, .ok a => ∃ m, a = .cells m ∧ o.2.vel = some m ∧ o.2.res = s.res
    | .resolution _ _ _ _, .ok a => ∃ r, a = .cells r ∧ o.2.vel = s.vel ∧ o.2.res = some r
    | .posterior _ _ _ _, .ok _ => o.2.vel = s.vel ∧ o.2.res = s.res := by
  intro s o
  have hs := afterCalls_cache env calls
  cases c with
  | dvGrid r cm args utc curves =>
    obtain ⟨-, -, h3, h4⟩ := prepare_eq env s hs args utc curves
    simp only [o, runCall, dvGridCall]
    revert h3 h4
    generalize prepare env s args utc curves = q
    intro h3 h4
    obtain ⟨p, s1⟩ := q
    cases p with
    | error e => exact ⟨h3, h4⟩
    | ok p =>
      simp only
      cases covariances env cm p with
      | error e => exact ⟨h3, h4⟩
      | ok cd =>
        obtain ⟨c, d⟩ := cd
        simp only
        rcases resolution_invert (kernelMatrix env.cells.length p.rows) c d (datumVals p.rows) with ⟨e, e1, e2⟩ | ⟨m, r', e1, e2⟩
        · rw [e1]
          exact ⟨h3, h4⟩
        · rw [e1, e2]
          cases r with
          | true => exact ⟨m, rfl, rfl⟩
          | false => exact ⟨m, rfl, rfl, h4⟩
  | resolution cm args utc curves =>
    obtain ⟨-, -, h3, h4⟩ := prepare_eq env s hs args utc curves
    simp only [o, runCall, resolutionCall]
    revert h3 h4
    generalize prepare env s args utc curves = q
    intro h3 h4
    obtain ⟨p, s1⟩ := q
    cases p with
    | error e => exact ⟨h3, h4⟩
    | ok p =>
      simp only
      cases covariances env cm p with
      | error e => exact ⟨h3, h4⟩
      | ok cd =>
        obtain ⟨c, d⟩ := cd
        simp only
        cases SeisMIC.resolution (kernelMatrix env.cells.length p.rows) c d with
        | error e => exact ⟨h3, h4⟩
        | ok r => exact ⟨r, rfl, h3, rfl⟩
  | posterior cm args utc curves =>
    obtain ⟨-, -, h3, h4⟩ := prepare_eq env s hs args utc curves
    simp only [o, runCall, posteriorCall]
    revert h3 h4
    generalize prepare env s args utc curves = q
    intro h3 h4
    obtain ⟨p, s1⟩ := q
    cases p with
    | error e => exact ⟨h3, h4⟩
    | ok p =>
      simp only
      cases covariances env cm p with
      | error e => exact ⟨h3, h4⟩
      | ok cd =>
        obtain ⟨c, d⟩ := cd
        simp only
        cases posteriorCovariance (kernelMatrix env.cells.length p.rows) c d with
        | error e => exact ⟨h3, h4⟩
        | ok r => exact ⟨h3, h4⟩
  | tsvd cutoff args utc curves =>
    obtain ⟨-, -, h3, h4⟩ := prepare_eq env s hs args utc curves
    simp only [o, runCall, tsvdCall]
    revert h3 h4
    generalize prepare env s args utc curves = q
    intro h3 h4
    obtain ⟨p, s1⟩ := q
    cases p with
    | error e => exact ⟨h3, h4⟩
    | ok p => exact ⟨_, rfl, rfl, h4⟩

/-! ### The order of the curves -/

theorem perm_equiv {α : Type} {l l' : List α} (h : l.Perm l') : ∃ e : Fin l.length ≃ Fin l'.length, ∀ i, l'.get (e i) = l.get i := by
  induction h with
  | nil => exact ⟨Equiv.refl _, fun i => i.elim0⟩
  | cons a h ih =>
    obtain ⟨e, he⟩ := ih
    refine ⟨(finSuccEquiv _).trans ((Equiv.optionCongr e).trans (finSuccEquiv _).symm), fun i => ?_⟩
    refine Fin.cases ?_ (fun j => ?_) i
    · rfl
    · have := he j
      simpa using this
  | swap a b l =>
    refine ⟨Equiv.swap 0 1, fun i => ?_⟩
    refine Fin.cases ?_ (fun j => Fin.cases ?_ (fun k => ?_) j) i
    · rw [Equiv.swap_apply_left]; rfl
    · have : (Fin.succ (0 : Fin (l.length + 1))) = (1 : Fin (l.length + 2)) := rfl
      rw [this, Equiv.swap_apply_right]; rfl
    · rw [Equiv.swap_apply_of_ne_of_ne]
      · rfl
      · exact Fin.succ_ne_zero _
      · intro h
        have := congrArg Fin.val h
        simp at this
  | trans _ _ ih1 ih2 =>
    obtain ⟨e1, h1⟩ := ih1
    obtain ⟨e2, h2⟩ := ih2
    exact ⟨e1.trans e2, fun i => (h2 (e1 i)).trans (h1 i)⟩

theorem mapM_of_forall2 {ε α β : Type} (l : List α) (f : α → Except ε β) (r : List β) (h : List.Forall₂ (fun a b => f a = .ok b) l r) : l.mapM f = .ok r := by
  induction h with
  | nil => rfl
  | cons h1 _ ih => rw [List.mapM_cons, h1, ih]; rfl

theorem mapM_perm {ε α β : Type} {l l' : List α} (h : l.Perm l') (f : α → Except ε β) (r : List β) (hr : l.mapM f = .ok r) :
    ∃ r', l'.mapM f = .ok r' ∧ r.Perm r' := by
  have hf := mapM_forall2 _ _ _ hr
  clear hr
  induction h generalizing r with
  | nil => cases hf; exact ⟨[], rfl, List.Perm.refl _⟩
  | cons a h ih =>
    cases hf with
    | cons h1 h2 =>
      obtain ⟨r', h3, h4⟩ := ih _ h2
      exact ⟨_ :: r', by rw [List.mapM_cons, h1, h3]; rfl, h4.cons _⟩
  | swap a b l =>
    cases hf with
    | cons h1 h2 =>
      cases h2 with
      | cons h3 h4 =>
        have h5 := mapM_of_forall2 _ _ _ h4
        exact ⟨_, by rw [List.mapM_cons, h3, List.mapM_cons, h1, h5]; rfl, List.Perm.swap _ _ _⟩
  | trans _ _ ih1 ih2 =>
    obtain ⟨r1, h1, h2⟩ := ih1 _ hf
    obtain ⟨r2, h3, h4⟩ := ih2 _ (mapM_forall2 _ _ _ h1)
    exact ⟨r2, h3, h2.trans h4⟩

/-- kernel of a datum, if it can be computed -/
def kernelOf (env : GridEnv) (t : Rat) (d : Datum) : Except PyErr (List Rat) :=
  env.kern ((env.geo.east d.stat0.2, env.geo.north d.stat0.1), (env.geo.east d.stat1.2, env.geo.north d.stat1.1), t)

theorem kernelsOf_eq (env : GridEnv) (data : List Datum) (t : Rat) (h0 : env.geo.Accepts (data.map (·.stat0))) (h1 : env.geo.Accepts (data.map (·.stat1))) :
    kernelsOf env data t = data.mapM (kernelOf env t) := by
  unfold kernelsOf
  rw [(cart_ok _ _).1 h0, (cart_ok _ _).1 h1]
  simp only [bind, Except.bind]
  clear h0 h1
  induction data with
  | nil => rfl
  | cons d data ih =>
    simp only [List.map_cons, List.zip_cons_cons, List.mapM_cons, ih]
    rfl

theorem mapM_zip_self {ε α β : Type} (l : List α) (f : α → Except ε β) :
    (l.mapM f).map (fun r => r.zip l) = l.mapM fun a => (f a).map fun b => (b, a) := by
  induction l with
  | nil => rfl
  | cons a l ih =>
    rw [List.mapM_cons, List.mapM_cons, ← ih]
    cases f a with
    | error e => rfl
    | ok b =>
      cases l.mapM f with
      | error e => rfl
      | ok r => rfl

theorem usedData_ok (g : Geo) (utc : Int) (curves : List Curve) (data : List Datum) (proc : Option Proc) :
    usedData g utc curves = .ok (data, proc) ↔ ∃ sel, curves.mapM (extractOne utc) = .ok sel ∧ data = sel.filterMap id ∧
      (∃ d, data.getLast? = some d ∧ d.proc = proc) ∧ g.Accepts (data.map (·.stat0)) ∧ g.Accepts (data.map (·.stat1)) := by
  unfold usedData
  cases curves.mapM (extractOne utc) with
  | error e => simp
  | ok sel =>
    simp only [Except.ok.injEq, exists_eq_left']
    cases hd : (sel.filterMap id).getLast? with
    | none =>
      simp only [reduceCtorEq, false_iff]
      rintro ⟨rfl, ⟨d, h, -⟩, -⟩
      rw [hd] at h
      cases h
    | some d =>
      simp only
      by_cases h0 : g.Accepts ((sel.filterMap id).map (·.stat0))
      · rw [(cart_ok _ _).1 h0]
        by_cases h1 : g.Accepts ((sel.filterMap id).map (·.stat1))
        · rw [(cart_ok _ _).1 h1]
          simp only [Except.ok.injEq, Prod.mk.injEq]
          constructor
          · rintro ⟨rfl, rfl⟩
            exact ⟨rfl, ⟨d, hd, rfl⟩, h0, h1⟩
          · rintro ⟨rfl, ⟨d', h, rfl⟩, -⟩
            rw [hd] at h
            cases h
            exact ⟨rfl, rfl⟩
        · rw [(cart_ok _ _).2 h1]
          simp only [reduceCtorEq, false_iff]
          rintro ⟨rfl, -, -, h⟩
          exact h1 h
      · rw [(cart_ok _ _).2 h0]
        simp only [reduceCtorEq, false_iff]
        rintro ⟨rfl, -, h, -⟩
        exact h0 h

/-- window and frequencies do not depend on which curve is the last one: all have the same processing, or everything is given -/
def SameSettings (args : InvArgs) (curves : List Curve) : Prop :=
  (∀ c ∈ curves, ∀ c' ∈ curves, c.proc = c'.proc) ∨ (args.tw ≠ none ∧ (∃ f, args.freq0 = some f ∧ f ≠ 0) ∧ ∃ f, args.freq1 = some f ∧ f ≠ 0)

theorem preparedOf_perm (env : GridEnv) (args : InvArgs) (utc : Int) {curves curves' : List Curve} (hp : curves.Perm curves') (hs : SameSettings args curves)
    (p : Prepared) (h : preparedOf env args utc curves = .ok p) :
    p.rows ≠ [] ∧ ∃ rows', p.rows.Perm rows' ∧ preparedOf env args utc curves' = .ok { p with rows := rows' } := by
  unfold preparedOf at h ⊢
  cases hu : usedData env.geo utc curves with
  | error e => rw [hu] at h; cases h
  | ok dp =>
    obtain ⟨data, proc⟩ := dp
    rw [hu] at h
    simp only at h
    obtain ⟨sel, h1, h2, ⟨d, h3, h4⟩, h5, h6⟩ := (usedData_ok _ _ _ _ _).1 hu
    obtain ⟨sel', g1, g2⟩ := mapM_perm hp _ _ h1
    have hperm : data.Perm (sel'.filterMap id) := by rw [h2]; exact g2.filterMap id
    have hne : data ≠ [] := by
      intro hn
      rw [hn] at h3
      cases h3
    have hne' : sel'.filterMap id ≠ [] := by
      intro hn
      rw [hn] at hperm
      exact hne hperm.eq_nil
    obtain ⟨d', g3⟩ : ∃ d', (sel'.filterMap id).getLast? = some d' := ⟨_, List.getLast?_eq_some_getLast hne'⟩
    have hu' : usedData env.geo utc curves' = .ok (sel'.filterMap id, d'.proc) := by
      refine (usedData_ok _ _ _ _ _).2 ⟨sel', g1, rfl, ⟨d', g3, rfl⟩, ?_, ?_⟩
      · intro q hq
        exact h5 q ((hperm.map _).mem_iff.2 hq)
      · intro q hq
        exact h6 q ((hperm.map _).mem_iff.2 hq)
    have hset : invSettings args d'.proc = invSettings args proc := by
      rcases hs with hs | ⟨ht, ⟨f0, hf0, n0⟩, f1, hf1, n1⟩
      · have from_curve : ∀ x ∈ data, ∃ c ∈ curves, x.proc = c.proc := by
          intro x hx
          rw [h2] at hx
          obtain ⟨o, ho, hox⟩ := List.mem_filterMap.1 hx
          simp only [id_eq] at hox
          subst hox
          obtain ⟨k, hk⟩ := List.mem_iff_getElem?.1 ho
          have hf := mapM_forall2 _ _ _ h1
          obtain ⟨hk', hk''⟩ := List.getElem?_eq_some_iff.1 hk
          have hkc : k < curves.length := by rw [hf.length_eq]; exact hk'
          have := hf.get hkc hk'
          simp only [List.get_eq_getElem] at this
          rw [hk''] at this
          exact ⟨_, List.getElem_mem hkc, ((extractOne_some _ _ _).1 this).2.2.2.2.2.2⟩
        obtain ⟨c, hc, e1⟩ := from_curve d (List.mem_of_getLast? h3)
        obtain ⟨c', hc', e2⟩ := from_curve d' (hperm.mem_iff.2 (List.mem_of_getLast? g3))
        rw [← h4, e1, e2, hs c hc c' hc']
      · obtain ⟨tw, ht⟩ := Option.ne_none_iff_exists'.1 ht
        unfold invSettings orOwn
        rw [ht, hf0, hf1]
        simp [n0, n1]
    rw [hu']
    simp only
    rw [hset]
    cases hi : invSettings args proc with
    | error e => rw [hi] at h; cases h
    | ok t =>
      obtain ⟨tw, f0, f1⟩ := t
      rw [hi] at h
      simp only at h ⊢
      obtain ⟨sel'', k1, k2, -, k5, k6⟩ := (usedData_ok _ _ _ _ _).1 hu'
      rw [kernelsOf_eq env data _ h5 h6] at h
      rw [kernelsOf_eq env _ _ k5 k6]
      have hz : ∀ dd : List Datum, (dd.mapM (kernelOf env ((tw.1 + tw.2) / 2))).map (fun rows => (⟨rows.zip dd, tw, f0, f1⟩ : Prepared)) =
          (dd.mapM fun a => (kernelOf env ((tw.1 + tw.2) / 2) a).map fun b => (b, a)).map fun rows => (⟨rows, tw, f0, f1⟩ : Prepared) := by
        intro dd
        rw [← mapM_zip_self]
        cases dd.mapM (kernelOf env ((tw.1 + tw.2) / 2)) <;> rfl
      rw [hz] at h ⊢
      cases hm : data.mapM fun a => (kernelOf env ((tw.1 + tw.2) / 2) a).map fun b => (b, a) with
      | error e => rw [hm] at h; cases h
      | ok rows =>
        rw [hm] at h
        cases h
        obtain ⟨rows', m1, m2⟩ := mapM_perm hperm _ _ hm
        refine ⟨?_, rows', m2, by rw [m1]; rfl⟩
        have := (mapM_forall2 _ _ _ hm).length_eq
        intro hn
        simp only at hn
        rw [hn] at this
        exact hne (List.length_eq_zero_iff.1 this)

theorem npInv_reindex {n n' : Nat} (e : Fin n ≃ Fin n') (M : Matrix (Fin n) (Fin n) ℝ) :
    npInv (M.submatrix e.symm e.symm) = (npInv M).map fun B => B.submatrix e.symm e.symm := by
  unfold npInv
  rw [Matrix.det_submatrix_equiv_self]
  split
  · simp only [Except.map]
    rw [Matrix.inv_submatrix_equiv]
  · rfl

theorem sysMatrix_reindex {n n' : Nat} {κ : Type} [Fintype κ] (e : Fin n ≃ Fin n') (G : Matrix (Fin n) κ ℝ) (C : Matrix κ κ ℝ) (D : Matrix (Fin n) (Fin n) ℝ) :
    G.submatrix e.symm id * C * (G.submatrix e.symm id)ᵀ + D.submatrix e.symm e.symm = (G * C * Gᵀ + D).submatrix e.symm e.symm := by
  ext i j
  simp [Matrix.mul_apply, Matrix.submatrix_apply]

theorem gain_reindex {n n' : Nat} {κ : Type} [Fintype κ] (e : Fin n ≃ Fin n') (G : Matrix (Fin n) κ ℝ) (C : Matrix κ κ ℝ) (B : Matrix (Fin n) (Fin n) ℝ) :
    C * (G.submatrix e.symm id)ᵀ * B.submatrix e.symm e.symm = (C * Gᵀ * B).submatrix id e.symm := by
  ext i j
  simp only [Matrix.mul_apply, Matrix.submatrix_apply, Matrix.transpose_apply, id]
  exact Fintype.sum_equiv e.symm _ _ fun k => rfl

theorem invert_reindex {n n' : Nat} {κ : Type} [Fintype κ] (e : Fin n ≃ Fin n') (G : Matrix (Fin n) κ ℝ) (C : Matrix κ κ ℝ) (D : Matrix (Fin n) (Fin n) ℝ)
    (d : Fin n → ℝ) : invert (G.submatrix e.symm id) C (D.submatrix e.symm e.symm) (d ∘ e.symm) = invert G C D d := by
  unfold invert
  simp only [sysMatrix_reindex, npInv_reindex]
  cases npInv (G * C * Gᵀ + D) with
  | error err => rfl
  | ok B =>
    simp only [Except.map, bind, Except.bind, pure, Except.pure, gain_reindex]
    congr 1
    funext k
    simp only [Matrix.mulVec, dotProduct, Matrix.submatrix_apply, Function.comp]
    exact Fintype.sum_equiv e.symm _ _ fun k => rfl

theorem resolution_reindex {n n' : Nat} {κ : Type} [Fintype κ] (e : Fin n ≃ Fin n') (G : Matrix (Fin n) κ ℝ) (C : Matrix κ κ ℝ) (D : Matrix (Fin n) (Fin n) ℝ) :
    resolution (G.submatrix e.symm id) C (D.submatrix e.symm e.symm) = resolution G C D := by
  rw [c99_resolution, c99_resolution, ← invert_reindex e G C D]
  rfl

theorem posterior_reindex {n n' : Nat} {κ : Type} [Fintype κ] [DecidableEq κ] (e : Fin n ≃ Fin n') (G : Matrix (Fin n) κ ℝ) (C : Matrix κ κ ℝ)
    (D : Matrix (Fin n) (Fin n) ℝ) : posteriorCovariance (G.submatrix e.symm id) C (D.submatrix e.symm e.symm) = posteriorCovariance G C D := by
  unfold posteriorCovariance
  rw [npInv_reindex]
  cases npInv D with
  | error err => rfl
  | ok B =>
    simp only [Except.map, bind, Except.bind]
    have : (G.submatrix e.symm id)ᵀ * B.submatrix e.symm e.symm * G.submatrix e.symm id = Gᵀ * B * G := by
      ext i j
      simp only [Matrix.mul_apply, Matrix.submatrix_apply, Matrix.transpose_apply, id]
      refine Fintype.sum_equiv e.symm _ _ fun k => ?_
      congr 1
      exact Fintype.sum_equiv e.symm _ _ fun k => rfl
    rw [this]

theorem dataCovariance_reindex {n n' : Nat} (hn : 0 < n) (e : Fin n ≃ Fin n') (corrs : Fin n → ℝ) (f0 f1 : ℝ) (tw : ℝ × ℝ) (D : Matrix (Fin n) (Fin n) ℝ)
    (h : dataCovariance corrs f0 f1 tw = .ok D) : dataCovariance (corrs ∘ e.symm) f0 f1 tw = .ok (D.submatrix e.symm e.symm) := by
  by_cases hv : VarianceInput (f1 - f0) tw ((f1 + f0) / 2)
  · rw [dataCovariance_ok hv] at h ⊢
    cases h
    rw [Matrix.submatrix_diagonal_equiv]
    rfl
  · exfalso
    have hr := c98_rejected (corrs ⟨0, hn⟩) (f1 - f0) tw ((f1 + f0) / 2) (by
      by_contra hc
      push Not at hc
      exact hv ⟨hc.1, hc.2.1, hc.2.2.1, hc.2.2.2⟩)
    unfold dataCovariance at h
    cases hm : (List.finRange n).mapM fun i => dataVariance (corrs i) (f1 - f0) tw ((f1 + f0) / 2) with
    | error err => rw [hm] at h; cases h
    | ok v =>
      have hf := mapM_forall2 _ _ _ hm
      have h0 : 0 < (List.finRange n).length := by simpa using hn
      have := hf.get h0 (by rw [← hf.length_eq]; exact h0)
      simp only [List.get_eq_getElem, List.getElem_finRange] at this
      have this := hr.symm.trans this
      cases this

/-- **C138** (order). If the curves have the same processing, or window and frequencies are given, the order of the curves does not matter: velocity changes,
resolution and posterior covariance are the same. Missing: curves with different processing, see `c138_order_violated`. -/
theorem c138_order_partial (env : GridEnv) (cm : CmArgs) (args : InvArgs) (utc : Int) {curves curves' : List Curve} (hp : curves.Perm curves')
    (hs : SameSettings args curves) :
    (∀ b m, (dvGridCall env (newGrid _) b cm args utc curves).1 = .ok m → (dvGridCall env (newGrid _) b cm args utc curves').1 = .ok m) ∧
    (∀ r, (resolutionCall env (newGrid _) cm args utc curves).1 = .ok r → (resolutionCall env (newGrid _) cm args utc curves').1 = .ok r) ∧
    ∀ q, (posteriorCall env (newGrid _) cm args utc curves).1 = .ok q → (posteriorCall env (newGrid _) cm args utc curves').1 = .ok q := by
  have h0 : CacheOk env.kern (newGrid env.cells.length).cache := fun _ _ h => absurd h List.not_mem_nil
  have e1 := (prepare_eq env (newGrid env.cells.length) h0 args utc curves).1
  have e2 := (prepare_eq env (newGrid env.cells.length) h0 args utc curves').1
  have main : ∀ p, preparedOf env args utc curves = .ok p → ∃ (rows' : _) (e : Fin p.rows.length ≃ Fin rows'.length),
      preparedOf env args utc curves' = .ok { p with rows := rows' } ∧ kernelMatrix env.cells.length rows' = (kernelMatrix env.cells.length p.rows).submatrix e.symm id ∧
      datumVals rows' = datumVals p.rows ∘ e.symm ∧ ∀ c d, covariances env cm p = .ok (c, d) →
        covariances env cm { p with rows := rows' } = .ok (c, d.submatrix e.symm e.symm) := by
    intro p hpr
    obtain ⟨hne, rows', hperm, hpr'⟩ := preparedOf_perm env args utc hp hs p hpr
    obtain ⟨e, he⟩ := perm_equiv hperm
    have he' : ∀ i, rows'.get i = p.rows.get (e.symm i) := fun i => by rw [← he (e.symm i), Equiv.apply_symm_apply]
    refine ⟨rows', e, hpr', ?_, ?_, ?_⟩
    · ext i k
      simp only [kernelMatrix, Matrix.of_apply, Matrix.submatrix_apply, he', id]
    · funext i
      simp only [datumVals, Function.comp, he']
    · intro c d hc
      have hcor : rowCorrs rows' = rowCorrs p.rows ∘ e.symm := by
        funext i
        simp only [rowCorrs, Function.comp, he']
      unfold covariances at hc ⊢
      cases hd : dataCovariance (rowCorrs p.rows) p.freq0 p.freq1 ((p.tw.1 : ℝ), (p.tw.2 : ℝ)) with
      | error err => rw [hd] at hc; cases hc
      | ok D =>
        rw [hd] at hc
        cases hc
        simp only [hcor, dataCovariance_reindex (List.length_pos_iff.2 hne) e _ _ _ _ _ hd]
        rfl
  refine ⟨fun b m hm => ?_, fun r hr => ?_, fun q hq => ?_⟩
  · unfold dvGridCall at hm ⊢
    revert e1 e2 hm
    generalize prepare env (newGrid env.cells.length) args utc curves = o1
    generalize prepare env (newGrid env.cells.length) args utc curves' = o2
    obtain ⟨r1, s1⟩ := o1
    obtain ⟨r2, s2⟩ := o2
    intro e1 e2 hm
    simp only at e1 e2
    subst e1
    subst e2
    cases hpr : preparedOf env args utc curves with
    | error err => rw [hpr] at hm; cases hm
    | ok p =>
      rw [hpr] at hm
      obtain ⟨rows', e, g1, g2, g3, g4⟩ := main p hpr
      rw [g1]
      simp only at hm ⊢
      cases hc : covariances env cm p with
      | error err => rw [hc] at hm; cases hm
      | ok cd =>
        obtain ⟨c, d⟩ := cd
        rw [hc] at hm
        rw [g4 c d hc]
        simp only at hm ⊢
        rw [g2, g3, invert_reindex e, resolution_reindex e]
        cases hi : invert (kernelMatrix env.cells.length p.rows) c d (datumVals p.rows) with
        | error err => rw [hi] at hm; cases hm
        | ok m' =>
          rw [hi] at hm
          simp only at hm ⊢
          cases b with
          | false => exact hm
          | true =>
            simp only [if_true] at hm ⊢
            cases hres : resolution (kernelMatrix env.cells.length p.rows) c d with
            | error err => rw [hres] at hm; cases hm
            | ok r => rw [hres] at hm; exact hm
  · unfold resolutionCall at hr ⊢
    revert e1 e2 hr
    generalize prepare env (newGrid env.cells.length) args utc curves = o1
    generalize prepare env (newGrid env.cells.length) args utc curves' = o2
    obtain ⟨r1, s1⟩ := o1
    obtain ⟨r2, s2⟩ := o2
    intro e1 e2 hr
    simp only at e1 e2
    subst e1
    subst e2
    cases hpr : preparedOf env args utc curves with
    | error err => rw [hpr] at hr; cases hr
    | ok p =>
      rw [hpr] at hr
      obtain ⟨rows', e, g1, g2, g3, g4⟩ := main p hpr
      rw [g1]
      simp only at hr ⊢
      cases hc : covariances env cm p with
      | error err => rw [hc] at hr; cases hr
      | ok cd =>
        obtain ⟨c, d⟩ := cd
        rw [hc] at hr
        rw [g4 c d hc]
        simp only at hr ⊢
        rw [g2, resolution_reindex e]
        cases hres : resolution (kernelMatrix env.cells.length p.rows) c d with
        | error err => rw [hres] at hr; cases hr
        | ok r => rw [hres] at hr; exact hr
  · unfold posteriorCall at hq ⊢
    revert e1 e2 hq
    generalize prepare env (newGrid env.cells.length) args utc curves = o1
    generalize prepare env (newGrid env.cells.length) args utc curves' = o2
    obtain ⟨r1, s1⟩ := o1
    obtain ⟨r2, s2⟩ := o2
    intro e1 e2 hq
    simp only at e1 e2
    subst e1
    subst e2
    cases hpr : preparedOf env args utc curves with
    | error err => rw [hpr] at hq; cases hq
    | ok p =>
      rw [hpr] at hq
      obtain ⟨rows', e, g1, g2, g3, g4⟩ := main p hpr
      rw [g1]
      simp only at hq ⊢
      cases hc : covariances env cm p with
      | error err => rw [hc] at hq; cases hq
      | ok cd =>
        obtain ⟨c, d⟩ := cd
        rw [hc] at hq
        rw [g4 c d hc]
        simp only at hq ⊢
        rw [g2, posterior_reindex e]
        exact hq

/-! ### Success -/

/-- window and frequencies that can be used -/
def ValidSettings (t : (Rat × Rat) × Rat × Rat) : Prop := 0 ≤ t.1.1 ∧ t.1.1 < t.1.2 ∧ t.2.1 < t.2.2 ∧ 0 < t.2.1 + t.2.2

theorem ValidSettings.variance {tw : Rat × Rat} {f0 f1 : Rat} (h : ValidSettings (tw, f0, f1)) :
    VarianceInput ((f1 : ℝ) - f0) ((tw.1 : ℝ), (tw.2 : ℝ)) (((f1 : ℝ) + f0) / 2) := by
  obtain ⟨h1, h2, h3, h4⟩ := h
  simp only at h1 h2 h3 h4
  have e1 : (0 : ℝ) ≤ (tw.1 : ℝ) := by exact_mod_cast h1
  have e2 : (tw.1 : ℝ) < (tw.2 : ℝ) := by exact_mod_cast h2
  have e3 : (f0 : ℝ) < (f1 : ℝ) := by exact_mod_cast h3
  have e4 : (0 : ℝ) < (f0 : ℝ) + (f1 : ℝ) := by exact_mod_cast h4
  exact ⟨e1, e2, by linarith, by linarith⟩

theorem calls_of_prepared (env : GridEnv) (calls : List GridCall) (cm : CmArgs) (hL : 0 < cm.corrLen) (args : InvArgs) (utc : Int) (curves : List Curve) (p : Prepared)
    (hp : preparedOf env args utc curves = .ok p) (hv : ValidSettings (p.tw, p.freq0, p.freq1)) (hc : ∀ r ∈ p.rows, 0 < r.2.corr ∧ r.2.corr < 1) :
    ∃ m d, covariances env cm p = .ok (modelCovariance cm.scaling cm.corrLen cm.stdModel (cellPos env.cells), d) ∧
      invert (kernelMatrix env.cells.length p.rows) (modelCovariance cm.scaling cm.corrLen cm.stdModel (cellPos env.cells)) d (datumVals p.rows) = .ok m ∧
      (∀ b, (dvGridCall env (afterCalls env calls) b cm args utc curves).1 = .ok m) ∧
      ∃ r, resolution (kernelMatrix env.cells.length p.rows) (modelCovariance cm.scaling cm.corrLen cm.stdModel (cellPos env.cells)) d = .ok r ∧
        (resolutionCall env (afterCalls env calls) cm args utc curves).1 = .ok r ∧ (dvGridCall env (afterCalls env calls) true cm args utc curves).2.res = some r := by
  obtain ⟨σ, w, -, h2, -⟩ := c97_inversion (kernelMatrix env.cells.length p.rows) (cellPos env.cells) (cm.scaling : ℝ) (cm.corrLen : ℝ) (cm.stdModel : ℝ) (p.freq0 : ℝ)
    (p.freq1 : ℝ) ((p.tw.1 : ℝ), (p.tw.2 : ℝ)) (rowCorrs p.rows) (datumVals p.rows) (by exact_mod_cast hL) hv.variance (fun i => by
      obtain ⟨a, b⟩ := hc _ (List.get_mem p.rows i)
      constructor
      · unfold rowCorrs; exact_mod_cast a
      · unfold rowCorrs; exact_mod_cast b)
  unfold computeDvGrid at h2
  cases hd : dataCovariance (rowCorrs p.rows) (p.freq0 : ℝ) (p.freq1 : ℝ) ((p.tw.1 : ℝ), (p.tw.2 : ℝ)) with
  | error e => rw [hd] at h2; cases h2
  | ok d =>
    rw [hd] at h2
    simp only [bind, Except.bind] at h2
    have hcov : covariances env cm p = .ok (modelCovariance cm.scaling cm.corrLen cm.stdModel (cellPos env.cells), d) := by
      unfold covariances
      rw [hd]
      rfl
    have hpe := (prepare_eq env _ (afterCalls_cache env calls) args utc curves).1
    rw [hp] at hpe
    rcases resolution_invert (kernelMatrix env.cells.length p.rows) (modelCovariance cm.scaling cm.corrLen cm.stdModel (cellPos env.cells)) d (datumVals p.rows) with
      ⟨e, e1, -⟩ | ⟨m, r, e1, e2⟩
    · rw [e1] at h2; cases h2
    refine ⟨m, d, hcov, e1, fun b => ?_, r, e2, ?_, ?_⟩
    · unfold dvGridCall
      revert hpe
      generalize prepare env (afterCalls env calls) args utc curves = o
      obtain ⟨o1, o2⟩ := o
      intro hpe
      simp only at hpe
      subst hpe
      simp only [hcov, e1, e2]
      cases b <;> rfl
    · unfold resolutionCall
      revert hpe
      generalize prepare env (afterCalls env calls) args utc curves = o
      obtain ⟨o1, o2⟩ := o
      intro hpe
      simp only at hpe
      subst hpe
      simp only [hcov, e2]
    · unfold dvGridCall
      revert hpe
      generalize prepare env (afterCalls env calls) args utc curves = o
      obtain ⟨o1, o2⟩ := o
      intro hpe
      simp only at hpe
      subst hpe
      simp only [hcov, e1, e2, if_true]

theorem usedData_mem (g : Geo) (utc : Int) (curves : List Curve) (data : List Datum) (proc : Option Proc) (h : usedData g utc curves = .ok (data, proc)) (d : Datum)
    (hd : d ∈ data) : ∃ c ∈ curves, Contributes utc c d := by
  obtain ⟨sel, h1, h2, -⟩ := (usedData_ok _ _ _ _ _).1 h
  rw [h2] at hd
  obtain ⟨o, ho, hox⟩ := List.mem_filterMap.1 hd
  simp only [id_eq] at hox
  subst hox
  obtain ⟨k, hk⟩ := List.mem_iff_getElem?.1 ho
  have hf := mapM_forall2 _ _ _ h1
  obtain ⟨hk', hk''⟩ := List.getElem?_eq_some_iff.1 hk
  have hkc : k < curves.length := by rw [hf.length_eq]; exact hk'
  have := hf.get hkc hk'
  simp only [List.get_eq_getElem] at this
  rw [hk''] at this
  exact ⟨_, List.getElem_mem hkc, (extractOne_some _ _ _).1 this⟩

theorem usedData_extractInfo (g : Geo) (ord : List Pt → List Pt) (utc : Int) (curves : List Curve) (r : List Datum × Stations × Option Proc)
    (h : extractInfo g ord none utc curves = .ok r) : usedData g utc curves = .ok (r.1, r.2.2) := by
  have := extractSt_eq ⟨g, ord, fun _ => .ok [], [], fun _ _ => 0⟩ none utc curves
  rw [← this]
  unfold extractSt
  unfold extractInfo at h
  cases hm : curves.mapM (extractOne utc) with
  | error e => rw [hm] at h; cases h
  | ok sel =>
    rw [hm] at h
    simp only [bind, Except.bind] at h ⊢
    cases hd : (sel.filterMap id).getLast? with
    | none => rw [hd] at h; cases h
    | some d =>
      rw [hd] at h
      simp only at h ⊢
      cases h1 : addStations g ord none ((sel.filterMap id).map (·.stat0)) with
      | error e => rw [h1] at h; cases h
      | ok s0 =>
        rw [h1] at h
        simp only at h ⊢
        cases h2 : addStations g ord (some s0) ((sel.filterMap id).map (·.stat1)) with
        | error e => rw [h2] at h; cases h
        | ok s1 =>
          rw [h2] at h
          cases h
          rfl

/-- **C138** (success). If a curve contributes a value at the time, the stations are on the grid, the kernels can be computed and window and frequencies are
valid, inversion and resolution succeed, whatever was done before. -/
theorem c138_succeeds (env : GridEnv) (calls : List GridCall) (cm : CmArgs) (hL : 0 < cm.corrLen) (args : InvArgs) (utc : Int) (curves : List Curve)
    (hc : ∀ c ∈ curves, c.Complete) (hn : ∃ c ∈ curves, ∃ d, Contributes utc c d) (hpos : ∀ c ∈ curves, env.geo.Accepts [c.stat0, c.stat1])
    (hk : ∀ key, ∃ k, env.kern key = .ok k) (hset : ∀ c ∈ curves, ∃ t, invSettings args c.proc = .ok t ∧ ValidSettings t) :
    (∀ b, ∃ m, (dvGridCall env (afterCalls env calls) b cm args utc curves).1 = .ok m) ∧ ∃ r, (resolutionCall env (afterCalls env calls) cm args utc curves).1 = .ok r := by
  obtain ⟨⟨data, st, proc⟩, hr⟩ := c62_succeeds env.geo List.eraseDups (fun l => ⟨nodup_eraseDups _, fun p => List.mem_eraseDups⟩) none utc curves hc hn hpos
  have hu := usedData_extractInfo _ _ _ _ _ hr
  simp only at hu
  have hmem := usedData_mem _ _ _ _ _ hu
  obtain ⟨sel, h1, h2, ⟨d, h3, h4⟩, h5, h6⟩ := (usedData_ok _ _ _ _ _).1 hu
  obtain ⟨c, hcm, hcd⟩ := hmem d (List.mem_of_getLast? h3)
  obtain ⟨t, ht1, ht2⟩ := hset c hcm
  have hpc : c.proc = proc := by rw [← hcd.2.2.2.2.2.2, h4]
  rw [hpc] at ht1
  obtain ⟨tw, f0, f1⟩ := t
  have hrows : data.mapM (kernelOf env ((tw.1 + tw.2) / 2)) = .ok (data.map fun d => (kernelOf env ((tw.1 + tw.2) / 2) d).toOption.getD []) :=
    mapM_ok _ _ _ fun x _ => by
      obtain ⟨k, hk⟩ := hk ((env.geo.east x.stat0.2, env.geo.north x.stat0.1), (env.geo.east x.stat1.2, env.geo.north x.stat1.1), (tw.1 + tw.2) / 2)
      unfold kernelOf
      rw [hk]
      rfl
  have hp : preparedOf env args utc curves = .ok ⟨(data.map fun d => (kernelOf env ((tw.1 + tw.2) / 2) d).toOption.getD []).zip data, tw, f0, f1⟩ := by
    unfold preparedOf
    rw [hu]
    simp only
    rw [ht1]
    simp only
    rw [kernelsOf_eq env data _ h5 h6, hrows]
    rfl
  obtain ⟨m, D, -, -, g1, r, -, g2, -⟩ := calls_of_prepared env calls cm hL args utc curves _ hp ht2 (fun x hx => by
    obtain ⟨c', -, h7⟩ := hmem x.2 (List.of_mem_zip hx).2
    have := h7.2.2.1
    exact ⟨by linarith, h7.2.2.2.1⟩)
  exact ⟨fun b => ⟨m, g1 b⟩, r, g2⟩

/-! ### Violations -/

/-- a grid of one cell; stations at easting zero do not see it -/
def oneCell : GridEnv where
  geo := ⟨0, 0, id, id⟩
  ord := List.eraseDups
  kern := fun k => .ok [if k.1.1 = 0 then 0 else 1]
  cells := [(0, 0)]
  pinv := fun _ _ => 0

/-- processing with a window from 10 to 20 s and 0.5 to 1 Hz -/
def exampleProc : Proc := ⟨10, 10, 1 / 2, 1, none⟩

/-- a curve with one value at time `t`; `lon` is the longitude of the first station -/
def exampleCurve (t : Int) (lon : Rat) (proc : Option Proc) : Curve := ⟨[t], [t + 10], [some 1], [some (1 / 2)], (1, lon), (2, 2), proc⟩

/-- **C138** (violated). The window and the frequencies are those of the last curve with a value. If this curve does not know its processing, the inversion is
refused, although it succeeds with the curves in another order. -/
theorem c138_order_violated :
    let a := exampleCurve 0 1 (some exampleProc)
    let b := exampleCurve 0 2 none
    (∃ m, (dvGridCall oneCell (newGrid _) false ⟨1, 1, 1⟩ ⟨none, none, none⟩ 5 [b, a]).1 = .ok m) ∧
      (dvGridCall oneCell (newGrid _) false ⟨1, 1, 1⟩ ⟨none, none, none⟩ 5 [a, b]).1 = .error .attributeError := by
  intro a b
  constructor
  · obtain ⟨m, -, -, -, h, -⟩ := calls_of_prepared oneCell [] ⟨1, 1, 1⟩ (by norm_num) ⟨none, none, none⟩ 5 [b, a]
      ⟨[([1], ⟨1, 1 / 2, (1, 2), (2, 2), none⟩), ([1], ⟨1, 1 / 2, (1, 1), (2, 2), some exampleProc⟩)], (10, 20), 1 / 2, 1⟩ (by decide +kernel)
      ⟨by norm_num, by norm_num, by norm_num, by norm_num⟩ (by decide +kernel)
    exact ⟨m, h false⟩
  · have h0 : CacheOk oneCell.kern (newGrid oneCell.cells.length).cache := fun _ _ h => absurd h List.not_mem_nil
    have h1 := (prepare_eq oneCell (newGrid _) h0 ⟨none, none, none⟩ 5 [a, b]).1
    have h2 : preparedOf oneCell ⟨none, none, none⟩ 5 [a, b] = .error .attributeError := by decide +kernel
    unfold dvGridCall
    rw [h2] at h1
    revert h1
    generalize prepare oneCell (newGrid _) ⟨none, none, none⟩ 5 [a, b] = o
    obtain ⟨o1, o2⟩ := o
    intro h1
    simp only at h1
    subst h1
    rfl

/-- **C138** (violated). A frequency of zero that is given is not used: the call is the same as without it, for all other arguments; without a processing it is
refused although all arguments are given. -/
theorem c138_zero_violated :
    (∀ (env : GridEnv) (s : GridState env.cells.length) (b : Bool) (cm : CmArgs) (tw : Option (Rat × Rat)) (f1 : Option Rat) (utc : Int) (curves : List Curve),
      dvGridCall env s b cm ⟨tw, some 0, f1⟩ utc curves = dvGridCall env s b cm ⟨tw, none, f1⟩ utc curves) ∧
    (dvGridCall oneCell (newGrid _) false ⟨1, 1, 1⟩ ⟨some (10, 20), some 0, some 1⟩ 5 [exampleCurve 0 1 none]).1 = .error .attributeError := by
  constructor
  · intro env s b cm tw f1 utc curves
    have : ∀ proc, invSettings ⟨tw, some 0, f1⟩ proc = invSettings ⟨tw, none, f1⟩ proc := fun proc => rfl
    have hp : prepare env s ⟨tw, some 0, f1⟩ utc curves = prepare env s ⟨tw, none, f1⟩ utc curves := by
      unfold prepare
      simp only [this]
    unfold dvGridCall
    rw [hp]
  · have h0 : CacheOk oneCell.kern (newGrid oneCell.cells.length).cache := fun _ _ h => absurd h List.not_mem_nil
    have h1 := (prepare_eq oneCell (newGrid _) h0 ⟨some (10, 20), some 0, some 1⟩ 5 [exampleCurve 0 1 none]).1
    have h2 : preparedOf oneCell ⟨some (10, 20), some 0, some 1⟩ 5 [exampleCurve 0 1 none] = .error .attributeError := by decide +kernel
    unfold dvGridCall
    rw [h2] at h1
    revert h1
    generalize prepare oneCell (newGrid _) ⟨some (10, 20), some 0, some 1⟩ 5 [exampleCurve 0 1 none] = o
    obtain ⟨o1, o2⟩ := o
    intro h1
    simp only at h1
    subst h1
    rfl

theorem resolution_one (G C D : Matrix (Fin 1) (Fin 1) ℝ) (r : Fin 1 → ℝ) (h : resolution G C D = .ok r) :
    r 0 = C 0 0 * G 0 0 * (G 0 0 * C 0 0 * G 0 0 + D 0 0)⁻¹ * G 0 0 ∧ G 0 0 * C 0 0 * G 0 0 + D 0 0 ≠ 0 := by
  unfold resolution npInv at h
  have hd : (G * C * Gᵀ + D).det = G 0 0 * C 0 0 * G 0 0 + D 0 0 := by
    rw [Matrix.det_fin_one]
    simp [Matrix.mul_apply]
  by_cases hu : IsUnit (G * C * Gᵀ + D).det
  · rw [if_pos hu] at h
    simp only [bind, Except.bind, pure, Except.pure, Except.ok.injEq] at h
    rw [hd] at hu
    refine ⟨?_, hu.ne_zero⟩
    rw [← h, Matrix.inv_subsingleton]
    simp [Matrix.mul_apply, Ring.inverse_eq_inv']
  · rw [if_neg hu] at h
    cases h

/-- **C138** (violated). After an inversion with resolution and one for another time without, the object has the velocity changes of the second and the
resolution of the first one; the resolution of the second one is another. -/
theorem c138_stale_violated :
    let curves := [exampleCurve 0 1 (some exampleProc), exampleCurve 20 0 (some exampleProc)]
    let s1 := (dvGridCall oneCell (newGrid _) true ⟨1, 1, 1⟩ ⟨none, none, none⟩ 5 curves).2
    let second := dvGridCall oneCell s1 false ⟨1, 1, 1⟩ ⟨none, none, none⟩ 25 curves
    ∃ m r r', second.1 = .ok m ∧ second.2.vel = some m ∧ second.2.res = some r ∧
      (resolutionCall oneCell (newGrid _) ⟨1, 1, 1⟩ ⟨none, none, none⟩ 25 curves).1 = .ok r' ∧ r ≠ r' := by
  intro curves s1 second
  obtain ⟨m1, d1, -, -, -, r1, g1, -, g2⟩ := calls_of_prepared oneCell [] ⟨1, 1, 1⟩ (by norm_num) ⟨none, none, none⟩ 5 curves
    ⟨[([1], ⟨1, 1 / 2, (1, 1), (2, 2), some exampleProc⟩)], (10, 20), 1 / 2, 1⟩ (by decide +kernel) ⟨by norm_num, by norm_num, by norm_num, by norm_num⟩ (by decide +kernel)
  have hp2 : preparedOf oneCell ⟨none, none, none⟩ 25 curves = .ok ⟨[([0], ⟨1, 1 / 2, (1, 0), (2, 2), some exampleProc⟩)], (10, 20), 1 / 2, 1⟩ := by decide +kernel
  obtain ⟨m2, d2, -, -, k1, r2, k2, k3, -⟩ := calls_of_prepared oneCell [] ⟨1, 1, 1⟩ (by norm_num) ⟨none, none, none⟩ 25 curves _ hp2
    ⟨by norm_num, by norm_num, by norm_num, by norm_num⟩ (by decide +kernel)
  obtain ⟨m3, -, -, -, k4, -⟩ := calls_of_prepared oneCell [.dvGrid true ⟨1, 1, 1⟩ ⟨none, none, none⟩ 5 curves] ⟨1, 1, 1⟩ (by norm_num) ⟨none, none, none⟩ 25 curves _ hp2
    ⟨by norm_num, by norm_num, by norm_num, by norm_num⟩ (by decide +kernel)
  have hs : second.1 = .ok m3 := k4 false
  have hat := c138_attributes oneCell [.dvGrid true ⟨1, 1, 1⟩ ⟨none, none, none⟩ 5 curves] (.dvGrid false ⟨1, 1, 1⟩ ⟨none, none, none⟩ 25 curves)
  have hrun : runCall oneCell (afterCalls oneCell [.dvGrid true ⟨1, 1, 1⟩ ⟨none, none, none⟩ 5 curves]) (.dvGrid false ⟨1, 1, 1⟩ ⟨none, none, none⟩ 25 curves) =
      (second.1.map .cells, second.2) := rfl
  simp only [hrun, hs, Except.map] at hat
  obtain ⟨m, hm, hv, hres⟩ := hat
  cases hm
  refine ⟨m3, r1, r2, hs, hv, hres.trans g2, k3, fun he => ?_⟩
  obtain ⟨e1, e2⟩ := resolution_one _ _ _ _ g1
  obtain ⟨e3, -⟩ := resolution_one _ _ _ _ k2
  rw [he, e3] at e1
  have z1 : kernelMatrix oneCell.cells.length [(([1] : List Rat), (⟨1, 1 / 2, (1, 1), (2, 2), some exampleProc⟩ : Datum))] (0 : Fin 1) (0 : Fin 1) = 1 := by
    change (((1 : Rat)) : ℝ) = 1
    norm_num
  have z2 : kernelMatrix oneCell.cells.length [(([0] : List Rat), (⟨1, 1 / 2, (1, 0), (2, 2), some exampleProc⟩ : Datum))] (0 : Fin 1) (0 : Fin 1) = 0 := by
    change (((0 : Rat)) : ℝ) = 0
    norm_num
  rw [z1] at e1 e2
  rw [z2] at e1
  have hC : modelCovariance (((1 : Rat) : ℝ)) ((1 : Rat) : ℝ) ((1 : Rat) : ℝ) (cellPos oneCell.cells) (0 : Fin 1) (0 : Fin 1) ≠ 0 := by
    change (((1 : Rat) : ℝ) * ((1 : Rat) : ℝ) / ((1 : Rat) : ℝ)) ^ 2 * Real.exp _ ≠ 0
    exact mul_ne_zero (by norm_num) (Real.exp_ne_zero _)
  rw [mul_zero, mul_one, mul_one] at e1
  exact mul_ne_zero hC (inv_ne_zero e2) e1.symm

/-- two curves with the same processing satisfy the hypotheses of `c138_order_partial` and `c138_succeeds` -/
example :
    let curves := [exampleCurve 0 1 (some exampleProc), exampleCurve 0 0 (some exampleProc)]
    SameSettings ⟨none, none, none⟩ curves ∧ (∀ c ∈ curves, c.Complete) ∧ (∃ c ∈ curves, ∃ d, Contributes 5 c d) ∧
      (∀ c ∈ curves, oneCell.geo.Accepts [c.stat0, c.stat1]) ∧ (∀ key, ∃ k, oneCell.kern key = .ok k) ∧
      ∀ c ∈ curves, ∃ t, invSettings ⟨none, none, none⟩ c.proc = .ok t ∧ ValidSettings t := by
  intro curves
  refine ⟨.inl ?_, ?_, ?_, ?_, fun key => ⟨_, rfl⟩, ?_⟩
  · simp only [curves, List.mem_cons, List.not_mem_nil, or_false]
    rintro c (rfl | rfl) c' (rfl | rfl) <;> rfl
  · simp only [curves, List.mem_cons, List.not_mem_nil, or_false]
    rintro c (rfl | rfl) <;> exact ⟨by decide, by decide, by decide, by decide⟩
  · exact ⟨_, List.mem_cons_self, ⟨1, 1 / 2, (1, 1), (2, 2), some exampleProc⟩, (extractOne_some _ _ _).1 (by decide +kernel)⟩
  · simp only [curves, List.mem_cons, List.not_mem_nil, or_false]
    rintro c (rfl | rfl) <;> unfold Geo.Accepts <;> decide +kernel
  · simp only [curves, List.mem_cons, List.not_mem_nil, or_false]
    rintro c (rfl | rfl) <;> exact ⟨((10, 20), 1 / 2, 1), by decide +kernel, by norm_num, by norm_num, by norm_num, by norm_num⟩

end SeisMIC
