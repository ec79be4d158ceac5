import Verif.Model.AverageRun
import Verif.Props.MonitorFiles

/-!
# C189: repeated averaging over components
-/

namespace SeisMIC

/-! ### specification -/

/-- the channels of a result: two components, or an average -/
inductive ResChan
  | comp (c1 c2 : Str)
  | avg (m : AvMethod)
  deriving DecidableEq

/-- a result in the directory -/
structure NamedDv where
  n1 : Str
  n2 : Str
  s1 : Str
  s2 : Str
  chan : ResChan
  deriving DecidableEq

/-- text of the channels in the name of the file -/
def ResChan.text : ResChan → Str
  | .comp c1 c2 => c1 ++ '-' :: c2
  | .avg m => m.ch

/-- the networks and stations of a result -/
def NamedDv.pair (r : NamedDv) : Str × Str × Str × Str := (r.n1, r.n2, r.s1, r.s2)

/-- the part of the name that all results of a pair of stations share -/
def NamedDv.code (r : NamedDv) : Str := (r.n1 ++ '-' :: r.n2) ++ '.' :: (r.s1 ++ '-' :: r.s2)

/-- path of the file of a result -/
def NamedDv.path (outdir : Str) (r : NamedDv) : Str := outdir ++ c!"/DV-" ++ r.code ++ '.' :: r.chan.text ++ c!".npz"

/-- is a result wanted by a method? Averages never are. -/
def NamedDv.wanted (m : AvMethod) (r : NamedDv) : Bool := match r.chan with
  | .comp c1 c2 => m.wants r.s1 r.s2 c1 c2
  | .avg _ => false

/-- codes without `.`, `-` and pattern characters, no `av` in the path of the directory or in a code, and no code of a
station pair that is the beginning of another one -/
structure WellNamed (outdir : Str) (rs : List NamedDv) : Prop where
  plain : ∀ r ∈ rs, Plain (r.path outdir)
  codes : ∀ r ∈ rs, ∀ x ∈ [r.n1, r.n2, r.s1, r.s2], '.' ∉ x ∧ '-' ∉ x
  comps : ∀ r ∈ rs, ∀ c1 c2, r.chan = .comp c1 c2 → ('.' ∉ c1 ∧ '-' ∉ c1 ∧ '.' ∉ c2 ∧ '-' ∉ c2) ∧ isSub c!"av" (r.path outdir) = false
  noav : ∀ r ∈ rs, isSub c!"av" (outdir ++ c!"/DV-" ++ r.code) = false
  sep : ∀ r ∈ rs, ∀ r' ∈ rs, r.code <+: r'.code → r.pair = r'.pair

/-- the results of the pair of `r0` that a method averages -/
def members (outdir : Str) (m : AvMethod) (readable : Str → Bool) (rs : List NamedDv) (r0 : NamedDv) : List NamedDv :=
  rs.filter fun r => decide (r.pair = r0.pair) && r.wanted m && readable (r.path outdir)

/-- an average of the pair of `r0` is due: at least two results, and there is none of this name yet -/
def AverageDue (outdir : Str) (m : AvMethod) (readable : Str → Bool) (rs : List NamedDv) (r0 : NamedDv) : Prop :=
  (∀ r ∈ rs, r.pair = r0.pair → ∀ m', r.chan = .avg m' → m'.ch ≠ m.ch) ∧ 2 ≤ (members outdir m readable rs r0).length

/-! ### names -/

theorem ch_nodot (m : AvMethod) : '.' ∉ m.ch := by cases m <;> decide

theorem text_nodot (r : NamedDv) (h : ∀ c1 c2, r.chan = .comp c1 c2 → '.' ∉ c1 ∧ '.' ∉ c2) : '.' ∉ r.chan.text := by
  cases hc : r.chan with
  | comp c1 c2 =>
    have := h c1 c2 hc
    simp [ResChan.text, this.1, this.2]
  | avg m => exact ch_nodot m

theorem WellNamed.nodot {outdir : Str} {rs : List NamedDv} (w : WellNamed outdir rs) {r : NamedDv} (hr : r ∈ rs) :
    '.' ∉ r.n1 ++ '-' :: r.n2 ∧ '.' ∉ r.s1 ++ '-' :: r.s2 ∧ '.' ∉ r.chan.text := by
  have c := w.codes r hr
  simp only [List.mem_cons, List.not_mem_nil, or_false, forall_eq_or_imp, forall_eq] at c
  refine ⟨?_, ?_, text_nodot r fun c1 c2 h => ⟨(w.comps r hr c1 c2 h).1.1, (w.comps r hr c1 c2 h).1.2.2.1⟩⟩
  · simp [c.1.1, c.2.1.1]
  · simp [c.2.2.1.1, c.2.2.2.1]

theorem path_split (outdir : Str) (rs : List NamedDv) (w : WellNamed outdir rs) (r : NamedDv) (hr : r ∈ rs) :
    splitOn '.' (r.path outdir) =
      splitOn '.' (outdir ++ c!"/DV-" ++ (r.n1 ++ '-' :: r.n2)) ++ [r.s1 ++ '-' :: r.s2, r.chan.text, c!"npz"] := by
  obtain ⟨-, h2, h3⟩ := w.nodot hr
  rw [show r.path outdir = (outdir ++ c!"/DV-" ++ (r.n1 ++ '-' :: r.n2)) ++ '.' :: ((r.s1 ++ '-' :: r.s2) ++ '.' :: (r.chan.text ++ '.' :: c!"npz")) by
    unfold NamedDv.path NamedDv.code; simp]
  rw [splitOn_cons_sep, splitOn_cons_sep, splitOn_cons_sep, splitOn_eq_single '.' _ h2, splitOn_eq_single '.' _ h3]
  rfl

theorem path_base (outdir : Str) (rs : List NamedDv) (w : WellNamed outdir rs) (r : NamedDv) (hr : r ∈ rs) :
    groupBase (r.path outdir) = outdir ++ c!"/DV-" ++ r.code := by
  unfold groupBase
  rw [path_split outdir rs w r hr]
  obtain ⟨-, h2, -⟩ := w.nodot hr
  have e : splitOn '.' (outdir ++ c!"/DV-" ++ r.code) = splitOn '.' (outdir ++ c!"/DV-" ++ (r.n1 ++ '-' :: r.n2)) ++ [r.s1 ++ '-' :: r.s2] := by
    unfold NamedDv.code
    rw [← List.append_assoc, splitOn_cons_sep, splitOn_eq_single '.' _ h2]
  rw [show splitOn '.' (outdir ++ c!"/DV-" ++ (r.n1 ++ '-' :: r.n2)) ++ [r.s1 ++ '-' :: r.s2, r.chan.text, c!"npz"] =
    splitOn '.' (outdir ++ c!"/DV-" ++ r.code) ++ [r.chan.text, c!"npz"] by rw [e]; simp]
  rw [show (splitOn '.' (outdir ++ c!"/DV-" ++ r.code) ++ [r.chan.text, c!"npz"]).length - 2 =
    (splitOn '.' (outdir ++ c!"/DV-" ++ r.code)).length by simp, List.take_left]
  exact joinWith_splitOn '.' _

theorem code_pair (outdir : Str) (rs : List NamedDv) (w : WellNamed outdir rs) (r r' : NamedDv) (hr : r ∈ rs) (hr' : r' ∈ rs) :
    r.code = r'.code ↔ r.pair = r'.pair := by
  constructor
  · intro h
    exact w.sep r hr r' hr' (h ▸ List.prefix_rfl)
  · intro h
    unfold NamedDv.pair at h
    injection h with h1 h
    injection h with h2 h
    injection h with h3 h4
    unfold NamedDv.code
    rw [h1, h2, h3, h4]

theorem base_pair (outdir : Str) (rs : List NamedDv) (w : WellNamed outdir rs) (r r' : NamedDv) (hr : r ∈ rs) (hr' : r' ∈ rs) :
    groupBase (r.path outdir) = groupBase (r'.path outdir) ↔ r.pair = r'.pair := by
  rw [path_base outdir rs w r hr, path_base outdir rs w r' hr', List.append_cancel_left_eq, code_pair outdir rs w r r' hr hr']

theorem paths_separated (outdir : Str) (rs : List NamedDv) (w : WellNamed outdir rs) : Separated (rs.map (NamedDv.path outdir)) := by
  intro f hf g hg hv
  obtain ⟨r, hr, rfl⟩ := List.mem_map.1 hf
  obtain ⟨r', hr', rfl⟩ := List.mem_map.1 hg
  rw [path_base outdir rs w r hr, path_base outdir rs w r' hr'] at *
  obtain ⟨v, hv⟩ := hv
  have hp : r.code <+: r'.code ++ ('.' :: r'.chan.text ++ c!".npz") := by
    refine ⟨v, ?_⟩
    unfold NamedDv.path at hv
    rw [List.append_assoc (outdir ++ c!"/DV-"), List.append_assoc (outdir ++ c!"/DV-"), List.append_assoc (outdir ++ c!"/DV-"), List.append_cancel_left_eq] at hv
    rw [← hv]; simp
  have hq : r.code <+: r'.code := by
    rcases List.prefix_or_prefix_of_prefix hp (List.prefix_append r'.code _) with h | ⟨u, hu⟩
    · exact h
    · rw [← hu, List.prefix_append_right_inj] at hp
      cases u with
      | nil => rw [← hu]; simp
      | cons c u =>
        exfalso
        have hc : c = '.' := by
          obtain ⟨z, hz⟩ := hp
          simp only [List.cons_append, List.cons.injEq] at hz
          exact hz.1
        subst hc
        have cnt : ∀ q ∈ rs, q.code.count '.' = 1 := by
          intro q hq
          obtain ⟨h1, h2, -⟩ := w.nodot hq
          unfold NamedDv.code
          rw [List.count_append, List.count_eq_zero_of_not_mem h1, List.count_cons_self, List.count_eq_zero_of_not_mem h2]
        have e1 := cnt r hr
        rw [← hu, List.count_append, cnt r' hr', List.count_cons_self] at e1
        omega
  rw [(code_pair outdir rs w r r' hr hr').2 (w.sep r hr r' hr' hq)]

theorem mem_splitOn_sub (c : Char) (s x : Str) (h : x ∈ splitOn c s) : ∃ u v, s = u ++ x ++ v := by
  induction s generalizing x with
  | nil => simp only [splitOn, List.mem_singleton] at h; subst h; exact ⟨[], [], rfl⟩
  | cons d s ih =>
    unfold splitOn at h
    split at h
    · rcases List.mem_cons.1 h with rfl | h
      · exact ⟨[], d :: s, rfl⟩
      · obtain ⟨u, v, e⟩ := ih x h
        exact ⟨d :: u, v, by rw [e]; rfl⟩
    · cases hs : splitOn c s with
      | nil => exact absurd hs (splitOn_ne_nil c s)
      | cons y ys =>
        rw [hs] at h
        rcases List.mem_cons.1 h with rfl | h
        · have hj := joinWith_splitOn c s
          rw [hs] at hj
          cases ys with
          | nil => simp only [joinWith] at hj; exact ⟨[], [], by rw [← hj]; simp⟩
          | cons z zs => simp only [joinWith] at hj; exact ⟨[], [c] ++ joinWith [c] (z :: zs), by rw [← hj]; simp⟩
        · obtain ⟨u, v, e⟩ := ih x (by rw [hs]; exact List.mem_cons_of_mem _ h)
          exact ⟨d :: u, v, by rw [e]; rfl⟩

theorem isSub_trans (a x s : Str) (h1 : isSub a x = true) (u v : Str) (e : s = u ++ x ++ v) : isSub a s = true := by
  rw [isSub_iff] at h1 ⊢
  obtain ⟨p, q, h⟩ := h1
  exact ⟨u ++ p, q ++ v, by rw [e, h]; simp⟩

theorem av_ch (m : AvMethod) : isSub c!"av" m.ch = true := by cases m <;> decide

/-- the label of a method occurs exactly in the names of the averages with this label -/
theorem ch_mem (outdir : Str) (rs : List NamedDv) (w : WellNamed outdir rs) (r : NamedDv) (hr : r ∈ rs) (m : AvMethod) :
    m.ch ∈ splitOn '.' (r.path outdir) ↔ ∃ m', r.chan = .avg m' ∧ m'.ch = m.ch := by
  constructor
  · intro h
    cases hc : r.chan with
    | comp c1 c2 =>
      exfalso
      obtain ⟨u, v, e⟩ := mem_splitOn_sub _ _ _ h
      have := isSub_trans _ _ _ (av_ch m) u v e
      rw [(w.comps r hr c1 c2 hc).2] at this
      exact absurd this (by decide)
    | avg m' =>
      refine ⟨m', rfl, ?_⟩
      rw [path_split outdir rs w r hr] at h
      have hb : m.ch ∉ splitOn '.' (outdir ++ c!"/DV-" ++ r.code) := by
        intro hm
        obtain ⟨u, v, e⟩ := mem_splitOn_sub _ _ _ hm
        have := isSub_trans _ _ _ (av_ch m) u v e
        rw [w.noav r hr] at this
        exact absurd this (by decide)
      have e : splitOn '.' (outdir ++ c!"/DV-" ++ r.code) = splitOn '.' (outdir ++ c!"/DV-" ++ (r.n1 ++ '-' :: r.n2)) ++ [r.s1 ++ '-' :: r.s2] := by
        unfold NamedDv.code
        rw [← List.append_assoc, splitOn_cons_sep, splitOn_eq_single '.' _ (w.nodot hr).2.1]
      rw [e] at hb
      simp only [List.mem_append, List.mem_cons, List.not_mem_nil, or_false, not_or] at h hb
      rcases h with h | h | h | h
      · exact absurd h hb.1
      · exact absurd h hb.2
      · rw [hc] at h; exact h.symm
      · exfalso; cases m <;> exact absurd h (by decide)
  · rintro ⟨m', hc, hm⟩
    rw [path_split outdir rs w r hr, hc]
    simp [ResChan.text, hm]

theorem path_selects (outdir : Str) (rs : List NamedDv) (w : WellNamed outdir rs) (r : NamedDv) (hr : r ∈ rs) (m : AvMethod)
    (c1 c2 : Str) (hc : r.chan = .comp c1 c2) : methodSelects m (r.path outdir) = .ok (m.wants r.s1 r.s2 c1 c2) := by
  have c := w.codes r hr
  simp only [List.mem_cons, List.not_mem_nil, or_false, forall_eq_or_imp, forall_eq] at c
  obtain ⟨⟨g3, h3, g4, h4⟩, -⟩ := w.comps r hr c1 c2 hc
  have := c55_selected m (outdir ++ c!"/DV-" ++ (r.n1 ++ '-' :: r.n2)) r.s1 r.s2 c1 c2 c.2.2.1.2 c.2.2.2.2 h3 h4 c.2.2.1.1 c.2.2.2.1 g3 g4
  rw [← this]
  congr 1
  unfold NamedDv.path NamedDv.code
  rw [hc]
  simp [ResChan.text]

theorem path_av (outdir : Str) (r : NamedDv) (m : AvMethod) (hc : r.chan = .avg m) : isSub c!"av" (r.path outdir) = true := by
  unfold NamedDv.path
  rw [hc]
  exact isSub_trans _ _ _ (av_ch m) (outdir ++ c!"/DV-" ++ r.code ++ ['.']) c!".npz" (by simp [ResChan.text])

theorem path_selected (outdir : Str) (rs : List NamedDv) (w : WellNamed outdir rs) (r : NamedDv) (hr : r ∈ rs) (m : AvMethod) :
    AvSelected m (r.path outdir) ↔ r.wanted m = true := by
  unfold AvSelected NamedDv.wanted
  cases hc : r.chan with
  | comp c1 c2 =>
    simp only [path_selects outdir rs w r hr m c1 c2 hc, (w.comps r hr c1 c2 hc).2, true_and, Except.ok.injEq]
  | avg m' =>
    simp [path_av outdir r m' hc]

/-! ### the loop ends without error -/

theorem scanGroup_ok (m : AvMethod) (l : List Str) (h : ∀ f ∈ l, isSub c!"av" f = true ∨ ∃ b, methodSelects m f = .ok b) :
    ∃ r, scanGroup m l = .ok r := by
  induction l with
  | nil => exact ⟨_, rfl⟩
  | cons f l ih =>
    obtain ⟨r, hr⟩ := ih fun g hg => h g (by simp [hg])
    unfold scanGroup
    split
    · exact ⟨_, rfl⟩
    · split
      · exact ⟨r, hr⟩
      · rename_i h1 h2
        rcases h f (by simp) with h3 | ⟨b, hb⟩
        · exact absurd h3 h2
        · simp only [hb, hr, bind, Except.bind]
          exact ⟨_, rfl⟩

theorem avLoop_ok (m : AvMethod) (readable : Str → Bool) (fuel : Nat) (infiles : List Str)
    (hb : ∀ f ∈ infiles, '[' ∉ f) (hfuel : infiles.length ≤ fuel)
    (h : ∀ f ∈ infiles, isSub c!"av" f = true ∨ ∃ b, methodSelects m f = .ok b) :
    ∃ gs, avLoop m readable fuel infiles = some (.ok gs) := by
  induction fuel generalizing infiles with
  | zero =>
    rw [Nat.le_zero, List.length_eq_zero_iff] at hfuel
    subst hfuel
    exact ⟨_, rfl⟩
  | succ fuel ih =>
    cases infiles with
    | nil => exact ⟨_, rfl⟩
    | cons f0 l =>
      unfold avLoop
      have hs : ∃ p, avStep m readable (f0 :: l) = .ok p := by
        obtain ⟨r, hr⟩ := scanGroup_ok m ((f0 :: l).filter fun f => fnmatch f (groupBase f0 ++ c!"*"))
          fun f hf => h f (List.mem_filter.1 hf).1
        unfold avStep
        simp only [hr, bind, Except.bind]
        exact ⟨_, rfl⟩
      obtain ⟨⟨rest, g⟩, hs⟩ := hs
      obtain ⟨h1, h2⟩ := avStep_decreases m readable f0 l rest g (hb f0 (by simp)) hs
      obtain ⟨gs, hgs⟩ := ih rest (fun f hf => hb f (h2 f hf)) (by omega) fun f hf => h f (h2 f hf)
      simp only [hs, hgs]
      exact ⟨_, rfl⟩

/-- **C189** Every averaging run ends without an error and averages, for each pair of stations, exactly the readable results
that the method asks for, unless an average of this name exists or there are less than two. Partial: of well named results. -/
theorem c189_run_partial (outdir : Str) (m : AvMethod) (readable : Str → Bool) (rs : List NamedDv) (w : WellNamed outdir rs) :
    ∃ gs, avLoop m readable (rs.map (NamedDv.path outdir)).length (rs.map (NamedDv.path outdir)) = some (.ok gs) ∧
      ∀ g, g ∈ gs ↔ ∃ r0 ∈ rs, AverageDue outdir m readable rs r0 ∧ g = (members outdir m readable rs r0).map (NamedDv.path outdir) := by
  have hplain : ∀ f ∈ rs.map (NamedDv.path outdir), Plain f := by
    intro f hf
    obtain ⟨r, hr, rfl⟩ := List.mem_map.1 hf
    exact w.plain r hr
  obtain ⟨gs, hgs⟩ := avLoop_ok m readable _ (rs.map (NamedDv.path outdir)) (fun f hf hc => (hplain f hf _ hc).2.2 rfl) (Nat.le_refl _) (by
    intro f hf
    obtain ⟨r, hr, rfl⟩ := List.mem_map.1 hf
    cases hc : r.chan with
    | comp c1 c2 => exact Or.inr ⟨_, path_selects outdir rs w r hr m c1 c2 hc⟩
    | avg m' => exact Or.inl (path_av outdir r m' hc))
  refine ⟨gs, hgs, fun g => ?_⟩
  have hgrp : ∀ r0 ∈ rs, groupOf m readable (rs.map (NamedDv.path outdir)) (groupBase (r0.path outdir)) =
      (members outdir m readable rs r0).map (NamedDv.path outdir) := by
    intro r0 hr0
    unfold groupOf members
    rw [List.filter_map]
    congr 1
    apply List.filter_congr
    intro r hr
    simp only [Function.comp]
    congr 1
    congr 1
    · rw [decide_eq_decide]; exact base_pair outdir rs w r r0 hr hr0
    · rw [Bool.eq_iff_iff, decide_eq_true_eq]; exact path_selected outdir rs w r hr m
  rw [(c55_groups_partial m readable _ _ hplain (paths_separated outdir rs w) gs hgs).1 g]
  constructor
  · rintro ⟨b, ⟨f, hf, rfl⟩, h2, h3, h4⟩
    obtain ⟨r0, hr0, rfl⟩ := List.mem_map.1 hf
    rw [hgrp r0 hr0] at h3
    refine ⟨r0, hr0, ⟨?_, by rw [h3, List.length_map] at h4; exact h4⟩, h3⟩
    intro r hr hp m' hm' hch
    exact h2 (r.path outdir) (List.mem_map_of_mem hr) ((base_pair outdir rs w r r0 hr hr0).2 hp)
      ((ch_mem outdir rs w r hr m).2 ⟨m', hm', hch⟩)
  · rintro ⟨r0, hr0, ⟨h1, h2⟩, rfl⟩
    refine ⟨groupBase (r0.path outdir), ⟨_, List.mem_map_of_mem hr0, rfl⟩, ?_, (hgrp r0 hr0).symm, by simpa using h2⟩
    intro f hf hb hch
    obtain ⟨r, hr, rfl⟩ := List.mem_map.1 hf
    obtain ⟨m', hm', he⟩ := (ch_mem outdir rs w r hr m).1 hch
    exact h1 r hr ((base_pair outdir rs w r r0 hr hr0).1 hb) m' hm' he

/-! ### the averages become part of the directory -/

/-- the average of the pair of `r0` -/
def averageOf (m : AvMethod) (r0 : NamedDv) : NamedDv := { r0 with chan := .avg m }

/-- every file holds the codes that its name has -/
def HoldsCodes (outdir : Str) (codes : Str → Str × Str) (rs : List NamedDv) : Prop :=
  ∀ r ∈ rs, codes (r.path outdir) = (r.n1 ++ '-' :: r.n2, r.s1 ++ '-' :: r.s2)

theorem commonCode_const (l : List Str) (a : Str) (hne : l ≠ []) (h : ∀ b ∈ l, b = a) : commonCode l = a := by
  cases l with
  | nil => exact absurd rfl hne
  | cons b l =>
    have hb := h b (by simp)
    subst hb
    simp only [commonCode]
    rw [if_pos]
    simp only [List.all_eq_true, decide_eq_true_eq]
    exact fun c hc => h c (by simp [hc])

theorem averageFile_eq (outdir : Str) (m : AvMethod) (readable : Str → Bool) (codes : Str → Str × Str) (rs : List NamedDv)
    (hcodes : HoldsCodes outdir codes rs) (r0 : NamedDv) (hd : AverageDue outdir m readable rs r0) :
    averageFile outdir m codes ((members outdir m readable rs r0).map (NamedDv.path outdir)) = (averageOf m r0).path outdir := by
  have hne : members outdir m readable rs r0 ≠ [] := by
    intro h; have := hd.2; rw [h] at this; simp at this
  have hall : ∀ r ∈ members outdir m readable rs r0, codes (r.path outdir) = (r0.n1 ++ '-' :: r0.n2, r0.s1 ++ '-' :: r0.s2) := by
    intro r hr
    obtain ⟨hr, h⟩ := List.mem_filter.1 hr
    simp only [Bool.and_eq_true, decide_eq_true_eq, NamedDv.pair, Prod.mk.injEq] at h
    obtain ⟨⟨⟨h1, h2, h3, h4⟩, -⟩, -⟩ := h
    rw [hcodes r hr, h1, h2, h3, h4]
  unfold averageFile
  rw [commonCode_const _ (r0.n1 ++ '-' :: r0.n2) (by simpa using hne) (by
      intro b hb
      simp only [List.map_map, List.mem_map, Function.comp] at hb
      obtain ⟨r, hr, rfl⟩ := hb
      rw [hall r hr]),
    commonCode_const _ (r0.s1 ++ '-' :: r0.s2) (by simpa using hne) (by
      intro b hb
      simp only [List.map_map, List.mem_map, Function.comp] at hb
      obtain ⟨r, hr, rfl⟩ := hb
      rw [hall r hr])]
  unfold dvFile NamedDv.path NamedDv.code averageOf ResChan.text
  simp

theorem averageOf_pair (m : AvMethod) (r0 : NamedDv) : (averageOf m r0).pair = r0.pair := rfl

/-- averages do not spoil the names -/
theorem wellNamed_of (outdir : Str) (m : AvMethod) (rs rs' : List NamedDv) (w : WellNamed outdir rs)
    (h : ∀ r ∈ rs', r ∈ rs ∨ ∃ r0 ∈ rs, r = averageOf m r0) : WellNamed outdir rs' := by
  have hcode : ∀ r0, (averageOf m r0).code = r0.code := fun _ => rfl
  refine ⟨?_, ?_, ?_, ?_, ?_⟩
  · intro r hr
    rcases h r hr with hr | ⟨r0, hr0, rfl⟩
    · exact w.plain r hr
    · intro c hc
      have hp := w.plain r0 hr0
      unfold NamedDv.path at hc hp
      rw [hcode] at hc
      simp only [List.mem_append, List.mem_cons, averageOf, ResChan.text] at hc
      have hm : ∀ c ∈ m.ch, c ≠ '*' ∧ c ≠ '?' ∧ c ≠ '[' := by cases m <;> decide
      have hdot : '.' ≠ '*' ∧ '.' ≠ '?' ∧ '.' ≠ '[' := by decide
      have hn : ∀ c ∈ c!".npz", c ≠ '*' ∧ c ≠ '?' ∧ c ≠ '[' := by decide
      rcases hc with ((((hc | hc) | hc) | (rfl | hc)) | hc)
      · exact hp c (by simp [hc])
      · exact hp c (by simp only [List.mem_append]; left; left; left; right; simpa using hc)
      · exact hp c (by simp [hc])
      · exact hdot
      · exact hm c hc
      · exact hn c (by simpa using hc)
  · intro r hr
    rcases h r hr with hr | ⟨r0, hr0, rfl⟩
    · exact w.codes r hr
    · exact w.codes r0 hr0
  · intro r hr c1 c2 hc
    rcases h r hr with hr | ⟨r0, hr0, rfl⟩
    · exact w.comps r hr c1 c2 hc
    · simp [averageOf] at hc
  · intro r hr
    rcases h r hr with hr | ⟨r0, hr0, rfl⟩
    · exact w.noav r hr
    · exact w.noav r0 hr0
  · intro r hr r' hr' hp
    have key : ∀ q ∈ rs', ∃ q0 ∈ rs, q0.pair = q.pair ∧ q0.code = q.code := by
      intro q hq
      rcases h q hq with hq | ⟨r0, hr0, rfl⟩
      · exact ⟨q, hq, rfl, rfl⟩
      · exact ⟨r0, hr0, rfl, rfl⟩
    obtain ⟨q, hq, e1, e2⟩ := key r hr
    obtain ⟨q', hq', e1', e2'⟩ := key r' hr'
    rw [← e1, ← e1']
    exact w.sep q hq q' hq' (by rw [e2, e2']; exact hp)

/-- what a run leaves behind: the directory with new averages -/
def LeavesBehind (outdir : Str) (m : AvMethod) (readable : Str → Bool) (rs new : List NamedDv) : Prop :=
  ∀ r, r ∈ new ↔ ∃ r0 ∈ rs, AverageDue outdir m readable rs r0 ∧ r = averageOf m r0

/-- **C189** A run adds the averages that are due to the directory, under the names of the station pairs, and removes
nothing.
Missing for the full property: `c189_stale_violated`. -/
theorem c189_files_partial (outdir : Str) (m : AvMethod) (readable : Str → Bool) (codes : Str → Str × Str) (rs : List NamedDv)
    (w : WellNamed outdir rs) (hcodes : HoldsCodes outdir codes rs) :
    ∃ new, LeavesBehind outdir m readable rs new ∧
      averageRun outdir m readable codes (rs.map (NamedDv.path outdir)) = some (.ok ((rs ++ new).map (NamedDv.path outdir))) := by
  obtain ⟨gs, hgs, hmem⟩ := c189_run_partial outdir m readable rs w
  have hfile : ∀ g ∈ gs, ∃ r0 ∈ rs, AverageDue outdir m readable rs r0 ∧ averageFile outdir m codes g = (averageOf m r0).path outdir := by
    intro g hg
    obtain ⟨r0, hr0, hd, rfl⟩ := (hmem g).1 hg
    exact ⟨r0, hr0, hd, averageFile_eq outdir m readable codes rs hcodes r0 hd⟩
  have hnew : ∀ r0 ∈ rs, AverageDue outdir m readable rs r0 → (averageOf m r0).path outdir ∉ rs.map (NamedDv.path outdir) := by
    intro r0 hr0 hd hin
    obtain ⟨r, hr, he⟩ := List.mem_map.1 hin
    have w' : WellNamed outdir (averageOf m r0 :: rs) := wellNamed_of outdir m rs _ w (by
      intro q hq
      rcases List.mem_cons.1 hq with rfl | hq
      · exact Or.inr ⟨r0, hr0, rfl⟩
      · exact Or.inl hq)
    have hch : m.ch ∈ splitOn '.' (r.path outdir) := by
      rw [he]
      exact (ch_mem outdir _ w' (averageOf m r0) (by simp) m).2 ⟨m, rfl, rfl⟩
    obtain ⟨m', hm', e⟩ := (ch_mem outdir rs w r hr m).1 hch
    have hp : r.pair = r0.pair := (base_pair outdir _ w' r (averageOf m r0) (by simp [hr]) (by simp)).1 (by rw [he])
    exact hd.1 r hr hp m' hm' e
  have hkeep : ((gs.map (averageFile outdir m codes)).filter fun f => !(decide (f ∈ rs.map (NamedDv.path outdir)))) =
      gs.map (averageFile outdir m codes) := by
    rw [List.filter_eq_self]
    intro f hf
    obtain ⟨g, hg, rfl⟩ := List.mem_map.1 hf
    obtain ⟨r0, hr0, hd, e⟩ := hfile g hg
    rw [e]
    simpa using hnew r0 hr0 hd
  have hlist : ∃ new : List NamedDv, gs.map (averageFile outdir m codes) = new.map (NamedDv.path outdir) ∧
      (∀ r ∈ new, ∃ r0 ∈ rs, AverageDue outdir m readable rs r0 ∧ r = averageOf m r0) ∧
      ∀ g ∈ gs, ∀ r0 ∈ rs, g = (members outdir m readable rs r0).map (NamedDv.path outdir) → AverageDue outdir m readable rs r0 → averageOf m r0 ∈ new := by
    clear hmem hgs hkeep
    induction gs with
    | nil => exact ⟨[], rfl, by simp, by simp⟩
    | cons g gs ih =>
      obtain ⟨new, h1, h2, h3⟩ := ih fun g' hg' => hfile g' (by simp [hg'])
      obtain ⟨r0, hr0, hd, e⟩ := hfile g (by simp)
      refine ⟨averageOf m r0 :: new, by simp [h1, e], ?_, ?_⟩
      · intro r hr
        rcases List.mem_cons.1 hr with rfl | hr
        · exact ⟨r0, hr0, hd, rfl⟩
        · exact h2 r hr
      · intro g' hg' r1 hr1 he hd1
        rcases List.mem_cons.1 hg' with rfl | hg'
        · have e1 : (averageOf m r1).path outdir = (averageOf m r0).path outdir := by
            rw [← e, he]; exact (averageFile_eq outdir m readable codes rs hcodes r1 hd1).symm
          have w' : WellNamed outdir [averageOf m r0, averageOf m r1] := wellNamed_of outdir m rs _ w (by
            intro q hq
            simp only [List.mem_cons, List.not_mem_nil, or_false] at hq
            rcases hq with rfl | rfl
            · exact Or.inr ⟨r0, hr0, rfl⟩
            · exact Or.inr ⟨r1, hr1, rfl⟩)
          have hp : r1.pair = r0.pair := (base_pair outdir _ w' (averageOf m r1) (averageOf m r0) (by simp) (by simp)).1 (by rw [e1])
          have : averageOf m r1 = averageOf m r0 := by
            unfold NamedDv.pair at hp
            simp only [Prod.mk.injEq] at hp
            unfold averageOf
            rw [NamedDv.mk.injEq]
            exact ⟨hp.1, hp.2.1, hp.2.2.1, hp.2.2.2, rfl⟩
          rw [this]; simp
        · exact List.mem_cons_of_mem _ (h3 g' hg' r1 hr1 he hd1)
  obtain ⟨new, h1, h2, h3⟩ := hlist
  refine ⟨new, fun r => ⟨h2 r, ?_⟩, ?_⟩
  · rintro ⟨r0, hr0, hd, rfl⟩
    exact h3 _ ((hmem _).2 ⟨r0, hr0, hd, rfl⟩) r0 hr0 rfl hd
  · unfold averageRun
    rw [hgs]
    simp only [Option.map_some, Except.map]
    rw [hkeep, h1, List.map_append]

/-- the members of a pair after a run, in any order of the files: averages are never averaged -/
theorem members_after (outdir : Str) (m m' : AvMethod) (readable readable' : Str → Bool) (rs new rs' : List NamedDv)
    (hr : ∀ r ∈ rs, readable' (r.path outdir) = readable (r.path outdir))
    (hnew : ∀ r ∈ new, ∃ r0, r = averageOf m r0) (hp : rs'.Perm (rs ++ new)) (r0 r1 : NamedDv) (h01 : r0.pair = r1.pair) :
    (members outdir m' readable' rs' r0).Perm (members outdir m' readable rs r1) := by
  unfold members
  refine (hp.filter _).trans ?_
  rw [List.filter_append]
  have e : new.filter (fun r => decide (r.pair = r0.pair) && r.wanted m' && readable' (r.path outdir)) = [] := by
    rw [List.filter_eq_nil_iff]
    intro r hr
    obtain ⟨q, rfl⟩ := hnew r hr
    simp [NamedDv.wanted, averageOf]
  rw [e, List.append_nil, h01]
  apply List.Perm.of_eq
  apply List.filter_congr
  intro r h
  rw [hr r h]

theorem wanted_disjoint (m m' : AvMethod) (hne : m ≠ m') (hch : m.ch = m'.ch) (r r' : NamedDv) (hp : r.pair = r'.pair)
    (h : r.wanted m = true) (h' : r'.wanted m' = true) : False := by
  unfold NamedDv.pair at hp
  simp only [Prod.mk.injEq] at hp
  obtain ⟨-, -, h3, h4⟩ := hp
  unfold NamedDv.wanted at h h'
  cases hc : r.chan <;> rw [hc] at h <;> cases hc' : r'.chan <;> rw [hc'] at h' <;> simp only [Bool.false_eq_true] at h h'
  have hcases : (m = .stationWide ∧ m' = .crossStations) ∨ (m = .crossStations ∧ m' = .stationWide) := by
    revert hne hch; cases m <;> cases m' <;> decide
  rcases hcases with ⟨rfl, rfl⟩ | ⟨rfl, rfl⟩
  · simp only [AvMethod.wants, decide_eq_true_eq] at h h'
    exact h' (by rw [← h3, ← h4]; exact h)
  · simp only [AvMethod.wants, decide_eq_true_eq] at h h'
    exact h (by rw [h3, h4]; exact h')

theorem exists_wanted (outdir : Str) (m : AvMethod) (readable : Str → Bool) (rs : List NamedDv) (r0 : NamedDv)
    (h : 2 ≤ (members outdir m readable rs r0).length) : ∃ r ∈ rs, r.pair = r0.pair ∧ r.wanted m = true := by
  cases hm : members outdir m readable rs r0 with
  | nil => rw [hm] at h; simp at h
  | cons r l =>
    have : r ∈ members outdir m readable rs r0 := by rw [hm]; simp
    obtain ⟨h1, h2⟩ := List.mem_filter.1 this
    simp only [Bool.and_eq_true, decide_eq_true_eq] at h2
    exact ⟨r, h1, h2.1.1, h2.1.2⟩

/-- **C189** Repeating a run, with the files in any order, computes nothing and leaves the directory as it is.
Missing for the full property: `c189_stale_violated`. -/
theorem c189_again_partial (outdir : Str) (m : AvMethod) (readable readable' : Str → Bool) (codes : Str → Str × Str)
    (rs new rs' : List NamedDv) (w : WellNamed outdir rs) (hnew : LeavesBehind outdir m readable rs new)
    (hr : ∀ r ∈ rs, readable' (r.path outdir) = readable (r.path outdir)) (hp : rs'.Perm (rs ++ new)) :
    averageRun outdir m readable' codes (rs'.map (NamedDv.path outdir)) = some (.ok (rs'.map (NamedDv.path outdir))) := by
  have w' : WellNamed outdir rs' := wellNamed_of outdir m rs rs' w (by
    intro r h
    rcases List.mem_append.1 (hp.mem_iff.1 h) with h | h
    · exact Or.inl h
    · obtain ⟨r0, hr0, -, e⟩ := (hnew r).1 h
      exact Or.inr ⟨r0, hr0, e⟩)
  obtain ⟨gs, hgs, hmem⟩ := c189_run_partial outdir m readable' rs' w'
  have hnil : gs = [] := by
    cases gs with
    | nil => rfl
    | cons g gs =>
      exfalso
      obtain ⟨r0, hr0, hd, -⟩ := (hmem g).1 (by simp)
      have : ∃ r1 ∈ rs, r1.pair = r0.pair := by
        rcases List.mem_append.1 (hp.mem_iff.1 hr0) with h | h
        · exact ⟨r0, h, rfl⟩
        · obtain ⟨r1, hr1, -, e⟩ := (hnew r0).1 h
          exact ⟨r1, hr1, by rw [e]; rfl⟩
      obtain ⟨r1, hr1, hpair⟩ := this
      have hper := members_after outdir m m readable readable' rs new rs' hr (fun r h => by
        obtain ⟨q, -, -, e⟩ := (hnew r).1 h; exact ⟨q, e⟩) hp r0 r1 hpair.symm
      have hd1 : AverageDue outdir m readable rs r1 := by
        refine ⟨fun r h he m' hm' => ?_, by rw [← hper.length_eq]; exact hd.2⟩
        exact hd.1 r (hp.mem_iff.2 (List.mem_append_left _ h)) (he.trans hpair) m' hm'
      have hin : averageOf m r1 ∈ rs' := hp.mem_iff.2 (List.mem_append_right _ ((hnew _).2 ⟨r1, hr1, hd1, rfl⟩))
      exact hd.1 _ hin hpair m rfl rfl
  unfold averageRun
  rw [hgs, hnil]
  simp [Except.map]

/-- **C189** Averages of one method do not influence those of another one: with the averages of method `m` in the directory,
method `m'` averages the same results.
Missing for the full property: `c189_stale_violated`. -/
theorem c189_methods_partial (outdir : Str) (m m' : AvMethod) (hne : m ≠ m') (readable readable' : Str → Bool)
    (rs new rs' : List NamedDv) (w : WellNamed outdir rs) (hnew : LeavesBehind outdir m readable rs new)
    (hr : ∀ r ∈ rs, readable' (r.path outdir) = readable (r.path outdir)) (hp : rs'.Perm (rs ++ new)) :
    ∃ gs gs', avLoop m' readable (rs.map (NamedDv.path outdir)).length (rs.map (NamedDv.path outdir)) = some (.ok gs) ∧
      avLoop m' readable' (rs'.map (NamedDv.path outdir)).length (rs'.map (NamedDv.path outdir)) = some (.ok gs') ∧
      (∀ g ∈ gs, ∃ g' ∈ gs', g'.Perm g) ∧ ∀ g' ∈ gs', ∃ g ∈ gs, g'.Perm g := by
  have w' : WellNamed outdir rs' := wellNamed_of outdir m rs rs' w (by
    intro r h
    rcases List.mem_append.1 (hp.mem_iff.1 h) with h | h
    · exact Or.inl h
    · obtain ⟨r0, hr0, -, e⟩ := (hnew r).1 h
      exact Or.inr ⟨r0, hr0, e⟩)
  obtain ⟨gs, hgs, hmem⟩ := c189_run_partial outdir m' readable rs w
  obtain ⟨gs', hgs', hmem'⟩ := c189_run_partial outdir m' readable' rs' w'
  have hper := members_after outdir m m' readable readable' rs new rs' hr (fun r h => by
    obtain ⟨q, -, -, e⟩ := (hnew r).1 h; exact ⟨q, e⟩) hp
  have hdue : ∀ r0 r1, r0.pair = r1.pair → (AverageDue outdir m' readable' rs' r0 ↔ AverageDue outdir m' readable rs r1) := by
    intro r0 r1 h01
    constructor
    · intro hd
      refine ⟨fun r h he q hq => ?_, by rw [← (hper r0 r1 h01).length_eq]; exact hd.2⟩
      exact hd.1 r (hp.mem_iff.2 (List.mem_append_left _ h)) (he.trans h01.symm) q hq
    · intro hd
      refine ⟨fun r h he q hq => ?_, by rw [(hper r0 r1 h01).length_eq]; exact hd.2⟩
      rcases List.mem_append.1 (hp.mem_iff.1 h) with h | h
      · exact hd.1 r h (he.trans h01) q hq
      · obtain ⟨r2, hr2, hd2, e⟩ := (hnew r).1 h
        rw [e] at hq he
        have hqm : m = q := by simpa [averageOf] using hq
        subst hqm
        intro hch
        obtain ⟨a, -, ha1, ha2⟩ := exists_wanted outdir m readable rs r2 hd2.2
        obtain ⟨b, -, hb1, hb2⟩ := exists_wanted outdir m' readable rs r1 hd.2
        exact wanted_disjoint m m' hne hch a b (by rw [ha1, hb1, ← h01, ← he]; rfl) ha2 hb2
  refine ⟨gs, gs', hgs, hgs', fun g hg => ?_, fun g' hg' => ?_⟩
  · obtain ⟨r0, hr0, hd, rfl⟩ := (hmem g).1 hg
    exact ⟨_, (hmem' _).2 ⟨r0, hp.mem_iff.2 (List.mem_append_left _ hr0), (hdue r0 r0 rfl).2 hd, rfl⟩, (hper r0 r0 rfl).map _⟩
  · obtain ⟨r0, hr0, hd, rfl⟩ := (hmem' g').1 hg'
    have : ∃ r1 ∈ rs, r0.pair = r1.pair := by
      rcases List.mem_append.1 (hp.mem_iff.1 hr0) with h | h
      · exact ⟨r0, h, rfl⟩
      · obtain ⟨r1, hr1, -, e⟩ := (hnew r0).1 h
        exact ⟨r1, hr1, by rw [e]; rfl⟩
    obtain ⟨r1, hr1, h01⟩ := this
    exact ⟨_, (hmem _).2 ⟨r1, hr1, (hdue r0 r1 h01).1 hd, rfl⟩, (hper r0 r1 h01).map _⟩

/-- three results of one station, of which one is an autocorrelation of the component `N` -/
def exNamedDv (c : Str) : NamedDv := ⟨c!"A", c!"A", c!"S", c!"S", .comp c c⟩

/-- **C189** violated: results that are computed after the average never enter it. The average of two components remains
although there are three results, which a run without the old average would combine. -/
theorem c189_stale_violated :
    let codes : Str → Str × Str := fun _ => (c!"A-A", c!"S-S")
    let all := [exNamedDv c!"Z", exNamedDv c!"N", exNamedDv c!"E"].map (NamedDv.path c!"/r")
    let before := [exNamedDv c!"Z", exNamedDv c!"N"].map (NamedDv.path c!"/r")
    ∃ after, averageRun c!"/r" .autoComponents (fun _ => true) codes before = some (.ok after) ∧
      after = before ++ [c!"/r/DV-A-A.S-S.av-auto.npz"] ∧
      avLoop .autoComponents (fun _ => true) 4 (after ++ [(exNamedDv c!"E").path c!"/r"]) = some (.ok []) ∧
      avLoop .autoComponents (fun _ => true) 3 all = some (.ok [all]) := by
  refine ⟨_, by decide +kernel, rfl, by decide +kernel, by decide +kernel⟩

/-- names as they occur: two stations, one of them with two components -/
example : WellNamed c!"/r" [exNamedDv c!"Z", exNamedDv c!"N", ⟨c!"A", c!"A", c!"S", c!"T", .comp c!"Z" c!"Z"⟩] ∧
    AverageDue c!"/r" .autoComponents (fun _ => true) [exNamedDv c!"Z", exNamedDv c!"N", ⟨c!"A", c!"A", c!"S", c!"T", .comp c!"Z" c!"Z"⟩] (exNamedDv c!"Z") := by
  refine ⟨⟨by decide, by decide, ?_, by decide +kernel, by decide⟩, ?_, by decide⟩
  · intro r hr c1 c2 hc
    simp only [List.mem_cons, List.not_mem_nil, or_false] at hr
    rcases hr with rfl | rfl | rfl <;> simp only [exNamedDv, ResChan.comp.injEq] at hc <;> obtain ⟨rfl, rfl⟩ := hc <;> decide +kernel
  · intro r hr _ m' hm'
    simp only [List.mem_cons, List.not_mem_nil, or_false] at hr
    rcases hr with rfl | rfl | rfl <;> simp [exNamedDv] at hm'

end SeisMIC
