import Verif.Model.InvStore
import Mathlib.Tactic.SplitIfs

/-!
# C146: station information that was obtained once stays available
-/

namespace SeisMIC

/-! ### Specification -/

/-- the server has the channels `holdings` and answers correctly -/
def Honest (srv : InvServer) (holdings : List ChanInfo) : Prop :=
  ∀ n s c, match srv n s c with
    | .ok inv => inv = holdings.filter (fun x => decide (x.1 = n ∧ x.2.1 = s ∧ ∀ y ∈ c, x.2.2 = y)) ∧ inv ≠ []
    | .error _ => holdings.filter (fun x => decide (x.1 = n ∧ x.2.1 = s ∧ ∀ y ∈ c, x.2.2 = y)) = []

/-- codes of networks and stations have no dot -/
def NoDots (holdings : List ChanInfo) : Prop := ∀ c ∈ holdings, '.' ∉ c.1 ∧ '.' ∉ c.2.1

/-- information about whole stations only is requested -/
def WholeStations (cs : List InvCall) : Prop := ∀ c ∈ cs, ∀ n s ch, c ≠ .load n s ch

/-- neither `read` nor a new client -/
def SameClient (cs : List InvCall) : Prop := ∀ c ∈ cs, c ≠ .read ∧ ∀ ro, c ≠ .reopen ro

/-! ### Lemmas -/

/-- what all files hold if only whole stations were fetched -/
def FilesWhole (holdings : List ChanInfo) (s : InvState) : Prop :=
  (∀ c ∈ s.mem, ∃ f ∈ s.files, c ∈ f.2) ∧ (s.files ≠ [] → s.dir = true) ∧
  ∀ f ∈ s.files, ∃ c ∈ holdings, f.1 = invName c ∧ f.2 = holdings.filter (fun x => decide (x.1 = c.1 ∧ x.2.1 = c.2.1))

theorem invName_inj (c d : ChanInfo) (h1 : '.' ∉ c.1) (h2 : '.' ∉ d.1) (h : invName c = invName d) : c.1 = d.1 ∧ c.2.1 = d.2.1 := by
  have key : ∀ (a b x y : Str), '.' ∉ a → '.' ∉ b → a ++ '.' :: x = b ++ '.' :: y → a = b ∧ x = y := by
    intro a
    induction a with
    | nil =>
      intro b x y _ hb h
      cases b with
      | nil => exact ⟨rfl, by simpa using h⟩
      | cons c b =>
        simp only [List.nil_append, List.cons_append, List.cons.injEq] at h
        exact absurd (List.mem_cons.2 (.inl h.1)) hb
    | cons c a ih =>
      intro b x y ha hb h
      cases b with
      | nil =>
        simp only [List.nil_append, List.cons_append, List.cons.injEq] at h
        exact absurd (List.mem_cons.2 (.inl h.1.symm)) ha
      | cons c' b =>
        simp only [List.cons_append, List.cons.injEq] at h
        obtain ⟨e1, e2⟩ := ih b x y (fun hh => ha (by simp [hh])) (fun hh => hb (by simp [hh])) h.2
        exact ⟨by rw [h.1, e1], e2⟩
  obtain ⟨e1, e2⟩ := key _ _ _ _ h1 h2 h
  exact ⟨e1, List.append_cancel_right e2⟩

theorem readInvFiles_facts (holdings : List ChanInfo) (s : InvState) (hs : FilesWhole holdings s) :
    FilesWhole holdings (readInvFiles s).1 ∧ (∀ c ∈ s.mem, c ∈ (readInvFiles s).1.mem) ∧
      (readInvFiles s).1.files = s.files := by
  unfold readInvFiles
  split_ifs with h
  · exact ⟨hs, fun c hc => hc, rfl⟩
  · refine ⟨⟨?_, hs.2.1, hs.2.2⟩, ?_, rfl⟩
    · intro c hc
      obtain ⟨f, hf, hc⟩ := List.mem_flatMap.1 hc
      exact ⟨f, hf, hc⟩
    · intro c hc
      obtain ⟨f, hf, hc⟩ := hs.1 c hc
      exact List.mem_flatMap.2 ⟨f, hf, hc⟩

theorem invCall_facts (srv : InvServer) (holdings : List ChanInfo) (hsrv : Honest srv holdings) (hdot : NoDots holdings)
    (s : InvState) (hs : FilesWhole holdings s) (hdir : s.dir = true) (call : InvCall) (hc : ∀ n st ch, call ≠ .load n st ch) :
    FilesWhole holdings (invCall srv s call) ∧ (invCall srv s call).dir = true ∧
      (∀ c ∈ s.mem, c ∈ (invCall srv s call).mem) ∧
      ∀ c, (∃ f ∈ s.files, c ∈ f.2) → ∃ f ∈ (invCall srv s call).files, c ∈ f.2 := by
  cases call with
  | load n st ch => exact absurd rfl (hc n st ch)
  | read =>
    obtain ⟨h1, h2, h3⟩ := readInvFiles_facts holdings s hs
    refine ⟨h1, ?_, h2, ?_⟩
    · show (readInvFiles s).1.dir = true
      unfold readInvFiles
      split_ifs <;> exact hdir
    · intro c h
      show ∃ f ∈ (readInvFiles s).1.files, c ∈ f.2
      rw [h3]
      exact h
  | reopen ro =>
    obtain ⟨h1, h2, h3⟩ := readInvFiles_facts holdings s hs
    show FilesWhole holdings (openClient ro s).1 ∧ (openClient ro s).1.dir = true ∧ (∀ c ∈ s.mem, c ∈ (openClient ro s).1.mem) ∧ _
    unfold invCall openClient
    by_cases hf : s.files = []
    · rw [if_neg (by simp [hf])]
      have hmem : s.mem = [] := by
        rw [List.eq_nil_iff_forall_not_mem]
        intro c hc
        obtain ⟨f, hf', -⟩ := hs.1 c hc
        rw [hf] at hf'
        cases hf'
      refine ⟨⟨by simp, fun _ => by simp [hdir], hs.2.2⟩, by simp [hdir], by simp [hmem], fun c h => h⟩
    · have hif : (s.dir && !s.files.isEmpty) = true := by
        simp [hdir, hf]
      rw [if_pos hif]
      refine ⟨⟨h1.1, fun _ => ?_, h1.2.2⟩, ?_, h2, ?_⟩
      · have : (readInvFiles s).1.dir = true := by
          unfold readInvFiles
          split_ifs <;> exact hdir
        simp [this]
      · have : (readInvFiles s).1.dir = true := by
          unfold readInvFiles
          split_ifs <;> exact hdir
        simp [this]
      · intro c h
        show ∃ f ∈ (readInvFiles s).1.files, c ∈ f.2
        rw [h3]
        exact h
  | select n st =>
    show FilesWhole holdings (selectInventory srv n st s).1 ∧ (selectInventory srv n st s).1.dir = true ∧
      (∀ c ∈ s.mem, c ∈ (selectInventory srv n st s).1.mem) ∧
      ∀ c, (∃ f ∈ s.files, c ∈ f.2) → ∃ f ∈ (selectInventory srv n st s).1.files, c ∈ f.2
    unfold selectInventory
    by_cases hk : (s.mem.any fun c => decide (c.1 = n ∧ c.2.1 = st)) = true
    · rw [if_pos hk]
      exact ⟨hs, hdir, fun c hc => hc, fun c h => h⟩
    · rw [if_neg hk]
      have hh := hsrv n st none
      cases ha : srv n st none with
      | error e => exact ⟨hs, hdir, fun c hc => hc, fun c h => h⟩
      | ok inv =>
        rw [ha] at hh
        obtain ⟨hinv, hne⟩ := hh
        simp only [Option.mem_def, reduceCtorEq, false_implies, implies_true, and_true] at hinv
        cases hinv' : inv with
        | nil => exact absurd hinv' hne
        | cons c0 rest =>
          have hc0 : c0 ∈ holdings.filter (fun x => decide (x.1 = n ∧ x.2.1 = st)) := by
            rw [← hinv, hinv']
            exact List.mem_cons_self ..
          obtain ⟨hc1, hc2⟩ := List.mem_filter.1 hc0
          simp only [decide_eq_true_eq] at hc2
          have hsame : holdings.filter (fun x => decide (x.1 = c0.1 ∧ x.2.1 = c0.2.1)) = inv := by
            rw [hc2.1, hc2.2, ← hinv]
          unfold writeInvFile
          simp only [hdir, if_true]
          have hfiles : ∀ c, (∃ f ∈ s.files, c ∈ f.2) → ∃ f ∈ putFile (invName c0) (c0 :: rest) s.files, c ∈ f.2 := by
            rintro c ⟨f, hf, hcf⟩
            by_cases hn : f.1 = invName c0
            · obtain ⟨d, hd, hd1, hd2⟩ := hs.2.2 f hf
              obtain ⟨e1, e2⟩ := invName_inj d c0 (hdot d hd).1 (hdot c0 hc1).1 (by rw [← hd1, hn])
              refine ⟨(invName c0, c0 :: rest), by simp [putFile], ?_⟩
              rw [hd2, e1, e2, hsame, hinv'] at hcf
              exact hcf
            · exact ⟨f, by simp [putFile, hf, hn], hcf⟩
          refine ⟨⟨?_, fun _ => rfl, ?_⟩, trivial, ?_, hfiles⟩
          · intro c hc
            rcases List.mem_append.1 hc with hc | hc
            · exact hfiles c (hs.1 c hc)
            · exact ⟨(invName c0, c0 :: rest), by simp [putFile], hc⟩
          · intro f hf
            rcases List.mem_append.1 hf with hf | hf
            · exact hs.2.2 f (List.mem_filter.1 hf).1
            · rw [List.mem_singleton] at hf
              subst hf
              exact ⟨c0, hc1, rfl, by rw [hsame, hinv']⟩
          · intro c hc
            exact List.mem_append.2 (.inl hc)

theorem invCalls_facts (srv : InvServer) (holdings : List ChanInfo) (hsrv : Honest srv holdings) (hdot : NoDots holdings)
    (cs : List InvCall) (hcs : WholeStations cs) (s : InvState) (hs : FilesWhole holdings s) (hdir : s.dir = true) :
    FilesWhole holdings (invCalls srv s cs) ∧ (invCalls srv s cs).dir = true ∧ ∀ c ∈ s.mem, c ∈ (invCalls srv s cs).mem := by
  induction cs generalizing s with
  | nil => exact ⟨hs, hdir, fun c hc => hc⟩
  | cons call cs ih =>
    obtain ⟨h1, h2, h3, -⟩ := invCall_facts srv holdings hsrv hdot s hs hdir call (hcs call (by simp))
    obtain ⟨i1, i2, i3⟩ := ih (fun c hc => hcs c (by simp [hc])) (invCall srv s call) h1 h2
    exact ⟨i1, i2, fun c hc => i3 c (h3 c hc)⟩

/-! ### C146 -/

/-- **C146** Full statement: in every sequence of calls, including new clients on the same directory, a
channel that was known once is known from then on.
Proved for histories that request information about whole stations (the information for the limits of
distances and for the correlation headers). Missing: requests for single channels made while data are
downloaded, see `c146_overwritten_violated`. -/
theorem c146_kept_partial (srv : InvServer) (holdings : List ChanInfo) (hsrv : Honest srv holdings) (hdot : NoDots holdings)
    (before after : List InvCall) (h : WholeStations (before ++ after)) :
    ∀ c ∈ (invCalls srv ⟨[], true, []⟩ before).mem, c ∈ (invCalls srv ⟨[], true, []⟩ (before ++ after)).mem := by
  obtain ⟨h1, h2, -⟩ := invCalls_facts srv holdings hsrv hdot before (fun c hc => h c (by simp [hc])) ⟨[], true, []⟩
    ⟨by simp, fun _ => rfl, by simp⟩ rfl
  intro c hc
  rw [invCalls, List.foldl_append]
  exact (invCalls_facts srv holdings hsrv hdot after (fun c hc => h c (by simp [hc])) _ h1 h2).2.2 c hc

/-- **C146** One client forgets nothing until it reads the directory again, whatever the server answers. -/
theorem c146_same_client (srv : InvServer) (s : InvState) (cs : List InvCall) (h : SameClient cs) :
    s.mem <+: (invCalls srv s cs).mem := by
  have hw : ∀ s ninv, s.mem <+: (writeInvFile s ninv).1.mem := by
    intro s ninv
    unfold writeInvFile
    cases ninv with
    | nil => simp
    | cons c rest =>
      dsimp only
      split_ifs <;> exact List.prefix_append _ _
  induction cs generalizing s with
  | nil => exact List.prefix_refl _
  | cons call cs ih =>
    refine List.IsPrefix.trans ?_ (ih (invCall srv s call) fun c hc => h c (by simp [hc]))
    have hcall := h call (by simp)
    cases call with
    | read => exact absurd rfl hcall.1
    | reopen ro => exact absurd rfl (hcall.2 ro)
    | select n st =>
      show s.mem <+: (selectInventory srv n st s).1.mem
      unfold selectInventory
      split_ifs
      · exact List.prefix_refl _
      · cases srv n st none with
        | error e => exact List.prefix_refl _
        | ok inv => exact hw s inv
    | load n st c =>
      show s.mem <+: (loadRemoteInv srv n st c s).1.mem
      unfold loadRemoteInv
      split_ifs
      · exact List.prefix_refl _
      · cases srv n st (some c) with
        | error e => exact List.prefix_refl _
        | ok inv => exact hw s inv

/-- **C146** A station that the server has is known after it was selected, and it is requested once only: after
any further calls that ask for whole stations, selecting it does not change anything. -/
theorem c146_requested_once (srv : InvServer) (holdings : List ChanInfo) (hsrv : Honest srv holdings) (hdot : NoDots holdings)
    (before after : List InvCall) (h : WholeStations (before ++ after)) (n st ch : Str) (hc : (n, st, ch) ∈ holdings) :
    let s := invCalls srv ⟨[], true, []⟩ (before ++ [.select n st] ++ after)
    (∃ c, (n, st, c) ∈ s.mem) ∧ ∀ srv', selectInventory srv' n st s = (s, none) := by
  obtain ⟨h1, h2, -⟩ := invCalls_facts srv holdings hsrv hdot before (fun c hc => h c (by simp [hc])) ⟨[], true, []⟩
    ⟨by simp, fun _ => rfl, by simp⟩ rfl
  have hsel : ∃ c, (n, st, c) ∈ (invCall srv (invCalls srv ⟨[], true, []⟩ before) (.select n st)).mem := by
    show ∃ c, (n, st, c) ∈ (selectInventory srv n st _).1.mem
    unfold selectInventory
    by_cases hk : ((invCalls srv ⟨[], true, []⟩ before).mem.any fun c => decide (c.1 = n ∧ c.2.1 = st)) = true
    · rw [if_pos hk]
      obtain ⟨⟨a, b, c⟩, hm, he⟩ := List.any_eq_true.1 hk
      simp only [decide_eq_true_eq] at he
      exact ⟨c, by rw [← he.1, ← he.2]; exact hm⟩
    · rw [if_neg hk]
      have hh := hsrv n st none
      have hin : (n, st, ch) ∈ holdings.filter (fun x => decide (x.1 = n ∧ x.2.1 = st ∧ ∀ y ∈ (none : Option Str), x.2.2 = y)) := by
        simp [hc]
      cases ha : srv n st none with
      | error e =>
        rw [ha] at hh
        simp only at hh
        rw [hh] at hin
        cases hin
      | ok inv =>
        rw [ha] at hh
        rw [← hh.1] at hin
        refine ⟨ch, ?_⟩
        unfold writeInvFile
        cases inv with
        | nil => cases hin
        | cons c rest =>
          dsimp only
          split_ifs <;> exact List.mem_append.2 (.inr hin)
  obtain ⟨i1, i2, i3, -⟩ := invCall_facts srv holdings hsrv hdot _ h1 h2 (.select n st) (by simp)
  obtain ⟨c, hc'⟩ := hsel
  have hfin : (n, st, c) ∈ (invCalls srv ⟨[], true, []⟩ (before ++ [.select n st] ++ after)).mem := by
    rw [invCalls, List.foldl_append, List.foldl_append]
    exact (invCalls_facts srv holdings hsrv hdot after (fun c hc => h c (by simp [hc])) _ i1 i2).2.2 _ hc'
  refine ⟨⟨c, hfin⟩, ?_⟩
  intro srv'
  unfold selectInventory
  rw [if_pos]
  exact List.any_eq_true.2 ⟨_, hfin, by simp⟩

/-- a server with two channels of one station -/
def twoChannels : InvServer := fun n s c =>
  let inv := [(c!"A", c!"S", c!"HHZ"), (c!"A", c!"S", c!"HHN")].filter fun x : ChanInfo =>
    decide (x.1 = n ∧ x.2.1 = s ∧ ∀ y ∈ c, x.2.2 = y)
  if inv = [] then .error .obsPyError else .ok inv

example : Honest twoChannels [(c!"A", c!"S", c!"HHZ"), (c!"A", c!"S", c!"HHN")] ∧
    NoDots [(c!"A", c!"S", c!"HHZ"), (c!"A", c!"S", c!"HHN")] ∧
    (invCalls twoChannels ⟨[], true, []⟩ [.select c!"A" c!"S", .reopen true]).mem =
      [(c!"A", c!"S", c!"HHZ"), (c!"A", c!"S", c!"HHN")] := by
  refine ⟨?_, ?_, by decide +kernel⟩
  · intro n s c
    unfold twoChannels
    dsimp only
    split_ifs with h
    · exact h
    · exact ⟨rfl, h⟩
  · intro c hc
    simp only [List.mem_cons, List.not_mem_nil, or_false] at hc
    rcases hc with rfl | rfl <;> decide

/-- **C146 is violated**: when data of a second channel of a station are downloaded, the file with the information
about the first channel is replaced, and a new client does not know it any more. -/
theorem c146_overwritten_violated :
    (c!"A", c!"S", c!"HHZ") ∈ (invCalls twoChannels ⟨[], true, []⟩ [.load c!"A" c!"S" c!"HHZ", .load c!"A" c!"S" c!"HHN"]).mem ∧
    (c!"A", c!"S", c!"HHZ") ∉ (invCalls twoChannels ⟨[], true, []⟩ [.load c!"A" c!"S" c!"HHZ", .load c!"A" c!"S" c!"HHN", .read]).mem ∧
    (c!"A", c!"S", c!"HHZ") ∉
      (invCalls twoChannels ⟨[], true, []⟩ [.load c!"A" c!"S" c!"HHZ", .load c!"A" c!"S" c!"HHN", .reopen false]).mem := by
  decide +kernel

/-- **C146 is violated**: then the station counts as known, so the missing channel is not requested with the
station either. -/
theorem c146_not_requested_violated :
    let s := invCalls twoChannels ⟨[], true, []⟩ [.load c!"A" c!"S" c!"HHZ", .load c!"A" c!"S" c!"HHN", .read, .select c!"A" c!"S"]
    (c!"A", c!"S", c!"HHZ") ∉ s.mem := by
  decide +kernel

/-- **C146 is violated**: a client that is opened for reading only writes inventories as well. -/
theorem c146_read_only_violated :
    (invCalls twoChannels ⟨[], true, []⟩ [.reopen true, .select c!"A" c!"S"]).files ≠ [] := by
  decide +kernel

end SeisMIC
