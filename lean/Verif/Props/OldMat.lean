import Verif.Spec.OldMat
import Verif.Props.CorrStats
import Verif.Props.TraceUtils

/-!
# C165: Correlations in files of the predecessor are imported with their samples, lags and times
-/

namespace SeisMIC

/-! ### Records -/

theorem leaves_flatten {α : Type} (x : List (Nested α)) (l : List α) (h : Leaves x l) : flatten x = l := (c74_flatten x l).2 h

theorem fieldIs_iff (r : MatRecord) (key : Str) (v : Option MatVal) : FieldIs r key v ↔ (key, v) ∈ flattenRecord r := by
  unfold FieldIs flattenRecord
  rw [List.mem_map]
  constructor
  · rintro ⟨x, l, hm, hl, rfl⟩
    exact ⟨_, hm, by simp [leaves_flatten _ _ hl]⟩
  · rintro ⟨f, hm, hf⟩
    cases hf
    exact ⟨f.2, flatten f.2, hm, (c74_flatten _ _).1 rfl, rfl⟩

theorem flattenRecord_keys (r : MatRecord) : (flattenRecord r).map Prod.fst = r.map Prod.fst := by
  unfold flattenRecord; rw [List.map_map]; rfl

theorem lookup_of_mem_keys {β : Type} (d : List (Str × β)) (hn : (d.map Prod.fst).Nodup) (k : Str) (v : β) (h : (k, v) ∈ d) : d.lookup k = some v := by
  induction d with
  | nil => cases h
  | cons p d ih =>
    obtain ⟨k', v'⟩ := p
    rw [List.map_cons, List.nodup_cons] at hn
    rw [List.lookup_cons]
    rcases List.mem_cons.1 h with h0 | h0
    · cases h0; simp
    · have : k ≠ k' := by
        rintro rfl
        exact hn.1 (List.mem_map.2 ⟨_, h0, rfl⟩)
      rw [beq_false_of_ne this]
      exact ih hn.2 h0

theorem unique_value {β : Type} (d : List (Str × β)) (hn : (d.map Prod.fst).Nodup) (k : Str) (v v' : β) (h : (k, v) ∈ d) (h' : (k, v') ∈ d) : v' = v := by
  have := lookup_of_mem_keys d hn k v h
  rw [lookup_of_mem_keys d hn k v' h'] at this
  exact Option.some.inj this

theorem mem_dictSet_of {β : Type} (d : List (Str × β)) (hn : (d.map Prod.fst).Nodup) (k : Str) (v : β) (kv : Str × β) (h : kv ∈ dictSet d k v) :
    kv = (k, v) ∨ (kv ∈ d ∧ kv.1 ≠ k) := by
  induction d with
  | nil =>
    unfold dictSet at h
    exact .inl (List.mem_singleton.1 h)
  | cons p d ih =>
    obtain ⟨k', v'⟩ := p
    rw [List.map_cons, List.nodup_cons] at hn
    unfold dictSet at h
    split at h
    · rename_i hk
      simp only at hk hn
      rcases List.mem_cons.1 h with h0 | h0
      · exact .inl h0
      · refine .inr ⟨List.mem_cons_of_mem _ h0, ?_⟩
        rintro rfl
        exact hn.1 (hk ▸ List.mem_map.2 ⟨_, h0, rfl⟩)
    · rename_i hk
      rcases List.mem_cons.1 h with h | h
      · subst h
        exact .inr ⟨List.mem_cons_self, hk⟩
      · rcases ih hn.2 h with h | ⟨h, h'⟩
        · exact .inl h
        · exact .inr ⟨List.mem_cons_of_mem _ h, h'⟩

theorem dictSet_keys {β : Type} (d : List (Str × β)) (k : Str) (v : β) (h : k ∈ d.map Prod.fst) : (dictSet d k v).map Prod.fst = d.map Prod.fst := by
  induction d with
  | nil => cases h
  | cons p d ih =>
    obtain ⟨k', v'⟩ := p
    unfold dictSet
    split
    · rename_i hk; simp [hk]
    · rename_i hk
      rw [List.map_cons, List.map_cons, ih]
      rcases List.mem_cons.1 h with h | h
      · exact absurd h.symm hk
      · exact h

/-! ### Headers of the seismograms -/

/-- an entry of a record fits to the header -/
structure EntryFits (env : MatEnv) (net sta loc cha : Str) (sr : Rat) (start n : Int) (kv : Str × Option MatVal) : Prop where
  net : kv.1 = c!"network" → env.text kv.2 = net
  sta : kv.1 = c!"station" → env.text kv.2 = sta
  loc : kv.1 = c!"location" → env.text kv.2 = loc
  cha : kv.1 = c!"channel" → env.text kv.2 = cha
  rate : kv.1 = c!"sampling_rate" → env.float kv.2 = .ok sr
  delta : kv.1 = c!"delta" → env.float kv.2 = .ok (1 / sr)
  start : kv.1 = c!"starttime" → env.utc kv.2 = .ok start
  npts : kv.1 = c!"npts" → env.int kv.2 = .ok n

/-- header after the entries with the keys `seen` -/
structure HeaderSeen (net sta loc cha : Str) (sr : Rat) (start n : Int) (seen : List Str) (s : Stats (Option MatVal)) : Prop where
  net : c!"network" ∈ seen → s.net = net
  sta : c!"station" ∈ seen → s.sta = sta
  loc : c!"location" ∈ seen → s.loc = loc
  cha : c!"channel" ∈ seen → s.cha = cha
  rate : c!"sampling_rate" ∈ seen → s.samplingRate = sr
  start : c!"starttime" ∈ seen → s.start = start
  npts : c!"npts" ∈ seen → s.npts = n
  stop : s.stop = s.refreshStop.stop

theorem ostatsSet_seen (env : MatEnv) {net sta loc cha : Str} {sr : Rat} {start n : Int} {seen : List Str} {s : Stats (Option MatVal)}
    (hs : HeaderSeen net sta loc cha sr start n seen s) (kv : Str × Option MatVal) (hk : EntryFits env net sta loc cha sr start n kv) (hsr : sr ≠ 0) :
    ∃ s', ostatsSet env s kv = .ok s' ∧ HeaderSeen net sta loc cha sr start n (kv.1 :: seen) s' := by
  obtain ⟨k, v⟩ := kv
  unfold ostatsSet
  split
  · rename_i h
    simp only at h
    subst h
    exact ⟨s, rfl, by constructor <;> (try simp) <;> first | exact hs.net | exact hs.sta | exact hs.loc | exact hs.cha | exact hs.rate | exact hs.start | exact hs.npts | exact hs.stop⟩
  split
  · rename_i _ h
    have hd := hk.delta h
    simp only at h
    subst h
    rw [hd]
    have h1 : (1 : Rat) / sr ≠ 0 := by simpa using hsr
    refine ⟨_, rfl, ?_⟩
    constructor <;> simp [Stats.refreshStop, hsr] <;> first | exact hs.net | exact hs.sta | exact hs.loc | exact hs.cha | exact hs.start | exact hs.npts
  split
  · rename_i _ _ h
    have hd := hk.rate h
    simp only at h
    subst h
    rw [hd]
    refine ⟨_, rfl, ?_⟩
    constructor <;> simp [Stats.refreshStop] <;> first | exact hs.net | exact hs.sta | exact hs.loc | exact hs.cha | exact hs.start | exact hs.npts
  split
  · rename_i _ _ _ h
    have hd := hk.start h
    simp only at h
    subst h
    rw [hd]
    refine ⟨_, rfl, ?_⟩
    constructor <;> simp [Stats.refreshStop] <;> first | exact hs.net | exact hs.sta | exact hs.loc | exact hs.cha | exact hs.rate | exact hs.npts
  split
  · rename_i _ _ _ _ h
    have hd := hk.npts h
    simp only at h
    subst h
    rw [hd]
    refine ⟨_, rfl, ?_⟩
    constructor <;> simp [Stats.refreshStop] <;> first | exact hs.net | exact hs.sta | exact hs.loc | exact hs.cha | exact hs.rate | exact hs.start
  split
  · rename_i _ _ _ _ _ h
    have hd := hk.net h
    simp only at h
    subst h
    refine ⟨_, rfl, ?_⟩
    constructor <;> (try simp) <;> first | exact hd | exact hs.sta | exact hs.loc | exact hs.cha | exact hs.rate | exact hs.start | exact hs.npts | exact hs.stop
  split
  · rename_i _ _ _ _ _ _ h
    have hd := hk.sta h
    simp only at h
    subst h
    refine ⟨_, rfl, ?_⟩
    constructor <;> (try simp) <;> first | exact hd | exact hs.net | exact hs.loc | exact hs.cha | exact hs.rate | exact hs.start | exact hs.npts | exact hs.stop
  split
  · rename_i _ _ _ _ _ _ _ h
    have hd := hk.loc h
    simp only at h
    subst h
    refine ⟨_, rfl, ?_⟩
    constructor <;> (try simp) <;> first | exact hd | exact hs.net | exact hs.sta | exact hs.cha | exact hs.rate | exact hs.start | exact hs.npts | exact hs.stop
  split
  · rename_i _ _ _ _ _ _ _ _ h
    have hd := hk.cha h
    simp only at h
    subst h
    refine ⟨_, rfl, ?_⟩
    constructor <;> (try simp) <;> first | exact hd | exact hs.net | exact hs.sta | exact hs.loc | exact hs.rate | exact hs.start | exact hs.npts | exact hs.stop
  · rename_i h1 h2 h3 h4 h5 h6 h7 h8 h9
    simp only at h1 h2 h3 h4 h5 h6 h7 h8 h9
    refine ⟨_, rfl, ?_⟩
    constructor <;> simp only [List.mem_cons]
    · exact fun h => hs.net (h.resolve_left fun h => h6 h.symm)
    · exact fun h => hs.sta (h.resolve_left fun h => h7 h.symm)
    · exact fun h => hs.loc (h.resolve_left fun h => h8 h.symm)
    · exact fun h => hs.cha (h.resolve_left fun h => h9 h.symm)
    · exact fun h => hs.rate (h.resolve_left fun h => h3 h.symm)
    · exact fun h => hs.start (h.resolve_left fun h => h4 h.symm)
    · exact fun h => hs.npts (h.resolve_left fun h => h5 h.symm)
    · exact hs.stop

theorem foldl_seen (env : MatEnv) {net sta loc cha : Str} {sr : Rat} {start n : Int} (hsr : sr ≠ 0) (d : FlatRecord)
    (hd : ∀ kv ∈ d, EntryFits env net sta loc cha sr start n kv) (seen : List Str) (s : Stats (Option MatVal))
    (hs : HeaderSeen net sta loc cha sr start n seen s) :
    ∃ s', d.foldlM (ostatsSet env) s = .ok s' ∧ HeaderSeen net sta loc cha sr start n ((d.map Prod.fst).reverse ++ seen) s' := by
  induction d generalizing seen s with
  | nil => exact ⟨s, rfl, hs⟩
  | cons kv d ih =>
    obtain ⟨s1, h1, h2⟩ := ostatsSet_seen env hs kv (hd kv List.mem_cons_self) hsr
    obtain ⟨s', h3, h4⟩ := ih (fun kv h => hd kv (List.mem_cons_of_mem _ h)) _ _ h2
    refine ⟨s', ?_, by simpa using h4⟩
    rw [List.foldlM_cons, h1]
    exact h3

/-- the header of a seismogram -/
theorem ostatsOf_record (env : MatEnv) {r : MatRecord} {net sta loc cha : Str} {sr : Rat} {start n : Int} (hsr : sr ≠ 0)
    (h : TraceRecord env r net sta loc cha sr start n) :
    ∃ d s, fixLocation (flattenRecord r) = .ok d ∧ ostatsOf env d = .ok s ∧ s.net = net ∧ s.sta = sta ∧ s.loc = loc ∧ s.cha = cha ∧
      s.samplingRate = sr ∧ s.start = start ∧ s.npts = n ∧ s.stop = lastSample sr start n := by
  have hn : ((flattenRecord r).map Prod.fst).Nodup := by rw [flattenRecord_keys]; exact h.names
  have hnet := (fieldIs_iff _ _ _).1 h.net
  have hsta := (fieldIs_iff _ _ _).1 h.sta
  have hcha := (fieldIs_iff _ _ _).1 h.cha
  obtain ⟨vr, hr, hr'⟩ := h.rate
  obtain ⟨vs, hst, hst'⟩ := h.start
  obtain ⟨vn, hnp, hnp'⟩ := h.npts
  rw [fieldIs_iff] at hr hst hnp
  have fit : ∀ kv ∈ flattenRecord r, (kv.1 = c!"location" → env.text kv.2 = loc) → EntryFits env net sta loc cha sr start n kv := by
    rintro ⟨k, v⟩ hm hl
    constructor
    · rintro rfl; rw [unique_value _ hn _ _ _ hnet hm]; rfl
    · rintro rfl; rw [unique_value _ hn _ _ _ hsta hm]; rfl
    · exact hl
    · rintro rfl; rw [unique_value _ hn _ _ _ hcha hm]; rfl
    · rintro rfl; rw [unique_value _ hn _ _ _ hr hm]; exact hr'
    · rintro rfl; exact h.delta _ ((fieldIs_iff _ _ _).2 hm)
    · rintro rfl; rw [unique_value _ hn _ _ _ hst hm]; exact hst'
    · rintro rfl; rw [unique_value _ hn _ _ _ hnp hm]; exact hnp'
  have mk : ∀ d : FlatRecord, d.map Prod.fst = (flattenRecord r).map Prod.fst → (∀ kv ∈ d, EntryFits env net sta loc cha sr start n kv) →
      c!"location" ∈ (flattenRecord r).map Prod.fst →
      ∃ s, ostatsOf env d = .ok s ∧ s.net = net ∧ s.sta = sta ∧ s.loc = loc ∧ s.cha = cha ∧
        s.samplingRate = sr ∧ s.start = start ∧ s.npts = n ∧ s.stop = lastSample sr start n := by
    intro d hk hf hlk
    obtain ⟨s, h1, h2⟩ := foldl_seen env hsr d hf [] ⟨[], [], [], [], 0, 0, 1, 0, 1, none, []⟩
      ⟨by simp, by simp, by simp, by simp, by simp, by simp, by simp, by decide +kernel⟩
    have seen : ∀ k v, (k, v) ∈ flattenRecord r → k ∈ (d.map Prod.fst).reverse ++ [] := by
      intro k v hm
      rw [List.append_nil, List.mem_reverse, hk]
      exact List.mem_map.2 ⟨_, hm, rfl⟩
    refine ⟨s, h1, h2.net (seen _ _ hnet), h2.sta (seen _ _ hsta), h2.loc (by rw [List.append_nil, List.mem_reverse, hk]; exact hlk),
      h2.cha (seen _ _ hcha), h2.rate (seen _ _ hr), h2.start (seen _ _ hst), h2.npts (seen _ _ hnp), ?_⟩
    rw [h2.stop]
    unfold Stats.refreshStop lastSample
    simp only
    rw [h2.rate (seen _ _ hr), h2.start (seen _ _ hst), h2.npts (seen _ _ hnp), if_neg hsr]
  rcases h.loc with hl | ⟨hl, rfl⟩
  · rw [fieldIs_iff] at hl
    obtain ⟨s, hs⟩ := mk (flattenRecord r) rfl (fun kv hm => fit kv hm (by
      obtain ⟨k, v⟩ := kv
      rintro rfl; rw [unique_value _ hn _ _ _ hl hm]; rfl)) (List.mem_map.2 ⟨_, hl, rfl⟩)
    refine ⟨_, s, ?_, hs⟩
    unfold fixLocation FlatRecord.get
    rw [lookup_of_mem_keys _ hn _ _ hl]
    rfl
  · rw [fieldIs_iff] at hl
    have hlk : c!"location" ∈ (flattenRecord r).map Prod.fst := List.mem_map.2 ⟨_, hl, rfl⟩
    obtain ⟨s, hs⟩ := mk (dictSet (flattenRecord r) c!"location" (some (.str c!"-"))) (dictSet_keys _ _ _ hlk) (fun kv hm => by
      rcases mem_dictSet_of _ hn _ _ _ hm with rfl | ⟨hm, hk⟩
      · constructor <;> simp [MatEnv.text]
      · exact fit kv hm fun h => absurd h hk) hlk
    refine ⟨_, s, ?_, hs⟩
    unfold fixLocation FlatRecord.get
    rw [lookup_of_mem_keys _ hn _ _ hl]
    rfl

theorem lag_of (env : MatEnv) (r : MatRecord) (hn : (r.map Prod.fst).Nodup) (key : Str) (lag : Rat) (h : LagIs env r key lag) :
    ∃ v, (flattenRecord r).get key = .ok v ∧ env.lag v = .ok lag := by
  obtain ⟨v, t, h1, h2, rfl⟩ := h
  rw [fieldIs_iff] at h1
  refine ⟨v, ?_, ?_⟩
  · unfold FlatRecord.get
    rw [lookup_of_mem_keys _ (by rw [flattenRecord_keys]; exact hn) _ _ h1]
  · unfold MatEnv.lag zerotime
    rw [h2]
    rfl

/-! ### Single correlations -/

theorem lagged_combined (geod : Coord → Coord → Rat × Rat × Rat) (h1 h2 : Stats (Option MatVal)) (l sr : Rat) (hsr : sr ≠ 0)
    (e1 : h1.samplingRate = sr) (e2 : h2.samplingRate = sr) (x : List F) :
    lagged ((combineStats geod (fun _ _ => none) h1 h2 l).setAll [.npts x.length], x) = fileSamples l sr x := by
  have hc := c83_combined_header geod (fun _ _ => none) h1 h2 l
  have hl := hc.2.2.2.2.2.2.1
  have hr := hc.2.2.2.2.2.2.2.1 (e1.trans e2.symm)
  rw [e1] at hr
  unfold lagged fileSamples CorrStats.times
  have ht : ((combineStats geod (fun _ _ => none) h1 h2 l).setAll [.npts x.length]) =
      { combineStats geod (fun _ _ => none) h1 h2 l with npts := x.length }.refresh := rfl
  rw [ht]
  simp only [CorrStats.refresh, hr, hl, if_neg hsr, Int.toNat_natCast]
  apply List.ext_getElem
  · simp
  · intro i hi1 hi2
    simp only [List.getElem_zip, List.getElem_map, List.getElem_range, List.getElem_zipIdx]
    congr 1
    rw [Nat.zero_add]
    ring

theorem fileSamples_reverse (s e sr : Rat) (x : List F) (h : e - s = (((x.length : Int) - 1 : Int) : Rat) / sr) :
    fileSamples (-e) sr x.reverse = ((fileSamples s sr x).map fun p => (-p.1, p.2)).reverse := by
  unfold fileSamples
  apply List.ext_getElem
  · simp
  · intro i hi1 hi2
    simp only [List.getElem_map, List.getElem_reverse, List.getElem_zipIdx, List.length_map, List.length_zipIdx, Nat.zero_add]
    congr 1
    have hi : i < x.length := by simpa using hi1
    have he : e = s + (((x.length : Int) - 1 : Int) : Rat) / sr := by rw [← h]; ring
    have hc : ((x.length - 1 - i : Nat) : Rat) = ((x.length : Rat) - 1 - i) := by
      rw [Nat.cast_sub (by omega), Nat.cast_sub (by omega)]; norm_num
    rw [hc, he]
    push_cast
    ring

/-- **C165** (single correlations). A file with the headers of two seismograms of equal sampling rate and the lags of the first and of the last sample is
imported: every sample has the lag that the file gives, or, if the codes are not in alphabetical order, the stations are exchanged and the lag has the
opposite sign. Times are those that both seismograms cover. -/
theorem c165_trace (geod : Coord → Coord → Rat × Rat × Rat) (env : MatEnv) (mat : MatFile) (r r1 r2 : MatRecord) (x : List (List F))
    {net1 sta1 loc1 cha1 net2 sta2 loc2 cha2 : Str} {sr : Rat} {start1 n1 start2 n2 : Int} {lag0 lag1 : Rat}
    (hm : mat.stats = some r) (hm1 : mat.statsTr1 = some r1) (hm2 : mat.statsTr2 = some r2) (hx : mat.corrTrace = some x)
    (hr : (r.map Prod.fst).Nodup) (h0 : LagIs env r c!"starttime" lag0) (h1 : LagIs env r c!"endtime" lag1)
    (t1 : TraceRecord env r1 net1 sta1 loc1 cha1 sr start1 n1) (t2 : TraceRecord env r2 net2 sta2 loc2 cha2 sr start2 n2)
    (hsr : sr ≠ 0) (hlast : lag1 - lag0 = (((x.flatten.length : Int) - 1 : Int) : Rat) / sr) :
    ∃ tr, matToCorrtrace geod env mat = .ok tr ∧ tr.1.Consistent ∧
      tr.1.corrStart = max start1 start2 ∧ tr.1.corrEnd = min (lastSample sr start1 n1) (lastSample sr start2 n2) ∧
      if net1 ++ sta1 ++ cha1 ≤ net2 ++ sta2 ++ cha2 then
        lagged tr = fileSamples lag0 sr x.flatten ∧ tr.1.network = net1 ++ '-' :: net2 ∧ tr.1.station = sta1 ++ '-' :: sta2 ∧
          tr.1.location = loc1 ++ '-' :: loc2 ∧ tr.1.channel = cha1 ++ '-' :: cha2
      else
        lagged tr = ((fileSamples lag0 sr x.flatten).map fun p => (-p.1, p.2)).reverse ∧ tr.1.network = net2 ++ '-' :: net1 ∧
          tr.1.station = sta2 ++ '-' :: sta1 ∧ tr.1.location = loc2 ++ '-' :: loc1 ∧ tr.1.channel = cha2 ++ '-' :: cha1 := by
  obtain ⟨v0, g0, l0⟩ := lag_of env r hr _ _ h0
  obtain ⟨v1, g1, l1⟩ := lag_of env r hr _ _ h1
  obtain ⟨d1, s1, f1, o1, a1, a2, a3, a4, a5, a6, a7, a8⟩ := ostatsOf_record env hsr t1
  obtain ⟨d2, s2, f2, o2, b1, b2, b3, b4, b5, b6, b7, b8⟩ := ostatsOf_record env hsr t2
  have hrun : matToCorrtrace geod env mat = .ok (corrTrace geod (fun _ _ => none) s1 s2 lag0 lag1 x.flatten) := by
    unfold matToCorrtrace matRecord
    simp only [hm, hm1, hm2, hx, bind, Except.bind, g0, g1, l0, l1, f1, f2, o1, o2, pure, Except.pure]
  refine ⟨_, hrun, ?_⟩
  by_cases hle : net1 ++ sta1 ++ cha1 ≤ net2 ++ sta2 ++ cha2
  · rw [if_pos hle]
    have hk : hKey s1 ≤ hKey s2 := by unfold hKey; rw [a1, a2, a4, b1, b2, b4]; exact hle
    have hc := c83_combined_header geod (fun _ _ => none) s1 s2 lag0
    unfold corrTrace
    rw [alphabetical_le _ _ _ _ _ _ _ hk]
    simp only
    obtain ⟨c1, c2, c3, c4, c5, c6, -⟩ := hc
    rw [a6, b6] at c1
    rw [a8, b8] at c2
    rw [a1, b1] at c3
    rw [a2, b2] at c4
    rw [a3, b3] at c5
    rw [a4, b4] at c6
    exact ⟨CorrStats.consistent_refresh _, c1, c2, lagged_combined geod s1 s2 lag0 sr hsr a5 b5 _, c3, c4, c5, c6⟩
  · rw [if_neg hle]
    have hk : ¬ hKey s1 ≤ hKey s2 := by unfold hKey; rw [a1, a2, a4, b1, b2, b4]; exact hle
    have hc := c83_combined_header geod (fun _ _ => none) s2 s1 (-lag1)
    unfold corrTrace
    rw [alphabetical_gt _ _ _ _ _ _ _ hk]
    simp only
    obtain ⟨c1, c2, c3, c4, c5, c6, -⟩ := hc
    rw [a6, b6, max_comm] at c1
    rw [a8, b8, min_comm] at c2
    rw [a1, b1] at c3
    rw [a2, b2] at c4
    rw [a3, b3] at c5
    rw [a4, b4] at c6
    refine ⟨CorrStats.consistent_refresh _, c1, c2, ?_, c3, c4, c5, c6⟩
    rw [← fileSamples_reverse lag0 lag1 sr x.flatten hlast]
    have := lagged_combined geod s2 s1 (-lag1) sr hsr b5 a5 x.flatten.reverse
    exact this

/-! ### Matrices of correlations -/

/-- an entry of a record fits to the header of the matrix -/
structure EntryFitsM (env : MatEnv) (net sta loc cha : Str) (sr : Rat) (n : Int) (kv : Str × Option MatVal) : Prop where
  net : kv.1 = c!"network" → env.text kv.2 = net
  sta : kv.1 = c!"station" → env.text kv.2 = sta
  loc : kv.1 = c!"location" → env.text kv.2 = loc
  cha : kv.1 = c!"channel" → env.text kv.2 = cha
  rate : kv.1 = c!"sampling_rate" → env.float kv.2 = .ok sr
  delta : kv.1 = c!"delta" → env.float kv.2 = .ok (1 / sr)
  npts : kv.1 = c!"npts" → env.int kv.2 = .ok n
  numbers : kv.1 = c!"start_lag" ∨ kv.1 = c!"calib" → ∃ x, env.float kv.2 = .ok x

/-- header of a matrix after the entries with the keys `seen` -/
structure HeaderSeenM (net sta loc cha : Str) (sr : Rat) (n : Int) (seen : List Str) (s : CorrStats (Option MatVal)) : Prop where
  net : c!"network" ∈ seen → s.network = net
  sta : c!"station" ∈ seen → s.station = sta
  loc : c!"location" ∈ seen → s.location = loc
  cha : c!"channel" ∈ seen → s.channel = cha
  rate : c!"sampling_rate" ∈ seen → s.samplingRate = sr
  npts : c!"npts" ∈ seen → s.npts = n
  corrEnd : s.corrEnd = 0
  ntrcs : c!"ntrcs" ∉ seen → s.extra.lookup c!"ntrcs" = none

theorem cstatsSet_seen (env : MatEnv) {net sta loc cha : Str} {sr : Rat} {n : Int} {seen : List Str} {s : CorrStats (Option MatVal)}
    (hs : HeaderSeenM net sta loc cha sr n seen s) (kv : Str × Option MatVal) (hk : EntryFitsM env net sta loc cha sr n kv) (hsr : sr ≠ 0) :
    ∃ s', cstatsSet env s kv = .ok s' ∧ HeaderSeenM net sta loc cha sr n (kv.1 :: seen) s' := by
  obtain ⟨k, v⟩ := kv
  unfold cstatsSet
  by_cases h0 : (k, v).1 = c!"endtime" ∨ (k, v).1 = c!"end_lag" ∨ (k, v).1 = c!"starttime" ∨ (k, v).1 = c!"corr_start"
  · rw [if_pos h0]
    simp only at h0
    rcases h0 with rfl | rfl | rfl | rfl
    all_goals
      refine ⟨s, rfl, ?_⟩
      constructor <;> (try simp) <;>
        first | exact hs.net | exact hs.sta | exact hs.loc | exact hs.cha | exact hs.rate | exact hs.npts | exact hs.corrEnd | simpa using hs.ntrcs
  rw [if_neg h0]
  split
  · rename_i h
    have hd := hk.delta h
    simp only at h
    subst h
    rw [hd]
    refine ⟨_, rfl, ?_⟩
    constructor <;> simp [CorrStats.refresh, hsr] <;>
      first | exact hs.net | exact hs.sta | exact hs.loc | exact hs.cha | exact hs.npts | exact hs.corrEnd | simpa using hs.ntrcs
  split
  · rename_i _ h
    have hd := hk.rate h
    simp only at h
    subst h
    rw [hd]
    refine ⟨_, rfl, ?_⟩
    constructor <;> simp [CorrStats.refresh] <;>
      first | exact hs.net | exact hs.sta | exact hs.loc | exact hs.cha | exact hs.npts | exact hs.corrEnd | simpa using hs.ntrcs
  split
  · rename_i _ _ h
    obtain ⟨y, hd⟩ := hk.numbers (.inl h)
    simp only at h
    subst h
    rw [hd]
    refine ⟨_, rfl, ?_⟩
    constructor <;> simp [CorrStats.refresh] <;>
      first | exact hs.net | exact hs.sta | exact hs.loc | exact hs.cha | exact hs.rate | exact hs.npts | exact hs.corrEnd | simpa using hs.ntrcs
  split
  · rename_i _ _ _ h
    have hd := hk.npts h
    simp only at h
    subst h
    rw [hd]
    refine ⟨_, rfl, ?_⟩
    constructor <;> simp [CorrStats.refresh] <;>
      first | exact hs.net | exact hs.sta | exact hs.loc | exact hs.cha | exact hs.rate | exact hs.corrEnd | simpa using hs.ntrcs
  split
  · rename_i _ _ _ _ h
    obtain ⟨y, hd⟩ := hk.numbers (.inr h)
    simp only at h
    subst h
    rw [hd]
    refine ⟨_, rfl, ?_⟩
    constructor <;> (try simp) <;>
      first | exact hs.net | exact hs.sta | exact hs.loc | exact hs.cha | exact hs.rate | exact hs.npts | exact hs.corrEnd | simpa using hs.ntrcs
  split
  · rename_i _ _ _ _ _ h
    have hd := hk.net h
    simp only at h
    subst h
    refine ⟨_, rfl, ?_⟩
    constructor <;> (try simp) <;>
      first | exact hd | exact hs.sta | exact hs.loc | exact hs.cha | exact hs.rate | exact hs.npts | exact hs.corrEnd | simpa using hs.ntrcs
  split
  · rename_i _ _ _ _ _ _ h
    have hd := hk.sta h
    simp only at h
    subst h
    refine ⟨_, rfl, ?_⟩
    constructor <;> (try simp) <;>
      first | exact hd | exact hs.net | exact hs.loc | exact hs.cha | exact hs.rate | exact hs.npts | exact hs.corrEnd | simpa using hs.ntrcs
  split
  · rename_i _ _ _ _ _ _ _ h
    have hd := hk.loc h
    simp only at h
    subst h
    refine ⟨_, rfl, ?_⟩
    constructor <;> (try simp) <;>
      first | exact hd | exact hs.net | exact hs.sta | exact hs.cha | exact hs.rate | exact hs.npts | exact hs.corrEnd | simpa using hs.ntrcs
  split
  · rename_i _ _ _ _ _ _ _ _ h
    have hd := hk.cha h
    simp only at h
    subst h
    refine ⟨_, rfl, ?_⟩
    constructor <;> (try simp) <;>
      first | exact hd | exact hs.net | exact hs.sta | exact hs.loc | exact hs.rate | exact hs.npts | exact hs.corrEnd | simpa using hs.ntrcs
  · rename_i h2 h3 h4 h5 h6 h7 h8 h9 h10
    simp only at h2 h3 h4 h5 h6 h7 h8 h9 h10
    refine ⟨_, rfl, ?_⟩
    constructor <;> simp only [List.mem_cons]
    · exact fun h => hs.net (h.resolve_left fun h => h7 h.symm)
    · exact fun h => hs.sta (h.resolve_left fun h => h8 h.symm)
    · exact fun h => hs.loc (h.resolve_left fun h => h9 h.symm)
    · exact fun h => hs.cha (h.resolve_left fun h => h10 h.symm)
    · exact fun h => hs.rate (h.resolve_left fun h => h3 h.symm)
    · exact fun h => hs.npts (h.resolve_left fun h => h5 h.symm)
    · exact hs.corrEnd
    · intro h
      rw [not_or] at h
      have e := foldl_dictSet_lookup [(k, v)] s.extra c!"ntrcs" (by simp)
      simp only [List.foldl_cons, List.foldl_nil, List.lookup_cons, beq_false_of_ne h.1, List.lookup_nil, Option.none_or] at e
      rw [e]
      exact hs.ntrcs h.2

theorem foldl_seenM (env : MatEnv) {net sta loc cha : Str} {sr : Rat} {n : Int} (hsr : sr ≠ 0) (d : FlatRecord)
    (hd : ∀ kv ∈ d, EntryFitsM env net sta loc cha sr n kv) (seen : List Str) (s : CorrStats (Option MatVal))
    (hs : HeaderSeenM net sta loc cha sr n seen s) :
    ∃ s', d.foldlM (cstatsSet env) s = .ok s' ∧ HeaderSeenM net sta loc cha sr n ((d.map Prod.fst).reverse ++ seen) s' := by
  induction d generalizing seen s with
  | nil => exact ⟨s, rfl, hs⟩
  | cons kv d ih =>
    obtain ⟨s1, h1, h2⟩ := cstatsSet_seen env hs kv (hd kv List.mem_cons_self) hsr
    obtain ⟨s', h3, h4⟩ := ih (fun kv h => hd kv (List.mem_cons_of_mem _ h)) _ _ h2
    refine ⟨s', ?_, by simpa using h4⟩
    rw [List.foldlM_cons, h1]
    exact h3

/-- the import of a matrix, with everything that is known about the header -/
theorem import_matrix (env : MatEnv) (mat : MatFile) (r : MatRecord) (data : List (List F)) (time : List MatVal) (times : List Int)
    {net sta loc cha : Str} {sr : Rat} {n : Int} {lag0 : Rat}
    (hm : mat.stats = some r) (hx : mat.corrData = some data) (ht : mat.time = some time)
    (h0 : LagIs env r c!"starttime" lag0) (hr : MatrixRecord env r net sta loc cha sr n)
    (hsr : sr ≠ 0) (htimes : List.Forall₂ (fun v t => env.utc (some v) = .ok t) time times) :
    ∃ b, corrmatToCorrbulk env mat = .ok b ∧ b.data = data ∧ b.corrStart = times ∧ b.header.startLag = lag0 ∧ b.header.samplingRate = sr ∧
      b.header.npts = n ∧ b.header.Consistent ∧ b.header.network = net ∧ b.header.station = sta ∧ b.header.location = loc ∧
      b.header.channel = cha ∧ b.header.corrEnd = 0 ∧ (c!"ntrcs" ∉ r.map Prod.fst → b.header.extra.lookup c!"ntrcs" = none) := by
  obtain ⟨v0, g0, l0⟩ := lag_of env r hr.names _ _ h0
  have hn : ((flattenRecord r).map Prod.fst).Nodup := by rw [flattenRecord_keys]; exact hr.names
  have hnet := (fieldIs_iff _ _ _).1 hr.net
  have hsta := (fieldIs_iff _ _ _).1 hr.sta
  have hloc := (fieldIs_iff _ _ _).1 hr.loc
  have hcha := (fieldIs_iff _ _ _).1 hr.cha
  obtain ⟨vr, hrt, hrt'⟩ := hr.rate
  obtain ⟨vn, hnp, hnp'⟩ := hr.npts
  rw [fieldIs_iff] at hrt hnp
  have fit : ∀ kv ∈ (flattenRecord r).filter (fun kv => kv.1 ≠ c!"starttime"), EntryFitsM env net sta loc cha sr n kv := by
    rintro ⟨k, v⟩ hm
    replace hm := (List.mem_filter.1 hm).1
    constructor
    · rintro rfl; rw [unique_value _ hn _ _ _ hnet hm]; rfl
    · rintro rfl; rw [unique_value _ hn _ _ _ hsta hm]; rfl
    · rintro rfl; rw [unique_value _ hn _ _ _ hloc hm]; rfl
    · rintro rfl; rw [unique_value _ hn _ _ _ hcha hm]; rfl
    · rintro rfl; rw [unique_value _ hn _ _ _ hrt hm]; exact hrt'
    · rintro rfl; exact hr.delta _ ((fieldIs_iff _ _ _).2 hm)
    · rintro rfl; rw [unique_value _ hn _ _ _ hnp hm]; exact hnp'
    · rintro (rfl | rfl)
      · exact hr.numbers _ (.inl ((fieldIs_iff _ _ _).2 hm))
      · exact hr.numbers _ (.inr ((fieldIs_iff _ _ _).2 hm))
  obtain ⟨s, h1, h2⟩ := foldl_seenM env hsr _ fit [] .default
    ⟨by simp, by simp, by simp, by simp, by simp, by simp, rfl, fun _ => rfl⟩
  have seen : ∀ k v, (k, v) ∈ flattenRecord r → k ≠ c!"starttime" →
      k ∈ (((flattenRecord r).filter (fun kv => kv.1 ≠ c!"starttime")).map Prod.fst).reverse ++ [] := by
    intro k v hm hk
    rw [List.append_nil, List.mem_reverse]
    exact List.mem_map.2 ⟨_, List.mem_filter.2 ⟨hm, by simpa using hk⟩, rfl⟩
  have hmap : time.mapM (fun t => env.utc (some t)) = .ok times := by
    clear ht
    induction htimes with
    | nil => rfl
    | cons h _ ih => rw [List.mapM_cons, h, ih]; rfl
  refine ⟨⟨data, { s with startLag := lag0 }.refresh, times⟩, ?_, rfl, rfl, rfl, h2.rate (seen _ _ hrt (by decide)), h2.npts (seen _ _ hnp (by decide)),
    CorrStats.consistent_refresh _, h2.net (seen _ _ hnet (by decide)), h2.sta (seen _ _ hsta (by decide)), h2.loc (seen _ _ hloc (by decide)),
    h2.cha (seen _ _ hcha (by decide)), h2.corrEnd, ?_⟩
  · unfold corrmatToCorrbulk matRecord
    simp only [hm, hx, ht, bind, Except.bind, g0, l0, hmap, pure, Except.pure]
    rw [h1]
    rfl
  · intro hnt
    refine h2.ntrcs ?_
    rw [List.append_nil, List.mem_reverse]
    intro h
    obtain ⟨kv, hkv, e⟩ := List.mem_map.1 h
    apply hnt
    rw [← flattenRecord_keys]
    exact List.mem_map.2 ⟨kv, (List.mem_filter.1 hkv).1, e⟩

/-- **C165** (matrices). A file with a matrix, the times of its correlations and a header is imported with the rows unchanged, the times in their order, and
the codes, the sampling rate, and the lags of the header: the first lag is that of the file, and further samples follow with the sampling interval. Parts of
it have the rows and the times of the part. Missing: access to a single correlation, and the ends of the correlations (see below). -/
theorem c165_matrix_partial (env : MatEnv) (mat : MatFile) (r : MatRecord) (data : List (List F)) (time : List MatVal) (times : List Int)
    {net sta loc cha : Str} {sr : Rat} {n : Int} {lag0 : Rat}
    (hm : mat.stats = some r) (hx : mat.corrData = some data) (ht : mat.time = some time)
    (h0 : LagIs env r c!"starttime" lag0) (hr : MatrixRecord env r net sta loc cha sr n)
    (hsr : sr ≠ 0) (hn : 0 < n) (htimes : List.Forall₂ (fun v t => env.utc (some v) = .ok t) time times) :
    ∃ b, corrmatToCorrbulk env mat = .ok b ∧ b.data = data ∧ b.corrStart = times ∧
      (∀ i : Nat, (i : Int) < n → b.header.times[i]? = some (lag0 + (i : Rat) / sr)) ∧ (b.header.times.length : Int) = n ∧
      b.header.endLag = lag0 + ((n - 1 : Int) : Rat) / sr ∧ b.header.network = net ∧ b.header.station = sta ∧ b.header.location = loc ∧
      b.header.channel = cha ∧
      ∀ lo hi, (b.getSlice lo hi).data = (data.take hi).drop lo ∧ (b.getSlice lo hi).corrStart = (times.take hi).drop lo ∧
        (b.getSlice lo hi).header.times = b.header.times := by
  obtain ⟨b, h1, h2, h3, h4, h5, h6, h7, h8, h9, h10, h11, -⟩ := import_matrix env mat r data time times hm hx ht h0 hr hsr htimes
  have hd : b.header.delta = 1 / sr := by
    rcases h7.delta_rate with ⟨h, -⟩ | h
    · exact absurd (h5.symm.trans h) hsr
    · rw [h5] at h
      field_simp
      rw [mul_comm]; exact h
  refine ⟨b, h1, h2, h3, ?_, ?_, ?_, h8, h9, h10, h11, ?_⟩
  · intro i hi
    unfold CorrStats.times
    rw [List.getElem?_map, List.getElem?_range (by omega), Option.map_some, h4, hd]
    congr 1
    ring
  · unfold CorrStats.times
    rw [List.length_map, List.length_range]
    omega
  · rw [h7.end_lag (by omega), h4, h6, hd]
    push_cast
    ring
  · intro lo hi
    unfold OldBulk.getSlice
    simp only [h2, h3]
    exact ⟨trivial, trivial, rfl⟩

theorem dictSet_lookup_self {β : Type} (d : List (Str × β)) (k : Str) (v : β) : (dictSet d k v).lookup k = some v := by
  induction d with
  | nil => simp [dictSet]
  | cons e d ih =>
    obtain ⟨k', v'⟩ := e
    unfold dictSet
    by_cases h : k' = k
    · simp [h]
    · have : (k == k') = false := by simpa using fun e => h e.symm
      simp [h, this, List.lookup_cons, ih]

/-- **C165** (single correlations of a part). A part of an imported matrix gives its correlations by their number: each with its row, its time, the lags
that belong to the samples, and the codes. -/
theorem c165_part (env : MatEnv) (mat : MatFile) (r : MatRecord) (data : List (List F)) (time : List MatVal) (times : List Int)
    {net sta loc cha : Str} {sr : Rat} {n : Int} {lag0 : Rat}
    (hm : mat.stats = some r) (hx : mat.corrData = some data) (ht : mat.time = some time)
    (h0 : LagIs env r c!"starttime" lag0) (hr : MatrixRecord env r net sta loc cha sr n)
    (hsr : sr ≠ 0) (htimes : List.Forall₂ (fun v t => env.utc (some v) = .ok t) time times) :
    ∃ b, corrmatToCorrbulk env mat = .ok b ∧ ∀ (lo hi i : Nat) (row : List F) (t : Int), lo + i < hi → data[lo + i]? = some row → times[lo + i]? = some t →
      ∃ h, (b.getSlice lo hi).getItem i = .ok (h, row) ∧ h.corrStart = t ∧ h.startLag = lag0 ∧ h.samplingRate = sr ∧ h.npts = row.length ∧
        h.network = net ∧ h.station = sta ∧ h.location = loc ∧ h.channel = cha ∧ h.extra.lookup c!"ntrcs" = none := by
  obtain ⟨b, h1, h2, h3, h4, h5, h6, h7, h8, h9, h10, h11, -⟩ := import_matrix env mat r data time times hm hx ht h0 hr hsr htimes
  refine ⟨b, h1, fun lo hi i row t hi' hrow htime => ?_⟩
  have e1 : ((b.data.take hi).drop lo)[i]? = some row := by
    rw [List.getElem?_drop, List.getElem?_take, if_pos hi', h2, hrow]
  have e2 : ((b.corrStart.take hi).drop lo)[i]? = some t := by
    rw [List.getElem?_drop, List.getElem?_take, if_pos hi', h3, htime]
  unfold OldBulk.getSlice OldBulk.getItem
  simp only [e1, e2]
  rw [dictSet_lookup_self]
  simp only [if_true, Option.isSome_some]
  refine ⟨_, rfl, rfl, h4, h5, rfl, h8, h9, h10, h11, ?_⟩
  simp only [CorrStats.refresh]
  rw [List.lookup_eq_none_iff]
  intro kv hkv
  have := (List.mem_filter.1 hkv).2
  simp at this
  simpa using fun h => this h.symm

/-- **C165** Not so: no correlation of an imported matrix can be accessed by its number, whatever the file holds (unless its header has an entry `ntrcs`). -/
theorem c165_single_violated (env : MatEnv) (mat : MatFile) (r : MatRecord) (data : List (List F)) (time : List MatVal) (times : List Int)
    {net sta loc cha : Str} {sr : Rat} {n : Int} {lag0 : Rat}
    (hm : mat.stats = some r) (hx : mat.corrData = some data) (ht : mat.time = some time)
    (h0 : LagIs env r c!"starttime" lag0) (hr : MatrixRecord env r net sta loc cha sr n) (hsr : sr ≠ 0)
    (htimes : List.Forall₂ (fun v t => env.utc (some v) = .ok t) time times) (hnt : c!"ntrcs" ∉ r.map Prod.fst) :
    ∃ b, corrmatToCorrbulk env mat = .ok b ∧ ∀ i < times.length, b.getItem i = .error .keyError := by
  obtain ⟨b, h1, -, h3, -, -, -, -, -, -, -, -, -, h12⟩ := import_matrix env mat r data time times hm hx ht h0 hr hsr htimes
  refine ⟨b, h1, fun i hi => ?_⟩
  unfold OldBulk.getItem
  rw [h3, List.getElem?_eq_getElem hi]
  simp only
  rw [h12 hnt]
  rfl

/-- **C165** Not so: the correlations of an imported matrix end in 1970, whenever they begin. -/
theorem c165_end_violated (env : MatEnv) (mat : MatFile) (r : MatRecord) (data : List (List F)) (time : List MatVal) (times : List Int)
    {net sta loc cha : Str} {sr : Rat} {n : Int} {lag0 : Rat}
    (hm : mat.stats = some r) (hx : mat.corrData = some data) (ht : mat.time = some time)
    (h0 : LagIs env r c!"starttime" lag0) (hr : MatrixRecord env r net sta loc cha sr n) (hsr : sr ≠ 0)
    (htimes : List.Forall₂ (fun v t => env.utc (some v) = .ok t) time times) (hpos : ∀ t ∈ times, 0 < t) :
    ∃ b, corrmatToCorrbulk env mat = .ok b ∧ ∀ t ∈ b.corrStart, b.header.corrEnd < t := by
  obtain ⟨b, h1, -, h3, -, -, -, -, -, -, -, -, h11, -⟩ := import_matrix env mat r data time times hm hx ht h0 hr hsr htimes
  refine ⟨b, h1, fun t hm => ?_⟩
  rw [h11]
  exact hpos t (h3 ▸ hm)

/-! ### Examples -/

/-- numbers are times in seconds -/
def exMatEnv : MatEnv where
  utc := fun v => match v with
    | some (.num x) => .ok (x * 1000000000).floor
    | _ => .error .typeError
  float := fun v => match v with
    | some (.num x) => .ok x
    | _ => .error .typeError
  int := fun v => match v with
    | some (.num x) => .ok x.floor
    | _ => .error .typeError
  repr := fun _ => c!"[]"

/-- a record of `loadmat`: each value in nested arrays, the location is empty -/
def exRec (sta : Str) (start : Rat) : MatRecord :=
  [(c!"network", [.node [.leaf (.str c!"XN")]]), (c!"station", [.node [.leaf (.str sta)]]), (c!"location", [.node []]), (c!"channel", [.node [.leaf (.str c!"HHZ")]]),
   (c!"sampling_rate", [.node [.leaf (.num 2)]]), (c!"delta", [.node [.leaf (.num (1 / 2))]]), (c!"starttime", [.node [.leaf (.num start)]]),
   (c!"npts", [.node [.leaf (.num 100)]])]

theorem exRec_flat (sta : Str) (start : Rat) : flattenRecord (exRec sta start) =
    [(c!"network", some (.str c!"XN")), (c!"station", some (.str sta)), (c!"location", none), (c!"channel", some (.str c!"HHZ")),
      (c!"sampling_rate", some (.num 2)), (c!"delta", some (.num (1 / 2))), (c!"starttime", some (.num start)), (c!"npts", some (.num 100))] := by
  simp [flattenRecord, exRec, flatten]

/-- header of the example -/
def exHead : MatRecord := [(c!"starttime", [.node [.leaf (.num (31536000 - 1 / 2))]]), (c!"endtime", [.node [.leaf (.num (31536000 + 1))]])]

theorem exHead_flat : flattenRecord exHead = [(c!"starttime", some (.num (31536000 - 1 / 2))), (c!"endtime", some (.num (31536000 + 1)))] := by
  simp [flattenRecord, exHead, flatten]

/-- a file with the stations in wrong order; lags from -0.5 to 1 s -/
def exMat : MatFile where
  stats := some exHead
  statsTr1 := some (exRec c!"B" 1000)
  statsTr2 := some (exRec c!"A" 1010)
  corrTrace := some [[some 1, some 2, some 3, some 4]]
  corrData := none
  time := none

example : matToCorrtrace (fun _ _ => (0, 0, 0)) exMatEnv exMat = .ok (CorrStats.refresh { CorrStats.default with
    samplingRate := 2, startLag := -1, npts := 4, corrStart := 1010 * 1000000000, corrEnd := 1000 * 1000000000 + 49500000000,
    network := c!"XN-XN", station := c!"A-B", location := c!"---", channel := c!"HHZ-HHZ" }, [some 4, some 3, some 2, some 1]) := by
  unfold matToCorrtrace matRecord exMat
  simp only [exRec_flat, exHead_flat]
  decide +kernel

theorem exRec_is (sta : Str) (start : Rat) :
    TraceRecord exMatEnv (exRec sta start) c!"XN" sta c!"-" c!"HHZ" 2 (start * 1000000000).floor 100 := by
  have hf : ∀ k v, FieldIs (exRec sta start) k v ↔ (k, v) ∈ flattenRecord (exRec sta start) := fieldIs_iff _
  have hfl := exRec_flat sta start
  constructor
  · simp [exRec]
  · rw [hf, hfl]; simp
  · rw [hf, hfl]; simp
  · right; rw [hf, hfl]; simp
  · rw [hf, hfl]; simp
  · exact ⟨_, by rw [hf, hfl]; simp; rfl, rfl⟩
  · intro v h
    rw [hf, hfl] at h
    have : v = some (.num (1 / 2)) := by simpa using h
    subst this
    rfl
  · exact ⟨_, by rw [hf, hfl]; simp; rfl, rfl⟩
  · exact ⟨some (.num 100), by rw [hf, hfl]; simp, by decide +kernel⟩

example : ∃ tr, matToCorrtrace (fun _ _ => (0, 0, 0)) exMatEnv exMat = .ok tr ∧
    lagged tr = ((fileSamples (-1 / 2) 2 [some 1, some 2, some 3, some 4]).map fun p => (-p.1, p.2)).reverse := by
  obtain ⟨tr, h1, -, -, -, h⟩ := c165_trace (fun _ _ => (0, 0, 0)) exMatEnv exMat _ _ _ [[some 1, some 2, some 3, some 4]] (lag0 := -1 / 2) (lag1 := 1) rfl rfl rfl rfl
    (by decide)
    ⟨some (.num (31536000 - 1 / 2)), 31536000 * 1000000000 - 500000000, by rw [fieldIs_iff, exHead_flat]; simp, by decide +kernel, by decide +kernel⟩
    ⟨some (.num (31536000 + 1)), 31536000 * 1000000000 + 1000000000, by rw [fieldIs_iff, exHead_flat]; simp, by decide +kernel, by decide +kernel⟩
    (exRec_is c!"B" 1000) (exRec_is c!"A" 1010) (by decide +kernel) (by decide +kernel)
  rw [if_neg (by decide)] at h
  exact ⟨tr, h1, h.1⟩

/-- header of a matrix -/
def exMatrixHead : MatRecord := [(c!"starttime", [.node [.leaf (.num (31536000 - 1 / 2))]]), (c!"endtime", [.node [.leaf (.num 31536000)]]),
    (c!"network", [.node [.leaf (.str c!"XN-XN")]]), (c!"station", [.node [.leaf (.str c!"A-B")]]), (c!"location", [.leaf (.str c!"-")]),
    (c!"channel", [.node [.leaf (.str c!"HHZ-HHZ")]]), (c!"sampling_rate", [.node [.leaf (.num 2)]]), (c!"npts", [.leaf (.num 2)])]

theorem exMatrixHead_flat : flattenRecord exMatrixHead = [(c!"starttime", some (.num (31536000 - 1 / 2))), (c!"endtime", some (.num 31536000)),
    (c!"network", some (.str c!"XN-XN")), (c!"station", some (.str c!"A-B")), (c!"location", some (.str c!"-")), (c!"channel", some (.str c!"HHZ-HHZ")),
    (c!"sampling_rate", some (.num 2)), (c!"npts", some (.num 2))] := by
  simp [flattenRecord, exMatrixHead, flatten]

/-- a file with a matrix -/
def exMatrix : MatFile where
  stats := some exMatrixHead
  statsTr1 := none
  statsTr2 := none
  corrTrace := none
  corrData := some [[some 1, some 2], [some 3, some 4], [none, none]]
  time := some [.num 1000, .num 2000, .num 3000]

example : (corrmatToCorrbulk exMatEnv exMatrix).map (fun b => (b.data, b.corrStart, b.header.times, b.header.endLag, b.header.corrEnd)) =
    .ok ([[some 1, some 2], [some 3, some 4], [none, none]], [1000 * 1000000000, 2000 * 1000000000, 3000 * 1000000000], [-1 / 2, 0], 0, 0) ∧
    (corrmatToCorrbulk exMatEnv exMatrix).bind (fun b => b.getItem 1) = .error .keyError ∧
    (corrmatToCorrbulk exMatEnv exMatrix).bind (fun b => ((b.getSlice 1 2).getItem 0).map fun t => (t.1.corrStart, t.2)) =
      .ok (2000 * 1000000000, [some 3, some 4]) := by
  unfold corrmatToCorrbulk matRecord exMatrix
  simp only [exMatrixHead_flat]
  decide +kernel

theorem exMatrix_is : MatrixRecord exMatEnv exMatrixHead c!"XN-XN" c!"A-B" c!"-" c!"HHZ-HHZ" 2 2 ∧ LagIs exMatEnv exMatrixHead c!"starttime" (-1 / 2) ∧
    c!"ntrcs" ∉ exMatrixHead.map Prod.fst := by
  refine ⟨?_, ⟨some (.num (31536000 - 1 / 2)), 31536000 * 1000000000 - 500000000, by rw [fieldIs_iff, exMatrixHead_flat]; simp, by decide +kernel, by decide +kernel⟩,
    by decide⟩
  constructor
  · decide
  all_goals simp only [fieldIs_iff, exMatrixHead_flat]
  any_goals simp
  · rfl
  · decide +kernel

example : ∃ b, corrmatToCorrbulk exMatEnv exMatrix = .ok b ∧ (∀ i < 3, b.getItem i = .error .keyError) :=
  c165_single_violated exMatEnv exMatrix exMatrixHead _ _ [1000 * 1000000000, 2000 * 1000000000, 3000 * 1000000000] rfl rfl rfl exMatrix_is.2.1 exMatrix_is.1
    (by decide +kernel) (.cons (by decide +kernel) (.cons (by decide +kernel) (.cons (by decide +kernel) .nil))) exMatrix_is.2.2

end SeisMIC
