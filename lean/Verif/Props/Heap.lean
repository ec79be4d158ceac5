import Verif.Model.Heap
import Verif.Props.PostCorr
import Verif.Props.Measure
import Mathlib.Data.List.GetD
import Mathlib.Data.List.Nodup
import Mathlib.Data.List.Range

/-!
# C112, C113, C114: bulks, their copies and parts, and their history
-/

namespace SeisMIC

set_option linter.unusedSectionVars false

variable {α σ : Type} [Inhabited α] [Inhabited σ]

/-! ### Specification: bulks as values -/

/-- the value of a bulk: its matrix and its header -/
abbrev BulkVal (α σ : Type) := List (List α) × Hdr σ

/-- what a call does to a value -/
def pureStep (v : BulkVal α σ) (c : Call α σ) : BulkVal α σ :=
  if c.early v.1 v.2.rest then (v.1, { v.2 with history := v.2.history ++ [c.entry] })
  else
    (match c.meth.dataKind with
      | .inplace | .fresh => c.data v.1 v.2.rest
      | .view => v.1.map fun row => (row.drop (c.cols v.2.rest).1).take (c.cols v.2.rest).2,
     ⟨c.rest v.1 v.2.rest, v.2.history ++ [c.entry]⟩)

/-- two matrices have the same number of rows and columns -/
def SameShape (x y : List (List α)) : Prop := x.length = y.length ∧ ∀ r ∈ x, ∀ r' ∈ y, r.length = r'.length

/-- all rows have the same number of columns -/
def Rectangular (x : List (List α)) : Prop := ∀ r ∈ x, ∀ r' ∈ x, r.length = r'.length

/-- the result of the call is a matrix, of the same shape if the method writes into its argument -/
def Call.Shaped (c : Call α σ) : Prop :=
  ∀ x s, Rectangular x → Rectangular (c.data x s) ∧ (c.meth.dataKind = .inplace → SameShape (c.data x s) x)

/-- the value of a bulk in memory -/
def Mem.val (m : Mem α σ) (b : BulkRef) : BulkVal α σ := (m.read b.view, m.header b.hdr)

/-- the references of a bulk are valid -/
structure Mem.Valid (m : Mem α σ) (b : BulkRef) : Prop where
  buf : b.view.buf < m.bufs.length
  hdr : b.hdr < m.hdrs.length
  rowsNodup : b.view.rows.Nodup
  colsNodup : b.view.cols.Nodup
  inside : ∀ r ∈ b.view.rows, r < (m.bufs.getD b.view.buf []).length ∧
    ∀ c ∈ b.view.cols, c < ((m.bufs.getD b.view.buf []).getD r []).length

/-- two bulks share neither data nor header -/
def Separate (b d : BulkRef) : Prop := (b.view.buf ≠ d.view.buf ∨ ∀ r ∈ b.view.rows, r ∉ d.view.rows) ∧ b.hdr ≠ d.hdr

/-- calls on two bulks, in any order: `true` is the first bulk -/
def Mem.interleaved (m : Mem α σ) (b d : BulkRef) : List (Bool × Call α σ) → Mem α σ × BulkRef × BulkRef
  | [] => (m, b, d)
  | (true, c) :: cs => (m.call b c).1.interleaved (m.call b c).2 d cs
  | (false, c) :: cs => (m.call d c).1.interleaved b (m.call d c).2 cs

/-! ### Lemmas -/

theorem read_rect (m : Mem α σ) (v : View) : Rectangular (m.read v) := by
  intro r hr r' hr'
  unfold Mem.read at hr hr'
  obtain ⟨_, _, rfl⟩ := List.mem_map.1 hr
  obtain ⟨_, _, rfl⟩ := List.mem_map.1 hr'
  simp

theorem cell_mapIdx (buf : List (List α)) (f : Nat → Nat → α → α) (r c : Nat) (hr : r < buf.length) (hc : c < (buf.getD r []).length) :
    cell (buf.mapIdx fun r row => row.mapIdx fun c old => f r c old) r c = f r c (cell buf r c) := by
  rw [List.getD_eq_getElem _ _ hr] at hc
  have hr' : r < (buf.mapIdx fun r row => row.mapIdx fun c old => f r c old).length := by simpa using hr
  unfold cell
  rw [List.getD_eq_getElem _ _ hr', List.getD_eq_getElem _ _ hr, List.getElem_mapIdx, List.getD_eq_getElem _ _ (by simpa using hc),
    List.getD_eq_getElem _ _ hc, List.getElem_mapIdx]

theorem shape_mapIdx (buf : List (List α)) (f : Nat → Nat → α → α) (r : Nat) :
    ((buf.mapIdx fun r row => row.mapIdx fun c old => f r c old).getD r []).length = (buf.getD r []).length := by
  by_cases hr : r < buf.length
  · rw [List.getD_eq_getElem _ _ (by simpa using hr), List.getD_eq_getElem _ _ hr, List.getElem_mapIdx]
    simp
  · rw [List.getD_eq_default _ _ (by simpa using hr), List.getD_eq_default _ _ (by simpa using hr)]

/-- the buffers after an assignment -/
theorem write_buf (m : Mem α σ) (v : View) (x : List (List α)) (i : Nat) :
    (m.write v x).bufs.getD i [] = if i = v.buf then (m.bufs.getD i []).mapIdx fun r row => row.mapIdx fun c old =>
      if r ∈ v.rows ∧ c ∈ v.cols then (x.getD (v.rows.idxOf r) []).getD (v.cols.idxOf c) default else old
    else m.bufs.getD i [] := by
  unfold Mem.write
  simp only [List.getD_eq_getElem?_getD, List.getElem?_modify]
  split
  · rename_i h
    subst h
    rw [if_pos rfl]
    cases m.bufs[v.buf]? <;> simp
  · rename_i h
    rw [if_neg (fun h' => h h'.symm)]
    cases m.bufs[i]? <;> simp

theorem read_write_self (m : Mem α σ) (v : View) (x : List (List α)) (hr : v.rows.Nodup) (hc : v.cols.Nodup)
    (hin : ∀ r ∈ v.rows, r < (m.bufs.getD v.buf []).length ∧ ∀ c ∈ v.cols, c < ((m.bufs.getD v.buf []).getD r []).length)
    (hs : SameShape x (m.read v)) : (m.write v x).read v = x := by
  have hl : x.length = v.rows.length := by rw [hs.1]; simp [Mem.read]
  refine List.ext_getElem (by simp [Mem.read, hl]) fun i h1 h2 => ?_
  have hi : i < v.rows.length := by omega
  have hxl : x[i].length = v.cols.length := by
    rw [hs.2 x[i] (List.getElem_mem _) ((m.read v)[i]'(by simp [Mem.read, hi])) (List.getElem_mem _)]
    simp [Mem.read]
  simp only [Mem.read, List.getElem_map]
  refine List.ext_getElem (by simp [hxl]) fun j g1 g2 => ?_
  have hj : j < v.cols.length := by omega
  rw [List.getElem_map]
  have hmr := List.getElem_mem hi
  have hmc := List.getElem_mem hj
  refine (congrArg (fun u => cell u v.rows[i] v.cols[j]) ((write_buf m v x v.buf).trans (if_pos rfl))).trans ?_
  beta_reduce
  rw [cell_mapIdx _ _ _ _ (hin _ hmr).1 ((hin _ hmr).2 _ hmc), if_pos ⟨hmr, hmc⟩, hr.idxOf_getElem i hi, hc.idxOf_getElem j hj,
    List.getD_eq_getElem x [] h2, List.getD_eq_getElem _ _ g2]

theorem read_write_other (m : Mem α σ) (v w : View) (x : List (List α)) (h : v.buf ≠ w.buf ∨ ∀ r ∈ v.rows, r ∉ w.rows)
    (hin : ∀ r ∈ w.rows, r < (m.bufs.getD w.buf []).length ∧ ∀ c ∈ w.cols, c < ((m.bufs.getD w.buf []).getD r []).length) :
    (m.write v x).read w = m.read w := by
  unfold Mem.read
  refine List.map_congr_left fun r hr => List.map_congr_left fun c hc => ?_
  rw [write_buf]
  split
  · rename_i hb
    rw [cell_mapIdx _ _ _ _ (hin r hr).1 ((hin r hr).2 c hc), if_neg]
    rintro ⟨h1, -⟩
    rcases h with h | h
    · exact h hb.symm
    · exact h r h1 hr
  · rfl

theorem read_alloc (m : Mem α σ) (x : List (List α)) (hx : Rectangular x) : (m.alloc x).1.read (m.alloc x).2 = x := by
  unfold Mem.read Mem.alloc
  simp only
  have hb : (m.bufs ++ [x]).getD m.bufs.length [] = x := by simp [List.getD_eq_getElem?_getD]
  rw [hb]
  refine List.ext_getElem (by simp) fun i h1 h2 => ?_
  rw [List.getElem_map, List.getElem_range]
  have hh : (x.headD []).length = x[i].length := by
    cases x with
    | nil => simp at h2
    | cons y ys => exact hx _ (by simp) _ (List.getElem_mem _)
  refine List.ext_getElem (by rw [List.length_map, List.length_range, hh]) fun j g1 g2 => ?_
  rw [List.getElem_map, List.getElem_range]
  unfold cell
  rw [List.getD_eq_getElem _ _ h2, List.getD_eq_getElem _ _ g2]

theorem read_append (m : Mem α σ) (v : View) (x : List (List α)) (hdrs : List (Hdr σ)) (h : v.buf < m.bufs.length) :
    (Mem.mk (m.bufs ++ [x]) hdrs).read v = m.read v := by
  unfold Mem.read
  simp only
  rw [show (m.bufs ++ [x]).getD v.buf [] = m.bufs.getD v.buf [] by
    rw [List.getD_eq_getElem _ _ (by simp; omega), List.getD_eq_getElem _ _ h, List.getElem_append_left h]]

theorem read_hdrs (m : Mem α σ) (v : View) (hdrs : List (Hdr σ)) : (Mem.mk m.bufs hdrs).read v = m.read v := rfl

theorem header_set_self (m : Mem α σ) (i : Nat) (h : Hdr σ) (hi : i < m.hdrs.length) : (m.setHdr i h).header i = h := by
  unfold Mem.setHdr Mem.header
  simp [List.getD_eq_getElem?_getD, hi]

theorem header_set_other (m : Mem α σ) (i j : Nat) (h : Hdr σ) (hij : i ≠ j) : (m.setHdr i h).header j = m.header j := by
  unfold Mem.setHdr Mem.header
  simp [List.getD_eq_getElem?_getD, List.getElem?_set_ne hij]

theorem header_append (bufs : List (List (List α))) (hdrs : List (Hdr σ)) (h : Hdr σ) (j : Nat) (hj : j < hdrs.length) :
    (Mem.mk bufs (hdrs ++ [h])).header j = (Mem.mk bufs hdrs).header j := by
  unfold Mem.header
  simp only
  rw [List.getD_eq_getElem _ _ (by simp; omega), List.getD_eq_getElem _ _ hj, List.getElem_append_left hj]

theorem header_new (bufs : List (List (List α))) (hdrs : List (Hdr σ)) (h : Hdr σ) :
    (Mem.mk bufs (hdrs ++ [h])).header hdrs.length = h := by
  unfold Mem.header
  simp [List.getD_eq_getElem?_getD]

theorem cols_sub (cols : List Nat) (a n : Nat) : ((cols.drop a).take n).Sublist cols :=
  (List.take_sublist _ _).trans (List.drop_sublist _ _)

theorem read_cols (m : Mem α σ) (v : View) (a n : Nat) :
    m.read { v with cols := (v.cols.drop a).take n } = (m.read v).map fun row => (row.drop a).take n := by
  unfold Mem.read
  simp only [List.map_map]
  refine List.map_congr_left fun r _ => ?_
  simp [List.map_drop, List.map_take]

theorem valid_of_shape {m m' : Mem α σ} {b : BulkRef} (h : m.Valid b) (hb : m.bufs.length ≤ m'.bufs.length) (hh : m.hdrs.length ≤ m'.hdrs.length)
    (h1 : (m'.bufs.getD b.view.buf []).length = (m.bufs.getD b.view.buf []).length)
    (h2 : ∀ r, ((m'.bufs.getD b.view.buf []).getD r []).length = ((m.bufs.getD b.view.buf []).getD r []).length) : m'.Valid b where
  buf := lt_of_lt_of_le h.buf hb
  hdr := lt_of_lt_of_le h.hdr hh
  rowsNodup := h.rowsNodup
  colsNodup := h.colsNodup
  inside := fun r hr => by
    rw [h1, h2]
    exact h.inside r hr

theorem valid_hdrs {m : Mem α σ} {b : BulkRef} (hdrs : List (Hdr σ)) (h : m.Valid b) (hh : m.hdrs.length ≤ hdrs.length) :
    (Mem.mk m.bufs hdrs).Valid b := valid_of_shape h (le_refl _) hh rfl fun _ => rfl

theorem valid_setHdr {m : Mem α σ} {b : BulkRef} (i : Nat) (x : Hdr σ) (h : m.Valid b) : (m.setHdr i x).Valid b :=
  valid_hdrs _ h (by simp)

theorem valid_write {m : Mem α σ} {b : BulkRef} (v : View) (x : List (List α)) (h : m.Valid b) : (m.write v x).Valid b := by
  refine valid_of_shape h (by simp [Mem.write]) (le_refl _) ?_ fun r => ?_
  · rw [write_buf]
    split <;> simp
  · rw [write_buf]
    split
    · exact shape_mapIdx _ (fun r c old => if r ∈ v.rows ∧ c ∈ v.cols then (x.getD (v.rows.idxOf r) []).getD (v.cols.idxOf c) default else old) r
    · rfl

theorem valid_alloc {m : Mem α σ} {b : BulkRef} (x : List (List α)) (h : m.Valid b) : (m.alloc x).1.Valid b := by
  have e : (m.bufs ++ [x]).getD b.view.buf [] = m.bufs.getD b.view.buf [] := by
    rw [List.getD_eq_getElem _ _ (by simp; have := h.buf; omega), List.getD_eq_getElem _ _ h.buf, List.getElem_append_left h.buf]
  exact valid_of_shape h (by simp [Mem.alloc]) (le_refl _) (by simp only [Mem.alloc, e]) fun r => by simp only [Mem.alloc, e]

/-- a new array with a header is valid -/
theorem valid_new (m : Mem α σ) (x : List (List α)) (hdrs : List (Hdr σ)) (i : Nat) (hi : i < hdrs.length) (hx : Rectangular x) :
    (Mem.mk (m.alloc x).1.bufs hdrs).Valid ⟨(m.alloc x).2, i⟩ where
  buf := by simp [Mem.alloc]
  hdr := hi
  rowsNodup := List.nodup_range
  colsNodup := List.nodup_range
  inside := fun r hr => by
    have hb : (m.bufs ++ [x]).getD m.bufs.length [] = x := by simp [List.getD_eq_getElem?_getD]
    simp only [Mem.alloc, List.mem_range] at hr ⊢
    rw [hb]
    refine ⟨hr, fun c hc => ?_⟩
    rw [List.getD_eq_getElem _ _ hr]
    cases x with
    | nil => simp at hr
    | cons y ys => exact lt_of_lt_of_eq hc (hx _ (by simp) _ (List.getElem_mem _))

theorem valid_view {m : Mem α σ} {b : BulkRef} (h : m.Valid b) (rows cols : List Nat) (hr : rows.Sublist b.view.rows) (hc : cols.Sublist b.view.cols)
    (i : Nat) (hi : i < m.hdrs.length) : m.Valid ⟨⟨b.view.buf, rows, cols⟩, i⟩ where
  buf := h.buf
  hdr := hi
  rowsNodup := h.rowsNodup.sublist hr
  colsNodup := h.colsNodup.sublist hc
  inside := fun r hr' => ⟨(h.inside r (hr.subset hr')).1, fun c hc' => (h.inside r (hr.subset hr')).2 c (hc.subset hc')⟩

theorem shaped_data {c : Call α σ} (hc : c.Shaped) (m : Mem α σ) (v : View) (s : σ) : Rectangular (c.data (m.read v) s) :=
  (hc _ _ (read_rect m v)).1

/-- the two parts of a call that returns early or not -/
theorem call_eq (m : Mem α σ) (b : BulkRef) (c : Call α σ) : m.call b c =
    if c.early (m.read b.view) (m.header b.hdr).rest then
      (m.setHdr b.hdr { m.header b.hdr with history := (m.header b.hdr).history ++ [c.entry] }, b)
    else
      let m1v : Mem α σ × View := match c.meth.dataKind with
        | .inplace => (m.write b.view (c.data (m.read b.view) (m.header b.hdr).rest), b.view)
        | .fresh => m.alloc (c.data (m.read b.view) (m.header b.hdr).rest)
        | .view => (m, { b.view with cols := (b.view.cols.drop (c.cols (m.header b.hdr).rest).1).take (c.cols (m.header b.hdr).rest).2 })
      let new : Hdr σ := ⟨c.rest (m.read b.view) (m.header b.hdr).rest, (m.header b.hdr).history ++ [c.entry]⟩
      if c.meth.newHeader then (⟨m1v.1.bufs, m1v.1.hdrs ++ [new]⟩, ⟨m1v.2, m1v.1.hdrs.length⟩)
      else (m1v.1.setHdr b.hdr new, ⟨m1v.2, b.hdr⟩) := rfl

/-- **a call does to the value of a bulk what it would do without sharing** -/
theorem call_val {m : Mem α σ} {b : BulkRef} (hv : m.Valid b) (c : Call α σ) (hc : c.Shaped) :
    (m.call b c).1.val (m.call b c).2 = pureStep (m.val b) c ∧ (m.call b c).1.Valid (m.call b c).2 := by
  rw [call_eq]
  unfold pureStep Mem.val
  simp only
  by_cases he : c.early (m.read b.view) (m.header b.hdr).rest
  · simp only [he, if_true]
    exact ⟨by rw [header_set_self _ _ _ hv.hdr]; rfl, valid_setHdr _ _ hv⟩
  · simp only [he, Bool.false_eq_true, if_false]
    cases hk : c.meth.dataKind
    · have hn : c.meth.newHeader = false := by revert hk; cases c.meth <;> simp [Meth.dataKind, Meth.newHeader]
      simp only [hn, Bool.false_eq_true, if_false]
      refine ⟨?_, valid_setHdr _ _ (valid_write _ _ hv)⟩
      rw [header_set_self _ _ _ (by simpa [Mem.write, Mem.alloc] using hv.hdr)]
      exact congrArg (·, _) (read_write_self m b.view _ hv.rowsNodup hv.colsNodup hv.inside ((hc _ _ (read_rect m _)).2 hk))
    · simp only
      cases hn : c.meth.newHeader
      · simp only [Bool.false_eq_true, if_false]
        refine ⟨?_, valid_new m _ _ _ (by simpa [Mem.alloc] using hv.hdr) (shaped_data hc m b.view _)⟩
        rw [header_set_self _ _ _ (by simpa [Mem.write, Mem.alloc] using hv.hdr)]
        exact congrArg (·, _) (read_alloc m _ (shaped_data hc m b.view _))
      · simp only [if_true]
        refine ⟨?_, valid_new m _ _ _ (by simp) (shaped_data hc m b.view _)⟩
        rw [header_new]
        exact congrArg (·, _) (read_alloc m _ (shaped_data hc m b.view _))
    · have hn : c.meth.newHeader = false := by revert hk; cases c.meth <;> simp [Meth.dataKind, Meth.newHeader]
      simp only [hn, Bool.false_eq_true, if_false]
      refine ⟨?_, valid_setHdr _ _ (valid_view hv _ _ (List.Sublist.refl _) (cols_sub _ _ _) _ hv.hdr)⟩
      rw [header_set_self _ _ _ hv.hdr]
      exact congrArg (·, _) (read_cols m b.view _ _)

/-- **a call on a separate bulk changes nothing** -/
theorem call_frame {m : Mem α σ} {b d : BulkRef} (hd : m.Valid d) (hs : Separate b d) (c : Call α σ) :
    (m.call b c).1.val d = m.val d ∧ (m.call b c).1.Valid d ∧ Separate (m.call b c).2 d := by
  rw [call_eq]
  unfold Mem.val
  simp only
  by_cases he : c.early (m.read b.view) (m.header b.hdr).rest
  · simp only [he, if_true]
    exact ⟨by rw [header_set_other _ _ _ _ hs.2]; rfl, valid_setHdr _ _ hd, hs⟩
  · simp only [he, Bool.false_eq_true, if_false]
    cases hk : c.meth.dataKind
    · have hn : c.meth.newHeader = false := by revert hk; cases c.meth <;> simp [Meth.dataKind, Meth.newHeader]
      simp only [hn, Bool.false_eq_true, if_false]
      refine ⟨?_, valid_setHdr _ _ (valid_write _ _ hd), hs⟩
      rw [header_set_other _ _ _ _ hs.2]
      exact congrArg (·, _) (read_write_other m b.view d.view _ hs.1 hd.inside)
    · simp only
      have hne : (m.alloc (c.data (m.read b.view) (m.header b.hdr).rest)).2.buf ≠ d.view.buf := by
        have := hd.buf
        simp only [Mem.alloc]
        omega
      cases hn : c.meth.newHeader
      · simp only [Bool.false_eq_true, if_false]
        refine ⟨?_, valid_setHdr _ _ (valid_alloc _ hd), Or.inl hne, hs.2⟩
        rw [header_set_other _ _ _ _ hs.2]
        exact congrArg (·, _) (read_append m d.view _ _ hd.buf)
      · simp only [if_true]
        refine ⟨?_, valid_hdrs _ (valid_alloc _ hd) (by simp), Or.inl hne, ?_⟩
        · rw [header_append _ _ _ _ (by simpa [Mem.write, Mem.alloc] using hd.hdr)]
          exact congrArg (·, _) (read_append m d.view _ _ hd.buf)
        · have := hd.hdr
          simp only [Mem.alloc]
          omega
    · have hn : c.meth.newHeader = false := by revert hk; cases c.meth <;> simp [Meth.dataKind, Meth.newHeader]
      simp only [hn, Bool.false_eq_true, if_false]
      exact ⟨by rw [header_set_other _ _ _ _ hs.2]; rfl, valid_setHdr _ _ hd, hs.1, hs.2⟩

theorem Separate.symm {b d : BulkRef} (h : Separate b d) : Separate d b :=
  ⟨h.1.imp (fun h => h.symm) (fun h r h1 h2 => h r h2 h1), h.2.symm⟩

/-! ### C112: copies and parts -/

/-- the calls on one of two bulks -/
def callsOn (first : Bool) (cs : List (Bool × Call α σ)) : List (Call α σ) := (cs.filter fun c => c.1 == first).map (·.2)

/-- **C112 (two bulks that share neither array nor header).** Whatever methods are called on the two, in whatever
order, each ends with the value that its own calls give. -/
theorem c112_interleaved (cs : List (Bool × Call α σ)) (hc : ∀ c ∈ cs, c.2.Shaped) (m : Mem α σ) (b d : BulkRef) (hb : m.Valid b) (hd : m.Valid d)
    (hs : Separate b d) :
    (m.interleaved b d cs).1.val (m.interleaved b d cs).2.1 = (callsOn true cs).foldl pureStep (m.val b) ∧
    (m.interleaved b d cs).1.val (m.interleaved b d cs).2.2 = (callsOn false cs).foldl pureStep (m.val d) := by
  induction cs generalizing m b d with
  | nil => exact ⟨rfl, rfl⟩
  | cons c cs ih =>
    have hc' : ∀ c ∈ cs, c.2.Shaped := fun x hx => hc x (List.mem_cons_of_mem _ hx)
    have hc0 := hc c (List.mem_cons_self ..)
    obtain ⟨f, c⟩ := c
    cases f
    · obtain ⟨e1, v1⟩ := call_val hd c hc0
      obtain ⟨e2, v2, s2⟩ := call_frame hb hs.symm c
      obtain ⟨i1, i2⟩ := ih hc' _ _ _ v2 v1 s2.symm
      refine ⟨?_, ?_⟩
      · refine i1.trans ?_
        rw [e2]
        rfl
      · refine i2.trans ?_
        rw [e1]
        rfl
    · obtain ⟨e1, v1⟩ := call_val hb c hc0
      obtain ⟨e2, v2, s2⟩ := call_frame hd hs c
      obtain ⟨i1, i2⟩ := ih hc' _ _ _ v1 v2 s2
      refine ⟨?_, ?_⟩
      · refine i1.trans ?_
        rw [e1]
        rfl
      · refine i2.trans ?_
        rw [e2]
        rfl

/-- a new array with a new header is separate from all that was there -/
theorem separate_new {m : Mem α σ} {b : BulkRef} (hb : m.Valid b) (x : List (List α)) (h : Hdr σ) (hx : Rectangular x) :
    let a := m.alloc x
    let k := a.1.allocHdr h
    k.1.Valid b ∧ k.1.Valid ⟨a.2, k.2⟩ ∧ Separate b ⟨a.2, k.2⟩ ∧ k.1.val b = m.val b ∧ k.1.val ⟨a.2, k.2⟩ = (x, h) := by
  refine ⟨valid_hdrs _ (valid_alloc _ hb) (by simp), valid_new m x _ _ (by simp [Mem.alloc, Mem.allocHdr]) hx, ⟨Or.inl ?_, ?_⟩, ?_, ?_⟩
  · have := hb.buf
    simp only [Mem.alloc]
    omega
  · have := hb.hdr
    simp only [Mem.alloc, Mem.allocHdr]
    omega
  · refine Prod.ext ?_ ?_
    · exact read_append m b.view _ _ hb.buf
    · exact header_append _ _ _ _ hb.hdr
  · refine Prod.ext ?_ ?_
    · exact read_alloc m x hx
    · exact header_new _ _ _

/-- **C112 (copies).** A copy has the value of the bulk it was made from, and afterwards the two are independent: whatever
methods are called on the two, in whatever order, each ends with the value that its own calls give. -/
theorem c112_copy (m : Mem α σ) (b : BulkRef) (hb : m.Valid b) (cs : List (Bool × Call α σ)) (hc : ∀ c ∈ cs, c.2.Shaped) :
    let k := m.copy b
    let r := k.1.interleaved b k.2 cs
    k.1.val k.2 = m.val b ∧ r.1.val r.2.1 = (callsOn true cs).foldl pureStep (m.val b) ∧
    r.1.val r.2.2 = (callsOn false cs).foldl pureStep (m.val b) := by
  obtain ⟨v1, v2, s, e1, e2⟩ := separate_new hb (m.read b.view) (m.header b.hdr) (read_rect m _)
  obtain ⟨i1, i2⟩ := c112_interleaved cs hc _ b _ v1 v2 s
  exact ⟨e2, i1.trans (by rw [e1]), i2.trans (by rw [e2]; rfl)⟩

/-- the selected rows -/
def selectRows (x : List (List α)) (sel : List Bool) : List (List α) := (x.zip sel).filterMap fun p => if p.2 then some p.1 else none

theorem selectRows_rect {x : List (List α)} (hx : Rectangular x) (sel : List Bool) : Rectangular (selectRows x sel) := by
  have : ∀ r ∈ selectRows x sel, r ∈ x := by
    intro r hr
    obtain ⟨p, hp, he⟩ := List.mem_filterMap.1 hr
    split at he
    · cases he
      exact (List.of_mem_zip hp).1
    · cases he
  exact fun r hr r' hr' => hx r (this r hr) r' (this r' hr')

/-- **C112 (a selection in time).** The result of `slice` holds the selected rows, and is independent of the bulk it was
taken from. -/
theorem c112_slice (m : Mem α σ) (b : BulkRef) (hb : m.Valid b) (sel : List Bool) (rest : σ → σ) (cs : List (Bool × Call α σ))
    (hc : ∀ c ∈ cs, c.2.Shaped) :
    let k := m.slice b sel rest
    let r := k.1.interleaved b k.2 cs
    (k.1.val k.2).1 = selectRows (m.val b).1 sel ∧ r.1.val r.2.1 = (callsOn true cs).foldl pureStep (m.val b) ∧
    r.1.val r.2.2 = (callsOn false cs).foldl pureStep (k.1.val k.2) := by
  obtain ⟨v1, v2, s, e1, e2⟩ := separate_new hb (selectRows (m.read b.view) sel) ⟨rest (m.header b.hdr).rest, []⟩ (selectRows_rect (read_rect m _) sel)
  obtain ⟨i1, i2⟩ := c112_interleaved cs hc _ b _ v1 v2 s
  exact ⟨congrArg Prod.fst e2, i1.trans (by rw [e1]), i2⟩

theorem read_rows (m : Mem α σ) (v : View) (a n : Nat) :
    m.read { v with rows := (v.rows.drop a).take n } = ((m.read v).drop a).take n := by
  unfold Mem.read
  simp [List.map_drop, List.map_take]

theorem getRows_val {m : Mem α σ} {b : BulkRef} (hb : m.Valid b) (first n : Nat) (rest : σ → σ) :
    (m.getRows b first n rest).1.val b = m.val b ∧ (m.getRows b first n rest).1.Valid b ∧
    (m.getRows b first n rest).1.Valid (m.getRows b first n rest).2 ∧
    ((m.getRows b first n rest).1.val (m.getRows b first n rest).2) =
      (((m.val b).1.drop first).take n, ⟨rest (m.val b).2.rest, []⟩) ∧ (m.getRows b first n rest).2.hdr ≠ b.hdr := by
  have hv : (m.getRows b first n rest).1.Valid b := valid_hdrs _ hb (by simp)
  refine ⟨?_, hv, ?_, ?_, ?_⟩
  · exact Prod.ext rfl (header_append _ _ _ _ hb.hdr)
  · exact valid_view hv _ _ ((List.take_sublist _ _).trans (List.drop_sublist _ _)) (List.Sublist.refl _) _ (by simp [Mem.getRows, Mem.allocHdr])
  · exact Prod.ext (read_rows m b.view _ _) (header_new _ _ _)
  · have := hb.hdr
    simp only [Mem.getRows, Mem.allocHdr]
    omega

/-- a call that does not write into the array leaves a bulk with another header as it is -/
theorem call_not_inplace {m : Mem α σ} {b d : BulkRef} (hd : m.Valid d) (hh : b.hdr ≠ d.hdr) (c : Call α σ) (hk : c.meth.dataKind ≠ .inplace) :
    (m.call b c).1.val d = m.val d ∧ (m.call b c).1.Valid d ∧ (m.call b c).2.hdr ≠ d.hdr := by
  rw [call_eq]
  unfold Mem.val
  simp only
  by_cases he : c.early (m.read b.view) (m.header b.hdr).rest
  · simp only [he, if_true]
    exact ⟨by rw [header_set_other _ _ _ _ hh]; rfl, valid_setHdr _ _ hd, hh⟩
  · simp only [he, Bool.false_eq_true, if_false]
    cases hk' : c.meth.dataKind
    · exact absurd hk' hk
    · simp only
      cases hn : c.meth.newHeader
      · simp only [Bool.false_eq_true, if_false]
        refine ⟨?_, valid_setHdr _ _ (valid_alloc _ hd), hh⟩
        rw [header_set_other _ _ _ _ hh]
        exact congrArg (·, _) (read_append m d.view _ _ hd.buf)
      · simp only [if_true]
        refine ⟨?_, valid_hdrs _ (valid_alloc _ hd) (by simp), ?_⟩
        · rw [header_append _ _ _ _ (by simpa [Mem.write, Mem.alloc] using hd.hdr)]
          exact congrArg (·, _) (read_append m d.view _ _ hd.buf)
        · have := hd.hdr
          simp only [Mem.alloc]
          omega
    · have hn : c.meth.newHeader = false := by revert hk'; cases c.meth <;> simp [Meth.dataKind, Meth.newHeader]
      simp only [hn, Bool.false_eq_true, if_false]
      exact ⟨by rw [header_set_other _ _ _ _ hh]; rfl, valid_setHdr _ _ hd, hh⟩

theorem calls_not_inplace (cs : List (Call α σ)) (hk : ∀ c ∈ cs, c.meth.dataKind ≠ .inplace) (m : Mem α σ) (b d : BulkRef) (hd : m.Valid d)
    (hh : b.hdr ≠ d.hdr) : (m.calls b cs).1.val d = m.val d := by
  induction cs generalizing m b with
  | nil => rfl
  | cons c cs ih =>
    obtain ⟨e, v, h⟩ := call_not_inplace hd hh c (hk c (List.mem_cons_self ..))
    exact (ih (fun x hx => hk x (List.mem_cons_of_mem _ hx)) _ _ v h).trans e

/-- **C112 (part of the rows).** `bulk[first:first+n]` holds these rows. Methods that make a new array or trim (clip,
envelope, filter, mirror, resample, trim) can be called on it without a change to the bulk. Missing: the other
methods, see `c112_part_violated`. -/
theorem c112_part_partial (m : Mem α σ) (b : BulkRef) (hb : m.Valid b) (first n : Nat) (rest : σ → σ) (cs : List (Call α σ))
    (hk : ∀ c ∈ cs, c.meth ∈ [Meth.clip, .envelope, .filter, .mirror, .resample, .resampleTimeAxis, .trim]) :
    let k := m.getRows b first n rest
    (k.1.val k.2).1 = ((m.val b).1.drop first).take n ∧ (k.1.calls k.2 cs).1.val b = m.val b := by
  obtain ⟨e1, v1, v2, e2, h⟩ := getRows_val hb first n rest
  refine ⟨congrArg Prod.fst e2, (calls_not_inplace cs (fun c hc => ?_) _ _ b v1 h).trans e1⟩
  have := hk c hc
  revert this
  cases c.meth <;> simp [Meth.dataKind]

/-- **C112 (two parts).** Parts with different rows are independent of each other. -/
theorem c112_two_parts (m : Mem α σ) (b : BulkRef) (hb : m.Valid b) (k : Nat) (n : Nat) (rest rest' : σ → σ) (cs : List (Bool × Call α σ))
    (hc : ∀ c ∈ cs, c.2.Shaped) :
    let p := m.getRows b 0 k rest
    let q := p.1.getRows b k n rest'
    let r := q.1.interleaved p.2 q.2 cs
    r.1.val r.2.1 = (callsOn true cs).foldl pureStep ((m.val b).1.take k, ⟨rest (m.val b).2.rest, []⟩) ∧
    r.1.val r.2.2 = (callsOn false cs).foldl pureStep (((m.val b).1.drop k).take n, ⟨rest' (m.val b).2.rest, []⟩) := by
  obtain ⟨e1, v1, v2, e2, h⟩ := getRows_val hb 0 k rest
  obtain ⟨f1, w1, w2, f2, g⟩ := getRows_val v1 k n rest'
  intro p q r
  have hp : q.1.Valid p.2 := valid_hdrs _ v2 (by simp [p])
  have ep : q.1.val p.2 = p.1.val p.2 := Prod.ext rfl (header_append _ _ _ _ v2.hdr)
  have hs : Separate p.2 q.2 := by
    refine ⟨Or.inr fun x hx hx' => ?_, ?_⟩
    · have hx1 : x ∈ b.view.rows.take k := by simpa [p, Mem.getRows] using hx
      have hx2 : x ∈ b.view.rows.drop k := List.mem_of_mem_take (show x ∈ (b.view.rows.drop k).take n from hx')
      exact (List.nodup_append.1 ((List.take_append_drop k b.view.rows).symm ▸ hb.rowsNodup)).2.2 x hx1 x hx2 rfl
    · have := v2.hdr
      exact Nat.ne_of_lt this
  obtain ⟨i1, i2⟩ := c112_interleaved cs hc q.1 p.2 q.2 hp w2 hs
  refine ⟨i1.trans ?_, i2.trans ?_⟩
  · rw [ep, e2, List.drop_zero]
  · rw [f2, e1]

/-- **C112 does not hold for parts.** A method that writes into its array (normalise, correct the decay, correct shifts
or stretches, smooth, taper), called on `bulk[first:first+n]`, changes these rows of the bulk itself; the header of
the bulk does not show it. -/
theorem c112_part_violated (m : Mem α σ) (b : BulkRef) (hb : m.Valid b) (first n : Nat) (rest : σ → σ) (c : Call α σ) (hc : c.Shaped)
    (hk : c.meth ∈ [Meth.normalize, .correctDecay, .correctStretch, .correctShift, .smooth, .taper, .taperCenter])
    (he : c.early (((m.val b).1.drop first).take n) (rest (m.val b).2.rest) = false) :
    let k := m.getRows b first n rest
    (((k.1.call k.2 c).1.val b).1.drop first).take n = c.data (((m.val b).1.drop first).take n) (rest (m.val b).2.rest) ∧
    ((k.1.call k.2 c).1.val b).2 = (m.val b).2 := by
  obtain ⟨e1, v1, v2, e2, h⟩ := getRows_val hb first n rest
  intro k
  have hk' : c.meth.dataKind = .inplace := by
    revert hk
    cases c.meth <;> simp [Meth.dataKind]
  have hn : c.meth.newHeader = false := by revert hk'; cases c.meth <;> simp [Meth.dataKind, Meth.newHeader]
  have hx : k.1.read k.2.view = ((m.val b).1.drop first).take n := congrArg Prod.fst e2
  have hh : (k.1.header k.2.hdr).rest = rest (m.val b).2.rest := congrArg (fun v => v.2.rest) e2
  have hcall : k.1.call k.2 c = ((k.1.write k.2.view (c.data (((m.val b).1.drop first).take n) (rest (m.val b).2.rest))).setHdr k.2.hdr
      ⟨c.rest (((m.val b).1.drop first).take n) (rest (m.val b).2.rest), (k.1.header k.2.hdr).history ++ [c.entry]⟩, k.2) := by
    rw [call_eq, hx, hh, he]
    simp only [hk', hn, Bool.false_eq_true, if_false]
  rw [hcall]
  refine ⟨?_, ?_⟩
  · have := read_write_self k.1 k.2.view _ v2.rowsNodup v2.colsNodup v2.inside ((hc _ (rest (m.val b).2.rest) (read_rect k.1 k.2.view)).2 hk')
    rw [hx] at this
    refine Eq.trans ?_ this
    exact (read_rows (k.1.write k.2.view (c.data (((m.val b).1.drop first).take n) (rest (m.val b).2.rest))) b.view first n).symm
  · refine (header_set_other _ _ _ _ h).trans ?_
    exact congrArg Prod.snd e1

/-- **C112 does not hold for traces.** An assignment to the elements of trace `i` of `create_corr_stream` changes row `i`
of the bulk. -/
theorem c112_trace_violated (m : Mem α σ) (b : BulkRef) (hb : m.Valid b) (rest : Nat → σ → σ) (i : Nat) (row : List α)
    (hi : i < b.view.rows.length) (hrow : row.length = b.view.cols.length) :
    ∃ t, (m.traces b rest).2[i]? = some t ∧ (((m.traces b rest).1.write t.view [row]).val b).1[i]? = some row := by
  refine ⟨⟨{ b.view with rows := [b.view.rows.getD i 0] }, m.hdrs.length + i⟩, by simp [Mem.traces, hi], ?_⟩
  have hg : b.view.rows.getD i 0 = b.view.rows[i] := List.getD_eq_getElem _ _ hi
  have h1 := read_write_self (m.traces b rest).1 { b.view with rows := [b.view.rows.getD i 0] } [row] (by simp) hb.colsNodup
    (fun r hr => hb.inside r (by
      rw [hg] at hr
      rw [List.mem_singleton.1 hr]
      exact List.getElem_mem hi)) ⟨by simp [Mem.read], fun r hr r' hr' => by
        rw [List.mem_singleton.1 hr, hrow]
        obtain ⟨_, _, rfl⟩ := List.mem_map.1 hr'
        simp⟩
  unfold Mem.val
  simp only
  unfold Mem.read at h1 ⊢
  rw [List.getElem?_map, List.getElem?_eq_getElem hi]
  simp only [List.map_cons, List.map_nil, List.cons.injEq, and_true, hg] at h1
  simp only [Option.map_some, hg]
  rw [h1]

/-- the velocity change that `stretch` measures refers to the header of the bulk (post_corr_process.py:898,
stream.py:617-622, dv.py `self.stats = stats`) -/
def resultHeader (b : BulkRef) : Nat := b.hdr

/-- **C112 does not hold for results.** A velocity change measured before further processing of the bulk shows this processing
in its own header, because the two have one header: any method but `mirror` adds its entry to the history of the
result, and its changes of the lags and of the length to the header of the result. -/
theorem c112_result_violated (m : Mem α σ) (b : BulkRef) (hb : m.Valid b) (c : Call α σ) (hm : c.meth ≠ .mirror) :
    (m.call b c).1.header (resultHeader b) = (pureStep (m.val b) c).2 := by
  have hn : c.meth.newHeader = false := by revert hm; cases c.meth <;> simp [Meth.newHeader]
  rw [call_eq]
  unfold pureStep Mem.val resultHeader
  simp only
  by_cases he : c.early (m.read b.view) (m.header b.hdr).rest
  · simp only [he, if_true]
    exact header_set_self _ _ _ hb.hdr
  · simp only [he, Bool.false_eq_true, if_false, hn]
    refine header_set_self _ _ _ ?_
    cases c.meth.dataKind <;> exact hb.hdr

/-! ### C114: the history -/

theorem pureStep_history (v : BulkVal α σ) (c : Call α σ) : (pureStep v c).2.history = v.2.history ++ [c.entry] := by
  unfold pureStep
  split <;> rfl

theorem call_history {m : Mem α σ} {b : BulkRef} (hb : b.hdr < m.hdrs.length) (c : Call α σ) :
    ((m.call b c).1.header (m.call b c).2.hdr).history = (m.header b.hdr).history ++ [c.entry] ∧
    (m.call b c).2.hdr < (m.call b c).1.hdrs.length := by
  rw [call_eq]
  by_cases he : c.early (m.read b.view) (m.header b.hdr).rest
  · simp only [he, if_true]
    exact ⟨by rw [header_set_self _ _ _ hb], by simpa [Mem.setHdr] using hb⟩
  · simp only [he, Bool.false_eq_true, if_false]
    cases hn : c.meth.newHeader
    · simp only [Bool.false_eq_true, if_false]
      have hb' : ∀ m1v : Mem α σ × View, m1v.1.hdrs = m.hdrs → ∀ new : Hdr σ, new.history = (m.header b.hdr).history ++ [c.entry] →
          ((m1v.1.setHdr b.hdr new).header b.hdr).history = (m.header b.hdr).history ++ [c.entry] ∧
          b.hdr < (m1v.1.setHdr b.hdr new).hdrs.length := by
        intro m1v h1 new h2
        exact ⟨by rw [header_set_self _ _ _ (by rw [h1]; exact hb), h2], by simpa [Mem.setHdr, h1] using hb⟩
      refine hb' _ ?_ _ rfl
      cases c.meth.dataKind <;> rfl
    · simp only [if_true]
      exact ⟨by rw [header_new], by simp⟩

/-- **C114 (the history of a bulk).** After any methods were called on a bulk, its history is the earlier history
followed by the entries of these calls in their order, whether they changed the data or not. -/
theorem c114_history (cs : List (Call α σ)) (m : Mem α σ) (b : BulkRef) (hb : b.hdr < m.hdrs.length) :
    ((m.calls b cs).1.header (m.calls b cs).2.hdr).history = (m.header b.hdr).history ++ cs.map (·.entry) := by
  induction cs generalizing m b with
  | nil => simp [Mem.calls]
  | cons c cs ih =>
    obtain ⟨h1, h2⟩ := call_history hb c
    refine (ih _ _ h2).trans ?_
    rw [h1]
    simp

/-- **C114 (copies).** A copy has the history of the bulk it was made from. -/
theorem c114_copy (m : Mem α σ) (b : BulkRef) (hb : m.Valid b) :
    ((m.copy b).1.header (m.copy b).2.hdr).history = (m.header b.hdr).history := by
  obtain ⟨_, _, _, _, e2⟩ := separate_new hb (m.read b.view) (m.header b.hdr) (read_rect m _)
  exact congrArg (fun v => v.2.history) e2

/-- **C114 does not hold for parts.** The result of `slice` and `bulk[first:first+n]` have the processed data, but an
empty history. -/
theorem c114_part_violated (m : Mem α σ) (b : BulkRef) (hb : m.Valid b) (sel : List Bool) (first n : Nat) (rest : σ → σ) :
    ((m.slice b sel rest).1.header (m.slice b sel rest).2.hdr).history = [] ∧
    ((m.getRows b first n rest).1.header (m.getRows b first n rest).2.hdr).history = [] := by
  obtain ⟨_, _, _, _, e2⟩ := separate_new hb (selectRows (m.read b.view) sel) ⟨rest (m.header b.hdr).rest, []⟩ (selectRows_rect (read_rect m _) sel)
  obtain ⟨_, _, _, e3, _⟩ := getRows_val hb first n rest
  exact ⟨congrArg (fun v => v.2.history) e2, congrArg (fun v => v.2.history) e3⟩

/-! A bulk of two rows with three columns, and calls that halve all elements, take absolute values and trim: the hypotheses
are met, and the effects differ. -/

/-- a memory with one bulk -/
def exHeapMem : Mem Int Nat := ⟨[[[2, 4, 6], [8, 10, -12]]], [⟨3, [c!"filter"]⟩]⟩

/-- the bulk -/
def exHeapBulk : BulkRef := ⟨⟨0, [0, 1], [0, 1, 2]⟩, 0⟩

/-- halve in place -/
def exHalf : Call Int Nat := ⟨.normalize, fun _ _ => false, fun x _ => x.map fun r => r.map (· / 2), fun _ s => s, fun _ => (0, 0), c!"normalize"⟩

/-- absolute values in a new array -/
def exAbs : Call Int Nat := ⟨.envelope, fun _ _ => false, fun x _ => x.map fun r => r.map fun v => (v.natAbs : Int), fun _ s => s, fun _ => (0, 0), c!"envelope"⟩

/-- the last two columns -/
def exTrim : Call Int Nat := ⟨.trim, fun _ _ => false, fun x _ => x, fun _ _ => 2, fun _ => (1, 2), c!"trim"⟩

example : exHeapMem.Valid exHeapBulk := ⟨by decide, by decide, by decide, by decide, by decide⟩

theorem rect_map {x : List (List α)} (f : List α → List α) (hf : ∀ r, (f r).length = r.length) (hx : Rectangular x) :
    Rectangular (x.map f) ∧ SameShape (x.map f) x := by
  refine ⟨fun r hr r' hr' => ?_, by simp, fun r hr r' hr' => ?_⟩
  · obtain ⟨a, ha, rfl⟩ := List.mem_map.1 hr
    obtain ⟨a', ha', rfl⟩ := List.mem_map.1 hr'
    rw [hf, hf]
    exact hx a ha a' ha'
  · obtain ⟨a, ha, rfl⟩ := List.mem_map.1 hr
    rw [hf]
    exact hx a ha r' hr'

example : exHalf.Shaped := fun _ _ hx => ⟨(rect_map _ (by simp) hx).1, fun _ => (rect_map _ (by simp) hx).2⟩
example : exAbs.Shaped := fun _ _ hx => ⟨(rect_map _ (by simp) hx).1, fun h => nomatch h⟩
example : exTrim.Shaped := fun _ _ hx => ⟨hx, fun h => nomatch h⟩

example : let k := exHeapMem.copy exHeapBulk
    let r := k.1.interleaved exHeapBulk k.2 [(false, exHalf), (true, exTrim), (false, exAbs), (true, exAbs)]
    (r.1.val r.2.1).1 = [[4, 6], [10, 12]] ∧ (r.1.val r.2.2).1 = [[1, 2, 3], [4, 5, 6]] := by decide

example : let k := exHeapMem.getRows exHeapBulk 0 1 id
    ((k.1.call k.2 exHalf).1.val exHeapBulk).1 = [[1, 2, 3], [8, 10, -12]] := by decide

example : ((exHeapMem.calls exHeapBulk [exHalf, exTrim]).1.header 0).history = [c!"filter", c!"normalize", c!"trim"] := by decide

/-! ### C113: a measurement and the bulk

A bulk has lags from `a` to `e` (in samples): `start_lag` is `a/sr` and there are `e - a + 1` columns. -/

/-- the header of a bulk with lags from `a` to `e` -/
def lagsFromTo (a e : Int) (sr : Rat) : LagStats := ⟨(a : Rat) / sr, (e + 1 - a).toNat, sr⟩

/-- the samples of a row at lags from `lo` to `hi`, if the row starts at lag `a` -/
noncomputable def rowAt (a lo hi : Int) (row : List ℝ) : List ℝ := (intsFrom lo (hi + 1)).map (atLag a row)

theorem endLag_lags (a e : Int) (sr : Rat) (hsr : 0 < sr) (h : a ≤ e) : (lagsFromTo a e sr).endLag = (e : Rat) / sr := by
  unfold lagsFromTo
  rw [endLag_grid sr hsr a _ (by omega), show a + ((e + 1 - a).toNat : Int) - 1 = e by omega]

theorem trim_lags (a e lo hi : Int) (sr : Rat) (hsr : 0 < sr) (rows : List (List ℝ)) (hr : ∀ row ∈ rows, row.length = (e + 1 - a).toNat)
    (hne : rows ≠ []) (h1 : a ≤ lo) (h2 : lo ≤ hi) (h3 : hi ≤ e) :
    corrMatTrim rows (lagsFromTo a e sr) ((lo : Rat) / sr) ((hi : Rat) / sr) = (rows.map (rowAt a lo hi), lagsFromTo lo hi sr) :=
  trim_grid sr hsr a lo hi _ rows hr hne h1 h2 (by omega)

theorem min_lags (a e : Int) (sr : Rat) (hsr : 0 < sr) (h : a ≤ e) :
    min (-(lagsFromTo a e sr).startLag) (lagsFromTo a e sr).endLag = ((min (-a) e : Int) : Rat) / sr := by
  rw [endLag_lags a e sr hsr h]
  unfold lagsFromTo
  simp only
  rw [show -((a : Rat) / sr) = ((-a : Int) : Rat) / sr by push_cast; ring]
  rcases le_total (-a) e with h' | h'
  · rw [min_eq_left h', min_eq_left]
    exact div_le_div_of_nonneg_right (by exact_mod_cast h') hsr.le
  · rw [min_eq_right h', min_eq_right]
    exact div_le_div_of_nonneg_right (by exact_mod_cast h') hsr.le

theorem stretchTrim_both (a e : Int) (sr : Rat) (hsr : 0 < sr) (rows : List (List ℝ)) (hr : ∀ row ∈ rows, row.length = (e + 1 - a).toNat)
    (hne : rows ≠ []) (ha : a ≤ 0) (he : 0 ≤ e) (sides : Str) (hs : sides ≠ c!"single") :
    stretchTrim rows (lagsFromTo a e sr) sides = (rows.map (rowAt a (-(min (-a) e)) (min (-a) e)), lagsFromTo (-(min (-a) e)) (min (-a) e) sr) := by
  unfold stretchTrim
  rw [if_neg hs, min_lags a e sr hsr (by omega), show -(((min (-a) e : Int) : Rat) / sr) = ((-(min (-a) e) : Int) : Rat) / sr by push_cast; ring]
  exact trim_lags a e _ _ sr hsr rows hr hne (by omega) (by omega) (by omega)

theorem stretchTrim_single (a e : Int) (sr : Rat) (hsr : 0 < sr) (rows : List (List ℝ)) (hr : ∀ row ∈ rows, row.length = (e + 1 - a).toNat)
    (hne : rows ≠ []) (ha : a ≤ 0) (he : 0 ≤ e) :
    stretchTrim rows (lagsFromTo a e sr) c!"single" = (rows.map (rowAt a 0 e), lagsFromTo 0 e sr) := by
  unfold stretchTrim
  rw [if_pos rfl, endLag_lags a e sr hsr (by omega)]
  have := trim_lags a e 0 e sr hsr rows hr hne ha he (le_refl _)
  simpa using this

theorem rowAt_self (a e : Int) (row : List ℝ) (hr : row.length = (e + 1 - a).toNat) (h : a ≤ e) : rowAt a a e row = row := by
  unfold rowAt
  rw [← slice_atLag a a e (e + 1 - a).toNat row hr (le_refl _) h (by omega)]
  unfold pySlice
  have e1 : sliceBound row.length (a - a) = 0 := by unfold sliceBound; simp
  have e2 : sliceBound row.length (e - a + 1) = row.length := by
    unfold sliceBound; rw [if_neg (by omega)]; simp; omega
  simp only [e1, e2]
  simp

/-- **C113 (measuring stretches, symmetric lags).** If the lags of the bulk go from `-e` to `e` and both sides or the left
or right side are used, the measurement compares the complete correlations and leaves data and header as they are, so that
a second measurement compares the same. Missing: `single` and other lags, see `c113_single_violated` and
`c113_asymmetric_violated`. -/
theorem c113_symmetric_partial (e : Int) (he : 0 ≤ e) (sr : Rat) (hsr : 0 < sr) (rows : List (List ℝ)) (hr : ∀ row ∈ rows, row.length = (e + 1 - -e).toNat)
    (hne : rows ≠ []) (sides : Str) (hs : sides ≠ c!"single") :
    stretchTrim rows (lagsFromTo (-e) e sr) sides = (rows, lagsFromTo (-e) e sr) := by
  rw [stretchTrim_both (-e) e sr hsr rows hr hne (by omega) he sides hs, show min (- -e) e = e by omega]
  congr 1
  conv => rhs; rw [← List.map_id rows]
  exact List.map_congr_left fun row h => rowAt_self (-e) e row (hr row h) (by omega)

example : (0 : Int) ≤ 2 ∧ ∀ row ∈ [[(1 : ℝ), 2, 3, 4, 5]], row.length = ((2 : Int) + 1 - -2).toNat := by simp

/-- **C113 does not hold for `single`.** For lags from `-e` to `e`, a measurement with `sides='single'` compares lags from 0
to `e`, as it should; but it leaves the bulk with a header that says that its data start at lag 0 and have `e + 1` columns,
while they have `2e + 1`. The same measurement once more compares the lags from `-e` to 0 instead. -/
theorem c113_single_violated (e : Int) (he : 0 < e) (sr : Rat) (hsr : 0 < sr) (rows : List (List ℝ)) (hr : ∀ row ∈ rows, row.length = (e + 1 - -e).toNat)
    (hne : rows ≠ []) :
    let first := stretchTrim rows (lagsFromTo (-e) e sr) c!"single"
    let second := stretchTrim rows first.2 c!"single"
    first.1 = rows.map (rowAt (-e) 0 e) ∧ first.2 = lagsFromTo 0 e sr ∧ ¬ Rect rows first.2 ∧
    second.1 = rows.map (rowAt (-e) (-e) 0) := by
  intro first second
  have h1 : first = (rows.map (rowAt (-e) 0 e), lagsFromTo 0 e sr) := stretchTrim_single (-e) e sr hsr rows hr hne (by omega) he.le
  have hs : second.1 = rows.map (rowAt (-e) (-e) 0) := by
    show (stretchTrim rows first.2 c!"single").1 = _
    rw [h1]
    simp only
    unfold stretchTrim
    rw [if_pos rfl, endLag_lags 0 e sr hsr he.le]
    unfold corrMatTrim lagsFromTo
    have f0 : ((0 - ((0 : Int) : Rat) / sr) * sr).floor = 0 := by
      rw [show (0 - ((0 : Int) : Rat) / sr) * sr = ((0 : Int) : Rat) by simp, Rat.floor_intCast]
    have fe : ((((e : Int) : Rat) / sr - ((0 : Int) : Rat) / sr) * sr).floor = e := by
      rw [show (((e : Int) : Rat) / sr - ((0 : Int) : Rat) / sr) * sr = ((e : Int) : Rat) by field_simp; simp, Rat.floor_intCast]
    simp only [f0, fe]
    rw [if_neg (by omega), if_neg (by omega)]
    refine List.map_congr_left fun row h => ?_
    have := slice_atLag (-e) (-e) 0 _ row (hr row h) (le_refl _) (by omega) (by omega)
    rw [show (-e - -e : Int) = 0 by omega, show (0 - -e + 1 : Int) = e + 1 by omega] at this
    exact this
  refine ⟨by rw [h1], by rw [h1], ?_, hs⟩
  rw [h1]
  intro hrect
  obtain ⟨row, h⟩ := List.exists_mem_of_ne_nil rows hne
  have g1 := hr row h
  have g2 := hrect row h
  simp only [lagsFromTo] at g2
  omega

/-- **C113 does not hold for other lags.** If there are more lags on the negative side, from `a` to `e` with `e < -a`, a
measurement with both sides compares the lags from `-e` to `e`, as it should, but leaves the bulk with a header that says that
its data have these lags; the same measurement once more compares the lags from `a` to `a + 2e`. -/
theorem c113_asymmetric_violated (a e : Int) (he : 0 ≤ e) (ha : e < -a) (sr : Rat) (hsr : 0 < sr) (rows : List (List ℝ))
    (hr : ∀ row ∈ rows, row.length = (e + 1 - a).toNat) (hne : rows ≠ []) :
    let first := stretchTrim rows (lagsFromTo a e sr) c!"both"
    let second := stretchTrim rows first.2 c!"both"
    first.1 = rows.map (rowAt a (-e) e) ∧ first.2 = lagsFromTo (-e) e sr ∧ ¬ Rect rows first.2 ∧
    second.1 = rows.map (rowAt a a (a + 2 * e)) := by
  intro first second
  have h1 : first = (rows.map (rowAt a (-e) e), lagsFromTo (-e) e sr) := by
    have := stretchTrim_both a e sr hsr rows hr hne (by omega) he c!"both" (by decide)
    rw [show min (-a) e = e by omega] at this
    exact this
  have hs : second.1 = rows.map (rowAt a a (a + 2 * e)) := by
    show (stretchTrim rows first.2 c!"both").1 = _
    rw [h1]
    simp only
    unfold stretchTrim
    rw [if_neg (by decide), min_lags (-e) e sr hsr (by omega), show min (- -e) e = e by omega]
    unfold corrMatTrim lagsFromTo
    have f0 : ((-((e : Rat) / sr) - ((-e : Int) : Rat) / sr) * sr).floor = 0 := by
      rw [show (-((e : Rat) / sr) - ((-e : Int) : Rat) / sr) * sr = ((0 : Int) : Rat) by push_cast; ring, Rat.floor_intCast]
    have fe : (((e : Rat) / sr - ((-e : Int) : Rat) / sr) * sr).floor = 2 * e := by
      rw [show ((e : Rat) / sr - ((-e : Int) : Rat) / sr) * sr = ((2 * e : Int) : Rat) by push_cast; field_simp; ring, Rat.floor_intCast]
    simp only [f0, fe]
    rw [if_neg (by omega), if_neg (by omega)]
    refine List.map_congr_left fun row h => ?_
    have := slice_atLag a a (a + 2 * e) _ row (hr row h) (le_refl _) (by omega) (by omega)
    rw [show (a - a : Int) = 0 by omega, show (a + 2 * e - a + 1 : Int) = 2 * e + 1 by omega] at this
    exact this
  refine ⟨by rw [h1], by rw [h1], ?_, hs⟩
  rw [h1]
  intro hrect
  obtain ⟨row, h⟩ := List.exists_mem_of_ne_nil rows hne
  have g1 := hr row h
  have g2 := hrect row h
  simp only [lagsFromTo] at g2
  omega

example : (0 : Int) < 2 ∧ (2 : Int) < -(-4) ∧ ∀ row ∈ [[(1 : ℝ), 2, 3, 4, 5, 6, 7]], row.length = ((2 : Int) + 1 - -4).toNat := by simp

/-- **C113 does not hold for calls that fail.** `find_clock_shift` refuses `sides='left'`, but only after it changed the header of
the bulk. -/
theorem c113_refused_violated (a e : Int) (he : 0 ≤ e) (ha : e < -a) (sr : Rat) (hsr : 0 < sr) (rows : List (List ℝ))
    (hr : ∀ row ∈ rows, row.length = (e + 1 - a).toNat) (hne : rows ≠ []) :
    (shiftTrim rows (lagsFromTo a e sr) c!"left").1 = .error .valueError ∧
    (shiftTrim rows (lagsFromTo a e sr) c!"left").2 = lagsFromTo (-e) e sr ∧ lagsFromTo (-e) e sr ≠ lagsFromTo a e sr := by
  have := stretchTrim_both a e sr hsr rows hr hne (by omega) he c!"left" (by decide)
  rw [show min (-a) e = e by omega] at this
  unfold stretchTrim at this
  rw [if_neg (by decide)] at this
  refine ⟨?_, ?_, ?_⟩
  · unfold shiftTrim
    simp only
    rw [if_neg (by decide)]
  · unfold shiftTrim
    simp only
    rw [if_neg (by decide), this]
  · intro h
    have := congrArg LagStats.npts h
    simp only [lagsFromTo] at this
    omega

/-- **C113 (measuring clock shifts).** For the sides `single` and `right` the measurement compares the lags from 0 to `e`, for
`both` the largest symmetric range of lags. Missing: as for stretches, the header of the bulk becomes the one of this part, see
`c113_single_violated`, while its data stay as they are. -/
theorem c113_clock_shift_partial (a e : Int) (ha : a ≤ 0) (he : 0 ≤ e) (sr : Rat) (hsr : 0 < sr) (rows : List (List ℝ))
    (hr : ∀ row ∈ rows, row.length = (e + 1 - a).toNat) (hne : rows ≠ []) :
    (∀ sides, sides = c!"single" ∨ sides = c!"right" →
      shiftTrim rows (lagsFromTo a e sr) sides = (.ok (rows.map (rowAt a 0 e)), lagsFromTo 0 e sr)) ∧
    shiftTrim rows (lagsFromTo a e sr) c!"both" =
      (.ok (rows.map (rowAt a (-(min (-a) e)) (min (-a) e))), lagsFromTo (-(min (-a) e)) (min (-a) e) sr) := by
  constructor
  · intro sides hs
    have := stretchTrim_single a e sr hsr rows hr hne ha he
    unfold stretchTrim at this
    rw [if_pos rfl] at this
    unfold shiftTrim
    simp only
    rw [if_pos hs, this, if_pos (by tauto)]
  · have := stretchTrim_both a e sr hsr rows hr hne ha he c!"both" (by decide)
    unfold stretchTrim at this
    rw [if_neg (by decide)] at this
    unfold shiftTrim
    simp only
    rw [if_pos (.inl trivial), if_neg (by decide), this]

/-- **C113 (`measure_shift`)** copies the data and the header before it trims, so that data and header of the bulk stay as
they are (post_corr_process.py:1128-1129). -/
theorem c113_measure_shift (m : Mem α σ) (b : BulkRef) (hb : m.Valid b) (cs : List (Call α σ)) (hc : ∀ c ∈ cs, c.Shaped) :
    ((m.copy b).1.interleaved b (m.copy b).2 (cs.map fun c => (false, c))).1.val b = m.val b := by
  have h := (c112_copy m b hb (cs.map fun c => (false, c)) (by simpa using hc)).2.1
  have e : ∀ (cs : List (Call α σ)) (m : Mem α σ) (b d : BulkRef), (m.interleaved b d (cs.map fun c => (false, c))).2.1 = b := by
    intro cs
    induction cs with
    | nil => intros; rfl
    | cons c cs ih => intro m b d; exact ih _ _ _
  rw [e] at h
  refine h.trans ?_
  have : callsOn true (cs.map fun c => (false, c)) = [] := by
    unfold callsOn
    simp
  rw [this]
  rfl

end SeisMIC
