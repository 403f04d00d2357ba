import Verif.Grid.RowProps

/-!
# Writing what was read, and reading it again (C21)
-/

set_option autoImplicit false

namespace Verif

open OMap

/-! ### Specification: the content of a table in a file, whoever wrote it -/

/-- A cell element: covered or not, repeat count, value. -/
structure FileCell where
  covered : Bool := false
  repeated : Option Nat := none
  body : Option CellData := none

/-- A row element with the group and header tags before it. -/
structure FileRow where
  marks : List TEv := []
  tag : RowTag := {}
  cells : List FileCell := []

/-- A table element: columns with their groups and header, rows, closing tags of groups and header. -/
structure FileTable where
  cols : List TEv := []
  rows : List FileRow := []
  tail : List TEv := []

/-- Begin and end tags of row groups and header rows. -/
def TEv.isMark : TEv → Bool
  | .groupStart _ | .groupEnd | .headerStart | .headerEnd => true
  | _ => false

def FileCell.event (c : FileCell) : TEv := .cell c.covered c.repeated c.body

def FileRow.events (r : FileRow) : List TEv :=
  r.marks ++ .rowStart r.tag :: (r.cells.map FileCell.event ++ [.rowEnd])

def FileTable.events (t : FileTable) : List TEv := t.cols ++ (t.rows.flatMap FileRow.events ++ t.tail)

/-- The elements are where they belong, and no repeat count is 0. -/
structure FileTable.OK (t : FileTable) : Prop where
  cols : ∀ e ∈ t.cols, e.isCol = true
  colReps : ∀ c, TEv.column c ∈ t.cols → 1 ≤ c.repeated.getD 1
  marks : ∀ r ∈ t.rows, ∀ e ∈ r.marks, e.isMark = true
  rowReps : ∀ r ∈ t.rows, 1 ≤ r.tag.repeated.getD 1
  cellReps : ∀ r ∈ t.rows, ∀ c ∈ r.cells, 1 ≤ c.repeated.getD 1
  tail : ∀ e ∈ t.tail, e.isMark = true

/-- Rows with attributes and cells are not repeated. -/
def FileTable.StyledOnce (t : FileTable) (o : ReadOpts) : Prop :=
  ∀ r ∈ t.rows, (r.tag.style.isSome || r.tag.cellstyle.isSome || r.tag.visibility.isSome) = true →
    r.tag.repeated.getD 1 = 1 ∨ ∀ c ∈ r.cells, c.body.bind o.dec = none

/-! ### Reading the columns -/

/-- Headers before column `n`. -/
structure CInv (m : ColHeaders) (n : Nat) : Prop where
  wf : m.WF
  lt : ∀ p ∈ m, p.1 + p.2.span ≤ n

theorem cinv_nil (n : Nat) : CInv [] n := ⟨⟨sorted_nil, by simp, by simp⟩, by simp⟩

theorem CInv.mono {m : ColHeaders} {n n' : Nat} (h : CInv m n) (hn : n ≤ n') : CInv m n' :=
  ⟨h.wf, fun p hp => Nat.le_trans (h.lt p hp) hn⟩

theorem readCols_inv (o : ReadOpts) (evs : List TEv) (he : ∀ e ∈ evs, e.isCol = true)
    (hr : ∀ c, TEv.column c ∈ evs → 1 ≤ c.repeated.getD 1) :
    ∀ (st st' : RState), CInv st.sheet.colHeader st.col → readEvents o st evs = some st' →
      CInv st'.sheet.colHeader st'.col := by
  induction evs with
  | nil =>
    intro st st' hI h
    simp only [readEvents, Option.some.injEq] at h
    subst h; exact hI
  | cons e evs ih =>
    intro st st' hI h
    simp only [readEvents] at h
    split at h
    · rename_i st1 h1
      refine ih (fun x hx => he x (by simp [hx])) (fun x hx => hr x (by simp [hx])) st1 st' ?_ h
      have hec := he e (by simp)
      cases e with
      | colGroupStart d =>
        simp only [readStep, Option.some.injEq] at h1
        subst h1; exact hI
      | colGroupEnd =>
        simp only [readStep] at h1
        split at h1
        · simp only [Option.some.injEq] at h1
          subst h1; exact hI
        · split at h1
          · simp at h1
          · simp only [Option.some.injEq] at h1
            subst h1; exact hI
      | colHeaderStart =>
        simp only [readStep, Option.some.injEq] at h1
        subst h1; exact hI
      | colHeaderEnd =>
        simp only [readStep, Option.map_eq_some_iff] at h1
        obtain ⟨_, _, h1⟩ := h1
        subst h1; exact hI
      | column t =>
        have hrep := hr t (by simp)
        simp only [readStep, Option.some.injEq] at h1
        subst h1
        simp only [readColAttr]
        split
        · simp only
          have hlt : ∀ p ∈ st.sheet.colHeader, Key.lt p.1 st.col = true := by
            intro p hp
            have := hI.lt p hp
            have := hI.wf.2.1 p hp
            simp only [Key.lt, decide_eq_true_eq]
            omega
          rw [insert_gt hlt]
          refine ⟨⟨?_, ?_, ?_⟩, ?_⟩
          · rw [← insert_gt hlt]; exact hI.wf.1.insert _ _
          · intro p hp
            rcases List.mem_append.mp hp with x | x
            · exact hI.wf.2.1 p x
            · simp only [List.mem_singleton] at x
              subst x; exact hrep
          · rw [List.pairwise_append]
            refine ⟨hI.wf.2.2, by simp, ?_⟩
            intro p hp q hq
            simp only [List.mem_singleton] at hq
            subst hq
            exact hI.lt p hp
          · intro p hp
            rcases List.mem_append.mp hp with x | x
            · have := hI.lt p x; omega
            · simp only [List.mem_singleton] at x
              subst x; exact Nat.le_refl _
        · exact hI.mono (by simp only; omega)
      | _ => simp [TEv.isCol] at hec
    · simp at h

/-! ### Reading the rows -/

/-- Cells and headers at a row boundary. -/
structure RInv (k : Core) : Prop where
  hdr : HInv k.rowHeader k.row
  flag : k.colData = false
  data : Sorted k.data
  reps : ∀ q ∈ k.data, 1 ≤ q.2.repeat
  rows : ∀ q ∈ k.data, ∃ h, get? k.rowHeader q.1.1 = some h ∧ h.span = 1 ∧ q.1.1 + h.repeat ≤ k.row
    ∧ ∀ j x, get? k.rowHeader j = some x → q.1.1 < j → q.1.1 + h.repeat ≤ j

theorem coreMarks (o : ReadOpts) (cols : ColHeaders) (evs : List TEv) (he : ∀ e ∈ evs, e.isMark = true) (k : Core) :
    coreEvents o cols k evs = some k := by
  induction evs with
  | nil => rfl
  | cons e evs ih =>
    have hm := he e (by simp)
    have : coreStep o cols k e = some k := by
      cases e <;> first | rfl | (simp [TEv.isMark] at hm)
    rw [coreEvents, this]
    exact ih (fun x hx => he x (by simp [hx]))

/-- The cells of a row: everything stored is stored in this row, and the flag says whether. -/
theorem coreCells (o : ReadOpts) (cols : ColHeaders) (cs : List FileCell) (hc : ∀ c ∈ cs, 1 ≤ c.repeated.getD 1) :
    ∀ (k k' : Core), Sorted k.data → (∀ q ∈ k.data, 1 ≤ q.2.repeat) →
    coreEvents o cols k (cs.map FileCell.event) = some k' →
    k'.row = k.row ∧ k'.rowRepeat = k.rowRepeat ∧ k'.rowHeader = k.rowHeader
    ∧ Sorted k'.data ∧ (∀ q ∈ k'.data, 1 ≤ q.2.repeat)
    ∧ (∀ q ∈ k'.data, q ∈ k.data ∨ (q.1.1 = k.row ∧ k'.colData = true))
    ∧ (k'.colData = true → k.colData = true ∨ ∃ c ∈ cs, ∃ d x n, c.body = some d ∧ o.dec d = some x
        ∧ ignoreCell o (cols.colCellstyle n) x = false)
    ∧ (k.colData = true → k'.colData = true) := by
  induction cs with
  | nil =>
    intro k k' hs hr h
    simp only [List.map_nil, coreEvents, Option.some.injEq] at h
    subst h
    exact ⟨rfl, rfl, rfl, hs, hr, fun q hq => Or.inl hq, fun h => Or.inl h, id⟩
  | cons c cs ih =>
    intro k k' hs hr h
    have hrep := hc c (by simp)
    rw [List.map_cons, coreEvents] at h
    simp only [FileCell.event, coreStep] at h
    have hcell : ∀ p, readCell o cols k.data k.row k.col (c.repeated.getD 1) c.body = p →
        (p = (k.data, false)) ∨ ∃ d x, c.body = some d ∧ o.dec d = some x
          ∧ ignoreCell o (cols.colCellstyle k.col) x = false
          ∧ p = (OMap.insert k.data (k.row, k.col) { x with «repeat» := c.repeated.getD 1 }, true) := by
      intro p hp
      subst hp
      unfold readCell
      split
      · exact Or.inl rfl
      · rename_i d hd
        rw [Option.bind_eq_some_iff] at hd
        obtain ⟨d0, e1, e2⟩ := hd
        split
        · exact Or.inl rfl
        · rename_i hi
          exact Or.inr ⟨d0, d, e1, e2, by simpa using hi, rfl⟩
    rcases hcell _ rfl with e | ⟨d, x, e1, e2, e3, e⟩
    · rw [e] at h
      simp only [Bool.or_false] at h
      obtain ⟨i1, i2, i3, i4, i5, i6, i7, i8⟩ := ih (fun y hy => hc y (by simp [hy]))
        { k with col := k.col + c.repeated.getD 1 } k' hs hr h
      refine ⟨i1, i2, i3, i4, i5, i6, ?_, i8⟩
      intro hk
      rcases i7 hk with y | ⟨c', y, z⟩
      · exact Or.inl y
      · exact Or.inr ⟨c', by simp [y], z⟩
    · rw [e] at h
      simp only [Bool.or_true] at h
      obtain ⟨i1, i2, i3, i4, i5, i6, i7, i8⟩ := ih (fun y hy => hc y (by simp [hy]))
        { k with data := OMap.insert k.data (k.row, k.col) { x with «repeat» := c.repeated.getD 1 }
                 col := k.col + c.repeated.getD 1, colData := true } k' (hs.insert _ _)
        (by
          intro q hq
          have hg := (get?_eq_some_iff (hs.insert _ _)).mpr hq
          rw [get?_insert] at hg
          split at hg
          · simp only [Option.some.injEq] at hg
            rw [← hg]; exact hrep
          · exact hr _ (mem_of_get?_eq_some hg)) h
      refine ⟨i1, i2, i3, i4, i5, ?_, ?_, fun _ => i8 rfl⟩
      · intro q hq
        rcases i6 q hq with y | y
        · have hg := (get?_eq_some_iff (hs.insert (k.row, k.col) _)).mpr y
          rw [get?_insert] at hg
          split at hg
          · rename_i eq
            right
            rw [eq]
            exact ⟨rfl, i8 rfl⟩
          · exact Or.inl (mem_of_get?_eq_some hg)
        · exact Or.inr y
      · intro _
        exact Or.inr ⟨c, by simp, d, x, k.col, e1, e2, e3⟩

/-- A row element. -/
theorem coreRow (o : ReadOpts) (cols : ColHeaders) (r : FileRow) (hm : ∀ e ∈ r.marks, e.isMark = true)
    (hr : 1 ≤ r.tag.repeated.getD 1) (hc : ∀ c ∈ r.cells, 1 ≤ c.repeated.getD 1)
    (hs : r.tag.styled = true → r.tag.repeated.getD 1 = 1 ∨ ∀ c ∈ r.cells, c.body.bind o.dec = none)
    (k k' : Core) (hI : RInv k) (h : coreEvents o cols k r.events = some k') : RInv k' := by
  unfold FileRow.events at h
  rw [coreEvents_append, coreMarks o cols _ hm, Option.bind_some, coreEvents] at h
  simp only [coreStep] at h
  rw [coreEvents_append] at h
  cases h1 : coreEvents o cols { k with col := 0, rowRepeat := (readRowAttr k.rowHeader k.row r.tag).2
                                        rowHeader := (readRowAttr k.rowHeader k.row r.tag).1 }
      (r.cells.map FileCell.event) with
  | none => rw [h1] at h; cases h
  | some k1 =>
    rw [h1, Option.bind_some] at h
    obtain ⟨i1, i2, i3, i4, i5, i6, i7, _⟩ := coreCells o cols r.cells hc
      { k with col := 0, rowRepeat := (readRowAttr k.rowHeader k.row r.tag).2
               rowHeader := (readRowAttr k.rowHeader k.row r.tag).1 } k1 hI.data hI.reps h1
    simp only at i1 i2 i3 i6 i7
    have hrr : (readRowAttr k.rowHeader k.row r.tag).2 = r.tag.repeated.getD 1 := by
      unfold readRowAttr
      simp only
      split <;> rfl
    rw [hrr] at i2
    have i7 : k1.colData = true → ∃ c ∈ r.cells, ∃ d x n, c.body = some d ∧ o.dec d = some x
        ∧ ignoreCell o (cols.colCellstyle n) x = false := by
      intro hk
      rcases i7 hk with y | y
      · rw [hI.flag] at y; cases y
      · exact y
    simp only [coreEvents, coreStep] at h
    -- the row as a tile
    have htile : ∃ t : Tile, t.row = k.row ∧ t.rep = r.tag.repeated.getD 1 ∧ t.tag = r.tag
        ∧ t.has o cols = k1.colData := by
      cases hk : k1.colData with
      | false => exact ⟨{ row := k.row, rep := _, tag := r.tag, plan := [] }, rfl, rfl, rfl, rfl⟩
      | true =>
        obtain ⟨c, _, d, x, n, e1, e2, e3⟩ := i7 hk
        refine ⟨{ row := k.row, rep := _, tag := r.tag, plan := [((n, d), [(n, 1)])] }, rfl, rfl, rfl, ?_⟩
        simp [Tile.has, rawRow, rawRun, e2, e3]
    obtain ⟨t, t1, t2, t3, t4⟩ := htile
    cases h2 : hdrTile o cols k.rowHeader t with
    | none =>
      exfalso
      unfold hdrTile at h2
      rw [t4, t1, t2, t3] at h2
      simp only at h2
      rw [i1, i2, i3] at h
      cases hk : k1.colData with
      | false => rw [hk] at h2; cases h2
      | true =>
        rw [hk] at h h2
        simp only [if_true] at h h2
        rw [h2] at h
        cases h
    | some m' =>
      have hh := h2
      unfold hdrTile at hh
      rw [t4, t1, t2, t3] at hh
      simp only at hh
      rw [i1, i2, i3, hh] at h
      simp only [Option.map_some, Option.some.injEq] at h
      obtain ⟨g1, g2⟩ := hdrTile_spec o cols k.rowHeader m' t (by rw [t1]; exact hI.hdr)
        (by rw [t2, t3]) (by omega) h2
      rw [t4] at g2
      rw [t1, t2] at g1
      subst h
      refine ⟨g1, rfl, i4, i5, ?_⟩
      intro q hq
      simp only at hq ⊢
      rcases i6 q hq with y | ⟨y, hflag⟩
      · obtain ⟨x, x1, x2, x3, x4⟩ := hI.rows q y
        have hxr := hI.hdr.rep x1
        refine ⟨x, ?_, x2, by omega, ?_⟩
        · rw [g2]
          unfold hdrAfter
          rw [t1, if_neg (by omega), if_neg (by omega)]
          exact x1
        · intro j z hj hlt
          rw [g2] at hj
          unfold hdrAfter at hj
          rw [t1] at hj
          by_cases e1 : j = k.row
          · omega
          · rw [if_neg e1] at hj
            by_cases e2 : j = k.row + 1
            · omega
            · rw [if_neg (fun w => e2 w.1)] at hj
              exact x4 j z hj hlt
      · rw [hflag] at g2
        rw [y]
        refine ⟨{ (if t.tag.styled then t.tag.hdr else {}) with «repeat» := t.rep }, ?_, ?_, ?_, ?_⟩
        · rw [g2]
          unfold hdrAfter
          rw [t1, if_pos rfl, if_pos rfl]
        · simp only
          split <;> rfl
        · simp only [t2]; exact Nat.le_refl _
        · intro j z hj hlt
          simp only [t2]
          rw [g2] at hj
          unfold hdrAfter at hj
          rw [t1, if_neg (by omega)] at hj
          by_cases e2 : j = k.row + 1 ∧ true = true ∧ t.tag.styled = true
          · obtain ⟨c, hcm, d, x, n, w1, w2, _⟩ := i7 hflag
            rcases hs (by rw [← t3]; exact e2.2.2) with w | w
            · omega
            · have := w c hcm
              rw [w1, Option.bind_some, w2] at this
              cases this
          · rw [if_neg e2] at hj
            have := hI.hdr.le hj
            omega

theorem coreRows (o : ReadOpts) (cols : ColHeaders) (rows : List FileRow)
    (hm : ∀ r ∈ rows, ∀ e ∈ r.marks, e.isMark = true)
    (hr : ∀ r ∈ rows, 1 ≤ r.tag.repeated.getD 1) (hc : ∀ r ∈ rows, ∀ c ∈ r.cells, 1 ≤ c.repeated.getD 1)
    (hs : ∀ r ∈ rows, r.tag.styled = true → r.tag.repeated.getD 1 = 1 ∨ ∀ c ∈ r.cells, c.body.bind o.dec = none) :
    ∀ (k k' : Core), RInv k → coreEvents o cols k (rows.flatMap FileRow.events) = some k' → RInv k' := by
  induction rows with
  | nil =>
    intro k k' hI h
    simp only [List.flatMap_nil, coreEvents, Option.some.injEq] at h
    subst h; exact hI
  | cons r rows ih =>
    intro k k' hI h
    rw [List.flatMap_cons, coreEvents_append] at h
    cases h1 : coreEvents o cols k r.events with
    | none => rw [h1] at h; cases h
    | some k1 =>
      rw [h1, Option.bind_some] at h
      have := coreRow o cols r (hm r (by simp)) (hr r (by simp)) (hc r (by simp)) (hs r (by simp)) k k1 hI h1
      exact ih (fun x hx => hm x (by simp [hx])) (fun x hx => hr x (by simp [hx]))
        (fun x hx => hc x (by simp [hx])) (fun x hx => hs x (by simp [hx])) k1 k' this h

/-! ### The sheet after the repeats have been expanded -/

/-- Clamping changes repeat counts to 1, and nothing else. -/
theorem clampLast_mem (m : RowHeaders) (k : Nat) (x : RowHeader) (h : (k, x) ∈ clampLast m) :
    ∃ y, (k, y) ∈ m ∧ x.span = y.span ∧ (x.repeat = y.repeat ∨ x.repeat = 1) := by
  unfold clampLast at h
  rcases List.mem_append.mp h with h | h
  · exact ⟨x, List.mem_of_mem_take h, rfl, Or.inl rfl⟩
  · obtain ⟨⟨j, y⟩, hp, e⟩ := List.mem_map.mp h
    have hp := List.mem_of_mem_drop hp
    split at e
    · simp only [Prod.mk.injEq] at e
      obtain ⟨rfl, rfl⟩ := e
      exact ⟨y, hp, rfl, Or.inr rfl⟩
    · simp only [Prod.mk.injEq] at e
      obtain ⟨rfl, rfl⟩ := e
      exact ⟨y, hp, rfl, Or.inl rfl⟩

theorem mem_clampLast (m : RowHeaders) (k : Nat) (y : RowHeader) (h : (k, y) ∈ m) :
    ∃ x, (k, x) ∈ clampLast m := by
  unfold clampLast
  rw [← List.take_append_drop (m.length - 5) m] at h
  rcases List.mem_append.mp h with h | h
  · exact ⟨y, List.mem_append.mpr (Or.inl h)⟩
  · by_cases hy : 1000 < y.repeat
    · exact ⟨{ y with «repeat» := 1 }, List.mem_append.mpr (Or.inr (List.mem_map.mpr ⟨(k, y), h, by rw [if_pos hy]⟩))⟩
    · exact ⟨y, List.mem_append.mpr (Or.inr (List.mem_map.mpr ⟨(k, y), h, by rw [if_neg hy]⟩))⟩

theorem mem_insertAll (l : List ((Nat × Nat) × CellData)) : ∀ (m : Cells), Sorted m → ∀ q ∈ insertAll m l, q ∈ m ∨ q ∈ l := by
  unfold insertAll
  induction l with
  | nil => intro m _ q hq; exact Or.inl hq
  | cons p l ih =>
    intro m hm q hq
    rcases ih _ (hm.insert p.1 p.2) q hq with h | h
    · have hg := (get?_eq_some_iff (hm.insert p.1 p.2)).mpr h
      rw [get?_insert] at hg
      split at hg
      · rename_i e
        simp only [Option.some.injEq] at hg
        right
        have : q = p := Prod.ext e hg.symm
        rw [this]; simp
      · exact Or.inl (mem_of_get?_eq_some hg)
    · exact Or.inr (by simp [h])

/-- Each cell of the expanded sheet is in a copy of a row, and has no repeat count of its own any more. -/
theorem cloned_mem (s : TSheet) (hs : Sorted s.data) (hr : ∀ q ∈ s.data, 1 ≤ q.2.repeat) (hh : Sorted s.rowHeader) :
    Sorted (calcCloned s).data ∧ ∀ q ∈ (calcCloned s).data, q.2.repeat = 1 ∧ ∃ r0 c0 d, ((r0, c0), d) ∈ s.data
      ∧ r0 ≤ q.1.1 ∧ (q.1.1 = r0 ∨ q.1.1 < r0 + hdrRep (clampLast s.rowHeader) r0) := by
  have hcs := clampLast_sorted s.rowHeader hh
  have hd1s : Sorted (insertAll s.data (rowClones (clampLast s.rowHeader) s.data)) := insertAll_sorted _ _ hs
  -- after the rows
  have hd1 : ∀ q ∈ insertAll s.data (rowClones (clampLast s.rowHeader) s.data), 1 ≤ q.2.repeat ∧
      ∃ r0 c0 d, ((r0, c0), d) ∈ s.data
        ∧ r0 ≤ q.1.1 ∧ (q.1.1 = r0 ∨ q.1.1 < r0 + hdrRep (clampLast s.rowHeader) r0) := by
    rintro ⟨⟨r, c⟩, v⟩ hq
    rcases mem_insertAll _ _ hs _ hq with h | h
    · exact ⟨hr _ h, r, c, v, h, Nat.le_refl _, Or.inl rfl⟩
    · obtain ⟨r0, g1, g2, g3⟩ := (mem_rowClones _ hcs _ _ _ _).mp h
      have hv := hr _ g1
      exact ⟨hv, r0, c, v, g1, by simp only; omega, Or.inr g3⟩
  have hd2s := eraseAll_sorted (droppedCells (insertAll s.data (rowClones (clampLast s.rowHeader) s.data))) _
    (map_sorted unrepeat _ hd1s)
  refine ⟨insertAll_sorted _ _ hd2s, ?_⟩
  rintro ⟨⟨r, c⟩, v⟩ hq
  rcases mem_insertAll _ _ hd2s _ hq with h | h
  · have hg := (get?_eq_some_iff hd2s).mpr h
    rw [eraseAll_get? _ _ (map_sorted unrepeat _ hd1s)] at hg
    split at hg
    · cases hg
    · rw [map_get?, Option.map_eq_some_iff] at hg
      obtain ⟨d, e1, e2⟩ := hg
      obtain ⟨w1, w2⟩ := hd1 _ (mem_of_get?_eq_some e1)
      refine ⟨?_, w2⟩
      rw [← e2, unrepeat_eq d w1]
  · obtain ⟨c0, d, g1, g2, g3, _, g5⟩ := (mem_cellClones _ hd1s _ _ _).mp h
    obtain ⟨_, w2⟩ := hd1 _ g1
    exact ⟨by rw [g5], w2⟩

theorem deduped_noGap (m : ColHeaders) (h : ColHeaders.Deduped m) : m.NoGap := by
  induction m with
  | nil => exact trivial
  | cons p m ih =>
    cases m with
    | nil => exact trivial
    | cons q m =>
      refine ⟨?_, ih h.2⟩
      intro e
      exact absurd ((ColHeader.limitedEq_iff _ _).mp e) h.1

/-- What reading gives, for the table of any file. -/
theorem read_file (t : FileTable) (ht : t.OK) (o : ReadOpts) (hst : t.StyledOnce o) (ho : o.useRepeat = false)
    (s : TSheet) (hr : readTable o t.events = some s) :
    Sorted s.data ∧ (∀ q ∈ s.data, q.2.repeat = 1) ∧ (∀ q ∈ s.data, RowOK s q.1.1)
    ∧ (∀ q ∈ s.data, s.repeatOf q.1.1 = 1) ∧ s.colHeader.WF ∧ s.colHeader.NoGap := by
  unfold readTable at hr
  split at hr
  · split at hr
    · rename_i st hev
      simp only [Option.some.injEq, ho, Bool.false_eq_true, if_false] at hr
      unfold FileTable.events at hev
      rw [readEvents_append] at hev
      cases hc : readEvents o {} t.cols with
      | none => rw [hc] at hev; cases hev
      | some st1 =>
        rw [hc, Option.bind_some] at hev
        obtain ⟨a1, _, a3, a4, a5, _⟩ := readEvents_cols o t.cols ht.cols {} st1 hc
        have hci := readCols_inv o t.cols ht.cols ht.colReps {} st1 (cinv_nil 0) hc
        have hnc : ∀ e ∈ t.rows.flatMap FileRow.events ++ t.tail, e.isCol = false := by
          have hmark : ∀ e : TEv, e.isMark = true → e.isCol = false := by
            intro e he
            cases e <;> first | rfl | (simp [TEv.isMark] at he)
          intro e he
          rcases List.mem_append.mp he with x | x
          · obtain ⟨r, hr, x⟩ := List.mem_flatMap.mp x
            unfold FileRow.events at x
            rcases List.mem_append.mp x with x | x
            · exact hmark e (ht.marks r hr e x)
            · rcases List.mem_cons.mp x with x | x
              · subst x; rfl
              · rcases List.mem_append.mp x with x | x
                · obtain ⟨c, _, x⟩ := List.mem_map.mp x
                  subst x; rfl
                · simp only [List.mem_singleton] at x
                  subst x; rfl
          · exact hmark e (ht.tail e x)
        obtain ⟨b1, b2, _, _⟩ := readEvents_core o _ hnc st1 st hev
        rw [coreEvents_append] at b1
        have hI0 : RInv st1.core := by
          refine ⟨?_, a3, ?_, ?_, ?_⟩
          · show HInv st1.sheet.rowHeader st1.row
            rw [a5]; exact hinv_nil _
          · show Sorted st1.sheet.data
            rw [a4]; exact sorted_nil
          · show ∀ q ∈ st1.sheet.data, _
            rw [a4]; intro q hq; cases hq
          · show ∀ q ∈ st1.sheet.data, _
            rw [a4]; intro q hq; cases hq
        cases hk : coreEvents o st1.sheet.colHeader st1.core (t.rows.flatMap FileRow.events) with
        | none => rw [hk] at b1; cases b1
        | some k1 =>
          rw [hk, Option.bind_some, coreMarks o _ _ ht.tail, Option.some.injEq] at b1
          have hI := coreRows o _ t.rows ht.marks ht.rowReps ht.cellReps hst st1.core k1 hI0 hk
          rw [b1] at hI
          obtain ⟨h1, h2, h3, h4, h5⟩ := hI
          have h1 : HInv st.sheet.rowHeader st.row := h1
          have h3 : Sorted st.sheet.data := h3
          have h4 : ∀ q ∈ st.sheet.data, 1 ≤ q.2.repeat := h4
          have h5 : ∀ q ∈ st.sheet.data, ∃ h, get? st.sheet.rowHeader q.1.1 = some h ∧ h.span = 1
            ∧ q.1.1 + h.repeat ≤ st.row
            ∧ ∀ j x, get? st.sheet.rowHeader j = some x → q.1.1 < j → q.1.1 + h.repeat ≤ j := h5
          obtain ⟨d1, d2⟩ := cloned_mem { st.sheet with colHeader := st.sheet.colHeader.dedup } h3 h4 h1.sorted
          have hcs := clampLast_sorted st.sheet.rowHeader h1.sorted
          have hrows : ∀ q ∈ s.data, rowRepeatOf s q.1.1 = 1 ∧ s.rowHeader.rowRepeat q.1.1 = 1 := by
            intro q hq
            rw [← hr] at hq
            obtain ⟨_, r0, c0, d, g1, g2, g3⟩ := d2 q hq
            have hrh : s.rowHeader = swapAll (clampLast st.sheet.rowHeader) := by rw [← hr]; rfl
            obtain ⟨y, y1, y2, y3, y4⟩ := h5 _ g1
            obtain ⟨x, hx⟩ := mem_clampLast _ _ _ (mem_of_get?_eq_some y1)
            have hxg := (get?_eq_some_iff hcs).mpr hx
            obtain ⟨y', z1, z2, z3⟩ := clampLast_mem _ _ _ hx
            have : y' = y := by
              have := (get?_eq_some_iff h1.sorted).mpr z1
              rw [y1, Option.some.injEq] at this
              exact this.symm
            subst this
            have hyr := h1.rep y1
            simp only at y4
            have hkeys : ∀ j, r0 < j → j ≤ q.1.1 → get? (swapAll (clampLast st.sheet.rowHeader)) j = none := by
              intro j hj1 hj2
              rw [swapAll_get?]
              cases hg : get? (clampLast st.sheet.rowHeader) j with
              | none => rfl
              | some w =>
                exfalso
                obtain ⟨w', w1, _, _⟩ := clampLast_mem _ _ _ (mem_of_get?_eq_some hg)
                have := y4 j w' ((get?_eq_some_iff h1.sorted).mpr w1) hj1
                rcases g3 with g3 | g3
                · omega
                · unfold hdrRep at g3
                  rw [hxg] at g3
                  simp only at g3
                  omega
            have hr0 : get? (swapAll (clampLast st.sheet.rowHeader)) r0 = some (swapHdr x) := by
              rw [swapAll_get?, hxg]; rfl
            have hrep1 : (swapHdr x).repeat = 1 := by
              show x.span = 1
              omega
            have hsp : q.1.1 < r0 + (swapHdr x).span := by
              show _ < r0 + x.repeat
              rcases g3 with g3 | g3
              · omega
              · unfold hdrRep at g3
                rw [hxg] at g3
                exact g3
            rw [hrh]
            refine ⟨?_, ?_⟩
            · unfold rowRepeatOf
              rw [hrh]
              by_cases e : q.1.1 = r0
              · rw [e, hr0]; exact hrep1
              · rw [hkeys q.1.1 (by omega) (Nat.le_refl _)]
            · unfold RowHeaders.rowRepeat
              rw [(RowHeaders.valid_some (swapAll_sorted _ hcs)).mpr ⟨r0, hr0, g2, hsp, hkeys⟩]
              exact hrep1
          refine ⟨by rw [← hr]; exact d1, fun q hq => (d2 q (by rw [← hr] at hq; exact hq)).1, ?_, ?_, ?_, ?_⟩
          · intro q hq
            obtain ⟨e1, e2⟩ := hrows q hq
            unfold RowOK
            rw [e1, e2]; rfl
          · intro q hq
            obtain ⟨_, e2⟩ := hrows q hq
            unfold TSheet.repeatOf
            rw [e2]; rfl
          · rw [← hr]
            show (st.sheet.colHeader.dedup).WF
            rw [b2]
            exact ColHeaders.dedup_wf _ hci.wf
          · rw [← hr]
            show (st.sheet.colHeader.dedup).NoGap
            rw [b2]
            exact deduped_noGap _ (ColHeaders.dedup_deduped _ hci.wf.1)
    · cases hr
  · cases hr

/-- **C21 (partial).** The table of any file is read, written and read again. Then
1. every cell of the second reading was there in the first, at the same position;
2. every cell with content is there again, at the same position;
3. so is every cell without content, if empty cells are kept and its style is not the default cell style of its column.

`hdec`: what is read of a cell element is read in the same way once it is written again (C26 to C30 for the values).
Missing (`_partial`): files in which a row with a style, a default cell style or a visibility is repeated and has cells
(`StyledOnce`; the cells below such a row move, `C21_shift_counterexample`). That the second file can be written
and read is C13 and C15. -/
theorem C21_again_partial (t : FileTable) (ht : t.OK) (o : ReadOpts) (hst : t.StyledOnce o) (ho : o.useRepeat = false)
    (s s' : TSheet) (evs : List TEv) (hdec : ∀ q ∈ s.data, o.dec q.2 = some q.2) (h1 : readTable o t.events = some s)
    (h2 : writeSheet s = .ok evs) (h3 : readTable o evs = some s') :
    (∀ r c v, s'.data.get? (r, c) = some v → s.data.get? (r, c) = some v)
    ∧ (∀ r c v, s.data.get? (r, c) = some v → v.isEmpty = false → s'.data.get? (r, c) = some v)
    ∧ (∀ r c v, s.data.get? (r, c) = some v → o.ignoreEmpty = false → v.style.isSome →
        v.style ≠ s.colHeader.colCellstyle c → s'.data.get? (r, c) = some v) := by
  obtain ⟨g1, g2, g3, g4, g5, g6⟩ := read_file t ht o hst ho s h1
  obtain ⟨k1, k2, k3⟩ := C12_grid_partial s s' o evs g1 g3 (fun q hq => by rw [g2 q hq]; exact Nat.le_refl 1)
    (fun q hq => by rw [g4 q hq]; omega) g5 g6 ho h2 h3
  have hone : ∀ r c d, s.data.get? (r, c) = some d → d.repeat = 1 ∧ s.repeatOf r = 1 ∧ o.dec d = some d
      ∧ { d with «repeat» := 1 } = d := by
    intro r c d hg
    have hm := mem_of_get?_eq_some hg
    have e := g2 _ hm
    refine ⟨e, g4 _ hm, hdec _ hm, ?_⟩
    simp only at e
    cases d
    simp only at e
    rw [e]
  refine ⟨?_, ?_, ?_⟩
  · intro r c v hv
    obtain ⟨d, x, ⟨r0, c0, q1, q2, q3, q4, q5⟩, hx, e⟩ := k1 r c v hv
    obtain ⟨e1, e2, e3, e4⟩ := hone r0 c0 d q1
    rw [e3, Option.some.injEq] at hx
    subst hx
    rw [show r = r0 by omega, show c = c0 by omega, q1, e, e4]
  · intro r c v hv hne
    obtain ⟨e1, e2, e3, e4⟩ := hone r c v hv
    rw [k2 r c v v ⟨r, c, hv, by omega, by omega, by omega, by omega⟩ e3 hne, e4]
  · intro r c v hv hi hsome hne
    obtain ⟨e1, e2, e3, e4⟩ := hone r c v hv
    rw [k3 r r c v v hv (Nat.le_refl r) (by omega) e1 e3 hi hsome hne, e4]

/-! ### A file that meets the hypotheses -/

/-- A group with a styled column, a row repeated three times with a cell repeated twice, a styled row, hidden empty rows, a
group. -/
def someTable : FileTable :=
  { cols := [.colGroupStart none, .column { style := some "co" }, .colGroupEnd, .column { repeated := some 2 }]
    rows :=
      [{ tag := { repeated := some 3 }
         cells := [{ }, { repeated := some 2, body := some { value := .boolean true } }] },
       { marks := [.groupStart none], tag := { style := some "ro" }, cells := [{ body := some { value := .boolean false } }] },
       { marks := [.groupEnd], tag := { repeated := some 2, visibility := some .collapsed }, cells := [{ repeated := some 5 }] },
       { cells := [{ body := some { value := .boolean true } }, { body := some { style := some "x" } }] }] }

theorem someTable_ok : someTable.OK :=
  ⟨by decide, by
    intro c hc
    simp only [someTable, List.mem_cons, TEv.column.injEq, reduceCtorEq, false_or, List.not_mem_nil, or_false] at hc
    rcases hc with h | h <;> subst h <;> decide, by decide, by decide, by decide, by decide⟩

theorem someTable_once : someTable.StyledOnce {} := by
  unfold FileTable.StyledOnce
  decide

/-- The hypotheses of `C21_again_partial` are met. -/
example (s s' : TSheet) (evs : List TEv) (h1 : readTable {} someTable.events = some s) (h2 : writeSheet s = .ok evs)
    (h3 : readTable {} evs = some s') (r c : Nat) (v : CellData) (h : s'.data.get? (r, c) = some v) :
    s.data.get? (r, c) = some v :=
  (C21_again_partial someTable someTable_ok {} someTable_once rfl s s' evs (fun _ _ => rfl) h1 h2 h3).1 r c v h

/-- And the file is read, written and read again. -/
example : ((readTable {} someTable.events).bind rewrite).map (fun s => (s.data.get? (2, 2), s.data.get? (6, 1)))
    = some (some { value := .boolean true }, some { style := some "x" }) := by decide +kernel

end Verif
