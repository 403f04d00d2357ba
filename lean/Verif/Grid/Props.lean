import Verif.Grid.Grid
import Verif.Grid.Cols
import Verif.Header.Props
import Verif.Store.Props

/-!
# Properties of writing and reading the grid (C12 to C15, C20, C21, C23, C24)
-/

set_option autoImplicit false

namespace Verif

open OMap

/-- Reading what was written, down to the tiles. -/
theorem readTable_tiles (s s' : TSheet) (o : ReadOpts) (evs : List TEv) (hd : Sorted s.data)
    (hok : ∀ q ∈ s.data, RowOK s q.1.1) (hrep : ∀ q ∈ s.data, 1 ≤ q.2.repeat)
    (hcw : s.colHeader.WF) (hw : writeTable s = .ok evs) (hr : readTable o evs = some s') :
    (∀ p ∈ rowsOf s.data, NoOverlap p.2) ∧ ∃ (cols : ColHeaders) (tiles : List Tile) (b : Nat) (m : RowHeaders)
      (raw : TSheet), s' = (if o.useRepeat then calcRepeat raw else calcCloned raw)
      ∧ TileChain 0 tiles b ∧ (∀ t ∈ tiles, t.OK s) ∧ tileRows tiles = rowsOf s.data
      ∧ hdrTiles o cols [] tiles = some m ∧ raw.rowHeader = m ∧ raw.data = rawTiles o cols tiles
      ∧ Sorted raw.data ∧ raw.colHeader = cols.dedup
      ∧ (∀ t ∈ tiles, ∃ q ∈ s.data, t.row ≤ q.1.1)
      ∧ ∃ c, colCount s ≤ c ∧ ColLook s.colHeader c cols := by
  unfold writeTable at hw
  split at hw
  · simp at hw
  rename_i e1 h1
  split at hw
  · simp at hw
  rename_i e2 h2
  simp only [Except.ok.injEq] at hw
  subst hw
  unfold readTable at hr
  split at hr
  · split at hr
    · rename_i st hst
      simp only [Option.some.injEq] at hr
      rw [readEvents_append] at hst
      cases hc : readEvents o {} e1 with
      | none => rw [hc] at hst; simp at hst
      | some st1 =>
        rw [hc] at hst
        simp only [Option.bind_some] at hst
        obtain ⟨a1, a2, a3, a4, a5, _, _, _, _⟩ :=
          readEvents_cols o e1 (writeCols_isCol s _ _ 0 e1 h1) {} st1 hc
        obtain ⟨b1, b2, _, _⟩ := readEvents_core o e2 (writeLoop_notCol s _ _ _ _ h2) st1 st hst
        obtain ⟨_, c0, tiles, b, m, k', c1, c2, c3, c4, c5, c6, c7, c8, c9⟩ := core_sheet o
          st1.sheet.colHeader s hd hok hrep e2 h2 st1.core ⟨a1, a3, a2⟩ a4
        rw [b1] at c5
        simp only [Option.some.injEq] at c5
        subst c5
        have hrh : st1.core.rowHeader = [] := a5
        rw [hrh] at c4
        refine ⟨c0, st1.sheet.colHeader, tiles, b, m, _, hr.symm, c1, c2, c3, c4, c7, c8, ?_, ?_, ?_,
          colLook_cols hcw o e1 st1 h1 hc⟩
        · exact coreEvents_sorted o _ e2 st1.core st.core (by
            show Sorted st1.sheet.data
            rw [a4]; exact sorted_nil) b1
        · show st.sheet.colHeader.dedup = _
          rw [b2]
        · intro t ht
          obtain ⟨p, p1, p2⟩ := c9 t ht
          obtain ⟨x, hx⟩ := List.exists_mem_of_ne_nil _ ((rowsOf_sorted s.data hd).2 p p1).1
          exact ⟨_, rowsOf_mem_key (r := p.1) (cs := p.2) p1 hx, p2⟩
    · simp at hr
  · simp at hr

theorem mem_plan_of_stored {s : TSheet} (hd : Sorted s.data) {tiles : List Tile}
    (h : tileRows tiles = rowsOf s.data) {r c : Nat} {d : CellData}
    (hs : s.data.get? (r, c) = some d) :
    ∃ t ∈ tiles, t.row = r ∧ ∃ p ∈ t.plan, p.1 = (c, d) := by
  have hm := (get?_eq_some_iff hd).mp hs
  rw [← rowsOf_flatten s.data] at hm
  obtain ⟨⟨r', cs⟩, h1, h2⟩ := List.mem_flatMap.mp hm
  obtain ⟨q, h3, h4⟩ := List.mem_map.mp h2
  simp only [Prod.mk.injEq] at h4
  obtain ⟨⟨rfl, e2⟩, e3⟩ := h4
  rw [← h] at h1
  unfold tileRows at h1
  obtain ⟨t, t1, t2⟩ := List.mem_map.mp h1
  simp only [Prod.mk.injEq] at t2
  rw [← t2.2] at h3
  obtain ⟨p, p1, p2⟩ := List.mem_map.mp h3
  refine ⟨t, (List.mem_filter.mp t1).1, t2.1, p, p1, ?_⟩
  rw [p2]
  exact Prod.ext e2 e3

theorem ignoreCell_of_content {o : ReadOpts} {x : CellData} (h : x.isEmpty = false)
    (ds : Option String) : ignoreCell o ds x = false := by
  unfold ignoreCell
  rw [h]
  unfold CellData.isVoid
  unfold CellData.isEmpty at h
  generalize decide (x.value = .empty) = a at *
  generalize x.formula.isNone = b at *
  generalize x.isVoidExtra = c at *
  cases a <;> cases b <;> cases c <;> simp_all

theorem mem_plan_stored {s : TSheet} {tiles : List Tile}
    (h3 : tileRows tiles = rowsOf s.data) {t : Tile} (ht : t ∈ tiles)
    {p : (Nat × CellData) × List (Nat × Nat)} (hp : p ∈ t.plan) : ((t.row, p.1.1), p.1.2) ∈ s.data := by
  have hne : t.plan ≠ [] := by intro e; rw [e] at hp; simp at hp
  have hm : (t.row, t.plan.map (·.1)) ∈ rowsOf s.data := by
    rw [← h3]
    unfold tileRows
    exact List.mem_map.mpr ⟨t, List.mem_filter.mpr ⟨ht, by simpa using hne⟩, rfl⟩
  exact rowsOf_mem_key hm (List.mem_map.mpr ⟨p, hp, rfl⟩)

theorem repeatOf_eq {s : TSheet} {r : Nat} (h : RowOK s r) : s.repeatOf r = rowRepeatOf s r := by
  unfold TSheet.repeatOf
  exact h.symm

/-- C12 for a table written as it is. -/
theorem table_grid (s s' : TSheet) (o : ReadOpts) (evs : List TEv) (hd : Sorted s.data)
    (hok : ∀ q ∈ s.data, RowOK s q.1.1) (hrep : ∀ q ∈ s.data, 1 ≤ q.2.repeat)
    (hbig : ∀ q ∈ s.data, s.repeatOf q.1.1 ≤ 1000) (hcw : s.colHeader.WF) (ho : o.useRepeat = false)
    (hw : writeTable s = .ok evs) (hr : readTable o evs = some s') :
    (∀ r c v, s'.data.get? (r, c) = some v →
      ∃ d x, s.Shows r c d ∧ o.dec d = some x ∧ v = { x with «repeat» := 1 })
    ∧ (∀ r c d x, s.Shows r c d → o.dec d = some x → x.isEmpty = false →
      s'.data.get? (r, c) = some { x with «repeat» := 1 })
    ∧ (∀ r r0 c d x, s.data.get? (r0, c) = some d → r0 ≤ r → r < r0 + s.repeatOf r0 →
      d.repeat = 1 → o.dec d = some x →
      o.ignoreEmpty = false → x.style.isSome → x.style ≠ s.colHeader.colCellstyle c →
      s'.data.get? (r, c) = some { x with «repeat» := 1 }) := by
  obtain ⟨hno, cols, tiles, b, m, raw, e0, h1, h2, h3, h4, h5, h6, h7, _, _, cc, hcc, hlook⟩ :=
    readTable_tiles s s' o evs hd hok hrep hcw hw hr
  rw [ho] at e0
  simp only [Bool.false_eq_true, if_false] at e0
  subst e0
  have key := cloned_get? s o cols hok hrep (fun q hq => by
    rw [← repeatOf_eq (hok q hq)]; exact hbig q hq) tiles b m raw h1 h2 h3 h4 h5 h6 h7 hno
  have hrepT : ∀ t ∈ tiles, ∀ p ∈ t.plan, t.rep = s.repeatOf t.row := by
    intro t ht p hp
    have hne : t.plan ≠ [] := by intro e; rw [e] at hp; simp at hp
    rw [(h2 t ht).2.2.1 hne, repeatOf_eq (hok _ (mem_plan_stored h3 ht hp))]
  refine ⟨?_, ?_, ?_⟩
  · intro r c v hv
    obtain ⟨t, ht, p, hp, a, ha, x, u1, u2, u3, u4, hx, hi, hv, _⟩ := (key r c v).mp hv
    have hrun := ((h2 t ht).2.2.2.1 p hp).mem ha
    refine ⟨p.1.2, x, ⟨t.row, p.1.1, (get?_eq_some_iff hd).mpr (mem_plan_stored h3 ht hp), u1, ?_,
      by omega, by omega⟩, hx, hv⟩
    rw [← hrepT t ht p hp]; exact u2
  · rintro r c d x ⟨r0, c0, hs, a1, a2, a3, a4⟩ hx hne
    obtain ⟨t, ht, rfl, p, hp, hpe⟩ := mem_plan_of_stored hd h3 hs
    obtain ⟨a, ha, b1, b2⟩ := ((h2 t ht).2.2.2.1 p hp).cover c (by rw [hpe]; exact a3)
      (by rw [hpe]; exact a4)
    refine (key r c _).mpr ⟨t, ht, p, hp, a, ha, x, a1, ?_, b1, b2, by rw [hpe]; exact hx,
      ignoreCell_of_content hne _, rfl, ?_⟩
    · rw [hrepT t ht p hp]; exact a2
    · rintro ⟨_, q, _⟩; rw [hne] at q; simp at q
  · intro r r0 c d x hs q1 q2 hd1 hx hig hst hne
    obtain ⟨t, ht, rfl, p, hp, hpe⟩ := mem_plan_of_stored hd h3 hs
    have hrun := (h2 t ht).2.2.2.1 p hp
    obtain ⟨a, ha, b1, b2⟩ := hrun.cover c (by rw [hpe]; exact Nat.le_refl _)
      (by rw [hpe]; simp only; omega)
    have hm := hrun.mem ha
    rw [hpe] at hm
    simp only at hm
    have ha1 : a.1 = c := by omega
    have ha2 : a.2 = 1 := by omega
    refine (key r c _).mpr ⟨t, ht, p, hp, a, ha, x, q1, ?_, b1, b2, by rw [hpe]; exact hx,
      ?_, rfl, ?_⟩
    · rw [hrepT t ht p hp]; exact q2
    · have hcs : cols.colCellstyle a.1 = s.colHeader.colCellstyle c := by
        have h1 : c < cc := by
          have := (C07_used_grid_size s.data).1 t.row c (by
            simp [Cells.isEmpty, contains, hs])
          have := (colCount_ge s).1
          omega
        have := hlook.attrs hcw h1
        have := congrArg ColObs.cellstyle this
        rw [ha1]
        exact this
      rw [hcs]
      unfold ignoreCell CellData.isVoid
      rw [hig, hst, decide_eq_true hne]
      simp
    · rintro ⟨q, _⟩; omega

/-- **C12.** If the sheet is written and the result is read back (repeats expanded, the default), then
1. every cell read shows a cell of the sheet at this position, decoded;
2. every position that shows a cell with content holds exactly this cell, decoded;
3. a cell without content and without a repeat count of its own comes back at every position of its
   row that shows it, if its style is not the default cell style of its column and the reader keeps
   empty cells.

Missing (`_partial`): sheets whose stored row repeat differs from the one `row_repeat` reports
(`C12_stale_repeat_counterexample`), row repeats over 1000 (`C12_big_repeat_counterexample`), cell
repeats of 0, and repeated cells without content at the end of a row, which the reader drops
(`C12_trailing_style_counterexample`). That writing succeeds is C13, that the result can be read
C15. -/
theorem C12_grid_partial (s s' : TSheet) (o : ReadOpts) (evs : List TEv) (hd : Sorted s.data)
    (hok : ∀ q ∈ s.data, RowOK s q.1.1) (hrep : ∀ q ∈ s.data, 1 ≤ q.2.repeat)
    (hbig : ∀ q ∈ s.data, s.repeatOf q.1.1 ≤ 1000) (hcw : s.colHeader.WF) (hng : s.colHeader.NoGap)
    (ho : o.useRepeat = false) (hw : writeSheet s = .ok evs) (hr : readTable o evs = some s') :
    (∀ r c v, s'.data.get? (r, c) = some v →
      ∃ d x, s.Shows r c d ∧ o.dec d = some x ∧ v = { x with «repeat» := 1 })
    ∧ (∀ r c d x, s.Shows r c d → o.dec d = some x → x.isEmpty = false →
      s'.data.get? (r, c) = some { x with «repeat» := 1 })
    ∧ (∀ r r0 c d x, s.data.get? (r0, c) = some d → r0 ≤ r → r < r0 + s.repeatOf r0 →
      d.repeat = 1 → o.dec d = some x →
      o.ignoreEmpty = false → x.style.isSome → x.style ≠ s.colHeader.colCellstyle c →
      s'.data.get? (r, c) = some { x with «repeat» := 1 }) := by
  have hobs := (C58_prepare_partial s.colHeader hcw s.groupCols s.headerCols).2 hng
  have hwf : (prepareCols s.groupCols s.headerCols s.colHeader).WF :=
    ColHeaders.splitAt_wf _ _ (ColHeaders.dedup_wf _ hcw)
  obtain ⟨k1, k2, k3⟩ := table_grid
    { s with colHeader := prepareCols s.groupCols s.headerCols s.colHeader } s' o evs hd hok hrep
    hbig hwf ho hw hr
  refine ⟨k1, k2, ?_⟩
  intro r r0 c d x g1 g2 g3 g4 g5 g6 g7 g8
  refine k3 r r0 c d x g1 g2 g3 g4 g5 g6 g7 ?_
  have := congrArg ColObs.cellstyle (hobs c)
  intro e
  exact g8 (e.trans this)

end Verif
