import Verif.Grid.LayoutProps
import Verif.Grid.ColProps
import Verif.Grid.Reach

/-!
# Balance, header ranges, groups; counterexamples and examples for the table (C12-C16, C19-C21, C23-C25)
-/

set_option autoImplicit false

namespace Verif

open OMap

/-- **C15 (partial).** A sheet whose groups and header ranges fit its rows and columns is written with
balanced tags: every start tag is closed by its own end tag, in order, and nothing is left open.
Missing: see `C15_header_gap_counterexample`, `C16_unclosed_group_counterexample`. -/
theorem C15_balanced_partial (s : TSheet) (hc : s.CellsOK) (hcol : s.ColsFit) (hrow : RowsOK s)
    (h1 : ¬ s.CellClash) (h2 : ¬ s.RowClash) :
    ∃ evs, writeSheet s = .ok evs ∧ checkTags [] evs = some [] := by
  obtain ⟨evs, _, h, _, h3, _⟩ := table_roundtrip s hc hcol hrow h1 h2 {}
  exact ⟨evs, h, h3⟩

theorem groupsOK_nil : GroupsOK [] := ⟨by simp, by simp, List.Pairwise.nil⟩

/-- **C15 (partial), sheets without groups and header ranges.** Such a sheet is written with balanced
tags whatever its rows and columns are. -/
theorem C15_plain_balanced (s : TSheet) (hc : s.CellsOK) (hw : s.colHeader.WF)
    (hg : s.colHeader.NoGap) (h1 : ¬ s.CellClash) (h2 : ¬ s.RowClash) (e1 : s.groupRows = [])
    (e2 : s.groupCols = []) (e3 : s.headerRows = none) (e4 : s.headerCols = none) :
    ∃ evs, writeSheet s = .ok evs ∧ checkTags [] evs = some [] := by
  refine C15_balanced_partial s hc ⟨hw, hg, by rw [e2]; exact groupsOK_nil, by simp [e2], by simp [e4]⟩
    ⟨by rw [e1]; exact groupsOK_nil, by simp [e1], by simp [e1], by simp [e3], by simp [e3],
      by simp [e3], by simp [e3]⟩ h1 h2

/-- **C24 (partial).** The header rows and header columns come back. -/
theorem C24_header_ranges_partial (s : TSheet) (hc : s.CellsOK) (hcol : s.ColsFit) (hrow : RowsOK s)
    (h1 : ¬ s.CellClash) (h2 : ¬ s.RowClash) (o : ReadOpts) :
    ∃ evs s', writeSheet s = .ok evs ∧ readTable o evs = some s'
      ∧ s'.headerRows = s.headerRows ∧ s'.headerCols = s.headerCols := by
  obtain ⟨evs, s', a, b, _, _, _, c, d⟩ := table_roundtrip s hc hcol hrow h1 h2 o
  exact ⟨evs, s', a, b, c, d⟩

/-- **C25 (partial).** The row groups and column groups come back, each with its range and its display
flag; only their order changes. -/
theorem C25_groups_partial (s : TSheet) (hc : s.CellsOK) (hcol : s.ColsFit) (hrow : RowsOK s)
    (h1 : ¬ s.CellClash) (h2 : ¬ s.RowClash) (o : ReadOpts) :
    ∃ evs s', writeSheet s = .ok evs ∧ readTable o evs = some s'
      ∧ s'.groupRows.Perm s.groupRows ∧ s'.groupCols.Perm s.groupCols := by
  obtain ⟨evs, s', a, b, _, c, d, _, _⟩ := table_roundtrip s hc hcol hrow h1 h2 o
  exact ⟨evs, s', a, b, c, d⟩

/-! ### Sheets made by calls of the API -/

/-- A sheet after calls of the cell, row and column setters. -/
def sheetOf (cells : List CellOp) (rows : List RowOp) (cols : List ColOp) : Option TSheet :=
  match CellOp.run [] cells, RowHeaders.run [] rows, ColHeaders.run [] cols with
  | some d, some r, some c => some { data := d, rowHeader := r, colHeader := c }
  | _, _, _ => none

/-- Write and read with the default options. -/
def rewrite (s : TSheet) : Option TSheet :=
  match writeSheet s with
  | .ok evs => readTable {} evs
  | .error _ => none

/-- Calls of the group functions. -/
def addGroups : List Grouped → List (Nat × Nat) → Option (List Grouped)
  | gs, [] => some gs
  | gs, (a, b) :: l => (addGroup gs a b).bind (fun gs => addGroups gs l)

/-- `set_value(r, c, true)`. -/
abbrev put (r c : Nat) : CellOp := .setValue r c (.boolean true)

/-! ### Where the properties fail -/

/-- `set_row_repeat(5, 3)`, then `set_row_repeat(5, 1)`: every row reports a repeat of at most 1, yet
the cell at `(9, 0)` comes back at `(7, 0)`; and with cells in rows 6 and 7 the sheet cannot be
written at all. -/
theorem C12_stale_repeat_counterexample :
    (∃ s s', sheetOf [put 6 0, put 9 0] [.setRepeat 5 3, .setRepeat 5 1] [] = some s
      ∧ (∀ r ∈ List.range 12, s.rowHeader.rowRepeat r ≤ 1)
      ∧ rewrite s = some s' ∧ s'.data.isEmpty 9 0 = true ∧ s'.data.isEmpty 7 0 = false)
    ∧ ∃ s, sheetOf [put 6 0, put 7 0] [.setRepeat 5 3, .setRepeat 5 1] [] = some s
      ∧ writeSheet s = .error .overlapRow := by
  refine ⟨⟨(sheetOf [put 6 0, put 9 0] [.setRepeat 5 3, .setRepeat 5 1] []).get (by decide),
    (rewrite ((sheetOf [put 6 0, put 9 0] [.setRepeat 5 3, .setRepeat 5 1] []).get (by decide))).get
      (by decide), by decide, by decide, by decide, by decide, by decide⟩,
    (sheetOf [put 6 0, put 7 0] [.setRepeat 5 3, .setRepeat 5 1] []).get (by decide), by decide,
    by decide⟩

/-- A row with cells repeated 1001 times: it is written so, but the copies are gone after reading. -/
theorem C12_big_repeat_counterexample :
    ∃ s s', sheetOf [put 0 0] [.setRepeat 0 1001] [] = some s ∧ rewrite s = some s'
      ∧ s.repeatOf 0 = 1001 ∧ s'.data.isEmpty 1 0 = true :=
  ⟨(sheetOf [put 0 0] [.setRepeat 0 1001] []).get (by decide),
   (rewrite ((sheetOf [put 0 0] [.setRepeat 0 1001] []).get (by decide))).get (by decide),
   by decide, by decide, by decide, by decide⟩

/-- A styled cell without a value, repeated twice at the end of its row: it is gone after reading. -/
theorem C12_trailing_style_counterexample :
    ∃ s s', sheetOf [put 0 0, .setCellstyle 0 1 "x", .setRepeat 0 1 2] [] [] = some s
      ∧ rewrite s = some s' ∧ s.data.cellstyle 0 1 = some "x" ∧ s'.data.isEmpty 0 1 = true :=
  ⟨(sheetOf [put 0 0, .setCellstyle 0 1 "x", .setRepeat 0 1 2] [] []).get (by decide),
   (rewrite ((sheetOf [put 0 0, .setCellstyle 0 1 "x", .setRepeat 0 1 2] [] []).get (by decide))).get
    (by decide), by decide, by decide, by decide, by decide⟩

/-- `add_row_group(1, 1)` with cells in rows 0 and 3 only: the counter of open groups underflows and
writing panics. -/
theorem C13_group_panic_counterexample :
    ∃ s gs, sheetOf [put 0 0, put 3 0] [] [] = some s ∧ addGroups [] [(1, 1)] = some gs
      ∧ writeSheet { s with groupRows := gs } = .error .panic :=
  ⟨(sheetOf [put 0 0, put 3 0] [] []).get (by decide), [⟨1, 1, true⟩], by decide, by decide, by decide⟩

/-- Header rows 0 to 1 with cells in rows 0 and 2: the tags are not balanced, the sheet cannot be read
back (C15, C24). -/
theorem C15_header_gap_counterexample :
    ∃ s evs, sheetOf [put 0 0, put 2 0] [] [] = some s
      ∧ writeSheet { s with headerRows := some ⟨0, 1⟩ } = .ok evs
      ∧ checkTags [] evs ≠ some [] ∧ readTable {} evs = none :=
  ⟨(sheetOf [put 0 0, put 2 0] [] []).get (by decide),
   (match writeSheet { (sheetOf [put 0 0, put 2 0] [] []).get (by decide) with headerRows := some ⟨0, 1⟩ } with
    | .ok e => e | .error _ => []), by decide, by decide, by decide, by decide⟩

/-- Header rows 1 to 3 with cells in rows 0 and 5 only: the last row of the header is lost, it is read back as 1 to 2. -/
theorem C24_gap_counterexample :
    ∃ s s', sheetOf [put 0 0, put 5 0] [] [] = some s ∧ rewrite { s with headerRows := some ⟨1, 3⟩ } = some s'
      ∧ s'.headerRows = some ⟨1, 2⟩ :=
  ⟨(sheetOf [put 0 0, put 5 0] [] []).get (by decide),
   (rewrite { (sheetOf [put 0 0, put 5 0] [] []).get (by decide) with headerRows := some ⟨1, 3⟩ }).get (by decide),
   by decide, by decide, by decide⟩

/-- Columns 0 to 2 with the same style in a column group: the group is opened and never closed, the
sheet cannot be read back (C16, C25). -/
theorem C16_unclosed_group_counterexample :
    ∃ s gs evs, sheetOf [put 0 3] [] [.setStyle 0 "a", .setStyle 1 "a", .setStyle 2 "a"] = some s
      ∧ addGroups [] [(0, 2)] = some gs ∧ writeSheet { s with groupCols := gs } = .ok evs
      ∧ checkTags [] evs ≠ some [] ∧ readTable {} evs = none :=
  ⟨(sheetOf [put 0 3] [] [.setStyle 0 "a", .setStyle 1 "a", .setStyle 2 "a"]).get (by decide),
   [⟨0, 2, true⟩],
   (match writeSheet { (sheetOf [put 0 3] [] [.setStyle 0 "a", .setStyle 1 "a", .setStyle 2 "a"]).get
      (by decide) with groupCols := [⟨0, 2, true⟩] } with | .ok e => e | .error _ => []),
   by decide, by decide, by decide, by decide, by decide⟩

/-- Columns 0 and 2 with style "a", column 1 with no attribute: after writing and reading column 1
has the style and column 2 has none. -/
theorem C19_hole_counterexample :
    ∃ s s', sheetOf [put 0 3] [] [.setStyle 0 "a", .setStyle 1 "b", .clearStyle 1, .setStyle 2 "a"] = some s
      ∧ rewrite s = some s' ∧ s.colHeader.colstyle 1 = none ∧ s.colHeader.colstyle 2 = some "a"
      ∧ s'.colHeader.colstyle 1 = some "a" ∧ s'.colHeader.colstyle 2 = none :=
  ⟨(sheetOf [put 0 3] [] [.setStyle 0 "a", .setStyle 1 "b", .clearStyle 1, .setStyle 2 "a"]).get (by decide),
   (rewrite ((sheetOf [put 0 3] [] [.setStyle 0 "a", .setStyle 1 "b", .clearStyle 1,
    .setStyle 2 "a"]).get (by decide))).get (by decide),
   by decide, by decide, by decide, by decide, by decide, by decide⟩

/-- Row 0 has a style and a cell, row 1 nothing, row 2 a cell: after writing and reading row 1 has the
style of row 0. -/
theorem C20_leak_counterexample :
    ∃ s s', sheetOf [put 0 0, put 2 0] [.setStyle 0 "a"] [] = some s ∧ rewrite s = some s'
      ∧ s.rowHeader.rowstyle 1 = none ∧ s'.rowHeader.rowstyle 1 = some "a" :=
  ⟨(sheetOf [put 0 0, put 2 0] [.setStyle 0 "a"] []).get (by decide),
   (rewrite ((sheetOf [put 0 0, put 2 0] [.setStyle 0 "a"] []).get (by decide))).get (by decide),
   by decide, by decide, by decide, by decide⟩

/-- Two empty rows between rows with cells, only the second of them hidden: the visibility of the first
is written for both. -/
theorem C20_gap_counterexample :
    ∃ s s', sheetOf [put 0 0, put 3 0] [.setVisible 2 .collapsed] [] = some s ∧ rewrite s = some s'
      ∧ s.rowHeader.rowVisible 2 = .collapsed ∧ s'.rowHeader.rowVisible 2 = .visible :=
  ⟨(sheetOf [put 0 0, put 3 0] [.setVisible 2 .collapsed] []).get (by decide),
   (rewrite ((sheetOf [put 0 0, put 3 0] [.setVisible 2 .collapsed] []).get (by decide))).get (by decide),
   by decide, by decide, by decide, by decide⟩

/-- A styled row with a cell, repeated twice: read, written and read again the cell in row 3 has moved
to row 4. -/
theorem C21_shift_counterexample :
    ∃ s s1 s2, sheetOf [put 0 0, put 3 0] [.setStyle 0 "a", .setRepeat 0 2] [] = some s
      ∧ rewrite s = some s1 ∧ rewrite s1 = some s2
      ∧ s1.data.isEmpty 3 0 = false ∧ s2.data.isEmpty 3 0 = true ∧ s2.data.isEmpty 4 0 = false :=
  ⟨(sheetOf [put 0 0, put 3 0] [.setStyle 0 "a", .setRepeat 0 2] []).get (by decide),
   (rewrite ((sheetOf [put 0 0, put 3 0] [.setStyle 0 "a", .setRepeat 0 2] []).get (by decide))).get
     (by decide),
   (rewrite ((rewrite ((sheetOf [put 0 0, put 3 0] [.setStyle 0 "a", .setRepeat 0 2] []).get
     (by decide))).get (by decide))).get (by decide),
   by decide, by decide, by decide, by decide, by decide, by decide⟩

/-- Row groups 0..0 (hidden) and then 0..1 (shown) around it: the display flags come back swapped. -/
theorem C25_display_counterexample :
    ∃ s gs s', sheetOf [put 0 0, put 1 0] [] [] = some s
      ∧ addGroups [] [(0, 0), (0, 1)] = some gs
      ∧ rewrite { s with groupRows := gs.map (fun g => if g.to = 0 then { g with display := false } else g) }
        = some s'
      ∧ s'.groupRows = [⟨0, 0, true⟩, ⟨0, 1, false⟩] :=
  ⟨(sheetOf [put 0 0, put 1 0] [] []).get (by decide), [⟨0, 0, true⟩, ⟨0, 1, true⟩],
   (rewrite { (sheetOf [put 0 0, put 1 0] [] []).get (by decide) with
      groupRows := [⟨0, 0, false⟩, ⟨0, 1, true⟩] }).get (by decide),
   by decide, by decide, by decide, by decide⟩

/-! ### A sheet that meets the hypotheses -/

/-- Cells in rows 1 (repeated), 4 and 5, one of them repeated, one merged over 2 by 3 cells; nested
hidden row groups, header rows, styled columns in a group, header columns. -/
def fullSheet : TSheet :=
  { (sheetOf [put 1 0, put 4 1, .setRepeat 4 1 3, .setRowSpan 4 1 2, .setColSpan 4 1 3, put 5 0, put 5 2]
      [.setRepeat 1 2, .setStyle 4 "r"]
      [.setStyle 0 "a", .setStyle 1 "b", .setStyle 2 "a"]).getD {} with
    groupRows := [⟨1, 5, true⟩, ⟨1, 4, false⟩, ⟨5, 5, true⟩]
    groupCols := [⟨0, 1, false⟩, ⟨1, 1, true⟩]
    headerRows := some ⟨1, 2⟩
    headerCols := some ⟨0, 1⟩ }

theorem fullSheet_cells : fullSheet.CellsOK :=
  ⟨by unfold Sorted; decide, by unfold RowOK; decide, by decide,
   by unfold CellData.SpansOK; decide⟩

theorem get?_mem_keys {V : Type} (m : OMap (Nat × Nat) V) (hs : Sorted m) {k : Nat × Nat} {v : V}
    (h : m.get? k = some v) : (k, v) ∈ m := (get?_eq_some_iff hs).mp h

theorem fullSheet_cellClash : ¬ fullSheet.CellClash := by
  rintro ⟨r, c, c', d, d', h1, h2, h3, h4⟩
  have m1 := get?_mem_keys _ fullSheet_cells.sorted h1
  have m2 := get?_mem_keys _ fullSheet_cells.sorted h2
  have : ∀ p ∈ fullSheet.data, ∀ q ∈ fullSheet.data, p.1.1 = q.1.1 → p.1.2 < q.1.2 →
      ¬ q.1.2 < p.1.2 + p.2.repeat := by decide
  exact this _ m1 _ m2 rfl h3 h4

theorem fullSheet_rowClash : ¬ fullSheet.RowClash := by
  rintro ⟨r, r', c, c', d, d', h1, h2, h3, h4⟩
  have m1 := get?_mem_keys _ fullSheet_cells.sorted h1
  have m2 := get?_mem_keys _ fullSheet_cells.sorted h2
  have : ∀ p ∈ fullSheet.data, ∀ q ∈ fullSheet.data, p.1.1 < q.1.1 →
      ¬ q.1.1 < p.1.1 + fullSheet.repeatOf p.1.1 := by decide
  exact this _ m1 _ m2 h3 h4

theorem crossing_iff (a b : Grouped) (ha : a.frm ≤ a.to) (hb : b.frm ≤ b.to)
    (h : (a.frm ≤ b.frm ∧ b.to ≤ a.to) ∨ (b.frm ≤ a.frm ∧ a.to ≤ b.to) ∨ a.to < b.frm ∨ b.to < a.frm) :
    ¬ Crossing a b := by
  rintro ⟨⟨x, h1⟩, ⟨y, h2⟩, ⟨z, h3⟩⟩
  omega

theorem fullSheet_cols : fullSheet.ColsFit := by
  refine ⟨⟨by unfold Sorted; decide, by decide, by decide⟩, ?_,
    ⟨by decide, ?_, by decide⟩, by decide, ?_⟩
  · rw [show fullSheet.colHeader = [(0, { style := some "a" }), (1, { style := some "b" }), (2, { style := some "a" })]
        by decide]
    exact ⟨by decide, by decide, trivial⟩
  · have h : ∀ g ∈ fullSheet.groupCols, ∀ g' ∈ fullSheet.groupCols, g.frm ≤ g.to ∧ g'.frm ≤ g'.to ∧
        ((g.frm ≤ g'.frm ∧ g'.to ≤ g.to) ∨ (g'.frm ≤ g.frm ∧ g.to ≤ g'.to) ∨ g.to < g'.frm ∨ g'.to < g.frm) := by
      decide
    intro g hg g' hg'
    exact crossing_iff g g' (h g hg g' hg').1 (h g hg g' hg').2.1 (h g hg g' hg').2.2
  · intro h e
    simp only [fullSheet, Option.some.injEq] at e
    rw [← e]
    decide

theorem fullSheet_rows : RowsOK fullSheet := by
  have hr : fullSheet.headerRows = some ⟨1, 2⟩ := rfl
  refine ⟨⟨by decide, ?_, by decide⟩, by decide, by decide, ?_, ?_, ?_, ?_⟩
  · have h : ∀ g ∈ fullSheet.groupRows, ∀ g' ∈ fullSheet.groupRows, g.frm ≤ g.to ∧ g'.frm ≤ g'.to ∧
        ((g.frm ≤ g'.frm ∧ g'.to ≤ g.to) ∨ (g'.frm ≤ g.frm ∧ g.to ≤ g'.to) ∨ g.to < g'.frm ∨ g'.to < g.frm) := by
      decide
    intro g hg g' hg'
    exact crossing_iff g g' (h g hg g' hg').1 (h g hg g' hg').2.1 (h g hg g' hg').2.2
  · intro h e
    rw [hr, Option.some.injEq] at e
    rw [← e]; decide
  · intro h e r h1 h2
    rw [hr, Option.some.injEq] at e
    subst e
    simp only at h1 h2
    have : ∀ r ∈ [1, 2], ∃ q ∈ fullSheet.data, q.1.1 ≤ r ∧ r < q.1.1 + fullSheet.repeatOf q.1.1 := by decide
    exact this r (by simp; omega)
  · intro h e
    rw [hr, Option.some.injEq] at e
    rw [← e]; decide
  · intro h e
    rw [hr, Option.some.injEq] at e
    rw [← e]; decide

theorem fullSheet_noHole : fullSheet.colHeader.NoHole := by
  intro i k h1 h2 h3 h4
  have hv : ∀ c, 3 ≤ c → fullSheet.colHeader.attrs c = {} := by
    intro c hc
    have : fullSheet.colHeader.valid c = none := by
      rw [show fullSheet.colHeader = [(0, { style := some "a" }), (1, { style := some "b" }), (2, { style := some "a" })]
        by decide]
      have e0 : decide (0 ≤ c) = true := by simp
      have e1 : decide (1 ≤ c) = true := by simp; omega
      have e2 : decide (2 ≤ c) = true := by simp; omega
      simp only [ColHeaders.valid, OMap.lastLe, List.filter_cons, e0, e1, e2, if_true, List.filter_nil,
        List.getLast?_cons_cons, List.getLast?_singleton]
      rw [if_neg (by omega)]
    simp [ColHeaders.attrs, ColHeaders.colstyle, ColHeaders.colCellstyle, ColHeaders.colVisible, this]
  by_cases hk : 3 ≤ k
  · rw [hv k hk] at h2; exact h3 h2
  · have hi : i = 0 := by omega
    have hk : k = 2 := by omega
    subst hi; subst hk
    exact absurd (h4 1 (by omega) (by omega)) (by decide)

/-- The sheet meets the hypotheses of C13, C15, C24 and C25. -/
example : ∃ evs s', writeSheet fullSheet = .ok evs ∧ readTable {} evs = some s'
    ∧ s'.groupRows.Perm fullSheet.groupRows ∧ s'.groupCols.Perm fullSheet.groupCols :=
  C25_groups_partial _ fullSheet_cells fullSheet_cols fullSheet_rows fullSheet_cellClash
    fullSheet_rowClash {}

/-- And of C12, C14, C16, C19 and C23. -/
example (evs : List TEv) (h : writeSheet fullSheet = .ok evs) (s' : TSheet)
    (hr : readTable {} evs = some s') :
    s'.colHeader.attrs 1 = fullSheet.colHeader.attrs 1
    ∧ s'.data.get? (2, 0) = some { value := .boolean true }
    ∧ 6 = ((tableRows evs).map (·.2.1)).sum := by
  refine ⟨?_, ?_, ?_⟩
  · exact C19_columns_partial _ s' {} evs fullSheet_cells fullSheet_cols.wf fullSheet_cols.nogap
      fullSheet_noHole h hr 1 (Or.inl ⟨4, 1, by decide, by decide⟩)
  · exact (C12_grid_partial fullSheet s' {} evs fullSheet_cells.sorted fullSheet_cells.rows
      fullSheet_cells.rep (by decide) fullSheet_cols.wf fullSheet_cols.nogap rfl h hr).2.1 2 0
      { value := .boolean true } { value := .boolean true }
      ⟨1, 0, by decide, by decide, by decide, by decide, by decide⟩ rfl (by decide)
  · have := C14_layout_partial _ fullSheet_cells evs h
    have hmax : ∀ r c d, fullSheet.data.get? (r, c) = some d → r + fullSheet.repeatOf r ≤ 6 := by
      intro r c d hg
      have hm := get?_mem_keys _ fullSheet_cells.sorted hg
      have : ∀ p ∈ fullSheet.data, p.1.1 + fullSheet.repeatOf p.1.1 ≤ 6 := by decide
      exact this _ hm
    have h5 := this.2.1 5 0 { value := .boolean true } (by decide)
    have h6 : 5 + fullSheet.repeatOf 5 = 6 := by decide
    rcases this.2.2 with h0 | ⟨r, c, d, hg, he⟩
    · rw [h0] at h5; simp at h5
    · have := hmax r c d hg
      omega

/-- In the sheet the cell at `(5, 2)` lies in the area of the cell at `(4, 1)` and is written as
covered, the cell at `(5, 0)` is not. -/
example (evs : List TEv) (h : writeSheet fullSheet = .ok evs) :
    ∃ es, (5, 1, es) ∈ tableRows evs ∧ es[2]? = some (true, some { value := .boolean true })
      ∧ es[0]? = some (false, some { value := .boolean true }) := by
  have he : evs = (match writeSheet fullSheet with | .ok e => e | .error _ => []) := by rw [h]
  subst he
  exact ⟨((tableRows (match writeSheet fullSheet with | .ok e => e | .error _ => [])).getLast (by decide)).2.2,
    by decide, by decide, by decide⟩

end Verif
