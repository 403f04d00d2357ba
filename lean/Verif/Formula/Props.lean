import Verif.Formula.Model
import Verif.Refs.Props

/-!
# C80: a reference made for a formula names the cell that was asked for
-/

set_option autoImplicit false

namespace Verif.Formula

open Refs Refs.Spec

namespace Spec

/-- Which parts of a reference are fixed. -/
inductive Fix where
  | nothing | row | col | both
  deriving DecidableEq

def Fix.rowAbs : Fix → Bool
  | .row | .both => true
  | _ => false

def Fix.colAbs : Fix → Bool
  | .col | .both => true
  | _ => false

/-- The text is a reference in brackets, and means this cell. -/
def Means (m : Ints) (text : Str) (r : CellRef) : Prop :=
  ∃ s, text = ['['] ++ s ++ [']'] ∧ parseCellRef m s = .ok r

/-- The text is a range in brackets, and means this range. -/
def MeansRange (m : Ints) (text : Str) (r : CellRange) : Prop :=
  ∃ s, text = ['['] ++ s ++ [']'] ∧ parseCellRange m s = .ok r

/-- The function for a cell of this or of another sheet. -/
def cellFn (table : Option Str) (fix : Fix) (row col : Nat) : Str :=
  match table, fix with
  | none, .nothing => fcellref row col
  | none, .row => fcellrefr row col
  | none, .col => fcellrefc row col
  | none, .both => fcellrefa row col
  | some t, .nothing => fcellrefTable t row col
  | some t, .row => fcellrefrTable t row col
  | some t, .col => fcellrefcTable t row col
  | some t, .both => fcellrefaTable t row col

/-- The function for a range of this or of another sheet. -/
def rangeFn (table : Option Str) (fix : Fix) (row col toRow toCol : Nat) : Option Str :=
  match table, fix with
  | none, .nothing => frangeref row col toRow toCol
  | none, .row => frangerefr row col toRow toCol
  | none, .col => frangerefc row col toRow toCol
  | none, .both => frangerefa row col toRow toCol
  | some t, .nothing => frangerefTable t row col toRow toCol
  | some t, .row => frangerefrTable t row col toRow toCol
  | some t, .col => frangerefcTable t row col toRow toCol
  | some t, .both => frangerefaTable t row col toRow toCol

end Spec

open Spec

theorem means (m : Ints) (hm : m.max = maxU32) (r : CellRef) (h : GoodRef r) : Means m (toFormula r) r :=
  ⟨fmtCellRef r, rfl, (C35_roundtrip_partial m hm r ⟨Nat.le_of_lt h.2.1, Nat.le_of_lt h.2.2⟩).2 h⟩

theorem means_range (m : Ints) (hm : m.max = maxU32) (r : CellRange) (h : GoodRange r) :
    MeansRange m (rangeToFormula r) r :=
  ⟨fmtCellRange r, rfl, (C36_cellrange_partial m hm r ⟨Nat.le_of_lt h.2.2.1, Nat.le_of_lt h.2.2.2.1,
    Nat.le_of_lt h.2.2.2.2.1, Nat.le_of_lt h.2.2.2.2.2⟩).2 h⟩

/-- The eight functions for cells: the text means exactly the cell that was asked for, with the sheet and the markers
that were asked for, for every good name of a sheet and every cell but those of the very last row and column. -/
theorem C80_cells_partial (m : Ints) (hm : m.max = maxU32) (table : Option Str) (ht : GoodTable table) (fix : Fix)
    (row col : Nat) (hr : row < maxU32) (hc : col < maxU32) :
    Means m (cellFn table fix row col) ⟨none, table, ⟨fix.rowAbs, row⟩, ⟨fix.colAbs, col⟩⟩ := by
  cases table <;> cases fix <;> exact means m hm _ ⟨ht, hr, hc⟩

/-- The eight functions for ranges. -/
theorem C80_ranges_partial (m : Ints) (hm : m.max = maxU32) (table : Option Str) (ht : GoodTable table) (fix : Fix)
    (row col toRow toCol : Nat) (h1 : row ≤ toRow) (h2 : col ≤ toCol) (hr : toRow < maxU32) (hc : toCol < maxU32) :
    ∃ text, rangeFn table fix row col toRow toCol = some text
      ∧ MeansRange m text ⟨none, table, ⟨fix.rowAbs, row⟩, ⟨fix.colAbs, col⟩, none, ⟨fix.rowAbs, toRow⟩,
          ⟨fix.colAbs, toCol⟩⟩ := by
  have hn : GoodTable none := by intro n hn; cases hn
  cases table <;> cases fix <;>
    refine ⟨_, ?_, means_range m hm _ ⟨ht, hn, by simp only; omega, by simp only; omega, hr, hc⟩⟩ <;>
    simp [rangeFn, frangeref, frangerefr, frangerefc, frangerefa, frangerefTable, frangerefrTable, frangerefcTable,
      frangerefaTable, rangeLocal, rangeRemote, h1, h2, absoluteRows, absoluteCols, rangeAbsolute, Fix.rowAbs,
      Fix.colAbs]

/-- They panic exactly when the range is upside down. -/
theorem C80_ranges_panic (table : Option Str) (fix : Fix) (row col toRow toCol : Nat) :
    rangeFn table fix row col toRow toCol = none ↔ ¬ (row ≤ toRow ∧ col ≤ toCol) := by
  cases table <;> cases fix <;>
    simp [rangeFn, frangeref, frangerefr, frangerefc, frangerefa, frangerefTable, frangerefrTable, frangerefcTable,
      frangerefaTable, rangeLocal, rangeRemote]

/-- Whole columns and whole rows. -/
theorem C80_cols_rows (m : Ints) (hm : m.max = maxU32) (fixed : Bool) (a b : Nat) (h : a ≤ b) (hb : b < maxU32) :
    (∃ r s, colsNew a b = some r
      ∧ colsToFormula (if fixed then colsAbsolute r else r) = ['['] ++ s ++ [']']
      ∧ parseColRange m s = .ok ⟨none, none, ⟨fixed, a⟩, none, ⟨fixed, b⟩⟩)
    ∧ ∃ r s, rowsNew a b = some r
      ∧ rowsToFormula (if fixed then rowsAbsolute r else r) = ['['] ++ s ++ [']']
      ∧ parseRowRange m s = .ok ⟨none, none, ⟨fixed, a⟩, none, ⟨fixed, b⟩⟩ := by
  have hn : GoodTable none := by intro n hn; cases hn
  have ha : a < maxU32 := by omega
  refine ⟨⟨⟨none, none, ⟨false, a⟩, none, ⟨false, b⟩⟩, fmtColRange ⟨none, none, ⟨fixed, a⟩, none, ⟨fixed, b⟩⟩,
    by simp [colsNew, h], by cases fixed <;> rfl, ?_⟩,
    ⟨⟨none, none, ⟨false, a⟩, none, ⟨false, b⟩⟩, fmtRowRange ⟨none, none, ⟨fixed, a⟩, none, ⟨fixed, b⟩⟩,
    by simp [rowsNew, h], by cases fixed <;> rfl, ?_⟩⟩
  · exact (C36_colrange_partial m hm _ ⟨Nat.le_of_lt ha, Nat.le_of_lt hb⟩).2 ⟨hn, hn, ha, hb⟩
  · exact (C36_rowrange_partial m hm _).2 ⟨hn, hn, ha, hb⟩

/-- Whole columns and whole rows are refused by a panic exactly when the last one is before the first one. -/
theorem C80_cols_rows_panic (a b : Nat) : (colsNew a b = none ↔ b < a) ∧ (rowsNew a b = none ↔ b < a) := by
  simp [colsNew, rowsNew]

/-- `cell!` and `fcell!` for a cell of the same sheet: the markers are those that were written. -/
theorem C80_macro_here (m : Ints) (hm : m.max = maxU32) (absRow absCol : Bool) (row col : Nat) (hr : row < maxU32)
    (hc : col < maxU32) :
    cellHere absRow row absCol col = ⟨none, none, ⟨absRow, row⟩, ⟨absCol, col⟩⟩
      ∧ Means m (toFormula (cellHere absRow row absCol col)) ⟨none, none, ⟨absRow, row⟩, ⟨absCol, col⟩⟩ := by
  have hn : GoodTable none := by intro n hn; cases hn
  cases absRow <;> cases absCol <;> exact ⟨rfl, means m hm _ ⟨hn, hr, hc⟩⟩

/-- The ranges. -/
theorem C80_macro_ranges_partial (m : Ints) (hm : m.max = maxU32) (table : Option Str) (ht : GoodTable table)
    (absRow absCol absRow2 absCol2 : Bool) (row col row2 col2 : Nat) (h1 : row < maxU32) (h2 : col < maxU32)
    (h3 : row2 < maxU32) (h4 : col2 < maxU32) :
    MeansRange m
      (rangeToFormula (match table with
        | none => rangeHere absRow row absCol col absRow2 row2 absCol2 col2
        | some t => rangeThere t absRow row absCol col absRow2 row2 absCol2 col2))
      ⟨none, table, ⟨absRow, row⟩, ⟨absCol, col⟩, none, ⟨absRow2, row2⟩, ⟨absCol2, col2⟩⟩ := by
  have hn : GoodTable none := by intro n hn; cases hn
  cases table <;> cases absRow <;> cases absCol <;> cases absRow2 <;> cases absCol2 <;>
    exact means_range m hm _ ⟨ht, hn, h1, h2, h3, h4⟩

/-- `cell!(table => …)` does not heed the markers: every reference to a cell of another sheet is absolute, so that it
means another reference than the one asked for, unless both markers are written. -/
theorem C80_macro_there_counterexample (m : Ints) (hm : m.max = maxU32) (t : Str) (ht : GoodName t)
    (absRow absCol : Bool) (row col : Nat) (hr : row < maxU32) (hc : col < maxU32) :
    Means m (toFormula (cellThere t absRow row absCol col)) ⟨none, some t, ⟨true, row⟩, ⟨true, col⟩⟩
      ∧ (cellThere t absRow row absCol col = ⟨none, some t, ⟨absRow, row⟩, ⟨absCol, col⟩⟩
          ↔ absRow = true ∧ absCol = true) := by
  have hn : GoodTable (some t) := by intro n hn; cases hn; exact ht
  cases absRow <;> cases absCol <;> exact ⟨means m hm _ ⟨hn, hr, hc⟩, by simp [cellThere, newAll]⟩

/-- The functions for cells do not mix up cells: the same text means the same sheet, the same cell and the same
markers. -/
theorem C80_injective (t u : Option Str) (ht : GoodTable t) (hu : GoodTable u) (f g : Fix) (a b c d : Nat)
    (h : cellFn t f a b = cellFn u g c d) : t = u ∧ f = g ∧ a = c ∧ b = d := by
  have key : ∀ (t : Option Str) (f : Fix) (a b : Nat),
      cellFn t f a b = toFormula ⟨none, t, ⟨f.rowAbs, a⟩, ⟨f.colAbs, b⟩⟩ := by
    intro t f a b
    cases t <;> cases f <;> rfl
  rw [key, key] at h
  unfold toFormula at h
  have h1 := List.append_cancel_left (List.append_cancel_right h)
  have h2 := C38_cellref _ _ ht hu h1
  have h3 : t = u := congrArg CellRef.table h2
  have h4 : (⟨f.rowAbs, a⟩ : CRow) = ⟨g.rowAbs, c⟩ := congrArg CellRef.row h2
  have h5 : (⟨f.colAbs, b⟩ : CCol) = ⟨g.colAbs, d⟩ := congrArg CellRef.col h2
  have h6 := congrArg CRow.abs h4
  have h7 := congrArg CCol.abs h5
  refine ⟨h3, ?_, congrArg CRow.row h4, congrArg CCol.col h5⟩
  revert h6 h7
  cases f <;> cases g <;> simp [Fix.rowAbs, Fix.colAbs]

/-- A case that meets the hypotheses: a sheet with a blank in its name. -/
theorem C80_meets : GoodTable (some "Sheet 2".toList) ∧ (9 : Nat) < maxU32
    ∧ cellFn (some "Sheet 2".toList) .row 9 27 = "[$'Sheet 2'.AB$10]".toList
    ∧ rangeFn none .both 0 0 9 1 = some "[.$A$1:.$B$10]".toList := by
  refine ⟨?_, by decide, by decide +kernel, by decide +kernel⟩
  intro n hn
  cases hn
  exact ⟨by decide, .inl (.inr (.inl (by decide)))⟩

/-! ## C81: a range made of a corner and a size -/

/-- Below the limit of the integers the range covers exactly the cells of the block. -/
theorem C81_covers_partial (m : Ints) (row col h w : Nat) (h0 : 0 < h) (w0 : 0 < w) (hr : row + h ≤ m.max)
    (hc : col + w ≤ m.max) :
    ∃ r, originSpan m row col h w = .ok r
      ∧ ∀ i j, r.contains i j = true ↔ (row ≤ i ∧ i < row + h) ∧ (col ≤ j ∧ j < col + w) := by
  have e : ∀ a n, 0 < n → a + n ≤ m.max → spanEnd m a n = .ok (a + n - 1) := by
    intro a n hn ha
    have : a + n ≠ 0 := by omega
    simp [spanEnd, Ints.fit, ha, Except.bind, pred]
    omega
  refine ⟨⟨none, none, ⟨false, row⟩, ⟨false, col⟩, none, ⟨false, row + h - 1⟩, ⟨false, col + w - 1⟩⟩, ?_, ?_⟩
  · unfold originSpan
    rw [if_neg (by omega), e row h h0 hr, e col w w0 hc]
    rfl
  · intro i j
    simp only [CellRange.contains, Bool.and_eq_true, decide_eq_true_eq]
    omega

/-- With checked arithmetic it panics in every other case: for an empty block, and for a block whose end does not fit,
even when its last row or column does. -/
theorem C81_checked (row col h w : Nat) :
    (∃ r, originSpan checked row col h w = .ok r) ↔ 0 < h ∧ 0 < w ∧ row + h ≤ maxU32 ∧ col + w ≤ maxU32 := by
  have e : ∀ a n, ¬ a + n ≤ maxU32 → spanEnd checked a n = .error .panic := by
    intro a n ha
    have : ¬ a + n ≤ checked.max := by rw [checked_max]; exact ha
    have hw : checked.wrap = false := rfl
    simp [spanEnd, Ints.fit, this, Except.bind, hw]
  have ok : ∀ a n, 0 < n → a + n ≤ maxU32 → spanEnd checked a n = .ok (a + n - 1) := by
    intro a n hn ha
    have : a + n ≤ checked.max := by rw [checked_max]; exact ha
    have h0 : a + n ≠ 0 := by omega
    simp [spanEnd, Ints.fit, this, Except.bind, pred]
    omega
  constructor
  · intro ⟨r, hr⟩
    unfold originSpan at hr
    split at hr
    · cases hr
    · rename_i hz
      refine ⟨by omega, by omega, ?_, ?_⟩
      · refine Decidable.byContradiction fun hn => ?_
        rw [e row h hn] at hr
        cases hr
      · refine Decidable.byContradiction fun hn => ?_
        rw [e col w hn] at hr
        cases hx : spanEnd checked row h with
        | error x => rw [hx] at hr; cases hr
        | ok x => rw [hx] at hr; cases hr
  · intro ⟨h0, w0, hr, hc⟩
    obtain ⟨r, h, _⟩ := C81_covers_partial checked row col h w h0 w0 (by rw [checked_max]; exact hr)
      (by rw [checked_max]; exact hc)
    exact ⟨r, h⟩

theorem wraps (m : Ints) (hm : m.wrap = true) (row col h w : Nat) (hr : row ≤ m.max) (hh : h ≤ m.max) (h0 : 0 < h)
    (w0 : 0 < w) (hx : m.max + 1 < row + h) :
    ∃ r, originSpan m row col h w = .ok r ∧ ∀ i j, r.contains i j = false := by
  have hp : ∀ a, ∃ b, pred m a = .ok b := by
    intro a
    unfold pred
    rw [hm]
    split
    · exact ⟨_, rfl⟩
    · exact ⟨_, rfl⟩
  have hf : ∀ a, ∃ b, m.fit a = .ok b := by
    intro a
    unfold Ints.fit
    rw [hm]
    split
    · exact ⟨_, rfl⟩
    · exact ⟨_, rfl⟩
  obtain ⟨c, hcq⟩ : ∃ c, spanEnd m col w = .ok c := by
    obtain ⟨b, hb⟩ := hf (col + w)
    obtain ⟨c, hc⟩ := hp b
    exact ⟨c, by simp [spanEnd, hb, Except.bind, hc]⟩
  have hrow : spanEnd m row h = .ok (row + h - (m.max + 1) - 1) := by
    have e1 : (row + h) % (m.max + 1) = row + h - (m.max + 1) := by
      rw [Nat.mod_eq_sub_mod (by omega), Nat.mod_eq_of_lt (by omega)]
    have e2 : m.fit (row + h) = .ok (row + h - (m.max + 1)) := by
      unfold Ints.fit
      rw [if_neg (by omega), if_pos hm, e1]
    unfold spanEnd
    rw [e2]
    simp only [Except.bind, pred]
    rw [if_neg (by omega)]
  refine ⟨⟨none, none, ⟨false, row⟩, ⟨false, col⟩, none, ⟨false, row + h - (m.max + 1) - 1⟩, ⟨false, c⟩⟩, ?_, ?_⟩
  · unfold originSpan
    rw [if_neg (by omega), hrow, hcq]
    rfl
  · intro i j
    simp only [CellRange.contains]
    by_cases h1 : row ≤ i
    · have : ¬ i ≤ row + h - (m.max + 1) - 1 := by omega
      simp [this]
    · simp [h1]

/-- Without the checks a block that reaches past the last row gives a range without any cell, not even the corner. -/
theorem C81_release_counterexample (row col h w : Nat) (hr : row ≤ maxU32) (hh : h ≤ maxU32) (h0 : 0 < h)
    (w0 : 0 < w) (hx : maxU32 + 1 < row + h) :
    ∃ r, originSpan release row col h w = .ok r ∧ ∀ i j, r.contains i j = false :=
  wraps release rfl row col h w (by rw [release_max]; exact hr) (by rw [release_max]; exact hh) h0 w0
    (by rw [release_max]; exact hx)

/-- The block of the very last cell. -/
theorem C81_last_counterexample :
    originSpan checked maxU32 0 1 1 = .error .panic
      ∧ ∃ r, originSpan release maxU32 0 1 1 = .ok r ∧ r.contains maxU32 0 = true := by
  refine ⟨by decide +kernel, ⟨none, none, ⟨false, maxU32⟩, ⟨false, 0⟩, none, ⟨false, maxU32⟩, ⟨false, 0⟩⟩,
    by decide +kernel, by decide +kernel⟩

/-- A case that meets the hypotheses. -/
theorem C81_meets : ∃ r, originSpan checked 4 1 2 3 = .ok r ∧ r.contains 5 3 = true ∧ r.contains 6 3 = false :=
  ⟨⟨none, none, ⟨false, 4⟩, ⟨false, 1⟩, none, ⟨false, 5⟩, ⟨false, 3⟩⟩, by decide +kernel, by decide, by decide⟩

end Verif.Formula
