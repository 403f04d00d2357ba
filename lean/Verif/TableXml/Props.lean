import Verif.TableXml.Table
import Verif.TableXml.Fits
import Verif.Grid.TableProps
import Verif.Grid.Props
import Verif.Grid.RowProps
import Verif.Refs.Props

/-!
# C64: a sheet in the file

From the sheet to the text of its `table:table` element and back.
-/

set_option autoImplicit false

namespace Verif.TableXml

open Xml Xml.Spec Codec OMap

/-! ## Specification -/

/-- The text that is written for a sheet; `lb` is set for flat files. -/
def sheetText (fl : Floats) (defStyle : ValueType → Option String) (lb : Bool) (h : Head) (s : TSheet) :
    Except WErr Str :=
  (writeSheet s).map fun evs => output lb (tableCalls fl defStyle h evs)

/-- Reading such a text. -/
def readSheetText (fl : Floats) (m : Refs.Ints) (o : Opts) (text : Str) : Except Fault (Head × TSheet) :=
  match tokenize text with
  | none => .error .malformed
  | some ts => (readTableXml fl m o (events ts)).map Prod.fst

/-- Print ranges are absent or a list of ranges that can be written, and the foreign elements have their place in
front of the columns, with texts that can be kept apart.  A flat file has no foreign elements. -/
structure HeadOk (lb : Bool) (h : Head) : Prop where
  ranges : ∀ l, h.ranges = some l → l ≠ [] ∧ ∀ r ∈ l, Refs.Spec.GoodRange r
  flat : lb = false ∨ h.extra = []
  extra : ∀ t ∈ h.extra, ∃ n as c, t = .tag n as c ∧ n ∈ preludeNames ∧ NamesOk t ∧ AllWithout n c ∧ TextsApartIn t

/-- Rows, columns and repeats are `u32`, and the cells hold values, annotations and frames that a file
can hold. -/
structure SheetOk (fl : Floats) (lb : Bool) (s : TSheet) : Prop where
  cells : s.CellsOK
  small : Small 4294967295 s
  kept : ∀ q ∈ s.data, CellOk lb q.2 ∧ ValueKept fl lb q.2.value

/-- The cell `v` has the content of `d`; if `d` has no style the default style for its type of value is used. -/
def SameCell (defStyle : ValueType → Option String) (d v : CellData) : Prop :=
  v.toContent = { d.toContent with style := outStyle defStyle d, «repeat» := 1 }

/-- What comes back of a sheet: the same row and column groups, the same header rows and columns, the same
attributes of the columns up to the last cell in use, each cell shows what was shown in its place, what was
shown and is not empty is there, a cell that has nothing but a style other than that of its column is there if empty
cells are not to be ignored, and the rows with content have the same attributes. -/
structure SameSheet (ignoreEmpty : Bool) (defStyle : ValueType → Option String) (s s' : TSheet) : Prop where
  groupRows : s'.groupRows.Perm s.groupRows
  groupCols : s'.groupCols.Perm s.groupCols
  headerRows : s'.headerRows = s.headerRows
  headerCols : s'.headerCols = s.headerCols
  cols : ∀ r c k, s.data.isEmpty r c = false → k ≤ c → s'.colHeader.attrs k = s.colHeader.attrs k
  sound : ∀ r c v, s'.data.get? (r, c) = some v → ∃ d, s.Shows r c d ∧ SameCell defStyle d v
  complete : ∀ r c d, s.Shows r c d → d.isEmpty = false → ∃ v, s'.data.get? (r, c) = some v ∧ SameCell defStyle d v
  styled : ignoreEmpty = false → ∀ r c d, s.data.get? (r, c) = some d → d.repeat = 1 →
    (outStyle defStyle d).isSome → outStyle defStyle d ≠ s.colHeader.colCellstyle c →
    ∃ v, s'.data.get? (r, c) = some v ∧ SameCell defStyle d v
  rows : ∀ r r0, s.CopyOf r r0 → (∃ c d, s.data.get? (r0, c) = some d ∧ d.isEmpty = false) →
      s'.rowHeader.attrs r = s.rowHeader.attrs r0

/-- The repeats, groups, header ranges and columns of the sheet fit together: the conditions of C12, C15, C16 and
C19. -/
structure SheetFits (s : TSheet) : Prop where
  cols : s.ColsFit
  rows : RowsOK s
  cellClash : ¬ s.CellClash
  rowClash : ¬ s.RowClash
  big : ∀ q ∈ s.data, s.repeatOf q.1.1 ≤ 1000
  hole : s.colHeader.NoHole

/-! ## Proofs -/

theorem HeadOk.extras {lb : Bool} {h : Head} (hh : HeadOk lb h) : ExtrasOk lb h.extra :=
  ⟨hh.flat, fun t ht => by
    obtain ⟨n, as, c, e, _, h1, h2, _⟩ := hh.extra t ht
    exact ⟨n, as, c, e, h1, h2⟩⟩

theorem HeadOk.back {lb : Bool} {h : Head} (hh : HeadOk lb h) : headBack h h.ranges = h := by
  have h1 : prelude h.extra = h.extra := by
    unfold prelude
    rw [List.filter_eq_self]
    intro t ht
    obtain ⟨n, as, c, rfl, h1, _⟩ := hh.extra t ht
    exact decide_eq_true h1
  have h2 : h.extra.map norm = h.extra := by
    have : ∀ t ∈ h.extra, norm t = t := by
      intro t ht
      obtain ⟨n, as, c, rfl, _, _, _, h2⟩ := hh.extra t ht
      simp only [TextsApartIn] at h2
      rw [norm, norms_apart _ c (Nat.le_refl _) h2.1 h2.2]
    rw [List.map_congr_left this, List.map_id']
  unfold headBack
  rw [h1, h2]

theorem fits_of_within (fl : Floats) (lb : Bool) (s : TSheet) (hs : SheetOk fl lb s) (e : TEv)
    (h : Within 4294967295 s.data e) : Fits fl lb id e := by
  cases e with
  | cell c rep b =>
    cases b with
    | none => exact h
    | some d =>
      obtain ⟨⟨q, hq, rfl⟩, h1, h2⟩ := h
      exact ⟨h1, h2, (hs.kept q hq).1, back_kept fl lb _ (hs.kept q hq).2⟩
  | _ => exact h

theorem decode_content (defStyle : ValueType → Option String) (d : CellData) :
    (decode id defStyle d).toContent = { d.toContent with style := outStyle defStyle d } := toData_toContent _

theorem isEmpty_content (d : CellData) : d.isEmpty
    = (decide (d.toContent.value = .empty) && d.toContent.formula.isNone && (d.toContent.span.isEmpty
      && d.toContent.validation.isNone && d.toContent.annotation.isNone && d.toContent.drawFrames.isEmpty
      && d.toContent.matrixSpan.isEmpty)) := by
  unfold CellData.isEmpty CellData.isVoidExtra CellData.toContent
  cases d.extra <;> rfl

theorem decode_isEmpty (defStyle : ValueType → Option String) (d : CellData) :
    (decode id defStyle d).isEmpty = d.isEmpty := by
  rw [isEmpty_content, isEmpty_content, decode_content]

/-- The tags of the sheet, in front of whatever follows in the file. -/
theorem sheet_reads (fl : Floats) (m : Refs.Ints) (hm : m.max = Refs.Spec.maxU32) (o : Opts)
    (defStyle : ValueType → Option String) (lb : Bool) (h : Head) (hh : HeadOk lb h) (s : TSheet)
    (hs : SheetOk fl lb s) (hw : s.colHeader.WF) (evs : List TEv) (he : writeSheet s = .ok evs) (r : List Tok) :
    (∀ s', readTable (absOpts id defStyle o) evs = some s' →
      readTableXml fl m o (events (tableToks fl defStyle lb h evs ++ r))
        = .ok ((h, s'), events ((nl lb).map Tok.chr ++ r)))
    ∧ (readTable (absOpts id defStyle o) evs = none →
      ∃ e, readTableXml fl m o (events (tableToks fl defStyle lb h evs ++ r)) = .error e) := by
  have hf : ∀ e ∈ evs, Fits fl lb id e := fun e hm => fits_of_within fl lb s hs e
    (within_sheet _ s hs.small hs.cells.rows hw evs he e hm)
  have := table_reads fl m o id defStyle lb h evs h.ranges (by
    intro l hl
    rw [hl]
    exact Refs.C37_roundtrip_partial m hm l (hh.ranges l hl).1 (hh.ranges l hl).2) (fun e => e) hh.extras hf r
  rw [hh.back] at this
  exact this

theorem epilogue_none {lb : Bool} {h : Head} (hh : HeadOk lb h) : epilogue h.extra = [] := by
  unfold epilogue
  rw [List.filter_eq_nil_iff]
  intro t ht
  obtain ⟨n, as, c, rfl, h1, _⟩ := hh.extra t ht
  have : ∀ n ∈ preludeNames, n ∉ epilogueNames := by decide +kernel
  simpa using (show nodeName (.tag n as c) ∉ epilogueNames from this n h1)

theorem sheet_tokens (fl : Floats) (defStyle : ValueType → Option String) (lb : Bool) (h : Head) (hh : HeadOk lb h)
    (s : TSheet) (hs : SheetOk fl lb s) (hw : s.colHeader.WF) (evs : List TEv) (he : writeSheet s = .ok evs) :
    tokenize (output lb (tableCalls fl defStyle h evs)) = some (tableToks fl defStyle lb h evs) := by
  have hf : ∀ e ∈ evs, Fits fl lb id e := fun e hm => fits_of_within fl lb s hs e
    (within_sheet _ s hs.small hs.cells.rows hw evs he e hm)
  have hc := tableItems_calls fl defStyle lb id h evs hf
  rw [epilogue_none hh] at hc
  have hnil : extraItems [] = [] := rfl
  rw [hnil, List.append_nil] at hc
  rw [← hc, tok_fragment lb _ (tableItems_valid fl defStyle lb id h evs hf hh.extras) ?_]
  · rfl
  · intro i hi
    unfold tableItems at hi
    rw [← List.append_assoc, ← List.cons_append, List.getLast?_append] at hi
    have : i = .end false tTable := by simpa using hi.symm
    subst this; exact id

/-- **C64**, exactly: reading the text of a sheet gives the attributes of the sheet, and of its body what the rules
for rows, columns and cells give (`readTable`, the subject of C12 to C25).  The file is refused if and only if
these refuse it. -/
theorem C64_exact (fl : Floats) (m : Refs.Ints) (hm : m.max = Refs.Spec.maxU32) (o : Opts)
    (defStyle : ValueType → Option String) (lb : Bool) (h : Head) (hh : HeadOk lb h) (s : TSheet)
    (hs : SheetOk fl lb s) (hw : s.colHeader.WF) (evs : List TEv) (he : writeSheet s = .ok evs) :
    ∃ text, sheetText fl defStyle lb h s = .ok text
      ∧ (∀ s', readTable (absOpts id defStyle o) evs = some s' → readSheetText fl m o text = .ok (h, s'))
      ∧ (readTable (absOpts id defStyle o) evs = none → ∃ e, readSheetText fl m o text = .error e) := by
  refine ⟨output lb (tableCalls fl defStyle h evs), by unfold sheetText; rw [he]; rfl, ?_⟩
  unfold readSheetText
  rw [sheet_tokens fl defStyle lb h hh s hs hw evs he]
  obtain ⟨h1, h2⟩ := sheet_reads fl m hm o defStyle lb h hh s hs hw evs he []
  rw [List.append_nil] at h1 h2
  refine ⟨?_, ?_⟩
  · intro s' hs'
    simp only [h1 s' hs']
    rfl
  · intro hn
    obtain ⟨e, he⟩ := h2 hn
    refine ⟨e, ?_⟩
    simp only [he]
    rfl

/-- What the abstract reader makes of the tags of a sheet. -/
theorem same_sheet (fl : Floats) (defStyle : ValueType → Option String) (lb : Bool) (s : TSheet)
    (hs : SheetOk fl lb s) (hf : SheetFits s) (ignoreEmpty : Bool) :
    ∃ evs s', writeSheet s = .ok evs ∧ readTable (absOpts id defStyle ⟨ignoreEmpty, false⟩) evs = some s'
      ∧ SameSheet ignoreEmpty defStyle s s' := by
  obtain ⟨evs, s', a1, a2, _, a4, a5, a6, a7⟩ := table_roundtrip s hs.cells hf.cols hf.rows hf.cellClash hf.rowClash
    (absOpts id defStyle ⟨ignoreEmpty, false⟩)
  obtain ⟨c1, c2, c3⟩ := C12_grid_partial s s' (absOpts id defStyle ⟨ignoreEmpty, false⟩) evs hs.cells.sorted
    hs.cells.rows hs.cells.rep hf.big hf.cols.wf hf.cols.nogap rfl a1 a2
  have hcols := C19_columns_partial s s' (absOpts id defStyle ⟨ignoreEmpty, false⟩) evs hs.cells hf.cols.wf
    hf.cols.nogap hf.hole a1 a2
  refine ⟨evs, s', a1, a2, a4, a5, a6, a7, ?_, ?_, ?_, ?_, ?_⟩
  · intro r c k hc hk
    exact hcols k (.inl ⟨r, c, hc, hk⟩)
  · intro r c v hv
    obtain ⟨d, x, g1, g2, rfl⟩ := c1 r c v hv
    refine ⟨d, g1, ?_⟩
    have : x = decode id defStyle d := by
      have : some (decode id defStyle d) = some x := g2
      exact (Option.some.inj this).symm
    subst this
    show ({ (decode id defStyle d).toContent with «repeat» := 1 } : CellContent) = _
    rw [decode_content]
  · intro r c d hd hne
    refine ⟨_, c2 r c d (decode id defStyle d) hd rfl (by rw [decode_isEmpty]; exact hne), ?_⟩
    show ({ (decode id defStyle d).toContent with «repeat» := 1 } : CellContent) = _
    rw [decode_content]
  · intro hie r c d hd h1 h2 h3
    have e : (decode id defStyle d).style = outStyle defStyle d := congrArg CellContent.style 
      (decode_content defStyle d)
    have hrep : r < r + s.repeatOf r := by
      have : 1 ≤ s.repeatOf r := Nat.le_max_left _ _
      omega
    refine ⟨_, c3 r r c d (decode id defStyle d) hd (Nat.le_refl _) hrep h1 rfl hie (by rw [e]; exact h2)
      (by rw [e]; exact h3), ?_⟩
    show ({ (decode id defStyle d).toContent with «repeat» := 1 } : CellContent) = _
    rw [decode_content]
  · intro r r0 hc he
    obtain ⟨c, d, hd, hne⟩ := he
    refine C20_content_partial s s' (absOpts id defStyle ⟨ignoreEmpty, false⟩) evs hs.cells ?_ hf.cols.wf rfl a1 a2 r r0
      hc ⟨c, d, decode id defStyle d, hd, rfl, by rw [decode_isEmpty]; exact hne⟩
    intro q hq
    obtain ⟨cc, dd, hdd⟩ := hq
    exact hf.big (_, _) ((get?_eq_some_iff hs.cells.sorted).mp hdd)

/-- **C64 (partial).** A sheet whose cells, repeats, groups and header ranges fit together is written as a text, and
reading the text gives a sheet with the same name, style, print ranges, print flag, display flag and foreign
elements, the same row and column groups, the same header rows and columns, with the same attributes of the
columns in use, and in whose grid each cell shows what it showed before.

Missing (`_partial`): the limits of C12, C15, C16, C19, C24 and C26, print ranges `Some([])` (which come back as
`None`), foreign elements behind the rows (`C65_moved_counterexample`) or in a flat file. -/
theorem C64_sheet_partial (fl : Floats) (m : Refs.Ints) (hm : m.max = Refs.Spec.maxU32) (ignoreEmpty : Bool)
    (defStyle : ValueType → Option String) (lb : Bool) (h : Head) (hh : HeadOk lb h) (s : TSheet)
    (hs : SheetOk fl lb s) (hf : SheetFits s) :
    ∃ text s', sheetText fl defStyle lb h s = .ok text
      ∧ readSheetText fl m ⟨ignoreEmpty, false⟩ text = .ok (h, s') ∧ SameSheet ignoreEmpty defStyle s s' := by
  obtain ⟨evs, s', a1, a2, a3⟩ := same_sheet fl defStyle lb s hs hf ignoreEmpty
  obtain ⟨text, b1, b2, _⟩ := C64_exact fl m hm ⟨ignoreEmpty, false⟩ defStyle lb h hh s hs hf.cols.wf evs a1
  exact ⟨text, s', b1, b2 s' a2, a3⟩

/-! ## Examples -/

/-- A head with everything. -/
def fullHead : Head :=
  { name := "A & <B>".toList, style := some "ta1".toList, ranges := some [Refs.sampleRange], print := false
    display := false, extra := [.tag "table:title".toList [] [.text "Title".toList]] }

theorem fullHead_ok : HeadOk false fullHead where
  ranges := by
    intro l hl
    cases hl
    refine ⟨by simp, ?_⟩
    intro r hr
    have : r = Refs.sampleRange := by simpa using hr
    rw [this]; exact Refs.sampleRange_good.1
  flat := .inl rfl
  extra := by
    intro t ht
    have : t = .tag "table:title".toList [] [.text "Title".toList] := by simpa [fullHead] using ht
    subst this
    refine ⟨_, _, _, rfl, by decide, ⟨by decide, by simp, trivial, trivial⟩, ⟨trivial, trivial⟩, ?_, trivial, trivial⟩
    refine ⟨by decide, by decide, ?_, trivial⟩
    intro t c e; cases e

theorem fullSheet_ok (fl : Floats) (lb : Bool) : SheetOk fl lb fullSheet where
  cells := fullSheet_cells
  small := ⟨by decide, by decide, by decide, by decide, by decide, by decide⟩
  kept := by
    have h0 : ∀ q ∈ fullSheet.data, (q.2.extra.getD {}).annotation = none ∧ (q.2.extra.getD {}).drawFrames = []
        ∧ SpanOk (q.2.extra.getD {}).span ∧ SpanOk (q.2.extra.getD {}).matrixSpan := by
      unfold SpanOk
      decide
    have h1 : ∀ q ∈ fullSheet.data, CellOk lb q.2 := by
      intro q hq
      obtain ⟨ha, hd, hs, hm⟩ := h0 q hq
      exact cellOk_plain lb q.2 ha hd hs hm
    have h2 : ∀ q ∈ fullSheet.data, q.2.value = .boolean true := by decide
    intro q hq
    refine ⟨h1 q hq, ?_⟩
    rw [h2 q hq]
    trivial

theorem fullSheet_fits : SheetFits fullSheet :=
  ⟨fullSheet_cols, fullSheet_rows, fullSheet_cellClash, fullSheet_rowClash, by decide, fullSheet_noHole⟩

/-- The sheet with groups, header rows, repeats and spans meets all hypotheses. -/
theorem C64_meets (fl : Floats) : ∃ text s', sheetText fl (fun _ => none) false fullHead fullSheet = .ok text
    ∧ readSheetText fl Refs.checked {} text = .ok (fullHead, s')
    ∧ s'.headerRows = some ⟨1, 2⟩ ∧ s'.colHeader.attrs 1 = fullSheet.colHeader.attrs 1
    ∧ ∃ v, s'.data.get? (2, 0) = some v ∧ v.value = .boolean true := by
  obtain ⟨text, s', h1, h2, _, _, h5, _, h7, _, h9⟩ := C64_sheet_partial fl Refs.checked rfl false (fun _ => none) false
    fullHead fullHead_ok fullSheet (fullSheet_ok fl false) fullSheet_fits
  refine ⟨text, s', h1, h2, h5, h7 4 1 1 (by decide) (by decide), ?_⟩
  obtain ⟨v, hv, hc⟩ := h9 2 0 { value := .boolean true }
    ⟨1, 0, by decide, by decide, by decide, by decide, by decide⟩ (by decide)
  exact ⟨v, hv, congrArg CellContent.value hc⟩

/-! ## Where it fails -/

/-- A file that ends inside a table: the reader waits for the end of the table forever. -/
theorem C64_endless_counterexample :
    readSheetText bitFloats Refs.checked {} "<table:table table:name=\"a\"><table:table-row>".toList
      = .error .endless := by
  decide +kernel

/-- A column that another program has written with a start tag and an end tag is not read, the following columns
take its place. -/
theorem C64_column_counterexample :
    ((readSheetText bitFloats Refs.checked {}
      "<table:table table:name=\"a\"><table:table-column table:style-name=\"x\"></table:table-column><table:table-column table:style-name=\"y\"/></table:table>".toList).toOption.map
      fun p => p.2.colHeader.colstyle 0) = some (some "y") := by
  decide +kernel

/-- Print ranges without a range come back as no print ranges. -/
theorem C64_no_ranges_counterexample :
    ((sheetText bitFloats (fun _ => none) false { name := "a".toList, ranges := some [] } {}).toOption.bind
      fun text => (readSheetText bitFloats Refs.checked {} text).toOption.map fun p => (p.1.name, p.1.ranges))
      = some ("a".toList, none) := by
  decide +kernel

end Verif.TableXml
