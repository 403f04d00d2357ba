import Verif.TableXml.OtherTable
import Verif.Grid.Accept

/-!
# C105: tables of other programs

What is read for a table element of any file.
-/

set_option autoImplicit false

namespace Verif.TableXml

open Xml Xml.Spec Verif.Codec

/-- **C105 (partial)**: a table of any file, with its rows, columns, groups, headers and cells in place and
anything else between them, is read.  Each cell of the sheet is in the file at its place, and each cell of the
file that has a content is in the sheet, with the value, formula, style, annotation and frames that the file
has.  Missing: the copies of rows that are repeated more than 1000 times (`C103_thousand_counterexample`),
columns with an end tag (`C105_column_counterexample`). -/
theorem C105_cells_partial (fl : Floats) (m : Refs.Ints) (o : Opts) (ho : o.useRepeat = false)
    (as : List (Str × Str)) (c : List El) (ha : HeadReadable m as) (hc : TableOkIn fl c)
    (t : FileTable) (hev : tagsIn fl c = t.events) (ht : t.OK) (hop : t.Opened)
    (hbig : ∀ r ∈ t.rows, r.tag.repeated.getD 1 ≤ 1000) (rest : List Event) :
    ∃ s, readTableXml fl m o ((El.elem tTable as c).events ++ rest)
        = .ok (({ headSaid m as with extra := keptIn c }, s), rest)
      ∧ (∀ r k v, s.data.get? (r, k) = some v → ∃ x, t.cellAt r k = some x ∧ v = { x with «repeat» := 1 })
      ∧ (∀ r k x, t.cellAt r k = some x → x.isEmpty = false → s.data.get? (r, k) = some { x with «repeat» := 1 }) := by
  have hb := El.balancedIn fl c [] []
  rw [List.append_nil, hev] at hb
  obtain ⟨s, hs⟩ := C105_accepts t ht hop hb o.abs
  have hmain := C105_table fl m o as c ha hc rest
  rw [hev, hs] at hmain
  refine ⟨s, hmain, ?_, ?_⟩
  · intro r k v hv
    obtain ⟨x, h1, h2⟩ := C103_only t ht o.abs ho s hs r k v hv
    refine ⟨x, ?_, h2⟩
    rw [← h1]
    cases t.cellAt r k <;> rfl
  · intro r k x hx hne
    refine C103_cells_partial t ht o.abs ho hbig s hs r k x ?_ hne
    rw [hx]
    rfl

theorem tagsIn_append (fl : Floats) (a b : List El) : tagsIn fl (a ++ b) = tagsIn fl a ++ tagsIn fl b := by
  induction a with
  | nil => rfl
  | cons e a ih => rw [List.cons_append, tagsIn, tagsIn, ih, List.append_assoc]

theorem keptIn_append (a b : List El) : keptIn (a ++ b) = keptIn a ++ keptIn b := by
  induction a with
  | nil => rfl
  | cons e a ih => rw [List.cons_append, keptIn, keptIn, ih, List.append_assoc]

/-- **C105**, the spelling: a cell without content is the same with an end tag and without one. -/
theorem C105_spelling (fl : Floats) (m : Refs.Ints) (o : Opts) (as : List (Str × Str)) (ha : HeadReadable m as)
    (pre post : List El) (b : Bool) (cs : List (Str × Str))
    (hc : TableOkIn fl (pre ++ El.void (cellTag b) cs :: post))
    (hc' : TableOkIn fl (pre ++ El.elem (cellTag b) cs [] :: post)) (rest : List Event) (x) :
    readTableXml fl m o ((El.elem tTable as (pre ++ El.void (cellTag b) cs :: post)).events ++ rest) = .ok x
      ↔ readTableXml fl m o ((El.elem tTable as (pre ++ El.elem (cellTag b) cs [] :: post)).events ++ rest) = .ok x := by
  have h1 := C105_table fl m o as _ ha hc rest
  have h2 := C105_table fl m o as _ ha hc' rest
  have hk : kindOf (cellTag b) = .cell b := by cases b <;> decide +kernel
  have e1 : tagsIn fl (pre ++ El.void (cellTag b) cs :: post) = tagsIn fl (pre ++ El.elem (cellTag b) cs [] :: post) := by
    rw [tagsIn_append, tagsIn_append, tagsIn, tagsIn, El.tags, El.tags, hk]
  have e2 : keptIn (pre ++ El.void (cellTag b) cs :: post) = keptIn (pre ++ El.elem (cellTag b) cs [] :: post) := by
    rw [keptIn_append, keptIn_append, keptIn, keptIn, El.kept, El.kept, hk]
  rw [e1, e2] at h1
  cases hr : readTable o.abs (tagsIn fl (pre ++ El.elem (cellTag b) cs [] :: post)) with
  | none =>
    rw [hr] at h1 h2
    obtain ⟨e, h1⟩ := h1
    obtain ⟨e', h2⟩ := h2
    rw [h1, h2]
    constructor <;> intro h <;> cases h
  | some s =>
    rw [hr] at h1 h2
    rw [h1, h2]

/-- C105 fails for columns: a column that is written as `<table:table-column ...></table:table-column>`, which
is the same XML as `<table:table-column .../>`, is lost, with its style, its width and its repeat count.  The
file is read as if it were not there. -/
theorem C105_column_counterexample (fl : Floats) (m : Refs.Ints) (o : Opts) (as : List (Str × Str))
    (ha : HeadReadable m as) (pre post : List El) (cs : List (Str × Str))
    (hc : TableOkIn fl (pre ++ El.elem tColumn cs [] :: post)) (hc' : TableOkIn fl (pre ++ post)) (rest : List Event)
    (x) :
    readTableXml fl m o ((El.elem tTable as (pre ++ El.elem tColumn cs [] :: post)).events ++ rest) = .ok x
      ↔ readTableXml fl m o ((El.elem tTable as (pre ++ post)).events ++ rest) = .ok x := by
  have h1 := C105_table fl m o as _ ha hc rest
  have h2 := C105_table fl m o as _ ha hc' rest
  have hk : kindOf tColumn = .column := by decide +kernel
  have e1 : tagsIn fl (pre ++ El.elem tColumn cs [] :: post) = tagsIn fl (pre ++ post) := by
    rw [tagsIn_append, tagsIn_append, tagsIn, El.tags, hk]
    rfl
  have e2 : keptIn (pre ++ El.elem tColumn cs [] :: post) = keptIn (pre ++ post) := by
    rw [keptIn_append, keptIn_append, keptIn, El.kept, hk]
    rfl
  rw [e1, e2] at h1
  cases hr : readTable o.abs (tagsIn fl (pre ++ post)) with
  | none =>
    rw [hr] at h1 h2
    obtain ⟨e, h1⟩ := h1
    obtain ⟨e', h2⟩ := h2
    rw [h1, h2]
    constructor <;> intro h <;> cases h
  | some s =>
    rw [hr] at h1 h2
    rw [h1, h2]

/-- C105 fails for a table whose first part is a header or a group without rows: it cannot be read (the
program ends with an overflow, or has a range that ends before its start). -/
theorem C105_empty_counterexample (fl : Floats) (m : Refs.Ints) (o : Opts) (as gs : List (Str × Str))
    (ha : HeadReadable m as) (c : List El) (rest : List Event)
    (hc : TableOkIn fl (El.elem tHeaderRows gs [] :: c)) :
    ∃ e, readTableXml fl m o ((El.elem tTable as (El.elem tHeaderRows gs [] :: c)).events ++ rest) = .error e := by
  have h1 := C105_table fl m o as _ ha hc rest
  have hk : kindOf tHeaderRows = .headerRows := by decide +kernel
  have e1 : tagsIn fl (El.elem tHeaderRows gs [] :: c) = .headerStart :: .headerEnd :: tagsIn fl c := by
    rw [tagsIn, El.tags, hk]
    rfl
  have hn : readTable o.abs (tagsIn fl (El.elem tHeaderRows gs [] :: c)) = none := by
    rw [e1]
    unfold readTable
    rw [show readEvents o.abs {} (.headerStart :: .headerEnd :: tagsIn fl c) = none from rfl]
    split <;> rfl
  rw [hn] at h1
  exact h1

/-! ## A table as other programs write it -/

def stringAttrs : List (Str × Str) :=
  [("office:value-type".toList, "string".toList), ("calcext:value-type".toList, "string".toList)]
def twiceAttrs : List (Str × Str) := [("table:number-columns-repeated".toList, "2".toList)]
def colAttrs : List (Str × Str) :=
  [("table:style-name".toList, "co1".toList), ("table:number-columns-repeated".toList, "2".toList)]
def row1Attrs : List (Str × Str) := [("table:style-name".toList, "ro1".toList)]
def row2Attrs : List (Str × Str) :=
  [("table:number-rows-repeated".toList, "3".toList), ("table:visibility".toList, "collapse".toList)]
def headAttrs : List (Str × Str) := [("table:style-name".toList, "ta1".toList), ("table:name".toList, "A &amp; B".toList)]
def nTitle : Str := "table:title".toList
def nRows : Str := "table:table-rows".toList
def nBreak : Str := "text:soft-page-break".toList
def nNamed : Str := "table:named-expressions".toList

/-- A table with a title, columns, a header row inside of an element that is not known, a row that is repeated,
a page break, a cell with paragraphs, an annotation and a picture, and named expressions behind the rows. -/
def officeTable : List El :=
  [.text "\n".toList,
    .elem nTitle [] [.text "t".toList],
    .void tColumn colAttrs,
    .elem nRows []
      [.elem tHeaderRows [] [.elem tRow row1Attrs [.void (cellTag false) twiceAttrs]],
        .void nBreak []],
    .elem tRow row2Attrs
      [.elem (cellTag false) stringAttrs officeContent,
        .void (cellTag true) []],
    .elem nNamed [] []]

/-- Its cell. -/
def officeCellData : CellContent :=
  { value := .textXml [.tag tPara [] [.text "a&".toList, .tag "text:span".toList [] [.text "b".toList]]]
    formula := none, style := none, validation := none, span := {}, matrixSpan := {}, «repeat» := 1
    annotation := some officeNote, drawFrames := [officeFrame] }

/-- The cells that have nothing. -/
def noCellData : CellContent :=
  { value := .empty, formula := none, style := none, validation := none, span := {}, matrixSpan := {}
    «repeat» := 1, annotation := none, drawFrames := [] }

/-- Its rows and columns. -/
def officeRows : FileTable :=
  { cols := [.column { style := some "co1", repeated := some 2 }]
    rows :=
      [{ marks := [.headerStart], tag := { style := some "ro1" }
         cells := [{ repeated := some 2, body := some noCellData.toData }] },
       { marks := [.headerEnd], tag := { repeated := some 3, visibility := some .collapsed }
         cells := [{ body := some officeCellData.toData }, { covered := true, body := some noCellData.toData }] }] }

theorem meaning_none (fl : Floats) (as : List (Str × Str)) (h : attrText as "office:value-type" = none)
    (x : Option Value) : Codec.meaning fl as x = some .empty := by
  unfold Codec.meaning
  rw [h]

theorem meaning_string (fl : Floats) (as : List (Str × Str))
    (h : attrText as "office:value-type" = some "string".toList) (h2 : attrText as "office:string-value" = none)
    (x : Option Value) : Codec.meaning fl as x = some (x.getD .empty) := by
  unfold Codec.meaning
  rw [h, h2]
  simp only
  rw [if_neg (by decide), if_neg (by decide), if_neg (by decide), if_neg (by decide), if_neg (by decide),
    if_neg (by decide), if_pos trivial]

theorem officeCell_readable (fl : Floats) : CellReadable fl (cellTag false) stringAttrs officeContent := by
  refine ⟨by decide +kernel, ?_, officeContent_ok, ?_⟩
  · apply (attrs_ok fl stringAttrs {}).1
    exact ⟨_, rfl⟩
  · rw [meaning_string fl stringAttrs (by decide +kernel) (by decide +kernel)]
    rfl

theorem voidCell_readable (fl : Floats) (b : Bool) (as : List (Str × Str)) (hnd : (as.map Prod.fst).Nodup)
    (hr : ∃ s, cellAttrs fl {} as = .ok s) (h : attrText as "office:value-type" = none) :
    CellReadable fl (cellTag b) as [] := by
  refine ⟨hnd, (attrs_ok fl as {}).1 hr, nofun, ?_⟩
  rw [meaning_none fl as h]
  rfl

theorem twice_readable (fl : Floats) : CellReadable fl (cellTag false) twiceAttrs [] :=
  voidCell_readable fl false twiceAttrs (by decide +kernel) ⟨_, rfl⟩ (by decide +kernel)

theorem kinds : kindOf nTitle = .extra ∧ kindOf nNamed = .extra ∧ kindOf nRows = .other ∧ kindOf nBreak = .other
    ∧ kindOf tColumn = .column ∧ kindOf tHeaderRows = .headerRows ∧ kindOf tRow = .row
    ∧ kindOf (cellTag false) = .cell false ∧ kindOf (cellTag true) = .cell true := by decide +kernel

theorem not_tables : nTitle ≠ tTable ∧ nNamed ≠ tTable ∧ nRows ≠ tTable ∧ tHeaderRows ≠ tTable ∧ tRow ≠ tTable
    ∧ cellTag false ≠ tTable := by decide +kernel

/-- The conditions hold. -/
theorem officeTable_ok (fl : Floats) : TableOkIn fl officeTable := by
  obtain ⟨k1, k2, k3, k4, k5, k6, k7, k8, k9⟩ := kinds
  obtain ⟨n1, n2, n3, n4, n5, n6⟩ := not_tables
  have hcol : LineReadable "table:number-columns-repeated" colAttrs := by
    unfold LineReadable
    decide +kernel
  have hrow1 : LineReadable "table:number-rows-repeated" row1Attrs := by
    unfold LineReadable
    decide +kernel
  have hrow2 : LineReadable "table:number-rows-repeated" row2Attrs := by
    unfold LineReadable
    decide +kernel
  have hcov : CellReadable fl (cellTag true) [] [] := voidCell_readable fl true [] (by decide) ⟨_, rfl⟩ rfl
  have hesc : Escaped [] := rfl
  simp only [officeTable, TableOkIn, El.TableOk, k1, k2, k3, k4, k5, k6, k7, k8, k9]
  exact ⟨trivial, ⟨n1, hesc, ⟨trivial, trivial⟩, ⟨trivial, trivial⟩⟩, hcol,
    ⟨n3, ⟨n4, ⟨n5, hrow1, twice_readable fl, trivial⟩, trivial⟩, trivial, trivial⟩,
    ⟨n5, hrow2, ⟨n6, officeCell_readable fl⟩, hcov, trivial⟩, ⟨n2, hesc, trivial, trivial⟩, trivial⟩

theorem said_none (fl : Floats) (as : List (Str × Str)) (c : List El) (x : CellContent)
    (hv : Codec.meaning fl as (cellText (parasIn c)) = some x.value)
    (h : CellFacts as x) (ha : x.annotation = (notesIn c).getLast?) (hd : x.drawFrames = framesIn c)
    (h1 : x.repeat = 1) : (cellSaid fl as c).map CellContent.toData = some x.toData := by
  rw [cellSaid_of hv h ha hd h1]
  rfl

/-- And these are its rows. -/
theorem officeTable_rows (fl : Floats) : tagsIn fl officeTable = officeRows.events := by
  obtain ⟨k1, k2, k3, k4, k5, k6, k7, k8, k9⟩ := kinds
  obtain ⟨o1, o2, o3⟩ := officeContent_says
  have hc : (cellSaid fl stringAttrs officeContent).map CellContent.toData = some officeCellData.toData := by
    refine said_none fl _ _ _ ?_ ?_ ?_ ?_ rfl
    · rw [meaning_string fl stringAttrs (by decide +kernel) (by decide +kernel), o1]
      rfl
    · exact ⟨by decide +kernel, by decide +kernel, by decide +kernel, by decide +kernel, by decide +kernel, by decide +kernel, by decide +kernel⟩
    · rw [o2]; rfl
    · rw [o3]; rfl
  have h2 : (cellSaid fl twiceAttrs []).map CellContent.toData = some noCellData.toData := by
    refine said_none fl _ _ _ (meaning_none fl _ (by decide +kernel) _) ?_ rfl rfl rfl
    exact ⟨by decide +kernel, by decide +kernel, by decide +kernel, by decide +kernel, by decide +kernel, by decide +kernel, by decide +kernel⟩
  have h3 : (cellSaid fl [] []).map CellContent.toData = some noCellData.toData := by
    refine said_none fl _ _ _ (meaning_none fl _ (by decide +kernel) _) ?_ rfl rfl rfl
    exact ⟨by decide +kernel, by decide +kernel, by decide +kernel, by decide +kernel, by decide +kernel, by decide +kernel, by decide +kernel⟩
  have r0 : colSaid colAttrs = { style := some "co1", repeated := some 2 } := by decide +kernel
  have r1 : rowSaid row1Attrs = { style := some "ro1" } := by decide +kernel
  have r2 : rowSaid row2Attrs = { repeated := some 3, visibility := some .collapsed } := by decide +kernel
  have c1 : (attrText twiceAttrs "table:number-columns-repeated").bind parseU32 = some 2 := by decide +kernel
  have c2 : (attrText stringAttrs "table:number-columns-repeated").bind parseU32 = none := by decide +kernel
  have c3 : (attrText [] "table:number-columns-repeated").bind parseU32 = none := rfl
  simp only [officeTable, tagsIn, El.tags, k1, k2, k3, k4, k5, k6, k7, k8, k9, cellEv, hc, h2, h3, r0, r1, r2, c1, c2, c3]
  rfl

theorem officeRows_ok : officeRows.OK :=
  ⟨by decide, by
    intro c hc
    simp only [officeRows, List.mem_cons, TEv.column.injEq, List.not_mem_nil, or_false] at hc
    subst hc; decide, by decide, by decide, by decide, by decide⟩

theorem officeRows_opened : officeRows.Opened := ⟨by decide, by decide⟩

/-- `C105_cells_partial` says that this table is read, and where its text is: in the rows 1 to 3. -/
example (fl : Floats) (m : Refs.Ints) (rest : List Event) :
    ∃ s, readTableXml fl m {} ((El.elem tTable headAttrs officeTable).events ++ rest)
        = .ok (({ name := "A & B".toList, style := some "ta1".toList
                  extra := [.tag nTitle [] [.text "t".toList], .tag nNamed [] []] }, s), rest)
      ∧ s.data.get? (3, 0) = some officeCellData.toData := by
  obtain ⟨s, h1, h2, h3⟩ := C105_cells_partial fl m {} rfl headAttrs officeTable
    ⟨by decide +kernel, fun a ha => by
      simp only [headAttrs, List.mem_cons, List.not_mem_nil, or_false] at ha
      rcases ha with rfl | rfl
      · exact ⟨fun _ => by decide +kernel, fun h => absurd h (by decide +kernel), fun h => absurd h (by decide +kernel)⟩
      · exact ⟨fun _ => by decide +kernel, fun h => absurd h (by decide +kernel), fun h => absurd h (by decide +kernel)⟩⟩
    (officeTable_ok fl) officeRows (officeTable_rows fl) officeRows_ok officeRows_opened (by decide) rest
  refine ⟨s, ?_, h3 3 0 _ rfl (by decide +kernel)⟩
  rw [h1]
  have hh : headSaid m headAttrs = { name := "A & B".toList, style := some "ta1".toList } := by
    have e1 : ((attrText headAttrs "table:name").bind unescape).getD [] = "A & B".toList := by decide +kernel
    have e2 : (attrText headAttrs "table:style-name").bind unescape = some "ta1".toList := by decide +kernel
    have e3 : attrText headAttrs "table:print-ranges" = none := by decide +kernel
    have e4 : attrText headAttrs "table:print" = none := by decide +kernel
    have e5 : attrText headAttrs "table:display" = none := by decide +kernel
    unfold headSaid
    rw [e1, e2, e3, e4, e5]
    rfl
  have hkept : keptIn officeTable = [.tag nTitle [] [.text "t".toList], .tag nNamed [] []] := by
    decide +kernel
  rw [hh, hkept]

/-- The conditions of the two counterexamples and of `C105_spelling` hold for changes of this table. -/
example (fl : Floats) : TableOkIn fl ([] ++ El.elem tColumn colAttrs [] :: officeTable)
    ∧ TableOkIn fl ([] ++ officeTable) ∧ TableOkIn fl (El.elem tHeaderRows [] [] :: officeTable)
    ∧ TableOkIn fl ([] ++ El.void (cellTag false) twiceAttrs :: officeTable)
    ∧ TableOkIn fl ([] ++ El.elem (cellTag false) twiceAttrs [] :: officeTable) := by
  obtain ⟨k1, k2, k3, k4, k5, k6, k7, k8, k9⟩ := kinds
  obtain ⟨n1, n2, n3, n4, n5, n6⟩ := not_tables
  have h := officeTable_ok fl
  simp only [List.nil_append, TableOkIn, El.TableOk, k5, k6, k8]
  exact ⟨⟨⟨by decide +kernel, trivial⟩, h⟩, h, ⟨⟨n4, trivial⟩, h⟩, ⟨twice_readable fl, h⟩,
    ⟨n6, twice_readable fl⟩, h⟩

end Verif.TableXml
