import Verif.Store.Content
import Verif.Whole.Model

/-!
# Cells that stand nowhere (C99)

A cell whose repeat count is 0 is in the sheet and not in the file.
-/

set_option autoImplicit false

namespace Verif

open OMap

/-- Not in the file: no repeat and nothing that is stored apart. -/
def CellData.Nowhere (d : CellData) : Prop := d.repeat = 0 ∧ d.extra = none

/-- Cells at the same places; where they differ they are nowhere. -/
inductive SameWhereSeen : Cells → Cells → Prop
  | nil : SameWhereSeen [] []
  | cons {a b : (Nat × Nat) × CellData} {l m : Cells} :
    (a.1 = b.1 ∧ (a.2 = b.2 ∨ (a.2.Nowhere ∧ b.2.Nowhere))) → SameWhereSeen l m → SameWhereSeen (a :: l) (b :: m)

theorem SameWhereSeen.refl (m : Cells) : SameWhereSeen m m := by
  induction m with
  | nil => exact .nil
  | cons p m ih => exact .cons ⟨rfl, Or.inl rfl⟩ ih

theorem sameWhereSeen_insert (m : Cells) (k : Nat × Nat) (a b : CellData) (ha : a.Nowhere) (hb : b.Nowhere) :
    SameWhereSeen (m.insert k a) (m.insert k b) := by
  induction m with
  | nil => exact .cons ⟨rfl, Or.inr ⟨ha, hb⟩⟩ .nil
  | cons p m ih =>
    obtain ⟨k', v⟩ := p
    simp only [OMap.insert]
    split
    · exact .cons ⟨rfl, Or.inr ⟨ha, hb⟩⟩ (SameWhereSeen.refl m)
    · split
      · exact .cons ⟨rfl, Or.inr ⟨ha, hb⟩⟩ (SameWhereSeen.refl _)
      · exact .cons ⟨rfl, Or.inl rfl⟩ ih

theorem SameWhereSeen.length {a b : Cells} (h : SameWhereSeen a b) : a.length = b.length := by
  induction h with
  | nil => rfl
  | cons _ _ ih => simp [ih]

theorem SameWhereSeen.usedGridSize {a b : Cells} (h : SameWhereSeen a b) :
    a.usedGridSize = b.usedGridSize := by
  have : ∀ z : Nat × Nat, a.foldl (fun mx p => (Nat.max mx.1 p.1.1, Nat.max mx.2 p.1.2)) z
      = b.foldl (fun mx p => (Nat.max mx.1 p.1.1, Nat.max mx.2 p.1.2)) z := by
    induction h with
    | nil => intro z; rfl
    | cons h _ ih =>
      intro z
      simp only [List.foldl_cons, h.1]
      exact ih _
  unfold Cells.usedGridSize
  rw [this]

theorem splitHidden_zero (ranges : List CellRange) (row col : Nat) : splitHidden ranges row col 0 = [] := by
  simp [splitHidden]

theorem writeGapRows_data (s : TSheet) (data : Cells) (mx : Nat × Nat) (n : Nat) : ∀ (r : Nat) (g : GState),
    writeGapRows { s with data := data } mx r n g = writeGapRows s mx r n g := by
  induction n with
  | zero => intro r g; rfl
  | succ n ih =>
    intro r g
    simp only [writeGapRows, ih]
    rfl

theorem writeRowChange_data (s : TSheet) (data : Cells) (mx : Nat × Nat) (st : WState) (r c : Nat) :
    writeRowChange { s with data := data } mx st r c = writeRowChange s mx st r c := by
  unfold writeRowChange writeEmptyRowsBefore
  simp only [writeGapRows_data]
  rfl

theorem writeLoop_same (s : TSheet) (da db : Cells) (mx : Nat × Nat) {a b : Cells} (h : SameWhereSeen a b) :
    ∀ st, writeLoop { s with data := da } mx st a = writeLoop { s with data := db } mx st b := by
  induction h with
  | nil => intro st; rfl
  | @cons x y l l' hxy hl ih =>
    intro st
    obtain ⟨⟨r, c⟩, d⟩ := x
    obtain ⟨⟨r', c'⟩, d'⟩ := y
    obtain ⟨e, hd⟩ := hxy
    simp only [Prod.mk.injEq] at e
    obtain ⟨rfl, rfl⟩ := e
    have hd : d = d' ∨ (d.Nowhere ∧ d'.Nowhere) := hd
    have hn : nextCell mx l = nextCell mx l' := by
      cases hl with
      | nil => rfl
      | cons h _ => exact h.1
    have he : List.isEmpty l = List.isEmpty l' := by
      cases hl <;> rfl
    have hr : d.repeat = d'.repeat := by
      rcases hd with h | h
      · rw [h]
      · rw [h.1.1, h.2.1]
    have hp : ∀ sp, pushSpan sp (splitHidden sp r c d.repeat) r c d = pushSpan sp (splitHidden sp r c d'.repeat) r c d' := by
      intro sp
      rcases hd with h | h
      · rw [h]
      · unfold pushSpan; rw [h.1.2, h.2.2]
    have hw : ∀ sp, writeCellPieces d (splitHidden sp r c d.repeat) = writeCellPieces d' (splitHidden sp r c d'.repeat) := by
      intro sp
      rcases hd with h | h
      · rw [h]
      · rw [h.1.1, h.2.1, splitHidden_zero]; rfl
    simp only [writeLoop, writeRowChange_data, hp, hw, hn, he, ih]
    rw [hr]
    rfl

theorem writeColLoop_data (s : TSheet) (data : Cells) (mx : Nat) (n : Nat) : ∀ c,
    writeColLoop { s with data := data } mx n c = writeColLoop s mx n c := by
  induction n with
  | zero => intro c; rw [writeColLoop, writeColLoop]
  | succ n ih =>
    intro c
    rw [writeColLoop, writeColLoop]
    simp only [ih]
    rfl

theorem writeSheet_same (s : TSheet) (da db : Cells) (h : SameWhereSeen da db) :
    writeSheet { s with data := da } = writeSheet { s with data := db } := by
  unfold writeSheet writeTable writeCols writeRows
  have hc : ∀ d : Cells, colCount { s with data := d, colHeader := prepareCols s.groupCols s.headerCols s.colHeader }
      = match s.headerCols with
        | some h => max (s.groupCols.foldl (fun m g => max m (g.to + 1)) d.usedGridSize.2) (h.to + 1)
        | none => s.groupCols.foldl (fun m g => max m (g.to + 1)) d.usedGridSize.2 := fun _ => rfl
  have h1 := writeColLoop_data { s with colHeader := prepareCols s.groupCols s.headerCols s.colHeader } da
  have h2 := writeColLoop_data { s with colHeader := prepareCols s.groupCols s.headerCols s.colHeader } db
  have h3 := writeLoop_same { s with colHeader := prepareCols s.groupCols s.headerCols s.colHeader } da db
    da.usedGridSize h {}
  simp only at h1 h2 h3 ⊢
  rw [hc da, hc db, h1, h2, ← h.usedGridSize, h3]

/-- A cell with a repeat count of 0 and something that is stored apart cannot be written. -/
theorem writeLoop_panics (s : TSheet) (mx : Nat × Nat) (l : Cells) : ∀ st evs,
    (∃ p ∈ l, p.2.repeat = 0 ∧ p.2.extra ≠ none) → writeLoop s mx st l ≠ .ok evs := by
  induction l with
  | nil => intro st evs h; simp at h
  | cons p l ih =>
    obtain ⟨⟨r, c⟩, d⟩ := p
    intro st evs h hw
    rw [writeLoop] at hw
    split at hw
    · simp at hw
    simp only at hw
    split at hw
    · simp at hw
    rename_i hps
    split at hw
    · simp at hw
    split at hw
    · simp at hw
    rename_i hl
    obtain ⟨q, hq, h0, hx⟩ := h
    rcases List.mem_cons.mp hq with rfl | hq
    · rw [h0, splitHidden_zero] at hps
      unfold pushSpan at hps
      cases he : d.extra with
      | none => exact hx he
      | some x => rw [he] at hps; simp at hps
    · exact ih _ _ ⟨q, hq, h0, hx⟩ hl

theorem writeSheet_panics (s : TSheet) (h : ∃ p ∈ s.data, p.2.repeat = 0 ∧ p.2.extra ≠ none) (evs : List TEv) :
    writeSheet s ≠ .ok evs := by
  intro hw
  unfold writeSheet writeTable at hw
  split at hw
  · simp at hw
  split at hw
  · simp at hw
  rename_i hr
  exact writeLoop_panics _ _ _ _ _ h hr

namespace Whole

open Verif.TableXml (Head)
open Codec

/-- The workbook with a cell put into one of its sheets. -/
def Source.withCell (s : Source) (before after : List (Head × TSheet)) (h : Head) (t : TSheet) (r c : Nat)
    (x : CellContent) : Source :=
  { s with sheets := before ++ (h, { t with data := t.data.addCell r c x }) :: after }

theorem writeSheets_same (before after : List (Head × TSheet)) (h : Head) (a b : TSheet) (e : writeSheet a = writeSheet b) :
    TableXml.writeSheets (before ++ (h, a) :: after) = TableXml.writeSheets (before ++ (h, b) :: after) := by
  induction before with
  | nil => simp only [List.nil_append, TableXml.writeSheets, e]
  | cons p before ih =>
    simp only [List.cons_append, TableXml.writeSheets, ih]

theorem writeSheets_fails (before after : List (Head × TSheet)) (h : Head) (a : TSheet)
    (e : ∀ evs, writeSheet a ≠ .ok evs) : ∀ t, TableXml.writeSheets (before ++ (h, a) :: after) ≠ .ok t := by
  induction before with
  | nil =>
    intro t ht
    simp only [List.nil_append, TableXml.writeSheets] at ht
    split at ht
    · simp at ht
    · rename_i evs he
      exact e evs he
  | cons p before ih =>
    intro t ht
    simp only [List.cons_append, TableXml.writeSheets] at ht
    split at ht
    · simp at ht
    · cases hr : TableXml.writeSheets (before ++ (h, a) :: after) with
      | error w => rw [hr] at ht; simp [Except.map] at ht
      | ok l => exact ih l hr

/-- What is put into a cell by calls that only concern what every cell has: value, formula and style. -/
def Simple (ops : List ContentOp) : Prop := ∀ op ∈ ops,
  match op with
  | .setValue _ | .setFormula _ | .clearFormula | .setStyle _ | .clearStyle => True
  | _ => False

theorem simple_nowhere (ops : List ContentOp) (x y : CellContent) (h : ContentOp.run x ops = some y) (hs : Simple ops)
    (hx : x.toData.Nowhere) : y.toData.Nowhere := by
  induction ops generalizing x with
  | nil =>
    simp only [ContentOp.run, Option.some.injEq] at h
    rw [← h]; exact hx
  | cons op ops ih =>
    rw [ContentOp.run] at h
    cases hz : op.step x with
    | none => rw [hz] at h; simp at h
    | some z =>
      rw [hz] at h
      refine ih z h (fun o ho => hs o (by simp [ho])) ?_
      have h0 := hs op (by simp)
      cases op <;> simp only at h0
      all_goals
        simp only [ContentOp.step, Option.some.injEq] at hz
        subst hz
        exact hx

/-- **C99, where it fails.** Whatever value, formula and style a cell is given, if its repeat count is not set, the
package and the flat file are those of a cell to which nothing was given: none of it is in the file. This holds for all
workbooks, sheets and positions. -/
theorem C99_lost_counterexample (fl : Floats) (ds : ValueType → Option String) (s : Source)
    (before after : List (Head × TSheet)) (h : Head) (t : TSheet) (r c : Nat) (ops : List ContentOp) (x : CellContent)
    (hx : ContentOp.run .new ops = some x) (hs : Simple ops) :
    writePackage fl ds (s.withCell before after h t r c x) = writePackage fl ds (s.withCell before after h t r c .new)
    ∧ writeFlat fl ds (s.withCell before after h t r c x) = writeFlat fl ds (s.withCell before after h t r c .new) := by
  have hn : CellContent.new.toData.Nowhere := ⟨rfl, rfl⟩
  have hd : SameWhereSeen (t.data.addCell r c x) (t.data.addCell r c .new) :=
    sameWhereSeen_insert _ _ _ _ (simple_nowhere ops _ x hx hs hn) hn
  have he := writeSheets_same before after h _ _ (writeSheet_same t _ _ hd)
  have hm : ∀ z : Source, (z.withCell before after h t r c x).calc.metadata = (z.withCell before after h t r c .new).calc.metadata := by
    intro z
    unfold Source.calc Source.withCell
    simp only [List.map_append, List.map_cons, hd.length]
  have hf : ∀ (z : Source) (cs : List Xml.Call) (ts : List (Head × List TEv)) (lb : Bool) (p : Ns.Part),
      fileText fl ds lb ⟨(z.withCell before after h t r c x).calc, cs, ts⟩ p
        = fileText fl ds lb ⟨(z.withCell before after h t r c .new).calc, cs, ts⟩ p := by
    intro z cs ts lb p
    unfold fileText
    have : inner fl ds ⟨(z.withCell before after h t r c x).calc, cs, ts⟩ p
        = inner fl ds ⟨(z.withCell before after h t r c .new).calc, cs, ts⟩ p := by
      cases p <;> simp only [inner, hm] <;> rfl
    rw [this]
    rfl
  have hp : ∀ z : Source, ∃ o : Option (List Xml.Call × List (Head × List TEv)), ∀ y, (y = x ∨ y = .new) →
      parts fl (z.withCell before after h t r c y) = o.map fun q => ⟨(z.withCell before after h t r c y).calc, q.1, q.2⟩ := by
    intro z
    refine ⟨match Config.writeSettings fl z.config, TableXml.writeSheets (z.withCell before after h t r c x).sheets with
      | some a, .ok b => some (a, b)
      | _, _ => none, ?_⟩
    intro y hy
    have h1 : TableXml.writeSheets (z.withCell before after h t r c y).sheets
        = TableXml.writeSheets (z.withCell before after h t r c x).sheets := by
      rcases hy with rfl | rfl
      · rfl
      · exact he.symm
    have h2 : (z.withCell before after h t r c y).sheets.isEmpty = false := by
      simp [Source.withCell]
    unfold parts
    rw [h2, h1, show (z.withCell before after h t r c y).config = z.config from rfl]
    simp only [Bool.false_eq_true, if_false]
    cases Config.writeSettings fl z.config with
    | none => rfl
    | some a => cases TableXml.writeSheets (z.withCell before after h t r c x).sheets <;> rfl
  constructor
  · obtain ⟨o, ho⟩ := hp s
    unfold writePackage
    rw [ho x (Or.inl rfl), ho .new (Or.inr rfl)]
    cases o with
    | none => rfl
    | some q => simp only [Option.map_some, hf]
  · obtain ⟨o, ho⟩ := hp { s with styles := s.styles.convert }
    have hc : ∀ y, ({ s.withCell before after h t r c y with styles := (s.withCell before after h t r c y).styles.convert } : Source)
        = ({ s with styles := s.styles.convert } : Source).withCell before after h t r c y := fun _ => rfl
    unfold writeFlat
    rw [hc, hc, ho x (Or.inl rfl), ho .new (Or.inr rfl)]
    cases o with
    | none => rfl
    | some q => simp only [Option.map_some, hf]

/-- **C99, where it fails.** If the repeat count is not set and the cell has a validation, a span, an annotation or a
drawing, no file can be written at all. -/
theorem C99_panic_counterexample (fl : Floats) (ds : ValueType → Option String) (s : Source)
    (before after : List (Head × TSheet)) (h : Head) (t : TSheet) (r c : Nat) (ops : List ContentOp) (x : CellContent)
    (hx : ContentOp.run .new ops = some x) (hr : ∀ op ∈ ops, op.isRepeat = false)
    (he : x.validation ≠ none ∨ x.span ≠ {} ∨ x.matrixSpan ≠ {} ∨ x.annotation ≠ none ∨ x.drawFrames ≠ []) :
    writePackage fl ds (s.withCell before after h t r c x) = none
    ∧ writeFlat fl ds (s.withCell before after h t r c x) = none := by
  have h0 : x.toData.repeat = 0 := by
    have := C99_repeat ops x hx hr [] 0 0
    exact this
  have h1 : x.toData.extra ≠ none := by
    unfold CellContent.toData
    have span : ∀ s : CellSpan, s ≠ {} → s.isEmpty = false := by
      intro s hs
      cases hh : s.isEmpty with
      | false => rfl
      | true =>
        refine absurd ?_ hs
        cases s
        simp only [CellSpan.isEmpty, Bool.and_eq_true, beq_iff_eq] at hh
        simp [hh.1, hh.2]
    rw [if_pos]
    · simp
    · rcases he with h | h | h | h | h
      · cases hv : x.validation with
        | none => exact absurd hv h
        | some v => simp
      · simp [span _ h]
      · simp [span _ h]
      · cases hv : x.annotation with
        | none => exact absurd hv h
        | some v => simp
      · cases hv : x.drawFrames with
        | nil => exact absurd hv h
        | cons a l => simp
  have hmem : ∃ p ∈ (t.data.addCell r c x), p.2.repeat = 0 ∧ p.2.extra ≠ none := by
    refine ⟨((r, c), x.toData), ?_, h0, h1⟩
    unfold Cells.addCell
    generalize x.toData = d
    induction t.data with
    | nil => simp [OMap.insert]
    | cons p m ih =>
      obtain ⟨k', v⟩ := p
      simp only [OMap.insert]
      split
      · simp
      · split
        · simp
        · simp [ih]
  have hw := writeSheets_fails before after h { t with data := t.data.addCell r c x }
    (writeSheet_panics { t with data := t.data.addCell r c x } hmem)
  have hp : ∀ z : Source, parts fl (z.withCell before after h t r c x) = none := by
    intro z
    unfold parts
    split
    · rfl
    · split
      · rename_i ht
        exact absurd ht (hw _)
      · rfl
  constructor
  · unfold writePackage; rw [hp]; rfl
  · have hc : ({ s.withCell before after h t r c x with styles := (s.withCell before after h t r c x).styles.convert } : Source)
        = ({ s with styles := s.styles.convert } : Source).withCell before after h t r c x := rfl
    unfold writeFlat
    rw [hc, hp]; rfl

/-- Both cases exist. -/
theorem C99_lost_meets :
    (∃ x, ContentOp.run .new [.setValue (.boolean true), .setStyle "s"] = some x ∧ x.value = .boolean true
      ∧ Simple [.setValue (.boolean true), .setStyle "s"])
    ∧ ∃ x, ContentOp.run .new [.setValue (.boolean true), .setColSpan 2] = some x ∧ x.span ≠ {} :=
  ⟨⟨_, rfl, rfl, by simp [Simple]⟩, ⟨_, rfl, by decide⟩⟩

end Whole

end Verif
