import Verif.TableXml.Still
import Verif.Store.Props

/-!
# Changing cells of a sheet that was loaded

The conditions for saving and loading again and again survive a change of a cell, if the row it is in can be filled.
-/

set_option autoImplicit false

namespace Verif.TableXml

open Codec Xml Xml.Spec OMap

/-! ## The specification -/

/-- Nothing to be seen in a cell, maybe but a style. -/
def Blank (o : Obs) : Bool :=
  decide (o.value = .empty) && o.formula.isNone && o.validation.isNone && o.annotation.isNone && o.drawFrames.isEmpty
    && decide (o.rowSpan = 1) && decide (o.colSpan = 1) && decide (o.matrixRowSpan = 1) && decide (o.matrixColSpan = 1)

/-- All that is to be seen of a cell but its style and whether there is one at all. -/
def face (o : Obs) : Obs := { o with present := false, style := none, «repeat» := 1 }

/-- The cell looks as expected: all is the same, but a style where none is expected is not counted. -/
def Agrees (expected seen : Obs) : Prop :=
  face seen = face expected ∧ ∀ x, expected.style = some x → seen.style = some x

/-- What is expected of a cell when the sheet is saved and loaded: all stays, but a style alone may be lost. -/
def afterReload (o : Obs) : Obs := if Blank o then { o with style := none } else o

/-- A sheet without repeats of cells and rows. -/
structure Plain (s : TSheet) : Prop where
  cells : ∀ q ∈ s.data, q.2.repeat = 1
  rows : ∀ q ∈ s.rowHeader, q.2.repeat ≤ 1

/-- The row can be filled: if there are attributes stored for it, they have the repeat count one.  See
`C96_shift_counterexample` for a row that has the count zero. -/
def Ready (s : TSheet) (r : Nat) : Prop := ∀ h, s.rowHeader.get? r = some h → h.repeat = 1

/-- The arguments of the call can be kept in a file, and the call does not ask for a repeat. -/
def GoodEdit (fl : Floats) (lb : Bool) : CellOp → Prop
  | .setValue _ _ v => ValueKept fl lb v
  | .setStyledValue _ _ v _ => ValueKept fl lb v
  | .setRepeat _ _ _ => False
  | .setRowSpan _ _ n | .setColSpan _ _ n | .setMatrixRowSpan _ _ n | .setMatrixColSpan _ _ n => n ≤ 4294967295
  | .setAnnotation _ _ a => AnnotationOk lb a ∧ ∀ x ∈ a.text, TextsApartIn x
  | .editAnnotation _ _ g => ∀ a, AnnotationOk lb a ∧ (∀ x ∈ a.text, TextsApartIn x) →
      AnnotationOk lb (g a) ∧ ∀ x ∈ (g a).text, TextsApartIn x
  | .addDrawFrame _ _ f => FrameOk lb f ∧ ∀ i ∈ f.images, ∀ x ∈ i.text, TextsApartIn x
  | .editDrawFrames _ _ g => ∀ f, FrameOk lb f ∧ (∀ i ∈ f.images, ∀ x ∈ i.text, TextsApartIn x) →
      FrameOk lb (g f) ∧ ∀ i ∈ (g f).images, ∀ x ∈ i.text, TextsApartIn x
  | .addCell _ _ x => x.repeat = 1 ∧ ValueKept fl lb x.value ∧ SpanOk x.span ∧ SpanOk x.matrixSpan
      ∧ (∀ a, x.annotation = some a → AnnotationOk lb a ∧ ∀ t ∈ a.text, TextsApartIn t)
      ∧ ∀ f ∈ x.drawFrames, FrameOk lb f ∧ ∀ i ∈ f.images, ∀ t ∈ i.text, TextsApartIn t
  | _ => True

/-- A call that may be made: its arguments are good, row and column are within the limits, the row can be filled, and no
cell is emptied in a header row or in the last row of a group. -/
structure Sound (fl : Floats) (lb : Bool) (s : TSheet) (op : CellOp) : Prop where
  good : GoodEdit fl lb op
  row : op.pos.1 ≤ 4294967295
  col : op.pos.2 < 4294967295
  ready : Ready s op.pos.1
  ends : Blank ((observe s.data op.pos.1 op.pos.2).after op) = true →
    (∀ g ∈ s.groupRows, g.to ≠ op.pos.1) ∧ ∀ h, s.headerRows = some h → ¬ (h.frm ≤ op.pos.1 ∧ op.pos.1 ≤ h.to)

/-! ## Observations -/

theorem blank_some (d : CellData) : Blank (obsOf (some d)) = d.isEmpty := by
  rw [isEmpty_content]
  obtain ⟨v, f, s, n, e⟩ := d
  show (decide (v = .empty) && f.isNone && (e.getD {}).validation.isNone && (e.getD {}).annotation.isNone
    && (e.getD {}).drawFrames.isEmpty && decide ((e.getD {}).span.rowSpan = 1) && decide ((e.getD {}).span.colSpan = 1)
    && decide ((e.getD {}).matrixSpan.rowSpan = 1) && decide ((e.getD {}).matrixSpan.colSpan = 1))
    = (decide (v = .empty) && f.isNone && (((e.getD {}).span.rowSpan == 1 && (e.getD {}).span.colSpan == 1)
      && (e.getD {}).validation.isNone && (e.getD {}).annotation.isNone && (e.getD {}).drawFrames.isEmpty
      && ((e.getD {}).matrixSpan.rowSpan == 1 && (e.getD {}).matrixSpan.colSpan == 1)))
  generalize e.getD {} = x
  rw [Bool.eq_iff_iff]
  simp only [Bool.and_eq_true, decide_eq_true_eq, beq_iff_eq]
  constructor
  · rintro ⟨⟨⟨⟨⟨⟨⟨⟨h1, h2⟩, h3⟩, h4⟩, h5⟩, h6⟩, h7⟩, h8⟩, h9⟩
    exact ⟨⟨h1, h2⟩, ⟨⟨⟨⟨h6, h7⟩, h3⟩, h4⟩, h5⟩, h8, h9⟩
  · rintro ⟨⟨h1, h2⟩, ⟨⟨⟨⟨h6, h7⟩, h3⟩, h4⟩, h5⟩, h8, h9⟩
    exact ⟨⟨⟨⟨⟨⟨⟨⟨h1, h2⟩, h3⟩, h4⟩, h5⟩, h6⟩, h7⟩, h8⟩, h9⟩

theorem blank_fresh : Blank Obs.fresh = true := rfl

theorem blank_face {o o' : Obs} (h : face o = face o') : Blank o = Blank o' := by
  have e : Blank (face o) = Blank o := rfl
  have e' : Blank (face o') = Blank o' := rfl
  rw [← e, h, e']

theorem face_blank {o : Obs} (h : Blank o = true) : face o = face Obs.fresh := by
  obtain ⟨p, v, f, s, n, va, rs, cs, mrs, mcs, an, df⟩ := o
  simp [Blank] at h
  obtain ⟨⟨⟨⟨⟨⟨⟨⟨h1, h2⟩, h3⟩, h4⟩, h5⟩, h6⟩, h7⟩, h8⟩, h9⟩ := h
  subst h1 h2 h3 h4 h5 h6 h7 h8 h9
  rfl

theorem agrees_refl (o : Obs) : Agrees o o := ⟨rfl, fun _ h => h⟩

theorem agrees_after {o o' : Obs} (op : CellOp) (h : Agrees o o') : Agrees (o.after op) (o'.after op) := by
  obtain ⟨p, v, f, s, n, va, rs, cs, mrs, mcs, an, df⟩ := o
  obtain ⟨p', v', f', s', n', va', rs', cs', mrs', mcs', an', df'⟩ := o'
  obtain ⟨h1, h2⟩ := h
  simp only [face, Obs.mk.injEq] at h1
  obtain ⟨_, e1, e2, _, _, e3, e4, e5, e6, e7, e8, e9⟩ := h1
  subst e1 e2 e3 e4 e5 e6 e7 e8 e9
  cases op <;> exact ⟨rfl, by first | exact h2 | (intro x hx; exact hx) | (intro x hx; cases hx)⟩

theorem agrees_reload {o o' o2 : Obs} (h : Agrees o o') (hf : face o2 = face o')
    (hs : Blank o' = false → ∀ x, o'.style = some x → o2.style = some x) : Agrees (afterReload o) o2 := by
  unfold afterReload
  split
  · refine ⟨?_, fun x hx => by cases hx⟩
    rw [hf, h.1]
    rfl
  · rename_i hb
    refine ⟨hf.trans h.1, fun x hx => hs ?_ x (h.2 x hx)⟩
    rw [blank_face h.1]
    simpa using hb

/-! ## A change of one cell -/

theorem spanOk_row {s : CellSpan} (h : SpanOk s) (n : Nat) (h1 : n ≠ 0) (h2 : n ≤ 4294967295) :
    SpanOk { s with rowSpan := n } := ⟨by show 1 ≤ n; omega, h2, h.2.2⟩

theorem spanOk_col {s : CellSpan} (h : SpanOk s) (n : Nat) (h1 : n ≠ 0) (h2 : n ≤ 4294967295) :
    SpanOk { s with colSpan := n } := ⟨h.1, h.2.1, by show 1 ≤ n; omega, h2⟩

/-- What a cell has to be. -/
def Fine (fl : Floats) (lb : Bool) (d : CellData) : Prop := CellOk lb d ∧ ValueKept fl lb d.value ∧ d.repeat = 1

theorem fine_new (fl : Floats) (lb : Bool) : Fine fl lb {} :=
  ⟨cellOk_plain lb {} rfl rfl ⟨by decide, by decide, by decide, by decide⟩ ⟨by decide, by decide, by decide, by decide⟩,
    trivial, rfl⟩

theorem fine_getD {fl : Floats} {lb : Bool} {x : Option CellData} (h : ∀ d, x = some d → Fine fl lb d) :
    Fine fl lb (x.getD {}) := by
  cases x with
  | none => exact fine_new fl lb
  | some d => exact h d rfl

theorem effect_fine {fl : Floats} {lb : Bool} (op : CellOp) (hg : GoodEdit fl lb op) (hr : op.rejected = false)
    (x : Option CellData) (h : ∀ d, x = some d → Fine fl lb d) (d' : CellData) (he : op.effect x = some d') :
    Fine fl lb d' := by
  have hd := fine_getD h
  cases op <;> simp only [CellOp.effect, Option.some.injEq, Option.map_eq_some_iff] at he
  case setValue r c v => subst he; exact ⟨⟨hd.1.notes, hd.1.kept, hd.1.span, hd.1.matrix⟩, hg, hd.2.2⟩
  case setStyledValue r c v s => subst he; exact ⟨⟨hd.1.notes, hd.1.kept, hd.1.span, hd.1.matrix⟩, hg, hd.2.2⟩
  case setFormula r c f => subst he; exact ⟨⟨hd.1.notes, hd.1.kept, hd.1.span, hd.1.matrix⟩, hd.2.1, hd.2.2⟩
  case clearFormula r c =>
    obtain ⟨d, e, rfl⟩ := he
    have hd := h d e
    exact ⟨⟨hd.1.notes, hd.1.kept, hd.1.span, hd.1.matrix⟩, hd.2.1, hd.2.2⟩
  case setRepeat r c n => cases hg
  case setCellstyle r c s => subst he; exact ⟨⟨hd.1.notes, hd.1.kept, hd.1.span, hd.1.matrix⟩, hd.2.1, hd.2.2⟩
  case clearCellstyle r c =>
    obtain ⟨d, e, rfl⟩ := he
    have hd := h d e
    exact ⟨⟨hd.1.notes, hd.1.kept, hd.1.span, hd.1.matrix⟩, hd.2.1, hd.2.2⟩
  case setValidation r c s => subst he; exact ⟨⟨hd.1.notes, hd.1.kept, hd.1.span, hd.1.matrix⟩, hd.2.1, hd.2.2⟩
  case clearValidation r c =>
    obtain ⟨d, e, rfl⟩ := he
    have hd := h d e
    exact ⟨⟨hd.1.notes, hd.1.kept, hd.1.span, hd.1.matrix⟩, hd.2.1, hd.2.2⟩
  case setRowSpan r c n =>
    subst he
    have hn : n ≠ 0 := by simpa [CellOp.rejected] using hr
    exact ⟨⟨hd.1.notes, hd.1.kept, spanOk_row hd.1.span n hn hg, hd.1.matrix⟩, hd.2.1, hd.2.2⟩
  case setColSpan r c n =>
    subst he
    have hn : n ≠ 0 := by simpa [CellOp.rejected] using hr
    exact ⟨⟨hd.1.notes, hd.1.kept, spanOk_col hd.1.span n hn hg, hd.1.matrix⟩, hd.2.1, hd.2.2⟩
  case setMatrixRowSpan r c n =>
    subst he
    have hn : n ≠ 0 := by simpa [CellOp.rejected] using hr
    exact ⟨⟨hd.1.notes, hd.1.kept, hd.1.span, spanOk_row hd.1.matrix n hn hg⟩, hd.2.1, hd.2.2⟩
  case setMatrixColSpan r c n =>
    subst he
    have hn : n ≠ 0 := by simpa [CellOp.rejected] using hr
    exact ⟨⟨hd.1.notes, hd.1.kept, hd.1.span, spanOk_col hd.1.matrix n hn hg⟩, hd.2.1, hd.2.2⟩
  case setAnnotation r c a =>
    subst he
    refine ⟨⟨⟨?_, hd.1.notes.2⟩, ⟨?_, hd.1.kept.2⟩, hd.1.span, hd.1.matrix⟩, hd.2.1, hd.2.2⟩
    · intro b hb; cases hb; exact hg.1
    · intro b hb; cases hb; exact hg.2
  case clearAnnotation r c =>
    obtain ⟨d, e, rfl⟩ := he
    have hd := h d e
    refine ⟨⟨⟨?_, hd.1.notes.2⟩, ⟨?_, hd.1.kept.2⟩, hd.1.span, hd.1.matrix⟩, hd.2.1, hd.2.2⟩
    · intro b hb; cases hb
    · intro b hb; cases hb
  case editAnnotation r c g =>
    obtain ⟨d, e, rfl⟩ := he
    have hd := h d e
    obtain ⟨v, fo, st, n, ex⟩ := d
    cases ex with
    | none => exact hd
    | some x =>
      refine ⟨⟨⟨?_, hd.1.notes.2⟩, ⟨?_, hd.1.kept.2⟩, hd.1.span, hd.1.matrix⟩, hd.2.1, hd.2.2⟩
      · intro b hb
        obtain ⟨a, ha, rfl⟩ := Option.map_eq_some_iff.1 hb
        exact (hg a ⟨hd.1.notes.1 a ha, hd.1.kept.1 a ha⟩).1
      · intro b hb
        obtain ⟨a, ha, rfl⟩ := Option.map_eq_some_iff.1 hb
        exact (hg a ⟨hd.1.notes.1 a ha, hd.1.kept.1 a ha⟩).2
  case editDrawFrames r c g =>
    obtain ⟨d, e, rfl⟩ := he
    have hd := h d e
    obtain ⟨v, fo, st, n, ex⟩ := d
    cases ex with
    | none => exact hd
    | some x =>
      refine ⟨⟨⟨hd.1.notes.1, ?_⟩, ⟨hd.1.kept.1, ?_⟩, hd.1.span, hd.1.matrix⟩, hd.2.1, hd.2.2⟩
      · intro b hb
        obtain ⟨a, ha, rfl⟩ := List.mem_map.1 hb
        exact (hg a ⟨hd.1.notes.2 a ha, hd.1.kept.2 a ha⟩).1
      · intro b hb
        obtain ⟨a, ha, rfl⟩ := List.mem_map.1 hb
        exact (hg a ⟨hd.1.notes.2 a ha, hd.1.kept.2 a ha⟩).2
  case addDrawFrame r c f =>
    subst he
    refine ⟨⟨⟨hd.1.notes.1, ?_⟩, ⟨hd.1.kept.1, ?_⟩, hd.1.span, hd.1.matrix⟩, hd.2.1, hd.2.2⟩
    · intro b hb
      rcases List.mem_append.1 hb with hb | hb
      · exact hd.1.notes.2 b hb
      · cases List.mem_singleton.1 hb; exact hg.1
    · intro b hb
      rcases List.mem_append.1 hb with hb | hb
      · exact hd.1.kept.2 b hb
      · cases List.mem_singleton.1 hb; exact hg.2
  case clearDrawFrames r c =>
    obtain ⟨d, e, rfl⟩ := he
    have hd := h d e
    refine ⟨⟨⟨hd.1.notes.1, ?_⟩, ⟨hd.1.kept.1, ?_⟩, hd.1.span, hd.1.matrix⟩, hd.2.1, hd.2.2⟩
    · intro b hb; cases hb
    · intro b hb; cases hb
  case addCell r c x =>
    subst he
    obtain ⟨g1, g2, g3, g4, g5, g6⟩ := hg
    have e := toData_toContent x
    have e1 : (x.toData.extra.getD {}).annotation = x.annotation := congrArg CellContent.annotation e
    have e2 : (x.toData.extra.getD {}).drawFrames = x.drawFrames := congrArg CellContent.drawFrames e
    have e3 : (x.toData.extra.getD {}).span = x.span := congrArg CellContent.span e
    have e4 : (x.toData.extra.getD {}).matrixSpan = x.matrixSpan := congrArg CellContent.matrixSpan e
    refine ⟨⟨⟨?_, ?_⟩, ⟨?_, ?_⟩, ?_, ?_⟩, ?_, ?_⟩
    · rw [e1]; exact fun a ha => (g5 a ha).1
    · rw [e2]; exact fun a ha => (g6 a ha).1
    · rw [e1]; exact fun a ha => (g5 a ha).2
    · rw [e2]; exact fun a ha => (g6 a ha).2
    · rw [e3]; exact g3
    · rw [e4]; exact g4
    · exact g2
    · exact g1
  case removeCell r c => cases he

theorem lastLe_mem {V : Type} {m : OMap Nat V} {k : Nat} {p : Nat × V} (h : lastLe m k = some p) : p ∈ m := by
  unfold lastLe at h
  exact (List.mem_filter.1 (List.mem_of_getLast? h)).1

theorem ready_row {s : TSheet} (hp : Plain s) {r : Nat} (h : Ready s r) : RowOK s r ∧ s.repeatOf r = 1 := by
  have h1 : rowRepeatOf s r = 1 := by
    unfold rowRepeatOf
    cases e : s.rowHeader.get? r with
    | none => rfl
    | some x => exact h x e
  have h2 : s.rowHeader.rowRepeat r ≤ 1 := by
    unfold RowHeaders.rowRepeat
    cases e : s.rowHeader.valid r with
    | none => exact Nat.zero_le _
    | some x =>
      unfold RowHeaders.valid at e
      split at e
      · split at e
        · cases e
          rename_i hl _
          exact hp.rows _ (lastLe_mem hl)
        · cases e
      · cases e
  have h3 : s.repeatOf r = 1 := by unfold TSheet.repeatOf; omega
  refine ⟨?_, h3⟩
  unfold RowOK
  rw [h1]
  exact h3.symm

/-- The sheet after the change is as good as before. -/
theorem edit_closed {fl : Floats} {lb : Bool} {s : TSheet} (hs : SheetOk fl lb s) (hf : SheetFits s) (hst : Steady s)
    (hp : Plain s) {op : CellOp} (ho : Sound fl lb s op) {m : Cells} (h : op.step s.data = some m) :
    SheetOk fl lb { s with data := m } ∧ SheetFits { s with data := m } ∧ Steady { s with data := m }
      ∧ Plain { s with data := m } := by
  have hsm := sorted_step hs.cells.sorted h
  have hg := get?_step hs.cells.sorted h
  have hrej : op.rejected = false := by
    cases e : op.rejected with
    | false => rfl
    | true => rw [(step_eq_none_iff _ _).2 e] at h; cases h
  -- each cell is an old one or the new one
  have cell : ∀ q ∈ m, (q.1 = op.pos ∧ Fine fl lb q.2) ∨ q ∈ s.data := by
    intro q hq
    have h1 := (get?_eq_some_iff hsm).2 hq
    rw [hg] at h1
    split at h1
    · rename_i e
      refine .inl ⟨e, effect_fine op ho.good hrej _ ?_ _ h1⟩
      intro d hd
      have := (get?_eq_some_iff hs.cells.sorted).1 hd
      exact ⟨(hs.kept _ this).1, (hs.kept _ this).2, hp.cells _ this⟩
    · exact .inr ((get?_eq_some_iff hs.cells.sorted).1 h1)
  obtain ⟨ready1, ready2⟩ := ready_row hp ho.ready
  have fine : ∀ q ∈ m, Fine fl lb q.2 := by
    intro q hq
    rcases cell q hq with h | h
    · exact h.2
    · exact ⟨(hs.kept _ h).1, (hs.kept _ h).2, hp.cells _ h⟩
  have rows : ∀ q ∈ m, RowOK s q.1.1 ∧ s.repeatOf q.1.1 = 1 := by
    intro q hq
    rcases cell q hq with h | h
    · rw [h.1]; exact ⟨ready1, ready2⟩
    · exact ⟨hs.cells.rows _ h, hst.rows _ h⟩
  have rows1 : ∀ q ∈ m, TSheet.repeatOf { s with data := m } q.1.1 = 1 := fun q hq => (rows q hq).2
  have keep : ∀ r c d, s.data.get? (r, c) = some d → d.isEmpty = false →
      ((∃ g ∈ s.groupRows, g.to = r) ∨ ∃ h, s.headerRows = some h ∧ h.frm ≤ r ∧ r ≤ h.to) →
      ∃ d', OMap.get? m (r, c) = some d' ∧ d'.isEmpty = false := by
    intro r c d hd hne hx
    rw [hg]
    split
    · rename_i e
      have hb : Blank ((observe s.data op.pos.1 op.pos.2).after op) = false := by
        cases hb : Blank ((observe s.data op.pos.1 op.pos.2).after op) with
        | false => rfl
        | true =>
          obtain ⟨a1, a2⟩ := ho.ends hb
          rw [← e] at a1 a2
          rcases hx with ⟨g, g1, g2⟩ | ⟨k, k1, k2⟩
          · exact absurd g2 (a1 g g1)
          · exact absurd k2 (a2 k k1)
      rw [observe_eq, ← obsOf_effect] at hb
      have e' : (op.pos.1, op.pos.2) = (r, c) := by rw [e]
      rw [e'] at hb
      cases he : op.effect (s.data.get? (r, c)) with
      | none => rw [he] at hb; exact absurd hb (by simp [obsOf, blank_fresh])
      | some d' =>
        rw [he, blank_some] at hb
        exact ⟨d', rfl, hb⟩
    · exact ⟨d, hd, hne⟩
  have ends : ∀ g ∈ s.groupRows, ∃ c d, OMap.get? m (g.to, c) = some d ∧ d.isEmpty = false := by
    intro g hg'
    obtain ⟨c, d, a1, a2⟩ := hst.groupEnds g hg'
    obtain ⟨d', b1, b2⟩ := keep g.to c d a1 a2 (.inl ⟨g, hg', rfl⟩)
    exact ⟨c, d', b1, b2⟩
  have heads : ∀ h, s.headerRows = some h → ∀ r, h.frm ≤ r → r ≤ h.to →
      ∃ c d, OMap.get? m (r, c) = some d ∧ d.isEmpty = false := by
    intro k hk r h1 h2
    obtain ⟨c, d, a1, a2⟩ := hst.headers k hk r h1 h2
    obtain ⟨d', b1, b2⟩ := keep r c d a1 a2 (.inr ⟨k, hk, h1, h2⟩)
    exact ⟨c, d', b1, b2⟩
  refine ⟨⟨⟨hsm, fun q hq => (rows q hq).1, fun q hq => by rw [(fine q hq).2.2]; exact Nat.le_refl 1, ?_⟩,
      ⟨hs.small.pos, ?_, ?_, fun q hq => by rw [(fine q hq).2.2]; exact Nat.le_refl 1, hs.small.rowRep, hs.small.spans⟩,
      fun q hq => ⟨(fine q hq).1, (fine q hq).2.1⟩⟩,
    ⟨⟨hf.cols.wf, hf.cols.nogap, hf.cols.groups, hf.cols.cut, hf.cols.hle⟩,
      ⟨hf.rows.groups, ?_, ?_, hf.rows.hle, ?_, ?_, ?_⟩, ?_, ?_, ?_, hf.hole⟩,
    ⟨rows1, ends, heads, hst.groupRows, hst.groupCols, hst.cut⟩, ⟨fun q hq => (fine q hq).2.2, hp.rows⟩⟩
  · intro q hq x hx
    have := (fine q hq).1.span
    rw [hx] at this
    exact ⟨this.1, this.2.2.1⟩
  · intro q hq
    rcases cell q hq with h | h
    · rw [h.1]; exact ho.row
    · exact hs.small.rows _ h
  · intro q hq
    rcases cell q hq with h | h
    · rw [h.1, h.2.2.2]; exact ho.col
    · exact hs.small.cols _ h
  · intro g _ q hq hx
    rw [rows1 q hq] at hx
    omega
  · intro g hg'
    obtain ⟨c, d, a1, _⟩ := ends g hg'
    have hm := (get?_eq_some_iff hsm).1 a1
    refine ⟨_, hm, ?_⟩
    rw [rows1 _ hm]
  · intro k hk r h1 h2
    obtain ⟨c, d, a1, _⟩ := heads k hk r h1 h2
    have hm := (get?_eq_some_iff hsm).1 a1
    refine ⟨_, hm, Nat.le_refl _, ?_⟩
    rw [rows1 _ hm]
    exact Nat.lt_succ_self _
  · intro k _ q hq hx
    rw [rows1 q hq] at hx
    omega
  · intro k _ q hq hx
    rw [rows1 q hq] at hx
    omega
  · rintro ⟨r, c, c', d, d', g1, g2, g3, g4⟩
    have := (fine _ ((get?_eq_some_iff hsm).1 g1)).2.2
    simp only at this
    omega
  · rintro ⟨r, r', c, c', d, d', g1, g2, g3, g4⟩
    have := rows1 _ ((get?_eq_some_iff hsm).1 g1)
    simp only at this
    omega
  · intro q hq
    rw [rows1 q hq]
    omega

/-- Looking at the changed sheet. -/
theorem edit_observe {m m' : Cells} (hm : Sorted m) {op : CellOp} (h : op.step m = some m') (r c : Nat) :
    observe m' r c = if op.pos = (r, c) then (observe m r c).after op else observe m r c := by
  rw [observe_eq, observe_eq, get?_step hm h]
  by_cases e : op.pos = (r, c)
  · rw [if_pos e, if_pos e.symm, obsOf_effect]
  · rw [if_neg e, if_neg (fun x => e x.symm)]

/-- Looking at the sheet that was saved and loaded. -/
theorem reload_observe {ie : Bool} {defStyle : ValueType → Option String} {s s' : TSheet} (hsort : Sorted s.data)
    (hst : ∀ q ∈ s.data, s.repeatOf q.1.1 = 1) (hp : Plain s) (hsame : SameSheet ie defStyle s s') (r c : Nat) :
    face (observe s'.data r c) = face (observe s.data r c)
      ∧ (Blank (observe s.data r c) = false → ∀ x, (observe s.data r c).style = some x →
        (observe s'.data r c).style = some x) := by
  rw [observe_eq, observe_eq]
  have same : ∀ d v, SameCell defStyle d v → face (obsOf (some v)) = face (obsOf (some d))
      ∧ ∀ x, (obsOf (some d)).style = some x → (obsOf (some v)).style = some x := by
    intro d v h
    have a1 : v.value = d.value := congrArg CellContent.value h
    have a2 : v.formula = d.formula := congrArg CellContent.formula h
    have a3 : (v.extra.getD {}).validation = (d.extra.getD {}).validation := congrArg CellContent.validation h
    have a4 : (v.extra.getD {}).annotation = (d.extra.getD {}).annotation := congrArg CellContent.annotation h
    have a5 : (v.extra.getD {}).drawFrames = (d.extra.getD {}).drawFrames := congrArg CellContent.drawFrames h
    have a6 : (v.extra.getD {}).span = (d.extra.getD {}).span := congrArg CellContent.span h
    have a7 : (v.extra.getD {}).matrixSpan = (d.extra.getD {}).matrixSpan := congrArg CellContent.matrixSpan h
    have a8 : v.style = outStyle defStyle d := congrArg CellContent.style h
    refine ⟨?_, ?_⟩
    · simp only [face, obsOf, a1, a2, a3, a4, a5, a6, a7]
    · intro x hx
      have hx : d.style = some x := hx
      show v.style = some x
      rw [a8]
      unfold outStyle
      rw [hx]
  cases h' : s'.data.get? (r, c) with
  | some v =>
    obtain ⟨d, ⟨r0, c0, g1, g2, g3, g4, g5⟩, hd⟩ := hsame.sound r c v h'
    have hm := (get?_eq_some_iff hsort).1 g1
    have b1 := hst _ hm
    have b2 := hp.cells _ hm
    simp only at b1 b2
    have e1 : r = r0 := by omega
    have e2 : c = c0 := by omega
    subst e1 e2
    rw [g1]
    exact ⟨(same d v hd).1, fun _ => (same d v hd).2⟩
  | none =>
    cases h : s.data.get? (r, c) with
    | none => exact ⟨rfl, fun hb => by simp [obsOf, blank_fresh] at hb⟩
    | some d =>
      have hm := (get?_eq_some_iff hsort).1 h
      have b1 := hst _ hm
      have b2 := hp.cells _ hm
      simp only at b1 b2
      have he : d.isEmpty = true := by
        cases he : d.isEmpty with
        | true => rfl
        | false =>
          obtain ⟨v, v1, _⟩ := hsame.complete r c d ⟨r, c, h, Nat.le_refl _, by omega, Nat.le_refl _, by omega⟩ he
          rw [h'] at v1
          cases v1
      rw [← blank_some] at he
      exact ⟨(face_blank he).symm, fun hb => by rw [he] at hb; cases hb⟩

end Verif.TableXml
