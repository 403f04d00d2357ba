import Verif.Whole.Props
import Verif.Sheet.Props
import Verif.Grid.Reach

/-!
# C93: what was asked of the sheets of a workbook is what a reader of its file sees

The histories of calls of C92 together with the files of C78 and C79.
-/

set_option autoImplicit false

namespace Verif.Whole

open Xml Codec OMap Sheets Sheets.Spec
open Verif.TableXml (Head HeadOk SheetOk SheetFits SameSheet SameSheets)

/-! ## Specification -/

namespace Spec

/-- A cell with everything that is not its value, as far as the file can hold it (C26, C66, C67). -/
def ExtrasFit (lb : Bool) (o : Obs) : Prop :=
  CellOk lb { extra := some { validation := o.validation, span := ⟨o.rowSpan, o.colSpan⟩
                              matrixSpan := ⟨o.matrixRowSpan, o.matrixColSpan⟩
                              annotation := o.annotation, drawFrames := o.drawFrames } }

/-- There is a call for this column. -/
def Named (cs : List Sheets.Call) (c : Nat) : Prop := ∃ op ∈ colCalls [] cs, op.col = c

/-- What was asked of a column, without the width. -/
def colWish (cs : List Sheets.Call) (c : Nat) : ColAttr :=
  ⟨(colSpec {} c (colCalls [] cs)).style, (colSpec {} c (colCalls [] cs)).cellstyle,
   (colSpec {} c (colCalls [] cs)).visible⟩

/-- There is a cell in this row. -/
def Filled (cs : List Sheets.Call) (r : Nat) : Prop := ∃ c, (specAt (r, c) (cellCalls cs)).present = true

/-- What was asked of the sheet can be kept in a file: the limits of C12, C15, C16, C19, C24, C25 and C26, in terms of
the calls. -/
structure Saveable (fl : Floats) (lb : Bool) (cs : List Sheets.Call) : Prop where
  cells : ∀ r c, (specAt (r, c) (cellCalls cs)).present = true → r ≤ 4294967295 ∧ c < 4294967295
    ∧ (specAt (r, c) (cellCalls cs)).repeat = 1 ∧ ValueKept fl lb (specAt (r, c) (cellCalls cs)).value
    ∧ ExtrasFit lb (specAt (r, c) (cellCalls cs))
  rows : ∀ r n, RowOp.setRepeat r n ∈ rowCalls [] cs → n = 1
  cols : ∀ c, Named cs c → c < 4294967295
  gap : ∀ a b, a + 1 < b → Named cs a → Named cs b → (∀ x, a < x → x < b → ¬ Named cs x) →
    colSpec {} a (colCalls [] cs) ≠ colSpec {} b (colCalls [] cs)
  hole : ∀ a b, a + 1 < b → colWish cs a = colWish cs b → colWish cs a ≠ {} →
    ¬ ∀ x, a < x → x < b → colWish cs x = {}
  headerRows : ∀ h, lastWish wishHeaderRows none cs = some h → h.frm ≤ h.to ∧ ∀ r, h.frm ≤ r → r ≤ h.to → Filled cs r
  headerCols : ∀ h, lastWish wishHeaderCols none cs = some h → h.frm ≤ h.to
  colOrder : (colGroups [] cs).Pairwise fun a b => a.1 = b.1 → b.2 ≤ a.2
  colCut : ∀ g ∈ colGroups [] cs, g.1 = g.2 ∨ ¬ Named cs g.2
    ∨ colSpec {} (g.2 - 1) (colCalls [] cs) ≠ colSpec {} g.2 (colCalls [] cs)
  rowOrder : (rowGroups [] cs).Pairwise fun a b => a.1 = b.1 → b.2 ≤ a.2
  rowEnds : ∀ g ∈ rowGroups [] cs, Filled cs g.2
  ranges : ∀ r ∈ rangesOf [] cs, Refs.Spec.GoodRange r

/-- What was asked of a row, without repeat and height. -/
def rowWish (cs : List Sheets.Call) (r : Nat) : RowAttrs :=
  ⟨(rowSpec r (rowCalls [] cs)).style, (rowSpec r (rowCalls [] cs)).cellstyle, (rowSpec r (rowCalls [] cs)).visible⟩

/-- There is nothing in the cell, but for a style. -/
def Blank (o : Obs) : Prop :=
  o.value = .empty ∧ o.formula = none ∧ o.validation = none ∧ o.rowSpan = 1 ∧ o.colSpan = 1
    ∧ o.matrixRowSpan = 1 ∧ o.matrixColSpan = 1 ∧ o.annotation = none ∧ o.drawFrames = []

/-- The same cell with its style or, if it has none, the default style of the workbook for its type of value. -/
def withDefault (defStyle : ValueType → Option String) (o : Obs) : Obs :=
  { o with style := match o.style with
      | some n => some n
      | none => defStyle (Value.valueType o.value) }

/-- What the reader finds of a sheet, of which the calls `cs` were asked after it was made with the name `n`: all but the
columns and rows. -/
structure GridRead (ignoreEmpty : Bool) (defStyle : ValueType → Option String) (n : Str) (cs : List Sheets.Call)
    (h : Head) (s : TSheet) : Prop where
  name : h.name = lastWish wishName n cs
  style : h.style = lastWish wishStyle none cs
  display : h.display = lastWish wishDisplay true cs
  print : h.print = lastWish wishPrint true cs
  ranges : h.ranges = if rangesOf [] cs = [] then none else some (rangesOf [] cs)
  headerRows : s.headerRows = lastWish wishHeaderRows none cs
  headerCols : s.headerCols = lastWish wishHeaderCols none cs
  rowGroups : (s.groupRows.map fun g => (g.frm, g.to)).Perm (rowGroups [] cs)
  colGroups : (s.groupCols.map fun g => (g.frm, g.to)).Perm (colGroups [] cs)
  -- what is there was asked for
  sound : ∀ r c, (observe s.data r c).present = true → (specAt (r, c) (cellCalls cs)).present = true
    ∧ observe s.data r c = withDefault defStyle (specAt (r, c) (cellCalls cs))
  -- what was asked for is there
  complete : ∀ r c, (specAt (r, c) (cellCalls cs)).present = true → ¬ Blank (specAt (r, c) (cellCalls cs)) →
    observe s.data r c = withDefault defStyle (specAt (r, c) (cellCalls cs))
  -- so is what has only a style
  styled : ignoreEmpty = false → ∀ r c, (specAt (r, c) (cellCalls cs)).present = true →
    (withDefault defStyle (specAt (r, c) (cellCalls cs))).style ≠ none →
    (withDefault defStyle (specAt (r, c) (cellCalls cs))).style ≠ (colWish cs c).cellstyle →
    observe s.data r c = withDefault defStyle (specAt (r, c) (cellCalls cs))

/-- The same with the columns and rows. -/
structure SheetRead (ignoreEmpty : Bool) (defStyle : ValueType → Option String) (n : Str) (cs : List Sheets.Call)
    (h : Head) (s : TSheet) : Prop extends GridRead ignoreEmpty defStyle n cs h s where
  cols : ∀ r c k, (specAt (r, c) (cellCalls cs)).present = true → k ≤ c → s.colHeader.attrs k = colWish cs k
  rows : rowsSafe [] (rowCalls [] cs) → ∀ r c, (specAt (r, c) (cellCalls cs)).present = true →
    ¬ Blank (specAt (r, c) (cellCalls cs)) → s.rowHeader.attrs r = rowWish cs r

/-- The sheets are made by these histories: each is made with a name, and then the calls follow. -/
def Made (hist : List (Str × List Sheets.Call)) (sheets : List Sheet) : Prop :=
  hist.map (fun q => (Sheet.new q.1).run q.2) = sheets.map some

end Spec

open Spec

/-! ## Proofs -/

theorem obs_present (m : Cells) (r c : Nat) : (observe m r c).present = true ↔ ∃ d, m.get? (r, c) = some d := by
  rw [observe_eq]
  cases h : m.get? (r, c) with
  | none => simp [obsOf, Obs.fresh]
  | some d => simp [obsOf]

theorem obs_some {m : Cells} {r c : Nat} {d : CellData} (h : m.get? (r, c) = some d) : observe m r c = obsOf (some d) := by
  rw [observe_eq, h]

theorem extrasFit_iff (lb : Bool) (d : CellData) : ExtrasFit lb (obsOf (some d)) → CellOk lb d := by
  obtain ⟨v, f, s, n, x⟩ := d
  intro h
  cases x with
  | none => exact ⟨h.notes, h.kept, h.span, h.matrix⟩
  | some x => exact ⟨h.notes, h.kept, h.span, h.matrix⟩

theorem ones_valid {m : ColHeaders} (h : m.Ones) (c : Nat) : m.valid c = m.get? c := by
  cases hg : m.get? c with
  | none =>
    cases hv : m.valid c with
    | none => rfl
    | some x =>
      obtain ⟨b, hb, h1, h2⟩ := h.wf.valid_some.mp hv
      have := h.2 _ (mem_of_get?_eq_some hb)
      dsimp only at this
      have e : b = c := by omega
      rw [e, hg] at hb
      cases hb
  | some x =>
    have := h.2 _ (mem_of_get?_eq_some hg)
    dsimp only at this
    exact h.wf.valid_some.mpr ⟨c, hg, Nat.le_refl _, by omega⟩

/-- The stored columns of a sheet that calls have made. -/
theorem cols_of {n : Str} {cs : List Sheets.Call} {s : Sheet} (h : (Sheet.new n).run cs = some s) :
    s.body.colHeader.Ones ∧ ∀ k, (s.body.colHeader.get? k).isSome ↔ Named cs k := by
  have h1 := (run_cols cs _ s [] rfl h).2
  have h0 : ColHeaders.Ones [] := ⟨sorted_nil, by simp⟩
  obtain ⟨m, k1, k2, _⟩ := ColHeaders.Ones.run h0 (colCalls [] cs)
  have e : m = s.body.colHeader := Option.some.inj (k1.symm.trans h1)
  refine ⟨e ▸ k2, fun k => ?_⟩
  have := run_stored _ _ _ h0 h1 k
  rw [this]
  simp [Named, OMap.get?]

theorem noGap_of : ∀ (m : ColHeaders), m.Ones → (∀ a b x y, m.get? a = some x → m.get? b = some y → a + 1 < b →
    (∀ k, a < k → k < b → m.get? k = none) → x.limitedEq y = false) → m.NoGap := by
  intro m
  induction m with
  | nil => intro _ _; trivial
  | cons p m ih =>
    intro h hg
    cases m with
    | nil => trivial
    | cons q m =>
      have hs := h.1
      have hp : OMap.get? (p :: q :: m) p.1 = some p.2 := (get?_eq_some_iff hs).mpr List.mem_cons_self
      have hq : OMap.get? (p :: q :: m) q.1 = some q.2 :=
        (get?_eq_some_iff hs).mpr (List.mem_cons_of_mem _ List.mem_cons_self)
      have h1 : p.2.span = 1 := h.2 p List.mem_cons_self
      have hlt : p.1 < q.1 := by
        have := hs.head_lt q List.mem_cons_self
        simpa using this
      refine ⟨?_, ih ⟨hs.tail, fun x hx => h.2 x (List.mem_cons_of_mem _ hx)⟩ ?_⟩
      · intro he
        apply Classical.byContradiction
        intro hne
        have := hg p.1 q.1 p.2 q.2 hp hq (by omega) ?_
        · rw [this] at he; cases he
        · intro k k1 k2
          cases hk : OMap.get? (p :: q :: m) k with
          | none => rfl
          | some z =>
            have hm := (get?_eq_some_iff hs).mp hk
            rcases List.mem_cons.mp hm with e | hm
            · have := congrArg Prod.fst e; dsimp only at this; omega
            · rcases List.mem_cons.mp hm with e | hm
              · have := congrArg Prod.fst e; dsimp only at this; omega
              · have := hs.tail.head_lt _ hm
                have h3 : q.1 < k := by simpa using this
                omega
      · intro a b x y ha hb hab hk
        have hs2 := hs.tail
        have up : ∀ k z, OMap.get? (q :: m) k = some z → OMap.get? (p :: q :: m) k = some z := by
          intro k z hz
          exact (get?_eq_some_iff hs).mpr (List.mem_cons_of_mem _ ((get?_eq_some_iff hs2).mp hz))
        refine hg a b x y (up a x ha) (up b y hb) hab ?_
        intro k k1 k2
        cases hz : OMap.get? (p :: q :: m) k with
        | none => rfl
        | some z =>
          have hm := (get?_eq_some_iff hs).mp hz
          rcases List.mem_cons.mp hm with e | hm
          · have ha2 := (get?_eq_some_iff hs2).mp ha
            have := hs.head_lt _ ha2
            have h3 : p.1 < a := by simpa using this
            have := congrArg Prod.fst e; dsimp only at this; omega
          · have := hk k k1 k2
            rw [(get?_eq_some_iff hs2).mpr hm] at this
            cases this

/-- No row stands for more than itself. -/
theorem repeats_of {n : Str} {cs : List Sheets.Call} {s : Sheet} (h : (Sheet.new n).run cs = some s)
    (hr : ∀ r k, RowOp.setRepeat r k ∈ rowCalls [] cs → k = 1) :
    (∀ k x, s.body.rowHeader.get? k = some x → x.repeat ≤ 1) ∧ (∀ r, s.body.repeatOf r = 1) ∧ ∀ r, RowOK s.body r := by
  have h1 := (run_rows cs _ s [] rfl h).2
  have inv := RepInv.run (rowCalls [] cs) (ops := []) ⟨wfg_nil, by simp, by simp⟩ h1
  simp only [List.nil_append] at inv
  have hn : ∀ r, ¬ setsRepeat (rowCalls [] cs) r := by
    rintro r ⟨k, k1, k2⟩
    have := hr r k k2
    omega
  have hrep : ∀ k x, s.body.rowHeader.get? k = some x → x.repeat ≤ 1 := by
    intro k x hx
    apply Classical.byContradiction
    intro hlt
    rcases inv.rep k x hx (by omega) with ⟨_, b⟩ | ⟨_, k', _, b⟩
    · exact hn _ b
    · exact hn _ b
  refine ⟨hrep, ?_, fun r => rowOK_reachable _ _ h1 s.body rfl r fun r' _ => hn r'⟩
  intro r
  unfold TSheet.repeatOf RowHeaders.rowRepeat
  cases hv : s.body.rowHeader.valid r with
  | none => rfl
  | some x =>
    obtain ⟨b, hb, _⟩ := inv.wfg.valid_some.mp hv
    have := hrep b x hb
    dsimp only
    omega

/-- A sheet that calls have made is one that can be written and read. -/
theorem saveable_sheet {fl : Floats} {lb : Bool} {n : Str} {cs : List Sheets.Call} {s : Sheet}
    (h : (Sheet.new n).run cs = some s) (hs : Saveable fl lb cs) :
    HeadOk lb s.head ∧ SheetOk fl lb s.body ∧ SheetFits s.body := by
  obtain ⟨_, _, _, _, e5, e6, e7⟩ := C92_settings n cs s h
  obtain ⟨hones, hnamed⟩ := cols_of h
  obtain ⟨hrep, hone, hrow⟩ := repeats_of h hs.rows
  have hobs := C92_columns n cs s h
  have hcell := C92_cells n cs s h
  obtain ⟨g1, g2, g3, g4, g5⟩ := C92_groups n cs s h
  have hsort : Sorted s.body.data := sorted_run sorted_nil (run_cells cs _ s h)
  have hget : ∀ q ∈ s.body.data, s.body.data.get? (q.1.1, q.1.2) = some q.2 := fun q hq =>
    (get?_eq_some_iff hsort).mpr hq
  have hq : ∀ q ∈ s.body.data, q.1.1 ≤ 4294967295 ∧ q.1.2 < 4294967295 ∧ q.2.repeat = 1
      ∧ ValueKept fl lb q.2.value ∧ CellOk lb q.2 := by
    intro q hq
    have h1 := hget q hq
    have h2 := obs_some h1
    rw [hcell] at h2
    have h3 := hs.cells q.1.1 q.1.2 (by rw [h2]; rfl)
    rw [h2] at h3
    obtain ⟨a, b, c, d, e⟩ := h3
    exact ⟨a, b, c, d, extrasFit_iff lb q.2 e⟩
  have hfill : ∀ r, Filled cs r → ∃ q ∈ s.body.data, q.1.1 = r := by
    rintro r ⟨c, hc⟩
    rw [← hcell] at hc
    obtain ⟨d, hd⟩ := (obs_present _ _ _).mp hc
    exact ⟨((r, c), d), (get?_eq_some_iff hsort).mp hd, rfl⟩
  have hattr : ∀ c, s.body.colHeader.attrs c = colWish cs c := by
    intro c
    have := hobs c
    unfold ColHeaders.attrs colWish
    rw [← this]
    rfl
  have hspec : ∀ k x, s.body.colHeader.get? k = some x → s.body.colHeader.observe k = x.obs := by
    intro k x hx
    rw [ColHeaders.observe_eq, ones_valid hones, hx]
    rfl
  refine ⟨⟨?_, ?_, ?_⟩, ⟨⟨hsort, fun q _ => hrow _, ?_, ?_⟩, ⟨by omega, ?_, ?_, ?_, ?_, ?_⟩, ?_⟩, ⟨⟨hones.wf, ?_, ⟨?_, ?_, ?_⟩, ?_, ?_⟩, ⟨⟨?_, ?_, ?_⟩, ?_, ?_, ?_, ?_, ?_, ?_⟩, ?_, ?_, ?_, ?_⟩⟩
  · intro l hl
    rw [e7] at hl
    split at hl
    · cases hl
    · rename_i hne
      injection hl with hl
      rw [← hl]
      exact ⟨hne, hs.ranges⟩
  · exact .inr (by rw [run_extra cs _ s h]; rfl)
  · intro t ht
    rw [run_extra cs _ s h] at ht
    cases ht
  · intro q hq'; have := (hq q hq').2.2.1; omega
  · intro q hq' x hx
    have := (hq q hq').2.2.2.2.span
    rw [hx] at this
    exact ⟨this.1, this.2.2.1⟩
  · intro q hq'; exact (hq q hq').1
  · intro q hq'; have := hq q hq'; omega
  · intro q hq'; have := hq q hq'; omega
  · intro q hq'
    have h1 : s.body.rowHeader.get? q.1 = some q.2 := (get?_eq_some_iff (m := s.body.rowHeader)
      (rows_run_inv _ _ _ wfg_nil (by simp) (run_rows cs _ s [] rfl h).2).1.sorted).mpr hq'
    have := hrep _ _ h1
    omega
  · intro q hq'
    have h1 : s.body.colHeader.get? q.1 = some q.2 := (get?_eq_some_iff hones.1).mpr hq'
    have h2 := hs.cols q.1 ((hnamed q.1).mp (by rw [h1]; rfl))
    have h3 := hones.2 q hq'
    omega
  · intro q hq'; have := hq q hq'; exact ⟨this.2.2.2.2, this.2.2.2.1⟩
  · refine noGap_of _ hones ?_
    intro a b x y ha hb hab hk
    cases hl : x.limitedEq y with
    | false => rfl
    | true =>
      exfalso
      refine hs.gap a b hab ((hnamed a).mp (by rw [ha]; rfl)) ((hnamed b).mp (by rw [hb]; rfl)) ?_ ?_
      · intro k k1 k2 hn
        have := (hnamed k).mpr hn
        rw [hk k k1 k2] at this
        cases this
      · rw [← hobs a, ← hobs b, hspec a x ha, hspec b y hb]
        exact (ColHeader.limitedEq_iff x y).mp hl
  · intro g hg; exact g3 g (List.mem_append_left _ hg)
  · exact g4
  · have := hs.colOrder
    rw [← g1, List.pairwise_map] at this
    exact this
  · intro g hg
    have := hs.colCut (g.frm, g.to) (by rw [← g1]; exact List.mem_map.mpr ⟨g, hg, rfl⟩)
    dsimp only at this
    rcases this with e | e | e
    · exact .inl e
    · refine .inr (.inl ?_)
      rw [ones_valid hones]
      cases hg2 : s.body.colHeader.get? g.to with
      | none => rfl
      | some x => exact absurd ((hnamed g.to).mp (by rw [hg2]; rfl)) e
    · refine .inr (.inr ?_)
      rw [hobs, hobs]
      exact e
  · intro x hx
    rw [e6] at hx
    exact hs.headerCols x hx
  · intro g hg; exact g3 g (List.mem_append_right _ hg)
  · exact g5
  · have := hs.rowOrder
    rw [← g2, List.pairwise_map] at this
    exact this
  · intro g hg q hq'
    rw [hone]
    omega
  · intro g hg
    obtain ⟨q, q1, q2⟩ := hfill g.to (hs.rowEnds (g.frm, g.to) (by rw [← g2]; exact List.mem_map.mpr ⟨g, hg, rfl⟩))
    exact ⟨q, q1, by rw [hone]; omega⟩
  · intro x hx
    rw [e5] at hx
    exact (hs.headerRows x hx).1
  · intro x hx r r1 r2
    rw [e5] at hx
    obtain ⟨q, q1, q2⟩ := hfill r ((hs.headerRows x hx).2 r r1 r2)
    exact ⟨q, q1, by omega, by rw [hone]; omega⟩
  · intro x hx q hq'
    rw [hone]
    omega
  · intro x hx q hq'
    rw [hone]
    omega
  · rintro ⟨r, c, c', d, d', h1, h2, h3, h4⟩
    have := (hq ((r, c), d) ((get?_eq_some_iff hsort).mp h1)).2.2.1
    dsimp only at this
    omega
  · rintro ⟨r, r', c, c', d, d', h1, h2, h3, h4⟩
    rw [hone] at h4
    omega
  · intro q _
    rw [hone]
    omega
  · intro i k hik he hne
    rw [hattr i, hattr k] at he
    rw [hattr i] at hne
    have := hs.hole i k hik he hne
    intro hx
    exact this fun x x1 x2 => by rw [← hattr x]; exact hx x x1 x2

theorem blank_iff (d : CellData) : Blank (obsOf (some d)) ↔ d.isEmpty = true := by
  rw [TableXml.isEmpty_content]
  simp only [Blank, obsOf, CellData.toContent, CellSpan.isEmpty, Bool.and_eq_true, decide_eq_true_eq, beq_iff_eq,
    Option.isNone_iff_eq_none, List.isEmpty_iff]
  constructor
  · rintro ⟨a, b, c, d, e, f, g, h, i⟩; exact ⟨⟨decide_eq_true a, b⟩, ⟨⟨⟨⟨d, e⟩, c⟩, h⟩, i⟩, f, g⟩
  · rintro ⟨⟨a, b⟩, ⟨⟨⟨⟨d, e⟩, c⟩, h⟩, i⟩, f, g⟩; exact ⟨of_decide_eq_true a, b, c, d, e, f, g, h, i⟩

theorem same_obs {defStyle : ValueType → Option String} {d v : CellData} (h : TableXml.SameCell defStyle d v)
    (hr : d.repeat = 1) : obsOf (some v) = withDefault defStyle (obsOf (some d)) := by
  unfold TableXml.SameCell at h
  have e1 := congrArg CellContent.value h
  have e2 := congrArg CellContent.formula h
  have e3 := congrArg CellContent.style h
  have e4 := congrArg CellContent.repeat h
  have e5 := congrArg CellContent.validation h
  have e6 := congrArg CellContent.span h
  have e7 := congrArg CellContent.matrixSpan h
  have e8 := congrArg CellContent.annotation h
  have e9 := congrArg CellContent.drawFrames h
  simp only [CellData.toContent] at e1 e2 e3 e4 e5 e6 e7 e8 e9
  simp only [obsOf, withDefault, e1, e2, e3, e4, e5, e6, e7, e8, e9, outStyle, hr]
  rfl

/-- The sheet as it is written differs from that of the user in the styles of columns and rows only. -/
structure Restyled (s s1 : TSheet) : Prop where
  data : s1.data = s.data
  groupRows : s1.groupRows = s.groupRows
  groupCols : s1.groupCols = s.groupCols
  headerRows : s1.headerRows = s.headerRows
  headerCols : s1.headerCols = s.headerCols
  repeatOf : ∀ r, s1.repeatOf r = s.repeatOf r
  cellstyle : ∀ c, s1.colHeader.colCellstyle c = s.colHeader.colCellstyle c

theorem Restyled.rfl (s : TSheet) : Restyled s s := ⟨.refl _, .refl _, .refl _, .refl _, .refl _, fun _ => .refl _, fun _ => .refl _⟩

section Read

variable {fl : Floats} {lb : Bool} {ie : Bool} {defStyle : ValueType → Option String} {n : Str}
    {cs : List Sheets.Call} {s : Sheet} (h : (Sheet.new n).run cs = some s) (hs : Saveable fl lb cs)

include h in
theorem cols_attr (c : Nat) : s.body.colHeader.attrs c = colWish cs c := by
  have := C92_columns n cs s h c
  unfold ColHeaders.attrs colWish
  rw [← this]
  rfl

include h in
theorem rows_attr (hsafe : rowsSafe [] (rowCalls [] cs)) (r : Nat) : s.body.rowHeader.attrs r = rowWish cs r := by
  have := C92_rows_partial n cs s h hsafe r
  unfold RowHeaders.attrs rowWish
  rw [← this]
  rfl

include h hs in
theorem cell_get (r c : Nat) (hc : (specAt (r, c) (cellCalls cs)).present = true) :
    ∃ d, s.body.data.get? (r, c) = some d ∧ specAt (r, c) (cellCalls cs) = obsOf (some d) ∧ d.repeat = 1 := by
  have hcell := C92_cells n cs s h
  have h1 := hc
  rw [← hcell] at h1
  obtain ⟨d, hd⟩ := (obs_present _ _ _).mp h1
  have h2 := obs_some hd
  rw [hcell] at h2
  refine ⟨d, hd, h2, ?_⟩
  have := (hs.cells r c hc).2.2.1
  rw [h2] at this
  exact this

include h hs in
theorem filled_iff (r : Nat) : Filled cs r ↔ s.body.DataRow r := by
  constructor
  · rintro ⟨c, hc⟩
    obtain ⟨d, hd, _⟩ := cell_get h hs r c hc
    exact ⟨c, d, hd⟩
  · rintro ⟨c, d, hd⟩
    exact ⟨c, by rw [← C92_cells n cs s h]; exact (obs_present _ _ _).mpr ⟨d, hd⟩⟩

include h hs in
/-- One sheet, in the terms of its calls: all but the columns and rows. -/
theorem grid_read {s1 s' : TSheet} (h1 : Restyled s.body s1) (hb : SameSheet ie defStyle s1 s') :
    GridRead ie defStyle n cs s.head s' := by
  obtain ⟨e1, e2, e3, e4, e5, e6, e7⟩ := C92_settings n cs s h
  obtain ⟨hrep, hone, hrow⟩ := repeats_of h hs.rows
  have hcell := C92_cells n cs s h
  obtain ⟨g1, g2, g3, g4, g5⟩ := C92_groups n cs s h
  have hattr := cols_attr h
  have hget := cell_get h hs
  have hone1 : ∀ r, s1.repeatOf r = 1 := fun r => by rw [h1.repeatOf, hone]
  have hshow : ∀ r c d, s.body.data.get? (r, c) = some d → d.repeat = 1 → s1.Shows r c d := by
    intro r c d hd hr
    exact ⟨r, c, by rw [h1.data]; exact hd, Nat.le_refl _, by rw [hone1]; omega, Nat.le_refl _, by omega⟩
  refine ⟨e1, e2, e3, e4, e7, by rw [hb.headerRows, h1.headerRows, e5], by rw [hb.headerCols, h1.headerCols, e6], ?_, ?_, ?_, ?_, ?_⟩
  · rw [← g2, ← h1.groupRows]; exact hb.groupRows.map _
  · rw [← g1, ← h1.groupCols]; exact hb.groupCols.map _
  · intro r c hp
    obtain ⟨v, hv⟩ := (obs_present _ _ _).mp hp
    obtain ⟨d, ⟨r0, c0, hd, a1, a2, a3, a4⟩, hsame⟩ := hb.sound r c v hv
    rw [h1.data] at hd
    have hp0 : (specAt (r0, c0) (cellCalls cs)).present = true := by
      rw [← hcell]; exact (obs_present _ _ _).mpr ⟨d, hd⟩
    obtain ⟨d2, hd2, hsp, hr⟩ := hget r0 c0 hp0
    rw [hd] at hd2
    cases hd2
    rw [hone1] at a2
    have er : r0 = r := by omega
    have ec : c0 = c := by omega
    subst er ec
    exact ⟨hp0, by rw [obs_some hv, hsp]; exact same_obs hsame hr⟩
  · intro r c hp hnb
    obtain ⟨d, hd, hsp, hr⟩ := hget r c hp
    rw [hsp] at hnb ⊢
    rw [blank_iff] at hnb
    obtain ⟨v, hv, hsame⟩ := hb.complete r c d (hshow r c d hd hr) (by simpa using hnb)
    rw [obs_some hv]
    exact same_obs hsame hr
  · intro hie r c hp hst hne
    obtain ⟨d, hd, hsp, hr⟩ := hget r c hp
    rw [hsp] at hst hne ⊢
    have eo : (withDefault defStyle (obsOf (some d))).style = outStyle defStyle d := by rfl
    rw [eo] at hst hne
    obtain ⟨v, hv, hsame⟩ := hb.styled hie r c d (by rw [h1.data]; exact hd) hr (by
      cases ho : outStyle defStyle d with
      | none => exact absurd ho hst
      | some x => rfl) (by
        rw [← hattr] at hne
        rw [h1.cellstyle]
        exact hne)
    rw [obs_some hv]
    exact same_obs hsame hr

include h hs in
/-- One sheet, in the terms of its calls. -/
theorem sheet_read {s' : TSheet} (hb : SameSheet ie defStyle s.body s') : SheetRead ie defStyle n cs s.head s' := by
  obtain ⟨hrep, hone, hrow⟩ := repeats_of h hs.rows
  have hattr := cols_attr h
  have hget := cell_get h hs
  have hfill := filled_iff h hs
  refine ⟨grid_read h hs (Restyled.rfl _) hb, ?_, ?_⟩
  · intro r c k hp hk
    obtain ⟨d, hd, _⟩ := hget r c hp
    rw [← hattr]
    exact hb.cols r c k (by simp [Cells.isEmpty, OMap.contains, hd]) hk
  · intro hsafe r c hp hnb
    obtain ⟨d, hd, hsp, hr⟩ := hget r c hp
    rw [hsp, blank_iff] at hnb
    have hra := rows_attr h hsafe
    rw [← hra]
    exact hb.rows r r ⟨⟨c, d, hd⟩, Nat.le_refl _, by rw [hone]; omega⟩ ⟨c, d, hd, by simpa using hnb⟩

end Read

theorem same_get {ie : Bool} {defStyle : ValueType → Option String} {l l' : List (Head × TSheet)}
    (h : SameSheets ie defStyle l l') : l'.length = l.length ∧ ∀ (i : Nat) (p : Head × TSheet), l[i]? = some p →
      ∃ s', l'[i]? = some (p.1, s') ∧ SameSheet ie defStyle p.2 s' := by
  induction h with
  | nil => exact ⟨rfl, by simp⟩
  | cons h _ ih =>
    refine ⟨by simp [ih.1], fun i p hp => ?_⟩
    cases i with
    | zero =>
      simp only [List.getElem?_cons_zero, Option.some.injEq] at hp
      subst hp
      exact ⟨_, rfl, h⟩
    | succ i => exact ih.2 i p (by simpa using hp)

theorem made_get {hist : List (Str × List Sheets.Call)} {sheets : List Sheet} (h : Made hist sheets) :
    sheets.length = hist.length ∧ ∀ (i : Nat) (q : Str × List Sheets.Call), hist[i]? = some q → ∃ s, sheets[i]? = some s ∧ (Sheet.new q.1).run q.2 = some s := by
  unfold Made at h
  refine ⟨by have := congrArg List.length h; simpa using this.symm, fun i q hq => ?_⟩
  have := congrArg (·[i]?) h
  simp only [List.getElem?_map, hq, Option.map_some] at this
  cases hs : sheets[i]? with
  | none => rw [hs] at this; cases this
  | some s =>
    rw [hs] at this
    exact ⟨s, rfl, Option.some.inj this⟩

/-- The sheets made by histories are as they have to be. -/
theorem made_good {fl : Floats} {lb : Bool} {hist : List (Str × List Sheets.Call)} {sheets : List Sheet}
    (hmade : Made hist sheets) (hs : ∀ q ∈ hist, Saveable fl lb q.2) :
    ∀ q ∈ sheets.map (fun s => (s.head, s.body)), HeadOk lb q.1 ∧ SheetOk fl lb q.2 ∧ SheetFits q.2 := by
  intro q hq
  obtain ⟨s, h1, rfl⟩ := List.mem_map.mp hq
  have h2 : some s ∈ sheets.map some := List.mem_map.mpr ⟨s, h1, rfl⟩
  rw [← hmade] at h2
  obtain ⟨p, h3, h4⟩ := List.mem_map.mp h2
  exact saveable_sheet h4 (hs p h3)

theorem made_read {fl : Floats} {lb ie : Bool} {defStyle : ValueType → Option String}
    {hist : List (Str × List Sheets.Call)} {sheets : List Sheet} {l : List (Head × TSheet)}
    (hmade : Made hist sheets) (hs : ∀ q ∈ hist, Saveable fl lb q.2)
    (h : SameSheets ie defStyle (sheets.map fun s => (s.head, s.body)) l) :
    l.length = hist.length ∧ ∀ (i : Nat) n cs, hist[i]? = some (n, cs) →
      ∃ h s', l[i]? = some (h, s') ∧ SheetRead ie defStyle n cs h s' := by
  obtain ⟨a, b⟩ := made_get hmade
  obtain ⟨c, d⟩ := same_get h
  refine ⟨by rw [c, List.length_map, a], fun i n cs hi => ?_⟩
  obtain ⟨s, h1, h2⟩ := b i (n, cs) hi
  obtain ⟨s', h3, h4⟩ := d i (s.head, s.body) (by rw [List.getElem?_map, h1]; rfl)
  exact ⟨_, s', h3, sheet_read h2 (hs _ (List.mem_of_getElem? hi)) h4⟩

/-! ## C93 -/

variable {e : Env}

/-- **C93, packages (partial).** The sheets of a workbook are made by any histories of calls that a file can hold.  The
workbook is written to a package and the package is read: there are as many sheets, in the same order, and each setting,
group, cell, column and row with content of each sheet is what the calls asked for.

Missing (`_partial`): the limits in `Saveable`, and the view. -/
theorem C93_package_partial (hm : e.ints.max = Refs.Spec.maxU32) (ho : e.opts.useRepeat = false)
    (defStyle : ValueType → Option String) (b : Source) (hb : GoodParts e.fl false b)
    (hist : List (Str × List Sheets.Call)) (hne : hist ≠ []) (sheets : List Sheet) (hmade : Made hist sheets)
    (hs : ∀ q ∈ hist, Saveable e.fl false q.2) (hsheets : b.sheets = sheets.map fun s => (s.head, s.body)) :
    ∃ z t, writePackage e.fl defStyle b = some z ∧ readPackage e z = .ok t ∧ t.body.sheets.length = hist.length
      ∧ ∀ (i : Nat) n cs, hist[i]? = some (n, cs) →
        ∃ h s, t.body.sheets[i]? = some (h, s) ∧ SheetRead e.opts.ignoreEmpty defStyle n cs h s := by
  have hg : Good e.fl false b := ⟨hb, by rw [hsheets]; exact made_good hmade hs, by
    rw [hsheets]
    intro h0
    have := (made_get hmade).1
    rw [List.map_eq_nil_iff.mp h0] at this
    exact hne (List.length_eq_zero_iff.mp this.symm)⟩
  obtain ⟨z, t, h1, h2, h3, _⟩ := C78_package_partial hm ho defStyle b hg
  have := h3.sheets
  rw [hsheets] at this
  obtain ⟨h4, h5⟩ := made_read hmade hs this
  exact ⟨z, t, h1, h2, h4, h5⟩

/-- **C93, flat files (partial).** The same for flat files. -/
theorem C93_flat_partial (hm : e.ints.max = Refs.Spec.maxU32) (ho : e.opts.useRepeat = false)
    (defStyle : ValueType → Option String) (b : Source) (hb : GoodParts e.fl true b)
    (hist : List (Str × List Sheets.Call)) (hne : hist ≠ []) (sheets : List Sheet) (hmade : Made hist sheets)
    (hs : ∀ q ∈ hist, Saveable e.fl true q.2) (hsheets : b.sheets = sheets.map fun s => (s.head, s.body)) :
    ∃ z t, writeFlat e.fl defStyle b = some z ∧ readFlat e z = .ok t ∧ t.body.sheets.length = hist.length
      ∧ ∀ (i : Nat) n cs, hist[i]? = some (n, cs) →
        ∃ h s, t.body.sheets[i]? = some (h, s) ∧ SheetRead e.opts.ignoreEmpty defStyle n cs h s := by
  have hg : Good e.fl true b := ⟨hb, by rw [hsheets]; exact made_good hmade hs, by
    rw [hsheets]
    intro h0
    have := (made_get hmade).1
    rw [List.map_eq_nil_iff.mp h0] at this
    exact hne (List.length_eq_zero_iff.mp this.symm)⟩
  obtain ⟨z, t, h1, h2, h3, _⟩ := C79_flat_partial hm ho defStyle b hg
  have := h3.sheets
  rw [hsheets] at this
  obtain ⟨h4, h5⟩ := made_read hmade hs this
  exact ⟨z, t, h1, h2, h4, h5⟩

/-! ## A case -/

/-- Calls of all kinds, mixed. -/
def someHistory : List Sheets.Call :=
  [.setName "a".toList, .cell (.setValue 0 0 (.text "head".toList)), .cell (.setValue 1 1 (.text "x < y".toList)),
   .row (.setStyle 1 "r"), .col (.setStyle 0 "w"), .cell (.setCellstyle 1 1 "c"), .colGroup (.add 1 2),
   .cell (.setValue 2 0 (.boolean false)), .col (.setStyle 2 "v"), .showColGroup 1 2 false, .setPrint false,
   .rowGroup (.add 1 2), .setHeaderRows 0 0, .addPrintRange Refs.sampleRange, .cell (.setValue 1 1 (.boolean true)),
   .setName "b".toList]

theorem some_cells (r c : Nat) : specAt (r, c) (cellCalls someHistory)
    = if (r, c) = (0, 0) then { Obs.fresh with present := true, value := .text "head".toList }
      else if (r, c) = (1, 1) then { Obs.fresh with present := true, value := .boolean true, style := some "c" }
      else if (r, c) = (2, 0) then { Obs.fresh with present := true, value := .boolean false }
      else .fresh := by
  by_cases h1 : (r, c) = (0, 0)
  · rw [h1]; rfl
  by_cases h2 : (r, c) = (1, 1)
  · rw [h2]; rfl
  by_cases h3 : (r, c) = (2, 0)
  · rw [h3]; rfl
  rw [if_neg h1, if_neg h2, if_neg h3]
  simp [specAt, someHistory, cellCalls, CellOp.pos, Ne.symm h1, Ne.symm h2, Ne.symm h3]

theorem some_cols (k : Nat) (h0 : k ≠ 0) (h1 : k ≠ 1) (h2 : k ≠ 2) : colSpec {} k (colCalls [] someHistory) = {}
    ∧ ¬ Named someHistory k := by
  have e : colCalls [] someHistory = [.setStyle 0 "w", .setStyle 2 "v", .setVisible 1 .collapsed, .setVisible 2 .collapsed] := rfl
  unfold Named
  rw [e]
  simp [colSpec, ColOp.col, Ne.symm h0, Ne.symm h1, Ne.symm h2]

theorem some_saveable (fl : Floats) (lb : Bool) : Saveable fl lb someHistory where
  cells := by
    intro r c hp
    rw [some_cells] at hp ⊢
    have hx : ∀ o : Obs, o.annotation = none → o.drawFrames = [] → o.rowSpan = 1 → o.colSpan = 1 → o.matrixRowSpan = 1 →
        o.matrixColSpan = 1 → ExtrasFit lb o := by
      intro o h1 h2 h3 h4 h5 h6
      exact cellOk_plain lb _ h1 h2 (by simp [h3, h4, SpanOk]) (by simp [h5, h6, SpanOk])
    by_cases h1 : (r, c) = (0, 0)
    · rw [if_pos h1]
      injection h1 with h1 h2
      subst h1 h2
      exact ⟨by decide, by decide, rfl, ⟨by decide, by decide⟩, hx _ rfl rfl rfl rfl rfl rfl⟩
    rw [if_neg h1] at hp ⊢
    by_cases h2 : (r, c) = (1, 1)
    · rw [if_pos h2]
      injection h2 with h1 h2
      subst h1 h2
      exact ⟨by decide, by decide, rfl, trivial, hx _ rfl rfl rfl rfl rfl rfl⟩
    rw [if_neg h2] at hp ⊢
    by_cases h3 : (r, c) = (2, 0)
    · rw [if_pos h3]
      injection h3 with h4 h5
      subst h4 h5
      exact ⟨by decide, by decide, rfl, trivial, hx _ rfl rfl rfl rfl rfl rfl⟩
    rw [if_neg h3] at hp
    cases hp
  rows := by
    intro r n h
    have e : rowCalls [] someHistory = [.setStyle 1 "r"] := rfl
    rw [e] at h
    simp at h
  cols := by
    intro k h
    apply Classical.byContradiction
    intro hk
    exact (some_cols k (by omega) (by omega) (by omega)).2 h
  gap := by
    intro a b hab ha hb hx
    have h1 : a = 0 ∨ a = 1 ∨ a = 2 := by
      apply Classical.byContradiction
      intro hk
      exact (some_cols a (by omega) (by omega) (by omega)).2 ha
    have h2 : b = 0 ∨ b = 1 ∨ b = 2 := by
      apply Classical.byContradiction
      intro hk
      exact (some_cols b (by omega) (by omega) (by omega)).2 hb
    have ea : a = 0 := by omega
    have eb : b = 2 := by omega
    subst ea eb
    decide
  hole := by
    intro a b hab he hne
    have h1 : a = 0 ∨ a = 1 ∨ a = 2 := by
      apply Classical.byContradiction
      intro hk
      exact hne (by unfold colWish; rw [(some_cols a (by omega) (by omega) (by omega)).1])
    have h2 : b = 0 ∨ b = 1 ∨ b = 2 := by
      apply Classical.byContradiction
      intro hk
      rw [he] at hne
      exact hne (by unfold colWish; rw [(some_cols b (by omega) (by omega) (by omega)).1])
    have ea : a = 0 := by omega
    have eb : b = 2 := by omega
    subst ea eb
    exact absurd he (by decide)
  headerRows := by
    intro h hh
    have e : lastWish wishHeaderRows none someHistory = some ⟨0, 0⟩ := rfl
    rw [e] at hh
    cases hh
    refine ⟨by decide, fun r h1 h2 => ⟨0, ?_⟩⟩
    dsimp only at h2
    have : r = 0 := by omega
    subst this
    rfl
  headerCols := by
    intro h hh
    cases hh
  colOrder := by
    have e : Sheets.Spec.colGroups [] someHistory = [(1, 2)] := rfl
    rw [e]
    exact List.pairwise_singleton _ _
  colCut := by
    intro g hg
    have e : Sheets.Spec.colGroups [] someHistory = [(1, 2)] := rfl
    rw [e, List.mem_singleton] at hg
    subst hg
    exact .inr (.inr (by decide))
  rowOrder := by
    have e : Sheets.Spec.rowGroups [] someHistory = [(1, 2)] := rfl
    rw [e]
    exact List.pairwise_singleton _ _
  rowEnds := by
    intro g hg
    have e : Sheets.Spec.rowGroups [] someHistory = [(1, 2)] := rfl
    rw [e, List.mem_singleton] at hg
    subst hg
    exact ⟨0, rfl⟩
  ranges := by
    intro r hr
    have e : rangesOf [] someHistory = [Refs.sampleRange] := rfl
    rw [e, List.mem_singleton] at hr
    subst hr
    exact Refs.sampleRange_good.1

/-- **The hypotheses of C93 are met** by a workbook with something in every part and two sheets made by calls. -/
theorem C93_meets : ∃ s z t, (Sheet.new "x".toList).run someHistory = some s
    ∧ writePackage Meta.asBits (fun _ => none) { demo with sheets := [(s.head, s.body), (s.head, s.body)] } = some z
    ∧ readPackage ⟨Meta.asBits, Refs.checked, {}⟩ z = .ok t ∧ t.body.sheets.length = 2
    ∧ ∃ h b, t.body.sheets[1]? = some (h, b) ∧ h.name = "b".toList ∧ h.print = false
      ∧ b.data.value 0 0 = .text "head".toList ∧ b.data.value 1 1 = .boolean true ∧ b.data.cellstyle 1 1 = some "c"
      ∧ b.colHeader.attrs 0 = ⟨some "w", none, .visible⟩ ∧ b.rowHeader.attrs 1 = ⟨some "r", none, .visible⟩ := by
  have hrun : ∃ s, (Sheet.new "x".toList).run someHistory = some s := ⟨_, rfl⟩
  obtain ⟨s, hs⟩ := hrun
  obtain ⟨z, t, h1, h2, h3, h4⟩ := C93_package_partial (e := ⟨Meta.asBits, Refs.checked, {}⟩) rfl rfl (fun _ => none)
    { demo with sheets := [(s.head, s.body), (s.head, s.body)] } { demo_good with }
    [("x".toList, someHistory), ("x".toList, someHistory)] (by simp) [s, s]
    (by unfold Made; simp only [List.map_cons, hs, List.map_nil]) (by
      intro q hq
      simp only [List.mem_cons, List.not_mem_nil, or_false, or_self] at hq
      subst hq
      exact some_saveable _ _) rfl
  refine ⟨s, z, t, hs, h1, h2, h3, ?_⟩
  obtain ⟨h, b, a1, a2⟩ := h4 1 _ _ rfl
  have c0 := a2.complete 0 0 rfl (fun h => absurd h.1 (by rw [some_cells]; decide))
  have c1 := a2.complete 1 1 rfl (fun h => absurd h.1 (by rw [some_cells]; decide))
  refine ⟨h, b, a1, a2.name, a2.print, ?_, ?_, ?_, ?_, ?_⟩
  · exact congrArg Obs.value c0
  · exact congrArg Obs.value c1
  · exact congrArg Obs.style c1
  · exact a2.cols 0 0 0 rfl (Nat.le_refl _)
  · refine a2.rows ?_ 1 1 rfl (fun h => absurd h.1 (by rw [some_cells]; decide))
    · have e : rowCalls [] someHistory = [.setStyle 1 "r"] := rfl
      rw [e]
      simp [rowsSafe]

end Verif.Whole
