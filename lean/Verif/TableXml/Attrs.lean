import Verif.TableXml.Model
import Verif.Codec.CellProps
import Verif.Refs.Props

/-!
# Lemmas about the text of a table: the attributes
-/

set_option autoImplicit false

namespace Verif.TableXml

open Xml Xml.Spec Codec
open Verif.Enum (visibilityText parseVisibility)

theorem foldAttrs_append {α : Type} (f : α → Str → Str → Except Fault α) (a b : List (Str × Str)) : ∀ s : α,
    foldAttrs f s (a ++ b) =
      match foldAttrs f s a with
      | .error e => .error e
      | .ok s => foldAttrs f s b := by
  induction a with
  | nil => intro s; rfl
  | cons x a ih =>
    intro s
    obtain ⟨k, v⟩ := x
    rw [List.cons_append, foldAttrs, foldAttrs]
    cases f s k v with
    | error e => rfl
    | ok s' => exact ih s'

theorem foldAttrs_seg {α : Type} {f : α → Str → Str → Except Fault α} {a b : List (Bool × Str × Str)}
    {s s1 s2 : α} (h1 : foldAttrs f s (rawAttrs a) = .ok s1) (h2 : foldAttrs f s1 (rawAttrs b) = .ok s2) :
    foldAttrs f s (rawAttrs (a ++ b)) = .ok s2 := by
  rw [rawAttrs_append, foldAttrs_append, h1]
  exact h2

theorem fold_optA {α : Type} {f : α → Str → Str → Except Fault α} {s : α} {k : Str} {o : Option Str}
    (s' : α) (h0 : o = none → s' = s) (h1 : ∀ v, o = some v → f s k (escape v) = .ok s') :
    foldAttrs f s (rawAttrs (optA k o)) = .ok s' := by
  cases o with
  | none => rw [h0 rfl]; rfl
  | some v =>
    show foldAttrs f s [(k, escape v)] = _
    rw [foldAttrs, h1 v rfl]
    rfl

theorem fold_flagA {α : Type} {f : α → Str → Str → Except Fault α} {s : α} {b : Bool} {k v : Str}
    (s' : α) (h0 : b = false → s' = s) (h1 : b = true → f s k v = .ok s') :
    foldAttrs f s (rawAttrs (flagA b k v)) = .ok s' := by
  cases b with
  | false => rw [h0 rfl]; rfl
  | true =>
    show foldAttrs f s [(k, v)] = _
    rw [foldAttrs, h1 rfl]
    rfl

theorem flagA_ok (b : Bool) (k v : Str) (hk : Name k) (hv : Plain v) : AttrsOk (flagA b k v) := by
  cases b
  · intro x hx; cases hx
  · exact attrsOk_one k v hk hv

theorem plain_visibility (v : Visibility) : Plain (visibilityText v) := by cases v <;> decide

theorem escape_visibility (v : Visibility) : escape (visibilityText v) = visibilityText v := by
  cases v <;> decide

theorem parse_visibility (v : Visibility) : parseVisibility (visibilityText v) = some v := by
  cases v <;> decide

/-- The largest `u32`. -/
def maxRep : Nat := 4294967295

/-! ## Rows -/

theorem row_n (t : RowTag) (n : Nat) (h : n ≤ maxRep) :
    rowAttr t "table:number-rows-repeated".toList (escape (decNat n)) = .ok { t with repeated := some n } := by
  unfold rowAttr
  rw [if_pos rfl, escape_dec, parseU32_dec n h]
  rfl

theorem row_style (t : RowTag) (v : String) :
    rowAttr t "table:style-name".toList (escape v.toList) = .ok { t with style := some v } := by
  unfold rowAttr
  rw [if_neg (by decide), if_pos rfl, unescape_escape]
  show Except.ok { t with style := some (String.ofList v.toList) } = _
  rw [String.ofList_toList]

theorem row_cellstyle (t : RowTag) (v : String) :
    rowAttr t "table:default-cell-style-name".toList (escape v.toList) = .ok { t with cellstyle := some v } := by
  unfold rowAttr
  rw [if_neg (by decide), if_neg (by decide), if_pos rfl, unescape_escape]
  show Except.ok { t with cellstyle := some (String.ofList v.toList) } = _
  rw [String.ofList_toList]

theorem row_visibility (t : RowTag) (v : Visibility) :
    rowAttr t "table:visibility".toList (escape (visibilityText v)) = .ok { t with visibility := some v } := by
  unfold rowAttr
  rw [if_neg (by decide), if_neg (by decide), if_neg (by decide), if_pos rfl, escape_visibility, parse_visibility]
  rfl

/-- The attributes of a row come back. -/
theorem rowAtts_read (t : RowTag) (h : ∀ n, t.repeated = some n → n ≤ maxRep) :
    foldAttrs rowAttr {} (rawAttrs (rowAtts t)) = .ok t := by
  obtain ⟨rep, st, cs, vis⟩ := t
  unfold rowAtts numA
  refine foldAttrs_seg (s1 := ⟨rep, st, cs, none⟩) (foldAttrs_seg (s1 := ⟨rep, st, none, none⟩)
    (foldAttrs_seg (s1 := ⟨rep, none, none, none⟩) ?_ ?_) ?_) ?_
  · refine fold_optA _ (fun e => ?_) (fun v e => ?_)
    · cases rep with
      | none => rfl
      | some n => cases e
    · cases rep with
      | none => cases e
      | some n =>
        cases e
        exact row_n {} n (h n rfl)
  · refine fold_optA _ (fun e => ?_) (fun v e => ?_)
    · cases st with
      | none => rfl
      | some n => cases e
    · cases st with
      | none => cases e
      | some n => cases e; exact row_style _ n
  · refine fold_optA _ (fun e => ?_) (fun v e => ?_)
    · cases cs with
      | none => rfl
      | some n => cases e
    · cases cs with
      | none => cases e
      | some n => cases e; exact row_cellstyle _ n
  · refine fold_optA _ (fun e => ?_) (fun v e => ?_)
    · cases vis with
      | none => rfl
      | some n => cases e
    · cases vis with
      | none => cases e
      | some n => cases e; exact row_visibility _ n

theorem rowAtts_ok (t : RowTag) : AttrsOk (rowAtts t) := by
  unfold rowAtts numA
  exact attrsOk_append (attrsOk_append (attrsOk_append (optA_ok _ _ (by decide)) (optA_ok _ _ (by decide)))
    (optA_ok _ _ (by decide))) (optA_ok _ _ (by decide))

/-! ## Columns -/

theorem col_n (t : ColTag) (n : Nat) (h : n ≤ maxRep) :
    colAttr t "table:number-columns-repeated".toList (escape (decNat n)) = .ok { t with repeated := some n } := by
  unfold colAttr
  rw [if_pos rfl, escape_dec, parseU32_dec n h]
  rfl

theorem col_style (t : ColTag) (v : String) :
    colAttr t "table:style-name".toList (escape v.toList) = .ok { t with style := some v } := by
  unfold colAttr
  rw [if_neg (by decide), if_pos rfl, unescape_escape]
  show Except.ok { t with style := some (String.ofList v.toList) } = _
  rw [String.ofList_toList]

theorem col_cellstyle (t : ColTag) (v : String) :
    colAttr t "table:default-cell-style-name".toList (escape v.toList) = .ok { t with cellstyle := some v } := by
  unfold colAttr
  rw [if_neg (by decide), if_neg (by decide), if_pos rfl, unescape_escape]
  show Except.ok { t with cellstyle := some (String.ofList v.toList) } = _
  rw [String.ofList_toList]

theorem col_visibility (t : ColTag) (v : Visibility) :
    colAttr t "table:visibility".toList (escape (visibilityText v)) = .ok { t with visibility := some v } := by
  unfold colAttr
  rw [if_neg (by decide), if_neg (by decide), if_neg (by decide), if_pos rfl, escape_visibility, parse_visibility]
  rfl

/-- The attributes of a column come back. -/
theorem colAtts_read (t : ColTag) (h : ∀ n, t.repeated = some n → n ≤ maxRep) :
    foldAttrs colAttr {} (rawAttrs (colAtts t)) = .ok t := by
  obtain ⟨rep, st, cs, vis⟩ := t
  unfold colAtts numA
  refine foldAttrs_seg (s1 := ⟨rep, st, cs, none⟩) (foldAttrs_seg (s1 := ⟨rep, st, none, none⟩)
    (foldAttrs_seg (s1 := ⟨rep, none, none, none⟩) ?_ ?_) ?_) ?_
  · refine fold_optA _ (fun e => ?_) (fun v e => ?_)
    · cases rep with
      | none => rfl
      | some n => cases e
    · cases rep with
      | none => cases e
      | some n =>
        cases e
        exact col_n {} n (h n rfl)
  · refine fold_optA _ (fun e => ?_) (fun v e => ?_)
    · cases st with
      | none => rfl
      | some n => cases e
    · cases st with
      | none => cases e
      | some n => cases e; exact col_style _ n
  · refine fold_optA _ (fun e => ?_) (fun v e => ?_)
    · cases cs with
      | none => rfl
      | some n => cases e
    · cases cs with
      | none => cases e
      | some n => cases e; exact col_cellstyle _ n
  · refine fold_optA _ (fun e => ?_) (fun v e => ?_)
    · cases vis with
      | none => rfl
      | some n => cases e
    · cases vis with
      | none => cases e
      | some n => cases e; exact col_visibility _ n

theorem colAtts_ok (t : ColTag) : AttrsOk (colAtts t) := by
  unfold colAtts numA
  exact attrsOk_append (attrsOk_append (attrsOk_append (optA_ok _ _ (by decide)) (optA_ok _ _ (by decide)))
    (optA_ok _ _ (by decide))) (optA_ok _ _ (by decide))

/-! ## Groups -/

theorem groupAtts_read (d : Option Bool) : foldAttrs groupAttr none (rawAttrs (groupAtts d)) = .ok d := by
  cases d with
  | none => rfl
  | some b =>
    show foldAttrs groupAttr none [("table:display".toList, fmtBool b)] = _
    rw [foldAttrs, groupAttr, if_pos rfl, parseBool_fmt]
    rfl

theorem groupAtts_ok (d : Option Bool) : AttrsOk (groupAtts d) := by
  cases d with
  | none => intro x hx; cases hx
  | some b => exact attrsOk_one _ _ (by decide) (plain_bool b)

/-! ## The table -/

theorem table_name (m : Refs.Ints) (h : Head) (v : Str) :
    tableAttr m h "table:name".toList (escape v) = .ok { h with name := v } := by
  unfold tableAttr
  rw [if_pos rfl, unescape_escape]
  rfl

theorem table_style (m : Refs.Ints) (h : Head) (v : Str) :
    tableAttr m h "table:style-name".toList (escape v) = .ok { h with style := some v } := by
  unfold tableAttr
  rw [if_neg (by decide), if_pos rfl, unescape_escape]
  rfl

theorem table_ranges (m : Refs.Ints) (h : Head) (v : Str) (r : Option (List CellRange))
    (hr : Refs.parseCellRanges m v = .ok r) :
    tableAttr m h "table:print-ranges".toList (escape v) = .ok { h with ranges := r } := by
  unfold tableAttr
  rw [if_neg (by decide), if_neg (by decide), if_neg (by decide), if_neg (by decide), if_pos rfl,
    unescape_escape]
  simp only
  rw [hr]

theorem table_print (m : Refs.Ints) (h : Head) :
    tableAttr m h "table:print".toList "false".toList = .ok { h with print := false } := by
  unfold tableAttr
  rw [if_neg (by decide), if_neg (by decide), if_pos rfl]
  rfl

theorem table_display (m : Refs.Ints) (h : Head) :
    tableAttr m h "table:display".toList "false".toList = .ok { h with display := false } := by
  unfold tableAttr
  rw [if_neg (by decide), if_neg (by decide), if_neg (by decide), if_pos rfl]
  rfl

/-- The attributes of the table, if its print ranges are read as `r`. -/
theorem tableAtts_read (m : Refs.Ints) (h : Head) (r : Option (List CellRange))
    (hr : ∀ l, h.ranges = some l → Refs.parseCellRanges m (Refs.fmtCellRanges l) = .ok r)
    (hn : h.ranges = none → r = none) :
    foldAttrs (tableAttr m) {} (rawAttrs (tableAtts h)) = .ok { h with ranges := r, extra := [] } := by
  obtain ⟨name, style, ranges, print, display, extra⟩ := h
  have hcons : tableAtts ⟨name, style, ranges, print, display, extra⟩
      = optA "table:name".toList (some name) ++ optA "table:style-name".toList style
        ++ optA "table:print-ranges".toList (ranges.map Refs.fmtCellRanges)
        ++ flagA (!print) "table:print".toList "false".toList
        ++ flagA (!display) "table:display".toList "false".toList := rfl
  rw [hcons]
  refine foldAttrs_seg (s1 := ⟨name, style, r, print, true, []⟩)
    (foldAttrs_seg (s1 := ⟨name, style, r, true, true, []⟩)
    (foldAttrs_seg (s1 := ⟨name, style, none, true, true, []⟩)
    (foldAttrs_seg (s1 := ⟨name, none, none, true, true, []⟩) ?_ ?_) ?_) ?_) ?_
  · refine fold_optA _ (fun e => by cases e) (fun v e => ?_)
    cases e; exact table_name m _ name
  · refine fold_optA _ (fun e => ?_) (fun v e => ?_)
    · rw [e]
    · rw [e]; exact table_style m _ v
  · refine fold_optA _ (fun e => ?_) (fun v e => ?_)
    · cases ranges with
      | none => rw [hn rfl]
      | some l => cases e
    · cases ranges with
      | none => cases e
      | some l => cases e; exact table_ranges m _ _ r (hr l rfl)
  · refine fold_flagA _ (fun e => ?_) (fun e => ?_)
    · cases print <;> simp_all
    · cases print
      · exact table_print m _
      · cases e
  · refine fold_flagA _ (fun e => ?_) (fun e => ?_)
    · cases display <;> simp_all
    · cases display
      · exact table_display m _
      · cases e

theorem tableAtts_ok (h : Head) : AttrsOk (tableAtts h) := by
  have hcons : tableAtts h
      = optA "table:name".toList (some h.name) ++ optA "table:style-name".toList h.style
        ++ optA "table:print-ranges".toList (h.ranges.map Refs.fmtCellRanges)
        ++ flagA (!h.print) "table:print".toList "false".toList
        ++ flagA (!h.display) "table:display".toList "false".toList := rfl
  rw [hcons]
  exact attrsOk_append (attrsOk_append (attrsOk_append (attrsOk_append (optA_ok _ _ (by decide))
    (optA_ok _ _ (by decide))) (optA_ok _ _ (by decide))) (flagA_ok _ _ _ (by decide) (by decide)))
    (flagA_ok _ _ _ (by decide) (by decide))

/-! ## Cells -/

/-- Extra data that is stored only if there is something in it. -/
def Tidy (c : CellData) : Prop := c.toContent.toData = c

/-- The extra data, if any, is not void. -/
def NotVoid (o : Option CellDataExt) : Prop :=
  ∀ e, o = some e → (e.validation.isSome || !e.span.isEmpty || !e.matrixSpan.isEmpty
    || e.annotation.isSome || !e.drawFrames.isEmpty) = true

theorem tidy_of_notVoid (c : CellData) (h : NotVoid c.extra) : Tidy c := by
  obtain ⟨v, f, st, r, e⟩ := c
  cases e with
  | none => rfl
  | some e =>
    unfold Tidy CellData.toContent CellContent.toData
    simp only [Option.getD_some]
    rw [if_pos (h e rfl)]

/-- Reading the attributes of a cell keeps the extra data tidy. -/
def TidySt (s : CellState) : Prop := ∀ c, s.cell = some c → NotVoid c.extra

theorem tidy_update {s : CellState} (h : TidySt s) (f : CellData → CellData)
    (hf : ∀ c, (f c).extra = c.extra) : TidySt (s.update f) := by
  intro c hc
  unfold CellState.update at hc
  simp only [Option.some.injEq] at hc
  subst hc
  rw [hf]
  cases hs : s.cell with
  | none => intro e he; cases he
  | some c => exact h c hs

theorem tidy_updateExt {s : CellState} (f : CellDataExt → CellDataExt)
    (hf : ∀ e, ((f e).validation.isSome || !(f e).span.isEmpty || !(f e).matrixSpan.isEmpty
    || (f e).annotation.isSome || !(f e).drawFrames.isEmpty) = true) : TidySt (s.updateExt f) := by
  intro c hc
  unfold CellState.updateExt CellState.update at hc
  simp only [Option.some.injEq] at hc
  subst hc
  intro e he
  simp only [Option.some.injEq] at he
  subst he
  exact hf _

theorem tidy_span {s s' : CellState} {v : Str} {f : Nat → CellDataExt → CellDataExt} (h : TidySt s)
    (hf : ∀ n, 1 < n → ∀ e, ((f n e).validation.isSome || !(f n e).span.isEmpty || !(f n e).matrixSpan.isEmpty
    || (f n e).annotation.isSome || !(f n e).drawFrames.isEmpty) = true) (hs : s.span v f = .ok s') : TidySt s' := by
  unfold CellState.span at hs
  split at hs
  · cases hs
  · cases hs
    split
    · rename_i hn
      exact tidy_updateExt _ (hf _ hn)
    · exact h

theorem map_ok {α β : Type} {x : Except Fault α} {f : α → β} {b : β} (h : x.map f = .ok b) :
    ∃ a, x = .ok a ∧ f a = b := by
  cases x with
  | error e => cases h
  | ok a => exact ⟨a, rfl, by cases h; rfl⟩

theorem span_row (n : Nat) (hn : 1 < n) (s : CellSpan) :
    CellSpan.isEmpty { s with rowSpan := n } = false := by
  unfold CellSpan.isEmpty
  have : (n == 1) = false := by simp; omega
  simp [this]

theorem span_col (n : Nat) (hn : 1 < n) (s : CellSpan) :
    CellSpan.isEmpty { s with colSpan := n } = false := by
  unfold CellSpan.isEmpty
  have : (n == 1) = false := by simp; omega
  simp [this]

theorem tidy_attr (fl : Floats) {s s' : CellState} {k v : Str} (h : TidySt s)
    (hs : cellAttr fl s k v = .ok s') : TidySt s' := by
  unfold cellAttr at hs
  cases hk : cellKey k with
  | none =>
    rw [hk] at hs
    cases hs; exact h
  | some key =>
    rw [hk] at hs
    cases key <;> simp only at hs
    case repeated =>
      obtain ⟨n, _, rfl⟩ := map_ok hs
      exact h
    case rowsSpanned =>
      exact tidy_span h (fun n hn e => by simp [span_row n hn]) hs
    case colsSpanned =>
      exact tidy_span h (fun n hn e => by simp [span_col n hn]) hs
    case matrixRows =>
      exact tidy_span h (fun n hn e => by simp [span_row n hn]) hs
    case matrixCols =>
      exact tidy_span h (fun n hn e => by simp [span_col n hn]) hs
    case validation =>
      obtain ⟨n, _, rfl⟩ := map_ok hs
      exact tidy_updateExt _ (fun e => by simp)
    case currency =>
      cases hs
      exact tidy_update h _ (fun _ => rfl)
    all_goals
      obtain ⟨n, _, rfl⟩ := map_ok hs
      exact tidy_update h _ (fun _ => rfl)

theorem tidy_attrs (fl : Floats) (as : List (Str × Str)) : ∀ {s s' : CellState}, TidySt s →
    cellAttrs fl s as = .ok s' → TidySt s' := by
  induction as with
  | nil => intro s s' h hs; cases hs; exact h
  | cons a as ih =>
    intro s s' h hs
    obtain ⟨k, v⟩ := a
    rw [cellAttrs] at hs
    split at hs
    · cases hs
    · rename_i s1 h1
      exact ih (tidy_attr fl h h1) hs

/-- What every element keeps the loop keeps. -/
theorem subLoop_keeps {α : Type} (P : α → Prop) (tag : Str) (f : Child α)
    (hf : ∀ a n as et es a' es', P a → f a n as et es = .ok (some (a', es')) → P a') :
    ∀ (k : Nat) (a : α) (names : List Str) (es : List Event) (a' : α) (rest : List Event), P a →
      subLoop tag f k a names es = .ok (a', rest) → P a' := by
  intro k
  induction k with
  | zero => intro a names es a' rest _ h; cases h
  | succ k ih =>
    intro a names es a' rest ha h
    cases es with
    | nil => cases h; exact ha
    | cons e es =>
      cases e with
      | text t => exact ih _ _ _ _ _ ha h
      | ref n => exact ih _ _ _ _ _ ha h
      | «end» n =>
        rw [subLoop] at h
        split at h
        · cases h
        · split at h
          · cases h; exact ha
          · exact ih _ _ _ _ _ ha h
      | start n as =>
        rw [subLoop] at h
        split at h
        · cases h
        · exact ih _ _ _ _ _ ha h
        · rename_i b es' hb
          exact ih _ _ _ _ _ (hf _ _ _ _ _ _ _ ha hb) h
      | empty n as =>
        rw [subLoop] at h
        split at h
        · cases h
        · exact ih _ _ _ _ _ ha h
        · rename_i b es' hb
          exact ih _ _ _ _ _ (hf _ _ _ _ _ _ _ ha hb) h

theorem tidy_child (b : CellBody) (n : Str) (as : List (Str × Str)) (et : Bool) (es : List Event) (b' : CellBody)
    (es' : List Event) (h : TidySt b.st) (hb : cellChild b n as et es = .ok (some (b', es'))) : TidySt b'.st := by
  unfold cellChild at hb
  split at hb
  · split at hb
    · obtain ⟨c, _, hc⟩ := map_ok hb
      cases hc; exact h
    · split at hb
      · cases hb
      · obtain ⟨c, _, hc⟩ := map_ok hb
        cases hc; exact h
  · split at hb
    · obtain ⟨c, _, hc⟩ := map_ok hb
      cases hc
      exact tidy_updateExt _ (by intro e; simp)
    · split at hb
      · obtain ⟨c, _, hc⟩ := map_ok hb
        cases hc
        exact tidy_updateExt _ (by intro e; simp)
      · cases hb

/-- Every cell that is read is tidy. -/
theorem tidy_read (fl : Floats) (ie : Bool) (cs : Option String) (n : Str) (as : List (Str × Str)) (et : Bool)
    (es rest : List Event) (r : CellResult) (c : CellData)
    (h : readTableCell fl ie cs n as et es = .ok (r, rest)) (hc : r.cell = some c) : Tidy c := by
  unfold readTableCell at h
  split at h
  · cases h
  · rename_i s hs
    have ht := tidy_attrs fl as (s := {}) (by intro c hc; cases hc) hs
    split at h
    · cases h
    · rename_i b es' hb
      replace ht : TidySt b.st := by
        split at hb
        · cases hb; exact ht
        · exact subLoop_keeps (fun b => TidySt b.st) n cellChild tidy_child _ _ _ _ _ _ ht hb
      split at h
      · cases h
      · rename_i c' hf
        cases h
        simp only at hc
        subst hc
        unfold finishCell at hf
        split at hf
        · cases hf
        · rename_i c0 h0
          split at hf
          · cases hf
          · simp only [Except.ok.injEq] at hf
            split at hf
            · cases hf
            · simp only [Option.some.injEq] at hf
              subst hf
              exact tidy_of_notVoid _ (ht c0 h0)

end Verif.TableXml
