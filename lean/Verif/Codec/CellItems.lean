import Verif.Codec.CellLemmas
import Verif.Codec.TimeProps

/-!
# Lemmas about cells: what is written, and the attributes
-/

set_option autoImplicit false

namespace Verif.Codec

open Xml Xml.Spec
open Verif.Refs (digitChar isDigit decVal)

/-! ## What is written -/

/-- An optional attribute. -/
def optA (k : Str) : Option Str → List (Bool × Str × Str)
  | none => []
  | some v => [(true, k, v)]

/-- A number greater than 1. -/
def optN (k : Str) (n : Nat) : List (Bool × Str × Str) := if 1 < n then [(true, k, decNat n)] else []

/-- The attributes of a cell that do not depend on its value. -/
def headAtts (defStyle : ValueType → Option String) (c : CellData) (rep : Nat) : List (Bool × Str × Str) :=
  optA "table:formula".toList c.formula
    ++ optN "table:number-columns-repeated".toList rep
    ++ optA "table:style-name".toList ((outStyle defStyle c).map String.toList)
    ++ optA "table:content-validation-name".toList ((c.extra.bind (·.validation)).map String.toList)
    ++ optN "table:number-rows-spanned".toList ((c.extra.map (·.span.rowSpan)).getD 1)
    ++ optN "table:number-columns-spanned".toList ((c.extra.map (·.span.colSpan)).getD 1)
    ++ optN "table:number-matrix-rows-spanned".toList ((c.extra.map (·.matrixSpan.rowSpan)).getD 1)
    ++ optN "table:number-matrix-columns-spanned".toList ((c.extra.map (·.matrixSpan.colSpan)).getD 1)

/-- The attributes of a value. -/
def valueAtts (fl : Floats) : Value → List (Bool × Str × Str)
  | .empty => []
  | .text _ => [(false, "office:value-type".toList, "string".toList)]
  | .textXml _ => [(false, "office:value-type".toList, "string".toList)]
  | .dateTime d =>
    [(false, "office:value-type".toList, "date".toList), (false, "office:date-value".toList, fmtDateTime d)]
  | .timeDuration d =>
    [(false, "office:value-type".toList, "time".toList), (false, "office:time-value".toList, fmtDuration d)]
  | .boolean b =>
    [(false, "office:value-type".toList, "boolean".toList), (false, "office:boolean-value".toList, fmtBool b)]
  | .currency v c =>
    [(false, "office:value-type".toList, "currency".toList), (true, "office:currency".toList, c),
     (false, "office:value".toList, fl.fmt v)]
  | .number v =>
    [(false, "office:value-type".toList, "float".toList), (false, "office:value".toList, fl.fmt v)]
  | .percentage v =>
    [(false, "office:value-type".toList, "percentage".toList), (false, "office:value".toList, fl.fmt v)]

/-- A paragraph with a text that is not escaped. -/
def pItems (s : Str) : List Item := [.start false pName [], .text false s, .end false pName]

/-- The content that belongs to a value. -/
def valueBody (fl : Floats) : Value → List Item
  | .empty => []
  | .text s => (splitLines s).map (fun l => Item.elemText true pName l)
  | .textXml t => nodesItems t
  | .dateTime d => pItems (fmtDateTime d)
  | .timeDuration d => pItems (fmtDuration d)
  | .boolean b => pItems (fmtBool b)
  | .currency v c =>
    [.start false pName [], .text true c, .text false " ".toList, .text false (fl.fmt v), .end false pName]
  | .number v => pItems (fl.fmt v)
  | .percentage v => pItems (fl.fmt v)

/-- The items of a cell. -/
def cellItems (fl : Floats) (defStyle : ValueType → Option String) (c : CellData) (hidden : Bool)
    (rep : Nat) : List Item :=
  if hasSubs c then
    .start true (cellTag hidden) (headAtts defStyle c rep ++ valueAtts fl c.value)
      :: (valueBody fl c.value ++ noteItems c ++ [.end true (cellTag hidden)])
  else
    [.empty true (cellTag hidden) (headAtts defStyle c rep ++ valueAtts fl c.value), .noEnd (cellTag hidden)]

theorem optA_calls (k : Str) (o : Option Str) : (optA k o).map attrCall = optAttr k o := by
  cases o <;> rfl

theorem optN_calls (k : Str) (n : Nat) : (optN k n).map attrCall = optNat k n := by
  unfold optN optNat; split <;> rfl

theorem lines_calls (ls : List Str) : (ls.map (fun l => Item.elemText true pName l)).flatMap Item.calls
    = ls.map (fun l => Call.elemTextEsc pName l) := by
  induction ls with
  | nil => rfl
  | cons l ls ih => rw [List.map_cons, List.flatMap_cons, ih]; rfl

theorem value_calls (fl : Floats) (v : Value) :
    (valueAtts fl v).map attrCall ++ (valueBody fl v).flatMap Item.calls = writeValue fl v := by
  cases v with
  | text s =>
    show _ :: (_ ++ _) = _
    rw [List.map_nil, List.nil_append, show valueBody fl (.text s)
      = (splitLines s).map (fun l => Item.elemText true pName l) from rfl, lines_calls]
    rfl
  | textXml t =>
    show _ :: (_ ++ _) = _
    rw [List.map_nil, List.nil_append, show valueBody fl (.textXml t) = nodesItems t from rfl,
      nodesItems_calls]
    rfl
  | _ => rfl

/-- A cell without content. -/
theorem not_hasSubs (c : CellData) (h : ¬ hasSubs c = true) :
    c.value = .empty ∧ (c.extra.getD {}).annotation = none ∧ (c.extra.getD {}).drawFrames = [] := by
  unfold hasSubs at h
  simp only [Bool.or_eq_true, decide_eq_true_eq, Bool.not_eq_true', not_or, Option.isSome_iff_ne_none, ne_eq,
    Decidable.not_not, Bool.not_eq_false, List.isEmpty_iff] at h
  exact ⟨h.1.1, h.1.2, h.2⟩

theorem cellItems_calls (fl : Floats) (defStyle : ValueType → Option String) (c : CellData) (hidden : Bool)
    (rep : Nat) :
    (cellItems fl defStyle c hidden rep).flatMap Item.calls = writeCell fl defStyle c hidden rep := by
  unfold cellItems writeCell
  rw [← value_calls, ← noteItems_calls]
  by_cases hs : hasSubs c = true
  · rw [if_pos hs]
    simp [Item.calls, headAtts, optA_calls, optN_calls, hs]
  · rw [if_neg hs]
    obtain ⟨hv, ha, hf⟩ := not_hasSubs c hs
    unfold noteItems
    rw [ha, hf, hv]
    simp [Item.calls, headAtts, optA_calls, optN_calls, valueAtts, valueBody, hs]

/-! ## It can be written -/

theorem not_markup_of_toNat {c : Char} (h1 : c.toNat ≠ 60) (h2 : c.toNat ≠ 62) (h3 : c.toNat ≠ 38)
    (h4 : c.toNat ≠ 34) (h5 : c.toNat ≠ 39) : ¬ Markup c := by
  rintro (h | h | h | h | h) <;> subst h
  · exact h1 rfl
  · exact h2 rfl
  · exact h3 rfl
  · exact h4 rfl
  · exact h5 rfl

theorem plain_digits {s : Str} (h : ∀ c ∈ s, isDigit c = true) : Plain s := by
  intro c hc
  have := h c hc
  unfold isDigit at this
  simp at this
  obtain ⟨h1, h2⟩ := this
  exact not_markup_of_toNat (by omega) (by omega) (by omega) (by omega) (by omega)

theorem plain_append {a b : Str} (ha : Plain a) (hb : Plain b) : Plain (a ++ b) := by
  intro c hc
  rcases List.mem_append.1 hc with h | h
  · exact ha c h
  · exact hb c h

theorem plain_cons {c : Char} {s : Str} (hc : ¬ Markup c) (hs : Plain s) : Plain (c :: s) := by
  intro d hd
  rcases List.mem_cons.1 hd with h | h
  · exact h ▸ hc
  · exact hs d h

theorem plain_nil : Plain [] := by intro c hc; cases hc

theorem plain_decInt (z : Int) : Plain (decInt z) := by
  unfold decInt
  split
  · exact plain_cons (by decide) (plain_digits (decNat_digits _))
  · exact plain_digits (decNat_digits _)

theorem plain_pad (w n : Nat) : Plain (pad w n) := plain_digits (pad_digits w n)

theorem plain_year (y : Int) : Plain (fmtYear y) := by
  unfold fmtYear
  split
  · exact plain_pad _ _
  · split
    · exact plain_cons (by decide) (plain_pad _ _)
    · exact plain_cons (by decide) (plain_pad _ _)

theorem plain_frac (n : Nat) : Plain (fmtFrac n) := by
  unfold fmtFrac
  split
  · exact plain_nil
  · split
    · exact plain_cons (by decide) (plain_pad _ _)
    · split
      · exact plain_cons (by decide) (plain_pad _ _)
      · exact plain_cons (by decide) (plain_pad _ _)

theorem plain_dateTime (d : DateTime) : Plain (fmtDateTime d) := by
  unfold fmtDateTime
  refine plain_append (plain_append (plain_append (plain_append (plain_append (plain_append (plain_year _)
    (plain_cons (by decide) (plain_pad _ _)))
    (plain_cons (by decide) (plain_pad _ _)))
    (plain_cons (by decide) (plain_pad _ _)))
    (plain_cons (by decide) (plain_pad _ _)))
    (plain_cons (by decide) (plain_pad _ _))) (plain_frac _)

theorem plain_duration (d : Int) : Plain (fmtDuration d) := by
  unfold fmtDuration
  refine plain_append (plain_append (plain_append (plain_append ?_ ?_) ?_) ?_) ?_
  · exact plain_cons (by decide) (plain_cons (by decide) (plain_decInt _))
  · exact plain_cons (by decide) (plain_decInt _)
  · exact plain_cons (by decide) (plain_decInt _)
  · exact plain_cons (by decide) (plain_decInt _)
  · exact plain_cons (by decide) plain_nil

theorem plain_bool (b : Bool) : Plain (fmtBool b) := by
  cases b <;> decide

/-- Values that can be written: numbers as text do not need escaping, and names are XML names. -/
def Writable (fl : Floats) : Value → Prop
  | .number v => Plain (fl.fmt v)
  | .percentage v => Plain (fl.fmt v)
  | .currency v _ => Plain (fl.fmt v)
  | .textXml t => AllNamesOk t
  | _ => True

theorem name_p : Name pName := by decide

theorem name_tag (hidden : Bool) : Name (cellTag hidden) := by cases hidden <;> decide

theorem pItems_valid (s : Str) (h : Plain s) : ∀ i ∈ pItems s, i.Valid := by
  intro i hi
  simp only [pItems, List.mem_cons, List.not_mem_nil, or_false] at hi
  rcases hi with rfl | rfl | rfl
  · exact ⟨name_p, by intro a ha; cases ha⟩
  · exact fun _ => h
  · exact name_p

theorem valueBody_valid (fl : Floats) (v : Value) (h : Writable fl v) : ∀ i ∈ valueBody fl v, i.Valid := by
  cases v with
  | empty => intro i hi; cases hi
  | text s =>
    intro i hi
    obtain ⟨l, _, rfl⟩ := List.mem_map.1 hi
    exact ⟨name_p, by intro h; cases h⟩
  | textXml t => exact nodesItems_valid t h
  | dateTime d => exact pItems_valid _ (plain_dateTime d)
  | timeDuration d => exact pItems_valid _ (plain_duration d)
  | boolean b => exact pItems_valid _ (plain_bool b)
  | number v => exact pItems_valid _ h
  | percentage v => exact pItems_valid _ h
  | currency v c =>
    intro i hi
    simp only [valueBody, List.mem_cons, List.not_mem_nil, or_false] at hi
    rcases hi with rfl | rfl | rfl | rfl | rfl
    · exact ⟨name_p, by intro a ha; cases ha⟩
    · intro h; cases h
    · intro _; decide
    · intro _; exact h
    · exact name_p

theorem attrsOk_append {a b : List (Bool × Str × Str)} (ha : AttrsOk a) (hb : AttrsOk b) :
    AttrsOk (a ++ b) := by
  intro x hx
  rcases List.mem_append.1 hx with h | h
  · exact ha x h
  · exact hb x h

theorem optA_ok (k : Str) (o : Option Str) (h : Name k) : AttrsOk (optA k o) := by
  intro x hx
  cases o with
  | none => cases hx
  | some v =>
    simp only [optA, List.mem_cons, List.not_mem_nil, or_false] at hx
    subst hx
    exact ⟨h, by intro h; cases h⟩

theorem optN_ok (k : Str) (n : Nat) (h : Name k) : AttrsOk (optN k n) := by
  unfold optN
  split
  · exact optA_ok k (some (decNat n)) h
  · intro x hx; cases hx

theorem headAtts_ok (defStyle : ValueType → Option String) (c : CellData) (rep : Nat) :
    AttrsOk (headAtts defStyle c rep) := by
  unfold headAtts
  refine attrsOk_append (attrsOk_append (attrsOk_append (attrsOk_append (attrsOk_append
    (attrsOk_append (attrsOk_append ?_ ?_) ?_) ?_) ?_) ?_) ?_) ?_
  · exact optA_ok _ _ (by decide)
  · exact optN_ok _ _ (by decide)
  · exact optA_ok _ _ (by decide)
  · exact optA_ok _ _ (by decide)
  · exact optN_ok _ _ (by decide)
  · exact optN_ok _ _ (by decide)
  · exact optN_ok _ _ (by decide)
  · exact optN_ok _ _ (by decide)

theorem attrsOk_one (k v : Str) (hk : Name k) (hv : Plain v) : AttrsOk [(false, k, v)] := by
  intro x hx
  simp only [List.mem_cons, List.not_mem_nil, or_false] at hx
  subst hx
  exact ⟨hk, fun _ => hv⟩

theorem attrsOk_two (k v k' v' : Str) (hk : Name k) (hv : Plain v) (hk' : Name k') (hv' : Plain v') :
    AttrsOk [(false, k, v), (false, k', v')] :=
  attrsOk_append (a := [(false, k, v)]) (attrsOk_one k v hk hv) (attrsOk_one k' v' hk' hv')

theorem valueAtts_ok (fl : Floats) (v : Value) (h : Writable fl v) : AttrsOk (valueAtts fl v) := by
  cases v with
  | empty => intro x hx; cases hx
  | text s => exact attrsOk_one _ _ (by decide) (by decide)
  | textXml t => exact attrsOk_one _ _ (by decide) (by decide)
  | dateTime d => exact attrsOk_two _ _ _ _ (by decide) (by decide) (by decide) (plain_dateTime d)
  | timeDuration d => exact attrsOk_two _ _ _ _ (by decide) (by decide) (by decide) (plain_duration d)
  | boolean b => exact attrsOk_two _ _ _ _ (by decide) (by decide) (by decide) (plain_bool b)
  | number v => exact attrsOk_two _ _ _ _ (by decide) (by decide) (by decide) h
  | percentage v => exact attrsOk_two _ _ _ _ (by decide) (by decide) (by decide) h
  | currency v c =>
    refine attrsOk_append (a := [_]) (attrsOk_one _ _ (by decide) (by decide))
      (attrsOk_append (a := [_]) (optA_ok _ (some c) (by decide)) (attrsOk_one _ _ (by decide) h))

theorem cellItems_valid (fl : Floats) (defStyle : ValueType → Option String) (c : CellData) (hidden lb : Bool)
    (rep : Nat) (h : Writable fl c.value) (hn : NotesOk lb c) :
    ∀ i ∈ cellItems fl defStyle c hidden rep, i.Valid := by
  have hat := attrsOk_append (headAtts_ok defStyle c rep) (valueAtts_ok fl c.value h)
  unfold cellItems
  split
  · intro i hi
    simp only [List.mem_cons, List.mem_append, List.not_mem_nil, or_false] at hi
    rcases hi with rfl | (hi | hi) | rfl
    · exact ⟨name_tag hidden, hat⟩
    · exact valueBody_valid fl _ h i hi
    · exact noteItems_valid lb c hn i hi
    · exact name_tag hidden
  · intro i hi
    simp only [List.mem_cons, List.not_mem_nil, or_false] at hi
    rcases hi with rfl | rfl
    · exact ⟨name_tag hidden, hat⟩
    · trivial

/-! ## Reading the attributes -/

theorem cellAttrs_append (fl : Floats) (a b : List (Str × Str)) : ∀ s : CellState,
    cellAttrs fl s (a ++ b) =
      match cellAttrs fl s a with
      | .error e => .error e
      | .ok s => cellAttrs fl s b := by
  induction a with
  | nil => intro s; rfl
  | cons x a ih =>
    intro s
    obtain ⟨k, v⟩ := x
    rw [List.cons_append, cellAttrs, cellAttrs]
    cases cellAttr fl s k v with
    | error e => rfl
    | ok s' => exact ih s'

theorem rawAttrs_append (a b : List (Bool × Str × Str)) : rawAttrs (a ++ b) = rawAttrs a ++ rawAttrs b := by
  simp [rawAttrs]

/-- What the cell would look like. -/
def CellState.content (s : CellState) : CellContent := (s.cell.getD {}).toContent

/-- The other fields. -/
def CellState.others (s : CellState) : CellState := { s with cell := none }

/-- A segment of attributes that changes only the content. -/
def Seg (fl : Floats) (as : List (Bool × Str × Str)) (f : CellContent → CellContent) : Prop :=
  ∀ s : CellState, ∃ s', cellAttrs fl s (rawAttrs as) = .ok s' ∧ s'.content = f s.content
    ∧ s'.others = s.others

theorem Seg.append {fl : Floats} {a b : List (Bool × Str × Str)} {f g : CellContent → CellContent}
    (ha : Seg fl a f) (hb : Seg fl b g) : Seg fl (a ++ b) (g ∘ f) := by
  intro s
  obtain ⟨s1, h1, h2, h3⟩ := ha s
  obtain ⟨s2, h4, h5, h6⟩ := hb s1
  refine ⟨s2, ?_, by rw [h5, h2]; rfl, by rw [h6, h3]⟩
  rw [rawAttrs_append, cellAttrs_append, h1]
  exact h4

theorem seg_nil (fl : Floats) : Seg fl [] id := fun s => ⟨s, rfl, rfl, rfl⟩

theorem cellAttrs_one (fl : Floats) (s : CellState) (k v : Str) :
    cellAttrs fl s [(k, v)] = cellAttr fl s k v := by
  rw [cellAttrs]
  cases cellAttr fl s k v <;> rfl

theorem key_formula : cellKey "table:formula".toList = some .formula := by decide +kernel
theorem key_repeated : cellKey "table:number-columns-repeated".toList = some .repeated := by decide +kernel
theorem key_style : cellKey "table:style-name".toList = some .style := by decide +kernel
theorem key_validation : cellKey "table:content-validation-name".toList = some .validation := by decide +kernel
theorem key_rows : cellKey "table:number-rows-spanned".toList = some .rowsSpanned := by decide +kernel
theorem key_cols : cellKey "table:number-columns-spanned".toList = some .colsSpanned := by decide +kernel
theorem key_mrows : cellKey "table:number-matrix-rows-spanned".toList = some .matrixRows := by decide +kernel
theorem key_mcols : cellKey "table:number-matrix-columns-spanned".toList = some .matrixCols := by decide +kernel
theorem key_valueType : cellKey "office:value-type".toList = some .valueType := by decide +kernel
theorem key_date : cellKey "office:date-value".toList = some .dateValue := by decide +kernel
theorem key_time : cellKey "office:time-value".toList = some .timeValue := by decide +kernel
theorem key_value : cellKey "office:value".toList = some .value := by decide +kernel
theorem key_bool : cellKey "office:boolean-value".toList = some .boolValue := by decide +kernel
theorem key_currency : cellKey "office:currency".toList = some .currency := by decide +kernel

theorem seg_formula (fl : Floats) (o : Option Str) :
    Seg fl (optA "table:formula".toList o) (fun c => { c with formula := o.or c.formula }) := by
  intro s
  cases o with
  | none => exact ⟨s, rfl, rfl, rfl⟩
  | some v =>
    refine ⟨s.update fun c => { c with formula := some v }, ?_, rfl, rfl⟩
    show cellAttrs fl s [("table:formula".toList, escape v)] = _
    rw [cellAttrs_one, cellAttr, key_formula]
    simp only
    rw [unescape_escape]
    rfl

theorem seg_style (fl : Floats) (o : Option String) :
    Seg fl (optA "table:style-name".toList (o.map String.toList))
      (fun c => { c with style := o.or c.style }) := by
  intro s
  cases o with
  | none => exact ⟨s, rfl, rfl, rfl⟩
  | some v =>
    refine ⟨s.update fun c => { c with style := some v }, ?_, rfl, rfl⟩
    show cellAttrs fl s [("table:style-name".toList, escape v.toList)] = _
    rw [cellAttrs_one, cellAttr, key_style]
    simp only
    rw [unescape_escape, show orFail Fault.badAttr (some v.toList) = .ok v.toList from rfl]
    simp only [Except.map, String.ofList_toList]

theorem seg_validation (fl : Floats) (o : Option String) :
    Seg fl (optA "table:content-validation-name".toList (o.map String.toList))
      (fun c => { c with validation := o.or c.validation }) := by
  intro s
  cases o with
  | none => exact ⟨s, rfl, rfl, rfl⟩
  | some v =>
    refine ⟨s.updateExt fun e => { e with validation := some v }, ?_, rfl, rfl⟩
    show cellAttrs fl s [("table:content-validation-name".toList, escape v.toList)] = _
    rw [cellAttrs_one, cellAttr, key_validation]
    simp only
    rw [unescape_escape, show orFail Fault.badAttr (some v.toList) = .ok v.toList from rfl]
    simp only [Except.map, String.ofList_toList]

theorem escape_dec (n : Nat) : escape (decNat n) = decNat n := by
  have h := plain_digits (decNat_digits n)
  generalize decNat n = s at h
  induction s with
  | nil => rfl
  | cons c s ih =>
    rw [escape, ih (fun x hx => h x (List.mem_cons_of_mem _ hx))]
    rcases escapeChar_cases c with ⟨e, _⟩ | ⟨e, _⟩ | ⟨e, _⟩ | ⟨e, _⟩ | ⟨e, _⟩ | ⟨_, e⟩
    · exact absurd (.inr (.inr (.inr (.inl e)))) (h c List.mem_cons_self)
    · exact absurd (.inr (.inr (.inr (.inr e)))) (h c List.mem_cons_self)
    · exact absurd (.inr (.inr (.inl e))) (h c List.mem_cons_self)
    · exact absurd (.inl e) (h c List.mem_cons_self)
    · exact absurd (.inr (.inl e)) (h c List.mem_cons_self)
    · rw [e]; rfl

theorem span_dec (s : CellState) (n : Nat) (f : Nat → CellDataExt → CellDataExt) (h1 : 1 < n)
    (h2 : n ≤ 4294967295) : s.span (decNat n) f = .ok (s.updateExt (f n)) := by
  unfold CellState.span
  rw [parseU32_dec n h2]
  simp only
  rw [if_pos h1]

theorem seg_rows (fl : Floats) (n : Nat) (h : n ≤ 4294967295) :
    Seg fl (optN "table:number-rows-spanned".toList n)
      (fun c => { c with span := { c.span with rowSpan := if 1 < n then n else c.span.rowSpan } }) := by
  intro s
  unfold optN
  by_cases h1 : 1 < n
  · simp only [h1, if_true]
    refine ⟨s.updateExt fun e => { e with span := { e.span with rowSpan := n } }, ?_, rfl, rfl⟩
    show cellAttrs fl s [("table:number-rows-spanned".toList, escape (decNat n))] = _
    rw [cellAttrs_one, cellAttr, key_rows, escape_dec]
    exact span_dec s n _ h1 h
  · simp only [h1, if_false]
    exact ⟨s, rfl, rfl, rfl⟩

theorem seg_cols (fl : Floats) (n : Nat) (h : n ≤ 4294967295) :
    Seg fl (optN "table:number-columns-spanned".toList n)
      (fun c => { c with span := { c.span with colSpan := if 1 < n then n else c.span.colSpan } }) := by
  intro s
  unfold optN
  by_cases h1 : 1 < n
  · simp only [h1, if_true]
    refine ⟨s.updateExt fun e => { e with span := { e.span with colSpan := n } }, ?_, rfl, rfl⟩
    show cellAttrs fl s [("table:number-columns-spanned".toList, escape (decNat n))] = _
    rw [cellAttrs_one, cellAttr, key_cols, escape_dec]
    exact span_dec s n _ h1 h
  · simp only [h1, if_false]
    exact ⟨s, rfl, rfl, rfl⟩

theorem seg_mrows (fl : Floats) (n : Nat) (h : n ≤ 4294967295) :
    Seg fl (optN "table:number-matrix-rows-spanned".toList n)
      (fun c => { c with matrixSpan :=
        { c.matrixSpan with rowSpan := if 1 < n then n else c.matrixSpan.rowSpan } }) := by
  intro s
  unfold optN
  by_cases h1 : 1 < n
  · simp only [h1, if_true]
    refine ⟨s.updateExt fun e => { e with matrixSpan := { e.matrixSpan with rowSpan := n } }, ?_, rfl, rfl⟩
    show cellAttrs fl s [("table:number-matrix-rows-spanned".toList, escape (decNat n))] = _
    rw [cellAttrs_one, cellAttr, key_mrows, escape_dec]
    exact span_dec s n _ h1 h
  · simp only [h1, if_false]
    exact ⟨s, rfl, rfl, rfl⟩

theorem seg_mcols (fl : Floats) (n : Nat) (h : n ≤ 4294967295) :
    Seg fl (optN "table:number-matrix-columns-spanned".toList n)
      (fun c => { c with matrixSpan :=
        { c.matrixSpan with colSpan := if 1 < n then n else c.matrixSpan.colSpan } }) := by
  intro s
  unfold optN
  by_cases h1 : 1 < n
  · simp only [h1, if_true]
    refine ⟨s.updateExt fun e => { e with matrixSpan := { e.matrixSpan with colSpan := n } }, ?_, rfl, rfl⟩
    show cellAttrs fl s [("table:number-matrix-columns-spanned".toList, escape (decNat n))] = _
    rw [cellAttrs_one, cellAttr, key_mcols, escape_dec]
    exact span_dec s n _ h1 h
  · simp only [h1, if_false]
    exact ⟨s, rfl, rfl, rfl⟩

/-- Spans fit an `u32` and are at least 1, as `CellSpan` demands. -/
def SpanOk (s : CellSpan) : Prop :=
  1 ≤ s.rowSpan ∧ s.rowSpan ≤ 4294967295 ∧ 1 ≤ s.colSpan ∧ s.colSpan ≤ 4294967295

/-- The content of the cell as the attributes in front give it: everything but the value, the annotation and the
draw frames. -/
def startContent (defStyle : ValueType → Option String) (c : CellData) : CellContent :=
  { c.toContent with value := .empty, «repeat» := 1, style := outStyle defStyle c, annotation := none, drawFrames := [] }

/-- Everything but the value. -/
def headContent (defStyle : ValueType → Option String) (c : CellData) : CellContent :=
  { c.toContent with
    value := .empty
    «repeat» := 1
    style := outStyle defStyle c
    annotation := (c.extra.getD {}).annotation.map annBack
    drawFrames := (c.extra.getD {}).drawFrames.map frameBack }

theorem rep_attrs (fl : Floats) (s : CellState) (n : Nat) (hs : s.repeat = 1) (h1 : 1 ≤ n)
    (h : n ≤ 4294967295) :
    cellAttrs fl s (rawAttrs (optN "table:number-columns-repeated".toList n))
      = .ok { s with «repeat» := n } := by
  unfold optN
  by_cases h2 : 1 < n
  · rw [if_pos h2]
    show cellAttrs fl s [("table:number-columns-repeated".toList, escape (decNat n))] = _
    rw [cellAttrs_one, cellAttr, key_repeated, escape_dec]
    simp only
    rw [parseU32_dec n h]
    rfl
  · rw [if_neg h2]
    have : n = 1 := by omega
    subst this
    show Except.ok s = _
    rw [← hs]

theorem span_eta (s : CellSpan) (h : SpanOk s) :
    (⟨if 1 < s.rowSpan then s.rowSpan else 1, if 1 < s.colSpan then s.colSpan else 1⟩ : CellSpan) = s := by
  obtain ⟨r, k⟩ := s
  obtain ⟨h1, _, h2, _⟩ := h
  simp only at h1 h2 ⊢
  congr 1
  · split <;> omega
  · split <;> omega

theorem head_read (fl : Floats) (defStyle : ValueType → Option String) (c : CellData) (rep : Nat)
    (h1 : 1 ≤ rep) (h2 : rep ≤ 4294967295) (hs : SpanOk (c.extra.getD {}).span)
    (hm : SpanOk (c.extra.getD {}).matrixSpan) :
    ∃ s, cellAttrs fl {} (rawAttrs (headAtts defStyle c rep)) = .ok s
      ∧ s.content = startContent defStyle c ∧ s.others = { «repeat» := rep } := by
  have g1 : (c.extra.map (·.span.rowSpan)).getD 1 = (c.extra.getD {}).span.rowSpan := by
    cases c.extra <;> rfl
  have g2 : (c.extra.map (·.span.colSpan)).getD 1 = (c.extra.getD {}).span.colSpan := by
    cases c.extra <;> rfl
  have g3 : (c.extra.map (·.matrixSpan.rowSpan)).getD 1 = (c.extra.getD {}).matrixSpan.rowSpan := by
    cases c.extra <;> rfl
  have g4 : (c.extra.map (·.matrixSpan.colSpan)).getD 1 = (c.extra.getD {}).matrixSpan.colSpan := by
    cases c.extra <;> rfl
  have g5 : c.extra.bind (·.validation) = (c.extra.getD {}).validation := by
    cases c.extra <;> rfl
  obtain ⟨s1, a1, b1, d1⟩ := seg_formula fl c.formula {}
  have hr1 : s1.repeat = 1 := by
    have := congrArg CellState.repeat d1
    exact this
  have a2 := rep_attrs fl s1 rep hr1 h1 h2
  have hseg := ((((seg_style fl (outStyle defStyle c)).append (seg_validation fl (c.extra.getD {}).validation)).append
    (seg_rows fl _ hs.2.1)).append (seg_cols fl _ hs.2.2.2)).append
    ((seg_mrows fl _ hm.2.1).append (seg_mcols fl _ hm.2.2.2))
  obtain ⟨s3, a3, b3, d3⟩ := hseg { s1 with «repeat» := rep }
  refine ⟨s3, ?_, ?_, ?_⟩
  · unfold headAtts
    rw [g1, g2, g3, g4, g5]
    simp only [List.append_assoc] at a3 ⊢
    rw [rawAttrs_append, cellAttrs_append, a1]
    simp only
    rw [rawAttrs_append, cellAttrs_append, a2]
    exact a3
  · rw [b3]
    have : CellState.content { s1 with «repeat» := rep } = s1.content := rfl
    rw [this, b1]
    have e0 : CellState.content {} = ⟨.empty, none, none, 1, none, {}, {}, none, []⟩ := rfl
    rw [e0]
    simp only [Function.comp, Option.or_none]
    unfold startContent CellData.toContent
    rw [span_eta _ hs, span_eta _ hm]
  · rw [d3]
    have : s1.others = ({} : CellState).others := d1
    have : ({ s1 with «repeat» := rep } : CellState).others = { s1.others with «repeat» := rep } := rfl
    rw [this, d1]
    rfl

end Verif.Codec
