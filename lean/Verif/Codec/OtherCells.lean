import Verif.Codec.CellProps
import Verif.Codec.IsoTime

/-!
# C102: cells of other programs

What is read for a cell of any file, also of one that this library did not write: the attributes can
be in any order, with others between them, and the content of the cell can be anything.
-/

set_option autoImplicit false

namespace Verif.Codec

open Xml Xml.Spec

/-! ## Specification -/

/-- The text of the attribute with a name. -/
def attrText (as : List (Str × Str)) (k : String) : Option Str := as.lookup k.toList

/-- The number of an attribute, or 1. -/
def attrCount (as : List (Str × Str)) (k : String) : Option Nat :=
  match attrText as k with
  | none => some 1
  | some v => parseU32 v

/-- The text of an attribute without escapes, if there is one: the outer `none` is an error. -/
def attrPlain (as : List (Str × Str)) (k : String) : Option (Option Str) :=
  match attrText as k with
  | none => some none
  | some v => (unescape v).map some

/-- The value that the attributes of a cell give; `text` is what its paragraphs say.  `none`: the
attributes give no value, the file is at fault. -/
def meaning (fl : Floats) (as : List (Str × Str)) (text : Option Value) : Option Value :=
  match attrText as "office:value-type" with
  | none => some .empty
  | some t =>
    if t = "float".toList then ((attrText as "office:value").bind fl.parse).map .number
    else if t = "percentage".toList then ((attrText as "office:value").bind fl.parse).map .percentage
    else if t = "currency".toList then
      ((attrText as "office:value").bind fl.parse).map fun x =>
        .currency x ((attrText as "office:currency").getD [])
    else if t = "boolean".toList then ((attrText as "office:boolean-value").bind parseBool).map .boolean
    else if t = "date".toList then ((attrText as "office:date-value").bind parseDateTime).map .dateTime
    else if t = "time".toList then
      ((attrText as "office:time-value").bind fun v => (parseDuration v).toOption).map fun n => .timeDuration n
    else if t = "string".toList then
      match attrText as "office:string-value" with
      | some v => (unescape v).map .text
      | none => some (text.getD .empty)
    else none

/-! ## One attribute -/

/-- The names. -/
def CellKey.name : CellKey → String
  | .repeated => "table:number-columns-repeated"
  | .rowsSpanned => "table:number-rows-spanned"
  | .colsSpanned => "table:number-columns-spanned"
  | .matrixRows => "table:number-matrix-rows-spanned"
  | .matrixCols => "table:number-matrix-columns-spanned"
  | .validation => "table:content-validation-name"
  | .valueType => "office:value-type"
  | .dateValue => "office:date-value"
  | .timeValue => "office:time-value"
  | .value => "office:value"
  | .boolValue => "office:boolean-value"
  | .stringValue => "office:string-value"
  | .currency => "office:currency"
  | .formula => "table:formula"
  | .style => "table:style-name"

theorem cellKey_name (K : CellKey) : cellKey K.name.toList = some K := by
  cases K <;> decide +kernel

theorem ite_some {α : Type} {c : Prop} [Decidable c] {a b : Option α} {x : α} (h : (if c then a else b) = some x) :
    (c ∧ a = some x) ∨ b = some x := by
  by_cases hc : c
  · rw [if_pos hc] at h; exact .inl ⟨hc, h⟩
  · rw [if_neg hc] at h; exact .inr h

theorem name_cellKey (k : Str) (K : CellKey) (h : cellKey k = some K) : k = K.name.toList := by
  unfold cellKey at h
  iterate 15
    rcases ite_some h with ⟨e, h⟩ | h
    · injection h with h
      subst h
      exact e
  cases h

theorem map_ok {α β : Type} {f : α → β} {e : Except Fault α} {y : β} (h : e.map f = .ok y) :
    ∃ x, e = .ok x ∧ y = f x := by
  cases e with
  | error e => cases h
  | ok x => exact ⟨x, rfl, (Except.ok.inj h).symm⟩

theorem orFail_ok {α : Type} {f : Fault} {o : Option α} {x : α} (h : orFail f o = .ok x) : o = some x := by
  cases o with
  | none => cases h
  | some a => rw [Except.ok.inj h]

/-- What an attribute does. -/
def Effect (fl : Floats) (s s' : CellState) (v : Str) : CellKey → Prop
  | .repeated => ∃ n, parseU32 v = some n ∧ s' = { s with «repeat» := n }
  | .rowsSpanned => ∃ n, parseU32 v = some n ∧ s' = if 1 < n then
      s.updateExt (fun e => { e with span := { e.span with rowSpan := n } }) else s
  | .colsSpanned => ∃ n, parseU32 v = some n ∧ s' = if 1 < n then
      s.updateExt (fun e => { e with span := { e.span with colSpan := n } }) else s
  | .matrixRows => ∃ n, parseU32 v = some n ∧ s' = if 1 < n then
      s.updateExt (fun e => { e with matrixSpan := { e.matrixSpan with rowSpan := n } }) else s
  | .matrixCols => ∃ n, parseU32 v = some n ∧ s' = if 1 < n then
      s.updateExt (fun e => { e with matrixSpan := { e.matrixSpan with colSpan := n } }) else s
  | .validation => ∃ n, unescape v = some n ∧ s' = s.updateExt fun e => { e with validation := some (String.ofList n) }
  | .valueType => ∃ t, readValueType v = some t ∧ s' = { s.update id with valType := t }
  | .dateValue => ∃ d, parseDateTime v = some d ∧ s' = { s.update id with valDateTime := some d }
  | .timeValue => ∃ d, (parseDuration v).toOption = some d ∧ s' = { s.update id with valDuration := some (d : Int) }
  | .value => ∃ d, fl.parse v = some d ∧ s' = { s.update id with valFloat := some d }
  | .boolValue => ∃ d, parseBool v = some d ∧ s' = { s.update id with valBool := some d }
  | .stringValue => ∃ d, unescape v = some d ∧ s' = { s.update id with valString := some d }
  | .currency => s' = { s.update id with valCurrency := some v }
  | .formula => ∃ d, unescape v = some d ∧ s' = s.update fun c => { c with formula := some d }
  | .style => ∃ d, unescape v = some d ∧ s' = s.update fun c => { c with style := some (String.ofList d) }

theorem duration_ok (v : Str) (d : Int) (h : readDuration v = .ok d) :
    ∃ n, (parseDuration v).toOption = some n ∧ d = n := by
  unfold readDuration at h
  cases hp : parseDuration v with
  | ok n => rw [hp] at h; exact ⟨n, rfl, (Except.ok.inj h).symm⟩
  | error e => rw [hp] at h; cases e <;> cases h

theorem span_ok {s s' : CellState} {v : Str} {f : Nat → CellDataExt → CellDataExt} (h : s.span v f = .ok s') :
    ∃ n, parseU32 v = some n ∧ s' = if 1 < n then s.updateExt (f n) else s := by
  unfold CellState.span at h
  cases hp : parseU32 v with
  | none => rw [hp] at h; cases h
  | some n => rw [hp] at h; exact ⟨n, rfl, (Except.ok.inj h).symm⟩

theorem effect (fl : Floats) (s s' : CellState) (k v : Str) (K : CellKey) (hk : cellKey k = some K)
    (h : cellAttr fl s k v = .ok s') : Effect fl s s' v K := by
  unfold cellAttr at h
  rw [hk] at h
  cases K <;> simp only at h
  all_goals first
    | exact span_ok h
    | (obtain ⟨x, h1, h2⟩ := map_ok h; exact ⟨x, orFail_ok h1, h2⟩)
    | exact (Except.ok.inj h).symm
    | (obtain ⟨x, h1, h2⟩ := map_ok h
       obtain ⟨n, h3, h4⟩ := duration_ok _ _ h1
       subst h4
       exact ⟨n, h3, h2⟩)

theorem no_effect (fl : Floats) (s s' : CellState) (k v : Str) (hk : cellKey k = none)
    (h : cellAttr fl s k v = .ok s') : s' = s := by
  unfold cellAttr at h
  rw [hk] at h
  exact (Except.ok.inj h).symm

/-! ## All attributes -/

/-- Something that only one kind of attribute changes. -/
def Only {α : Type} (fl : Floats) (g : CellState → α) (K : CellKey) : Prop :=
  ∀ (s s' : CellState) (v : Str) (K' : CellKey), K' ≠ K → Effect fl s s' v K' → g s' = g s

theorem only_step {α : Type} {fl : Floats} {g : CellState → α} {K : CellKey} (h : Only fl g K)
    {s s' : CellState} {k v : Str} (hk : k ≠ K.name.toList) (ha : cellAttr fl s k v = .ok s') : g s' = g s := by
  cases hc : cellKey k with
  | none => rw [no_effect fl s s' k v hc ha]
  | some K' =>
    refine h s s' v K' ?_ (effect fl s s' k v K' hc ha)
    intro e
    subst e
    exact hk (name_cellKey k K' hc)

/-- Attributes without one that is of the kind change nothing. -/
theorem only_none {α : Type} {fl : Floats} {g : CellState → α} {K : CellKey} (h : Only fl g K)
    (as : List (Str × Str)) : ∀ s s', K.name.toList ∉ as.map Prod.fst → cellAttrs fl s as = .ok s' → g s' = g s := by
  induction as with
  | nil => intro s s' _ ha; rw [← Except.ok.inj ha]
  | cons a as ih =>
    intro s s' hn ha
    obtain ⟨k, v⟩ := a
    rw [cellAttrs] at ha
    rw [List.map_cons, List.mem_cons, not_or] at hn
    cases h1 : cellAttr fl s k v with
    | error e => rw [h1] at ha; cases ha
    | ok s1 =>
      rw [h1] at ha
      rw [ih s1 s' hn.2 ha, only_step h (fun e => hn.1 e.symm) h1]

theorem lookup_none (as : List (Str × Str)) (k : Str) (h : as.lookup k = none) : k ∉ as.map Prod.fst := by
  induction as with
  | nil => simp
  | cons a as ih =>
    obtain ⟨k', v⟩ := a
    rw [List.lookup_cons] at h
    by_cases e : k = k'
    · subst e; simp at h
    · have : (k == k') = false := by simpa using e
      rw [this] at h
      rw [List.map_cons, List.mem_cons, not_or]
      exact ⟨e, ih h⟩

/-- With different names, exactly the attribute of the kind has an effect. -/
theorem only_some {α : Type} {fl : Floats} {g : CellState → α} {K : CellKey} (h : Only fl g K)
    (as : List (Str × Str)) : ∀ s s' v, (as.map Prod.fst).Nodup → as.lookup K.name.toList = some v →
      cellAttrs fl s as = .ok s' → ∃ s1 s2, g s1 = g s ∧ Effect fl s1 s2 v K ∧ g s' = g s2 := by
  induction as with
  | nil => intro s s' v _ hl; cases hl
  | cons a as ih =>
    intro s s' v hnd hl ha
    obtain ⟨k, w⟩ := a
    rw [cellAttrs] at ha
    rw [List.map_cons, List.nodup_cons] at hnd
    rw [List.lookup_cons] at hl
    cases h1 : cellAttr fl s k w with
    | error e => rw [h1] at ha; cases ha
    | ok s1 =>
      rw [h1] at ha
      by_cases e : K.name.toList = k
      · have he : (K.name.toList == k) = true := by simpa using e
        rw [he] at hl
        injection hl with hl
        subst hl
        refine ⟨s, s1, rfl, effect fl s s1 k w K (by rw [← e]; exact cellKey_name K) h1, ?_⟩
        exact only_none h as s1 s' (by rw [e]; exact hnd.1) ha
      · have he : (K.name.toList == k) = false := by simpa using e
        rw [he] at hl
        obtain ⟨s2, s3, g1, g2, g3⟩ := ih s1 s' v hnd.2 hl ha
        exact ⟨s2, s3, by rw [g1, only_step h (fun x => e x.symm) h1], g2, g3⟩

theorem content_upd (s : CellState) (f : CellData → CellData) :
    (s.update f).content = (f (s.cell.getD {})).toContent := rfl

/-- The part of a cell that an attribute can change. -/
theorem only_repeat (fl : Floats) : Only fl CellState.repeat .repeated := by
  intro s s' v K hK h
  cases K <;> simp only [Effect] at h
  case repeated => exact absurd rfl hK
  case currency => subst h; rfl
  all_goals
    obtain ⟨x, -, rfl⟩ := h
    first | rfl | (split <;> rfl)

theorem only_type (fl : Floats) : Only fl CellState.valType .valueType := by
  intro s s' v K hK h
  cases K <;> simp only [Effect] at h
  case valueType => exact absurd rfl hK
  case currency => subst h; rfl
  all_goals
    obtain ⟨x, -, rfl⟩ := h
    first | rfl | (split <;> rfl)

theorem only_date (fl : Floats) : Only fl CellState.valDateTime .dateValue := by
  intro s s' v K hK h
  cases K <;> simp only [Effect] at h
  case dateValue => exact absurd rfl hK
  case currency => subst h; rfl
  all_goals
    obtain ⟨x, -, rfl⟩ := h
    first | rfl | (split <;> rfl)

theorem only_time (fl : Floats) : Only fl CellState.valDuration .timeValue := by
  intro s s' v K hK h
  cases K <;> simp only [Effect] at h
  case timeValue => exact absurd rfl hK
  case currency => subst h; rfl
  all_goals
    obtain ⟨x, -, rfl⟩ := h
    first | rfl | (split <;> rfl)

theorem only_float (fl : Floats) : Only fl CellState.valFloat .value := by
  intro s s' v K hK h
  cases K <;> simp only [Effect] at h
  case value => exact absurd rfl hK
  case currency => subst h; rfl
  all_goals
    obtain ⟨x, -, rfl⟩ := h
    first | rfl | (split <;> rfl)

theorem only_bool (fl : Floats) : Only fl CellState.valBool .boolValue := by
  intro s s' v K hK h
  cases K <;> simp only [Effect] at h
  case boolValue => exact absurd rfl hK
  case currency => subst h; rfl
  all_goals
    obtain ⟨x, -, rfl⟩ := h
    first | rfl | (split <;> rfl)

theorem only_string (fl : Floats) : Only fl CellState.valString .stringValue := by
  intro s s' v K hK h
  cases K <;> simp only [Effect] at h
  case stringValue => exact absurd rfl hK
  case currency => subst h; rfl
  all_goals
    obtain ⟨x, -, rfl⟩ := h
    first | rfl | (split <;> rfl)

theorem only_currency (fl : Floats) : Only fl CellState.valCurrency .currency := by
  intro s s' v K hK h
  cases K <;> simp only [Effect] at h
  case currency => exact absurd rfl hK
  all_goals
    obtain ⟨x, -, rfl⟩ := h
    first | rfl | (split <;> rfl)

theorem only_formula (fl : Floats) : Only fl (fun s => s.content.formula) .formula := by
  intro s s' v K hK h
  cases K <;> simp only [Effect] at h
  case formula => exact absurd rfl hK
  case currency => subst h; rfl
  all_goals
    obtain ⟨x, -, rfl⟩ := h
    first | rfl | (split <;> rfl)

theorem only_style (fl : Floats) : Only fl (fun s => s.content.style) .style := by
  intro s s' v K hK h
  cases K <;> simp only [Effect] at h
  case style => exact absurd rfl hK
  case currency => subst h; rfl
  all_goals
    obtain ⟨x, -, rfl⟩ := h
    first | rfl | (split <;> rfl)

theorem only_validation (fl : Floats) : Only fl (fun s => s.content.validation) .validation := by
  intro s s' v K hK h
  cases K <;> simp only [Effect] at h
  case validation => exact absurd rfl hK
  case currency => subst h; rfl
  all_goals
    obtain ⟨x, -, rfl⟩ := h
    first | rfl | (split <;> rfl)

theorem only_rows (fl : Floats) : Only fl (fun s => s.content.span.rowSpan) .rowsSpanned := by
  intro s s' v K hK h
  cases K <;> simp only [Effect] at h
  case rowsSpanned => exact absurd rfl hK
  case currency => subst h; rfl
  all_goals
    obtain ⟨x, -, rfl⟩ := h
    first | rfl | (split <;> rfl)

theorem only_cols (fl : Floats) : Only fl (fun s => s.content.span.colSpan) .colsSpanned := by
  intro s s' v K hK h
  cases K <;> simp only [Effect] at h
  case colsSpanned => exact absurd rfl hK
  case currency => subst h; rfl
  all_goals
    obtain ⟨x, -, rfl⟩ := h
    first | rfl | (split <;> rfl)

theorem only_mrows (fl : Floats) : Only fl (fun s => s.content.matrixSpan.rowSpan) .matrixRows := by
  intro s s' v K hK h
  cases K <;> simp only [Effect] at h
  case matrixRows => exact absurd rfl hK
  case currency => subst h; rfl
  all_goals
    obtain ⟨x, -, rfl⟩ := h
    first | rfl | (split <;> rfl)

theorem only_mcols (fl : Floats) : Only fl (fun s => s.content.matrixSpan.colSpan) .matrixCols := by
  intro s s' v K hK h
  cases K <;> simp only [Effect] at h
  case matrixCols => exact absurd rfl hK
  case currency => subst h; rfl
  all_goals
    obtain ⟨x, -, rfl⟩ := h
    first | rfl | (split <;> rfl)

/-! ## The state behind all attributes -/

/-- What holds of the state whatever the attributes are. -/
def CellInv (s : CellState) : Prop :=
  (s.valType ≠ .empty → s.cell.isSome = true) ∧ s.valType ≠ .textXml ∧ s.content.value = .empty
    ∧ s.content.repeat = 1

theorem readValueType_ne (v : Str) (t : ValueType) (h : readValueType v = some t) : t ≠ .textXml ∧ t ≠ .empty := by
  unfold readValueType at h
  repeat' split at h
  all_goals first
    | (injection h with h; subst h; exact ⟨nofun, nofun⟩)
    | cases h

theorem inv_step (fl : Floats) (s s' : CellState) (v : Str) (K : CellKey) (h : CellInv s)
    (he : Effect fl s s' v K) : CellInv s' := by
  obtain ⟨h1, h2, h3, h4⟩ := h
  cases K <;> simp only [Effect] at he
  case currency => subst he; exact ⟨fun _ => rfl, h2, h3, h4⟩
  case valueType =>
    obtain ⟨t, ht, rfl⟩ := he
    exact ⟨fun _ => rfl, (readValueType_ne v t ht).1, h3, h4⟩
  case repeated =>
    obtain ⟨n, -, rfl⟩ := he
    exact ⟨h1, h2, h3, h4⟩
  all_goals
    obtain ⟨x, -, rfl⟩ := he
    first
      | exact ⟨fun _ => rfl, h2, h3, h4⟩
      | (split
         · exact ⟨fun _ => rfl, h2, h3, h4⟩
         · exact ⟨h1, h2, h3, h4⟩)

theorem inv_attrs (fl : Floats) (as : List (Str × Str)) : ∀ s s', CellInv s → cellAttrs fl s as = .ok s' → CellInv s' := by
  induction as with
  | nil => intro s s' h ha; rw [← Except.ok.inj ha]; exact h
  | cons a as ih =>
    intro s s' h ha
    obtain ⟨k, v⟩ := a
    rw [cellAttrs] at ha
    cases h1 : cellAttr fl s k v with
    | error e => rw [h1] at ha; cases ha
    | ok s1 =>
      rw [h1] at ha
      refine ih s1 s' ?_ ha
      cases hc : cellKey k with
      | none => rw [no_effect fl s s1 k v hc h1]; exact h
      | some K => exact inv_step fl s s1 v K h (effect fl s s1 k v K hc h1)

/-- A field that starts with `a` and is set by the attribute `K` to `f x`, `x` being what `p` reads. -/
theorem field_of {α β : Type} {fl : Floats} {g : CellState → α} {K : CellKey} (h : Only fl g K)
    (p : Str → Option β) (f : β → α) (hp : ∀ s s' v, Effect fl s s' v K → g s = g {} → ∃ x, p v = some x ∧ g s' = f x)
    (as : List (Str × Str)) (hnd : (as.map Prod.fst).Nodup) (s' : CellState) (ha : cellAttrs fl {} as = .ok s') :
    match attrText as K.name with
    | none => g s' = g {}
    | some v => ∃ x, p v = some x ∧ g s' = f x := by
  unfold attrText
  cases hl : as.lookup K.name.toList with
  | none => exact only_none h as {} s' (lookup_none as _ hl) ha
  | some v =>
    obtain ⟨s1, s2, g1, g2, g3⟩ := only_some h as {} s' v hnd hl ha
    obtain ⟨x, e1, e2⟩ := hp s1 s2 v g2 g1
    exact ⟨x, e1, by rw [g3, e2]⟩

/-- The types by their names. -/
theorem state_type (fl : Floats) (as : List (Str × Str)) (hnd : (as.map Prod.fst).Nodup) (s : CellState)
    (ha : cellAttrs fl {} as = .ok s) :
    match attrText as "office:value-type" with
    | none => s.valType = .empty
    | some v => readValueType v = some s.valType := by
  have := field_of (only_type fl) readValueType id
    (by intro s s' v h _; obtain ⟨t, h1, rfl⟩ := h; exact ⟨t, h1, rfl⟩) as hnd s ha
  simp only [CellKey.name] at this
  cases hl : attrText as "office:value-type" with
  | none => rw [hl] at this; exact this
  | some v => rw [hl] at this; obtain ⟨x, h1, h2⟩ := this; show readValueType v = _; rw [h1, h2]; rfl

theorem state_opt {β γ : Type} {fl : Floats} {g : CellState → Option γ} {K : CellKey} (h : Only fl g K)
    (h0 : g {} = none) (p : Str → Option β) (f : β → γ)
    (hp : ∀ s s' v, Effect fl s s' v K → ∃ x, p v = some x ∧ g s' = some (f x))
    (as : List (Str × Str)) (hnd : (as.map Prod.fst).Nodup) (s : CellState)
    (ha : cellAttrs fl {} as = .ok s) :
    g s = ((attrText as K.name).bind p).map f ∧ ((attrText as K.name).isSome = true → (g s).isSome = true) := by
  have := field_of h p (fun x => some (f x)) (fun s s' v e _ => hp s s' v e) as hnd s ha
  cases hl : attrText as K.name with
  | none => rw [hl] at this; refine ⟨?_, nofun⟩; rw [this, h0]; rfl
  | some v =>
    rw [hl] at this
    obtain ⟨x, h1, h2⟩ := this
    refine ⟨?_, fun _ => by rw [h2]; rfl⟩
    rw [h2]
    show some (f x) = (p v).map f
    rw [h1]; rfl

/-- The value that is composed is what the attributes mean. -/
theorem value_meaning (fl : Floats) (as : List (Str × Str)) (hnd : (as.map Prod.fst).Nodup) (s : CellState)
    (ha : cellAttrs fl {} as = .ok s) (t : TextContent) :
    (setValue s t).toOption.map (·.getD .empty) = meaning fl as (contentValue t) := by
  have hty := state_type fl as hnd s ha
  have hfl := (state_opt (only_float fl) rfl fl.parse id
    (by intro s s' v h; obtain ⟨t, h1, rfl⟩ := h; exact ⟨t, h1, rfl⟩) as hnd s ha).1
  have hbo := (state_opt (only_bool fl) rfl parseBool id
    (by intro s s' v h; obtain ⟨t, h1, rfl⟩ := h; exact ⟨t, h1, rfl⟩) as hnd s ha).1
  have hda := (state_opt (only_date fl) rfl parseDateTime id
    (by intro s s' v h; obtain ⟨t, h1, rfl⟩ := h; exact ⟨t, h1, rfl⟩) as hnd s ha).1
  have hti := (state_opt (only_time fl) rfl (fun v => (parseDuration v).toOption) (fun n : Nat => (n : Int))
    (by intro s s' v h; obtain ⟨t, h1, rfl⟩ := h; exact ⟨t, h1, rfl⟩) as hnd s ha).1
  have hcu := (state_opt (only_currency fl) rfl (fun v => some v) id
    (by intro s s' v h; subst h; exact ⟨v, rfl, rfl⟩) as hnd s ha).1
  obtain ⟨hst, hst2⟩ := state_opt (only_string fl) rfl unescape id
    (by intro s s' v h; obtain ⟨t, h1, rfl⟩ := h; exact ⟨t, h1, rfl⟩) as hnd s ha
  simp only [CellKey.name] at hfl hbo hda hti hcu hst hst2
  rw [Option.map_id] at hfl hbo hda hcu hst
  simp only [id] at hfl hbo hda hcu hst
  unfold meaning
  cases hl : attrText as "office:value-type" with
  | none =>
    rw [hl] at hty
    simp only at hty
    unfold setValue
    rw [hty]
    rfl
  | some v =>
    rw [hl] at hty
    simp only at hty ⊢
    unfold readValueType at hty
    by_cases e1 : v = "string".toList
    · rw [if_pos e1] at hty
      subst e1
      have hv : s.valType = .text := (Option.some.inj hty).symm
      rw [if_neg (by decide), if_neg (by decide), if_neg (by decide), if_neg (by decide), if_neg (by decide),
        if_neg (by decide), if_pos rfl]
      unfold setValue
      rw [hv]
      simp only
      cases hs : attrText as "office:string-value" with
      | none =>
        rw [hs] at hst
        rw [hst]
        cases t <;> rfl
      | some w =>
        rw [hs] at hst hst2
        have h3 := hst2 rfl
        rw [hst] at h3 ⊢
        show _ = (unescape w).map Value.text
        have e : (some w).bind unescape = unescape w := rfl
        rw [e] at h3 ⊢
        cases hu : unescape w with
        | none => rw [hu] at h3; cases h3
        | some x => rfl
    rw [if_neg e1] at hty
    by_cases e2 : v = "float".toList
    · rw [if_pos e2] at hty
      have hv : s.valType = .number := (Option.some.inj hty).symm
      rw [if_pos e2]
      unfold setValue
      rw [hv]
      simp only
      rw [hfl]
      cases (attrText as "office:value").bind fl.parse <;> rfl
    rw [if_neg e2] at hty ⊢
    by_cases e3 : v = "percentage".toList
    · rw [if_pos e3] at hty
      have hv : s.valType = .percentage := (Option.some.inj hty).symm
      rw [if_pos e3]
      unfold setValue
      rw [hv]
      simp only
      rw [hfl]
      cases (attrText as "office:value").bind fl.parse <;> rfl
    rw [if_neg e3] at hty ⊢
    by_cases e4 : v = "date".toList
    · rw [if_pos e4] at hty
      subst e4
      have hv : s.valType = .dateTime := (Option.some.inj hty).symm
      rw [if_neg (by decide), if_neg (by decide), if_pos rfl]
      unfold setValue
      rw [hv]
      simp only
      rw [hda]
      cases (attrText as "office:date-value").bind parseDateTime <;> rfl
    rw [if_neg e4] at hty
    by_cases e5 : v = "time".toList
    · rw [if_pos e5] at hty
      subst e5
      have hv : s.valType = .timeDuration := (Option.some.inj hty).symm
      rw [if_neg (by decide), if_neg (by decide), if_neg (by decide), if_pos rfl]
      unfold setValue
      rw [hv]
      simp only
      rw [hti]
      cases (attrText as "office:time-value").bind fun v => (parseDuration v).toOption <;> rfl
    rw [if_neg e5] at hty
    by_cases e6 : v = "boolean".toList
    · rw [if_pos e6] at hty
      subst e6
      have hv : s.valType = .boolean := (Option.some.inj hty).symm
      rw [if_neg (by decide), if_pos rfl]
      unfold setValue
      rw [hv]
      simp only
      rw [hbo]
      cases (attrText as "office:boolean-value").bind parseBool <;> rfl
    rw [if_neg e6] at hty
    by_cases e7 : v = "currency".toList
    · rw [if_pos e7] at hty
      subst e7
      have hv : s.valType = .currency := (Option.some.inj hty).symm
      rw [if_pos rfl]
      unfold setValue
      rw [hv]
      simp only
      rw [hfl, hcu]
      have : ((attrText as "office:currency").bind fun v => some v) = attrText as "office:currency" := by
        cases attrText as "office:currency" <;> rfl
      rw [this]
      cases (attrText as "office:value").bind fl.parse <;> rfl
    rw [if_neg e7] at hty
    cases hty

/-! ## The other parts of a cell -/

/-- The parts of a cell that come from attributes, other than its value. -/
structure CellFacts (as : List (Str × Str)) (x : CellContent) : Prop where
  formula : attrPlain as "table:formula" = some x.formula
  style : attrPlain as "table:style-name" = some (x.style.map String.toList)
  validation : attrPlain as "table:content-validation-name" = some (x.validation.map String.toList)
  /-- A span of 0 counts as 1. -/
  rowSpan : (attrCount as "table:number-rows-spanned").map (max 1) = some x.span.rowSpan
  colSpan : (attrCount as "table:number-columns-spanned").map (max 1) = some x.span.colSpan
  matrixRowSpan : (attrCount as "table:number-matrix-rows-spanned").map (max 1) = some x.matrixSpan.rowSpan
  matrixColSpan : (attrCount as "table:number-matrix-columns-spanned").map (max 1) = some x.matrixSpan.colSpan

theorem plain_field {fl : Floats} {g : CellState → Option Str} {K : CellKey} (h : Only fl g K) (h0 : g {} = none)
    (hp : ∀ s s' v, Effect fl s s' v K → ∃ x, unescape v = some x ∧ g s' = some x)
    (as : List (Str × Str)) (hnd : (as.map Prod.fst).Nodup) (s : CellState) (ha : cellAttrs fl {} as = .ok s) :
    attrPlain as K.name = some (g s) := by
  have := field_of h unescape some (fun s s' v e _ => hp s s' v e) as hnd s ha
  unfold attrPlain
  cases hl : attrText as K.name with
  | none => rw [hl] at this; simp only at this ⊢; rw [this, h0]
  | some v =>
    rw [hl] at this
    obtain ⟨x, h1, h2⟩ := this
    show (unescape v).map some = _
    rw [h1, h2]; rfl

theorem count_field {fl : Floats} {g : CellState → Nat} {K : CellKey} (h : Only fl g K) (h0 : g {} = 1)
    (hp : ∀ s s' v, Effect fl s s' v K → g s = 1 → ∃ n, parseU32 v = some n ∧ g s' = max 1 n)
    (as : List (Str × Str)) (hnd : (as.map Prod.fst).Nodup) (s : CellState) (ha : cellAttrs fl {} as = .ok s) :
    (attrCount as K.name).map (max 1) = some (g s) := by
  have := field_of h parseU32 (max 1) (fun s s' v e e0 => hp s s' v e (by rw [e0, h0])) as hnd s ha
  unfold attrCount
  cases hl : attrText as K.name with
  | none => rw [hl] at this; simp only at this ⊢; rw [this, h0]; rfl
  | some v =>
    rw [hl] at this
    obtain ⟨x, h1, h2⟩ := this
    show (parseU32 v).map (max 1) = _
    rw [h1, h2]; rfl

theorem state_facts (fl : Floats) (as : List (Str × Str)) (hnd : (as.map Prod.fst).Nodup) (s : CellState)
    (ha : cellAttrs fl {} as = .ok s) : CellFacts as s.content where
  formula := plain_field (only_formula fl) rfl
    (by intro s s' v h; obtain ⟨x, h1, rfl⟩ := h; exact ⟨x, h1, rfl⟩) as hnd s ha
  style := by
    have hst : Only fl (fun s => s.content.style.map String.toList) .style := by
      intro s s' v K hK h
      exact congrArg (Option.map String.toList) (only_style fl s s' v K hK h)
    exact plain_field hst rfl
      (by intro s s' v h; obtain ⟨x, h1, rfl⟩ := h
          exact ⟨x, h1, by show some (String.ofList x).toList = _; rw [String.toList_ofList]⟩) as hnd s ha
  validation := by
    have hst : Only fl (fun s => s.content.validation.map String.toList) .validation := by
      intro s s' v K hK h
      exact congrArg (Option.map String.toList) (only_validation fl s s' v K hK h)
    exact plain_field hst rfl
      (by intro s s' v h; obtain ⟨x, h1, rfl⟩ := h
          exact ⟨x, h1, by show some (String.ofList x).toList = _; rw [String.toList_ofList]⟩) as hnd s ha
  rowSpan := count_field (only_rows fl) rfl
    (by
      intro s s' v h h0
      obtain ⟨n, h1, rfl⟩ := h
      refine ⟨n, h1, ?_⟩
      by_cases hn : 1 < n
      · rw [if_pos hn, Nat.max_eq_right (by omega)]; rfl
      · rw [if_neg hn, h0, Nat.max_eq_left (by omega)]) as hnd s ha
  colSpan := count_field (only_cols fl) rfl
    (by
      intro s s' v h h0
      obtain ⟨n, h1, rfl⟩ := h
      refine ⟨n, h1, ?_⟩
      by_cases hn : 1 < n
      · rw [if_pos hn, Nat.max_eq_right (by omega)]; rfl
      · rw [if_neg hn, h0, Nat.max_eq_left (by omega)]) as hnd s ha
  matrixRowSpan := count_field (only_mrows fl) rfl
    (by
      intro s s' v h h0
      obtain ⟨n, h1, rfl⟩ := h
      refine ⟨n, h1, ?_⟩
      by_cases hn : 1 < n
      · rw [if_pos hn, Nat.max_eq_right (by omega)]; rfl
      · rw [if_neg hn, h0, Nat.max_eq_left (by omega)]) as hnd s ha
  matrixColSpan := count_field (only_mcols fl) rfl
    (by
      intro s s' v h h0
      obtain ⟨n, h1, rfl⟩ := h
      refine ⟨n, h1, ?_⟩
      by_cases hn : 1 < n
      · rw [if_pos hn, Nat.max_eq_right (by omega)]; rfl
      · rw [if_neg hn, h0, Nat.max_eq_left (by omega)]) as hnd s ha

theorem state_repeat (fl : Floats) (as : List (Str × Str)) (hnd : (as.map Prod.fst).Nodup) (s : CellState)
    (ha : cellAttrs fl {} as = .ok s) : attrCount as "table:number-columns-repeated" = some s.repeat := by
  have := field_of (only_repeat fl) parseU32 id
    (by intro s s' v h _; obtain ⟨t, h1, rfl⟩ := h; exact ⟨t, h1, rfl⟩) as hnd s ha
  simp only [CellKey.name] at this
  unfold attrCount
  cases hl : attrText as "table:number-columns-repeated" with
  | none => rw [hl] at this; simp only at this ⊢; rw [this]
  | some v =>
    rw [hl] at this
    obtain ⟨x, h1, h2⟩ := this
    show parseU32 v = _
    rw [h1, h2]; rfl

/-! ## The content -/

/-- The cell without its annotation and its frames. -/
def bareContent (x : CellContent) : CellContent := { x with annotation := none, drawFrames := [] }

/-- What the content of a cell does not change. -/
def SameHead (b b' : CellBody) : Prop :=
  b'.st.others = b.st.others ∧ bareContent b'.st.content = bareContent b.st.content
    ∧ (b.st.cell.isSome = true → b'.st.cell.isSome = true)

theorem SameHead.refl (b : CellBody) : SameHead b b := ⟨rfl, rfl, id⟩

theorem SameHead.trans {a b c : CellBody} (h1 : SameHead a b) (h2 : SameHead b c) : SameHead a c :=
  ⟨h2.1.trans h1.1, h2.2.1.trans h1.2.1, fun h => h2.2.2 (h1.2.2 h)⟩

theorem child_head (b b' : CellBody) (n : Str) (as : List (Str × Str)) (e : Bool) (es es' : List Event)
    (h : cellChild b n as e es = .ok (some (b', es'))) : SameHead b b' := by
  unfold cellChild at h
  by_cases h1 : n = pName
  · rw [if_pos h1] at h
    cases e with
    | true =>
      rw [if_pos rfl] at h
      obtain ⟨x, _, h3⟩ := map_ok h
      injection h3 with h3
      injection h3 with h3 _
      rw [h3]; exact ⟨rfl, rfl, id⟩
    | false =>
      rw [if_neg (by simp)] at h
      cases ht : readText pName as es with
      | error x => rw [ht] at h; cases h
      | ok x =>
        obtain ⟨t, es2⟩ := x
        rw [ht] at h
        simp only at h
        obtain ⟨x, _, h3⟩ := map_ok h
        injection h3 with h3
        injection h3 with h3 _
        rw [h3]; exact ⟨rfl, rfl, id⟩
  · rw [if_neg h1] at h
    by_cases h2 : n = tAnnotation ∧ e = false
    · rw [if_pos h2] at h
      obtain ⟨x, _, h3⟩ := map_ok h
      injection h3 with h3
      injection h3 with h3 _
      rw [h3]; exact ⟨rfl, rfl, fun _ => rfl⟩
    · rw [if_neg h2] at h
      by_cases h4 : n = tFrame ∧ e = false
      · rw [if_pos h4] at h
        obtain ⟨x, _, h3⟩ := map_ok h
        injection h3 with h3
        injection h3 with h3 _
        rw [h3]; exact ⟨rfl, rfl, fun _ => rfl⟩
      · rw [if_neg h4] at h
        cases h

theorem loop_head (tag : Str) (k : Nat) : ∀ (b : CellBody) (names : List Str) (es : List Event)
    (b' : CellBody) (es' : List Event), cellLoop tag k b names es = .ok (b', es') → SameHead b b' := by
  unfold cellLoop
  induction k with
  | zero => intro b names es b' es' h; cases h
  | succ k ih =>
    intro b names es b' es' h
    cases es with
    | nil =>
      have := Except.ok.inj h
      injection this with h1 _
      rw [← h1]; exact SameHead.refl b
    | cons ev es =>
      cases ev with
      | text t => exact ih _ _ _ _ _ h
      | ref t => exact ih _ _ _ _ _ h
      | «end» n =>
        rw [subLoop] at h
        split at h
        · cases h
        · split at h
          · have := Except.ok.inj h
            injection this with h1 _
            rw [← h1]; exact SameHead.refl b
          · exact ih _ _ _ _ _ h
      | start n as =>
        rw [subLoop] at h
        cases hc : cellChild b n as false es with
        | error e => rw [hc] at h; cases h
        | ok o =>
          rw [hc] at h
          cases o with
          | none => exact ih _ _ _ _ _ h
          | some x =>
            obtain ⟨a, es2⟩ := x
            exact (child_head b a n as false es es2 hc).trans (ih _ _ _ _ _ h)
      | empty n as =>
        rw [subLoop] at h
        cases hc : cellChild b n as true es with
        | error e => rw [hc] at h; cases h
        | ok o =>
          rw [hc] at h
          cases o with
          | none => exact ih _ _ _ _ _ h
          | some x =>
            obtain ⟨a, es2⟩ := x
            exact (child_head b a n as true es es2 hc).trans (ih _ _ _ _ _ h)

/-! ## The theorems -/

theorem facts_bare (as : List (Str × Str)) (x y : CellContent) (h : CellFacts as x)
    (e : bareContent y = bareContent x) : CellFacts as y := by
  have e1 : y.formula = x.formula := congrArg (·.formula) e
  have e2 : y.style = x.style := congrArg (·.style) e
  have e3 : y.validation = x.validation := congrArg (·.validation) e
  have e4 : y.span = x.span := congrArg (·.span) e
  have e5 : y.matrixSpan = x.matrixSpan := congrArg (·.matrixSpan) e
  exact ⟨by rw [e1]; exact h.1, by rw [e2]; exact h.2, by rw [e3]; exact h.3, by rw [e4]; exact h.4,
    by rw [e4]; exact h.5, by rw [e5]; exact h.6, by rw [e5]; exact h.7⟩

/-- The end of reading. -/
theorem finish_facts (ie : Bool) (cs : Option String) (fl : Floats) (as : List (Str × Str))
    (hnd : (as.map Prod.fst).Nodup) (s : CellState) (ha : cellAttrs fl {} as = .ok s) (s' : CellState)
    (t : TextContent) (hs : SameHead ⟨s, .empty⟩ ⟨s', t⟩) (o : Option CellData)
    (hf : finishCell ie cs s' t = .ok o) :
    ∃ v, meaning fl as (contentValue t) = some v
      ∧ (∀ c, o = some c → c.value = v ∧ c.repeat = s.repeat ∧ CellFacts as c.toContent)
      ∧ (o = none → v = .empty ∧ attrPlain as "table:formula" = some none) := by
  obtain ⟨h1, h2, h3⟩ := hs
  simp only at h1 h2 h3
  obtain ⟨i1, i2, i3, i4⟩ := inv_attrs fl as {} s ⟨fun h => absurd rfl h, nofun, rfl, rfl⟩ ha
  have hm := value_meaning fl as hnd s ha t
  rw [← setValue_others h1 t] at hm
  have hfac := facts_bare as s.content s'.content (state_facts fl as hnd s ha) h2
  have hrep : s'.repeat = s.repeat := (congrArg CellState.repeat h1 : s'.others.repeat = s.others.repeat)
  have hval : s'.content.value = .empty := by
    have : s'.content.value = s.content.value := congrArg (·.value) h2
    rw [this, i3]
  unfold finishCell at hf
  cases hc : s'.cell with
  | none =>
    rw [hc] at hf
    have ho := Except.ok.inj hf
    subst ho
    have hty : s.valType = .empty := by
      apply Classical.byContradiction
      intro hne
      have := h3 (i1 hne)
      rw [hc] at this
      cases this
    have hty' : s'.valType = .empty := by
      have e : s'.valType = s.valType := (congrArg CellState.valType h1 : s'.others.valType = s.others.valType)
      rw [e, hty]
    have hset : setValue s' t = .ok none := by unfold setValue; rw [hty']
    rw [hset] at hm
    refine ⟨.empty, hm.symm, nofun, fun _ => ⟨rfl, ?_⟩⟩
    have := hfac.1
    rw [this]
    have : s'.content.formula = none := by unfold CellState.content; rw [hc]; rfl
    rw [this]
  | some c =>
    rw [hc] at hf
    simp only at hf
    cases hset : setValue s' t with
    | error e => rw [hset] at hf; cases hf
    | ok v =>
      rw [hset] at hf hm
      simp only at hf
      have ho := Except.ok.inj hf
      have hcc : c.toContent = s'.content := by unfold CellState.content; rw [hc]; rfl
      have hcv : c.value = .empty := by rw [← hval, ← hcc]; rfl
      rw [hcv] at ho
      refine ⟨v.getD .empty, hm.symm, ?_, ?_⟩
      · intro d hd
        rw [hd] at ho
        split at ho
        · cases ho
        · have := Option.some.inj ho
          subst this
          refine ⟨rfl, hrep, ?_⟩
          rw [← hcc] at hfac
          exact ⟨hfac.1, hfac.2, hfac.3, hfac.4, hfac.5, hfac.6, hfac.7⟩
      · intro hn
        rw [hn] at ho
        split at ho
        · rename_i hig
          unfold ignoreCell CellData.isVoid CellData.isEmpty at hig
          simp only [Bool.or_eq_true, Bool.and_eq_true, decide_eq_true_eq, Option.isNone_iff_eq_none] at hig
          have hfo : s'.content.formula = none := by
            rw [← hcc]
            show c.formula = none
            rcases hig with ⟨⟨⟨_, h⟩, _⟩, _⟩ | ⟨_, ⟨_, h⟩, _⟩
            · exact h
            · exact h
          refine ⟨?_, by rw [hfac.1, hfo]⟩
          rcases hig with ⟨⟨⟨h, _⟩, _⟩, _⟩ | ⟨_, ⟨h, _⟩, _⟩
          · exact h
          · exact h
        · cases ho

/-- **C102**: whatever the attributes of a cell are, in whatever order, and whatever is in the cell: if it
is read then its value is what the attributes mean, and so are its formula, style, validation, spans and
its repeat count.  A cell is dropped only if it has no value and no formula.  The text of the cell
counts only for texts without `office:string-value`. -/
theorem C102_cell (fl : Floats) (ie : Bool) (cs : Option String) (tag : Str) (as : List (Str × Str))
    (hnd : (as.map Prod.fst).Nodup) (emptyTag : Bool) (es rest : List Event) (r : CellResult)
    (h : readTableCell fl ie cs tag as emptyTag es = .ok (r, rest)) :
    ∃ (text : Option Value) (v : Value), (emptyTag = true → text = none)
      ∧ meaning fl as text = some v
      ∧ attrCount as "table:number-columns-repeated" = some r.repeat
      ∧ (∀ c, r.cell = some c → c.value = v ∧ c.repeat = r.repeat ∧ CellFacts as c.toContent)
      ∧ (r.cell = none → v = .empty ∧ attrPlain as "table:formula" = some none) := by
  unfold readTableCell at h
  cases ha : cellAttrs fl {} as with
  | error e => rw [ha] at h; cases h
  | ok s =>
    rw [ha] at h
    simp only at h
    have hr := state_repeat fl as hnd s ha
    cases emptyTag with
    | true =>
      simp only [if_true] at h
      cases hf : finishCell ie cs s .empty with
      | error e => rw [hf] at h; cases h
      | ok o =>
        rw [hf] at h
        have h1 := Except.ok.inj h
        injection h1 with h1 _
        subst h1
        obtain ⟨v, g1, g2, g3⟩ := finish_facts ie cs fl as hnd s ha s .empty (SameHead.refl _) o hf
        exact ⟨none, v, fun _ => rfl, g1, hr, g2, g3⟩
    | false =>
      simp only [Bool.false_eq_true, if_false] at h
      cases hl : cellLoop tag (es.length + 1) ⟨s, .empty⟩ [] es with
      | error e => rw [hl] at h; cases h
      | ok x =>
        obtain ⟨b, es2⟩ := x
        rw [hl] at h
        simp only at h
        have hh := loop_head tag _ _ _ _ _ _ hl
        cases hf : finishCell ie cs b.st b.text with
        | error e => rw [hf] at h; cases h
        | ok o =>
          rw [hf] at h
          have h1 := Except.ok.inj h
          injection h1 with h1 _
          subst h1
          obtain ⟨v, g1, g2, g3⟩ := finish_facts ie cs fl as hnd s ha b.st b.text hh o hf
          have hrep : b.st.repeat = s.repeat :=
            (congrArg CellState.repeat hh.1 : b.st.others.repeat = s.others.repeat)
          refine ⟨contentValue b.text, v, nofun, g1, by rw [hr, ← hrep], ?_, g3⟩
          intro c hc
          obtain ⟨q1, q2, q3⟩ := g2 c hc
          exact ⟨q1, by rw [q2, ← hrep], q3⟩

/-- An attribute that can be read: counts are numbers of 32 bits, types and values are of their form,
and the escapes in texts are known.  Attributes with other names can have any text. -/
def AttrReadable (fl : Floats) (k v : Str) : Prop :=
  (k ∈ ["table:number-columns-repeated", "table:number-rows-spanned", "table:number-columns-spanned",
      "table:number-matrix-rows-spanned", "table:number-matrix-columns-spanned"].map String.toList →
    (parseU32 v).isSome = true)
  ∧ (k ∈ ["table:content-validation-name", "table:formula", "table:style-name", "office:string-value"].map String.toList →
    (unescape v).isSome = true)
  ∧ (k = "office:value-type".toList →
    v ∈ ["string", "float", "percentage", "date", "time", "boolean", "currency"].map String.toList)
  ∧ (k = "office:date-value".toList → (parseDateTime v).isSome = true)
  ∧ (k = "office:time-value".toList → (parseDuration v).toOption.isSome = true)
  ∧ (k = "office:value".toList → (fl.parse v).isSome = true)
  ∧ (k = "office:boolean-value".toList → (parseBool v).isSome = true)

/-- The same by kinds. -/
def KeyReadable (fl : Floats) (v : Str) : CellKey → Prop
  | .repeated | .rowsSpanned | .colsSpanned | .matrixRows | .matrixCols => (parseU32 v).isSome = true
  | .validation | .formula | .style | .stringValue => (unescape v).isSome = true
  | .valueType => (readValueType v).isSome = true
  | .dateValue => (parseDateTime v).isSome = true
  | .timeValue => (parseDuration v).toOption.isSome = true
  | .value => (fl.parse v).isSome = true
  | .boolValue => (parseBool v).isSome = true
  | .currency => True

theorem types_iff (v : Str) : (readValueType v).isSome = true ↔
    v ∈ ["string", "float", "percentage", "date", "time", "boolean", "currency"].map String.toList := by
  constructor
  · intro h
    cases hr : readValueType v with
    | none => rw [hr] at h; cases h
    | some t =>
      unfold readValueType at hr
      iterate 7
        rcases ite_some hr with ⟨e, hr⟩ | hr
        · subst e; simp
      cases hr
  · intro h
    simp only [List.map_cons, List.map_nil, List.mem_cons, List.not_mem_nil, or_false] at h
    rcases h with rfl | rfl | rfl | rfl | rfl | rfl | rfl <;> decide

theorem readable_iff (fl : Floats) (k v : Str) :
    AttrReadable fl k v ↔ ∀ K, cellKey k = some K → KeyReadable fl v K := by
  constructor
  · intro ⟨h1, h2, h3, h4, h5, h6, h7⟩ K hK
    have hk := name_cellKey k K hK
    subst hk
    cases K
    case valueType => exact (types_iff v).2 (h3 rfl)
    case currency => trivial
    case dateValue => exact h4 rfl
    case timeValue => exact h5 rfl
    case value => exact h6 rfl
    case boolValue => exact h7 rfl
    case validation => exact h2 (by simp [CellKey.name])
    case formula => exact h2 (by simp [CellKey.name])
    case style => exact h2 (by simp [CellKey.name])
    case stringValue => exact h2 (by simp [CellKey.name])
    all_goals exact h1 (by simp [CellKey.name])
  · intro h
    refine ⟨?_, ?_, ?_, ?_, ?_, ?_, ?_⟩
    · intro hk
      simp only [List.map_cons, List.map_nil, List.mem_cons, List.not_mem_nil, or_false] at hk
      rcases hk with hk | hk | hk | hk | hk
      · exact h .repeated (by rw [hk]; exact cellKey_name .repeated)
      · exact h .rowsSpanned (by rw [hk]; exact cellKey_name .rowsSpanned)
      · exact h .colsSpanned (by rw [hk]; exact cellKey_name .colsSpanned)
      · exact h .matrixRows (by rw [hk]; exact cellKey_name .matrixRows)
      · exact h .matrixCols (by rw [hk]; exact cellKey_name .matrixCols)
    · intro hk
      simp only [List.map_cons, List.map_nil, List.mem_cons, List.not_mem_nil, or_false] at hk
      rcases hk with hk | hk | hk | hk
      · exact h .validation (by rw [hk]; exact cellKey_name .validation)
      · exact h .formula (by rw [hk]; exact cellKey_name .formula)
      · exact h .style (by rw [hk]; exact cellKey_name .style)
      · exact h .stringValue (by rw [hk]; exact cellKey_name .stringValue)
    · intro hk; exact (types_iff v).1 (h .valueType (by rw [hk]; exact cellKey_name .valueType))
    · intro hk; exact h .dateValue (by rw [hk]; exact cellKey_name .dateValue)
    · intro hk; exact h .timeValue (by rw [hk]; exact cellKey_name .timeValue)
    · intro hk; exact h .value (by rw [hk]; exact cellKey_name .value)
    · intro hk; exact h .boolValue (by rw [hk]; exact cellKey_name .boolValue)

theorem orFail_some {α β : Type} {f : Fault} {o : Option α} {g : α → β} :
    (∃ y, (orFail f o).map g = .ok y) ↔ o.isSome = true := by
  cases o with
  | none => exact ⟨fun ⟨y, h⟩ => (by cases h), nofun⟩
  | some a => exact ⟨fun _ => rfl, fun _ => ⟨_, rfl⟩⟩

theorem attr_ok (fl : Floats) (s : CellState) (k v : Str) :
    (∃ s', cellAttr fl s k v = .ok s') ↔ AttrReadable fl k v := by
  rw [readable_iff]
  cases hk : cellKey k with
  | none =>
    refine ⟨fun _ K h => (by cases h), fun _ => ⟨s, ?_⟩⟩
    unfold cellAttr; rw [hk]
  | some K =>
    have hspan : ∀ f, (∃ s', s.span v f = .ok s') ↔ (parseU32 v).isSome = true := by
      intro f
      unfold CellState.span
      cases parseU32 v with
      | none => exact ⟨fun ⟨y, h⟩ => (by cases h), nofun⟩
      | some n => exact ⟨fun _ => rfl, fun _ => ⟨_, rfl⟩⟩
    have key : (∃ s', cellAttr fl s k v = .ok s') ↔ KeyReadable fl v K := by
      unfold cellAttr
      rw [hk]
      cases K <;> simp only [KeyReadable]
      case currency => exact ⟨fun _ => trivial, fun _ => ⟨_, rfl⟩⟩
      case timeValue =>
        unfold readDuration
        cases hp : parseDuration v with
        | ok n => exact ⟨fun _ => rfl, fun _ => ⟨_, rfl⟩⟩
        | error e => cases e <;> exact ⟨fun ⟨y, h⟩ => (by cases h), nofun⟩
      all_goals first
        | exact hspan _
        | exact orFail_some
    rw [key]
    exact ⟨fun h K' e => by rw [← Option.some.inj e]; exact h, fun h => h K rfl⟩

theorem attrs_ok (fl : Floats) (as : List (Str × Str)) : ∀ s,
    (∃ s', cellAttrs fl s as = .ok s') ↔ ∀ a ∈ as, AttrReadable fl a.1 a.2 := by
  induction as with
  | nil => intro s; exact ⟨fun _ a h => (by cases h), fun _ => ⟨s, rfl⟩⟩
  | cons a as ih =>
    intro s
    obtain ⟨k, v⟩ := a
    rw [cellAttrs]
    constructor
    · rintro ⟨s', h⟩ a ha
      cases h1 : cellAttr fl s k v with
      | error e => rw [h1] at h; cases h
      | ok s1 =>
        rw [h1] at h
        rcases List.mem_cons.1 ha with rfl | ha
        · exact (attr_ok fl s k v).1 ⟨s1, h1⟩
        · exact (ih s1).1 ⟨s', h⟩ a ha
    · intro h
      obtain ⟨s1, h1⟩ := (attr_ok fl s k v).2 (h (k, v) List.mem_cons_self)
      rw [h1]
      exact (ih s1).2 fun a ha => h a (List.mem_cons_of_mem _ ha)

/-- **C102**: a cell without content is read exactly if each of its attributes can be read and they give
a value. -/
theorem C102_accepts (fl : Floats) (ie : Bool) (cs : Option String) (tag : Str) (as : List (Str × Str))
    (hnd : (as.map Prod.fst).Nodup) (es : List Event) :
    (∃ r, readTableCell fl ie cs tag as true es = .ok (r, es))
      ↔ (∀ a ∈ as, AttrReadable fl a.1 a.2) ∧ ∃ v, meaning fl as none = some v := by
  constructor
  · rintro ⟨r, h⟩
    obtain ⟨t, v, h1, h2, _⟩ := C102_cell fl ie cs tag as hnd true es es r h
    rw [h1 rfl] at h2
    refine ⟨?_, v, h2⟩
    apply (attrs_ok fl as {}).1
    unfold readTableCell at h
    cases ha : cellAttrs fl {} as with
    | error e => rw [ha] at h; cases h
    | ok s => exact ⟨s, rfl⟩
  · rintro ⟨h1, v, h2⟩
    obtain ⟨s, ha⟩ := (attrs_ok fl as {}).2 h1
    have hm := value_meaning fl as hnd s ha .empty
    have e : contentValue TextContent.empty = none := rfl
    rw [e, h2] at hm
    unfold readTableCell
    rw [ha]
    simp only [if_true]
    unfold finishCell
    cases hc : s.cell with
    | none => exact ⟨_, rfl⟩
    | some c =>
      simp only
      cases hset : setValue s .empty with
      | error e => rw [hset] at hm; cases hm
      | ok v => exact ⟨_, rfl⟩

/-- **C102**, texts: a cell with paragraphs of plain text, and without a value in its attributes, has
these lines as its text. -/
theorem C102_text (fl : Floats) (ie : Bool) (cs : Option String) (tag : Str) (as : List (Str × Str))
    (hnd : (as.map Prod.fst).Nodup) (hok : ∀ a ∈ as, AttrReadable fl a.1 a.2)
    (hty : attrText as "office:value-type" = some "string".toList) (hno : attrText as "office:string-value" = none)
    (ls : List Str) (lb : Bool) (rest : List Tok) :
    ∃ r, readTableCell fl ie cs tag as false (events (ls.flatMap (paraToks lb) ++ .end tag :: rest))
        = .ok (r, events rest)
      ∧ (∀ c, r.cell = some c → c.value = (linesValue ls).getD .empty ∧ CellFacts as c.toContent)
      ∧ (r.cell = none → linesValue ls = none) := by
  obtain ⟨s, ha⟩ := (attrs_ok fl as {}).2 hok
  have hl : cellLoop tag ((events (ls.flatMap (paraToks lb) ++ .end tag :: rest)).length + 1) ⟨s, .empty⟩ []
      (events (ls.flatMap (paraToks lb) ++ .end tag :: rest)) = .ok (⟨s, appendLines .empty ls⟩, events rest) :=
    (pieces_steps (pieces_lines tag lb ls .empty) s).finish rest
  have hm := value_meaning fl as hnd s ha (appendLines .empty ls)
  have hmean : meaning fl as (contentValue (appendLines .empty ls)) = some ((linesValue ls).getD .empty) := by
    rw [appendLines_value]
    unfold meaning
    rw [hty, hno]
    simp only
    rw [if_neg (by decide), if_neg (by decide), if_neg (by decide), if_neg (by decide), if_neg (by decide),
      if_neg (by decide), if_pos trivial]
  have hf : ∃ o, finishCell ie cs s (appendLines .empty ls) = .ok o := by
    unfold finishCell
    cases hc : s.cell with
    | none => exact ⟨_, rfl⟩
    | some c =>
      simp only
      cases hset : setValue s (appendLines .empty ls) with
      | error e => rw [hset, hmean] at hm; cases hm
      | ok v => exact ⟨_, rfl⟩
  obtain ⟨o, hf⟩ := hf
  obtain ⟨v, g1, g2, g3⟩ := finish_facts ie cs fl as hnd s ha s (appendLines .empty ls) ⟨rfl, rfl, id⟩ o hf
  rw [hmean] at g1
  have hv := Option.some.inj g1
  refine ⟨⟨s.repeat, o⟩, ?_, ?_, ?_⟩
  · unfold readTableCell
    rw [ha]
    simp only [Bool.false_eq_true, if_false]
    rw [hl]
    simp only
    rw [hf]
  · intro c hc
    obtain ⟨q1, _, q3⟩ := g2 c hc
    exact ⟨by rw [q1, hv], q3⟩
  · intro hn
    have := (g3 hn).1
    rw [this] at hv
    have hne : ∀ ls : List Str, linesValue ls ≠ some .empty := by
      intro ls h
      unfold linesValue at h
      split at h <;> cases h
    cases hlv : linesValue ls with
    | none => rfl
    | some w =>
      rw [hlv] at hv
      exact absurd (by rw [hlv]; exact congrArg some hv) (hne ls)

/-- C102 fails for cells of the type `void`, which the standard allows: the whole file is refused,
whatever else the cell has. -/
theorem C102_void_counterexample (fl : Floats) (ie : Bool) (cs : Option String) (tag : Str) (as : List (Str × Str))
    (h : ("office:value-type".toList, "void".toList) ∈ as) (emptyTag : Bool) (es : List Event) :
    ∀ x, readTableCell fl ie cs tag as emptyTag es ≠ .ok x := by
  intro x hx
  unfold readTableCell at hx
  cases ha : cellAttrs fl {} as with
  | error e => rw [ha] at hx; cases hx
  | ok s =>
    have := ((attrs_ok fl as {}).1 ⟨s, ha⟩ _ h).2.2.1 rfl
    exact absurd this (by decide)

/-- C102: a text in a cell without attributes for its value is lost. -/
theorem C102_untyped_counterexample (fl : Floats) (ie : Bool) (cs : Option String) (tag : Str) (ls : List Str)
    (lb : Bool) (rest : List Tok) :
    readTableCell fl ie cs tag [] false (events (ls.flatMap (paraToks lb) ++ .end tag :: rest))
      = .ok (⟨1, none⟩, events rest) := by
  have hl : cellLoop tag ((events (ls.flatMap (paraToks lb) ++ .end tag :: rest)).length + 1) ⟨{}, .empty⟩ []
      (events (ls.flatMap (paraToks lb) ++ .end tag :: rest)) = .ok (⟨{}, appendLines .empty ls⟩, events rest) :=
    (pieces_steps (pieces_lines tag lb ls .empty) {}).finish rest
  unfold readTableCell
  rw [cellAttrs]
  simp only [Bool.false_eq_true, if_false]
  rw [hl]
  rfl

/-- A cell as LibreOffice writes it: a date without a time, with an attribute of its own, and the formula
in front. -/
def officeCell : List (Str × Str) :=
  [("table:style-name".toList, "ce1".toList), ("table:formula".toList, "of:=TODAY()".toList),
    ("office:value-type".toList, "date".toList), ("office:date-value".toList, "2024-02-29".toList),
    ("calcext:value-type".toList, "date".toList)]

/-- The conditions of `C102_accepts` and `C102_cell` hold, and this is the value. -/
example (fl : Floats) : (officeCell.map Prod.fst).Nodup ∧ (∀ a ∈ officeCell, AttrReadable fl a.1 a.2)
    ∧ meaning fl officeCell none = some (.dateTime ⟨2024, 2, 29, 0, 0, 0, 0⟩) := by
  refine ⟨by decide +kernel, ?_, ?_⟩
  · apply (attrs_ok fl officeCell {}).1
    exact ⟨_, rfl⟩
  · have h1 : attrText officeCell "office:value-type" = some "date".toList := by decide +kernel
    have h2 : attrText officeCell "office:date-value" = some "2024-02-29".toList := by decide +kernel
    unfold meaning
    rw [h1, h2]
    simp only
    rw [if_neg (by decide), if_neg (by decide), if_neg (by decide), if_neg (by decide), if_pos trivial]
    rw [show (some "2024-02-29".toList).bind parseDateTime = parseDateTime "2024-02-29".toList from rfl, show parseDateTime "2024-02-29".toList = some ⟨2024, 2, 29, 0, 0, 0, 0⟩ by decide]
    rfl

end Verif.Codec
