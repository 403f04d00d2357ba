import Verif.Codec.CellItems

/-!
# Lemmas about cells: reading
-/

set_option autoImplicit false

namespace Verif.Codec

open Xml Xml.Spec

/-! ## Lines -/

/-- The content with one more line. -/
def append1 : TextContent → Str → TextContent
  | .empty, l => lineContent l
  | .text t, l => .xmlVec ([textP t] ++ if l = [] then [] else [textP l])
  | .xml f, l => .xmlVec ([f.node] ++ if l = [] then [] else [textP l])
  | .xmlVec v, l => .xmlVec (v ++ if l = [] then [] else [textP l])

theorem append1_eq (c : TextContent) (l : Str) : appendText (lineContent l) c = .ok (append1 c l) := by
  cases c <;> cases l <;> simp [appendText, append1, lineContent, pushContent, Except.map]

/-- The content with more lines. -/
def appendLines (c : TextContent) (ls : List Str) : TextContent := ls.foldl append1 c

theorem pieces_lines (tag : Str) (lb : Bool) (ls : List Str) : ∀ c : TextContent,
    Pieces tag (ls.flatMap (paraToks lb)) c (appendLines c ls) := by
  induction ls with
  | nil => intro c; exact Pieces.nil c
  | cons l ls ih =>
    intro c
    rw [List.flatMap_cons]
    exact Pieces.cons (piece_para tag lb l) (append1_eq c l) (ih (append1 c l))

/-- The value of a content. -/
def contentValue : TextContent → Option Value
  | .empty => none
  | .text t => some (.text t)
  | .xml f => some (.textXml [f.node])
  | .xmlVec l => some (.textXml l)

/-- Is the line blank? -/
def blank (l : Str) : Bool := l.isEmpty

/-- The value of some lines. -/
def linesValue (ls : List Str) : Option Value :=
  match ls.dropWhile blank with
  | [] => none
  | [l] => some (.text l)
  | l :: ls => some (.textXml ((l :: ls.filter (fun l => !blank l)).map textP))

theorem appendLines_vec (ls : List Str) : ∀ v : List Node,
    appendLines (.xmlVec v) ls = .xmlVec (v ++ (ls.filter (fun l => !blank l)).map textP) := by
  induction ls with
  | nil => intro v; simp [appendLines]
  | cons l ls ih =>
    intro v
    show appendLines (.xmlVec _) ls = _
    rw [ih]
    cases l with
    | nil => simp [blank]
    | cons c l => simp [blank]

theorem appendLines_value (ls : List Str) : contentValue (appendLines .empty ls) = linesValue ls := by
  induction ls with
  | nil => rfl
  | cons l ls ih =>
    cases l with
    | nil => exact ih
    | cons c l =>
      show contentValue (appendLines (.text (c :: l)) ls) = _
      have hd : ((c :: l) :: ls).dropWhile blank = (c :: l) :: ls := by
        rw [List.dropWhile_cons_of_neg (by simp [blank])]
      unfold linesValue
      rw [hd]
      cases ls with
      | nil => rfl
      | cons m ls =>
        show contentValue (appendLines (.xmlVec _) ls) = _
        rw [appendLines_vec]
        cases m with
        | nil => simp [contentValue, blank]
        | cons d m => simp [contentValue, blank]

theorem itemToks_para (lb : Bool) (s : Str) : itemToks lb (.elemText true pName s) = paraToks lb s := by
  simp [itemToks, paraToks]

theorem escTok_plain_map (s : Str) (h : Plain s) : s.map escTok = s.map Tok.chr := by
  apply List.map_congr_left
  intro c hc
  apply escTok_plain
  cases hm : isMarkup c with
  | false => rfl
  | true => exact absurd ((isMarkup_iff c).1 hm) (h c hc)

theorem pItems_toks (lb : Bool) (s : Str) (h : Plain s) :
    (pItems s).flatMap (itemToks lb) = paraToks lb s := by
  simp [pItems, itemToks, paraToks, escTok_plain_map s h, rawAttrs]

/-! ## Paragraphs with tags -/

/-- There is a tag. -/
def HasTag : List Node → Prop
  | [] => False
  | .text _ :: c => HasTag c
  | .tag _ _ _ :: _ => True

/-- A paragraph with at least one tag in it, with texts that are not empty, not next to each other and
without markup characters, and without paragraphs in it. -/
def RichP (x : Node) : Prop :=
  ∃ as c, x = .tag pName as c ∧ HasTag c ∧ TextsApart c ∧ AllTextsApartIn c ∧ AllWithout pName c
    ∧ NamesOk x

/-- A paragraph with a text, and without attributes. -/
def PlainP (x : Node) : Prop := ∃ s, s ≠ [] ∧ x = textP s

theorem adds_rich (as : List (Str × Str)) (c : List Node) (ht : HasTag c) (ha : TextsApart c) :
    TextContent.adds pName as .empty c = .xml ⟨pName, as, c⟩ := by
  cases c with
  | nil => exact absurd ht id
  | cons x c =>
    cases x with
    | tag n a d =>
      show TextContent.adds pName as (.xml ⟨pName, as, [.tag n a d]⟩) c = _
      rw [adds_xml]; rfl
    | text s =>
      cases c with
      | nil => exact absurd ht id
      | cons y c =>
        cases y with
        | text t => exact absurd rfl (ha.2.2.1 t c)
        | tag n a d =>
          show TextContent.adds pName as (.xml ⟨pName, as, [.text s, .tag n a d]⟩) c = _
          rw [adds_xml]; rfl

/-- What is read for a paragraph. -/
def pContent : Node → TextContent → Prop
  | x, .xml f => f.node = x
  | x, .text s => s ≠ [] ∧ x = textP s
  | _, _ => False

theorem piece_rich (tag : Str) (x : Node) (h : RichP x) :
    ∃ f, Piece tag (toks (nodeItems x)) (.xml f) ∧ f.node = x := by
  obtain ⟨as, c, rfl, h1, h2, h3, h4, h5⟩ := h
  refine ⟨⟨pName, as, c⟩, ?_, rfl⟩
  have hp := piece_node tag as c h4
  have : nodeContent (.tag pName as c) = .xml ⟨pName, as, c⟩ := by
    cases c with
    | nil => exact absurd h1 id
    | cons y c =>
      show TextContent.adds pName as .empty (norms (y :: c)) = _
      rw [norms_apart _ (y :: c) (Nat.le_refl _) h2 h3, adds_rich as _ h1 h2]
  rw [this] at hp
  exact hp

theorem piece_plain (tag : Str) (s : Str) (hs : s ≠ []) :
    Piece tag (toks (nodeItems (textP s))) (.text s) := by
  have hp := piece_node tag [] [.text s] ⟨trivial, trivial⟩
  have : nodeContent (.tag pName [] [.text s]) = .text s := by
    show TextContent.adds pName [] .empty (norms [.text s]) = _
    have : norms [.text s] = addText s [] := by rw [norms, norms]
    rw [this, adds_line]
    unfold lineContent
    rw [if_neg hs]
  rw [this] at hp
  exact hp

theorem pieces_vec (tag : Str) (t : List Node) (h : ∀ x ∈ t, RichP x ∨ PlainP x) : ∀ v : List Node,
    Pieces tag (toks (nodesItems t)) (.xmlVec v) (.xmlVec (v ++ t)) := by
  induction t with
  | nil => intro v; rw [List.append_nil]; exact Pieces.nil _
  | cons x t ih =>
    intro v
    have ih' := ih (fun y hy => h y (List.mem_cons_of_mem _ hy))
    rw [nodesItems, toks_append]
    rcases h x List.mem_cons_self with hx | ⟨s, hs, rfl⟩
    · obtain ⟨f, h1, h2⟩ := piece_rich tag x hx
      refine Pieces.cons h1 (c' := .xmlVec (v ++ [x])) (by rw [← h2]; rfl) ?_
      have := ih' (v ++ [x])
      rw [List.append_assoc] at this
      exact this
    · refine Pieces.cons (piece_plain tag s hs) (c' := .xmlVec (v ++ [textP s])) rfl ?_
      have := ih' (v ++ [textP s])
      rw [List.append_assoc] at this
      exact this

/-- Paragraphs that come back as they are: one with a tag, or at least two. -/
def ParagraphsOk : List Node → Prop
  | [] => False
  | [x] => RichP x
  | t => ∀ x ∈ t, RichP x ∨ PlainP x

theorem pieces_paragraphs (tag : Str) (t : List Node) (h : ParagraphsOk t) :
    ∃ c, Pieces tag (toks (nodesItems t)) .empty c ∧ contentValue c = some (.textXml t) := by
  match t, h with
  | [x], h =>
    obtain ⟨f, h1, h2⟩ := piece_rich tag x h
    refine ⟨.xml f, ?_, by rw [← h2]; rfl⟩
    rw [nodesItems, toks_append]
    exact Pieces.cons h1 rfl (Pieces.nil _)
  | x :: y :: t, h =>
    refine ⟨.xmlVec (x :: y :: t), ?_, rfl⟩
    have hx := h x List.mem_cons_self
    have hy := h y (by simp)
    have ht := pieces_vec tag t (fun z hz => h z (by simp [hz])) [x, y]
    rw [nodesItems, nodesItems, toks_append, toks_append]
    rcases hx with hx | ⟨s, hs, rfl⟩
    · obtain ⟨f, h1, h2⟩ := piece_rich tag x hx
      refine Pieces.cons h1 (c' := .xml f) rfl ?_
      rcases hy with hy | ⟨s', hs', rfl⟩
      · obtain ⟨f', h3, h4⟩ := piece_rich tag y hy
        refine Pieces.cons h3 (c' := .xmlVec [f.node, f'.node]) rfl ?_
        rw [h2, h4]; exact ht
      · refine Pieces.cons (piece_plain tag s' hs') (c' := .xmlVec [f.node, textP s']) rfl ?_
        rw [h2]; exact ht
    · refine Pieces.cons (piece_plain tag s hs) (c' := .text s) rfl ?_
      rcases hy with hy | ⟨s', hs', rfl⟩
      · obtain ⟨f', h3, h4⟩ := piece_rich tag y hy
        refine Pieces.cons h3 (c' := .xmlVec [textP s, f'.node]) rfl ?_
        rw [h4]; exact ht
      · exact Pieces.cons (piece_plain tag s' hs') (c' := .xmlVec [textP s, textP s']) rfl ht

theorem richP_names (x : Node) (h : RichP x) : NamesOk x := h.elim fun _ h => h.elim fun _ h => h.2.2.2.2.2

theorem paragraphs_names (t : List Node) (h : ParagraphsOk t) : AllNamesOk t := by
  have key : ∀ t : List Node, (∀ x ∈ t, RichP x ∨ PlainP x) → AllNamesOk t := by
    intro t
    induction t with
    | nil => intro _; trivial
    | cons x t ih =>
      intro h
      refine ⟨?_, ih (fun y hy => h y (List.mem_cons_of_mem _ hy))⟩
      rcases h x List.mem_cons_self with hx | ⟨s, _, rfl⟩
      · exact richP_names x hx
      · exact ⟨name_p, (by intro a ha; cases ha), trivial, trivial⟩
  match t, h with
  | [x], h => exact ⟨richP_names x h, trivial⟩
  | x :: y :: t, h => exact key _ h

/-! ## The attributes of the value -/

/-- A double that is printed as a text which is read as this double, and needs no escaping. -/
def FloatOk (fl : Floats) (v : F64) : Prop := Plain (fl.fmt v) ∧ fl.parse (fl.fmt v) = some v

/-- A cell state with only the attributes in front. -/
def Fresh (s : CellState) (rep : Nat) : Prop := s.others = { «repeat» := rep }

/-- The result for the attributes of a value: `v'` is the value for the content `t`. -/
def ValueReads (fl : Floats) (v : Value) (t : TextContent) (v' : Option Value) : Prop :=
  ∀ (s : CellState) (rep : Nat), Fresh s rep →
    ∃ s', cellAttrs fl s (rawAttrs (valueAtts fl v)) = .ok s' ∧ s'.content = s.content
      ∧ s'.repeat = rep ∧ (v ≠ .empty → s'.cell.isSome = true) ∧ (v = .empty → s' = s)
      ∧ setValue s' t = .ok v'

theorem fresh_repeat {s : CellState} {rep : Nat} (h : Fresh s rep) : s.repeat = rep :=
  congrArg CellState.repeat h

theorem fresh_string {s : CellState} {rep : Nat} (h : Fresh s rep) : s.valString = none :=
  congrArg CellState.valString h

theorem fresh_type {s : CellState} {rep : Nat} (h : Fresh s rep) : s.valType = .empty :=
  congrArg CellState.valType h

theorem content_update (s : CellState) : (s.update id).content = s.content := by
  unfold CellState.content CellState.update
  rfl

theorem value_empty (fl : Floats) (t : TextContent) : ValueReads fl .empty t none := by
  intro s rep h
  refine ⟨s, rfl, rfl, fresh_repeat h, fun h => absurd rfl h, fun _ => rfl, ?_⟩
  unfold setValue
  rw [fresh_type h]

theorem cellAttr_type (fl : Floats) (s : CellState) (v : Str) (t : ValueType) (h : readValueType v = some t) :
    cellAttr fl s "office:value-type".toList v = .ok { s.update id with valType := t } := by
  unfold cellAttr
  rw [key_valueType]
  simp only
  rw [h]
  rfl

theorem value_text (fl : Floats) (x : Str) (t : TextContent) : ValueReads fl (.text x) t (contentValue t) := by
  intro s rep h
  refine ⟨{ s.update id with valType := .text }, ?_, rfl, fresh_repeat (s := s) h, fun _ => rfl,
    (fun h => by cases h), ?_⟩
  · show cellAttrs fl s [("office:value-type".toList, "string".toList)] = _
    rw [cellAttrs_one, cellAttr_type fl s _ .text (by decide)]
  · have h1 : ({ s.update id with valType := .text } : CellState).valString = none := fresh_string (s := s) h
    unfold setValue
    simp only
    rw [h1]
    cases t <;> rfl

theorem value_textXml (fl : Floats) (x : List Node) (t : TextContent) :
    ValueReads fl (.textXml x) t (contentValue t) := by
  intro s rep h
  refine ⟨{ s.update id with valType := .text }, ?_, rfl, fresh_repeat (s := s) h, fun _ => rfl,
    (fun h => by cases h), ?_⟩
  · show cellAttrs fl s [("office:value-type".toList, "string".toList)] = _
    rw [cellAttrs_one, cellAttr_type fl s _ .text (by decide)]
  · have h1 : ({ s.update id with valType := .text } : CellState).valString = none := fresh_string (s := s) h
    unfold setValue
    simp only
    rw [h1]
    cases t <;> rfl

theorem value_bool (fl : Floats) (b : Bool) (t : TextContent) :
    ValueReads fl (.boolean b) t (some (.boolean b)) := by
  intro s rep h
  refine ⟨{ ({ s.update id with valType := .boolean } : CellState).update id with valBool := some b }, ?_, rfl,
    fresh_repeat (s := s) h, fun _ => rfl, (fun h => by cases h), rfl⟩
  show cellAttrs fl s [("office:value-type".toList, "boolean".toList), ("office:boolean-value".toList, fmtBool b)] = _
  rw [cellAttrs, cellAttr_type fl s _ .boolean (by decide)]
  simp only
  rw [cellAttrs_one, cellAttr, key_bool]
  simp only
  rw [parseBool_fmt]
  rfl

theorem value_number (fl : Floats) (v : F64) (hv : FloatOk fl v) (t : TextContent) :
    ValueReads fl (.number v) t (some (.number v)) := by
  intro s rep h
  refine ⟨{ ({ s.update id with valType := .number } : CellState).update id with valFloat := some v }, ?_, rfl,
    fresh_repeat (s := s) h, fun _ => rfl, (fun h => by cases h), rfl⟩
  show cellAttrs fl s [("office:value-type".toList, "float".toList), ("office:value".toList, fl.fmt v)] = _
  rw [cellAttrs, cellAttr_type fl s _ .number (by decide)]
  simp only
  rw [cellAttrs_one, cellAttr, key_value]
  simp only
  rw [hv.2]
  rfl

theorem value_percentage (fl : Floats) (v : F64) (hv : FloatOk fl v) (t : TextContent) :
    ValueReads fl (.percentage v) t (some (.percentage v)) := by
  intro s rep h
  refine ⟨{ ({ s.update id with valType := .percentage } : CellState).update id with valFloat := some v }, ?_, rfl,
    fresh_repeat (s := s) h, fun _ => rfl, (fun h => by cases h), rfl⟩
  show cellAttrs fl s [("office:value-type".toList, "percentage".toList), ("office:value".toList, fl.fmt v)] = _
  rw [cellAttrs, cellAttr_type fl s _ .percentage (by decide)]
  simp only
  rw [cellAttrs_one, cellAttr, key_value]
  simp only
  rw [hv.2]
  rfl

theorem value_currency (fl : Floats) (v : F64) (c : Str) (hv : FloatOk fl v) (t : TextContent) :
    ValueReads fl (.currency v c) t (some (.currency v (escape c))) := by
  intro s rep h
  refine ⟨{ ({ ({ s.update id with valType := .currency } : CellState).update id with
    valCurrency := some (escape c) } : CellState).update id with valFloat := some v }, ?_, rfl,
    fresh_repeat (s := s) h, fun _ => rfl, (fun h => by cases h), rfl⟩
  show cellAttrs fl s [("office:value-type".toList, "currency".toList), ("office:currency".toList, escape c),
    ("office:value".toList, fl.fmt v)] = _
  rw [cellAttrs, cellAttr_type fl s _ .currency (by decide)]
  simp only
  rw [cellAttrs, cellAttr, key_currency]
  simp only
  rw [cellAttrs_one, cellAttr, key_value]
  simp only
  rw [hv.2]
  rfl

theorem value_dateTime (fl : Floats) (d d' : DateTime) (hd : parseDateTime (fmtDateTime d) = some d')
    (t : TextContent) : ValueReads fl (.dateTime d) t (some (.dateTime d')) := by
  intro s rep h
  refine ⟨{ ({ s.update id with valType := .dateTime } : CellState).update id with valDateTime := some d' }, ?_,
    rfl, fresh_repeat (s := s) h, fun _ => rfl, (fun h => by cases h), rfl⟩
  show cellAttrs fl s [("office:value-type".toList, "date".toList), ("office:date-value".toList, fmtDateTime d)] = _
  rw [cellAttrs, cellAttr_type fl s _ .dateTime (by decide)]
  simp only
  rw [cellAttrs_one, cellAttr, key_date]
  simp only
  rw [hd]
  rfl

theorem value_duration (fl : Floats) (d : Int) (n : Nat) (hd : parseDuration (fmtDuration d) = .ok n)
    (t : TextContent) : ValueReads fl (.timeDuration d) t (some (.timeDuration n)) := by
  intro s rep h
  refine ⟨{ ({ s.update id with valType := .timeDuration } : CellState).update id with valDuration := some n }, ?_,
    rfl, fresh_repeat (s := s) h, fun _ => rfl, (fun h => by cases h), rfl⟩
  show cellAttrs fl s [("office:value-type".toList, "time".toList), ("office:time-value".toList, fmtDuration d)] = _
  rw [cellAttrs, cellAttr_type fl s _ .timeDuration (by decide)]
  simp only
  rw [cellAttrs_one, cellAttr, key_time]
  simp only
  unfold readDuration
  rw [hd]
  rfl

/-! ## The whole cell -/

/-- `is_void` and `is_empty` in terms of what a user sees. -/
def voidExtra (c : CellContent) : Bool :=
  c.span.isEmpty && c.validation.isNone && c.annotation.isNone && c.drawFrames.isEmpty
    && c.matrixSpan.isEmpty

theorem isVoidExtra_content (c : CellData) : c.isVoidExtra = voidExtra c.toContent := by
  obtain ⟨v, f, st, r, e⟩ := c
  cases e with
  | none => rfl
  | some e => rfl

/-- Dropping a cell in terms of what a user sees. -/
def ignoreContent (ignoreEmpty : Bool) (colStyle : Option String) (c : CellContent) : Bool :=
  (decide (c.value = .empty) && c.formula.isNone && !(c.style.isSome && decide (c.style ≠ colStyle)) && voidExtra c)
    || (ignoreEmpty && (decide (c.value = .empty) && c.formula.isNone && voidExtra c))

theorem ignoreCell_content (ie : Bool) (cs : Option String) (c : CellData) :
    ignoreCell ie cs c = ignoreContent ie cs c.toContent := by
  unfold ignoreCell ignoreContent CellData.isVoid CellData.isEmpty
  rw [isVoidExtra_content]
  rfl

theorem finish_read (ie : Bool) (cs : Option String) (s : CellState) (t : TextContent) (v : Option Value)
    (x : CellContent) (rep : Nat) (hx : s.content = x) (hxv : x.value = .empty) (hr : s.repeat = rep)
    (hv : setValue s t = .ok v) (hsome : v ≠ none → s.cell.isSome = true) :
    ∃ r, finishCell ie cs s t = .ok r
      ∧ r.map CellData.toContent =
        if ignoreContent ie cs { x with value := v.getD .empty } then none
        else some { x with value := v.getD .empty, «repeat» := rep } := by
  unfold finishCell
  cases hc : s.cell with
  | none =>
    refine ⟨none, rfl, ?_⟩
    have hv0 : v = none := by
      cases v with
      | none => rfl
      | some w =>
        have := hsome (by simp)
        rw [hc] at this
        cases this
    subst hv0
    have hx' : x = ({} : CellData).toContent := by
      rw [← hx]; unfold CellState.content; rw [hc]; rfl
    subst hx'
    have : ignoreContent ie cs { ({} : CellData).toContent with value := .empty } = true := by
      unfold ignoreContent
      have h1 : (CellData.toContent {}).style.isSome = false := rfl
      have h2 : voidExtra { (CellData.toContent {}) with value := .empty } = true := by decide
      simp only [h1, h2]
      simp
      exact .inl rfl
    simp only [Option.getD_none]
    rw [this]
    rfl
  | some c =>
    simp only [hv]
    have hx' : c.toContent = x := by
      rw [← hx]; unfold CellState.content; rw [hc]; rfl
    have hcv : c.value = .empty := by rw [← hxv, ← hx']; rfl
    refine ⟨_, rfl, ?_⟩
    rw [ignoreCell_content, hcv]
    have he : ({ c with value := v.getD .empty } : CellData).toContent
        = { x with value := v.getD .empty } := by rw [← hx']; rfl
    rw [he]
    split
    · rfl
    · show some (({ c with value := v.getD .empty, «repeat» := s.repeat } : CellData).toContent) = _
      rw [← hx', hr]
      rfl

/-- The value does not depend on the cell. -/
theorem setValue_others {s s' : CellState} (h : s'.others = s.others) (t : TextContent) :
    setValue s' t = setValue s t := by
  obtain ⟨c, r, a1, a2, a3, a4, a5, a6, a7⟩ := s
  obtain ⟨c', r', b1, b2, b3, b4, b5, b6, b7⟩ := s'
  unfold CellState.others at h
  simp only [CellState.mk.injEq, true_and] at h
  obtain ⟨_, rfl, rfl, rfl, rfl, rfl, rfl, rfl⟩ := h
  rfl

theorem note_state (s : CellState) (o : Option Annotation) :
    (s.note o).others = s.others ∧ (s.cell.isSome = true → (s.note o).cell.isSome = true)
      ∧ (s.note o).content = { s.content with annotation := o.or s.content.annotation } := by
  cases o with
  | none => exact ⟨rfl, id, rfl⟩
  | some a => exact ⟨rfl, fun _ => rfl, rfl⟩

theorem frames_state (l : List DrawFrame) : ∀ s : CellState,
    (s.frames l).others = s.others ∧ (s.cell.isSome = true → (s.frames l).cell.isSome = true)
      ∧ (s.frames l).content = { s.content with drawFrames := s.content.drawFrames ++ l } := by
  induction l with
  | nil =>
    intro s
    refine ⟨rfl, id, ?_⟩
    rw [List.append_nil]
    rfl
  | cons f l ih =>
    intro s
    obtain ⟨h1, h2, h3⟩ := ih (s.updateExt fun e => { e with drawFrames := e.drawFrames ++ [f] })
    refine ⟨h1, fun _ => h2 rfl, ?_⟩
    refine h3.trans ?_
    have : (s.updateExt fun e => { e with drawFrames := e.drawFrames ++ [f] }).content
        = { s.content with drawFrames := s.content.drawFrames ++ [f] } := rfl
    rw [this]
    simp

/-- The body of a cell. -/
theorem cell_read (fl : Floats) (defStyle : ValueType → Option String) (c : CellData) (hidden : Bool)
    (rep : Nat) (lb ie : Bool) (cs : Option String) (t : TextContent) (v' : Option Value)
    (hp : NotesOk lb c) (h1 : 1 ≤ rep) (h2 : rep ≤ 4294967295) (hs : SpanOk (c.extra.getD {}).span)
    (hm : SpanOk (c.extra.getD {}).matrixSpan)
    (hpc : Pieces (cellTag hidden) ((valueBody fl c.value).flatMap (itemToks lb)) .empty t)
    (hvr : ValueReads fl c.value t v') (hv0 : c.value = .empty → t = .empty ∧ v' = none) (r : List Tok) :
    ∃ x, readCellNext fl ie cs (events ((cellItems fl defStyle c hidden rep).flatMap (itemToks lb) ++ r))
        = .ok (⟨rep, x⟩, events ((nl lb).map Tok.chr ++ r))
      ∧ x.map CellData.toContent =
        if ignoreContent ie cs { headContent defStyle c with value := v'.getD .empty } then none
        else some { headContent defStyle c with value := v'.getD .empty, «repeat» := rep } := by
  obtain ⟨s, a1, a2, a3⟩ := head_read fl defStyle c rep h1 h2 hs hm
  obtain ⟨s', b1, b2, b3, b4, b5, b6⟩ := hvr s rep a3
  have hall : cellAttrs fl {} (rawAttrs (headAtts defStyle c rep ++ valueAtts fl c.value)) = .ok s' := by
    rw [rawAttrs_append, cellAttrs_append, a1]
    exact b1
  -- the state at the end
  obtain ⟨s2, hs2⟩ : ∃ s2, s2 = (s'.note ((c.extra.getD {}).annotation.map annBack)).frames
    ((c.extra.getD {}).drawFrames.map frameBack) := ⟨_, rfl⟩
  obtain ⟨n1, n2, n3⟩ := note_state s' ((c.extra.getD {}).annotation.map annBack)
  obtain ⟨m1, m2, m3⟩ := frames_state ((c.extra.getD {}).drawFrames.map frameBack)
    (s'.note ((c.extra.getD {}).annotation.map annBack))
  rw [← hs2] at m1 m2 m3
  have hoth : s2.others = s'.others := m1.trans n1
  have hrep : s2.repeat = rep := by
    rw [← b3]
    exact (congrArg CellState.repeat hoth : s2.others.repeat = s'.others.repeat)
  have hcont : s2.content = headContent defStyle c := by
    rw [m3, n3, b2, a2]
    simp [startContent, headContent]
  have hset : setValue s2 t = .ok v' := by rw [setValue_others hoth, b6]
  obtain ⟨x, f1, f2⟩ := finish_read ie cs s2 t v' (headContent defStyle c) rep hcont rfl hrep hset
    (by
      intro hne
      apply m2
      apply n2
      apply b4
      intro he
      exact hne (hv0 he).2)
  refine ⟨x, ?_, f2⟩
  by_cases hsub : hasSubs c = true
  · unfold cellItems
    rw [if_pos hsub]
    have htok : ((Item.start true (cellTag hidden) (headAtts defStyle c rep ++ valueAtts fl c.value))
        :: (valueBody fl c.value ++ noteItems c ++ [Item.end true (cellTag hidden)])).flatMap (itemToks lb) ++ r
        = .start (cellTag hidden) (rawAttrs (headAtts defStyle c rep ++ valueAtts fl c.value))
          :: ((valueBody fl c.value).flatMap (itemToks lb) ++ ((noteItems c).flatMap (itemToks lb)
            ++ .end (cellTag hidden) :: ((nl lb).map Tok.chr ++ r))) := by
      simp [itemToks]
    rw [htok]
    show readCellNext fl ie cs (.start (cellTag hidden) (rawAttrs _) :: events _) = _
    unfold readCellNext readTableCell
    simp only
    rw [hall]
    simp only [Bool.false_eq_true, if_false]
    rw [cellLoop_pieces hpc c hp s']
    simp only
    rw [← hs2, f1]
    simp only
    rw [hrep]
  · unfold cellItems
    rw [if_neg hsub]
    obtain ⟨hv, ha, hf⟩ := not_hasSubs c hsub
    have hs3 : s2 = s' := by rw [hs2, ha, hf]; rfl
    rw [hs3] at f1
    show readCellNext fl ie cs (.empty (cellTag hidden) (rawAttrs _) :: events _) = _
    unfold readCellNext readTableCell
    simp only
    rw [hall]
    simp only [if_true]
    rw [← (hv0 hv).1, f1]
    simp only
    rw [b3]
    simp [itemToks]

end Verif.Codec
