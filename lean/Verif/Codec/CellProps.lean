import Verif.Codec.CellRead
import Verif.Codec.TimeProps
import Verif.Xml.Props

/-!
# C26, C27, C29: a cell after writing and reading

The text of the cell is written with the XML writer, split into tokens, and read with the cell reader.
-/

set_option autoImplicit false

namespace Verif.Codec

open Xml Xml.Spec

/-! ## Specification -/

/-- The text of a cell. -/
def cellXml (fl : Floats) (defStyle : ValueType → Option String) (c : CellData) (hidden : Bool)
    (rep : Nat) (lb : Bool) : Str :=
  output lb (writeCell fl defStyle c hidden rep)

/-- What is read from the text of a cell: the number of repeats and, if it is kept, the cell. -/
def readBack (fl : Floats) (ignoreEmpty : Bool) (colStyle : Option String) (text : Str) :
    Option (Nat × Option CellContent) :=
  match tokenize text with
  | none => none
  | some ts =>
    match readCellNext fl ignoreEmpty colStyle (events ts) with
    | .error _ => none
    | .ok (r, _) => some (r.repeat, r.cell.map CellData.toContent)

/-- Nothing in the cell but, maybe, a style that does not count: that of the column, or any if the reader
was told to ignore empty cells. -/
def Bare (ignoreEmpty : Bool) (colStyle : Option String) (x : CellContent) : Prop :=
  x.value = .empty ∧ x.formula = none ∧ x.validation = none ∧ x.annotation = none ∧ x.drawFrames = []
    ∧ x.span = {} ∧ x.matrixSpan = {}
    ∧ (ignoreEmpty = true ∨ x.style = none ∨ x.style = colStyle)

/-- The values that come back as they are. -/
def ValueKept (fl : Floats) (lb : Bool) : Value → Prop
  | .empty => True
  | .boolean _ => True
  | .number f => FloatOk fl f
  | .percentage f => FloatOk fl f
  | .currency f sym => FloatOk fl f ∧ Plain sym
  | .text s => s ≠ [] ∧ '\n' ∉ s
  | .textXml t => lb = false ∧ ParagraphsOk t
  | .dateTime d => ValidDateTime d ∧ d.year ≤ 9999
  | .timeDuration d => ∃ n : Nat, d = n ∧ n ≤ maxDuration ∧ n % 10 ^ 6 = 0
      ∧ (n / 10 ^ 6 % 1000 = 0 ∨ 100 ≤ n / 10 ^ 6 % 1000)

/-- The texts of an annotation and of the images of a frame have no empty or adjacent pieces and no markup
characters. -/
def NotesKept (c : CellData) : Prop :=
  (∀ a, (c.extra.getD {}).annotation = some a → ∀ x ∈ a.text, TextsApartIn x)
    ∧ ∀ f ∈ (c.extra.getD {}).drawFrames, ∀ i ∈ f.images, ∀ x ∈ i.text, TextsApartIn x

/-- Cells within the range of their types, with annotation and frames that can be written and read. -/
structure CellOk (lb : Bool) (c : CellData) : Prop where
  notes : NotesOk lb c
  kept : NotesKept c
  span : SpanOk (c.extra.getD {}).span
  matrix : SpanOk (c.extra.getD {}).matrixSpan

theorem cellOk_plain (lb : Bool) (c : CellData) (ha : (c.extra.getD {}).annotation = none)
    (hd : (c.extra.getD {}).drawFrames = []) (hs : SpanOk (c.extra.getD {}).span)
    (hm : SpanOk (c.extra.getD {}).matrixSpan) : CellOk lb c := by
  refine ⟨⟨?_, ?_⟩, ⟨?_, ?_⟩, hs, hm⟩
  · intro a h; rw [ha] at h; cases h
  · intro f h; rw [hd] at h; cases h
  · intro a h; rw [ha] at h; cases h
  · intro f h; rw [hd] at h; cases h

/-! ## Values -/

/-- The value `v` is read as `v'`. -/
def ValueBack (fl : Floats) (lb : Bool) (v v' : Value) : Prop :=
  Writable fl v ∧ ∀ tag, ∃ t w, Pieces tag ((valueBody fl v).flatMap (itemToks lb)) .empty t
    ∧ ValueReads fl v t w ∧ w.getD .empty = v' ∧ (v = .empty → t = .empty ∧ w = none)

theorem ignoreContent_iff (ie : Bool) (cs : Option String) (x : CellContent) :
    ignoreContent ie cs x = true ↔ Bare ie cs x := by
  obtain ⟨v, st, f, r, va, ⟨a, b⟩, ⟨c, d⟩, an, df⟩ := x
  have hsp : ∀ a b : Nat, (CellSpan.isEmpty ⟨a, b⟩ = true ↔ (⟨a, b⟩ : CellSpan) = {}) := by
    intro a b
    unfold CellSpan.isEmpty
    simp only [Bool.and_eq_true, beq_iff_eq, CellSpan.mk.injEq]
  unfold ignoreContent Bare voidExtra
  simp only [Bool.or_eq_true, Bool.and_eq_true, decide_eq_true_eq, Option.isNone_iff_eq_none,
    List.isEmpty_iff, hsp, Bool.not_eq_true', Bool.and_eq_false_iff, decide_eq_false_iff_not, ne_eq,
    Decidable.not_not, Option.isSome_eq_false_iff]
  constructor
  · rintro (⟨⟨⟨h1, h2⟩, h3⟩, ⟨⟨⟨h4, h5⟩, h6⟩, h7⟩, h8⟩ | ⟨h0, ⟨h1, h2⟩, ⟨⟨⟨h4, h5⟩, h6⟩, h7⟩, h8⟩)
    · exact ⟨h1, h2, h5, h6, h7, h4, h8, .inr h3⟩
    · exact ⟨h1, h2, h5, h6, h7, h4, h8, .inl h0⟩
  · rintro ⟨h1, h2, h5, h6, h7, h4, h8, h3 | h3⟩
    · exact .inr ⟨h3, ⟨h1, h2⟩, ⟨⟨⟨h4, h5⟩, h6⟩, h7⟩, h8⟩
    · exact .inl ⟨⟨⟨h1, h2⟩, h3⟩, ⟨⟨⟨h4, h5⟩, h6⟩, h7⟩, h8⟩

theorem lastItem (fl : Floats) (defStyle : ValueType → Option String) (c : CellData) (hidden : Bool)
    (rep : Nat) : ∀ i ∈ (cellItems fl defStyle c hidden rep).getLast?, ¬ i.Opens := by
  unfold cellItems
  split
  · intro i hi
    rw [← List.cons_append, List.getLast?_append] at hi
    have : i = .end true (cellTag hidden) := by simpa using hi.symm
    subst this; exact id
  · intro i hi
    have : i = .noEnd (cellTag hidden) := by simpa using hi.symm
    subst this; exact id

theorem norm_apart (x : Node) (h : TextsApartIn x) : norm x = x := by
  cases x with
  | text s => rw [norm]
  | tag n as c =>
    rw [norm]
    have := norms_apart _ c (Nat.le_refl _) h.1 h.2
    rw [this]

theorem map_same {α : Type} (f : α → α) (l : List α) (h : ∀ x ∈ l, f x = x) : l.map f = l := by
  induction l with
  | nil => rfl
  | cons a l ih =>
    rw [List.map_cons, h a List.mem_cons_self, ih (fun x hx => h x (List.mem_cons_of_mem _ hx))]

theorem notes_back (c : CellData) (h : NotesKept c) :
    (c.extra.getD {}).annotation.map annBack = (c.extra.getD {}).annotation
    ∧ (c.extra.getD {}).drawFrames.map frameBack = (c.extra.getD {}).drawFrames := by
  constructor
  · cases ha : (c.extra.getD {}).annotation with
    | none => rfl
    | some a =>
      show some (annBack a) = some a
      unfold annBack
      rw [map_same norm a.text (fun x hx => norm_apart x (h.1 a ha x hx))]
  · apply map_same
    intro f hf
    unfold frameBack
    rw [map_same imageBack f.images ?_]
    intro i hi
    unfold imageBack
    rw [map_same norm i.text (fun x hx => norm_apart x (h.2 f hf i hi x hx))]

/-- The content of a cell without notes is that of the cell. -/
theorem head_kept (defStyle : ValueType → Option String) (c : CellData) (h : NotesKept c) :
    headContent defStyle c = { c.toContent with value := .empty, style := outStyle defStyle c, «repeat» := 1 } := by
  obtain ⟨h1, h2⟩ := notes_back c h
  unfold headContent
  rw [h1, h2]
  rfl

/-- The cell, in general. -/
theorem cell_back_notes (fl : Floats) (defStyle : ValueType → Option String) (c : CellData) (hidden : Bool)
    (rep : Nat) (lb ie : Bool) (cs : Option String) (v' : Value) (hn : NotesOk lb c)
    (hs : SpanOk (c.extra.getD {}).span) (hm : SpanOk (c.extra.getD {}).matrixSpan) (h1 : 1 ≤ rep)
    (h2 : rep ≤ 4294967295) (hv : ValueBack fl lb c.value v') (x : CellContent)
    (hx : x = { headContent defStyle c with value := v', «repeat» := rep }) :
    (Bare ie cs x → readBack fl ie cs (cellXml fl defStyle c hidden rep lb) = some (rep, none))
    ∧ (¬ Bare ie cs x → readBack fl ie cs (cellXml fl defStyle c hidden rep lb) = some (rep, some x)) := by
  obtain ⟨hw, hv⟩ := hv
  obtain ⟨t, w, hp, hr, hwv, h0⟩ := hv (cellTag hidden)
  obtain ⟨r, a1, a2⟩ := cell_read fl defStyle c hidden rep lb ie cs t w hn h1 h2 hs hm hp hr h0 []
  have htok : tokenize (cellXml fl defStyle c hidden rep lb)
      = some ((cellItems fl defStyle c hidden rep).flatMap (itemToks lb)) := by
    unfold cellXml
    rw [← cellItems_calls fl defStyle c hidden rep]
    exact tok_fragment lb _ (cellItems_valid fl defStyle c hidden lb rep hw hn)
      (lastItem fl defStyle c hidden rep)
  rw [List.append_nil] at a1
  have hb : readBack fl ie cs (cellXml fl defStyle c hidden rep lb)
      = some (rep, r.map CellData.toContent) := by
    unfold readBack
    rw [htok]
    simp only
    rw [a1]
  rw [hwv] at a2
  have hbare : ignoreContent ie cs { headContent defStyle c with value := v' } = true ↔ Bare ie cs x := by
    rw [ignoreContent_iff, hx]
    exact Iff.rfl
  rw [← hx] at a2
  rw [hb, a2]
  constructor
  · intro h; rw [if_pos (hbare.2 h)]
  · intro h; rw [if_neg (fun h' => h (hbare.1 h'))]

/-- The cell, with annotation and frames that are kept. -/
theorem cell_back (fl : Floats) (defStyle : ValueType → Option String) (c : CellData) (hidden : Bool)
    (rep : Nat) (lb ie : Bool) (cs : Option String) (v' : Value) (hc : CellOk lb c) (h1 : 1 ≤ rep)
    (h2 : rep ≤ 4294967295) (hv : ValueBack fl lb c.value v') (x : CellContent)
    (hx : x = { c.toContent with value := v', style := outStyle defStyle c, «repeat» := rep }) :
    (Bare ie cs x → readBack fl ie cs (cellXml fl defStyle c hidden rep lb) = some (rep, none))
    ∧ (¬ Bare ie cs x → readBack fl ie cs (cellXml fl defStyle c hidden rep lb) = some (rep, some x)) :=
  cell_back_notes fl defStyle c hidden rep lb ie cs v' hc.notes hc.span hc.matrix h1 h2 hv x
    (by rw [head_kept defStyle c hc.kept]; exact hx)

theorem splitLines_one (s : Str) (h : '\n' ∉ s) : splitLines s = [s] := by
  induction s with
  | nil => rfl
  | cons c s ih =>
    have h1 : c ≠ '\n' := fun e => h (by rw [e]; exact List.mem_cons_self)
    have h2 : '\n' ∉ s := fun e => h (List.mem_cons_of_mem _ e)
    rw [splitLines, if_neg h1, ih h2]

theorem back_text (fl : Floats) (lb : Bool) (s : Str) :
    ValueBack fl lb (.text s) ((linesValue (splitLines s)).getD .empty) := by
  refine ⟨trivial, fun tag => ⟨appendLines .empty (splitLines s), _, ?_, value_text fl s _,
    by rw [appendLines_value], fun h => by cases h⟩⟩
  have : (valueBody fl (.text s)).flatMap (itemToks lb) = (splitLines s).flatMap (paraToks lb) := by
    show ((splitLines s).map _).flatMap _ = _
    rw [List.flatMap_map]
    congr 1
  rw [this]
  exact pieces_lines tag lb _ _

theorem pieces_p (tag : Str) (lb : Bool) (s : Str) (h : Plain s) :
    Pieces tag ((pItems s).flatMap (itemToks lb)) .empty (lineContent s) := by
  rw [pItems_toks lb s h]
  have := pieces_lines tag lb [s] .empty
  simp only [List.flatMap_cons, List.flatMap_nil, List.append_nil] at this
  exact this

theorem back_number (fl : Floats) (lb : Bool) (f : F64) (h : FloatOk fl f) :
    ValueBack fl lb (.number f) (.number f) :=
  ⟨h.1, fun tag => ⟨_, _, pieces_p tag lb _ h.1, value_number fl f h _, rfl, fun h => by cases h⟩⟩

theorem back_percentage (fl : Floats) (lb : Bool) (f : F64) (h : FloatOk fl f) :
    ValueBack fl lb (.percentage f) (.percentage f) :=
  ⟨h.1, fun tag => ⟨_, _, pieces_p tag lb _ h.1, value_percentage fl f h _, rfl, fun h => by cases h⟩⟩

theorem back_bool (fl : Floats) (lb : Bool) (b : Bool) : ValueBack fl lb (.boolean b) (.boolean b) :=
  ⟨trivial, fun tag => ⟨_, _, pieces_p tag lb _ (plain_bool b), value_bool fl b _, rfl, fun h => by cases h⟩⟩

theorem back_dateTime (fl : Floats) (lb : Bool) (d d' : DateTime)
    (h : parseDateTime (fmtDateTime d) = some d') : ValueBack fl lb (.dateTime d) (.dateTime d') :=
  ⟨trivial, fun tag => ⟨_, _, pieces_p tag lb _ (plain_dateTime d), value_dateTime fl d d' h _, rfl,
    fun h => by cases h⟩⟩

theorem back_duration (fl : Floats) (lb : Bool) (d : Int) (n : Nat)
    (h : parseDuration (fmtDuration d) = .ok n) : ValueBack fl lb (.timeDuration d) (.timeDuration n) :=
  ⟨trivial, fun tag => ⟨_, _, pieces_p tag lb _ (plain_duration d), value_duration fl d n h _, rfl,
    fun h => by cases h⟩⟩

theorem back_currency (fl : Floats) (lb : Bool) (f : F64) (sym : Str) (h : FloatOk fl f) :
    ValueBack fl lb (.currency f sym) (.currency f (escape sym)) := by
  refine ⟨h.1, fun tag => ⟨lineContent (sym ++ " ".toList ++ fl.fmt f), _, ?_, value_currency fl f sym h _, rfl,
    fun h => by cases h⟩⟩
  have e : (valueBody fl (.currency f sym)).flatMap (itemToks lb) = paraToks lb (sym ++ " ".toList ++ fl.fmt f) := by
    have h1 : (" ".toList).map escTok = (" ".toList).map Tok.chr := by decide
    simp only [valueBody, itemToks, paraToks, List.flatMap_cons, List.flatMap_nil, List.map_append,
      escTok_plain_map _ h.1, h1, rawAttrs]
    simp
  rw [e]
  have := pieces_lines tag lb [sym ++ " ".toList ++ fl.fmt f] .empty
  simp only [List.flatMap_cons, List.flatMap_nil, List.append_nil] at this
  exact this

theorem back_empty (fl : Floats) (lb : Bool) : ValueBack fl lb .empty .empty :=
  ⟨trivial, fun _ => ⟨.empty, none, Pieces.nil _, value_empty fl _, rfl, fun _ => ⟨rfl, rfl⟩⟩⟩

theorem back_kept (fl : Floats) (lb : Bool) (v : Value) (h : ValueKept fl lb v) : ValueBack fl lb v v := by
  cases v with
  | empty => exact back_empty fl lb
  | boolean b => exact back_bool fl lb b
  | number f => exact back_number fl lb f h
  | percentage f => exact back_percentage fl lb f h
  | currency f sym =>
    have := back_currency fl lb f sym h.1
    rw [Xml.C30_plain_unchanged sym h.2] at this
    exact this
  | text s =>
    have := back_text fl lb s
    rw [splitLines_one s h.2] at this
    have h1 : linesValue [s] = some (.text s) := by
      unfold linesValue
      rw [List.dropWhile_cons_of_neg (by
        cases s with
        | nil => exact absurd rfl h.1
        | cons c s => simp [blank])]
    rw [h1] at this
    exact this
  | textXml t =>
    obtain ⟨rfl, h⟩ := h
    refine ⟨paragraphs_names t h, fun tag => ?_⟩
    obtain ⟨c, h1, h2⟩ := pieces_paragraphs tag t h
    exact ⟨c, _, h1, value_textXml fl t c, by rw [h2]; rfl, fun h => by cases h⟩
  | dateTime d => exact back_dateTime fl lb d d (C62_datetime_partial d h.1 h.2)
  | timeDuration d =>
    obtain ⟨n, rfl, h1, h2⟩ := h
    exact back_duration fl lb n n ((C28_roundtrip_partial n h1).2 h2)

/-! ## C26 -/

/-- C26, exactly, for the values that are kept: the cell comes back with its value, formula, validation,
annotation, frames and spans and the number of repeats it was written with; its style is its own or, if it has none, the default
style of the workbook for the type of its value.  A bare cell is dropped. -/
theorem C26_exact (fl : Floats) (defStyle : ValueType → Option String) (c : CellData) (hidden : Bool)
    (rep : Nat) (lb ie : Bool) (cs : Option String) (hc : CellOk lb c) (h1 : 1 ≤ rep)
    (h2 : rep ≤ 4294967295) (hv : ValueKept fl lb c.value) (x : CellContent)
    (hx : x = { c.toContent with style := outStyle defStyle c, «repeat» := rep }) :
    (Bare ie cs x → readBack fl ie cs (cellXml fl defStyle c hidden rep lb) = some (rep, none))
    ∧ (¬ Bare ie cs x → readBack fl ie cs (cellXml fl defStyle c hidden rep lb) = some (rep, some x)) :=
  cell_back fl defStyle c hidden rep lb ie cs c.value hc h1 h2 (back_kept fl lb c.value hv) x hx

/-- **C26** (part): what a user sees of a cell — value, formula, style, validation,
annotation, frames and spans — is the same after writing and reading.  Missing: annotations and frames that are
not in `NotesOk` and `NotesKept` (see the counterexamples for C66 and C67), the values not in `ValueKept`
(see the counterexamples here and for C27, C28, C29, C62), and cells without style when the workbook has a
default style for their type. -/
theorem C26_cell_partial (fl : Floats) (defStyle : ValueType → Option String) (c : CellData) (hidden : Bool)
    (lb ie : Bool) (cs : Option String) (hc : CellOk lb c) (h1 : 1 ≤ c.repeat)
    (h2 : c.repeat ≤ 4294967295) (hv : ValueKept fl lb c.value)
    (hst : c.style ≠ none ∨ defStyle (Value.valueType c.value) = none) (hb : ¬ Bare ie cs c.toContent) :
    readBack fl ie cs (cellXml fl defStyle c hidden c.repeat lb) = some (c.repeat, some c.toContent) := by
  have ho : outStyle defStyle c = c.style := by
    unfold outStyle
    cases hs : c.style with
    | some s => rfl
    | none =>
      rcases hst with h | h
      · exact absurd hs h
      · exact h
  have hx : c.toContent = { c.toContent with style := outStyle defStyle c, «repeat» := c.repeat } := by
    rw [ho]; rfl
  exact (C26_exact fl defStyle c hidden c.repeat lb ie cs hc h1 h2 hv c.toContent hx).2 hb

/-- Concrete case: a text with markup, formula, style, validation, spans, an annotation and a picture, three
times. -/
def demoCell : CellData :=
  { value := .text "a < b & \"c\"".toList, formula := some "of:=[.A1]&\"x\"".toList, style := some "ce<1>"
    «repeat» := 3
    extra := some
      { validation := some "val1", span := ⟨2, 3⟩
        annotation := some
          { name := "n<1>".toList, display := true, creator := some "A & B".toList
            date := some ⟨2024, 2, 29, 12, 30, 15, 0⟩
            text := [textP "see".toList, .tag tPara [] [.text "a ".toList, .tag "text:span".toList [] [.text "b".toList]]]
            attrs := [("svg:width".toList, "2cm".toList)] }
        drawFrames :=
          [{ attrs := [("draw:z-index".toList, "0".toList)], title := some "t<".toList, desc := some []
             images := [{ attrs := [("xlink:href".toList, "Pictures/a&b.png".toList)] },
                        { binary := some "aGVsbG8".toList, text := [textP "p".toList] }] }] } }

theorem demoPara_ok (s : Str) (h1 : s ≠ []) (h2 : Plain s) : NodeOk (textP s) ∧ TextsApartIn (textP s) :=
  ⟨⟨tPara, [], [.text s], rfl, .inr rfl, ⟨by decide, (by intro a h; cases h), trivial, trivial⟩, ⟨trivial, trivial⟩⟩,
    ⟨h1, h2, (by intro t r h; cases h), trivial⟩, trivial, trivial⟩

theorem demoCell_ok : CellOk false demoCell := by
  refine ⟨⟨?_, ?_⟩, ⟨?_, ?_⟩, ?_, ?_⟩
  · rintro a ⟨⟩
    refine ⟨?_, ?_, ?_, .inl rfl⟩
    · intro x hx
      simp only [List.mem_cons, List.not_mem_nil, or_false] at hx
      subst hx
      decide
    · rintro d ⟨⟩
      unfold ValidDateTime
      decide
    · intro x hx
      simp only [List.mem_cons, List.not_mem_nil, or_false] at hx
      rcases hx with rfl | rfl
      · exact (demoPara_ok _ (by decide) (by decide)).1
      · refine ⟨tPara, _, _, rfl, .inr rfl, ?_, ?_⟩
        · exact ⟨by decide, (by intro a h; cases h), trivial, ⟨by decide, (by intro a h; cases h), trivial, trivial⟩, trivial⟩
        · exact ⟨trivial, ⟨by decide, trivial, trivial⟩, trivial⟩
  · intro f hf
    have : f = _ := List.mem_singleton.1 hf
    subst this
    refine ⟨?_, ?_⟩
    · intro x hx
      simp only [List.mem_cons, List.not_mem_nil, or_false] at hx
      subst hx
      decide
    · intro i hi
      simp only [List.mem_cons, List.not_mem_nil, or_false] at hi
      rcases hi with rfl | rfl
      · refine ⟨?_, (by intro b h; cases h), (by intro x h; cases h), .inl rfl⟩
        intro x hx
        simp only [List.mem_cons, List.not_mem_nil, or_false] at hx
        subst hx
        decide
      · refine ⟨(by intro x h; cases h), ?_, ?_, .inl rfl⟩
        · rintro b ⟨⟩
          decide
        · intro x hx
          have : x = _ := List.mem_singleton.1 hx
          subst this
          exact (demoPara_ok _ (by decide) (by decide)).1
  · rintro a ⟨⟩ x hx
    simp only [List.mem_cons, List.not_mem_nil, or_false] at hx
    rcases hx with rfl | rfl
    · exact (demoPara_ok _ (by decide) (by decide)).2
    · exact ⟨⟨by decide, by decide, (by intro t r h; cases h), trivial⟩,
        trivial, ⟨⟨by decide, by decide, (by intro t r h; cases h), trivial⟩, trivial, trivial⟩, trivial⟩
  · intro f hf i hi x hx
    have : f = _ := List.mem_singleton.1 hf
    subst this
    simp only [List.mem_cons, List.not_mem_nil, or_false] at hi
    rcases hi with rfl | rfl
    · cases hx
    · have : x = _ := List.mem_singleton.1 hx
      subst this
      exact (demoPara_ok _ (by decide) (by decide)).2
  all_goals (unfold SpanOk; decide)

example (fl : Floats) (defStyle : ValueType → Option String) :
    readBack fl true (some "ce<1>") (cellXml fl defStyle demoCell false 3 false)
      = some (3, some demoCell.toContent) :=
  C26_cell_partial fl defStyle demoCell false false true _ demoCell_ok (by decide) (by decide)
    ⟨by decide, by decide⟩ (.inl (by decide)) (fun h => absurd h.2.1 (by decide))

/-- Concrete case: two paragraphs, one with a tag in it. -/
example (fl : Floats) : ValueKept fl false (.textXml
    [textP "first".toList, .tag pName [("text:style-name".toList, "P1".toList)]
      [.text "a ".toList, .tag "text:span".toList [] [.text "b".toList]]]) := by
  refine ⟨rfl, ?_⟩
  intro x hx
  simp only [List.mem_cons, List.not_mem_nil, or_false] at hx
  rcases hx with rfl | rfl
  · exact .inr ⟨_, by decide, rfl⟩
  · refine .inl ⟨_, _, rfl, trivial, ?_, ?_, ?_, ?_⟩
    · exact ⟨by decide, by decide, (by intro t r h; cases h), trivial⟩
    · exact ⟨trivial, ⟨⟨by decide, by decide, (by intro t r h; cases h), trivial⟩, trivial, trivial⟩, trivial⟩
    · exact ⟨trivial, ⟨by decide, trivial, trivial⟩, trivial⟩
    · exact ⟨by decide, by decide, trivial, ⟨by decide, (by intro a h; cases h), trivial, trivial⟩, trivial⟩

/-- A printer and parser of doubles for the counterexamples: the bits as a number. -/
def bitFloats : Floats := ⟨fun f => decNat f.bits.toNat, fun s => (parseU32 s).map (fun n => ⟨BitVec.ofNat 64 n⟩)⟩

/-- C26 fails if the workbook has a default style for the type of the value: a cell without style comes
back with this style. -/
theorem C26_style_counterexample :
    readBack bitFloats false none (cellXml bitFloats (fun _ => some "default-text") { value := .boolean true }
      false 1 false)
      = some (1, some { ({ value := .boolean true } : CellData).toContent with style := some "default-text" }) := by
  decide +kernel

/-- C26 fails for a `TextXml` of one paragraph that is only text: it comes back as `Text`. -/
theorem C26_textXml_counterexample :
    readBack bitFloats false none (cellXml bitFloats (fun _ => none) { value := .textXml [textP "a".toList] }
      false 1 false)
      = some (1, some ({ value := .text "a".toList } : CellData).toContent) := by
  decide +kernel

/-- C26 fails for a `TextXml` whose tag is not a paragraph: it is lost, and with it the cell. -/
theorem C26_notParagraph_counterexample :
    readBack bitFloats false none (cellXml bitFloats (fun _ => none)
      { value := .textXml [.tag "text:h".toList [] [.text "a".toList]] } false 1 false)
      = some (1, none) := by
  decide +kernel

/-- C26 fails for the attributes of a paragraph that is only text. -/
theorem C26_attributes_counterexample :
    readBack bitFloats false none (cellXml bitFloats (fun _ => none)
      { value := .textXml [.tag pName [("text:style-name".toList, "P1".toList)] [.text "a".toList], textP "b".toList] }
      false 1 false)
      = some (1, some ({ value := .textXml [textP "a".toList, textP "b".toList] } : CellData).toContent) := by
  decide +kernel

/-! ## C27 -/

/-- The lines of a text: joined with line breaks they are the text, and there is no line break in them. -/
theorem splitLines_join (s : Str) :
    List.intercalate ['\n'] (splitLines s) = s ∧ (∀ l ∈ splitLines s, '\n' ∉ l) ∧ splitLines s ≠ [] := by
  induction s with
  | nil => exact ⟨rfl, by simp [splitLines], by simp [splitLines]⟩
  | cons c s ih =>
    obtain ⟨h1, h2, h3⟩ := ih
    rw [splitLines]
    cases hs : splitLines s with
    | nil => exact absurd hs h3
    | cons l ls =>
      rw [hs] at h1 h2
      split
      · rename_i hc
        refine ⟨?_, ?_, by simp⟩
        · subst hc
          rw [← h1]
          simp [List.intercalate, List.intersperse]
        · intro m hm
          rcases List.mem_cons.1 hm with rfl | hm
          · simp
          · exact h2 m hm
      · rename_i hc
        refine ⟨?_, ?_, by simp⟩
        · rw [← h1]
          cases ls <;> simp [List.intercalate, List.intersperse]
        · intro m hm
          rcases List.mem_cons.1 hm with rfl | hm
          · intro h
            rcases List.mem_cons.1 h with h | h
            · exact hc h.symm
            · exact h2 l List.mem_cons_self h
          · exact h2 m (List.mem_cons_of_mem _ hm)

/-- The value a text is read as: the blank lines in front are dropped; then one line is a text, no line is
an empty cell, and more lines are paragraphs, without the blank ones. -/
def textBack (s : Str) : Value :=
  match (splitLines s).dropWhile (fun l => l.isEmpty) with
  | [] => .empty
  | [l] => .text l
  | l :: ls => .textXml ((l :: ls.filter (fun l => !l.isEmpty)).map fun l => .tag pName [] [.text l])

theorem textBack_lines (s : Str) : (linesValue (splitLines s)).getD .empty = textBack s := by
  unfold linesValue textBack blank
  generalize (splitLines s).dropWhile (fun l => l.isEmpty) = ls
  match ls with
  | [] => rfl
  | [l] => rfl
  | l :: m :: ls => rfl

/-- C27, exactly: every text is read as `textBack` says. -/
theorem C27_exact (fl : Floats) (defStyle : ValueType → Option String) (c : CellData) (hidden : Bool)
    (rep : Nat) (lb ie : Bool) (cs : Option String) (hc : CellOk lb c) (h1 : 1 ≤ rep)
    (h2 : rep ≤ 4294967295) (s : Str) (hv : c.value = .text s) (x : CellContent)
    (hx : x = { c.toContent with value := textBack s, style := outStyle defStyle c, «repeat» := rep }) :
    (Bare ie cs x → readBack fl ie cs (cellXml fl defStyle c hidden rep lb) = some (rep, none))
    ∧ (¬ Bare ie cs x → readBack fl ie cs (cellXml fl defStyle c hidden rep lb) = some (rep, some x)) := by
  have hb : ValueBack fl lb c.value (textBack s) := by
    rw [hv, ← textBack_lines]
    exact back_text fl lb s
  exact cell_back fl defStyle c hidden rep lb ie cs (textBack s) hc h1 h2 hb x hx

theorem dropWhile_sub (ls : List Str) (l : Str) (h : l ∈ ls.dropWhile (fun l => l.isEmpty)) : l ∈ ls := by
  induction ls with
  | nil => exact h
  | cons m ls ih =>
    rw [List.dropWhile_cons] at h
    split at h
    · exact List.mem_cons_of_mem _ (ih h)
    · exact h

/-- **C27** (part): a text comes back as the same text exactly if it is not empty and has no line break.
Missing: the others. -/
theorem C27_text_partial (s : Str) : textBack s = .text s ↔ s ≠ [] ∧ '\n' ∉ s := by
  constructor
  · intro h
    unfold textBack at h
    split at h
    · cases h
    · rename_i l hl
      have hls : l = s := by injection h
      subst hls
      have hmem : l ∈ splitLines l := dropWhile_sub _ _ (by rw [hl]; exact List.mem_cons_self)
      refine ⟨?_, (splitLines_join l).2.1 l hmem⟩
      intro he
      subst he
      exact absurd hl (by decide)
    · cases h
  · rintro ⟨h1, h2⟩
    unfold textBack
    rw [splitLines_one s h2]
    cases s with
    | nil => exact absurd rfl h1
    | cons c s => rfl

/-- The lines of a value as a user sees them. -/
def valueLines : Value → List Str
  | .text s => [s]
  | .textXml t => t.map fun
    | .tag _ _ [.text l] => l
    | _ => []
  | _ => []

/-- C27: no line that is not blank is lost, added or moved. -/
theorem C27_lines (s : Str) :
    (valueLines (textBack s)).filter (fun l => !l.isEmpty) = (splitLines s).filter (fun l => !l.isEmpty) := by
  have hd : ∀ ls : List Str, (ls.dropWhile (fun l => l.isEmpty)).filter (fun l => !l.isEmpty)
      = ls.filter (fun l => !l.isEmpty) := by
    intro ls
    induction ls with
    | nil => rfl
    | cons l ls ih =>
      rw [List.dropWhile_cons]
      split
      · rename_i h
        rw [ih, List.filter_cons_of_neg (by simp [h])]
      · rfl
  rw [← hd (splitLines s)]
  unfold textBack
  split
  · rename_i h; rw [h]; rfl
  · rename_i h; rw [h]; rfl
  · rename_i l ls _ h
    rw [h]
    show List.filter _ (List.map _ (List.map _ _)) = _
    rw [List.map_map]
    have : ∀ (ls : List Str) (f : Str → Str), (∀ l, f l = l) → ls.map f = ls := by
      intro ls f hf
      induction ls with
      | nil => rfl
      | cons a ls ih => rw [List.map_cons, hf, ih]
    refine Eq.trans (congrArg _ (this _ _ (fun l => ?_))) ?_
    · rfl
    cases hl : l.isEmpty with
    | true => rw [List.filter_cons_of_neg (by simp [hl]), List.filter_cons_of_neg (by simp [hl]), List.filter_filter]; simp
    | false => rw [List.filter_cons_of_pos (by simp [hl]), List.filter_cons_of_pos (by simp [hl]), List.filter_filter]; simp

/-- C27 fails for two lines, which come back as XML paragraphs. -/
theorem C27_lines_counterexample :
    readBack bitFloats false none (cellXml bitFloats (fun _ => none) { value := .text "a\nb".toList } false 1 false)
      = some (1, some ({ value := .textXml [textP "a".toList, textP "b".toList] } : CellData).toContent) := by
  decide +kernel

/-- C27 fails for blank lines, which are lost. -/
theorem C27_blank_counterexample :
    readBack bitFloats false none (cellXml bitFloats (fun _ => none) { value := .text "a\n\nb".toList } false 1 false)
      = some (1, some ({ value := .textXml [textP "a".toList, textP "b".toList] } : CellData).toContent)
    ∧ readBack bitFloats false none (cellXml bitFloats (fun _ => none) { value := .text "\na".toList } false 1 false)
      = some (1, some ({ value := .text "a".toList } : CellData).toContent) := by
  decide +kernel

/-- C27 fails for the empty text: the cell is lost. -/
theorem C27_empty_counterexample :
    readBack bitFloats false none (cellXml bitFloats (fun _ => none) { value := .text [] } false 1 false)
      = some (1, none) := by
  decide +kernel

/-! ## C29 -/

/-- C29, exactly: the symbol of a currency is read back escaped, i.e. as it stands in the file. -/
theorem C29_exact (fl : Floats) (defStyle : ValueType → Option String) (c : CellData) (hidden : Bool)
    (rep : Nat) (lb ie : Bool) (cs : Option String) (hc : CellOk lb c) (h1 : 1 ≤ rep)
    (h2 : rep ≤ 4294967295) (f : F64) (sym : Str) (hv : c.value = .currency f sym) (hf : FloatOk fl f) :
    readBack fl ie cs (cellXml fl defStyle c hidden rep lb)
      = some (rep, some { c.toContent with value := .currency f (escape sym), style := outStyle defStyle c,
                                           «repeat» := rep }) := by
  have hb : ValueBack fl lb c.value (.currency f (escape sym)) := by
    rw [hv]; exact back_currency fl lb f sym hf
  exact (cell_back fl defStyle c hidden rep lb ie cs _ hc h1 h2 hb _ rfl).2 (fun h => by cases h.1)

/-- **C29** (part): exactly the symbols without `"`, `'`, `&`, `<` and `>` are read back. -/
theorem C29_symbol_partial (sym : Str) : escape sym = sym ↔ Plain sym := by
  constructor
  · intro h
    have hlen : ∀ s : Str, s.length ≤ (escape s).length ∧ (s.length = (escape s).length → Plain s) := by
      intro s
      induction s with
      | nil => exact ⟨Nat.le_refl _, fun _ c hc => by cases hc⟩
      | cons d s ih =>
        obtain ⟨ih1, ih2⟩ := ih
        have h1 : 1 ≤ (escapeChar d).length ∧ ((escapeChar d).length = 1 → ¬ Markup d) := by
          rcases escapeChar_cases d with ⟨_, e⟩ | ⟨_, e⟩ | ⟨_, e⟩ | ⟨_, e⟩ | ⟨_, e⟩ | ⟨hm, e⟩
          all_goals rw [e]
          all_goals simp only [List.length_cons, List.length_nil]
          all_goals first | exact ⟨by omega, fun h => by omega⟩ | exact ⟨by omega, fun _ => hm⟩
        rw [escape, List.length_append, List.length_cons]
        refine ⟨by omega, fun he c hc => ?_⟩
        rcases List.mem_cons.1 hc with rfl | hc
        · exact h1.2 (by omega)
        · exact ih2 (by omega) c hc
    exact (hlen sym).2 (by rw [h])
  · exact Xml.C30_plain_unchanged sym

/-- Concrete case. -/
example : Plain "EUR".toList ∧ Plain "€".toList := by decide

/-- C29 fails for symbols with markup characters. -/
theorem C29_symbol_counterexample :
    readBack bitFloats false none (cellXml bitFloats (fun _ => none) { value := .currency ⟨1⟩ "a&b".toList } false 1 false)
      = some (1, some ({ value := .currency ⟨1⟩ "a&amp;b".toList } : CellData).toContent) := by
  decide +kernel

end Verif.Codec
