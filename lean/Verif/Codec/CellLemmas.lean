import Verif.Codec.Cell
import Verif.Codec.NoteLemmas
import Verif.Xml.Fragment

/-!
# Lemmas about cells
-/

set_option autoImplicit false

namespace Verif.Codec

open Xml Xml.Spec
open Verif.Refs (digitChar isDigit decVal)

/-! ## The text of a paragraph -/

/-- The content after a node was read. -/
def TextContent.add1 (name : Str) (as : List (Str × Str)) : TextContent → Node → TextContent
  | .empty, .text s => .text s
  | .text t, .text s => .text (t ++ s)
  | .xml f, x => .xml (f.add x)
  | .empty, .tag n a c => .xml ⟨name, as, [.tag n a c]⟩
  | .text t, .tag n a c => .xml ⟨name, as, [.text t, .tag n a c]⟩
  | .xmlVec l, _ => .xmlVec l

/-- The content after some nodes were read. -/
def TextContent.adds (name : Str) (as : List (Str × Str)) (c : TextContent) (g : List Node) : TextContent :=
  g.foldl (TextContent.add1 name as) c

/-- What an end tag does. -/
theorem readTextLoop_end (name : Str) (raw : List (Str × Str)) (c : TextContent) (st : List Frame)
    (n : Str) (es : List Event) : readTextLoop name raw c st (.end n :: es) =
    if n ≠ openName name c then .error .mismatchedEnd
    else if n = name then
      if st.isEmpty then .ok (c, es) else .error .corrupted
    else
      match c, st with
      | .xml f, p :: st => readTextLoop name raw (.xml (p.add f.node)) st es
      | .xml _, [] => .error .corrupted
      | .xmlVec _, _ => .error .panic
      | _, _ => .error .corrupted := by
  cases c <;> cases st <;> rfl

/-- The states of the loop. -/
def GoodState : TextContent → List Frame → Prop
  | .empty, st => st = []
  | .text _, st => st = []
  | .xml _, _ => True
  | .xmlVec _, _ => False

theorem adds_xml (name : Str) (as : List (Str × Str)) (g : List Node) : ∀ f : Frame,
    TextContent.adds name as (.xml f) g = .xml (f.adds g) := by
  induction g with
  | nil => intro f; rw [adds_nil]; rfl
  | cons x g ih =>
    intro f
    show TextContent.adds name as (.xml (f.add x)) g = _
    rw [ih, add_adds]

theorem readTextLoop_content (name : Str) (raw as : List (Str × Str)) (hraw : unescapeAttrs raw = some as)
    {es : List Event} {g : List Node} (h : Reads es g) :
    ∀ (c : TextContent) (st : List Frame) (rest : List Event), GoodState c st → AllWithout name g →
    readTextLoop name raw c st (es ++ rest) = readTextLoop name raw (c.adds name as g) st rest := by
  induction h with
  | nil => intro c st rest _ _; cases c <;> rfl
  | text s hs hr ih =>
    intro c st rest hg hw
    simp only [AllWithout] at hw
    rw [List.cons_append, readTextLoop]
    cases c with
    | empty => exact ih _ st rest hg hw.2
    | text t => exact ih _ st rest hg hw.2
    | xml f => exact ih _ st rest trivial hw.2
    | xmlVec l => exact absurd hg id
  | ref n d he hd hr ih =>
    intro c st rest hg hw
    simp only [AllWithout] at hw
    rw [List.cons_append, readTextLoop, he]
    cases c with
    | empty => exact ih _ st rest hg hw.2
    | text t => exact ih _ st rest hg hw.2
    | xml f => exact ih _ st rest trivial hw.2
    | xmlVec l => exact absurd hg id
  | empty n r a hu hr ih =>
    intro c st rest hg hw
    simp only [AllWithout] at hw
    rw [List.cons_append, readTextLoop, hu]
    cases c with
    | empty =>
      simp only [parentOf, createTop, hraw]
      exact ih _ st rest trivial hw.2
    | text t =>
      simp only [parentOf, createTop, hraw]
      exact ih _ st rest trivial hw.2
    | xml f => exact ih _ st rest trivial hw.2
    | xmlVec l => exact absurd hg id
  | elem n r a hu h1 hr ih1 ih =>
    rename_i es1 es2 g1 g2
    intro c st rest hg hw
    simp only [AllWithout, Without] at hw
    have key : ∀ p : Frame, readTextLoop name raw (.xml ⟨n, a, []⟩) (p :: st) (es1 ++ .end n :: es2 ++ rest)
        = readTextLoop name raw (.xml ((p.add (.tag n a g1)).adds g2)) st rest := by
      intro p
      rw [List.append_assoc, ih1 (.xml ⟨n, a, []⟩) (p :: st) _ trivial hw.1.2, adds_xml, List.cons_append,
        readTextLoop_end]
      rw [if_neg (by simp [openName, Frame.adds]), if_neg hw.1.1]
      simp only
      rw [ih (.xml _) st _ trivial hw.2, adds_xml]
      rfl
    rw [List.cons_append, readTextLoop, hu]
    cases c with
    | empty =>
      simp only [parentOf, createTop, hraw]
      rw [key]
      show _ = readTextLoop name raw (TextContent.adds name as (.xml ⟨name, as, [.tag n a g1]⟩) g2) st rest
      rw [adds_xml]; rfl
    | text t =>
      simp only [parentOf, createTop, hraw]
      rw [key]
      show _ = readTextLoop name raw (TextContent.adds name as (.xml ⟨name, as, [.text t, .tag n a g1]⟩) g2) st rest
      rw [adds_xml]; rfl
    | xml f =>
      simp only [parentOf]
      rw [key]
      show _ = readTextLoop name raw (TextContent.adds name as (.xml (f.add (.tag n a g1))) g2) st rest
      rw [adds_xml]
    | xmlVec l => exact absurd hg id

/-- Is this the name of the open element? -/
theorem adds_openName (name : Str) (as : List (Str × Str)) (g : List Node) :
    ∀ c : TextContent, openName name c = name → openName name (c.adds name as g) = name := by
  induction g with
  | nil => intro c h; cases c <;> exact h
  | cons x g ih =>
    intro c h
    cases c with
    | empty => cases x <;> exact ih _ rfl
    | text t => cases x <;> exact ih _ rfl
    | xml f => cases x <;> exact ih _ h
    | xmlVec l => cases x <;> exact ih _ h

theorem readText_reads (name : Str) (raw as : List (Str × Str)) (hraw : unescapeAttrs raw = some as)
    {es : List Event} {g : List Node} (h : Reads es g) (hw : AllWithout name g) (rest : List Event) :
    readText name raw (es ++ .end name :: rest) = .ok (TextContent.adds name as .empty g, rest) := by
  unfold readText
  rw [readTextLoop_content name raw as hraw h .empty [] _ rfl hw, readTextLoop_end]
  rw [if_neg (by rw [adds_openName name as g .empty rfl]; simp), if_pos rfl]
  rfl

/-! ## Texts without tags -/

/-- The joined texts. -/
def textsOf : List Node → Option Str
  | [] => some []
  | .text s :: g => (textsOf g).map (s ++ ·)
  | .tag _ _ _ :: _ => none

theorem textsOf_addChar (c : Char) (g : List Node) (t : Str) (h : textsOf g = some t) :
    textsOf (addChar c g) = some (c :: t) := by
  unfold addChar
  split
  · simp [textsOf, h]
  · split
    · rename_i d s g'
      split
      · simp only [textsOf] at h ⊢; rw [h]; rfl
      · simp only [textsOf] at h ⊢
        cases hg : textsOf g' with
        | none => rw [hg] at h; cases h
        | some u => rw [hg] at h; simp only [Option.map_some, Option.some.injEq] at h ⊢; rw [← h]; rfl
    · rename_i g'
      simp only [textsOf] at h ⊢
      cases hg : textsOf g' with
      | none => rw [hg] at h; cases h
      | some u => rw [hg] at h; simp only [Option.map_some, Option.some.injEq] at h ⊢; rw [← h]; rfl
    · simp [textsOf, h]

theorem textsOf_addText (s : Str) : textsOf (addText s []) = some s := by
  induction s with
  | nil => rfl
  | cons c s ih => exact textsOf_addChar c _ s ih

theorem adds_texts (name : Str) (as : List (Str × Str)) (g : List Node) : ∀ (t u : Str),
    textsOf g = some u → TextContent.adds name as (.text t) g = .text (t ++ u) := by
  induction g with
  | nil =>
    intro t u h
    simp only [textsOf, Option.some.injEq] at h
    subst h
    show TextContent.text t = _
    rw [List.append_nil]
  | cons x g ih =>
    intro t u h
    cases x with
    | tag n a c => simp [textsOf] at h
    | text s =>
      simp only [textsOf] at h
      cases hg : textsOf g with
      | none => rw [hg] at h; cases h
      | some w =>
        rw [hg] at h
        simp only [Option.map_some, Option.some.injEq] at h
        show TextContent.adds name as (.text (t ++ s)) g = _
        rw [ih _ w hg, ← h, List.append_assoc]

/-- The content of a paragraph with a text. -/
def lineContent (l : Str) : TextContent := if l = [] then .empty else .text l

theorem adds_line (name : Str) (as : List (Str × Str)) (l : Str) :
    TextContent.adds name as .empty (addText l []) = lineContent l := by
  have h := textsOf_addText l
  cases l with
  | nil => rfl
  | cons c l =>
    have hne : addText (c :: l) [] ≠ [] := by
      intro he
      rw [he] at h
      simp [textsOf] at h
    cases hg : addText (c :: l) [] with
    | nil => exact absurd hg hne
    | cons x g =>
      rw [hg] at h
      cases x with
      | tag n a c => simp [textsOf] at h
      | text s =>
        simp only [textsOf] at h
        cases hg' : textsOf g with
        | none => rw [hg'] at h; cases h
        | some w =>
          rw [hg'] at h
          simp only [Option.map_some, Option.some.injEq] at h
          show TextContent.adds name as (.text s) g = _
          rw [adds_texts name as g s w hg', h]
          rfl

theorem addText_texts_without (m : Str) (s : Str) : AllWithout m (addText s []) :=
  addText_without m s [] trivial

/-! ## The content of a cell -/

/-- Tokens of a piece of the content of a cell, which is read as `t`. -/
def Piece (tag : Str) (ts : List Tok) (t : TextContent) : Prop :=
  ∀ s c c', appendText t c = .ok c' → Steps tag cellChild ts ⟨s, c⟩ ⟨s, c'⟩

/-- The tokens of a paragraph. -/
def paraToks (lb : Bool) (s : Str) : List Tok :=
  .start pName [] :: (s.map escTok ++ .end pName :: (nl lb).map Tok.chr)

theorem piece_para (tag : Str) (lb : Bool) (s : Str) : Piece tag (paraToks lb s) (lineContent s) := by
  intro st c c' ha
  apply Steps.elem
  intro r
  obtain ⟨es, h1, h2⟩ := gives_addText s [] [] [] rfl gives_nil Reads.nil
  rw [List.append_nil] at h1
  have hr := readText_reads pName [] [] rfl h2 (addText_texts_without pName s) (events r)
  rw [adds_line] at hr
  rw [h1 _ (noChr_end _ _), events_end, cellChild, if_pos rfl, if_neg (by decide), hr]
  simp only
  rw [ha]
  rfl

/-- The content of an element that is read as a paragraph. -/
def nodeContent : Node → TextContent
  | .tag n as [] => .text []
  | .tag n as (x :: c) => TextContent.adds n as .empty (norms (x :: c))
  | .text _ => .empty

theorem piece_node (tag : Str) (as : List (Str × Str)) (c : List Node) (hw : AllWithout pName c) :
    Piece tag (toks (nodeItems (.tag pName as c))) (nodeContent (.tag pName as c)) := by
  intro st d d' ha
  cases c with
  | nil =>
    have ht : toks (nodeItems (.tag pName as [])) = .empty pName (raws as) :: (nl false).map Tok.chr := by
      simp [nodeItems, toks, itemToks, escAttrs_raw, nl]
    rw [ht]
    apply Steps.void
    intro es
    rw [show nodeContent (.tag pName as []) = .text [] from rfl] at ha
    rw [cellChild, if_pos rfl, if_pos rfl, ha]
    rfl
  | cons y c =>
    have ht : toks (nodeItems (.tag pName as (y :: c)))
        = .start pName (raws as) :: (toks (nodesItems (y :: c)) ++ .end pName :: (nl false).map Tok.chr) := by
      simp [nodeItems, nodesItems, toks, itemToks, escAttrs_raw, nl]
    obtain ⟨es, h1, h2⟩ := gives_content _ (y :: c) (Nat.le_refl _)
    rw [ht]
    apply Steps.elem
    intro r
    have hr := readText_reads pName (raws as) as (raws_unescape as) h2
      (norms_without pName _ (y :: c) (Nat.le_refl _) hw) (events r)
    rw [h1 _ (noChr_end _ _), events_end, cellChild, if_pos rfl, if_neg (by decide), hr]
    simp only
    rw [show nodeContent (.tag pName as (y :: c)) = TextContent.adds pName as .empty (norms (y :: c)) from rfl] at ha
    rw [ha]
    rfl

/-- Several pieces. -/
inductive Pieces (tag : Str) : List Tok → TextContent → TextContent → Prop
  | nil (c : TextContent) : Pieces tag [] c c
  | cons {ts ts' : List Tok} {t c c' c'' : TextContent} : Piece tag ts t → appendText t c = .ok c' →
    Pieces tag ts' c' c'' → Pieces tag (ts ++ ts') c c''

theorem pieces_steps {tag : Str} {ts : List Tok} {c c' : TextContent} (h : Pieces tag ts c c') (s : CellState) :
    Steps tag cellChild ts ⟨s, c⟩ ⟨s, c'⟩ := by
  induction h with
  | nil c => exact Steps.nil _ _ _
  | cons h1 h2 h3 ih => exact (h1 s _ _ h2).append ih

/-! ## Annotation and draw frames -/

/-- The items of the annotation and the draw frames. -/
def noteItems (c : CellData) : List Item :=
  (match (c.extra.getD {}).annotation with
    | none => []
    | some a => annItems a)
  ++ (c.extra.getD {}).drawFrames.flatMap frameItems

theorem frames_calls (l : List DrawFrame) : (l.flatMap frameItems).flatMap Item.calls = l.flatMap writeFrame := by
  induction l with
  | nil => rfl
  | cons i l ih => rw [List.flatMap_cons, List.flatMap_append, ih, frameItems_calls, List.flatMap_cons]

theorem noteItems_calls (c : CellData) : (noteItems c).flatMap Item.calls = writeNotes c := by
  unfold noteItems writeNotes
  rw [List.flatMap_append, frames_calls]
  cases (c.extra.getD {}).annotation with
  | none => rfl
  | some a => simp only [annItems_calls]

/-- The annotation and the draw frames of the cell can be written and read. -/
def NotesOk (lb : Bool) (c : CellData) : Prop :=
  (∀ a, (c.extra.getD {}).annotation = some a → AnnotationOk lb a)
    ∧ ∀ f ∈ (c.extra.getD {}).drawFrames, FrameOk lb f

theorem noteItems_valid (lb : Bool) (c : CellData) (h : NotesOk lb c) : ∀ i ∈ noteItems c, i.Valid := by
  intro i hi
  unfold noteItems at hi
  rcases List.mem_append.1 hi with hi | hi
  · split at hi
    · cases hi
    · rename_i a ha
      exact annItems_valid lb a (h.1 a ha) i hi
  · obtain ⟨f, hf, hi⟩ := List.mem_flatMap.1 hi
    exact frameItems_valid lb f (h.2 f hf) i hi

theorem annItems_toks (lb : Bool) (a : Annotation) : (annItems a).flatMap (itemToks lb)
    = .start tAnnotation (rawAttrs (annAtts a)) :: ((textItems true tCreator a.creator
      ++ textItems true tDate (a.date.map fmtDateTime) ++ nodesItems a.text).flatMap (itemToks lb)
      ++ .end tAnnotation :: (nl lb).map Tok.chr) := by
  unfold annItems
  simp [itemToks]

theorem frameItems_toks (lb : Bool) (f : DrawFrame) : (frameItems f).flatMap (itemToks lb)
    = .start tFrame (rawAttrs (escAttrs f.attrs)) :: ((f.images.flatMap imageItems ++ textItems true tDesc f.desc
      ++ textItems true tTitle f.title).flatMap (itemToks lb) ++ .end tFrame :: (nl lb).map Tok.chr) := by
  unfold frameItems
  simp [itemToks]

/-- A state with an annotation. -/
def CellState.note (s : CellState) (o : Option Annotation) : CellState :=
  match o with
  | none => s
  | some a => s.updateExt fun e => { e with annotation := some a }

/-- A state with more draw frames. -/
def CellState.frames (s : CellState) (l : List DrawFrame) : CellState :=
  l.foldl (fun s f => s.updateExt fun e => { e with drawFrames := e.drawFrames ++ [f] }) s

theorem frames_steps (tag : Str) (lb : Bool) (l : List DrawFrame) (h : ∀ f ∈ l, FrameOk lb f) (t : TextContent) :
    ∀ s, Steps tag cellChild ((l.flatMap frameItems).flatMap (itemToks lb)) ⟨s, t⟩ ⟨s.frames (l.map frameBack), t⟩ := by
  induction l with
  | nil => intro s; exact Steps.nil _ _ _
  | cons f l ih =>
    intro s
    rw [List.flatMap_cons, List.flatMap_append, frameItems_toks, List.map_cons]
    refine Steps.append ?_ (ih (fun f hf => h f (List.mem_cons_of_mem _ hf)) _)
    apply Steps.elem
    intro r
    rw [cellChild, if_neg (by decide), if_neg (by decide), if_pos (by decide),
      frame_read lb f (h f List.mem_cons_self)]
    rfl

theorem notes_steps (tag : Str) (lb : Bool) (c : CellData) (h : NotesOk lb c) (t : TextContent) (s : CellState) :
    Steps tag cellChild ((noteItems c).flatMap (itemToks lb)) ⟨s, t⟩
      ⟨(s.note ((c.extra.getD {}).annotation.map annBack)).frames ((c.extra.getD {}).drawFrames.map frameBack), t⟩ := by
  unfold noteItems
  rw [List.flatMap_append]
  refine Steps.append ?_ (frames_steps tag lb _ h.2 t _)
  cases ha : (c.extra.getD {}).annotation with
  | none => exact Steps.nil _ _ _
  | some a =>
    simp only
    rw [annItems_toks]
    apply Steps.elem
    intro r
    rw [cellChild, if_neg (by decide), if_pos (by decide), annotation_read lb a (h.1 a ha)]
    rfl

/-- The content of a cell, up to the end tag. -/
theorem cellLoop_pieces {tag : Str} {lb : Bool} {ts : List Tok} {t : TextContent} (h : Pieces tag ts .empty t)
    (c : CellData) (hn : NotesOk lb c) (s : CellState) (r : List Tok) :
    cellLoop tag ((events (ts ++ ((noteItems c).flatMap (itemToks lb) ++ .end tag :: r))).length + 1) ⟨s, .empty⟩ []
      (events (ts ++ ((noteItems c).flatMap (itemToks lb) ++ .end tag :: r)))
      = .ok (⟨(s.note ((c.extra.getD {}).annotation.map annBack)).frames
          ((c.extra.getD {}).drawFrames.map frameBack), t⟩, events r) := by
  have := ((pieces_steps h s).append (notes_steps tag lb c hn t s)).finish r
  rw [List.append_assoc] at this
  exact this

end Verif.Codec
