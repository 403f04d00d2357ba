import Verif.Codec.OtherContent

/-!
# C104: annotations, frames and paragraphs of other programs
-/

set_option autoImplicit false

namespace Verif.Codec

open Xml Xml.Spec

/-- **C104**, annotations: the attributes in any order, the creator, the date, paragraphs and lists in any
order, with anything else between them. -/
theorem C104_annotation (as : List (Str × Str)) (c : List El) (ha : NoteAttrs as) (hc : ∀ e ∈ c, NotePart e)
    (r : List Event) : readAnnotation as (evsOf c ++ .end tAnnotation :: r) = .ok (noteOf as c, r) :=
  note_read as c ha hc r

/-- **C104**, frames: any attributes, images as empty tags or with content, a title and a description,
with anything else between them. -/
theorem C104_frame (as : List (Str × Str)) (c : List El) (ha : Escaped as) (hc : ∀ e ∈ c, FramePart e)
    (r : List Event) : readFrame as (evsOf c ++ .end tFrame :: r) = .ok (frameOf as c, r) :=
  frame_elem as c ha hc r

/-- The element of an embedded object, for example a chart. -/
def tObject : Str := "draw:object".toList

/-- C104 fails for embedded objects: whatever else a frame has, nothing of the object is left of it. -/
theorem C104_object_counterexample (as bs : List (Str × Str)) (c : List El) (ha : Escaped as)
    (hc : ∀ e ∈ c, FramePart e) (r : List Event) :
    readFrame as (evsOf (.void tObject bs :: c) ++ .end tFrame :: r) = .ok (frameOf as c, r) := by
  have hn : tObject ≠ tImage ∧ tObject ≠ tDesc ∧ tObject ≠ tTitle := by decide
  rw [frame_elem as _ ha (by
    intro e he
    rcases List.mem_cons.1 he with rfl | he
    · exact fun h => absurd h hn.1
    · exact hc e he)]
  unfold frameOf
  rw [imagesIn_void, if_neg hn.1, textsWith_void, textsWith_void]

/-- An element for which there is no arm: what is in it is read as if it were outside. -/
theorem Passes.through {α : Type} {tag n : Str} {as : List (Str × Str)} {f : Child α} {c : List El} {a a' : α}
    (htag : n ≠ tag) (hf : ∀ a es, f a n as false es = .ok none) (h : Passes tag f (evsOf c) a a') :
    Passes tag f (El.elem n as c).events a a' := by
  intro names r
  obtain ⟨m, l, e⟩ := h (n :: names) (.end n :: r)
  refine ⟨m + 2, by rw [El.events, List.length_cons, List.length_append]; simp; omega, fun k => ?_⟩
  rw [El.events, List.cons_append, List.append_assoc, show [Event.end n] ++ r = .end n :: r from rfl,
    show k + (m + 2) = (k + 1 + m) + 1 by omega, subLoop, hf]
  simp only
  rw [e, subLoop, if_neg (by simp), if_neg htag]
  rfl

/-- C104 fails for groups: a cell with a group of drawings is read as if the frames of the group were in
the cell, the group with its attributes is lost. -/
theorem C104_group_counterexample (fl : Floats) (ie : Bool) (cs : Option String) (tag : Str)
    (as bs : List (Str × Str)) (htag : "draw:g".toList ≠ tag) (c : List El) (hc : ∀ e ∈ c, CellPart tag e)
    (rest : List Event) :
    readTableCell fl ie cs tag as false (evsOf [.elem "draw:g".toList bs c] ++ .end tag :: rest)
      = readTableCell fl ie cs tag as false (evsOf c ++ .end tag :: rest) := by
  have hp : ∀ b, Passes tag cellChild (evsOf c) b (c.foldl bodyStep b) :=
    fun b => Passes.list bodyStep c (fun e he b => cellPart_pass tag e (hc e he) b) b
  have hq : ∀ b, Passes tag cellChild (evsOf [.elem "draw:g".toList bs c]) b (c.foldl bodyStep b) := by
    intro b
    have := Passes.through (as := bs) htag (f := cellChild) (fun a es => by
      unfold cellChild
      rw [pName_eq, if_neg (by decide), if_neg (by decide), if_neg (by decide)]) (hp b)
    rw [evsOf, evsOf, List.append_nil]
    exact this
  unfold readTableCell
  cases cellAttrs fl {} as with
  | error e => rfl
  | ok s =>
    have h1 := (hp ⟨s, .empty⟩).finish rest
    have h2 := (hq ⟨s, .empty⟩).finish rest
    have e1 : cellLoop tag ((evsOf c ++ .end tag :: rest).length + 1) ⟨s, .empty⟩ [] (evsOf c ++ .end tag :: rest)
        = .ok (c.foldl bodyStep ⟨s, .empty⟩, rest) := h1
    have e2 : cellLoop tag ((evsOf [.elem "draw:g".toList bs c] ++ .end tag :: rest).length + 1) ⟨s, .empty⟩ []
        (evsOf [.elem "draw:g".toList bs c] ++ .end tag :: rest) = .ok (c.foldl bodyStep ⟨s, .empty⟩, rest) := h2
    simp only [Bool.false_eq_true, if_false]
    rw [e1, e2]

/-- C104 fails for lines without text that are written with an end tag: they are lost, although the empty
tag, which is the same in XML, is kept. -/
theorem C104_line_counterexample (s t : Str) :
    cellText (parasIn [.elem tPara [] [.text s], .elem tPara [] [], .elem tPara [] [.text t]])
        = some (.textXml [.tag tPara [] [.text s], .tag tPara [] [.text t]])
      ∧ cellText (parasIn [.elem tPara [] [.text s], .void tPara [], .elem tPara [] [.text t]])
        = some (.textXml [.tag tPara [] [.text s], .tag tPara [] [.text []], .tag tPara [] [.text t]]) := by
  simp [parasIn, cellText, saidIn, El.said, El.isText, Para.isNothing, Para.node, List.filterMap_cons]

/-! ## A cell as other programs write it -/

/-- A cell with an annotation whose date comes before its text, a picture, a line break in the file, and a text with
a reference and a style. -/
def officeContent : List El :=
  [.elem tAnnotation [("draw:style-name".toList, "gr1".toList), ("office:display".toList, "true".toList)]
      [.elem tDate [] [.text "2024-02-29T12:00:00".toList],
        .elem "meta:creator-initials".toList [] [.text "A".toList],
        .elem tPara [] [.text "seen".toList]],
    .text "\n".toList,
    .elem tPara [] [.text "a".toList, .ref "amp".toList, .elem "text:span".toList [] [.text "b".toList]],
    .elem tFrame [("svg:width".toList, "1cm".toList)]
      [.void tImage [("xlink:href".toList, "Pictures/1.png".toList)], .void tObject [], .elem tDesc [] [.text "d".toList]]]

instance (as : List (Str × Str)) : Decidable (Escaped as) := inferInstanceAs (Decidable (_ = true))

def tCell : Str := "table:table-cell".toList

theorem officeContent_ok : ∀ e ∈ officeContent, CellPart tCell e := by
  intro e he
  simp only [officeContent, List.mem_cons, List.not_mem_nil, or_false] at he
  have hnote : NoteAttrs [("draw:style-name".toList, "gr1".toList), ("office:display".toList, "true".toList)] := by
    refine ⟨by decide +kernel, ?_, ?_⟩
    · intro v hv
      have : attrText [("draw:style-name".toList, "gr1".toList), ("office:display".toList, "true".toList)]
          "office:display" = some "true".toList := by decide +kernel
      rw [this] at hv
      rw [← Option.some.inj hv]
      decide
    · decide +kernel
  rcases he with rfl | rfl | rfl | rfl
  · refine ⟨by decide, fun h => absurd h (by decide), fun _ => ⟨hnote, ?_⟩, fun h => absurd h (by decide),
      fun h => absurd (show tAnnotation ∈ cellNames tCell by decide) h⟩
    intro x hx
    simp only [List.mem_cons, List.not_mem_nil, or_false] at hx
    rcases hx with rfl | rfl | rfl
    · refine ⟨by decide, fun h => absurd h (by decide), fun _ => ⟨by simp [El.isText], by decide +kernel⟩,
        fun h => absurd h (by decide), fun h => absurd (show tDate ∈ noteNames by decide) h⟩
    · refine ⟨by decide, fun h => absurd h (by decide), fun h => absurd h (by decide), fun h => absurd h (by decide),
        fun _ => by simp [FreeIn, El.Free]⟩
    · refine ⟨by decide, fun h => absurd h (by decide), fun h => absurd h (by decide),
        fun _ => ⟨by decide, by simp [CleanIn, El.Clean], by simp [NoStartIn, El.NoStart]⟩,
        fun h => absurd (show tPara ∈ noteNames by decide) h⟩
  · trivial
  · refine ⟨by decide, fun _ => ⟨by decide, by simp [CleanIn, El.Clean]; decide, by simp [NoStartIn, El.NoStart]; decide⟩,
      fun h => absurd h (by decide), fun h => absurd h (by decide),
      fun h => absurd (show tPara ∈ cellNames tCell by decide) h⟩
  · refine ⟨by decide, fun h => absurd h (by decide), fun h => absurd h (by decide), fun _ => ⟨by decide, ?_⟩,
      fun h => absurd (show tFrame ∈ cellNames tCell by decide) h⟩
    intro x hx
    simp only [List.mem_cons, List.not_mem_nil, or_false] at hx
    rcases hx with rfl | rfl | rfl
    · exact fun _ => by decide
    · exact fun _ => by decide
    · exact ⟨by decide, fun _ => by simp [El.isText], fun h => absurd h (by decide),
        fun h => absurd (show tDesc ∈ frameNames by decide) h⟩

/-- Its annotation. -/
def officeNote : Annotation :=
  { display := true, date := some ⟨2024, 2, 29, 12, 0, 0, 0⟩
    text := [.tag tPara [] [.text "seen".toList]]
    attrs := [("draw:style-name".toList, "gr1".toList)] }

/-- Its frame. -/
def officeFrame : DrawFrame :=
  { attrs := [("svg:width".toList, "1cm".toList)], desc := some "d".toList
    images := [{ attrs := [("xlink:href".toList, "Pictures/1.png".toList)] }] }

/-- What `C104_cell` says about it. -/
theorem officeContent_says : cellText (parasIn officeContent)
      = some (.textXml [.tag tPara [] [.text "a&".toList, .tag "text:span".toList [] [.text "b".toList]]])
    ∧ notesIn officeContent = [officeNote] ∧ framesIn officeContent = [officeFrame] := by
  decide +kernel

end Verif.Codec
