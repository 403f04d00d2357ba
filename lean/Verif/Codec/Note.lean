import Verif.Xml.Tree
import Verif.Codec.Time

/-!
# Annotations and images in a cell (src/draw.rs, src/io/write.rs, src/io/read.rs)
-/

set_option autoImplicit false

namespace Verif.Codec

open Xml

/-- A failing parser is an error. -/
def orFail {α : Type} (f : Fault) : Option α → Except Fault α
  | none => .error f
  | some a => .ok a

/-! ## Names of elements -/

def tAnnotation : Str := "office:annotation".toList
def tCreator : Str := "dc:creator".toList
def tDate : Str := "dc:date".toList
def tFrame : Str := "draw:frame".toList
def tImage : Str := "draw:image".toList
def tDesc : Str := "svg:desc".toList
def tTitle : Str := "svg:title".toList
def tBinary : Str := "office:binary-data".toList
def tPara : Str := "text:p".toList
def tList : Str := "text:list".toList

/-! ## Writing -/

/-- An element with a text, if there is one, e.g. src/io/write.rs:2329-2333. -/
def writeText (tag : Str) : Option Str → List Call
  | none => []
  | some s => [.elem tag, .textEsc s, .endElem tag]

/-- The loop over the attributes, e.g. src/io/write.rs:2325-2327. -/
def writeAttrs (as : List (Str × Str)) : List Call := as.map fun a => Call.attrEsc a.1 a.2

/-- `write_annotation`, src/io/write.rs:2318-2345. -/
def writeAnnotation (a : Annotation) : List Call :=
  .elem tAnnotation :: .attr "office:display".toList (fmtBool a.display)
    :: .attrEsc "office:name".toList a.name :: writeAttrs a.attrs
    ++ writeText tCreator a.creator ++ writeText tDate (a.date.map fmtDateTime)
    ++ writeNodes a.text ++ [.endElem tAnnotation]

/-- The binary data, which is not escaped, src/io/write.rs:2303-2307. -/
def writeBinary : Option Str → List Call
  | none => []
  | some b => [.elem tBinary, .text b, .endElem tBinary]

/-- `write_draw_image`, src/io/write.rs:2294-2316. -/
def writeImage (i : DrawImage) : List Call :=
  .elem tImage :: writeAttrs i.attrs ++ writeBinary i.binary ++ writeNodes i.text ++ [.endElem tImage]

/-- `write_draw_frame`, src/io/write.rs:2261-2292. -/
def writeFrame (f : DrawFrame) : List Call :=
  .elem tFrame :: writeAttrs f.attrs ++ f.images.flatMap writeImage
    ++ writeText tDesc f.desc ++ writeText tTitle f.title ++ [.endElem tFrame]

/-! ## Reading -/

/-- `read_text` with `parse_string`, src/io/read.rs:4960-5011, for a start tag. -/
def readStr (tag : Str) : Str → List Event → Except Fault (Str × List Event)
  | s, [] => .ok (s, [])
  | s, .ref n :: es => readStr tag (s ++ entity n) es
  | s, .text t :: es => readStr tag (s ++ t) es
  | s, .end n :: es => if n = tag then .ok (s, es) else .error .mismatchedEnd
  | _, .start _ _ :: _ => .error .malformed
  | _, .empty _ _ :: _ => .error .malformed

/-- What a reader does with the start tag (or the empty tag) of an element inside: the new state and the
events that follow; `none` if there is no arm for it. -/
def Child (α : Type) : Type :=
  α → Str → List (Str × Str) → Bool → List Event → Except Fault (Option (α × List Event))

/-- The loop of `read_annotation`, `read_draw_frame`, `read_image` and `read_table_cell`, src/io/read.rs:1433-1468,
1679-1717, 1732-1770, 1787-1821.  `names` are the elements that were passed over and are still open; if a reader of an
element inside stops too early (C32_nested_counterexample) the check of the end tags that follow is stricter than
that of `quick-xml`, which also knows the elements this reader left open.  The first
argument bounds the number of steps, there are no more than events. -/
def subLoop {α : Type} (tag : Str) (f : Child α) : Nat → α → List Str → List Event →
    Except Fault (α × List Event)
  | 0, _, _, _ => .error .panic
  | _ + 1, a, _, [] => .ok (a, [])
  | k + 1, a, names, .text _ :: es => subLoop tag f k a names es
  | k + 1, a, names, .ref _ :: es => subLoop tag f k a names es
  | k + 1, a, names, .end n :: es =>
    if n ≠ names.headD tag then .error .mismatchedEnd
    else if n = tag then .ok (a, es)
    else subLoop tag f k a names.tail es
  | k + 1, a, names, .start n as :: es =>
    match f a n as false es with
    | .error e => .error e
    | .ok none => subLoop tag f k a (n :: names) es
    | .ok (some (a, es)) => subLoop tag f k a names es
  | k + 1, a, names, .empty n as :: es =>
    match f a n as true es with
    | .error e => .error e
    | .ok none => subLoop tag f k a names es
    | .ok (some (a, es)) => subLoop tag f k a names es

/-- One attribute of an annotation, src/io/read.rs:1662-1676. -/
def annAttr (a : Annotation) (k v : Str) : Except Fault Annotation :=
  if k = "office:display".toList then (orFail .parse (parseBool v)).map fun b => { a with display := b }
  else if k = "office:name".toList then (orFail .badAttr (unescape v)).map fun n => { a with name := n }
  else (orFail .badAttr (unescape v)).map fun v => { a with attrs := a.attrs ++ [(k, v)] }

/-- All attributes. -/
def annAttrs : Annotation → List (Str × Str) → Except Fault Annotation
  | a, [] => .ok a
  | a, (k, v) :: as =>
    match annAttr a k v with
    | .error e => .error e
    | .ok a => annAttrs a as

/-- The text of an element, and what to do with it; `read_text` gives `None` for an empty tag. -/
def withText {α : Type} (tag : Str) (emptyTag : Bool) (es : List Event) (g : Option Str → Except Fault α) :
    Except Fault (Option (α × List Event)) :=
  if emptyTag then (g none).map fun a => some (a, es)
  else
    match readStr tag [] es with
    | .error e => .error e
    | .ok (s, es) => (g (some s)).map fun a => some (a, es)

/-- An element that is kept as it is. -/
def withNode {α : Type} (n : Str) (as : List (Str × Str)) (emptyTag : Bool) (es : List Event) (g : Node → α) :
    Except Fault (Option (α × List Event)) :=
  (readXml n as emptyTag es).map fun x => some (g x.1, x.2)

/-- The date of an annotation: `parse_datetime`, src/io/parse.rs:175-177. -/
def setDate (a : Annotation) : Option Str → Except Fault Annotation
  | none => .ok { a with date := none }
  | some s => (orFail .parse (parseDateTime s)).map fun d => { a with date := some d }

/-- The elements in an annotation, src/io/read.rs:1690-1705. -/
def annChild : Child Annotation := fun a n as emptyTag es =>
  if n = tCreator then withText n emptyTag es fun s => .ok { a with creator := s }
  else if n = tDate then withText n emptyTag es (setDate a)
  else if n = tList ∨ n = tPara then
    withNode n as emptyTag es fun t => { a with text := a.text ++ [t] }
  else .ok none

/-- `read_annotation`, src/io/read.rs:1655-1720. -/
def readAnnotation (as : List (Str × Str)) (es : List Event) : Except Fault (Annotation × List Event) :=
  match annAttrs {} as with
  | .error e => .error e
  | .ok a => subLoop tAnnotation annChild (es.length + 1) a [] es

/-- The elements in an image, src/io/read.rs:1797-1809. -/
def imageChild : Child DrawImage := fun i n as emptyTag es =>
  if n = tBinary ∧ emptyTag = false then withText n false es fun s => .ok { i with binary := s }
  else if n = tList ∨ n = tPara then
    withNode n as emptyTag es fun t => { i with text := i.text ++ [t] }
  else .ok none

/-- `read_image`, src/io/read.rs:1776-1825. -/
def readImage (as : List (Str × Str)) (emptyTag : Bool) (es : List Event) :
    Except Fault (DrawImage × List Event) :=
  match unescapeAttrs as with
  | none => .error .badAttr
  | some as =>
    if emptyTag then .ok ({ attrs := as }, es)
    else subLoop tImage imageChild (es.length + 1) { attrs := as } [] es

/-- The elements in a frame, src/io/read.rs:1742-1760. -/
def frameChild : Child DrawFrame := fun f n as emptyTag es =>
  if n = tImage then (readImage as emptyTag es).map fun x => some ({ f with images := f.images ++ [x.1] }, x.2)
  else if n = tDesc ∧ emptyTag = false then withText n false es fun s => .ok { f with desc := s }
  else if n = tTitle ∧ emptyTag = false then withText n false es fun s => .ok { f with title := s }
  else .ok none

/-- `read_draw_frame`, src/io/read.rs:1722-1774. -/
def readFrame (as : List (Str × Str)) (es : List Event) : Except Fault (DrawFrame × List Event) :=
  match unescapeAttrs as with
  | none => .error .badAttr
  | some as => subLoop tFrame frameChild (es.length + 1) { attrs := as } [] es

end Verif.Codec
