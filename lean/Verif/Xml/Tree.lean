import Verif.Xml.Writer
import Verif.Xml.Token

/-!
# XML trees the crate does not interpret (src/xmltree.rs), their writer and their reader
-/

set_option autoImplicit false

namespace Verif.Xml

mutual

/-- `write_xmltag`, src/io/write.rs:3134-3155, and the text arm of `write_xmlcontent`,
src/io/write.rs:3121-3132. -/
def writeNode : Node → List Call
  | .text s => [.textEsc s]
  | .tag n as c =>
    .elemIf (!c.isEmpty) n :: as.map (fun a => Call.attrEsc a.1 a.2)
      ++ (writeNodes c ++ [.endElemIf (!c.isEmpty) n])

/-- The loop over the content, src/io/write.rs:3141-3150. -/
def writeNodes : List Node → List Call
  | [] => []
  | x :: c => writeNode x ++ writeNodes c

end

/-- How reading can fail. -/
inductive Fault where
  /-- `quick-xml` reports an end tag that does not match the open tag. -/
  | mismatchedEnd
  /-- "XML corrupted. Endtag occured before all elements are closed" or "without start tag". -/
  | corrupted
  /-- The text is not a document. -/
  | malformed
  /-- An attribute cannot be unescaped. -/
  | badAttr
  /-- The value of an attribute cannot be parsed, or is missing. -/
  | parse
  /-- `unreachable!()`, `expect`, or an overflow. -/
  | panic
  /-- The reader ignores the end of the document and asks for the next event forever. -/
  | endless
  deriving DecidableEq

/-- An element that is being read. -/
structure Frame where
  name : Str
  attrs : List (Str × Str)
  content : List Node

/-- The finished element. -/
def Frame.node (f : Frame) : Node := .tag f.name f.attrs f.content

/-- `add_tag` and `add_text`, src/xmltree.rs:156-164. -/
def Frame.add (f : Frame) (x : Node) : Frame := { f with content := f.content ++ [x] }

/-- The loop of `read_xml`, src/io/read.rs:4718-4775, with the name of the root element and the
stack, whose top is the head.  The elements on the stack are the open ones, so that the check of
the end tag by `quick-xml` compares with the top.  `copy_attr2`, src/io/read.rs:3615-3629, is
`unescapeAttrs`.  Returns the element and the events that follow. -/
def readXmlLoop (root : Str) : List Frame → List Event → Except Fault (Node × List Event)
  | [], _ => .error .panic
  | f :: _, [] => .ok (f.node, [])
  | f :: st, .start n as :: es =>
    match unescapeAttrs as with
    | none => .error .badAttr
    | some as => readXmlLoop root (⟨n, as, []⟩ :: f :: st) es
  | f :: st, .end n :: es =>
    if n ≠ f.name then .error .mismatchedEnd
    else if n = root then .ok (f.node, es)
    else
      match st with
      | [] => .error .panic
      | p :: st => readXmlLoop root (p.add f.node :: st) es
  | f :: st, .empty n as :: es =>
    match unescapeAttrs as with
    | none => .error .badAttr
    | some as => readXmlLoop root (f.add (.tag n as []) :: st) es
  | f :: st, .ref n :: es => readXmlLoop root (f.add (.text (entity n)) :: st) es
  | f :: st, .text s :: es => readXmlLoop root (f.add (.text s) :: st) es

/-- `read_xml`, src/io/read.rs:4704-4781: the element of a start event or of an empty event. -/
def readXml (root : Str) (as : List (Str × Str)) (emptyTag : Bool) (es : List Event) :
    Except Fault (Node × List Event) :=
  match unescapeAttrs as with
  | none => .error .badAttr
  | some as => if emptyTag then .ok (.tag root as [], es) else readXmlLoop root [⟨root, as, []⟩] es

/-- Reads the element at the next event. -/
def readNext : List Event → Except Fault (Node × List Event)
  | .start n as :: es => readXml n as false es
  | .empty n as :: es => readXml n as true es
  | _ => .error .malformed

end Verif.Xml
