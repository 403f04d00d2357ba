import Verif.Master.Lemmas

/-!
# What it means that a master page comes back
-/

set_option autoImplicit false

namespace Verif.Master

open Xml Xml.Spec Codec Book
open Verif.Conv (vanishes)

/-- The text of `office:master-styles` for these master pages. -/
def mastersXml (lb : Bool) (l : List (Style Master)) : Str := output lb (writeMasters l)

/-- Reading such a text into an empty workbook. -/
def mastersBack (s : Str) : Option (Stores Master) :=
  match tokenize s with
  | none => none
  | some ts =>
    match events ts with
    | .start _ _ :: es => (readMasters {} es).toOption.map (·.1)
    | _ => none

/-- The same tags, attributes and characters. -/
def Alike (x y : Node) : Prop := treeSays y = treeSays x

/-- An element with an element in it. -/
def Tagged : Node → Bool
  | .text _ => false
  | .tag _ _ c => c.any fun x => match x with | .tag _ _ _ => true | .text _ => false

/-- The characters directly in an element. -/
def chars : Node → Str
  | .text _ => []
  | .tag _ _ c => c.flatMap fun x => match x with | .tag _ _ _ => [] | .text s => s

/-- A paragraph or heading as it comes back: with an element in it, it is the same; without, it is a paragraph
without attributes and with the same characters. -/
def ParaBack (x y : Node) : Prop := if Tagged x then Alike x y else Alike (.tag pName [] [.text (chars x)]) y

/-- A header or footer as it comes back: an empty one is a new one that is not shown. In the others, the regions
and the flag are the same; of the paragraphs, those with nothing in it but empty texts are left out. -/
def HFBack (h h' : HeaderFooter) : Prop :=
  if h.isEmpty then h' = { display := false, left := [], center := [], right := [], content := [] }
  else h'.display = h.display ∧ Each Alike h.left h'.left ∧ Each Alike h.center h'.center
    ∧ Each Alike h.right h'.right ∧ Each ParaBack (h.content.filter fun x => !vanishes x) h'.content

/-- The same header or footer. -/
def HFSame (h h' : HeaderFooter) : Prop :=
  h'.display = h.display ∧ Each Alike h.left h'.left ∧ Each Alike h.center h'.center
    ∧ Each Alike h.right h'.right ∧ Each Alike h.content h'.content

/-- A master page as it comes back. -/
def MasterBack (p q : Master) : Prop :=
  q.display = p.display ∧ q.page = p.page ∧ q.next = p.next ∧ ∀ s, HFBack (p.slot s) (q.slot s)

/-- The same master page. -/
def MasterSame (p q : Master) : Prop :=
  q.display = p.display ∧ q.page = p.page ∧ q.next = p.next ∧ ∀ s, HFSame (p.slot s) (q.slot s)

end Verif.Master
