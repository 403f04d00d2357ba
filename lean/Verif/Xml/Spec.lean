import Verif.Xml.Writer
import Verif.Xml.Token

/-!
# What a document is supposed to say
-/

set_option autoImplicit false

namespace Verif.Xml.Spec

/-- The characters of XML names (ASCII ones, and everything outside ASCII). -/
def NameChar (c : Char) : Prop :=
  ('A' ≤ c ∧ c ≤ 'Z') ∨ ('a' ≤ c ∧ c ≤ 'z') ∨ ('0' ≤ c ∧ c ≤ '9') ∨ c = ':' ∨ c = '_' ∨ c = '-'
    ∨ c = '.' ∨ 128 ≤ c.toNat

/-- An XML name. -/
def Name (n : Str) : Prop := n ≠ [] ∧ ∀ c ∈ n, NameChar c

/-- A character with a meaning in XML. -/
def Markup (c : Char) : Prop := c = '<' ∨ c = '>' ∨ c = '&' ∨ c = '"' ∨ c = '\''

/-- A text without such characters, which needs no escaping. -/
def Plain (s : Str) : Prop := ∀ c ∈ s, ¬ Markup c

instance (c : Char) : Decidable (NameChar c) := by unfold NameChar; infer_instance
instance (c : Char) : Decidable (Markup c) := by unfold Markup; infer_instance
instance (s : Str) : Decidable (Name s) := by unfold Name; infer_instance
instance (s : Str) : Decidable (Plain s) := by unfold Plain; infer_instance

/-- What a document says, from start to end: tags and characters.  The value of an attribute is what
unescaping its text gives, or `none` if it cannot be unescaped. -/
inductive Ev where
  | start (name : Str) (attrs : List (Str × Option Str))
  | empty (name : Str) (attrs : List (Str × Option Str))
  | «end» (name : Str)
  | chr (c : Char)
  deriving DecidableEq

/-- The attributes with their values unescaped. -/
def attrsMean (as : List (Str × Str)) : List (Str × Option Str) := as.map fun a => (a.1, unescape a.2)

/-- Attributes with their values. -/
def attrsSay (as : List (Str × Str)) : List (Str × Option Str) := as.map fun a => (a.1, some a.2)

/-- What a list of tokens says: references stand for characters. -/
def meaning : List Tok → List Ev
  | [] => []
  | .start n as :: ts => .start n (attrsMean as) :: meaning ts
  | .empty n as :: ts => .empty n (attrsMean as) :: meaning ts
  | .end n :: ts => .end n :: meaning ts
  | .chr c :: ts => .chr c :: meaning ts
  | .ref n :: ts => (entity n).map Ev.chr ++ meaning ts
  | .skip s :: ts => s.map Ev.chr ++ meaning ts

/-- One thing written by a client of the writer.  `esc` chooses the escaping or the raw version of
a call, `viaIf` the version with a condition. -/
inductive Item where
  | start (viaIf : Bool) (name : Str) (attrs : List (Bool × Str × Str))
  | empty (viaIf : Bool) (name : Str) (attrs : List (Bool × Str × Str))
  | text (esc : Bool) (s : Str)
  | elemText (esc : Bool) (name s : Str)
  | «end» (viaIf : Bool) (name : Str)
  /-- `end_elem_if(false, ..)` -/
  | noEnd (name : Str)

/-- The calls that write an attribute. -/
def attrCall : Bool × Str × Str → Call
  | (true, n, v) => .attrEsc n v
  | (false, n, v) => .attr n v

/-- The calls that write an item. -/
def Item.calls : Item → List Call
  | .start false n as => .elem n :: as.map attrCall
  | .start true n as => .elemIf true n :: as.map attrCall
  | .empty false n as => .empty n :: as.map attrCall
  | .empty true n as => .elemIf false n :: as.map attrCall
  | .text true s => [.textEsc s]
  | .text false s => [.text s]
  | .elemText true n s => [.elemTextEsc n s]
  | .elemText false n s => [.elemText n s]
  | .end false n => [.endElem n]
  | .end true n => [.endElemIf true n]
  | .noEnd n => [.endElemIf false n]

/-- Attributes that can be written: XML names, and values that are escaped or need no escaping. -/
def AttrsOk (as : List (Bool × Str × Str)) : Prop :=
  ∀ a ∈ as, Name a.2.1 ∧ (a.1 = false → Plain a.2.2)

/-- An item that can be written: the names are XML names, and what is written without escaping
needs none. -/
def Item.Valid : Item → Prop
  | .start _ n as => Name n ∧ AttrsOk as
  | .empty _ n as => Name n ∧ AttrsOk as
  | .text esc s => esc = false → Plain s
  | .elemText esc n s => Name n ∧ (esc = false → Plain s)
  | .end _ n => Name n
  | .noEnd _ => True

/-- Does the item leave a tag open? -/
def Item.Opens : Item → Prop
  | .start _ _ _ => True
  | .empty _ _ _ => True
  | _ => False

/-- A line break, if the writer was asked for them. -/
def br (lb : Bool) : List Ev := if lb then [.chr '\n'] else []

/-- What an item says.  With line breaks there is one after each end tag and each empty element. -/
def Item.says (lb : Bool) : Item → List Ev
  | .start _ n as => [.start n (attrsSay (as.map (·.2)))]
  | .empty _ n as => .empty n (attrsSay (as.map (·.2))) :: br lb
  | .text _ s => s.map Ev.chr
  | .elemText _ n s => .start n [] :: s.map Ev.chr ++ .end n :: br lb
  | .end _ n => .end n :: br lb
  | .noEnd _ => []

end Verif.Xml.Spec
