import Verif.Xml.Tree
import Verif.Codec.Num

/-!
# Building texts (src/text.rs, src/macro_text.rs) and XML trees (src/xmltree.rs)

The attributes are lists of pairs: `AttrMap2` has two vectors of the same length, which only grow and shrink together (C44).
References to styles are their names.
-/

set_option autoImplicit false

namespace Verif.Text

open Xml Codec

/-- An element while it is built: `XmlTag`, src/xmltree.rs:55-60. -/
structure Tag where
  name : Str
  attrs : List (Str × Str) := []
  content : List Node := []

/-- The element as a part of a tree. -/
def Tag.node (t : Tag) : Node := .tag t.name t.attrs t.content

/-! ## XmlTag -/

/-- `set_attr`, src/attrmap2.rs:59-69: the first pair with the key gets the value, or the pair is appended. -/
def setFirst (k v : Str) : List (Str × Str) → List (Str × Str)
  | [] => [(k, v)]
  | (a, b) :: l => if a = k then (k, v) :: l else (a, b) :: setFirst k v l

/-- `clear_attr`, src/attrmap2.rs:88-96: the first pair with the key is removed. -/
def clearFirst (k : Str) : List (Str × Str) → List (Str × Str)
  | [] => []
  | (a, b) :: l => if a = k then l else (a, b) :: clearFirst k l

/-- `attr`, src/attrmap2.rs:101-108, and `get_attr`, src/xmltree.rs:141-143: the first pair with the key. -/
def Tag.get (t : Tag) (k : Str) : Option Str := t.attrs.lookup k

/-- The calls on an `XmlTag` that change it. -/
inductive XCall where
  /-- `set_name` -/
  | name (n : Str)
  /-- `set_attr`, `attr` -/
  | attr (k v : Str)
  /-- `attrmap_mut().clear_attr` -/
  | clear (k : Str)
  /-- `add_attr_slice`, `attr_slice` -/
  | slice (kvs : List (Str × Str))
  /-- `add_tag`, `tag` -/
  | tag (t : Node)
  /-- `add_text`, `text` -/
  | text (s : Str)

/-- What a call does.

* `set_name`, src/xmltree.rs:105-107
* `set_attr`, `attr`, src/xmltree.rs:135-137, 168-171
* `clear_attr`, src/attrmap2.rs:88-96
* `add_attr_slice`, `attr_slice`, src/xmltree.rs:147-152, 175-181: `add_all`, src/attrmap2.rs:50-55, appends and does not
  look for the keys
* `add_tag`, `tag`, src/xmltree.rs:156-158, 185-188
* `add_text`, `text`, src/xmltree.rs:162-164, 192-195 -/
def XCall.on (t : Tag) : XCall → Tag
  | .name n => { t with name := n }
  | .attr k v => { t with attrs := setFirst k v t.attrs }
  | .clear k => { t with attrs := clearFirst k t.attrs }
  | .slice kvs => { t with attrs := t.attrs ++ kvs }
  | .tag x => { t with content := t.content ++ [x] }
  | .text s => { t with content := t.content ++ [.text s] }

/-- A chain of calls. -/
def xrun (t : Tag) : List XCall → Tag
  | [] => t
  | c :: cs => xrun (c.on t) cs

/-- `XmlTag::new`, src/xmltree.rs:95-101, and a chain of calls. -/
def xbuild (n : Str) (cs : List XCall) : Tag := xrun { name := n } cs

/-! ## Texts -/

/-- The structs of src/text.rs. -/
inductive Kind where
  | textH | textP | textSpan | textA | textS | textTab | softPageBreak | metaDate | metaTime | metaPageNumber
  | metaAuthorName | metaAuthorInitials | metaFileName | metaSheetName | metaInitialCreator | metaCreationDate
  | metaCreationTime | metaDescription | metaPrintTime | metaPrintDate | metaPrintedBy | metaTitle | metaSubject
  | metaKeywords | metaEditingCycles | metaEditingDuration | metaModificationTime | metaModificationDate
  | metaCreator | metaPageCount | metaCharacterCount
  deriving DecidableEq

/-- All of them. -/
def Kind.all : List Kind :=
  [.textH, .textP, .textSpan, .textA, .textS, .textTab, .softPageBreak, .metaDate, .metaTime, .metaPageNumber,
   .metaAuthorName, .metaAuthorInitials, .metaFileName, .metaSheetName, .metaInitialCreator, .metaCreationDate,
   .metaCreationTime, .metaDescription, .metaPrintTime, .metaPrintDate, .metaPrintedBy, .metaTitle, .metaSubject,
   .metaKeywords, .metaEditingCycles, .metaEditingDuration, .metaModificationTime, .metaModificationDate,
   .metaCreator, .metaPageCount, .metaCharacterCount]

/-- The name of the element, the second argument of `text_tag!`, src/text.rs:35-329. -/
def Kind.tag : Kind → Str
  | .textH => "text:h".toList
  | .textP => "text:p".toList
  | .textSpan => "text:span".toList
  | .textA => "text:a".toList
  | .textS => "text:s".toList
  | .textTab => "text:tab".toList
  | .softPageBreak => "text:soft-page-break".toList
  | .metaDate => "text:date".toList
  | .metaTime => "text:time".toList
  | .metaPageNumber => "text:page-number".toList
  | .metaAuthorName => "text:author-name".toList
  | .metaAuthorInitials => "text:author-initials".toList
  | .metaFileName => "text:file-name".toList
  | .metaSheetName => "text:sheet-name".toList
  | .metaInitialCreator => "text:initial-creator".toList
  | .metaCreationDate => "text:creation-date".toList
  | .metaCreationTime => "text:creation-time".toList
  | .metaDescription => "text:description".toList
  | .metaPrintTime => "text:print-time".toList
  | .metaPrintDate => "text:print-date".toList
  | .metaPrintedBy => "text:printed-by".toList
  | .metaTitle => "text:title".toList
  | .metaSubject => "text:subject".toList
  | .metaKeywords => "text:keywords".toList
  | .metaEditingCycles => "text:editing-cycles".toList
  | .metaEditingDuration => "text:editing-duration".toList
  | .metaModificationTime => "text:modification-time".toList
  | .metaModificationDate => "text:modification-date".toList
  | .metaCreator => "text:creator".toList
  | .metaPageCount => "text:page-count".toList
  | .metaCharacterCount => "text:character-count".toList

/-- The calls that set attributes of a text. -/
inductive Setter where
  | classNames (ns : List Str)
  | condstyleName (n : Str)
  | id (s : Str)
  | listHeader (b : Bool)
  | outlineLevel (l : Nat)
  | restartNumbering (b : Bool)
  | startValue (l : Nat)
  | styleName (n : Str)
  | xmlId (s : Str)
  | visitedStyleName (n : Str)
  | href (s : Str)
  | count (n : Nat)
  | tabRef (n : Nat)

/-- The `impl` blocks of src/text.rs: which struct has which method.

* `TextH`, src/text.rs:50-111
* `TextP`, src/text.rs:124-161
* `TextSpan`, src/text.rs:173-196
* `TextA`, src/text.rs:214-234
* `TextS`, src/text.rs:246-254
* `TextTab`, src/text.rs:263-274 -/
def Setter.has (k : Kind) : Setter → Bool
  | .classNames _ => k = .textH || k = .textP || k = .textSpan
  | .condstyleName _ => k = .textH || k = .textP
  | .id _ => k = .textH || k = .textP
  | .listHeader _ => k = .textH
  | .outlineLevel _ => k = .textH
  | .restartNumbering _ => k = .textH
  | .startValue _ => k = .textH
  | .styleName _ => k = .textH || k = .textP || k = .textSpan || k = .textA
  | .xmlId _ => k = .textH || k = .textP
  | .visitedStyleName _ => k = .textA
  | .href _ => k = .textA
  | .count _ => k = .textS
  | .tabRef _ => k = .textTab

/-- `to_string` for `bool`. -/
def boolText (b : Bool) : Str := if b then "true".toList else "false".toList

/-- The loop of `class_names`, src/text.rs:53-57, 127-131, 176-180. -/
def classText : List Str → Str
  | [] => []
  | n :: ns => n ++ ' ' :: classText ns

/-- The attribute that is set, and its value.

* `class_names`, src/text.rs:52-60, 126-134, 175-183
* `condstyle_name`, src/text.rs:63-67, 137-141
* `id`, src/text.rs:70-73, 144-147
* `list_header`, src/text.rs:76-79
* `outline_level`, src/text.rs:82-85
* `restart_numbering`, src/text.rs:88-91
* `start_value`, src/text.rs:94-97
* `style_name`, src/text.rs:100-104, 150-154, 191-195, 216-220
* `xml_id`, src/text.rs:107-110, 157-160
* `visited_style_name`, src/text.rs:223-227
* `href`, src/text.rs:230-233
* `count`, src/text.rs:250-253
* `tab_ref`, src/text.rs:270-273 -/
def Setter.sets : Setter → Str × Str
  | .classNames ns => ("text:class-names".toList, classText ns)
  | .condstyleName n => ("text:condstyle-name".toList, n)
  | .id s => ("text:id".toList, s)
  | .listHeader b => ("text:is-list-header".toList, boolText b)
  | .outlineLevel l => ("text:outlinelevel".toList, decNat l)
  | .restartNumbering b => ("text:restart-numbering".toList, boolText b)
  | .startValue l => ("text:start-value".toList, decNat l)
  | .styleName n => ("text:style-name".toList, n)
  | .xmlId s => ("xml:id".toList, s)
  | .visitedStyleName n => ("text:visited-style-name".toList, n)
  | .href s => ("xlink:href".toList, s)
  | .count n => ("text:c".toList, decNat n)
  | .tabRef n => ("text:tab-ref".toList, decNat n)

/-- The calls on a text. -/
inductive TCall where
  | tag (t : Node)
  | text (s : Str)
  | set (s : Setter)

/-- What a call does: `tag` and `text`, src/macro_text.rs:37-46, and the methods above. -/
def TCall.on (t : Tag) : TCall → Tag
  | .tag x => XCall.on t (.tag x)
  | .text s => XCall.on t (.text s)
  | .set s => XCall.on t (.attr s.sets.1 s.sets.2)

/-- A chain of calls. -/
def trun (t : Tag) : List TCall → Tag
  | [] => t
  | c :: cs => trun (c.on t) cs

/-- `new`, src/macro_text.rs:30-34, a chain of calls and `into_xmltag`, src/macro_text.rs:49-51. -/
def build (k : Kind) (cs : List TCall) : Tag := trun { name := k.tag } cs

/-- `add_text` of `XmlVec`, src/xmltree.rs:84-86. -/
def vecText (v : List Node) (s : Str) : List Node := v ++ [(build .textP [.text s]).node]

/-- `add_tag` of `XmlVec`, src/xmltree.rs:88-90. -/
def vecTag (v : List Node) (t : Node) : List Node := v ++ [t]

/-! ## Display -/

/-- The loop over the attributes, src/xmltree.rs:253-255. -/
def showAttrs : List (Str × Str) → Str
  | [] => []
  | (k, v) :: as => ' ' :: k ++ '=' :: '"' :: v ++ '"' :: showAttrs as

mutual

/-- `Display` for `XmlTag`, src/xmltree.rs:251-276. -/
def shown : Node → Str
  | .text s => s ++ ['\n']
  | .tag n as c =>
    if c.isEmpty then '<' :: n ++ showAttrs as ++ ['/', '>', '\n']
    else '<' :: n ++ showAttrs as ++ ['>', '\n'] ++ showns c ++ '<' :: '/' :: n ++ ['>', '\n']

/-- The loop over the content, src/xmltree.rs:261-270. -/
def showns : List Node → Str
  | [] => []
  | x :: c => shown x ++ showns c

end

end Verif.Text
