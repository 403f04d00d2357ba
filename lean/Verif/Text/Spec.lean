import Verif.Text.Model
import Verif.Xml.TreeSpec

/-!
# C91: what was asked for with the builders of texts and trees
-/

set_option autoImplicit false

namespace Verif.Text.Spec

open Xml Xml.Spec Codec

/-! ## XmlTag -/

/-- The name that was asked for last. -/
def lastName (n : Str) : List XCall → Str
  | [] => n
  | .name m :: cs => lastName m cs
  | _ :: cs => lastName n cs

/-- The content that was asked for, in the order of the calls. -/
def xpieces : List XCall → List Node
  | [] => []
  | .tag t :: cs => t :: xpieces cs
  | .text s :: cs => .text s :: xpieces cs
  | _ :: cs => xpieces cs

/-- The value that was asked for last, for an attribute that was `r` before. -/
def lastValue (k : Str) (r : Option Str) : List XCall → Option Str
  | [] => r
  | .attr j v :: cs => lastValue k (if j = k then some v else r) cs
  | .clear j :: cs => lastValue k (if j = k then none else r) cs
  | .slice kvs :: cs => lastValue k ((kvs.lookup k).or r) cs
  | _ :: cs => lastValue k r cs

/-- Slices name each attribute once, and only attributes that are not there: `ks` are there before. -/
def Fresh (ks : List Str) : List XCall → Prop
  | [] => True
  | .attr k _ :: cs => Fresh (k :: ks) cs
  | .clear k :: cs => Fresh (ks.filter (· ≠ k)) cs
  | .slice kvs :: cs => (kvs.map Prod.fst).Nodup ∧ (∀ p ∈ kvs, p.1 ∉ ks) ∧ Fresh (ks ++ kvs.map Prod.fst) cs
  | _ :: cs => Fresh ks cs

/-! ## Texts -/

/-- The elements of ODF 1.3 part 3 for the structs: paragraphs (5.1, 6.1), spaces and tabs (6.1.3, 6.1.4), page breaks (5.6)
and fields (7.3 to 7.5). -/
def element : Kind → Str
  | .textH => "text:h".toList
  | .textP => "text:p".toList
  | .textSpan => "text:span".toList
  | .textA => "text:a".toList
  | .textS => "text:s".toList
  | .textTab => "text:tab".toList
  | .softPageBreak => "text:soft-page-break".toList
  | .metaDate => "text:date".toList
  | .metaTime => "text:time".toList
  | .metaPageNumber => "text:page-number".toList
  | .metaAuthorName => "text:author-name".toList
  | .metaAuthorInitials => "text:author-initials".toList
  | .metaFileName => "text:file-name".toList
  | .metaSheetName => "text:sheet-name".toList
  | .metaInitialCreator => "text:initial-creator".toList
  | .metaCreationDate => "text:creation-date".toList
  | .metaCreationTime => "text:creation-time".toList
  | .metaDescription => "text:description".toList
  | .metaPrintTime => "text:print-time".toList
  | .metaPrintDate => "text:print-date".toList
  | .metaPrintedBy => "text:printed-by".toList
  | .metaTitle => "text:title".toList
  | .metaSubject => "text:subject".toList
  | .metaKeywords => "text:keywords".toList
  | .metaEditingCycles => "text:editing-cycles".toList
  | .metaEditingDuration => "text:editing-duration".toList
  | .metaModificationTime => "text:modification-time".toList
  | .metaModificationDate => "text:modification-date".toList
  | .metaCreator => "text:creator".toList
  | .metaPageCount => "text:page-count".toList
  | .metaCharacterCount => "text:character-count".toList

/-- The attribute of the standard that a call is about. -/
def attrName : Setter → Str
  | .classNames _ => "text:class-names".toList
  | .condstyleName _ => "text:cond-style-name".toList
  | .id _ => "text:id".toList
  | .listHeader _ => "text:is-list-header".toList
  | .outlineLevel _ => "text:outline-level".toList
  | .restartNumbering _ => "text:restart-numbering".toList
  | .startValue _ => "text:start-value".toList
  | .styleName _ => "text:style-name".toList
  | .xmlId _ => "xml:id".toList
  | .visitedStyleName _ => "text:visited-style-name".toList
  | .href _ => "xlink:href".toList
  | .count _ => "text:c".toList
  | .tabRef _ => "text:tab-ref".toList

/-- The words of a list that is separated by spaces, `w` is the word so far. -/
def wordsFrom (w : Str) : Str → List Str
  | [] => if w = [] then [] else [w]
  | c :: s => if c = ' ' then (if w = [] then wordsFrom [] s else w :: wordsFrom [] s) else wordsFrom (w ++ [c]) s

/-- The words. -/
def words (s : Str) : List Str := wordsFrom [] s

/-- The digits of a number. -/
def IsNumber (s : Str) (n : Nat) : Prop := s ≠ [] ∧ (∀ c ∈ s, Refs.isDigit c = true) ∧ Refs.decVal s = n

/-- `xsd:boolean`. -/
def IsBool (s : Str) (b : Bool) : Prop := s = if b then "true".toList else "false".toList

/-- The value says what was asked for. For a list of class names the names are words, which style names are. -/
def Means (v : Str) : Setter → Prop
  | .classNames ns => (∀ n ∈ ns, n ≠ [] ∧ ' ' ∉ n) → words v = ns
  | .condstyleName n => v = n
  | .id s => v = s
  | .listHeader b => IsBool v b
  | .outlineLevel l => IsNumber v l
  | .restartNumbering b => IsBool v b
  | .startValue l => IsNumber v l
  | .styleName n => v = n
  | .xmlId s => v = s
  | .visitedStyleName n => v = n
  | .href s => v = s
  | .count n => IsNumber v n
  | .tabRef n => IsNumber v n

/-- The calls whose attribute has another name in the code. -/
def Misnamed : Setter → Prop
  | .condstyleName _ => True
  | .outlineLevel _ => True
  | _ => False

/-- The content that was asked for, in the order of the calls. -/
def pieces : List TCall → List Node
  | [] => []
  | .tag t :: cs => t :: pieces cs
  | .text s :: cs => .text s :: pieces cs
  | .set _ :: cs => pieces cs

/-- The last call about an attribute. -/
def lastSetter (k : Str) (r : Option Setter) : List TCall → Option Setter
  | [] => r
  | .set s :: cs => lastSetter k (if attrName s = k then some s else r) cs
  | _ :: cs => lastSetter k r cs

/-- The attributes of the standard: ODF 1.3 part 3, 5.1.2, 5.1.3, 6.1.7, 6.1.8, 6.1.3, 6.1.4. The fields have none of the
attributes that can be set here, and are left out. -/
def allowed : Kind → List String
  | .textH => ["text:class-names", "text:cond-style-name", "text:id", "text:is-list-header", "text:outline-level",
      "text:restart-numbering", "text:start-value", "text:style-name", "xhtml:about", "xhtml:content", "xhtml:datatype",
      "xhtml:property", "xml:id"]
  | .textP => ["text:class-names", "text:cond-style-name", "text:id", "text:style-name", "xhtml:about", "xhtml:content",
      "xhtml:datatype", "xhtml:property", "xml:id"]
  | .textSpan => ["text:class-names", "text:style-name"]
  | .textA => ["office:name", "office:target-frame-name", "office:title", "text:style-name", "text:visited-style-name",
      "xlink:actuate", "xlink:href", "xlink:show", "xlink:type"]
  | .textS => ["text:c"]
  | .textTab => ["text:tab-ref"]
  | _ => []

/-- The calls are methods of the struct. -/
def Available (k : Kind) (cs : List TCall) : Prop := ∀ s, TCall.set s ∈ cs → s.has k = true

/-! ## Display -/

mutual

/-- What is printed can be read: all names are names, and there is no character with a meaning in XML. -/
def PlainTree : Node → Prop
  | .text s => Plain s
  | .tag n as c => Name n ∧ (∀ a ∈ as, Name a.1 ∧ Plain a.2) ∧ PlainTrees c

/-- The same for a list. -/
def PlainTrees : List Node → Prop
  | [] => True
  | x :: c => PlainTree x ∧ PlainTrees c

end

mutual

/-- The tags and characters of the tree, with a line break after each tag and each text. -/
def lines : Node → List Ev
  | .text s => s.map Ev.chr ++ [.chr '\n']
  | .tag n as [] => [.empty n (attrsSay as), .chr '\n']
  | .tag n as (x :: c) => .start n (attrsSay as) :: .chr '\n' :: (lines x ++ liness c ++ [.end n, .chr '\n'])

/-- The same for a list. -/
def liness : List Node → List Ev
  | [] => []
  | x :: c => lines x ++ liness c

end

end Verif.Text.Spec
