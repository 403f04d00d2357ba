import Verif.Book.HMap
import Verif.Codec.Note

/-!
# Scripts and event listeners (src/workbook_.rs, src/xlink.rs, src/io/write.rs, src/io/read.rs)
-/

set_option autoImplicit false

namespace Verif.Script

open Xml Codec Book

/-- `Script`, src/workbook_.rs:1207-1211. -/
structure Script where
  lang : Str := []
  content : List Node := []
  deriving DecidableEq

/-- `XLinkActuate`, src/xlink.rs:8-13. -/
inductive Actuate where
  | onLoad | onRequest
  deriving DecidableEq

/-- `XLinkType`, src/xlink.rs:43-60. -/
inductive LinkType where
  | simple | extended | locator | arc | resource | title | none
  deriving DecidableEq

/-- `EventListener`, src/workbook_.rs:1244-1252; the defaults are those of `EventListener::new`, 1256-1265. -/
structure Listener where
  event : Str := []
  lang : Str := []
  macroName : Str := []
  actuate : Actuate := .onLoad
  href : Str := []
  type : LinkType := .simple
  deriving DecidableEq

/-- `scripts` and `event_listener` of `WorkBook`, src/workbook_.rs:39-103. -/
structure Scripts where
  scripts : List Script := []
  listeners : HMap Str Listener := []

/-- `add_script`, src/workbook_.rs:454-456. -/
def Scripts.addScript (b : Scripts) (s : Script) : Scripts := { b with scripts := b.scripts ++ [s] }

/-- `add_event_listener`, src/workbook_.rs:474-476. -/
def Scripts.addListener (b : Scripts) (e : Listener) : Scripts := { b with listeners := b.listeners.insert e.event e }

/-! ## Names -/

def tScripts : Str := "office:scripts".toList
def tScript : Str := "office:script".toList
/-- The name in the end tag of a script, src/io/write.rs:2355. -/
def tScriptEnd : Str := "/office:script".toList
def tListeners : Str := "office:event-listeners".toList
def tListener : Str := "script:event-listener".toList
def aEvent : Str := "script:event-name".toList
def aLang : Str := "script:language".toList
def aMacro : Str := "script:macro-name".toList
def aActuate : Str := "xlink:actuate".toList
def aHref : Str := "xlink:href".toList
def aType : Str := "xlink:type".toList

/-! ## Writing -/

/-- `Display for XLinkActuate`, src/xlink.rs:15-22. -/
def Actuate.fmt : Actuate → Str
  | .onLoad => "OnLoad".toList
  | .onRequest => "OnRequest".toList

/-- `Display for XLinkType`, src/xlink.rs:62-74. -/
def LinkType.fmt : LinkType → Str
  | .simple => "simple".toList
  | .extended => "extended".toList
  | .locator => "locator".toList
  | .arc => "arc".toList
  | .resource => "resource".toList
  | .title => "title".toList
  | .none => "none".toList

/-- `write_scripts`, src/io/write.rs:2346-2359. -/
def writeScripts (l : List Script) : List Call :=
  l.flatMap fun s => .elem tScript :: .attrEsc aLang s.lang :: (writeNodes s.content ++ [.endElem tScriptEnd])

/-- `write_event_listeners`, src/io/write.rs:2361-2376; `l` are the listeners in any order. -/
def writeListeners (l : List Listener) : List Call :=
  l.flatMap fun e => [.empty tListener, .attrEsc aEvent e.event, .attrEsc aLang e.lang, .attrEsc aMacro e.macroName,
    .attrEsc aActuate e.actuate.fmt, .attrEsc aHref e.href, .attrEsc aType e.type.fmt]

/-- `write_office_scripts`, src/io/write.rs:1406-1412. -/
def writeOffice (ss : List Script) (ls : List Listener) : List Call :=
  .elemIf (!ss.isEmpty) tScripts :: (writeScripts ss ++ (writeListeners ls ++ [.endElemIf (!ss.isEmpty) tScripts]))

/-! ## Reading -/

/-- `parse_xlink_actuate`, src/io/parse.rs:83-92. -/
def parseActuate (s : Str) : Option Actuate :=
  if s = "onLoad".toList then some .onLoad
  else if s = "onRequest".toList then some .onRequest
  else none

/-- `parse_xlink_type`, src/io/parse.rs:109-123. -/
def parseType (s : Str) : Option LinkType :=
  if s = "simple".toList then some .simple
  else if s = "extended".toList then some .extended
  else if s = "locator".toList then some .locator
  else if s = "arc".toList then some .arc
  else if s = "resource".toList then some .resource
  else if s = "title".toList then some .title
  else if s = "none".toList then some .none
  else none

/-- The attributes of a listener that are known. -/
inductive LKey where
  | event | lang | macroName | actuate | href | type
  deriving DecidableEq

/-- src/io/read.rs:1895-1914. -/
def lKey (k : Str) : Option LKey :=
  if k = aEvent then some .event
  else if k = aLang then some .lang
  else if k = aMacro then some .macroName
  else if k = aActuate then some .actuate
  else if k = aHref then some .href
  else if k = aType then some .type
  else none

/-- One attribute, src/io/read.rs:1894-1919; `v` is unescaped. -/
def setKey (e : Listener) (v : Str) : LKey → Except Fault Listener
  | .event => .ok { e with event := v }
  | .lang => .ok { e with lang := v }
  | .macroName => .ok { e with macroName := v }
  | .actuate => (orFail .parse (parseActuate v)).map fun a => { e with actuate := a }
  | .href => .ok { e with href := v }
  | .type => (orFail .parse (parseType v)).map fun t => { e with type := t }

/-- `read_event_listener`, src/io/read.rs:1889-1922. -/
def readListener : Listener → List (Str × Str) → Except Fault Listener
  | e, [] => .ok e
  | e, (k, v) :: as =>
    match lKey k with
    | none => readListener e as
    | some key =>
      match unescape v with
      | none => .error .badAttr
      | some v =>
        match setKey e v key with
        | .error f => .error f
        | .ok e => readListener e as

/-- `AttrMap2::attr`: the value of an attribute; a later one replaces an earlier one. -/
def attrOf (k : Str) (as : List (Str × Str)) : Option Str := (as.reverse.find? fun a => a.1 = k).map (·.2)

/-- `read_script`, src/io/read.rs:1872-1886, for an element that was read. -/
def toScript : Node → Script
  | .text _ => {}
  | .tag _ as c => { lang := (attrOf aLang as).getD [], content := c }

/-- The loop of `read_xml`, src/io/read.rs:4718-4775, after an *empty* tag `root`, which `read_script` reads like a
start tag (src/io/read.rs:1877); `base` is the element of the empty tag and `outer` the element around it, which is
the open one for `quick-xml` when the stack of elements that were opened since is empty. -/
def readXmlLoose (root outer : Str) : Frame → List Frame → List Event → Except Fault (Node × List Event)
  | base, st, [] => .ok ((st.headD base).node, [])
  | base, st, .start n as :: es =>
    match unescapeAttrs as with
    | none => .error .badAttr
    | some as => readXmlLoose root outer base (⟨n, as, []⟩ :: st) es
  | base, [], .end n :: es =>
    if n ≠ outer then .error .mismatchedEnd
    else if n = root then .ok (base.node, es)
    else .error .panic
  | base, f :: st, .end n :: es =>
    if n ≠ f.name then .error .mismatchedEnd
    else if n = root then .ok (f.node, es)
    else
      match st with
      | [] => readXmlLoose root outer (base.add f.node) [] es
      | p :: st => readXmlLoose root outer base (p.add f.node :: st) es
  | base, [], .empty n as :: es =>
    match unescapeAttrs as with
    | none => .error .badAttr
    | some as => readXmlLoose root outer (base.add (.tag n as [])) [] es
  | base, f :: st, .empty n as :: es =>
    match unescapeAttrs as with
    | none => .error .badAttr
    | some as => readXmlLoose root outer base (f.add (.tag n as []) :: st) es
  | base, [], .ref n :: es => readXmlLoose root outer (base.add (.text (entity n))) [] es
  | base, f :: st, .ref n :: es => readXmlLoose root outer base (f.add (.text (entity n)) :: st) es
  | base, [], .text s :: es => readXmlLoose root outer (base.add (.text s)) [] es
  | base, f :: st, .text s :: es => readXmlLoose root outer base (f.add (.text s) :: st) es

/-- `read_script`, src/io/read.rs:1872-1886.  Simplification: the element around an empty tag is taken to be
`office:scripts`. -/
def readScript (n : Str) (as : List (Str × Str)) (emptyTag : Bool) (es : List Event) :
    Except Fault (Script × List Event) :=
  (if emptyTag then
    match unescapeAttrs as with
    | none => .error .badAttr
    | some as => readXmlLoose n tScripts ⟨n, as, []⟩ [] es
  else readXml n as false es).map fun x => (toScript x.1, x.2)

/-- What follows the end tag of an element that has at most text, which the loop of src/io/read.rs:1829-1867 passes over;
`none`: there are elements inside, or another end tag. -/
def leafEnd (n : Str) : List Event → Option (List Event)
  | [] => some []
  | .text _ :: es => leafEnd n es
  | .ref _ :: es => leafEnd n es
  | .end m :: es => if m = n then some es else none
  | _ :: _ => none

/-- The elements in `office:scripts`, src/io/read.rs:1839-1857.  Simplification: an event listener with elements inside
is passed over here; the code reads it, and then the elements inside as if they came after it. -/
def scriptsChild : Child Scripts := fun b n as emptyTag es =>
  if n = tScript then (readScript n as emptyTag es).map fun x => some (b.addScript x.1, x.2)
  else if n = tListener ∧ emptyTag = true then (readListener {} as).map fun e => some (b.addListener e, es)
  else if n = tListener then
    match leafEnd n es with
    | some es => (readListener {} as).map fun e => some (b.addListener e, es)
    | none => .ok none
  else .ok none

/-- `read_scripts`, src/io/read.rs:1827-1870, after its start tag. -/
def readScripts (b : Scripts) (es : List Event) : Except Fault (Scripts × List Event) :=
  subLoop tScripts scriptsChild (es.length + 1) b [] es

end Verif.Script
