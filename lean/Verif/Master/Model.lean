import Verif.Book.Names
import Verif.Codec.Cell

/-!
# Master pages: headers and footers (src/style/masterpage.rs, src/io/write.rs, src/io/read.rs)
-/

set_option autoImplicit false

namespace Verif.Master

open Xml Codec Book

/-- `HeaderFooter`, src/style/masterpage.rs:234-242.  The default of all fields is that of the derived `Default`. -/
structure HeaderFooter where
  display : Bool := false
  left : List Node := []
  center : List Node := []
  right : List Node := []
  content : List Node := []
  deriving DecidableEq

/-- `HeaderFooter::new`, src/style/masterpage.rs:246-254. -/
def HeaderFooter.new : HeaderFooter := { display := true }

/-- `HeaderFooter::is_empty`, src/style/masterpage.rs:267-272. -/
def HeaderFooter.isEmpty (h : HeaderFooter) : Bool :=
  h.left.isEmpty && h.center.isEmpty && h.right.isEmpty && h.content.isEmpty

/-- The six headers and footers of a master page. -/
inductive Slot where
  | header | headerFirst | headerLeft | footer | footerFirst | footerLeft
  deriving DecidableEq

/-- `MasterPage` without the name, src/style/masterpage.rs:42-55. -/
structure Master where
  display : Str := []
  page : Option Str := none
  next : Option Str := none
  slot : Slot → HeaderFooter := fun _ => {}

/-- `MasterPage::new`, src/style/masterpage.rs:75-88. -/
def newMaster (name : Str) : Style Master := ⟨name, {}⟩

/-- `header_mut`, `set_header`, ...: src/style/masterpage.rs:139-226, with a change `f`. -/
def Master.change (p : Master) (s : Slot) (f : HeaderFooter → HeaderFooter) : Master :=
  { p with slot := fun t => if t = s then f (p.slot t) else p.slot t }

/-! ## Names -/

def tMasters : Str := "office:master-styles".toList
def tMaster : Str := "style:master-page".toList
def aName : Str := "style:name".toList
def aDisplayName : Str := "style:display-name".toList
def aLayout : Str := "style:page-layout-name".toList
def aNext : Str := "style:next-style-name".toList
def aDisplay : Str := "style:display".toList
def tLeft : Str := "style:region-left".toList
def tCenter : Str := "style:region-center".toList
def tRight : Str := "style:region-right".toList
def hName : Str := "text:h".toList

/-- The tags of the headers and footers, src/io/write.rs:3046-3087. -/
def Slot.tag : Slot → Str
  | .header => "style:header".toList
  | .headerFirst => "style:header-first".toList
  | .headerLeft => "style:header-left".toList
  | .footer => "style:footer".toList
  | .footerFirst => "style:footer-first".toList
  | .footerLeft => "style:footer-left".toList

/-- The order in which they are written, src/io/write.rs:3045-3088. -/
def slots : List Slot := [.header, .headerFirst, .headerLeft, .footer, .footerFirst, .footerLeft]

/-! ## Writing -/

/-- One region, e.g. src/io/write.rs:3094-3100. -/
def writeRegion (tag : Str) (l : List Node) : List Call :=
  if l = [] then [] else .elem tag :: (writeNodes l ++ [.endElem tag])

/-- `write_regions`, src/io/write.rs:3093-3121. -/
def writeRegions (h : HeaderFooter) : List Call :=
  writeRegion tLeft h.left ++ writeRegion tCenter h.center ++ writeRegion tRight h.right ++ writeNodes h.content

/-- Is `style:display="false"` written?  src/io/write.rs:3047, 3054, 3061, 3069, 3076, 3083. -/
def hides (s : Slot) (h : HeaderFooter) : Bool :=
  match s with
  | .header | .footer => !h.display
  | _ => !h.display || h.isEmpty

/-- One header or footer, src/io/write.rs:3046-3051, 3053-3058, 3060-3065, 3068-3073, 3075-3080, 3082-3087. -/
def writeSlot (s : Slot) (h : HeaderFooter) : List Call :=
  .elemIf (!h.isEmpty) s.tag
    :: ((if hides s h then [.attr aDisplay "false".toList] else [])
      ++ (writeRegions h ++ [.endElemIf (!h.isEmpty) s.tag]))

/-- One master page, src/io/write.rs:3030-3089. -/
def writeMaster (p : Style Master) : List Call :=
  .elem tMaster :: .attrEsc aName p.name
    :: ((if p.body.display = [] then [] else [.attrEsc aDisplayName p.body.display])
      ++ (match p.body.page with | none => [] | some s => [.attrEsc aLayout s])
      ++ (match p.body.next with | none => [] | some s => [.attrEsc aNext s])
      ++ (slots.flatMap (fun s => writeSlot s (p.body.slot s)) ++ [.endElem tMaster]))

/-- `write_office_master_styles` with `write_masterpage`, src/io/write.rs:2431-2439, 3026-3091; `l` are the master
pages in any order. -/
def writeMasters (l : List (Style Master)) : List Call :=
  .elem tMasters :: (l.flatMap writeMaster ++ [.endElem tMasters])

/-! ## Reading -/

/-- The characters of `char::is_whitespace`. -/
def isWhite (c : Char) : Bool :=
  (9 ≤ c.toNat && c.toNat ≤ 13) || c.toNat = 32 || c.toNat = 0x85 || c.toNat = 0xA0 || c.toNat = 0x1680
    || (0x2000 ≤ c.toNat && c.toNat ≤ 0x200A) || c.toNat = 0x2028 || c.toNat = 0x2029 || c.toNat = 0x202F
    || c.toNat = 0x205F || c.toNat = 0x3000

/-- `XmlTag::into_vec`, src/xmltree.rs:225-241. -/
def intoVec : List Node → Except Fault (List Node)
  | [] => .ok []
  | .text s :: l => if s.all isWhite then intoVec l else .error .parse
  | .tag n as c :: l => (intoVec l).map fun l => .tag n as c :: l

/-- The content of an element. -/
def kids : Node → List Node
  | .text _ => []
  | .tag _ _ c => c

/-- A region, e.g. src/io/read.rs:2399-2400. -/
def withRegion {α : Type} (n : Str) (as : List (Str × Str)) (emptyTag : Bool) (es : List Event)
    (g : List Node → α) : Except Fault (Option (α × List Event)) :=
  match readXml n as emptyTag es with
  | .error e => .error e
  | .ok (x, es) => (intoVec (kids x)).map fun l => some (g l, es)

/-- The state of `read_headerfooter`: `hf` and `content`. -/
structure HState where
  hf : HeaderFooter
  text : TextContent := .empty

/-- The elements in a header or footer, src/io/read.rs:2396-2430. -/
def hfChild : Child HState := fun h n as emptyTag es =>
  if n = tLeft then withRegion n as emptyTag es fun l => { h with hf := { h.hf with left := l } }
  else if n = tCenter then withRegion n as emptyTag es fun l => { h with hf := { h.hf with center := l } }
  else if n = tRight then withRegion n as emptyTag es fun l => { h with hf := { h.hf with right := l } }
  else if n = pName ∨ n = hName then
    if emptyTag then (appendText (.text []) h.text).map fun c => some ({ h with text := c }, es)
    else
      match readText n as es with
      | .error e => .error e
      | .ok (t, es) => (appendText t h.text).map fun c => some ({ h with text := c }, es)
  else .ok none

/-- The attributes of a header or footer, src/io/read.rs:2373-2382; the value is not unescaped. -/
def hfAttrs (h : HeaderFooter) : List (Str × Str) → Except Fault HeaderFooter
  | [] => .ok h
  | (k, v) :: as =>
    if k = aDisplay then
      match parseBool v with
      | none => .error .parse
      | some b => hfAttrs { h with display := b } as
    else hfAttrs h as

/-- The free content, src/io/read.rs:2435-2440. -/
def contentNodes : TextContent → List Node
  | .empty => []
  | .text t => [textP t]
  | .xml f => [f.node]
  | .xmlVec l => l

/-- `read_headerfooter`, src/io/read.rs:2365-2447.  Simplification: at the end of the file the free content
is kept; the code drops it. -/
def readHF (tag : Str) (as : List (Str × Str)) (es : List Event) : Except Fault (HeaderFooter × List Event) :=
  match hfAttrs HeaderFooter.new as with
  | .error e => .error e
  | .ok h =>
    (subLoop tag hfChild (es.length + 1) { hf := h } [] es).map fun x =>
      ({ x.1.hf with content := contentNodes x.1.text }, x.2)

/-- Which header or footer a tag is, src/io/read.rs:2318-2341. -/
def slotOf (n : Str) : Option Slot :=
  if n = Slot.header.tag then some .header
  else if n = Slot.headerFirst.tag then some .headerFirst
  else if n = Slot.headerLeft.tag then some .headerLeft
  else if n = Slot.footer.tag then some .footer
  else if n = Slot.footerFirst.tag then some .footerFirst
  else if n = Slot.footerLeft.tag then some .footerLeft
  else none

/-- The elements in a master page, src/io/read.rs:2318-2341. -/
def masterChild : Child Master := fun p n as emptyTag es =>
  match slotOf n with
  | none => .ok none
  | some s =>
    if emptyTag then .ok (some (p, es))
    else (readHF n as es).map fun x => some (p.change s fun _ => x.1, x.2)

/-- The attributes that are read. -/
inductive MKey where
  | name | layout | display | next
  deriving DecidableEq

/-- The attributes of a master page, src/io/read.rs:2293-2307. -/
def mKey (k : Str) : Option MKey :=
  if k = aName then some .name
  else if k = aLayout then some .layout
  else if k = aDisplayName then some .display
  else if k = aNext then some .next
  else none

/-- The loop over the attributes, src/io/read.rs:2292-2311. -/
def masterAttrs : Str × Master → List (Str × Str) → Except Fault (Str × Master)
  | x, [] => .ok x
  | x, (k, v) :: as =>
    match mKey k with
    | none => masterAttrs x as
    | some key =>
      match unescape v with
      | none => .error .badAttr
      | some v =>
        match key with
        | .name => masterAttrs (v, x.2) as
        | .layout => masterAttrs (x.1, { x.2 with page := some v }) as
        | .display => masterAttrs (x.1, { x.2 with display := v }) as
        | .next => masterAttrs (x.1, { x.2 with next := some v }) as

/-- The loop of `read_master_page`, src/io/read.rs:2313-2356, after an *empty* tag: there is no end tag of its own, so
the end tags of the elements around it are passed over, up to that of another master page or to the end of the file. -/
def looseLoop {α : Type} (tag : Str) (f : Child α) : Nat → α → List Event → Except Fault (α × List Event)
  | 0, _, _ => .error .panic
  | _ + 1, a, [] => .ok (a, [])
  | k + 1, a, .text _ :: es => looseLoop tag f k a es
  | k + 1, a, .ref _ :: es => looseLoop tag f k a es
  | k + 1, a, .end n :: es => if n = tag then .ok (a, es) else looseLoop tag f k a es
  | k + 1, a, .start n as :: es =>
    match f a n as false es with
    | .error e => .error e
    | .ok none => looseLoop tag f k a es
    | .ok (some (a, es)) => looseLoop tag f k a es
  | k + 1, a, .empty n as :: es =>
    match f a n as true es with
    | .error e => .error e
    | .ok none => looseLoop tag f k a es
    | .ok (some (a, es)) => looseLoop tag f k a es

/-- `read_master_page`, src/io/read.rs:2284-2362, which does not know whether its tag was an empty one
(src/io/read.rs:2261-2265).  Simplification: after an empty tag the model does not check that the end tags fit. -/
def readMaster (as : List (Str × Str)) (emptyTag : Bool) (es : List Event) :
    Except Fault (Style Master × List Event) :=
  match masterAttrs ([], {}) as with
  | .error e => .error e
  | .ok (name, p) =>
    (if emptyTag then looseLoop tMaster masterChild (es.length + 1) p es
     else subLoop tMaster masterChild (es.length + 1) p [] es).map fun x => (⟨name, x.1⟩, x.2)

/-- `add_masterpage`, src/workbook_.rs:1081-1088. -/
def addMaster (b : Stores Master) (p : Style Master) : Except Fault (Stores Master) :=
  match b.add .masterPage p with
  | .ok (b, _) => .ok b
  | .error _ => .error .panic

/-- The elements in `office:master-styles`, src/io/read.rs:2261-2265. -/
def mastersChild : Child (Stores Master) := fun b n as emptyTag es =>
  if n = tMaster then
    match readMaster as emptyTag es with
    | .error e => .error e
    | .ok (p, es) => (addMaster b p).map fun b => some (b, es)
  else .ok none

/-- `read_office_master_styles`, src/io/read.rs:2249-2281, after its start tag. -/
def readMasters (b : Stores Master) (es : List Event) : Except Fault (Stores Master × List Event) :=
  subLoop tMasters mastersChild (es.length + 1) b [] es

end Verif.Master
