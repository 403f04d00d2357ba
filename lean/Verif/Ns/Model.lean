import Verif.Xml.Tree
import Verif.Book.HMap

/-!
# Namespaces and the version

`NamespaceMap` of src/io/mod.rs, `write_xmlns`, the root elements of the files and `read_namespaces_and_version`.
-/

set_option autoImplicit false

namespace Verif.Ns

open Xml Verif.Book

/-- `NamespaceMap`, src/io/mod.rs:12-15: the key and whether it is `Cow::Owned`, and the value.  Simplification: whether
the value is owned is not observable. -/
abbrev NsMap := HMap Str (Bool × Str)

/-- `HashMap::insert` keeps the key that is there already, src/io/mod.rs:26-32. -/
def NsMap.put (owned : Bool) (m : NsMap) (k v : Str) : NsMap :=
  HMap.insert m k (((HMap.get? m k).map (·.1)).getD owned, v)

/-- `NamespaceMap::insert`, src/io/mod.rs:26-28. -/
def NsMap.insert (m : NsMap) (k v : Str) : NsMap := m.put true k v

/-- `NamespaceMap::insert_str`, src/io/mod.rs:30-32. -/
def NsMap.insertStr (m : NsMap) (k v : Str) : NsMap := m.put false k v

/-- The namespaces of `write_ods_metadata`, src/io/write.rs:746-753. -/
def metaNs : List (Str × Str) := [
  ("xmlns:meta".toList, "urn:oasis:names:tc:opendocument:xmlns:meta:1.0".toList),
  ("xmlns:office".toList, "urn:oasis:names:tc:opendocument:xmlns:office:1.0".toList)]

/-- The namespaces of `write_ods_settings`, src/io/write.rs:918-926. -/
def settingsNs : List (Str × Str) := [
  ("xmlns:office".toList, "urn:oasis:names:tc:opendocument:xmlns:office:1.0".toList),
  ("xmlns:ooo".toList, "http://openoffice.org/2004/office".toList),
  ("xmlns:config".toList, "urn:oasis:names:tc:opendocument:xmlns:config:1.0".toList)]

/-- The namespaces of `write_ods_styles`, src/io/write.rs:1147-1228. -/
def stylesNs : List (Str × Str) := [
  ("xmlns:meta".toList, "urn:oasis:names:tc:opendocument:xmlns:meta:1.0".toList),
  ("xmlns:office".toList, "urn:oasis:names:tc:opendocument:xmlns:office:1.0".toList),
  ("xmlns:fo".toList, "urn:oasis:names:tc:opendocument:xmlns:xsl-fo-compatible:1.0".toList),
  ("xmlns:ooo".toList, "http://openoffice.org/2004/office".toList),
  ("xmlns:xlink".toList, "http://www.w3.org/1999/xlink".toList),
  ("xmlns:dc".toList, "http://purl.org/dc/elements/1.1/".toList),
  ("xmlns:style".toList, "urn:oasis:names:tc:opendocument:xmlns:style:1.0".toList),
  ("xmlns:text".toList, "urn:oasis:names:tc:opendocument:xmlns:text:1.0".toList),
  ("xmlns:dr3d".toList, "urn:oasis:names:tc:opendocument:xmlns:dr3d:1.0".toList),
  ("xmlns:svg".toList, "urn:oasis:names:tc:opendocument:xmlns:svg-compatible:1.0".toList),
  ("xmlns:chart".toList, "urn:oasis:names:tc:opendocument:xmlns:chart:1.0".toList),
  ("xmlns:rpt".toList, "http://openoffice.org/2005/report".toList),
  ("xmlns:table".toList, "urn:oasis:names:tc:opendocument:xmlns:table:1.0".toList),
  ("xmlns:number".toList, "urn:oasis:names:tc:opendocument:xmlns:datastyle:1.0".toList),
  ("xmlns:ooow".toList, "http://openoffice.org/2004/writer".toList),
  ("xmlns:oooc".toList, "http://openoffice.org/2004/calc".toList),
  ("xmlns:of".toList, "urn:oasis:names:tc:opendocument:xmlns:of:1.2".toList),
  ("xmlns:tableooo".toList, "http://openoffice.org/2009/table".toList),
  ("xmlns:calcext".toList, "urn:org:documentfoundation:names:experimental:calc:xmlns:calcext:1.0".toList),
  ("xmlns:drawooo".toList, "http://openoffice.org/2010/draw".toList),
  ("xmlns:draw".toList, "urn:oasis:names:tc:opendocument:xmlns:drawing:1.0".toList),
  ("xmlns:loext".toList, "urn:org:documentfoundation:names:experimental:office:xmlns:loext:1.0".toList),
  ("xmlns:field".toList, "urn:openoffice:names:experimental:ooo-ms-interop:xmlns:field:1.0".toList),
  ("xmlns:math".toList, "http://www.w3.org/1998/Math/MathML".toList),
  ("xmlns:form".toList, "urn:oasis:names:tc:opendocument:xmlns:form:1.0".toList),
  ("xmlns:script".toList, "urn:oasis:names:tc:opendocument:xmlns:script:1.0".toList),
  ("xmlns:dom".toList, "http://www.w3.org/2001/xml-events".toList),
  ("xmlns:xhtml".toList, "http://www.w3.org/1999/xhtml".toList),
  ("xmlns:grddl".toList, "http://www.w3.org/2003/g/data-view#".toList),
  ("xmlns:css3t".toList, "http://www.w3.org/TR/css3-text/".toList),
  ("xmlns:presentation".toList, "urn:oasis:names:tc:opendocument:xmlns:presentation:1.0".toList)]

/-- The namespaces of `write_ods_content`, src/io/write.rs:1254-1342. -/
def contentNs : List (Str × Str) := [
  ("xmlns:meta".toList, "urn:oasis:names:tc:opendocument:xmlns:meta:1.0".toList),
  ("xmlns:office".toList, "urn:oasis:names:tc:opendocument:xmlns:office:1.0".toList),
  ("xmlns:fo".toList, "urn:oasis:names:tc:opendocument:xmlns:xsl-fo-compatible:1.0".toList),
  ("xmlns:ooo".toList, "http://openoffice.org/2004/office".toList),
  ("xmlns:xlink".toList, "http://www.w3.org/1999/xlink".toList),
  ("xmlns:dc".toList, "http://purl.org/dc/elements/1.1/".toList),
  ("xmlns:style".toList, "urn:oasis:names:tc:opendocument:xmlns:style:1.0".toList),
  ("xmlns:text".toList, "urn:oasis:names:tc:opendocument:xmlns:text:1.0".toList),
  ("xmlns:draw".toList, "urn:oasis:names:tc:opendocument:xmlns:drawing:1.0".toList),
  ("xmlns:dr3d".toList, "urn:oasis:names:tc:opendocument:xmlns:dr3d:1.0".toList),
  ("xmlns:svg".toList, "urn:oasis:names:tc:opendocument:xmlns:svg-compatible:1.0".toList),
  ("xmlns:chart".toList, "urn:oasis:names:tc:opendocument:xmlns:chart:1.0".toList),
  ("xmlns:rpt".toList, "http://openoffice.org/2005/report".toList),
  ("xmlns:table".toList, "urn:oasis:names:tc:opendocument:xmlns:table:1.0".toList),
  ("xmlns:number".toList, "urn:oasis:names:tc:opendocument:xmlns:datastyle:1.0".toList),
  ("xmlns:ooow".toList, "http://openoffice.org/2004/writer".toList),
  ("xmlns:oooc".toList, "http://openoffice.org/2004/calc".toList),
  ("xmlns:of".toList, "urn:oasis:names:tc:opendocument:xmlns:of:1.2".toList),
  ("xmlns:tableooo".toList, "http://openoffice.org/2009/table".toList),
  ("xmlns:calcext".toList, "urn:org:documentfoundation:names:experimental:calc:xmlns:calcext:1.0".toList),
  ("xmlns:drawooo".toList, "http://openoffice.org/2010/draw".toList),
  ("xmlns:loext".toList, "urn:org:documentfoundation:names:experimental:office:xmlns:loext:1.0".toList),
  ("xmlns:field".toList, "urn:openoffice:names:experimental:ooo-ms-interop:xmlns:field:1.0".toList),
  ("xmlns:math".toList, "http://www.w3.org/1998/Math/MathML".toList),
  ("xmlns:form".toList, "urn:oasis:names:tc:opendocument:xmlns:form:1.0".toList),
  ("xmlns:script".toList, "urn:oasis:names:tc:opendocument:xmlns:script:1.0".toList),
  ("xmlns:dom".toList, "http://www.w3.org/2001/xml-events".toList),
  ("xmlns:xforms".toList, "http://www.w3.org/2002/xforms".toList),
  ("xmlns:xsd".toList, "http://www.w3.org/2001/XMLSchema".toList),
  ("xmlns:xsi".toList, "http://www.w3.org/2001/XMLSchema-instance".toList),
  ("xmlns:formx".toList, "urn:openoffice:names:experimental:ooxml-odf-interop:xmlns:form:1.0".toList),
  ("xmlns:xhtml".toList, "http://www.w3.org/1999/xhtml".toList),
  ("xmlns:grddl".toList, "http://www.w3.org/2003/g/data-view#".toList),
  ("xmlns:css3t".toList, "http://www.w3.org/TR/css3-text/".toList),
  ("xmlns:presentation".toList, "urn:oasis:names:tc:opendocument:xmlns:presentation:1.0".toList)]

/-- The namespaces of `write_fods_content`, src/io/write.rs:223-315. -/
def flatNs : List (Str × Str) := [
  ("xmlns:office".toList, "urn:oasis:names:tc:opendocument:xmlns:office:1.0".toList),
  ("xmlns:ooo".toList, "http://openoffice.org/2004/office".toList),
  ("xmlns:fo".toList, "urn:oasis:names:tc:opendocument:xmlns:xsl-fo-compatible:1.0".toList),
  ("xmlns:xlink".toList, "http://www.w3.org/1999/xlink".toList),
  ("xmlns:config".toList, "urn:oasis:names:tc:opendocument:xmlns:config:1.0".toList),
  ("xmlns:dc".toList, "http://purl.org/dc/elements/1.1/".toList),
  ("xmlns:meta".toList, "urn:oasis:names:tc:opendocument:xmlns:meta:1.0".toList),
  ("xmlns:style".toList, "urn:oasis:names:tc:opendocument:xmlns:style:1.0".toList),
  ("xmlns:text".toList, "urn:oasis:names:tc:opendocument:xmlns:text:1.0".toList),
  ("xmlns:rpt".toList, "http://openoffice.org/2005/report".toList),
  ("xmlns:draw".toList, "urn:oasis:names:tc:opendocument:xmlns:drawing:1.0".toList),
  ("xmlns:dr3d".toList, "urn:oasis:names:tc:opendocument:xmlns:dr3d:1.0".toList),
  ("xmlns:svg".toList, "urn:oasis:names:tc:opendocument:xmlns:svg-compatible:1.0".toList),
  ("xmlns:chart".toList, "urn:oasis:names:tc:opendocument:xmlns:chart:1.0".toList),
  ("xmlns:table".toList, "urn:oasis:names:tc:opendocument:xmlns:table:1.0".toList),
  ("xmlns:number".toList, "urn:oasis:names:tc:opendocument:xmlns:datastyle:1.0".toList),
  ("xmlns:ooow".toList, "http://openoffice.org/2004/writer".toList),
  ("xmlns:oooc".toList, "http://openoffice.org/2004/calc".toList),
  ("xmlns:of".toList, "urn:oasis:names:tc:opendocument:xmlns:of:1.2".toList),
  ("xmlns:xforms".toList, "http://www.w3.org/2002/xforms".toList),
  ("xmlns:tableooo".toList, "http://openoffice.org/2009/table".toList),
  ("xmlns:calcext".toList, "urn:org:documentfoundation:names:experimental:calc:xmlns:calcext:1.0".toList),
  ("xmlns:drawooo".toList, "http://openoffice.org/2010/draw".toList),
  ("xmlns:loext".toList, "urn:org:documentfoundation:names:experimental:office:xmlns:loext:1.0".toList),
  ("xmlns:field".toList, "urn:openoffice:names:experimental:ooo-ms-interop:xmlns:field:1.0".toList),
  ("xmlns:math".toList, "http://www.w3.org/1998/Math/MathML".toList),
  ("xmlns:form".toList, "urn:oasis:names:tc:opendocument:xmlns:form:1.0".toList),
  ("xmlns:script".toList, "urn:oasis:names:tc:opendocument:xmlns:script:1.0".toList),
  ("xmlns:formx".toList, "urn:openoffice:names:experimental:ooxml-odf-interop:xmlns:form:1.0".toList),
  ("xmlns:dom".toList, "http://www.w3.org/2001/xml-events".toList),
  ("xmlns:xsd".toList, "http://www.w3.org/2001/XMLSchema".toList),
  ("xmlns:xsi".toList, "http://www.w3.org/2001/XMLSchema-instance".toList),
  ("xmlns:xhtml".toList, "http://www.w3.org/1999/xhtml".toList),
  ("xmlns:grddl".toList, "http://www.w3.org/2003/g/data-view#".toList),
  ("xmlns:css3t".toList, "http://www.w3.org/TR/css3-text/".toList),
  ("xmlns:presentation".toList, "urn:oasis:names:tc:opendocument:xmlns:presentation:1.0".toList)]

/-- The files that have namespaces: four of a package, and the flat one. -/
inductive Part where
  | metadata | settings | styles | content | flat
  deriving DecidableEq

/-- The root elements, src/io/write.rs:757, 930, 1232, 1346, 319. -/
def Part.root : Part → Str
  | .metadata => "office:document-meta".toList
  | .settings => "office:document-settings".toList
  | .styles => "office:document-styles".toList
  | .content => "office:document-content".toList
  | .flat => "office:document".toList

/-- The key the namespaces are written from, src/io/write.rs:743, 915, 1144, 1251, 220. -/
def Part.writeKey : Part → Str
  | .metadata => "meta.xml".toList
  | .settings => "settings.xml".toList
  | .styles => "styles.xml".toList
  | .content => "content.xml".toList
  | .flat => "meta.xml".toList

/-- The key the namespaces are read to, src/io/read.rs:3777, 4243, 3642, 751, 274. -/
def Part.readKey : Part → Str
  | .metadata => "meta.xml".toList
  | .settings => "settings.xml".toList
  | .styles => "styles.xml".toList
  | .content => "content.xml".toList
  | .flat => "fods.xml".toList

/-- The namespaces of the crate. -/
def Part.table : Part → List (Str × Str)
  | .metadata => metaNs
  | .settings => settingsNs
  | .styles => stylesNs
  | .content => contentNs
  | .flat => flatNs

/-- The version is taken from these, src/io/read.rs:748-750, 275-277. -/
def Part.versioned : Part → Bool
  | .content => true
  | .flat => true
  | _ => false

/-- The fields of `WorkBook`, src/workbook_.rs:44, 93; the version of a new one is src/workbook_.rs:251. -/
structure NsBook where
  xmlns : HMap Str NsMap := []
  version : Str := "1.3".toList

def aVersion : Str := "office:version".toList
def aMime : Str := "office:mimetype".toList
def mime : Str := "application/vnd.oasis.opendocument.spreadsheet".toList

/-! ## Writing -/

/-- The `insert_str` calls, src/io/write.rs:746-753 and the others. -/
def NsMap.declare (m : NsMap) (t : List (Str × Str)) : NsMap := t.foldl (fun m e => m.insertStr e.1 e.2) m

/-- `write_xmlns`, src/io/write.rs:726-738. -/
def writeXmlns (m : NsMap) : List Call := m.map fun e => if e.2.1 then .attrEsc e.1 e.2.2 else .attr e.1 e.2.2

/-- The root element of a file with its attributes, src/io/write.rs:740-759, 912-932, 1141-1234, 1248-1348,
217-325. -/
def writeRoot (p : Part) (b : NsBook) : NsBook × List Call :=
  let m := NsMap.declare ((b.xmlns.get? p.writeKey).getD []) p.table
  ({ b with xmlns := b.xmlns.insert p.writeKey m },
   .elem p.root :: (writeXmlns m ++ (.attrEsc aVersion b.version
    :: if p = .flat then [.attrEsc aMime mime] else [])))

/-! ## Reading -/

/-- `xmlns:` -/
def xmlnsPrefix : Str := "xmlns:".toList

/-- `read_namespaces_and_version`, src/io/read.rs:874-911.  Simplification: attributes that are not known are not
reported. -/
def readNs : Option Str → NsMap → List (Str × Str) → Except Fault (Option Str × NsMap)
  | ver, m, [] => .ok (ver, m)
  | ver, m, (k, v) :: as =>
    if k = aVersion then
      match unescape v with
      | none => .error .badAttr
      | some v => readNs (some v) m as
    else if xmlnsPrefix.isPrefixOf k then
      match unescape v with
      | none => .error .badAttr
      | some v => readNs ver (m.insert k v) as
    else if k = aMime then
      match unescape v with
      | none => .error .badAttr
      | some v => if v ≠ mime then .error .parse else readNs ver m as
    else readNs ver m as

/-- The start tag of the root element, src/io/read.rs:746-752, 3640-3643, 3775-3778, 4241-4244, 272-278. -/
def readRoot (p : Part) (b : NsBook) (as : List (Str × Str)) : Except Fault NsBook :=
  match readNs none [] as with
  | .error e => .error e
  | .ok (ver, m) =>
    .ok { xmlns := b.xmlns.insert p.readKey m
          version := if p.versioned then ver.getD b.version else b.version }

end Verif.Ns
