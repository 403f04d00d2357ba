import Verif.Book.HMap

/-!
# The package: manifest and zip archive (src/manifest.rs, src/io/write.rs, src/io/read.rs)

`zip::ZipWriter` and `zip::ZipArchive` are not part of the repository.  What is assumed: `start_file` and
`add_directory` refuse a name that is in the archive already; `by_name` finds the file with the name; the bytes of a
file come back.  The text of `META-INF/manifest.xml` is in `Verif/Package/Xml.lean`; here the reader gets the
entries that were written.
-/

set_option autoImplicit false

namespace Verif.Package

open Book

/-- Bytes. -/
abbrev Bytes := List UInt8

/-- `struct Manifest`, src/manifest.rs:8-20. -/
structure Manifest where
  fullPath : Str
  version : Option Str := none
  mediaType : Str := []
  buffer : Option Bytes := none
  deriving DecidableEq

/-- `WorkBook::manifest`, src/workbook_.rs:95-96. -/
abbrev Manifests := HMap Str Manifest

/-- `Manifest::is_dir`, src/manifest.rs:58-61. -/
def isDir (path : Str) : Bool := path.getLast? == some '/'

/-- `add_manifest`, src/workbook_.rs:1146-1148. -/
def addManifest (ms : Manifests) (m : Manifest) : Manifests := ms.insert m.fullPath m

/-- The calls of a user: `add_manifest` and `remove_manifest`, src/workbook_.rs:1146-1153. (With `manifest_mut` the
path of an entry can be changed behind the back of the map; this is not among them.) -/
inductive Op where
  | add (m : Manifest)
  | remove (path : Str)

/-- A history of calls. -/
def run (ms : Manifests) : List Op → Manifests
  | [] => ms
  | .add m :: os => run (addManifest ms m) os
  | .remove p :: os => run (ms.remove p) os

def pRoot : Str := "/".toList
def pRdf : Str := "manifest.rdf".toList
def pStyles : Str := "styles.xml".toList
def pMeta : Str := "meta.xml".toList
def pContent : Str := "content.xml".toList
def pSettings : Str := "settings.xml".toList
def pMimetype : Str := "mimetype".toList
def pMetaInf : Str := "META-INF/".toList
def pManifest : Str := "META-INF/manifest.xml".toList

/-- `if !book.manifest.contains_key(..) { book.add_manifest(..) }`. -/
def addMissing (ms : Manifests) (m : Manifest) : Manifests :=
  if ms.contains m.fullPath then ms else addManifest ms m

/-- `create_manifest`, src/io/write.rs:625-651, and `create_manifest_rdf`, 653-697, with the bytes `rdf`. -/
def createManifest (version : Str) (rdf : Bytes) (ms : Manifests) : Manifests :=
  let xml : Str := "text/xml".toList
  let ms := addMissing ms ⟨pRoot, some version, "application/vnd.oasis.opendocument.spreadsheet".toList, none⟩
  let ms := addMissing ms ⟨pRdf, none, "application/rdf+xml".toList, some rdf⟩
  let ms := addMissing ms ⟨pStyles, none, xml, none⟩
  let ms := addMissing ms ⟨pMeta, none, xml, none⟩
  let ms := addMissing ms ⟨pContent, none, xml, none⟩
  addMissing ms ⟨pSettings, none, xml, none⟩

/-- An entry of the archive. -/
structure Entry where
  name : Str
  /-- `CompressionMethod::Stored` -/
  stored : Bool
  data : Bytes
  deriving DecidableEq

/-- `start_file` and `write_all`, or `add_directory`: `none` is the error for a name that is there already. -/
def zipAdd (z : List Entry) (e : Entry) : Option (List Entry) :=
  if z.any (fun x => decide (x.name = e.name)) then none else some (z ++ [e])

/-- Several entries. -/
def zipAddAll (z : List Entry) : List Entry → Option (List Entry)
  | [] => some z
  | e :: es => (zipAdd z e).bind (fun z => zipAddAll z es)

/-- The paths `write_ods_extra` and `read_ods_extras` leave alone, src/io/write.rs:3164-3167,
src/io/read.rs:437-440. -/
def standard (path : Str) : Bool :=
  path == pRoot || path == pSettings || path == pStyles || path == pContent || path == pMeta

/-- One entry of `write_ods_extra`, src/io/write.rs:3168-3180. -/
def extraEntry (stored : Bool) (m : Manifest) : Entry :=
  if isDir m.fullPath then ⟨m.fullPath, true, []⟩ else ⟨m.fullPath, stored, m.buffer.getD []⟩

/-- `write_ods_extra`, src/io/write.rs:3158-3185. -/
def extras (stored : Bool) (ms : Manifests) : List Entry :=
  ((ms.map Prod.snd).filter (fun m => !standard m.fullPath)).map (extraEntry stored)

/-- The texts of the files that make up the workbook. -/
structure Texts where
  mimetype : Bytes
  manifest : Bytes
  metadata : Bytes
  settings : Bytes
  styles : Bytes
  content : Bytes

/-- The entries written first, src/io/write.rs:354-402. `stored` is the choice of the user. -/
def front (stored : Bool) (t : Texts) : List Entry :=
  [⟨pMimetype, true, t.mimetype⟩, ⟨pMetaInf, true, []⟩, ⟨pManifest, stored, t.manifest⟩,
   ⟨pMeta, stored, t.metadata⟩, ⟨pSettings, stored, t.settings⟩, ⟨pStyles, stored, t.styles⟩,
   ⟨pContent, stored, t.content⟩]

/-- `write_ods_impl`, src/io/write.rs:345-407, after the checks: the archive, and the paths listed in
`META-INF/manifest.xml` (`write_ods_manifest`, 704-728). -/
def writePackage (stored : Bool) (t : Texts) (ms : Manifests) : Option (List Entry) :=
  zipAddAll [] (front stored t ++ extras stored ms)

/-- The entries of `META-INF/manifest.xml`, src/io/write.rs:714-721: what they say of each file. -/
def listing (ms : Manifests) : List (Str × Option Str × Str) :=
  ms.map (fun p => (p.2.fullPath, p.2.version, p.2.mediaType))

/-- `read_ods_manifest`, src/io/read.rs:451-494. -/
def readManifest (l : List (Str × Option Str × Str)) : Manifests :=
  l.foldl (fun ms e => if e.1 ≠ pMimetype ∧ e.1 ≠ pManifest then addManifest ms ⟨e.1, e.2.1, e.2.2, none⟩ else ms) []

/-- `zip.by_name(..)`. -/
def byName (z : List Entry) (n : Str) : Option Bytes := (z.find? (fun e => decide (e.name = n))).map (·.data)

/-- `read_ods_extras`, src/io/read.rs:431-449; `none` is the error for a missing file. -/
def readExtras (z : List Entry) : Manifests → Option Manifests
  | [] => some []
  | (k, m) :: ms =>
    if !isDir m.fullPath && !standard m.fullPath then
      match byName z m.fullPath with
      | none => none
      | some b => (readExtras z ms).map ((k, { m with buffer := some b }) :: ·)
    else (readExtras z ms).map ((k, m) :: ·)

/-- The manifest after reading an archive. -/
def readPackage (z : List Entry) (l : List (Str × Option Str × Str)) : Option Manifests :=
  readExtras z (readManifest l)

end Verif.Package
