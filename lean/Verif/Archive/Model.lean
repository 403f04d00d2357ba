import Verif.Whole.Content
import Verif.Package.Xml

/-!
# Whole archives

`Verif.Whole` has the four files of a workbook, `Verif.Package` the manifest and the archive.  Here they stand
together: a workbook with its additional files is written to an archive of bytes, and read from it.
-/

set_option autoImplicit false

namespace Verif.Archive

open Xml Codec
open Verif.Book (HMap)
open Verif.Package (Bytes Manifest Manifests Texts)
open Verif.Whole (Source Target Env)

/-- A `String` as bytes, UTF-8. -/
def encode (s : Str) : Bytes := (String.ofList s).toByteArray.data.toList

/-- `std::str::from_utf8`; `none` is its error. -/
def decode (b : Bytes) : Option Str := (String.fromUTF8? ⟨b.toArray⟩).map String.toList

/-- `write_ods_mimetype`, src/io/write.rs:695-698. -/
def mimetype : Str := "application/vnd.oasis.opendocument.spreadsheet".toList

/-- The bytes of the files, src/io/write.rs:354-402. -/
def texts (version : Str) (ms : Manifests) (z : Whole.Package) : Texts :=
  ⟨encode mimetype, encode (Package.manifestText version ms), encode z.metaXml, encode z.settingsXml,
   encode z.stylesXml, encode z.contentXml⟩

/-- What `create_manifest`, src/io/write.rs:625-651, makes of the manifest of a workbook. -/
def created (s : Source) (ms : Manifests) : Manifests :=
  Package.createManifest s.ns.version (encode Package.rdfText) ms

/-- `write_ods_impl`, src/io/write.rs:345-407: the manifest `ms` is the one after `create_manifest`, in the order in
which the map is gone through.  (`write_ods_manifest` and `write_ods_extra` go through the map one after the other
without a change in between: one order.) -/
def writeOds (fl : Floats) (defStyle : ValueType → Option String) (stored : Bool) (s : Source) (ms : Manifests) :
    Option (List Package.Entry) :=
  (Whole.writePackage fl defStyle s).bind fun z => Package.writePackage stored (texts s.ns.version ms z) ms

/-- The text of a file of the archive, if it is there.  Simplification: the text is decoded at once; the code decodes
each name, value and text by itself when it needs it. -/
def textOf (z : List Package.Entry) (n : Str) : Except Fault (Option Str) :=
  match Package.byName z n with
  | none => .ok none
  | some b =>
    match decode b with
    | none => .error .malformed
    | some s => .ok (some s)

/-- The first part of `read_ods_impl`, src/io/read.rs:366-372: an archive without a manifest has no entries. -/
def readListing (z : List Package.Entry) : Except Fault Manifests :=
  match textOf z Package.pManifest with
  | .error f => .error f
  | .ok none => .ok []
  | .ok (some s) =>
    match Package.readManifestText s with
    | none => .error .malformed
    | some ms => .ok ms

/-- `read_ods_extras`, src/io/read.rs:374. -/
def readFiles (z : List Package.Entry) (l : Manifests) : Except Fault Manifests :=
  match Package.readExtras z l with
  | none => .error .malformed
  | some r => .ok r

/-- The files of the workbook. -/
def filesOf (z : List Package.Entry) : Except Fault Whole.Files := do
  let m ← textOf z Package.pMeta
  let s ← textOf z Package.pSettings
  let st ← textOf z Package.pStyles
  let c ← textOf z Package.pContent
  pure ⟨m, s, st, c⟩

/-- `read_ods_impl`, src/io/read.rs:359-410: the workbook and its manifest. -/
def readOds (e : Env) (z : List Package.Entry) : Except Fault (Target × Manifests) := do
  let l ← readListing z
  let r ← readFiles z l
  let f ← filesOf z
  let t ← Whole.readOds e f
  pure (t, r)

/-- `read_ods_impl_content_only`, src/io/read.rs:413-429: the manifest stays empty. -/
def readOdsContent (e : Env) (z : List Package.Entry) : Except Fault (Target × Manifests) := do
  let c ← textOf z Package.pContent
  let t ← Whole.readOdsContent e ⟨none, none, none, c⟩
  pure (t, [])

end Verif.Archive
