import Verif.Package.Props
import Verif.Xml.Doc

/-!
# The text of the manifest (`META-INF/manifest.xml`, `manifest.rdf`)
-/

set_option autoImplicit false

namespace Verif.Package

open Book Xml Xml.Spec

def tManifest : Str := "manifest:manifest".toList
def tEntry : Str := "manifest:file-entry".toList
def aPath : Str := "manifest:full-path".toList
def aVersion : Str := "manifest:version".toList
def aMedia : Str := "manifest:media-type".toList

/-- The attributes of an entry, src/io/write.rs:714-721. -/
def entryAttrs (m : Manifest) : List (Bool × Str × Str) :=
  (true, aPath, m.fullPath) :: ((match m.version with
    | none => []
    | some v => [(true, aVersion, v)]) ++ [(true, aMedia, m.mediaType)])

/-- The attributes of the root element, src/io/write.rs:707-711. -/
def manifestAttrs (version : Str) : List (Bool × Str × Str) :=
  [(false, "xmlns:manifest".toList, "urn:oasis:names:tc:opendocument:xmlns:manifest:1.0".toList),
   (true, aVersion, version)]

/-- The entries, src/io/write.rs:713-722. -/
def manifestDocs (ms : Manifests) : List Doc := ms.map fun p => .void false tEntry (entryAttrs p.2) none false

/-- `write_ods_manifest`, src/io/write.rs:700-728. -/
def manifestText (version : Str) (ms : Manifests) : Str :=
  output false (.dtd "UTF-8".toList :: docCalls (.elem false tManifest (manifestAttrs version) (manifestDocs ms)))

/-- The loop over the attributes of an entry, src/io/read.rs:463-475; `none` is the error of `unescape`. -/
def entryOf : Manifest → List (Str × Str) → Option Manifest
  | m, [] => some m
  | m, (k, v) :: as =>
    if k = aPath then (unescape v).bind fun s => entryOf { m with fullPath := s } as
    else if k = aVersion then (unescape v).bind fun s => entryOf { m with version := some s } as
    else if k = aMedia then (unescape v).bind fun s => entryOf { m with mediaType := s } as
    else entryOf m as

/-- `some files shouldn't be in the manifest`, src/io/read.rs:477-481. -/
def addRead (ms : Manifests) (m : Manifest) : Manifests :=
  if m.fullPath ≠ pMimetype ∧ m.fullPath ≠ pManifest then addManifest ms m else ms

/-- The loop of `read_ods_manifest`, src/io/read.rs:451-494. -/
def manifestLoop : Manifests → List Event → Option Manifests
  | ms, [] => some ms
  | ms, .empty n as :: es =>
    if n = tEntry then (entryOf ⟨[], none, [], none⟩ as).bind fun m => manifestLoop (addRead ms m) es
    else manifestLoop ms es
  | ms, _ :: es => manifestLoop ms es

/-- `read_ods_manifest` of a text. -/
def readManifestText (text : Str) : Option Manifests := (tokenize text).bind fun ts => manifestLoop [] (events ts)

/-- `create_manifest_rdf`, src/io/write.rs:653-693. -/
def rdfText : Str :=
  let desc : Str := "rdf:Description".toList
  let about : Str := "rdf:about".toList
  let resource : Str := "rdf:resource".toList
  output false (.dtd "UTF-8".toList :: docCalls (.elem false "rdf:RDF".toList
    [(false, "xmlns:rdf".toList, "http://www.w3.org/1999/02/22-rdf-syntax-ns#".toList)]
    [.elem false desc [(false, about, pContent)]
      [.void false "rdf:type".toList
        [(false, resource, "http://docs.oasis-open.org/ns/office/1.2/meta/odf#ContentFile".toList)] none false],
     .elem false desc [(false, about, [])]
      [.void false "ns0:hasPart".toList
        [(false, "xmlns:ns0".toList, "http://docs.oasis-open.org/ns/office/1.2/meta/pkg#".toList),
         (false, resource, pContent)] none false],
     .elem false desc [(false, about, [])]
      [.void false "rdf:type".toList
        [(false, resource, "http://docs.oasis-open.org/ns/office/1.2/meta/pkg#Document".toList)] none false]]))

/-! ### The text says what the manifest says -/

theorem entryAttrs_ok (m : Manifest) : AttrsOk (entryAttrs m) := by
  have n1 : Name aPath := by decide
  have n2 : Name aVersion := by decide
  have n3 : Name aMedia := by decide
  intro a ha
  unfold entryAttrs at ha
  rcases List.mem_cons.1 ha with rfl | ha
  · exact ⟨n1, fun h => by cases h⟩
  · rcases List.mem_append.1 ha with ha | ha
    · cases hv : m.version with
      | none => rw [hv] at ha; cases ha
      | some v =>
        rw [hv] at ha
        rcases List.mem_cons.1 ha with rfl | ha
        · exact ⟨n2, fun h => by cases h⟩
        · cases ha
    · rcases List.mem_cons.1 ha with rfl | ha
      · exact ⟨n3, fun h => by cases h⟩
      · cases ha

theorem entryOf_attrs (m : Manifest) :
    entryOf ⟨[], none, [], none⟩ (rawAttrs (entryAttrs m)) = some ⟨m.fullPath, m.version, m.mediaType, none⟩ := by
  have h1 : ¬ aVersion = aPath := by decide
  have h2 : ¬ aMedia = aPath := by decide
  have h3 : ¬ aMedia = aVersion := by decide
  unfold entryAttrs
  cases hv : m.version with
  | none => simp [rawAttrs, rawVal, entryOf, unescape_escape, h1, h2, h3]
  | some v => simp [rawAttrs, rawVal, entryOf, unescape_escape, h1, h2, h3]

theorem manifestDocs_ok (ms : Manifests) : DocsOk (manifestDocs ms) := by
  rw [docsOk_iff]
  intro d hd
  obtain ⟨p, _, rfl⟩ := List.mem_map.1 hd
  rw [DocOk]
  exact ⟨by decide, entryAttrs_ok _⟩

theorem manifestAttrs_ok (v : Str) : AttrsOk (manifestAttrs v) := by
  intro a ha
  rcases List.mem_cons.1 ha with rfl | ha
  · exact ⟨by decide, fun _ => by decide +kernel⟩
  · rcases List.mem_cons.1 ha with rfl | ha
    · exact ⟨by show Name aVersion; decide, fun h => by cases h⟩
    · cases ha

theorem manifestLoop_docs (ms : Manifests) (es : List Event) : ∀ acc,
    manifestLoop acc (docsEv false (manifestDocs ms) ++ es) = manifestLoop ((listing ms).foldl (fun ms e =>
      if e.1 ≠ pMimetype ∧ e.1 ≠ pManifest then addManifest ms ⟨e.1, e.2.1, e.2.2, none⟩ else ms) acc) es := by
  induction ms with
  | nil => intro acc; rfl
  | cons p ms ih =>
    intro acc
    show manifestLoop acc (docEv false (.void false tEntry (entryAttrs p.2) none false) ++ _ ++ es) = _
    rw [docEv]
    show manifestLoop acc (.empty tEntry (rawAttrs (entryAttrs p.2)) :: (docsEv false (manifestDocs ms) ++ es)) = _
    rw [manifestLoop, if_pos rfl, entryOf_attrs]
    show manifestLoop (addRead acc _) _ = _
    rw [ih]
    rfl

/-- **C98, the manifest.** What is read from the text of the manifest are the entries that were written, whatever
their paths, versions and types are. -/
theorem manifest_text (version : Str) (ms : Manifests) :
    readManifestText (manifestText version ms) = some (readManifest (listing ms)) := by
  unfold readManifestText manifestText
  obtain ⟨ts, h1, h2⟩ := read_document false "UTF-8".toList (by decide) false tManifest (manifestAttrs version)
    (manifestDocs ms) (by rw [DocOk]; exact ⟨by decide, manifestAttrs_ok _, manifestDocs_ok ms⟩)
  rw [h1, Option.bind_some, h2, docEv]
  show manifestLoop [] (docsEv false (manifestDocs ms) ++ _) = _
  rw [manifestLoop_docs]
  rfl

end Verif.Package
