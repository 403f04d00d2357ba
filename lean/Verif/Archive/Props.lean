import Verif.Archive.Model

/-!
# C98: whole archives
-/

set_option autoImplicit false

namespace Verif.Archive

open Xml Codec
open Verif.Book (HMap)
open Verif.Package (Bytes Manifest Manifests Texts isDir standard byName pMimetype pMetaInf pManifest pMeta
  pSettings pStyles pRdf pRoot)
open Verif.Whole (Source Target Env)
open Verif.Ns (Part)

/-! ## Specification -/

/-- The same entries, in any order. -/
def SameEntries (a b : Manifests) : Prop := Package.Good a ∧ ∀ p, a.get? p = b.get? p

/-- What is left of an entry: a folder, and an entry of one of the files of the workbook, has no bytes; any other has,
if only none at all. -/
def asRead (m : Manifest) : Manifest :=
  { m with buffer := if isDir m.fullPath || standard m.fullPath then none else some (m.buffer.getD []) }

/-- The names the archive itself needs. -/
def Reserved (p : Str) : Prop := p = pMimetype ∨ p = pMetaInf ∨ p = pManifest

/-- The entries each archive has. -/
def Own (p : Str) : Prop := p = pRoot ∨ p = pRdf ∨ p = pStyles ∨ p = pMeta ∨ p = Package.pContent ∨ p = pSettings

/-- What they say if the user has not added others under their names, src/io/write.rs:625-651: the type of the
document with its version; the description of the package; the four files. -/
def ownEntry (version p : Str) : Manifest :=
  if p = "/".toList then ⟨p, some version, "application/vnd.oasis.opendocument.spreadsheet".toList, none⟩
  else if p = "manifest.rdf".toList then ⟨p, none, "application/rdf+xml".toList, some (encode Package.rdfText)⟩
  else ⟨p, none, "text/xml".toList, none⟩

/-! ## Lemmas -/

theorem decode_encode (s : Str) : decode (encode s) = some s := by
  unfold decode encode
  have h : (⟨(String.ofList s).toByteArray.data.toList.toArray⟩ : ByteArray) = (String.ofList s).toByteArray := by simp
  rw [h]
  unfold String.fromUTF8?
  have hv : (String.ofList s).toByteArray.IsValidUTF8 := (String.ofList s).isValidUTF8
  rw [dif_pos hv]
  show some (String.ofList s).toList = some s
  rw [String.toList_ofList]

theorem textOf_some {z : List Package.Entry} {n s : Str} (h : byName z n = some (encode s)) : textOf z n = .ok (some s) := by
  unfold textOf
  rw [h]
  show (match decode (encode s) with | none => _ | some s => _) = _
  rw [decode_encode]

section Written

variable {stored : Bool} {t : Texts} {ms : Manifests} {z : List Package.Entry}

theorem byName_front (hg : Package.Good ms) (h : Package.writePackage stored t ms = some z) (x : Package.Entry)
    (hx : x ∈ Package.front stored t) : byName z x.name = some x.data := by
  refine Package.byName_of_mem z (Package.names_once stored t ms z h) x ?_
  rw [((Package.package_iff stored t ms hg z).1 h).1]
  exact List.mem_append_left _ hx

end Written

theorem same_keys {a b : Manifests} (h : SameEntries a b) (p : Str) : p ∈ a.keys ↔ p ∈ b.keys := by
  rw [HMap.mem_keys, HMap.mem_keys]
  unfold HMap.contains
  rw [h.2]

/-- An archive that was written is read as the four files are, and the entries come back. -/
theorem read_written (fl : Floats) (e : Env) (defStyle : ValueType → Option String) (stored : Bool) (s : Source)
    (ms : Manifests) (hg : Package.Good ms) (z : List Package.Entry) (h : writeOds fl defStyle stored s ms = some z) :
    ∃ f r, Whole.writePackage fl defStyle s = some f ∧ Package.Good r ∧ (∀ p, r.get? p = (ms.get? p).map asRead)
      ∧ filesOf z = .ok f.files
      ∧ readOds e z = (Whole.readPackage e f).map fun t => (t, r) := by
  unfold writeOds at h
  cases hf : Whole.writePackage fl defStyle s with
  | none => rw [hf] at h; cases h
  | some f =>
    rw [hf, Option.bind_some] at h
    have hz := fun x hx => byName_front hg h x hx
    have e1 := textOf_some (hz _ (List.mem_cons_of_mem _ (List.mem_cons_of_mem _ List.mem_cons_self)))
    have e2 := textOf_some (hz _ (List.mem_cons_of_mem _ (List.mem_cons_of_mem _ (List.mem_cons_of_mem _
      List.mem_cons_self))))
    have e3 := textOf_some (hz _ (List.mem_cons_of_mem _ (List.mem_cons_of_mem _ (List.mem_cons_of_mem _
      (List.mem_cons_of_mem _ List.mem_cons_self)))))
    have e4 := textOf_some (hz _ (List.mem_cons_of_mem _ (List.mem_cons_of_mem _ (List.mem_cons_of_mem _
      (List.mem_cons_of_mem _ (List.mem_cons_of_mem _ List.mem_cons_self))))))
    have e5 := textOf_some (hz _ (List.mem_cons_of_mem _ (List.mem_cons_of_mem _ (List.mem_cons_of_mem _
      (List.mem_cons_of_mem _ (List.mem_cons_of_mem _ (List.mem_cons_of_mem _ List.mem_cons_self)))))))
    obtain ⟨r, hr, hgr, hget⟩ := Package.read_back stored _ ms hg z h
    have hl : readListing z = .ok (Package.readManifest (Package.listing ms)) := by
      unfold readListing
      rw [e1]
      show (match Package.readManifestText (Package.manifestText s.ns.version ms) with | none => _ | some ms => _) = _
      rw [Package.manifest_text]
    have hfs : readFiles z (Package.readManifest (Package.listing ms)) = .ok r := by
      unfold readFiles
      have : Package.readExtras z (Package.readManifest (Package.listing ms)) = some r := hr
      rw [this]
    have hfi : filesOf z = .ok f.files := by
      unfold filesOf
      rw [e2, e3, e4, e5]
      rfl
    refine ⟨f, r, rfl, hgr, ?_, hfi, ?_⟩
    · intro p
      rw [hget]
      cases hm : ms.get? p with
      | none => rfl
      | some m =>
        have : m.fullPath = p := hg.2 _ (HMap.get?_mem _ _ _ hm)
        simp only [Option.map_some, asRead, this]
    · unfold readOds
      rw [hl]
      show (do let r ← readFiles z _; _) = _
      rw [hfs]
      show (do let f ← filesOf z; _) = _
      rw [hfi]
      show (do let t ← Whole.readOds e f.files; pure (t, r)) = _
      rw [Whole.readOds_package]
      cases Whole.readPackage e f <;> rfl

theorem asRead_kept {p : Str} {m : Manifest} (hp : m.fullPath = p) (hd : isDir p = false) (hs : standard p = false)
    (hb : m.buffer ≠ none) : asRead m = m := by
  obtain ⟨fp, v, mt, b⟩ := m
  have hp : fp = p := hp
  cases b with
  | none => exact absurd rfl hb
  | some b =>
    subst hp
    simp [asRead, hd, hs]

theorem asRead_twice (m : Manifest) : asRead (asRead m) = asRead m := by
  unfold asRead
  by_cases h : (isDir m.fullPath || standard m.fullPath) = true
  · simp [h]
  · simp [h]

/-- What is read of an archive, step by step. -/
theorem readOds_ok {e : Env} {z : List Package.Entry} {t : Target} {r : Manifests} (h : readOds e z = .ok (t, r)) :
    ∃ l f, readListing z = .ok l ∧ Package.readExtras z l = some r ∧ filesOf z = .ok f
      ∧ Whole.readOds e f = .ok t := by
  unfold readOds at h
  cases h1 : readListing z with
  | error x => rw [h1] at h; cases h
  | ok l =>
    rw [h1] at h
    have h : (do let r ← readFiles z l; let f ← filesOf z; let t ← Whole.readOds e f; pure (t, r)) = _ := h
    cases h2 : readFiles z l with
    | error x => rw [h2] at h; cases h
    | ok r' =>
      rw [h2] at h
      have h : (do let f ← filesOf z; let t ← Whole.readOds e f; pure (t, r')) = _ := h
      cases h3 : filesOf z with
      | error x => rw [h3] at h; cases h
      | ok f =>
        rw [h3] at h
        have h : (do let t ← Whole.readOds e f; pure (t, r')) = _ := h
        cases h4 : Whole.readOds e f with
        | error x => rw [h4] at h; cases h
        | ok t' =>
          rw [h4] at h
          cases h
          refine ⟨l, f, rfl, ?_, rfl, h4⟩
          unfold readFiles at h2
          cases h5 : Package.readExtras z l with
          | none => rw [h5] at h2; cases h2
          | some r'' => rw [h5] at h2; cases h2; rfl

theorem manifestLoop_good (es : List Event) : ∀ (ms : Manifests), Package.Good ms → ∀ r,
    Package.manifestLoop ms es = some r → Package.Good r := by
  induction es with
  | nil => intro ms h r hr; cases hr; exact h
  | cons x es ih =>
    intro ms h r hr
    cases x with
    | empty n as =>
      rw [Package.manifestLoop] at hr
      split at hr
      · cases hq : Package.entryOf ⟨[], none, [], none⟩ as with
        | none => rw [hq] at hr; cases hr
        | some m =>
          rw [hq, Option.bind_some] at hr
          refine ih _ ?_ r hr
          unfold Package.addRead
          split
          · exact Package.good_add _ _ h
          · exact h
      · exact ih ms h r hr
    | start n as => exact ih ms h r hr
    | «end» n => exact ih ms h r hr
    | text s => exact ih ms h r hr
    | ref s => exact ih ms h r hr

theorem listing_good {z : List Package.Entry} {l : Manifests} (h : readListing z = .ok l) : Package.Good l := by
  unfold readListing at h
  split at h
  · cases h
  · cases h; exact Package.good_nil
  · split at h
    · cases h
    · rename_i s _ _ ms hms
      cases h
      unfold Package.readManifestText at hms
      cases hq : tokenize s with
      | none => rw [hq] at hms; cases hms
      | some ts => rw [hq] at hms; exact manifestLoop_good _ [] Package.good_nil _ hms

theorem readExtras_all (z : List Package.Entry) : ∀ (l r : Manifests), Package.readExtras z l = some r →
    Package.Good l → ∀ p ∈ l.keys, isDir p = false → standard p = false → byName z p ≠ none := by
  intro l
  induction l with
  | nil => intro r _ _ p hp; cases hp
  | cons x l ih =>
    obtain ⟨k, m⟩ := x
    intro r hr hg p hp hd hs
    have hk : m.fullPath = k := hg.2 (k, m) List.mem_cons_self
    have hg' : Package.Good l := ⟨(List.nodup_cons.1 hg.1).2, fun q hq => hg.2 q (List.mem_cons_of_mem _ hq)⟩
    rw [Package.readExtras, hk] at hr
    have rest : ∀ {y : Str × Manifest}, (Package.readExtras z l).map (y :: ·) = some r → p ∈ HMap.keys l →
        byName z p ≠ none := by
      intro y hy hpl
      cases hq : Package.readExtras z l with
      | none => rw [hq] at hy; cases hy
      | some r' => exact ih r' hq hg' p hpl hd hs
    have hp : p ∈ k :: HMap.keys l := hp
    rcases List.mem_cons.1 hp with rfl | hp
    · rw [hd, hs] at hr
      intro hn
      rw [hn] at hr
      cases hr
    · split at hr
      · split at hr
        · cases hr
        · exact rest hr hp
      · exact rest hr hp

theorem textOf_congr {z z' : List Package.Entry} {n : Str} (h : byName z n = byName z' n) : textOf z n = textOf z' n := by
  unfold textOf
  rw [h]

theorem created_own (s : Source) (a : Manifests) (p : Str) (hp : Own p) (ha : a.get? p = none) :
    (created s a).get? p = some (ownEntry s.ns.version p) := by
  have skip : ∀ (ms : Manifests) (m : Manifest), p ≠ m.fullPath → ms.get? p = none →
      (Package.addMissing ms m).get? p = none := by
    intro ms m h1 h2
    rw [Package.get?_missing, if_neg (fun h => h1 h.1), h2]
  have hit : ∀ (ms : Manifests) (m : Manifest), p = m.fullPath → ms.get? p = none →
      (Package.addMissing ms m).get? p = some m := by
    intro ms m h1 h2
    rw [Package.get?_missing, if_pos ⟨h1, h2⟩]
  have keep : ∀ (ms : Manifests) (m x : Manifest), ms.get? p = some x →
      (Package.addMissing ms m).get? p = some x := by
    intro ms m x h
    rw [Package.get?_missing, if_neg (by rw [h]; rintro ⟨_, h⟩; cases h), h]
  rcases hp with rfl | rfl | rfl | rfl | rfl | rfl
  · exact keep _ _ _ (keep _ _ _ (keep _ _ _ (keep _ _ _ (keep _ _ _ (hit _ _ rfl ha)))))
  · exact keep _ _ _ (keep _ _ _ (keep _ _ _ (keep _ _ _ (hit _ _ rfl (skip _ _ (by dsimp only; decide) ha)))))
  · exact keep _ _ _ (keep _ _ _ (keep _ _ _ (hit _ _ rfl (skip _ _ (by dsimp only; decide) (skip _ _ (by dsimp only; decide) ha)))))
  · exact keep _ _ _ (keep _ _ _ (hit _ _ rfl (skip _ _ (by dsimp only; decide) (skip _ _ (by dsimp only; decide) (skip _ _ (by dsimp only; decide) ha)))))
  · exact keep _ _ _ (hit _ _ rfl (skip _ _ (by dsimp only; decide) (skip _ _ (by dsimp only; decide) (skip _ _ (by dsimp only; decide) (skip _ _ (by dsimp only; decide) ha)))))
  · exact hit _ _ rfl (skip _ _ (by dsimp only; decide) (skip _ _ (by dsimp only; decide) (skip _ _ (by dsimp only; decide) (skip _ _ (by dsimp only; decide) (skip _ _ (by dsimp only; decide) ha)))))

theorem created_user (s : Source) (a : Manifests) (p : Str) (h : a.get? p ≠ none ∨ ¬ Own p) :
    (created s a).get? p = a.get? p := by
  refine Package.created_get _ _ _ _ ?_
  rcases h with h | h
  · exact .inl h
  · unfold Own at h
    simp only [not_or] at h
    exact .inr h

/-! ## What is written is read -/

/-- **C98.** A workbook with additional files, none of them under a name the archive needs for itself, is written to an archive, whatever the order is in which the map of the manifest is gone through.  The archive can be
read.  The workbook comes back as C78 says; each entry of the manifest comes back with its version, its type and its
bytes; and there are no others.

Partial: the workbook is one C78 speaks of; the archive is a list of names and bytes (no compression). -/
theorem C98_archive_partial {e : Env} (hm : e.ints.max = Refs.Spec.maxU32) (ho : e.opts.useRepeat = false)
    (defStyle : ValueType → Option String) (stored : Bool) (s : Source) (h : Whole.Spec.Good e.fl false s)
    (a : Manifests) (hres : ∀ p, Reserved p → a.get? p = none) (ms : Manifests) (hms : SameEntries ms (created s a)) :
    ∃ z t r, writeOds e.fl defStyle stored s ms = some z ∧ readOds e z = .ok (t, r)
      ∧ Whole.Spec.Back e.opts.ignoreEmpty defStyle s t ∧ Whole.Spec.PackageStyles s.styles t.styles
      ∧ (∀ p, p ≠ Part.flat → ∀ k u, Ns.stored p s.ns k = some u → ¬ Ns.own p k → Ns.stored p t.ns k = some u)
      ∧ (∀ p m, a.get? p = some m → r.get? p = some (asRead m))
      ∧ (∀ p, a.get? p = none → Own p → r.get? p = some (asRead (ownEntry s.ns.version p)))
      ∧ ∀ p, a.get? p = none → ¬ Own p → r.get? p = none := by
  obtain ⟨f, t, h1, h2, h3, h4, h5⟩ := Whole.C78_package_partial hm ho defStyle s h
  have hw : ∃ z, writeOds e.fl defStyle stored s ms = some z := by
    unfold writeOds
    rw [h1, Option.bind_some]
    have hno : ∀ p, Reserved p → p ∉ ms.keys := by
      intro p hp hk
      rw [HMap.mem_keys] at hk
      unfold HMap.contains at hk
      have hp' : p ≠ pRoot ∧ p ≠ pRdf ∧ p ≠ pStyles ∧ p ≠ pMeta ∧ p ≠ Package.pContent ∧ p ≠ pSettings := by
        rcases hp with rfl | rfl | rfl <;> decide
      rw [hms.2, show (created s a).get? p = a.get? p from
        Package.created_get _ _ _ _ (.inr hp'), hres p hp] at hk
      cases hk
    exact ⟨_, (Package.package_iff stored _ ms hms.1 _).2 ⟨rfl, hno _ (.inl rfl), hno _ (.inr (.inl rfl)),
      hno _ (.inr (.inr rfl))⟩⟩
  obtain ⟨z, hz⟩ := hw
  obtain ⟨f', r, g1, g2, g3, _, g4⟩ := read_written e.fl e defStyle stored s ms hms.1 z hz
  rw [h1] at g1
  cases g1
  rw [h2] at g4
  have g3 : ∀ p, r.get? p = ((created s a).get? p).map asRead := fun p => by rw [g3, hms.2]
  refine ⟨z, t, r, hz, g4, h3, h4, h5, ?_, ?_, ?_⟩
  · intro p m hp
    rw [g3, created_user s a p (.inl (by rw [hp]; simp)), hp]
    rfl
  · intro p hp ho
    rw [g3, created_own s a p ho hp]
    rfl
  · intro p hp ho
    rw [g3, created_user s a p (.inr ho), hp]
    rfl

/-- **C98, bytes.** An additional file that has bytes comes back as it was, whatever the workbook is: if the archive
was written and could be read. -/
theorem C98_bytes (e : Env) (fl : Floats) (defStyle : ValueType → Option String) (stored : Bool) (s : Source)
    (a ms : Manifests) (ha : Package.Good a) (hms : SameEntries ms (created s a)) (z : List Package.Entry) (t : Target)
    (r : Manifests) (hz : writeOds fl defStyle stored s ms = some z) (hr : readOds e z = .ok (t, r)) (p : Str)
    (m : Manifest) (hp : a.get? p = some m) (hd : isDir p = false) (hs : standard p = false) (hb : m.buffer ≠ none) :
    r.get? p = some m := by
  obtain ⟨f, r', _, _, g3, _, g4⟩ := read_written fl e defStyle stored s ms hms.1 z hz
  have : r = r' := by
    rw [hr] at g4
    cases hq : Whole.readPackage e f with
    | error x => rw [hq] at g4; cases g4
    | ok u => rw [hq] at g4; cases g4; rfl
  subst this
  rw [g3, hms.2, show (created s a).get? p = a.get? p from Package.created_get _ _ _ _ (.inl (by rw [hp]; simp)), hp,
    Option.map_some, asRead_kept (ha.2 _ (HMap.get?_mem _ _ _ hp)) hd hs hb]

/-- The manifests of C98 are those of every history: of a new workbook, and of one that was read from an archive. -/
theorem C98_histories (e : Env) (s : Source) (a : Manifests) (ops : List Package.Op)
    (ha : a = [] ∨ ∃ z t, readOds e z = .ok (t, a)) :
    Package.Good (Package.run a ops) ∧ SameEntries (created s (Package.run a ops)) (created s (Package.run a ops)) := by
  have hg : Package.Good a := by
    rcases ha with rfl | ⟨z, t, h⟩
    · exact Package.good_nil
    · obtain ⟨l, f, h1, h2, _⟩ := readOds_ok h
      exact (Package.readExtras_good z l (listing_good h1) a h2).1
  have h1 := Package.good_run ops a hg
  exact ⟨h1, Package.good_create _ _ _ h1, fun _ => rfl⟩

/-! ## Any number of times -/

/-- A workbook with the manifest `a` is saved, and loaded again: the manifest is `b`.  Which workbook it is, and
whether it is the one that was loaded before, is left open. -/
def Saved (e : Env) (defStyle : ValueType → Option String) (stored : Bool) (a b : Manifests) : Prop :=
  ∃ s ms z t, SameEntries ms (created s a) ∧ writeOds e.fl defStyle stored s ms = some z ∧ readOds e z = .ok (t, b)

/-- Any number of times. -/
inductive SavedOften (e : Env) (defStyle : ValueType → Option String) (stored : Bool) : Manifests → Manifests → Prop
  | none (a : Manifests) : SavedOften e defStyle stored a a
  | more (a b c : Manifests) : Saved e defStyle stored a b → SavedOften e defStyle stored b c →
    SavedOften e defStyle stored a c

theorem saved_get {e : Env} {defStyle : ValueType → Option String} {stored : Bool} {a b : Manifests}
    (h : Saved e defStyle stored a b) : Package.Good b ∧ ∃ s, ∀ p, b.get? p = ((created s a).get? p).map asRead := by
  obtain ⟨s, ms, z, t, hms, hz, hr⟩ := h
  obtain ⟨f, r', _, g2, g3, _, g4⟩ := read_written e.fl e defStyle stored s ms hms.1 z hz
  have : b = r' := by
    rw [hr] at g4
    cases hq : Whole.readPackage e f with
    | error x => rw [hq] at g4; cases g4
    | ok u => rw [hq] at g4; cases g4; rfl
  subst this
  exact ⟨g2, s, fun p => by rw [g3, hms.2]⟩

/-- **C98, again.** However often a workbook is saved and loaded, and whatever is done to its sheets and styles
meanwhile: an additional file with bytes is still there, unchanged. -/
theorem C98_often (e : Env) (defStyle : ValueType → Option String) (stored : Bool) (a b : Manifests)
    (h : SavedOften e defStyle stored a b) (ha : Package.Good a) (p : Str) (m : Manifest) (hp : a.get? p = some m)
    (hd : isDir p = false) (hs : standard p = false) (hb : m.buffer ≠ none) : b.get? p = some m := by
  induction h with
  | none => exact hp
  | more a b c h1 _ ih =>
    obtain ⟨g1, s, g2⟩ := saved_get h1
    refine ih g1 ?_
    rw [g2, show (created s a).get? p = a.get? p from Package.created_get _ _ _ _ (.inl (by rw [hp]; simp)), hp,
      Option.map_some, asRead_kept (ha.2 _ (HMap.get?_mem _ _ _ hp)) hd hs hb]

/-- **C98, again.** After the first time the manifest does not change any more, and no entry is added but those each
archive has. -/
theorem C98_settled (e : Env) (defStyle : ValueType → Option String) (stored : Bool) (a b c : Manifests)
    (h1 : Saved e defStyle stored a b) (h : SavedOften e defStyle stored b c) :
    (∀ p, c.get? p = b.get? p) ∧ ∀ p, c.get? p ≠ none → a.get? p ≠ none ∨ Own p := by
  have key : ∀ b c, SavedOften e defStyle stored b c → (∀ p, Own p → b.get? p ≠ none) →
      (∀ p m, b.get? p = some m → asRead m = m) → ∀ p, c.get? p = b.get? p := by
    intro b c h
    induction h with
    | none => intro _ _ p; rfl
    | more a b c h1 _ ih =>
      intro ho hf
      obtain ⟨_, s, g2⟩ := saved_get h1
      have hab : ∀ p, b.get? p = a.get? p := by
        intro p
        rw [g2, show (created s a).get? p = a.get? p from Package.created_get _ _ _ _ (by
          by_cases hp : Own p
          · exact .inl (ho p hp)
          · unfold Own at hp
            simp only [not_or] at hp
            exact .inr hp)]
        cases hq : a.get? p with
        | none => rfl
        | some m => rw [Option.map_some, hf p m hq]
      intro p
      rw [ih (fun p hp => by rw [hab]; exact ho p hp) (fun p m hm => hf p m (by rw [← hab]; exact hm)), hab]
  obtain ⟨_, s, g2⟩ := saved_get h1
  have hcb := key b c h (by
    intro p hp
    have := Package.standard_listed s.ns.version (encode Package.rdfText) a p hp
    rw [HMap.mem_keys] at this
    unfold HMap.contains at this
    rw [g2]
    show ((Package.createManifest s.ns.version (encode Package.rdfText) a).get? p).map asRead ≠ none
    intro hn
    rw [Option.map_eq_none_iff] at hn
    rw [hn] at this
    cases this) (by
    intro p m hm
    rw [g2] at hm
    cases hq : (created s a).get? p with
    | none => rw [hq] at hm; cases hm
    | some x => rw [hq] at hm; cases hm; exact asRead_twice x)
  refine ⟨hcb, ?_⟩
  intro p hp
  rw [hcb, g2] at hp
  by_cases ho : Own p
  · exact .inr ho
  · refine .inl ?_
    intro hn
    unfold Own at ho
    simp only [not_or] at ho
    apply hp
    rw [show (created s a).get? p = a.get? p from Package.created_get _ _ _ _ (.inr ho), hn]
    rfl

/-! ## Any archive -/

/-- **C98, any archive.** If an archive can be read, the manifest of the workbook is the list of the archive: the same
paths, and each file that is neither a folder nor a part of the workbook with its bytes. -/
theorem C98_listed (e : Env) (z : List Package.Entry) (t : Target) (r : Manifests) (h : readOds e z = .ok (t, r)) :
    ∃ l, readListing z = .ok l ∧ ∀ p, r.get? p = (l.get? p).map fun m =>
      if isDir p || standard p then m else { m with buffer := byName z p } := by
  obtain ⟨l, f, h1, h2, _⟩ := readOds_ok h
  have hg := listing_good h1
  obtain ⟨r', g1, g2⟩ := Package.readExtras_spec z l hg (readExtras_all z l r h2 hg)
  rw [h2] at g1
  cases g1
  exact ⟨l, h1, g2⟩

/-- **C98, any archive.** An archive that lists a file and does not have it is refused. -/
theorem C98_missing (e : Env) (z : List Package.Entry) (l : Manifests) (hl : readListing z = .ok l) (p : Str)
    (hp : l.get? p ≠ none) (hd : isDir p = false) (hs : standard p = false) (hz : ∀ x ∈ z, x.name ≠ p) :
    ∃ f, readOds e z = .error f := by
  cases h : readOds e z with
  | error f => exact ⟨f, rfl⟩
  | ok x =>
    obtain ⟨t, r⟩ := x
    obtain ⟨l', f, h1, h2, _⟩ := readOds_ok h
    rw [hl] at h1
    cases h1
    refine absurd ?_ (readExtras_all z l r h2 (listing_good hl) p ?_ hd hs)
    · unfold byName
      rw [List.find?_eq_none.2 (fun x hx => by simpa using hz x hx)]
      rfl
    · rw [HMap.mem_keys]
      unfold HMap.contains
      cases hq : l.get? p with
      | none => exact absurd hq hp
      | some m => rfl

/-- **C98, any archive.** A file that is not listed might as well not be there: it is not read.  It is not in the
manifest of the workbook, and so it is lost when the workbook is saved. -/
theorem C98_unlisted (e : Env) (z : List Package.Entry) (x : Package.Entry)
    (hx : x.name ∉ [pManifest, pMeta, pSettings, pStyles, Package.pContent]) (l : Manifests)
    (hl : readListing z = .ok l) (hn : l.get? x.name = none) :
    readOds e (x :: z) = readOds e z ∧ ∀ t r, readOds e z = .ok (t, r) → r.get? x.name = none := by
  have hby : ∀ n, n ≠ x.name → byName (x :: z) n = byName z n := by
    intro n hn
    unfold byName
    rw [List.find?_cons]
    have : decide (x.name = n) = false := by simpa using fun h => hn h.symm
    rw [this]
  have htx : ∀ n ∈ [pManifest, pMeta, pSettings, pStyles, Package.pContent], textOf (x :: z) n = textOf z n :=
    fun n hnm => textOf_congr (hby n (fun h => hx (h ▸ hnm)))
  have hl' : readListing (x :: z) = readListing z := by
    unfold readListing
    rw [htx pManifest (by simp)]
  have hex : ∀ l : Manifests, Package.Good l → l.get? x.name = none →
      Package.readExtras (x :: z) l = Package.readExtras z l := by
    intro l
    induction l with
    | nil => intro _ _; rfl
    | cons y l ih =>
      obtain ⟨k, m⟩ := y
      intro hg hk
      have hkm : m.fullPath = k := hg.2 (k, m) List.mem_cons_self
      have hg' : Package.Good l := ⟨(List.nodup_cons.1 hg.1).2, fun q hq => hg.2 q (List.mem_cons_of_mem _ hq)⟩
      rw [HMap.get?] at hk
      have hne : k ≠ x.name := by
        intro h
        rw [if_pos h] at hk
        cases hk
      rw [if_neg hne] at hk
      rw [Package.readExtras, Package.readExtras, ih hg' hk, hkm, hby k hne]
  refine ⟨?_, ?_⟩
  · have hfi : filesOf (x :: z) = filesOf z := by
      unfold filesOf
      rw [htx pMeta (by simp), htx pSettings (by simp), htx pStyles (by simp), htx Package.pContent (by simp)]
    have hre : readFiles (x :: z) l = readFiles z l := by
      unfold readFiles
      rw [hex l (listing_good hl) hn]
    unfold readOds
    rw [hl', hfi, hl]
    simp only [bind, Except.bind, hre]
  · intro t r h
    obtain ⟨l', g1, g2⟩ := C98_listed e z t r h
    rw [hl] at g1
    cases g1
    rw [g2, hn]
    rfl

/-- **C98, any archive.** The manifest may be missing: then there are no entries, and the workbook is read all the
same. -/
theorem C98_no_manifest (e : Env) (z : List Package.Entry) (hz : ∀ x ∈ z, x.name ≠ pManifest) :
    readOds e z = (filesOf z).bind fun f => (Whole.readOds e f).map fun t => (t, []) := by
  have hb : byName z pManifest = none := by
    unfold byName
    rw [List.find?_eq_none.2 (fun x hx => by simpa using hz x hx)]
    rfl
  have hl : readListing z = .ok [] := by
    unfold readListing textOf
    rw [hb]
  have hr : readFiles z [] = .ok [] := rfl
  unfold readOds
  rw [hl]
  simp only [bind, Except.bind, hr]
  cases filesOf z with
  | error f => rfl
  | ok f => simp only; cases Whole.readOds e f <;> rfl

/-- **C98, only the content.** An archive that can be read can be read for its content only: the sheets, validations,
foreign elements and scripts are the same.  The manifest is empty then: the additional files are lost when such a
workbook is saved. -/
theorem C98_content (e : Env) (z : List Package.Entry) (t : Target) (r : Manifests) (h : readOds e z = .ok (t, r)) :
    ∃ t', readOdsContent e z = .ok (t', []) ∧ t'.body = t.body ∧ t'.scripts = t.scripts := by
  obtain ⟨l, f, _, _, h3, h4⟩ := readOds_ok h
  obtain ⟨t', g1, g2, g3⟩ := Whole.C97_package e f t h4
  refine ⟨t', ?_, g2, g3⟩
  have hc : textOf z Package.pContent = .ok f.contentXml := by
    unfold filesOf at h3
    cases k1 : textOf z pMeta with
    | error x => rw [k1] at h3; cases h3
    | ok a =>
      cases k2 : textOf z pSettings with
      | error x => rw [k1, k2] at h3; cases h3
      | ok b =>
        cases k3 : textOf z pStyles with
        | error x => rw [k1, k2, k3] at h3; cases h3
        | ok c =>
          cases k4 : textOf z Package.pContent with
          | error x => rw [k1, k2, k3, k4] at h3; cases h3
          | ok d => rw [k1, k2, k3, k4] at h3; cases h3; rfl
  unfold readOdsContent
  rw [hc]
  show (do let t ← Whole.readOdsContent e ⟨none, none, none, f.contentXml⟩; pure (t, ([] : Manifests))) = _
  have g1 : Whole.readOdsContent e ⟨none, none, none, f.contentXml⟩ = .ok t' := g1
  rw [g1]
  rfl

/-! ## A workbook with a picture -/

/-- A picture, and the folder it is in. -/
def pictures : List Package.Op :=
  [.add ⟨"Pictures/".toList, none, [], none⟩,
   .add ⟨"Pictures/ä & b.png".toList, some "1.0".toList, "image/png".toList, some [137, 80, 78, 71, 0, 255]⟩]

/-- **The hypotheses of C98 are met.** The workbook of C78 with a picture is saved and loaded, and saved and loaded
again. -/
theorem C98_meets : ∃ z t r z' t' r', writeOds Meta.asBits (fun _ => none) false Whole.demo
      (created Whole.demo (Package.run [] pictures)) = some z
    ∧ readOds ⟨Meta.asBits, Refs.checked, {}⟩ z = .ok (t, r)
    ∧ Whole.Spec.Back false (fun _ => none) Whole.demo t
    ∧ r.get? "Pictures/ä & b.png".toList
      = some ⟨"Pictures/ä & b.png".toList, some "1.0".toList, "image/png".toList, some [137, 80, 78, 71, 0, 255]⟩
    ∧ writeOds Meta.asBits (fun _ => none) false Whole.demo (created Whole.demo r) = some z'
    ∧ readOds ⟨Meta.asBits, Refs.checked, {}⟩ z' = .ok (t', r')
    ∧ SavedOften ⟨Meta.asBits, Refs.checked, {}⟩ (fun _ => none) false (Package.run [] pictures) r'
    ∧ ∀ p, r'.get? p = r.get? p := by
  have e1 : ∀ p, Reserved p → (Package.run [] pictures).get? p = none := by
    intro p hp
    rcases hp with rfl | rfl | rfl <;> decide
  have g := C98_histories ⟨Meta.asBits, Refs.checked, {}⟩ Whole.demo [] pictures (.inl rfl)
  obtain ⟨z, t, r, h1, h2, h3, _, _, h4, _, h5⟩ := C98_archive_partial (e := ⟨Meta.asBits, Refs.checked, {}⟩) rfl rfl
    (fun _ => none) false Whole.demo Whole.demo_good (Package.run [] pictures) e1 _ g.2
  have g' := C98_histories ⟨Meta.asBits, Refs.checked, {}⟩ Whole.demo r [] (.inr ⟨z, t, h2⟩)
  have e2 : ∀ p, Reserved p → r.get? p = none := by
    intro p hp
    refine h5 p (e1 p hp) ?_
    rcases hp with rfl | rfl | rfl <;> unfold Own <;> decide
  obtain ⟨z', t', r', k1, k2, _⟩ := C98_archive_partial (e := ⟨Meta.asBits, Refs.checked, {}⟩) rfl rfl
    (fun _ => none) false Whole.demo Whole.demo_good r e2 _ g'.2
  have s1 : Saved ⟨Meta.asBits, Refs.checked, {}⟩ (fun _ => none) false (Package.run [] pictures) r :=
    ⟨_, _, z, t, g.2, h1, h2⟩
  have s2 : Saved ⟨Meta.asBits, Refs.checked, {}⟩ (fun _ => none) false r r' := ⟨_, _, z', t', g'.2, k1, k2⟩
  refine ⟨z, t, r, z', t', r', h1, h2, h3, ?_, k1, k2, .more _ _ _ s1 (.more _ _ _ s2 (.none _)),
    (C98_settled _ _ _ _ _ _ s1 (.more _ _ _ s2 (.none _))).1⟩
  rw [h4 _ ⟨"Pictures/ä & b.png".toList, some "1.0".toList, "image/png".toList, some [137, 80, 78, 71, 0, 255]⟩
    (by decide)]
  decide

/-- An archive that is nothing but a manifest. -/
theorem listing_only (v : Str) (ms : Manifests) (stored : Bool) :
    readListing [⟨pManifest, stored, encode (Package.manifestText v ms)⟩]
      = .ok (Package.readManifest (Package.listing ms)) := by
  have h : byName [⟨pManifest, stored, encode (Package.manifestText v ms)⟩] pManifest
      = some (encode (Package.manifestText v ms)) := rfl
  unfold readListing
  rw [textOf_some h]
  show (match Package.readManifestText (Package.manifestText v ms) with | none => _ | some ms => _) = _
  rw [Package.manifest_text]

/-- The hypotheses about any archive are met: a file that is listed and not there, and one that is there and not
listed. -/
example : ∃ z l, readListing z = .ok l ∧ l.get? "a.png".toList ≠ none ∧ isDir "a.png".toList = false
    ∧ standard "a.png".toList = false ∧ (∀ x ∈ z, x.name ≠ "a.png".toList) ∧ l.get? "b.png".toList = none
    ∧ "b.png".toList ∉ [pManifest, pMeta, pSettings, pStyles, Package.pContent] := by
  refine ⟨_, _, listing_only "1.3".toList [("a.png".toList, ⟨"a.png".toList, none, [], none⟩)] false, by decide, by decide,
    by decide, ?_, by decide, by decide⟩
  intro x hx
  rcases List.mem_cons.1 hx with rfl | hx
  · show pManifest ≠ _
    decide
  · cases hx

end Verif.Archive
