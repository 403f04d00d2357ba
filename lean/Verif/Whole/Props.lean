import Verif.Whole.Files
import Verif.Master.Props
import Verif.Meta.Props
import Verif.Config.SettingsProps
import Verif.Style.Props
import Verif.Style.Examples

/-!
# Whole files: the theorems

C78 (packages) and C79 (flat files).  The theorems about the parts of a workbook, C46, C51, C63, C65 and C72, are about
files with one part in it.  Here all parts stand together in the files, and nothing in one of them changes how another
one is read.
-/

set_option autoImplicit false

namespace Verif.Whole

open Xml Codec Xml.Spec
open Verif.Book (Stores HMap)
open Verif.Ns (Part NsBook)

/-! ## The specification -/

namespace Spec

/-- The metadata that comes back is the same, but for what is never read: the template, the automatic reload, the
behaviour of hyperlinks, the statistics, and the generator, which is the library. -/
structure SameMeta (m m' : Meta.Metadata) : Prop where
  title : m'.title = m.title
  description : m'.description = m.description
  subject : m'.subject = m.subject
  keyword : m'.keyword = m.keyword
  initialCreator : m'.initialCreator = m.initialCreator
  creator : m'.creator = m.creator
  printedBy : m'.printedBy = m.printedBy
  creationDate : m'.creationDate = m.creationDate
  date : m'.date = m.date
  printDate : m'.printDate = m.printDate
  language : m'.language = m.language
  editingCycles : m'.editingCycles = m.editingCycles
  editingDuration : m'.editingDuration = m.editingDuration
  userDefined : m'.userDefined = m.userDefined

/-- Each part of the workbook but the sheets is as the theorem about it wants it: C75 and C76 the namespaces, C63 the
metadata, C46 the configuration, C74 the scripts, C51 the styles, C72 the master pages, C65 the rest of the body. -/
structure GoodParts (fl : Floats) (lb : Bool) (s : Source) : Prop where
  ns : Ns.Reachable s.ns
  metadata : Meta.Spec.Kept fl s.metadata
  config : Config.GoodConfig (Config.ValueOk fl) s.config
  scripts : s.scripts = []
  styles : Style.BookOk s.styles
  styleCount : s.styles.count < 4294967296
  masters : ∀ q ∈ s.masters, Master.MasterOk lb q
  masterNames : ∀ q ∈ s.masters, q.name ≠ []
  masterOnce : (s.masters.map (·.name)).Nodup
  masterKeeps : ∀ q ∈ s.masters, ∀ i, Master.Keeps (q.body.slot i)
  body : TableXml.BookOk lb s.extra s.validations

/-- The same for all parts: C65 the sheets, of which there is one. -/
structure Good (fl : Floats) (lb : Bool) (s : Source) : Prop extends GoodParts fl lb s where
  sheets : ∀ q ∈ s.sheets, TableXml.HeadOk lb q.1 ∧ TableXml.SheetOk fl lb q.2 ∧ TableXml.SheetFits q.2
  some : s.sheets ≠ []

/-- The parts that come back the same way from a package and from a flat file. -/
structure Back (ignoreEmpty : Bool) (defStyle : ValueType → Option String) (s : Source) (t : Target) : Prop where
  version : t.ns.version = s.ns.version
  metadata : SameMeta s.metadata t.metadata
  config : t.config = Config.dropAll s.config
  scripts : t.scripts = {}
  pages : ∀ n, t.styles.pages.get? .page n = s.styles.pages.get? .page n
  masters : ∀ q ∈ s.masters, ∃ b, t.masters.get? .masterPage q.name = some ⟨q.name, b⟩ ∧ Master.MasterSame q.body b
  noMasters : ∀ n, n ∉ s.masters.map (·.name) → t.masters.get? .masterPage n = none
  sheets : TableXml.SameSheets ignoreEmpty defStyle s.sheets t.body.sheets
  extra : t.body.extra = (s.extra.filter fun t => decide (TableXml.nodeName t ∈ TableXml.bookPrelude))
    ++ (s.extra.filter fun t => decide (TableXml.nodeName t ∈ TableXml.bookEpilogue))
  validations : ∀ v ∈ s.validations, ∃ w, t.body.valid.get? .validation v.name = some w ∧ w.name = v.name
    ∧ w.body.rule = v.body.rule

end Spec

open Spec

/-! ## The sections -/

theorem kept_readable (fl : Floats) (m : Meta.Metadata) (h : Meta.Spec.Kept fl m) (sheets : List Nat) :
    Meta.Spec.Readable fl (Meta.calcMetadata m sheets) where
  generator := by show Plain Meta.generatorName; decide +kernel
  creationDate := h.creationDate
  date := h.date
  printDate := h.printDate
  cycles := h.cycles
  duration := by
    intro hd
    rcases h.duration with h0 | ⟨_, h1⟩
    · exact absurd hd (by rw [show (Meta.calcMetadata m sheets).editingDuration = m.editingDuration from rfl, h0]; decide)
    · exact Meta.durationKept_ok _ h1
  names := h.names
  values := fun u hu => (Meta.valueKept fl u.value (h.values u hu)).2

theorem kept_same (fl : Floats) (m : Meta.Metadata) (h : Meta.Spec.Kept fl m) (sheets : List Nat) :
    SameMeta m (Meta.Spec.metaRead (Meta.calcMetadata m sheets)) := by
  refine ⟨rfl, rfl, rfl, rfl, rfl, rfl, rfl, rfl, rfl, rfl, rfl, rfl, ?_, ?_⟩
  · show (if m.editingDuration < 10 ^ 9 then 0 else Meta.Spec.durationRead m.editingDuration) = m.editingDuration
    rcases h.duration with h0 | ⟨h1, h2⟩
    · rw [h0]; rfl
    · rw [if_neg (by omega), Meta.frac_kept _ h2]
  · show m.userDefined.map (fun u => (⟨u.name, Meta.Spec.valueRead u.value⟩ : Meta.UserDefined)) = m.userDefined
    have : ∀ u ∈ m.userDefined, (⟨u.name, Meta.Spec.valueRead u.value⟩ : Meta.UserDefined) = u := by
      intro u hu
      rw [(Meta.valueKept fl u.value (h.values u hu)).1]
    have hm : m.userDefined.map (fun u => (⟨u.name, Meta.Spec.valueRead u.value⟩ : Meta.UserDefined))
        = m.userDefined.map id := List.map_congr_left this
    rw [hm, List.map_id]

variable {e : Env} {p : Part} {lb : Bool}

section Styles

variable (hm : e.ints.max = Refs.Spec.maxU32) (hp : styled p = true) (sb : Style.SBook) (hsb : Style.BookOk sb)
  (b : Target) (r : Style.SBook)
include hm hp hsb

theorem covers_fonts (h : b.styles.applyAll (Style.fontOps sb (origin p)) = .ok r) :
    Covers e p lb (Style.writeFonts sb (origin p)) b { b with styles := r } := by
  rw [← Style.fontsDoc_calls]
  exact covers_doc hp _ (Style.fontsDoc_ok sb hsb _) (fontsDoc_tags sb _) _
    (Style.does_fonts e.ints lb sb _ (Style.fonts_ok sb hsb _)) b r h

theorem covers_office (h : b.styles.applyAll (Style.officeOps lb sb (origin p)) = .ok r) :
    Covers e p lb (Style.writeOffice sb (origin p)) b { b with styles := r } := by
  rw [← Style.officeDoc_calls]
  exact covers_doc hp _ (Style.officeDoc_ok sb hsb _) (officeDoc_tags sb _) _
    (Style.does_office e.ints hm lb sb hsb _) b r h

theorem covers_auto (h : b.styles.applyAll (Style.autoOps lb sb (origin p)) = .ok r) :
    Covers e p lb (Style.writeAuto sb (origin p)) b { b with styles := r } := by
  rw [← Style.autoDoc_calls]
  exact covers_doc hp _ (Style.autoDoc_ok sb hsb _) (autoDoc_tags sb _) _
    (Style.does_auto e.ints hm lb sb hsb _) b r h

end Styles

theorem split_ops (ps qs : List Style.Op) (b r : Style.SBook) (h : b.applyAll (ps ++ qs) = .ok r) :
    ∃ c, b.applyAll ps = .ok c ∧ c.applyAll qs = .ok r := by
  rw [Style.applyAll_append] at h
  cases hc : b.applyAll ps with
  | error f => rw [hc] at h; cases h
  | ok c => rw [hc] at h; exact ⟨c, rfl, h⟩

theorem masters_store (l : List (Book.Style Master.Master)) (h : ∀ q ∈ l, Master.MasterOk lb q) (hne : ∀ q ∈ l, q.name ≠ [])
    (hnd : (l.map (·.name)).Nodup) (hk : ∀ q ∈ l, ∀ i, Master.Keeps (q.body.slot i)) :
    ∃ mb, Master.storeAll (l.map fun q => ⟨q.name, Master.masterBack q.body⟩) {} = .ok mb
      ∧ (∀ q ∈ l, ∃ b, mb.get? .masterPage q.name = some ⟨q.name, b⟩ ∧ Master.MasterSame q.body b)
      ∧ ∀ n, n ∉ l.map (·.name) → mb.get? .masterPage n = none := by
  have hmap : (l.map fun p => (⟨p.name, Master.masterBack p.body⟩ : Book.Style Master.Master)).map (·.name)
      = l.map (·.name) := by
    rw [List.map_map]; rfl
  obtain ⟨b, h1, h2, h3⟩ := Master.storeAll_get (l.map fun p => ⟨p.name, Master.masterBack p.body⟩) {}
    (by
      intro q hq
      obtain ⟨p, hp, rfl⟩ := List.mem_map.1 hq
      exact hne p hp) (by rw [hmap]; exact hnd)
  refine ⟨b, h1, fun q hq => ⟨_, h2 ⟨q.name, Master.masterBack q.body⟩ (List.mem_map.2 ⟨q, hq, rfl⟩), ?_⟩, fun n hn => ?_⟩
  · exact ⟨rfl, rfl, rfl, fun i => Master.hf_same _ _ (hk q hq i) (Master.slotBack_spec lb _ (h q hq i))⟩
  · rw [hmap] at h3
    exact h3 n hn

/-- All that is needed of a workbook, gathered once for both kinds of files. -/
theorem gather (defStyle : ValueType → Option String) (hm : e.ints.max = Refs.Spec.maxU32) (ho : e.opts.useRepeat = false)
    (s : Source) (h : Good e.fl lb s) :
    ∃ w vb mb back, parts e.fl s = some w ∧ w.src = s.calc ∧ w.settings = docCalls (Config.settingsDoc e.fl s.config)
      ∧ Valid.stored s.validations {} = .ok vb
      ∧ TableXml.Sheetlikes e.fl e.ints e.opts id defStyle lb w.tables back
      ∧ TableXml.SameSheets e.opts.ignoreEmpty defStyle s.sheets back
      ∧ TableXml.Rounds (TableXml.absOpts id defStyle e.opts) s.sheets back
      ∧ TableXml.extraBack s.extra w.tables = (s.extra.filter fun t => decide (TableXml.nodeName t ∈ TableXml.bookPrelude))
          ++ (s.extra.filter fun t => decide (TableXml.nodeName t ∈ TableXml.bookEpilogue))
      ∧ (∀ v ∈ s.validations, ∃ w, vb.get? .validation v.name = some w ∧ w.name = v.name ∧ w.body.rule = v.body.rule)
      ∧ Master.storeAll (s.masters.map fun q => ⟨q.name, Master.masterBack q.body⟩) {} = .ok mb
      ∧ (∀ q ∈ s.masters, ∃ b, mb.get? .masterPage q.name = some ⟨q.name, b⟩ ∧ Master.MasterSame q.body b)
      ∧ ∀ n, n ∉ s.masters.map (·.name) → mb.get? .masterPage n = none := by
  obtain ⟨fl, ints, ie, ur⟩ := e
  simp only at hm ho h
  subst ho
  obtain ⟨tables, back, h1, h2, h3, h4⟩ := TableXml.sheetlikes fl ints hm ie defStyle lb s.sheets h.sheets
  obtain ⟨vb, rs, g1, _⟩ := Book.C41_map (Valid.ops s.validations) (by rw [Valid.ops_length]; exact h.body.count)
  have hst := Valid.stored_run s.validations {} vb rs g1
  obtain ⟨mb, m1, m2, m3⟩ := masters_store s.masters h.masters h.masterNames h.masterOnce h.masterKeeps
  refine ⟨⟨s.calc, docCalls (Config.settingsDoc fl s.config), tables⟩, vb, mb, back, ?_, rfl, rfl, hst, h2, h3, h4,
    TableXml.extras_back h.body tables (TableXml.tables_epilogue (fun p hp => (h.sheets p hp).1) tables h1),
    fun v hv => ⟨Valid.named v, ?_, rfl, rfl⟩, m1, m2, m3⟩
  · unfold parts
    rw [if_neg (by simpa using h.some), Config.writeSettings_eq fl s.config h.config, h1]
  · exact (Valid.stored_get s.validations {} vb hst (fun w hw => (h.body.valid w hw).name) h.body.names).1 v hv

/-! ## C78: packages -/

theorem package_applied (m : Refs.Ints) (hm : m.max = Refs.Spec.maxU32) (b : Style.SBook) (hb : Style.BookOk b)
    (bk : Style.SBook) (h : Style.readPackage m (output false (Style.writeStylesFile [] b))
      (output false (Style.writeContentFile [] b)) = .ok bk) :
    ∃ c, ({} : Style.SBook).applyAll (Style.stylesOps false b) = .ok c
      ∧ c.applyAll (Style.contentOps false b) = .ok bk := by
  have h0 : AttrsOk [] := by intro a ha; cases ha
  unfold Style.readPackage at h
  rw [Style.read_stylesFile m hm false b hb [] h0] at h
  cases hc : ({} : Style.SBook).applyAll (Style.stylesOps false b) with
  | error f => rw [hc] at h; cases h
  | ok c =>
    rw [hc] at h
    simp only at h
    rw [Style.read_contentFile m hm false b hb [] h0] at h
    exact ⟨c, rfl, h⟩

/-- What a file adds to the namespaces of the workbook. -/
theorem ns_after (p q : Part) (hp : p ≠ .flat) (hq : q ≠ .flat) (ns : NsBook) (m : Ns.NsMap) (v : Str) (k : Str) :
    Ns.stored q ⟨ns.xmlns.insert p.readKey m, v⟩ k = if p = q then Ns.val m k else Ns.stored q ns k := by
  unfold Ns.stored
  simp only [HMap.get?_insert]
  by_cases h : p = q
  · subst h
    rw [if_pos (by cases p <;> first | rfl | exact absurd rfl hp), if_pos rfl]
    rfl
  · rw [if_neg (fun h' => h (Ns.key_inj q p hq h')), if_neg h]

theorem runOps_append (os os' : List Ns.Op) : ∀ b c : NsBook, Ns.runOps b os = .ok c →
    Ns.runOps b (os ++ os') = Ns.runOps c os' := by
  induction os with
  | nil => intro b c h; cases h; rfl
  | cons o os ih =>
    intro b c h
    rw [Ns.runOps] at h
    rw [List.cons_append, Ns.runOps]
    cases ho : o.run b with
    | error f => rw [ho] at h; cases h
    | ok b1 =>
      rw [ho] at h
      exact ih b1 c h

/-- A file is read: its root element, then what is in it. -/
theorem part_reads (defStyle : ValueType → Option String) (w : Parts) (hns : Ns.BookOk w.src.ns) (b b' : Target)
    (h : ∀ ns, Covers e p lb (inner e.fl defStyle w p) { b with ns := ns } { b' with ns := ns }) :
    ∃ ns, readFile e p b (fileText e.fl defStyle lb w p) = .ok { b' with ns := ns }
      ∧ ns.version = (if p.versioned then w.src.ns.version else b.ns.version)
      ∧ (p ≠ .flat → ∀ k u, Ns.stored p w.src.ns k = some u → ¬ Ns.own p k → Ns.stored p ns k = some u)
      ∧ (p ≠ .flat → ∀ q, q ≠ .flat → p ≠ q → ∀ k, Ns.stored q ns k = Ns.stored q b.ns k)
      ∧ (Ns.Reachable b.ns → Ns.Reachable ns) := by
  obtain ⟨m, h1, h2⟩ := root_reads p w.src.ns b.ns hns
  refine ⟨_, file_reads defStyle w hns b _ h1 _ (h _), rfl, fun hp k u hk ho => ?_, fun hp q hq hpq k => ?_, ?_⟩
  · rw [ns_after p p hp hp, if_pos rfl]
    refine h2 k u ?_
    unfold Ns.written
    rw [Ns.val_declare_other _ _ (Ns.not_own _ _ ho)]
    exact hk
  · rw [ns_after p q hp hq, if_neg hpq]
  · rintro ⟨os, g1, g2⟩
    refine ⟨os ++ [.read p (rawAttrs (Ns.rootAtts p w.src.ns))], ?_, ?_⟩
    · intro o ho
      rcases List.mem_append.1 ho with ho | ho
      · exact g1 o ho
      · rw [List.mem_singleton.1 ho]
        intro a ha
        unfold rawAttrs at ha
        obtain ⟨x, hx, rfl⟩ := List.mem_map.1 ha
        exact (Ns.rootAtts_ok p _ hns x hx).1
    · rw [runOps_append _ _ _ _ g2]
      unfold Ns.runOps Ns.Op.run
      simp only [h1]
      rfl

/-- The styles, formats and fonts of a package, as in C51. -/
structure Spec.PackageStyles (b b' : Style.SBook) : Prop where
  styles : ∀ k n s, b.styles.get? k n = some s → s.body.use ≠ .default →
    (s.body.origin = .styles ∨ s.body.use = .automatic) → ∃ t, b'.styles.get? k n = some t ∧ Style.Spec.SameStyle s t
  noStyles : ∀ k n t, b'.styles.get? k n = some t → t.body.use ≠ .default →
    ∃ s, b.styles.get? k n = some s ∧ Style.Spec.SameStyle s t
  formats : ∀ k n s, b.formats.get? k n = some s → (s.body.origin = .styles ∨ s.body.use = .automatic) →
    ∃ t, b'.formats.get? k n = some t ∧ Style.Spec.SameFormat s t
  noFormats : ∀ k n t, b'.formats.get? k n = some t → ∃ s, b.formats.get? k n = some s ∧ Style.Spec.SameFormat s t
  fonts : ∀ n f, b.fonts.get? n = some f → ∃ g, b'.fonts.get? n = some g ∧ g.name = f.name ∧ g.attr = f.attr
  noFonts : ∀ n, b.fonts.get? n = none → b'.fonts.get? n = none

/-- What was loaded of the parts, as the readers make it. -/
structure Exact (ops : List Style.Op) (s : Source) (t : Target) : Prop where
  ns : Ns.Reachable t.ns
  metadata : t.metadata = Meta.Spec.metaRead s.calc.metadata
  styles : ({} : Style.SBook).applyAll ops = .ok t.styles
  masters : Master.storeAll (s.masters.map fun q => ⟨q.name, Master.masterBack q.body⟩) {} = .ok t.masters
  valid : Valid.stored s.validations {} = .ok t.body.valid

/-- C78, with what the reader of tables makes of each sheet. -/
theorem package_exact (hm : e.ints.max = Refs.Spec.maxU32) (ho : e.opts.useRepeat = false)
    (defStyle : ValueType → Option String) (s : Source) (h : Good e.fl false s) :
    ∃ z t, writePackage e.fl defStyle s = some z ∧ readPackage e z = .ok t
      ∧ TableXml.Rounds (TableXml.absOpts id defStyle e.opts) s.sheets t.body.sheets
      ∧ Exact (Style.packageOps s.styles) s t
      ∧ Back e.opts.ignoreEmpty defStyle s t ∧ PackageStyles s.styles t.styles
      ∧ ∀ p, p ≠ Part.flat → ∀ k u, Ns.stored p s.ns k = some u → ¬ Ns.own p k → Ns.stored p t.ns k = some u := by
  have h0 : AttrsOk [] := by intro a ha; cases ha
  obtain ⟨w, vb, mb, back, hw, hsrc, hset, hvb, hsl, hss, hrd, hex, hval, hmb, hm1, hm2⟩ := gather defStyle hm ho s h
  obtain ⟨bk, hbk, s1, s2⟩ := Style.C51_package_partial e.ints hm [] [] h0 h0 s.styles h.styles h.styleCount
  obtain ⟨bk1, hbk1, f1, f2⟩ := Style.C51_formats_partial e.ints hm [] [] h0 h0 s.styles h.styles h.styleCount
  obtain ⟨bk2, hbk2, p1⟩ := Style.C51_pages e.ints hm [] [] h0 h0 s.styles h.styles h.styleCount
  obtain ⟨bk3, hbk3, o1, o2⟩ := Style.C51_fonts_partial e.ints hm [] [] h0 h0 s.styles h.styles h.styleCount
  cases hbk.symm.trans hbk1
  cases hbk.symm.trans hbk2
  cases hbk.symm.trans hbk3
  obtain ⟨c, a1, a2⟩ := package_applied e.ints hm s.styles h.styles bk hbk
  obtain ⟨c2, a3, a4⟩ := split_ops _ _ _ _ a1
  obtain ⟨c1, a5, a6⟩ := split_ops _ _ _ _ a3
  obtain ⟨d1, a7, a8⟩ := split_ops _ _ _ _ a2
  have hns : Ns.BookOk w.src.ns := by rw [hsrc]; exact Ns.reachable_ok _ h.ns
  have hmeta : w.src.metadata = s.calc.metadata := by rw [hsrc]
  have hstyles : w.src.styles = s.styles := by rw [hsrc]; rfl
  have hmasters : w.src.masters = s.masters := by rw [hsrc]; rfl
  have hscripts : w.src.scripts = [] := by rw [hsrc]; exact h.scripts
  have hextra : w.src.extra = s.extra := by rw [hsrc]; rfl
  have hvalids : w.src.validations = s.validations := by rw [hsrc]; rfl
  have hnss : w.src.ns = s.ns := by rw [hsrc]; rfl
  -- meta.xml
  obtain ⟨ns1, q1, _, x1, y1, r1⟩ := part_reads (e := e) (p := .metadata) (lb := false) defStyle w hns {}
    { metadata := Meta.Spec.metaRead s.calc.metadata } (by
      intro ns
      show Covers e _ _ (docCalls (Meta.metaDoc e.fl w.src.metadata)) _ _
      rw [hmeta]
      exact covers_meta rfl _ (kept_readable e.fl s.metadata h.metadata _) { ns := ns } rfl)
  -- settings.xml
  obtain ⟨ns2, q2, _, x2, y2, r2⟩ := part_reads (e := e) (p := .settings) (lb := false) defStyle w hns
    { metadata := Meta.Spec.metaRead s.calc.metadata, ns := ns1 }
    { metadata := Meta.Spec.metaRead s.calc.metadata, config := Config.dropAll s.config } (by
      intro ns
      show Covers e _ _ w.settings _ _
      rw [hset]
      exact covers_settings (e := e) (p := .settings) (lb := false) rfl s.config h.config
        { metadata := Meta.Spec.metaRead s.calc.metadata, ns := ns })
  -- styles.xml
  obtain ⟨ns3, q3, _, x3, y3, r3⟩ := part_reads (e := e) (p := .styles) (lb := false) defStyle w hns
    { metadata := Meta.Spec.metaRead s.calc.metadata, config := Config.dropAll s.config, ns := ns2 }
    { metadata := Meta.Spec.metaRead s.calc.metadata, config := Config.dropAll s.config, styles := c, masters := mb } (by
      intro ns
      show Covers e _ _ (Style.writeFonts w.src.styles .styles ++ (Style.writeOffice w.src.styles .styles
        ++ (Style.writeAuto w.src.styles .styles ++ Master.writeMasters w.src.masters))) _ _
      rw [hstyles, hmasters]
      exact (covers_fonts (p := .styles) hm rfl s.styles h.styles _ c1 a5).append
        ((covers_office (p := .styles) hm rfl s.styles h.styles _ c2 a6).append
          ((covers_auto (p := .styles) hm rfl s.styles h.styles _ c a4).append
            (covers_masters (p := .styles) rfl s.masters h.masters _ mb hmb))))
  -- content.xml
  obtain ⟨ns4, q4, z4, x4, y4, r4⟩ := part_reads (e := e) (p := .content) (lb := false) defStyle w hns
    { metadata := Meta.Spec.metaRead s.calc.metadata, config := Config.dropAll s.config, styles := c, masters := mb, ns := ns3 }
    { metadata := Meta.Spec.metaRead s.calc.metadata, config := Config.dropAll s.config, styles := bk, masters := mb,
      body := { extra := TableXml.extraBack s.extra w.tables, valid := vb, sheets := back } } (by
      intro ns
      show Covers e _ _ (Script.writeOffice w.src.scripts w.src.listeners ++ (Style.writeFonts w.src.styles .content
        ++ (Style.writeAuto w.src.styles .content
          ++ TableXml.bodyCalls e.fl defStyle w.src.extra w.src.validations w.tables))) _ _
      rw [hstyles, hscripts, hextra, hvalids]
      exact (covers_scripts _ _).append ((covers_fonts (p := .content) hm rfl s.styles h.styles _ d1 a7).append
        ((covers_auto (p := .content) hm rfl s.styles h.styles _ bk a8).append
          (covers_body hm rfl s.extra h.body.extras s.validations h.body.valid (.inl rfl) vb hvb hsl _ rfl))))
  refine ⟨_, _, by unfold writePackage; rw [hw]; rfl, by unfold readPackage; simp only [q1, q2, q3]; exact q4, hrd, ?_, ?_, ?_, ?_⟩
  · refine ⟨r4 (r3 (r2 (r1 ⟨[], (by intro o ho; cases ho), rfl⟩))), rfl, ?_, hmb, hvb⟩
    unfold Style.packageOps
    rw [Style.applyAll_append, a1]
    exact a2
  · exact ⟨by rw [← hnss]; exact z4, kept_same e.fl s.metadata h.metadata _, rfl, rfl, p1, hm1, hm2, hss, hex, hval⟩
  · exact ⟨s1, s2, f1, f2, fun n f hf => by
      obtain ⟨g, g1, g2, g3, _⟩ := o1 n f hf
      exact ⟨g, g1, g2, g3⟩, o2⟩
  · intro p hp k u hk ho
    rw [hnss] at x1 x2 x3 x4
    show Ns.stored p ns4 k = some u
    cases p with
    | flat => exact absurd rfl hp
    | content => exact x4 (by decide) k u hk ho
    | styles =>
      rw [y4 (by decide) .styles (by decide) (by decide)]
      exact x3 (by decide) k u hk ho
    | settings =>
      rw [y4 (by decide) .settings (by decide) (by decide)]
      rw [show Ns.stored Part.settings ns3 k = _ from y3 (by decide) .settings (by decide) (by decide) k]
      exact x2 (by decide) k u hk ho
    | metadata =>
      rw [y4 (by decide) .metadata (by decide) (by decide)]
      rw [show Ns.stored Part.metadata ns3 k = _ from y3 (by decide) .metadata (by decide) (by decide) k]
      rw [show Ns.stored Part.metadata ns2 k = _ from y2 (by decide) .metadata (by decide) (by decide) k]
      exact x1 (by decide) k u hk ho

/-- **C78 (partial).** A workbook with all its parts is written to a package, and reading the package gives each part as
the theorem about that part says: the metadata, the configuration, the styles, formats, page layouts and fonts, the
master pages, the sheets, the validations and the foreign elements; the version; and the prefixes of foreign namespaces
of each file.

Missing (`_partial`): the limits of the theorems about the parts, which are in `Good` and in `PackageStyles`. -/
theorem C78_package_partial (hm : e.ints.max = Refs.Spec.maxU32) (ho : e.opts.useRepeat = false)
    (defStyle : ValueType → Option String) (s : Source) (h : Good e.fl false s) :
    ∃ z t, writePackage e.fl defStyle s = some z ∧ readPackage e z = .ok t
      ∧ Back e.opts.ignoreEmpty defStyle s t ∧ PackageStyles s.styles t.styles
      ∧ ∀ p, p ≠ Part.flat → ∀ k u, Ns.stored p s.ns k = some u → ¬ Ns.own p k → Ns.stored p t.ns k = some u := by
  obtain ⟨z, t, h1, h2, _, _, h3⟩ := package_exact hm ho defStyle s h
  exact ⟨z, t, h1, h2, h3⟩

/-! ## C79: flat files -/

theorem flat_applied (m : Refs.Ints) (hm : m.max = Refs.Spec.maxU32) (b : Style.SBook) (hb : Style.BookOk b)
    (bk : Style.SBook) (h : Style.readFlat m (Style.writeFlat [] b).1 = .ok bk) :
    ({} : Style.SBook).applyAll (Style.flatOps true b.convert) = .ok bk := by
  unfold Style.readFlat Style.writeFlat at h
  rw [Style.read_flatFile m hm true b.convert (Style.convert_ok b hb) [] (by intro a ha; cases ha)] at h
  exact h

/-- The styles, formats and fonts of a flat file, as in C51: all styles and formats have the origin `Content`, and of
the fonts only those with this origin are there. -/
structure Spec.FlatStyles (b b' : Style.SBook) : Prop where
  styles : ∀ k n s, b.styles.get? k n = some s → s.body.use ≠ .default →
    ∃ t, b'.styles.get? k n = some t ∧ Style.Spec.SameStyle (Style.Spec.moved s) t
  noStyles : ∀ k n t, b'.styles.get? k n = some t → t.body.use ≠ .default →
    ∃ s, b.styles.get? k n = some s ∧ Style.Spec.SameStyle (Style.Spec.moved s) t
  formats : ∀ k n s, b.formats.get? k n = some s →
    ∃ t, b'.formats.get? k n = some t ∧ Style.Spec.SameFormat (Style.Spec.movedF s) t
  noFormats : ∀ k n t, b'.formats.get? k n = some t →
    ∃ s, b.formats.get? k n = some s ∧ Style.Spec.SameFormat (Style.Spec.movedF s) t
  fonts : ∀ n, b'.fonts.get? n = (b.fonts.get? n).filter (·.origin = .content)

/-- C79, with the parts that are written and with what the reader of tables makes of each sheet. -/
theorem flat_gathered (hm : e.ints.max = Refs.Spec.maxU32) (ho : e.opts.useRepeat = false)
    (defStyle : ValueType → Option String) (s : Source) (h : Good e.fl true s) :
    ∃ w vb back t, (parts e.fl { s with styles := s.styles.convert } = some w
        ∧ w.src = ({ s with styles := s.styles.convert } : Source).calc
        ∧ w.settings = docCalls (Config.settingsDoc e.fl s.config) ∧ Valid.stored s.validations {} = .ok vb
        ∧ TableXml.Sheetlikes e.fl e.ints e.opts id defStyle true w.tables back
        ∧ t.body = { extra := TableXml.extraBack s.extra w.tables, valid := vb, sheets := back })
      ∧ readFlat e (fileText e.fl defStyle true w .flat) = .ok t
      ∧ TableXml.Rounds (TableXml.absOpts id defStyle e.opts) s.sheets t.body.sheets
      ∧ Exact (Style.flatOps true s.styles.convert) s t
      ∧ Back e.opts.ignoreEmpty defStyle s t ∧ FlatStyles s.styles t.styles := by
  have h0 : AttrsOk [] := by intro a ha; cases ha
  obtain ⟨bk, hbk, s1, s2, f1, f2⟩ := Style.C51_flat_partial e.ints hm [] h0 s.styles h.styles h.styleCount
  obtain ⟨bk1, hbk1, o1⟩ := Style.C51_flat_fonts_partial e.ints hm [] h0 s.styles h.styles h.styleCount
  obtain ⟨bk2, hbk2, p1⟩ := Style.C51_flat_pages e.ints hm [] h0 s.styles h.styles h.styleCount
  cases hbk.symm.trans hbk1
  cases hbk.symm.trans hbk2
  have a1 := flat_applied e.ints hm s.styles h.styles bk hbk
  obtain ⟨c2, a3, a4⟩ := split_ops _ _ _ _ a1
  obtain ⟨c1, a5, a6⟩ := split_ops _ _ _ _ a3
  have hcb := Style.convert_ok s.styles h.styles
  have hg : Good e.fl true { s with styles := s.styles.convert } :=
    { h with styles := hcb, styleCount := by rw [Style.convert_count]; exact h.styleCount }
  obtain ⟨w, vb, mb, back, hw, hsrc, hset, hvb, hsl, hss, hrd, hex, hval, hmb, hm1, hm2⟩ := gather defStyle hm ho _ hg
  have hns : Ns.BookOk w.src.ns := by rw [hsrc]; exact Ns.reachable_ok _ h.ns
  have hmeta : w.src.metadata = s.calc.metadata := by rw [hsrc]; rfl
  have hstyles : w.src.styles = s.styles.convert := by rw [hsrc]; rfl
  have hmasters : w.src.masters = s.masters := by rw [hsrc]; rfl
  have hscripts : w.src.scripts = [] := by rw [hsrc]; exact h.scripts
  have hextra : w.src.extra = s.extra := by rw [hsrc]; rfl
  have hvalids : w.src.validations = s.validations := by rw [hsrc]; rfl
  have hnss : w.src.ns = s.ns := by rw [hsrc]; rfl
  obtain ⟨ns1, q1, z1, _, _, r1⟩ := part_reads (e := e) (p := .flat) (lb := true) defStyle w hns {}
    { metadata := Meta.Spec.metaRead s.calc.metadata, config := Config.dropAll s.config, styles := bk, masters := mb,
      body := { extra := TableXml.extraBack s.extra w.tables, valid := vb, sheets := back } } (by
      intro ns
      show Covers e _ _ (docCalls (Meta.metaDoc e.fl w.src.metadata) ++ (w.settings
        ++ (Script.writeOffice w.src.scripts w.src.listeners ++ (Style.writeFonts w.src.styles .content
          ++ (Style.writeOffice w.src.styles .content ++ (Style.writeAuto w.src.styles .content
            ++ (Master.writeMasters w.src.masters
              ++ TableXml.bodyCalls e.fl defStyle w.src.extra w.src.validations w.tables))))))) _ _
      rw [hmeta, hset, hstyles, hscripts, hextra, hvalids, hmasters]
      have hcfg : ∀ b, Covers e .flat true (docCalls (Config.settingsDoc e.fl s.config)) b { b with config := Config.dropAll s.config } := by
        intro b
        exact covers_settings (e := e) (p := .flat) (lb := true) rfl s.config h.config b
      exact (covers_meta rfl _ (kept_readable e.fl s.metadata h.metadata _) { ns := ns } rfl).append ((hcfg _).append
        ((covers_scripts _ _).append ((covers_fonts (p := .flat) hm rfl s.styles.convert hcb _ c1 a5).append
          ((covers_office (p := .flat) hm rfl s.styles.convert hcb _ c2 a6).append
            ((covers_auto (p := .flat) hm rfl s.styles.convert hcb _ bk a4).append
              ((covers_masters (p := .flat) rfl s.masters h.masters _ mb hmb).append
                (covers_body hm rfl s.extra h.body.extras s.validations h.body.valid
                  (h.body.flat.imp id And.right) vb hvb hsl _ rfl))))))))
  refine ⟨w, vb, back, _, ⟨hw, hsrc, hset, hvb, hsl, rfl⟩, q1, hrd,
    ⟨r1 ⟨[], (by intro o ho; cases ho), rfl⟩, rfl, a1, hmb, hvb⟩, ?_, ⟨s1, s2, f1, f2, o1⟩⟩
  exact ⟨by rw [← hnss]; exact z1, kept_same e.fl s.metadata h.metadata _, rfl, rfl, p1, hm1, hm2, hss, hex, hval⟩

/-- C79, with what the reader of tables makes of each sheet. -/
theorem flat_exact (hm : e.ints.max = Refs.Spec.maxU32) (ho : e.opts.useRepeat = false)
    (defStyle : ValueType → Option String) (s : Source) (h : Good e.fl true s) :
    ∃ z t, writeFlat e.fl defStyle s = some z ∧ readFlat e z = .ok t
      ∧ TableXml.Rounds (TableXml.absOpts id defStyle e.opts) s.sheets t.body.sheets
      ∧ Exact (Style.flatOps true s.styles.convert) s t
      ∧ Back e.opts.ignoreEmpty defStyle s t ∧ FlatStyles s.styles t.styles := by
  obtain ⟨w, vb, back, t, hw, h1, h2⟩ := flat_gathered hm ho defStyle s h
  exact ⟨_, t, by unfold writeFlat; rw [hw.1]; rfl, h1, h2⟩

/-- **C79 (partial).** A workbook with all its parts is written to a flat file, and reading the file gives each part as
the theorem about that part says.

Missing (`_partial`): the limits of the theorems about the parts, which are in `Good` and in `FlatStyles`; in
particular a flat file has no foreign elements and no validations, and prefixes of foreign namespaces are not kept
(`C75_flat_counterexample`). -/
theorem C79_flat_partial (hm : e.ints.max = Refs.Spec.maxU32) (ho : e.opts.useRepeat = false)
    (defStyle : ValueType → Option String) (s : Source) (h : Good e.fl true s) :
    ∃ z t, writeFlat e.fl defStyle s = some z ∧ readFlat e z = .ok t
      ∧ Back e.opts.ignoreEmpty defStyle s t ∧ FlatStyles s.styles t.styles := by
  obtain ⟨z, t, h1, h2, _, _, h3⟩ := flat_exact hm ho defStyle s h
  exact ⟨z, t, h1, h2, h3⟩

/-! ## What is refused and what is lost -/

/-- **C78**, **C79**: a workbook without sheets is not written. -/
theorem C78_no_sheets (fl : Floats) (defStyle : ValueType → Option String) (s : Source) (h : s.sheets = []) :
    writePackage fl defStyle s = none ∧ writeFlat fl defStyle s = none := by
  unfold writePackage writeFlat parts
  rw [h]
  exact ⟨rfl, rfl⟩

/-- **C78** is false of the code for event listeners of a workbook without scripts: none of them comes back, whatever
else there is. -/
theorem C78_listeners_counterexample (hm : e.ints.max = Refs.Spec.maxU32) (ho : e.opts.useRepeat = false)
    (defStyle : ValueType → Option String) (s : Source) (h : Good e.fl false s) (l : List Script.Listener) :
    ∃ z t, writePackage e.fl defStyle { s with listeners := l } = some z ∧ readPackage e z = .ok t
      ∧ t.scripts.listeners = [] := by
  obtain ⟨z, t, h1, h2, h3, _⟩ := C78_package_partial hm ho defStyle { s with listeners := l } { h with }
  exact ⟨z, t, h1, h2, by rw [h3.scripts]⟩

/-! ## Cases that meet the hypotheses -/

/-- A workbook with something in every part. -/
def demo : Source where
  metadata := Meta.demo
  config := Config.demoConfig
  styles := Style.demo
  masters := [Master.demoMaster, Master.newMaster "Default".toList]
  extra := TableXml.demoExtra
  validations := [Valid.demo]
  sheets := [(TableXml.fullHead, fullSheet), ({ name := "b".toList }, fullSheet)]

theorem demo_good : Good Meta.asBits false demo where
  ns := ⟨[], (by intro o ho; cases ho), rfl⟩
  metadata := Meta.C63_meets
  config := (Config.demoConfig_good Meta.asBits).1
  scripts := rfl
  styles := Style.demo_ok
  styleCount := Style.demo_meets.2.1
  masters := by
    intro p hp
    simp only [demo, List.mem_cons, List.not_mem_nil, or_false] at hp
    rcases hp with rfl | rfl
    · exact Master.demoMaster_ok
    · intro s; exact Master.hfOk_empty false false
  masterNames := by
    intro p hp
    simp only [demo, List.mem_cons, List.not_mem_nil, or_false] at hp
    rcases hp with rfl | rfl <;> decide
  masterOnce := by decide
  masterKeeps := by
    intro p hp
    simp only [demo, List.mem_cons, List.not_mem_nil, or_false] at hp
    rcases hp with rfl | rfl
    · exact Master.demoMaster_keeps
    · intro s; rfl
  body := TableXml.demo_book_ok
  sheets := by
    intro p hp
    simp only [demo, List.mem_cons, List.not_mem_nil, or_false] at hp
    rcases hp with rfl | rfl
    · exact ⟨TableXml.fullHead_ok, TableXml.fullSheet_ok _ false, TableXml.fullSheet_fits⟩
    · exact ⟨⟨(by intro l hl; cases hl), .inl rfl, (by intro t ht; cases ht)⟩, TableXml.fullSheet_ok _ false,
        TableXml.fullSheet_fits⟩
  some := by simp [demo]

/-- **The hypotheses of C78 are met** by a workbook with something in every part. -/
theorem C78_meets : ∃ z t, writePackage Meta.asBits (fun _ => none) demo = some z
    ∧ readPackage ⟨Meta.asBits, Refs.checked, {}⟩ z = .ok t ∧ t.metadata.title = "a < b & \"c\"".toList
    ∧ t.body.sheets.map (·.1.name) = ["A & <B>".toList, "b".toList] := by
  obtain ⟨z, t, h1, h2, h3, _⟩ := C78_package_partial (e := ⟨Meta.asBits, Refs.checked, {}⟩) rfl rfl (fun _ => none) demo
    demo_good
  exact ⟨z, t, h1, h2, h3.metadata.title, TableXml.same_names h3.sheets⟩

/-- The same for a flat file. -/
def demoFlat : Source :=
  { demo with
    masters := [Master.newMaster "Default".toList], extra := [], validations := []
    sheets := [({ name := "b".toList }, fullSheet)] }

theorem demoFlat_good : Good Meta.asBits true demoFlat where
  ns := demo_good.ns
  metadata := demo_good.metadata
  config := demo_good.config
  scripts := rfl
  styles := demo_good.styles
  styleCount := demo_good.styleCount
  masters := by
    intro p hp
    simp only [demoFlat, List.mem_cons, List.not_mem_nil, or_false] at hp
    subst hp
    intro s; exact Master.hfOk_empty true false
  masterNames := by
    intro p hp
    simp only [demoFlat, List.mem_cons, List.not_mem_nil, or_false] at hp
    subst hp
    decide
  masterOnce := by decide
  masterKeeps := by
    intro p hp
    simp only [demoFlat, List.mem_cons, List.not_mem_nil, or_false] at hp
    subst hp
    intro s; rfl
  body := ⟨.inr ⟨rfl, rfl⟩, (by intro t ht; cases ht), (by intro t ht; cases ht), by decide, by decide⟩
  sheets := by
    intro p hp
    simp only [demoFlat, List.mem_cons, List.not_mem_nil, or_false] at hp
    subst hp
    exact ⟨⟨(by intro l hl; cases hl), .inr rfl, (by intro t ht; cases ht)⟩, TableXml.fullSheet_ok _ true,
      TableXml.fullSheet_fits⟩
  some := by simp [demoFlat]

/-- **The hypotheses of C79 are met**. -/
theorem C79_meets : ∃ z t, writeFlat Meta.asBits (fun _ => none) demoFlat = some z
    ∧ readFlat ⟨Meta.asBits, Refs.checked, {}⟩ z = .ok t ∧ t.metadata.title = "a < b & \"c\"".toList
    ∧ t.config = Config.demoConfig ∧ t.body.sheets.map (·.1.name) = ["b".toList] := by
  obtain ⟨z, t, h1, h2, h3, _⟩ := C79_flat_partial (e := ⟨Meta.asBits, Refs.checked, {}⟩) rfl rfl (fun _ => none) demoFlat
    demoFlat_good
  exact ⟨z, t, h1, h2, h3.metadata.title,
    by rw [h3.config]; exact Config.dropAll_id _ (Config.demoConfig_good Meta.asBits).2, TableXml.same_names h3.sheets⟩

end Verif.Whole
