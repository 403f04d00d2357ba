import Verif.Whole.OtherAll

/-!
# C116: whole files of other programs

The specification is at the top of `Verif/Whole/OtherAll.lean` and in the structures below; the meaning of each section is
that of C107 (body), C111 (styles, formats, page layouts, fonts), C112 (master pages), C113 (scripts), C114 (settings) and
C115 (metadata).
-/

set_option autoImplicit false

namespace Verif.Whole

open Xml Xml.Spec Verif.Codec Verif.TableXml
open Verif.Ns (Part NsBook)
open Verif.Style (AttrsFine)
open Verif.Valid (rulesIn)

/-! ## Specification -/

/-- A workbook has what the sections say: the elements of the metadata, the settings, the scripts and the body, the
definitions of styles and the master pages. -/
structure WorkbookSaid (e : Env) (m s sc : List El) (ops : List Style.Op) (ms : List (Book.Style Master.Master)) (body : List El)
    (t : Target) : Prop where
  metadata : t.metadata = Meta.metaSaid e.fl m
  config : t.config = Config.configSaid e.fl s
  scripts : t.scripts.scripts = Script.scriptsSaid sc
  listeners : ∀ ev, t.scripts.listeners.get? ev = (Script.listenersSaid sc).reverse.find? fun l => l.event = ev
  styles : Style.Found t.styles ops
  masters : Master.MastersFound t.masters ms
  body : BodySaid e body t.body

/-- A file of a package: it is missing, or it is the text of a root element with these attributes and elements. -/
def Given (e : Env) (p : Part) (as : List (Str × Str)) (c : List El) : Option Str → Prop
  | none => c = []
  | some text => ∃ front back, FileFine e p front as c back ∧ FileText (wholeEls p front as c back) text

/-! ## Lemmas -/

section Files

variable {e : Env} {p : Part}

theorem find_never {s : Sect} (h : ∀ n, special p n ≠ some s) (c : List El) : findSection p s c = none :=
  find_gone fun y _ => by
    cases y with
    | elem n as d => exact h n
    | _ => intro hy; cases hy

theorem said_nil (b : Target) : Said e p [] b b := by
  refine ⟨rfl, rfl, rfl, rfl, ?_, ?_, rfl⟩
  · unfold stylesOf rest
    split <;> rfl
  · rfl

/-- A file that may be missing. -/
theorem given_said (as : List (Str × Str)) (c : List El) (z : Option Str) (h : Given e p as c z) (b : Target)
    (hm : findSection p .metadata c ≠ none → b.metadata = {}) (hb : findSection p .body c ≠ none → b.body = {})
    (sb : Style.SBook) (hs : b.styles.applyAll (stylesOf e p c) = .ok sb) (ms : Book.Stores Master.Master)
    (hms : Style.addsAll b.masters ((mastersOf p c).map fun x => (.masterPage, x)) = .ok ms) :
    ∃ n t, readIf e p b z = .ok t ∧ Said e p c { b with ns := n } t
      ∧ (z ≠ none → NamespacesSaid p as n
        ∧ n.version = (if p.versioned then (Style.attrOf as Ns.aVersion).getD b.ns.version else b.ns.version))
      ∧ (z = none → n = b.ns)
      ∧ ∀ k, k ≠ p.readKey → n.xmlns.get? k = b.ns.xmlns.get? k := by
  cases z with
  | none =>
    have hc : c = [] := h
    subst hc
    exact ⟨b.ns, b, rfl, said_nil b, fun hz => absurd rfl hz, fun _ => rfl, fun _ _ => rfl⟩
  | some text =>
    obtain ⟨front, back, hf, ht⟩ := h
    obtain ⟨n, t, h1, h2, h3⟩ := file_said front as c back hf text ht b hm hb sb hs ms hms
    obtain ⟨n', g1, g2, g3, g4⟩ := readRoot_said p b.ns as hf.root
    have hn : n' = n := by rw [h1] at g1; exact (Except.ok.inj g1).symm
    subst hn
    exact ⟨n', t, h2, h3, fun _ => ⟨g2, g3⟩, fun hz => (nomatch hz), g4⟩

theorem body_none (t : Target) (h : t.body = {}) : BodySaid e [] t.body := by
  rw [h]
  exact ⟨rfl, rfl, fun n rule hr => by
    have : (n, rule) ∈ ([] : List (Str × Valid.Rule)) := hr
    cases this⟩

end Files

/-! ## Theorems -/

/-- **C116** for a flat file: all its sections are read as they are in the file, in whatever order they come. -/
theorem C116_flat (e : Env) (front : List El) (as : List (Str × Str)) (c back : List El) (h : FileFine e .flat front as c back)
    (text : Str) (ht : FileText (wholeEls .flat front as c back) text)
    (hs : (stylesOf e .flat c).length < 4294967296) (hm : (mastersOf .flat c).length < 4294967296) :
    ∃ t, read_fods false e text = .ok t
      ∧ WorkbookSaid e (sectionOf .flat .metadata c) (sectionOf .flat .settings c) (sectionOf .flat .scripts c)
        (stylesOf e .flat c) (mastersOf .flat c) (sectionOf .flat .body c) t
      ∧ NamespacesSaid .flat as t.ns
      ∧ t.ns.version = (Style.attrOf as Ns.aVersion).getD "1.3".toList := by
  obtain ⟨sb, hsb, hfound⟩ := Style.applyAll_found _ hs
  obtain ⟨mb, hmb, hmfound⟩ := Master.masters_found _ hm
  obtain ⟨n, t, h1, h2, h3⟩ := file_said front as c back h text ht {} (fun _ => rfl) (fun _ => rfl) sb hsb mb hmb
  obtain ⟨n', g1, g2, g3, -⟩ := readRoot_said .flat {} as h.root
  have hn : n' = n := by rw [h1] at g1; exact (Except.ok.inj g1).symm
  subst hn
  refine ⟨t, by rw [read_fods_all]; exact h2, ⟨?_, ?_, ?_, ?_, ?_, ?_, ?_⟩, ?_, ?_⟩
  · rw [h3.metadata]
    unfold sectionOf
    cases findSection .flat .metadata c <;> rfl
  · rw [h3.config]
    unfold sectionOf
    cases findSection .flat .settings c <;> rfl
  · rw [h3.scripts]
    unfold sectionOf
    cases findSection .flat .scripts c <;> rfl
  · intro ev
    rw [h3.scripts]
    unfold sectionOf
    cases findSection .flat .scripts c with
    | none => rfl
    | some d =>
      show Book.HMap.get? (List.foldl _ _ _) ev = _
      rw [Script.listeners_found]
      simp [Book.HMap.get?]
  · have := h3.styles
    rw [hsb] at this
    cases this
    exact hfound
  · have := h3.masters
    rw [hmb] at this
    cases this
    exact hmfound
  · have := h3.body
    unfold sectionOf
    cases hf : findSection .flat .body c with
    | none => rw [hf] at this; exact body_none t this
    | some d => rw [hf] at this; exact this
  · rw [h3.ns]; exact g2
  · rw [h3.ns]; exact g3

/-- **C116** for a package: the metadata are those of `meta.xml`, the settings those of `settings.xml`, the styles and master
pages those of `styles.xml` and `content.xml`, and the scripts and the body those of `content.xml`.  All but the last file may
be missing. -/
theorem C116_package (e : Env) (ma sa ya ca : List (Str × Str)) (mc sc yc cc : List El) (zm zs zy : Option Str) (zc : Str)
    (hm : Given e .metadata ma mc zm) (hs : Given e .settings sa sc zs) (hy : Given e .styles ya yc zy)
    (hc : Given e .content ca cc (some zc))
    (hst : (stylesOf e .styles yc ++ stylesOf e .content cc).length < 4294967296)
    (hma : (mastersOf .styles yc ++ mastersOf .content cc).length < 4294967296) :
    ∃ t, read_ods false e ⟨zm, zs, zy, some zc⟩ = .ok t
      ∧ WorkbookSaid e (sectionOf .metadata .metadata mc) (sectionOf .settings .settings sc) (sectionOf .content .scripts cc)
        (stylesOf e .styles yc ++ stylesOf e .content cc) (mastersOf .styles yc ++ mastersOf .content cc)
        (sectionOf .content .body cc) t
      ∧ (zm ≠ none → NamespacesSaid .metadata ma t.ns) ∧ (zs ≠ none → NamespacesSaid .settings sa t.ns)
      ∧ (zy ≠ none → NamespacesSaid .styles ya t.ns) ∧ NamespacesSaid .content ca t.ns
      ∧ t.ns.version = (Style.attrOf ca Ns.aVersion).getD "1.3".toList := by
  obtain ⟨sb, hsb, hfound⟩ := Style.applyAll_found _ hst
  obtain ⟨mb, hmb, hmfound⟩ := Master.masters_found _ hma
  rw [Style.applyAll_append] at hsb
  rw [List.map_append, Style.addsAll_append] at hmb
  cases hsb1 : Style.SBook.applyAll {} (stylesOf e .styles yc) with
  | error f => rw [hsb1] at hsb; cases hsb
  | ok sb1 =>
  cases hmb1 : Style.addsAll ({} : Book.Stores Master.Master) ((mastersOf .styles yc).map fun x => (Book.Kind.masterPage, x)) with
  | error f => rw [hmb1] at hmb; cases hmb
  | ok mb1 =>
  rw [hsb1] at hsb
  rw [hmb1] at hmb
  have hsb : sb1.applyAll (stylesOf e .content cc) = .ok sb := hsb
  have hmb : Style.addsAll mb1 ((mastersOf .content cc).map fun x => (Book.Kind.masterPage, x)) = .ok mb := hmb
  -- meta.xml
  have nm : ∀ s, s ≠ .root → s ≠ .metadata → ∀ c, findSection .metadata s c = none := fun s h0 h1 c => find_never (by
    intro n
    unfold special
    split
    · exact fun h => h0 (Option.some.inj h).symm
    · dsimp only; split
      · exact fun h => h1 (Option.some.inj h).symm
      · exact fun h => nomatch h) c
  have ns : ∀ s, s ≠ .root → s ≠ .settings → ∀ c, findSection .settings s c = none := fun s h0 h1 c => find_never (by
    intro n
    unfold special
    split
    · exact fun h => h0 (Option.some.inj h).symm
    · dsimp only; split
      · exact fun h => h1 (Option.some.inj h).symm
      · exact fun h => nomatch h) c
  have ny : ∀ s, s ≠ .root → s ≠ .masters → ∀ c, findSection .styles s c = none := fun s h0 h1 c => find_never (by
    intro n
    unfold special
    split
    · exact fun h => h0 (Option.some.inj h).symm
    · dsimp only; split
      · exact fun h => h1 (Option.some.inj h).symm
      · exact fun h => nomatch h) c
  have nc : ∀ s, s = .metadata ∨ s = .settings → ∀ c, findSection .content s c = none := fun s h0 c => find_never (by
    intro n
    unfold special
    rcases h0 with rfl | rfl <;> dsimp only <;> (repeat' split) <;> exact fun h => nomatch h) c
  have mm : mastersOf .metadata mc = [] := by
    unfold mastersOf sectionOf; rw [nm _ (by decide) (by decide)]; rfl
  have ms : mastersOf .settings sc = [] := by
    unfold mastersOf sectionOf; rw [ns _ (by decide) (by decide)]; rfl
  have sm : stylesOf e .metadata mc = [] := rfl
  have ss : stylesOf e .settings sc = [] := rfl
  obtain ⟨n1, t1, r1, d1, v1, w1, x1⟩ := given_said ma mc zm hm {} (fun _ => rfl) (fun _ => rfl) {} (by rw [sm]; rfl) {}
    (by rw [mm]; rfl)
  have st1 : t1.styles = {} := by
    have := d1.styles
    rw [sm] at this
    exact (Except.ok.inj this).symm
  have mt1 : t1.masters = {} := by
    have := d1.masters
    rw [mm] at this
    exact (Except.ok.inj this).symm
  have bt1 : t1.body = {} := by
    have := d1.body
    rw [nm _ (by decide) (by decide)] at this
    exact this
  have at1 : t1.scripts = {} := by
    have := d1.scripts
    rw [nm _ (by decide) (by decide)] at this
    exact this
  have ct1 : t1.config = [] := by
    have := d1.config
    rw [nm _ (by decide) (by decide)] at this
    exact this
  obtain ⟨n2, t2, r2, d2, v2, w2, x2⟩ := given_said sa sc zs hs t1 (by rw [ns _ (by decide) (by decide)]; exact fun h => absurd rfl h)
    (fun _ => bt1) {} (by rw [ss, st1]; rfl) {} (by rw [ms, mt1]; rfl)
  have st2 : t2.styles = {} := by
    have := d2.styles
    rw [ss] at this
    exact (Except.ok.inj this).symm.trans st1
  have mt2 : t2.masters = {} := by
    have := d2.masters
    rw [ms] at this
    exact (Except.ok.inj this).symm.trans mt1
  have bt2 : t2.body = {} := by
    have := d2.body
    rw [ns _ (by decide) (by decide)] at this
    exact Eq.trans this bt1
  have at2 : t2.scripts = {} := by
    have := d2.scripts
    rw [ns _ (by decide) (by decide)] at this
    exact Eq.trans this at1
  have et2 : t2.metadata = t1.metadata := by
    have := d2.metadata
    rw [ns _ (by decide) (by decide)] at this
    exact this
  obtain ⟨n3, t3, r3, d3, v3, w3, x3⟩ := given_said ya yc zy hy t2 (by rw [ny _ (by decide) (by decide)]; exact fun h => absurd rfl h)
    (fun _ => bt2) sb1 (by rw [st2]; exact hsb1) mb1 (by rw [mt2]; exact hmb1)
  have st3 : t3.styles = sb1 := by
    have := d3.styles
    rw [show ({ t2 with ns := n3 } : Target).styles = {} from st2, hsb1] at this
    exact (Except.ok.inj this).symm
  have mt3 : t3.masters = mb1 := by
    have := d3.masters
    rw [show ({ t2 with ns := n3 } : Target).masters = {} from mt2, hmb1] at this
    exact (Except.ok.inj this).symm
  have bt3 : t3.body = {} := by
    have := d3.body
    rw [ny _ (by decide) (by decide)] at this
    exact Eq.trans this bt2
  have at3 : t3.scripts = {} := by
    have := d3.scripts
    rw [ny _ (by decide) (by decide)] at this
    exact Eq.trans this at2
  have et3 : t3.metadata = t1.metadata := by
    have := d3.metadata
    rw [ny _ (by decide) (by decide)] at this
    exact Eq.trans this et2
  have ct3 : t3.config = t2.config := by
    have := d3.config
    rw [ny _ (by decide) (by decide)] at this
    exact this
  obtain ⟨n4, t4, r4, d4, v4, w4, x4⟩ := given_said ca cc (some zc) hc t3 (by rw [nc _ (.inl rfl)]; exact fun h => absurd rfl h)
    (fun _ => bt3) sb (by rw [st3]; exact hsb) mb (by rw [mt3]; exact hmb)
  have hread : read_ods false e ⟨zm, zs, zy, some zc⟩ = .ok t4 := by
    unfold read_ods
    rw [if_neg (by simp)]
    unfold readOds
    simp only [r1, r2, r3]
    exact r4
  have e1 : t1.ns = n1 := d1.ns
  have e2 : t2.ns = n2 := d2.ns
  have e3 : t3.ns = n3 := d3.ns
  have e4 : t4.ns = n4 := d4.ns
  rw [e1] at x2 v2 w2
  rw [e2] at x3 v3 w3
  rw [e3] at x4 v4 w4
  have vv1 : n1.version = "1.3".toList := by
    cases zm with
    | none => rw [w1 rfl]
    | some z => rw [(v1 (by simp)).2]; rfl
  have vv2 : n2.version = "1.3".toList := by
    cases zs with
    | none => rw [w2 rfl]; exact vv1
    | some z => rw [(v2 (by simp)).2]; exact vv1
  have vv3 : n3.version = "1.3".toList := by
    cases zy with
    | none => rw [w3 rfl]; exact vv2
    | some z => rw [(v3 (by simp)).2]; exact vv2
  refine ⟨t4, hread, ⟨?_, ?_, ?_, ?_, ?_, ?_, ?_⟩, ?_, ?_, ?_, ?_, ?_⟩
  · have := d4.metadata
    rw [nc _ (.inl rfl)] at this
    rw [show t4.metadata = t3.metadata from this, et3, d1.metadata]
    unfold sectionOf
    cases findSection .metadata .metadata mc <;> rfl
  · have := d4.config
    rw [nc _ (.inr rfl)] at this
    rw [show t4.config = t3.config from this, ct3, d2.config]
    unfold sectionOf
    cases findSection .settings .settings sc with
    | none => exact ct1
    | some d => rfl
  · rw [d4.scripts, show ({ t3 with ns := n4 } : Target).scripts = {} from at3]
    unfold sectionOf
    cases findSection .content .scripts cc <;> rfl
  · intro ev
    rw [d4.scripts, show ({ t3 with ns := n4 } : Target).scripts = {} from at3]
    unfold sectionOf
    cases findSection .content .scripts cc with
    | none => rfl
    | some d =>
      show Book.HMap.get? (List.foldl _ _ _) ev = _
      rw [Script.listeners_found]
      simp [Book.HMap.get?]
  · have := d4.styles
    rw [show ({ t3 with ns := n4 } : Target).styles = sb1 from st3, hsb] at this
    cases this
    exact hfound
  · have := d4.masters
    rw [show ({ t3 with ns := n4 } : Target).masters = mb1 from mt3, hmb] at this
    cases this
    exact hmfound
  · have := d4.body
    unfold sectionOf
    cases hf : findSection .content .body cc with
    | none => rw [hf] at this; exact body_none t4 (Eq.trans this bt3)
    | some d => rw [hf] at this; exact this
  · intro hz
    obtain ⟨⟨m, k1, k2⟩, -⟩ := v1 hz
    exact ⟨m, by rw [e4, x4 _ (by decide +kernel), x3 _ (by decide +kernel), x2 _ (by decide +kernel)]; exact k1, k2⟩
  · intro hz
    obtain ⟨⟨m, k1, k2⟩, -⟩ := v2 hz
    exact ⟨m, by rw [e4, x4 _ (by decide +kernel), x3 _ (by decide +kernel)]; exact k1, k2⟩
  · intro hz
    obtain ⟨⟨m, k1, k2⟩, -⟩ := v3 hz
    exact ⟨m, by rw [e4, x4 _ (by decide +kernel)]; exact k1, k2⟩
  · rw [e4]; exact (v4 (by simp)).1
  · rw [e4, (v4 (by simp)).2, vv3]
    rfl

/-- **C116** for the cells: whatever file the body comes from, the sheets have the cells of its tables, under the conditions of
C107.  Missing: tables with rows repeated more than 1000 times, and those with elements the conditions leave out. -/
theorem C116_cells_partial (e : Env) (ho : e.opts.useRepeat = false) (body : List El) (b : BookBody) (h : BodySaid e body b) :
    b.sheets.length = (tablesIn body).length
      ∧ ∀ (i : Nat) (as : List (Str × Str)) (tc : List El) (f : FileTable), (tablesIn body)[i]? = some (as, tc) →
        TableXml.tagsIn e.fl tc = f.events → f.OK → (∀ r ∈ f.rows, r.tag.repeated.getD 1 ≤ 1000) →
        ∃ s, b.sheets[i]? = some ({ headSaid e.ints as with extra := keptIn tc }, s)
          ∧ (∀ r k v, s.data.get? (r, k) = some v → ∃ x, f.cellAt r k = some x ∧ v = { x with «repeat» := 1 })
          ∧ (∀ r k x, f.cellAt r k = some x → x.isEmpty = false →
            s.data.get? (r, k) = some { x with «repeat» := 1 }) := by
  have h3 := h.sheets
  refine ⟨?_, ?_⟩
  · have := congrArg List.length h3
    rw [List.length_map, List.length_map] at this
    exact this
  · intro i as tc t hi hev ht hbig
    have hm : (b.sheets.map some)[i]? = some (tableRead e.fl e.ints e.opts (as, tc)) := by
      rw [h3, List.getElem?_map, hi]
      rfl
    rw [List.getElem?_map] at hm
    cases hb : b.sheets[i]? with
    | none => rw [hb] at hm; cases hm
    | some p =>
      rw [hb] at hm
      have hm := Option.some.inj hm
      unfold tableRead at hm
      cases hs : readTable e.opts.abs (TableXml.tagsIn e.fl tc) with
      | none => simp only [hs] at hm; cases hm
      | some s =>
        simp only [hs] at hm
        have hm := Option.some.inj hm
        rw [hev] at hs
        refine ⟨s, by rw [hm], ?_, ?_⟩
        · intro r k v hv
          obtain ⟨x, g1, g2⟩ := C103_only t ht e.opts.abs ho s hs r k v hv
          refine ⟨x, ?_, g2⟩
          rw [← g1]
          cases t.cellAt r k <;> rfl
        · intro r k x hx hne
          refine C103_cells_partial t ht e.opts.abs ho hbig s hs r k x ?_ hne
          rw [hx]
          rfl

/-! ## A file as other programs write it -/

/-- The fonts and styles of C111. -/
def officeFormats : List El := (inside (Style.officeStyles.headD (.text []))).take 3

/-- The elements of a flat file, in an order that is not that of the standard. -/
def officeAll : List El :=
  .text "\n".toList :: .elem Config.tSettings [] Config.officeSettings :: .elem TableXml.tBody [] officeBody ::
   .elem tMeta [] Meta.officeMeta :: .elem "loext:more".toList [] [.void "loext:none".toList []] ::
   .elem Master.tMasters [] Master.officeMasters :: .elem Script.tScripts [] Script.officeScripts :: officeFormats

def officeRoot : List (Str × Str) :=
  [("xmlns:office".toList, "urn:oasis:names:tc:opendocument:xmlns:office:1.0".toList), ("office:version".toList, "1.2".toList),
   ("office:mimetype".toList, Ns.mime), ("xmlns:loext".toList, "urn:a&amp;b".toList)]

theorem officeRoot_fine : RootFine officeRoot := by
  refine ⟨⟨by decide +kernel, (by decide +kernel : (unescapeAttrs _).isSome = true)⟩, ?_⟩
  rw [show Style.attrOf officeRoot Ns.aMime = some Ns.mime by decide +kernel]
  intro v hv
  exact (Option.some.inj hv).symm

theorem startsOk_all (p : Part) (es : List Event)
    (h : (es.all fun | .start n _ => (special p n).isNone | _ => true) = true) : StartsOk (Free p) es := by
  intro n as hn
  have := List.all_eq_true.1 h _ hn
  exact Option.isNone_iff_eq_none.1 this

theorem officeMeta_none : NoStartIn tMeta Meta.officeMeta := by
  simp [Meta.officeMeta, NoStartIn, El.NoStart]
  decide +kernel

theorem officeSettings_none : NoStartIn Config.tSettings Config.officeSettings := by
  simp [Config.officeSettings, Config.itemEl, NoStartIn, El.NoStart]
  decide +kernel

theorem once_of (p : Part) : ∀ c : List El, (c.filterMap (sect p)).Nodup → Once p c
  | [], _ => trivial
  | x :: c, h => by
    rw [List.filterMap_cons] at h
    cases hx : sect p x with
    | none =>
      rw [hx] at h
      exact ⟨fun s hs => (by cases hx.symm.trans hs), once_of p c h⟩
    | some s =>
      rw [hx] at h
      have h : (s :: c.filterMap (sect p)).Nodup := h
      rw [List.nodup_cons] at h
      refine ⟨fun s' hs' y hy e => ?_, once_of p c h.2⟩
      have : s = s' := Option.some.inj (hx.symm.trans hs')
      subst this
      exact h.1 (List.mem_filterMap.2 ⟨y, hy, e⟩)

theorem officeFormats_fine : Style.StylesFineIn Refs.checked officeFormats := by
  have h := Style.officeStyles_fine.1
  rw [Style.StylesFine, if_neg (by decide +kernel), if_neg (by decide +kernel), if_neg (by decide +kernel)] at h
  exact ⟨h.1, h.2.1, h.2.2.1, trivial⟩

theorem stylesFine_mem (m : Refs.Ints) : ∀ (c : List El), Style.StylesFineIn m c → ∀ x ∈ c, Style.StylesFine m x
  | x :: c, h, y, hy => by
    rcases List.mem_cons.1 hy with rfl | hy
    · exact h.1
    · exact stylesFine_mem m c h.2 y hy

theorem officeAll_fine (fl : Floats) : FileFine ⟨fl, Refs.checked, {}⟩ .flat [] officeRoot officeAll [.text "\n".toList] := by
  refine ⟨fun x hx => (by cases hx), fun x hx => (by rw [List.mem_singleton] at hx; subst hx; rfl), officeRoot_fine,
    once_of _ _ (by decide +kernel), ?_⟩
  intro x hx
  unfold officeAll at hx
  rcases List.mem_cons.1 hx with rfl | hx
  · exact ⟨fun _ => trivial, fun n as h => by cases List.mem_singleton.1 h⟩
  rcases List.mem_cons.1 hx with rfl | hx
  · unfold ChildFine
    rw [show sect .flat (.elem Config.tSettings [] Config.officeSettings) = some .settings by decide +kernel]
    exact ⟨Config.officeSettings_fine fl, officeSettings_none⟩
  rcases List.mem_cons.1 hx with rfl | hx
  · unfold ChildFine
    rw [show sect .flat (.elem TableXml.tBody [] officeBody) = some .body by decide +kernel]
    exact ⟨officeBody_ok fl, by
      show RulesFine Refs.checked officeBody
      unfold RulesFine
      rw [officeBody_lists, Valid.officeValids_rules]; decide +kernel⟩
  rcases List.mem_cons.1 hx with rfl | hx
  · unfold ChildFine
    rw [show sect .flat (.elem tMeta [] Meta.officeMeta) = some .metadata by decide +kernel]
    exact ⟨Meta.officeMeta_fine fl, officeMeta_none⟩
  rcases List.mem_cons.1 hx with rfl | hx
  · unfold ChildFine
    rw [show sect .flat (.elem "loext:more".toList [] [.void "loext:none".toList []]) = none by decide +kernel]
    refine ⟨fun _ => ?_, startsOk_all _ _ (by decide +kernel)⟩
    rw [Style.StylesFine, if_neg (by decide +kernel), if_neg (by decide +kernel), if_neg (by decide +kernel)]
    exact ⟨trivial, trivial⟩
  rcases List.mem_cons.1 hx with rfl | hx
  · unfold ChildFine
    rw [show sect .flat (.elem Master.tMasters [] Master.officeMasters) = some .masters by decide +kernel]
    exact Master.officeMasters_fine
  rcases List.mem_cons.1 hx with rfl | hx
  · unfold ChildFine
    rw [show sect .flat (.elem Script.tScripts [] Script.officeScripts) = some .scripts by decide +kernel]
    exact Script.C113_meets.1
  have hn : sect .flat x = none ∧ StartsOk (Free .flat) x.events := by
    have : (officeFormats.all fun x => (sect .flat x).isNone && x.events.all fun
        | .start n _ => (special .flat n).isNone
        | _ => true) = true := by decide +kernel
    have := List.all_eq_true.1 this x hx
    rw [Bool.and_eq_true] at this
    exact ⟨Option.isNone_iff_eq_none.1 this.1, startsOk_all _ _ this.2⟩
  unfold ChildFine
  rw [hn.1]
  exact ⟨fun _ => stylesFine_mem _ _ officeFormats_fine x hx, hn.2⟩

def officeAllText : Str :=
  '<' :: '?' :: ("xml version=\"1.0\" encoding=\"UTF-8\"?".toList
    ++ '>' :: spellIn (wholeEls .flat [] officeRoot officeAll [.text "\n".toList]))

theorem officeAll_text : FileText (wholeEls .flat [] officeRoot officeAll [.text "\n".toList]) officeAllText :=
  .declared _ _ _ (by decide +kernel) (spell_ok _ (by decide +kernel))

/-- What the file has in one section or another: two sheets with a text in the second, a title, settings, a script, a cell
style, a master page and the version of the root element. -/
theorem C116_meets : ∃ t s, read_fods false ⟨Meta.asBits, Refs.checked, {}⟩ officeAllText = .ok t
    ∧ t.body.sheets.length = 2
    ∧ (t.body.sheets[1]?.map Prod.snd) = some s ∧ s.data.get? (3, 0) = some officeCellData.toData
    ∧ t.metadata = Meta.officeMetadata
    ∧ t.scripts.scripts.map (·.lang) = ["ooo:Basic".toList]
    ∧ t.styles.styles.get? .cell (Style.n "Some") = some ⟨Style.n "Some", Style.cellRead⟩
    ∧ t.ns.version = "1.2".toList := by
  obtain ⟨t, h1, h2, h3, h4⟩ := C116_flat ⟨Meta.asBits, Refs.checked, {}⟩ [] officeRoot officeAll [.text "\n".toList]
    (officeAll_fine _) officeAllText officeAll_text (by decide +kernel) (by decide +kernel)
  have hb : sectionOf .flat .body officeAll = officeBody := rfl
  have g := C116_cells_partial _ rfl _ _ h2.body
  rw [hb, officeBody_tables] at g
  obtain ⟨s, g1, -, g2⟩ := g.2 1 _ _ officeRows rfl (officeTable_rows _) officeRows_ok (by decide)
  refine ⟨t, s, h1, g.1, ?_, g2 3 0 _ rfl (by decide +kernel), ?_, ?_, ?_, ?_⟩
  · rw [g1]; rfl
  · rw [h2.metadata]; exact Meta.C115_meets.2
  · rw [h2.scripts]; exact Script.C113_meets.2.1
  · have hs := h2.styles
    rw [show stylesOf ⟨Meta.asBits, Refs.checked, {}⟩ .flat officeAll
      = Style.stylesSaidIn Refs.checked .content Style.officeStyles by decide +kernel, Style.officeStyles_said] at hs
    refine hs.style [_, _, _] .cell ⟨Style.n "Some", Style.cellRead⟩ [_, _] rfl (by decide +kernel) ?_
    intro y hy
    simp only [List.mem_cons, List.not_mem_nil, or_false] at hy
    rcases hy with hy | hy
    · cases hy; decide +kernel
    · cases hy
  · rw [h4]; decide +kernel

/-- A package without `meta.xml` and `settings.xml`: the styles are in one file, the body in the other. -/
theorem C116_package_meets : ∃ zy zc t, read_ods false ⟨Meta.asBits, Refs.checked, {}⟩ ⟨none, none, some zy, some zc⟩ = .ok t
    ∧ t.body.sheets.length = 2 ∧ t.metadata = {}
    ∧ t.styles.styles.get? .cell (Style.n "Bad") = some ⟨Style.n "Bad", { Style.badRead with origin := .styles }⟩
    ∧ t.ns.version = "1.2".toList := by
  have hy : Given ⟨Meta.asBits, Refs.checked, {}⟩ .styles officeRoot officeFormats
      (some (spellIn (wholeEls .styles [] officeRoot officeFormats []))) := by
    refine ⟨[], [], ⟨fun x hx => (by cases hx), fun x hx => (by cases hx), officeRoot_fine, once_of _ _ (by decide +kernel), ?_⟩,
      .plain _ _ (spell_ok _ (by decide +kernel))⟩
    intro x hx
    have hn : sect .styles x = none ∧ StartsOk (Free .styles) x.events := by
      have : (officeFormats.all fun x => (sect .styles x).isNone && x.events.all fun
          | .start n _ => (special .styles n).isNone
          | _ => true) = true := by decide +kernel
      have := List.all_eq_true.1 this x hx
      rw [Bool.and_eq_true] at this
      exact ⟨Option.isNone_iff_eq_none.1 this.1, startsOk_all _ _ this.2⟩
    unfold ChildFine
    rw [hn.1]
    exact ⟨fun _ => stylesFine_mem _ _ officeFormats_fine x hx, hn.2⟩
  have hc : Given ⟨Meta.asBits, Refs.checked, {}⟩ .content officeRoot [.elem TableXml.tBody [] officeBody]
      (some (spellIn (wholeEls .content [] officeRoot [.elem TableXml.tBody [] officeBody] []))) := by
    refine ⟨[], [], ⟨fun x hx => (by cases hx), fun x hx => (by cases hx), officeRoot_fine, once_of _ _ (by decide +kernel), ?_⟩,
      .plain _ _ (spell_ok _ (by decide +kernel))⟩
    intro x hx
    rw [List.mem_singleton] at hx
    subst hx
    unfold ChildFine
    rw [show sect .content (.elem TableXml.tBody [] officeBody) = some .body by decide +kernel]
    exact ⟨officeBody_ok _, by
      show RulesFine Refs.checked officeBody
      unfold RulesFine
      rw [officeBody_lists, Valid.officeValids_rules]; decide +kernel⟩
  obtain ⟨t, h1, h2, -, -, -, -, h3⟩ := C116_package ⟨Meta.asBits, Refs.checked, {}⟩ [] [] officeRoot officeRoot [] []
    officeFormats [.elem TableXml.tBody [] officeBody] none none _ _ rfl rfl hy hc (by decide +kernel) (by decide +kernel)
  have g := C116_cells_partial _ rfl _ _ h2.body
  rw [show sectionOf .content .body [.elem TableXml.tBody [] officeBody] = officeBody from rfl, officeBody_tables] at g
  refine ⟨_, _, t, h1, g.1, ?_, ?_, ?_⟩
  · rw [h2.metadata]; rfl
  · have hs := h2.styles
    rw [show stylesOf ⟨Meta.asBits, Refs.checked, {}⟩ .styles officeFormats
        ++ stylesOf ⟨Meta.asBits, Refs.checked, {}⟩ .content [.elem TableXml.tBody [] officeBody]
      = Style.stylesSaidIn Refs.checked .styles Style.officeStyles by decide +kernel,
      show Style.stylesSaidIn Refs.checked .styles Style.officeStyles
        = (Style.stylesSaidIn Refs.checked .styles Style.officeStyles).take 4
          ++ .style .cell ⟨Style.n "Bad", { Style.badRead with origin := .styles }⟩ :: (Style.stylesSaidIn Refs.checked .styles Style.officeStyles).drop 5
        by decide +kernel] at hs
    refine hs.style _ .cell ⟨Style.n "Bad", { Style.badRead with origin := .styles }⟩ _ rfl (by decide +kernel) ?_
    intro y hy
    have : ((Style.stylesSaidIn Refs.checked .styles Style.officeStyles).drop 5).all (fun
        | .style _ _ => false
        | _ => true) = true := by decide +kernel
    cases List.all_eq_true.1 this _ hy
  · rw [h3]; decide +kernel

/-! ## What is read wrongly -/

/-- A flat file with one master page, which is an empty tag, and a body. -/
def emptyMaster (as : List (Str × Str)) (body : List El) : List El :=
  [.elem Master.tMasters [] [.void Master.tMaster as], .elem TableXml.tBody [] body]

/-- C116 fails for a flat file with a master page that is an empty tag: it is read without an error, but no sheet of it is
read, whatever its body is.  `Quiet` says that there are no further master pages, headers or footers. -/
theorem C116_empty_counterexample (e : Env) (ra as : List (Str × Str)) (hr : RootFine ra) (has : AttrsFine as) (body : List El)
    (hq : ∀ ev ∈ evsOf body, Master.Quiet ev) (text : Str)
    (ht : FileText (wholeEls .flat [] ra (emptyMaster as body) []) text) :
    ∃ t, read_fods false e text = .ok t ∧ t.body.sheets = [] := by
  obtain ⟨ts, g1, g2⟩ := file_events ht
  obtain ⟨n, hn, -⟩ := readRoot_said .flat {} ra hr
  obtain ⟨mb, hmb, -⟩ := Master.C112_empty_counterexample as has
    (.start TableXml.tBody [] :: (evsOf body ++ [.end TableXml.tBody, .end (Part.flat).root])) (by
      intro ev hev
      simp only [List.mem_cons, List.mem_append, List.not_mem_nil, or_false] at hev
      rcases hev with rfl | hev | rfl | rfl
      · exact (by decide +kernel : TableXml.tBody ∉ Master.masterNames)
      · exact hq ev hev
      · exact (by decide +kernel : TableXml.tBody ≠ Master.tMaster)
      · exact (by decide +kernel : (Part.flat).root ≠ Master.tMaster))
  have hev : evsOf (wholeEls .flat [] ra (emptyMaster as body) [])
      = .start (Part.flat).root ra :: .start Master.tMasters [] :: .empty Master.tMaster as :: .end Master.tMasters
        :: .start TableXml.tBody [] :: (evsOf body ++ [.end TableXml.tBody, .end (Part.flat).root]) := by
    unfold wholeEls emptyMaster
    simp [evsOf, El.events]
  have hroot : special .flat (Part.flat).root = some .root := by unfold special; rw [if_pos rfl]
  have hall : Goes e .flat ⟨.style .doc, {}⟩ (evsOf (wholeEls .flat [] ra (emptyMaster as body) []))
      ⟨.style .doc, { ns := n, masters := mb }⟩ [] := by
    rw [hev]
    refine Goes.trans (goes_enter _ _ _ hroot {} ⟨.style .doc, { ns := n }⟩ _ _ ?_ (Nat.le_refl _)) ?_
    · unfold enter
      simp only [hn]
      rfl
    · refine goes_enter _ _ .masters (by decide +kernel) _ _ _ _ ?_ (Nat.zero_le _)
      unfold enter
      simp only [hmb]
      rfl
  obtain ⟨k, hk, hl⟩ := hall
  refine ⟨{ ns := n, masters := mb }, ?_, rfl⟩
  rw [read_fods_all]
  show readFile e .flat {} text = _
  unfold readFile
  rw [g1]
  simp only
  rw [g2]
  have hk' : ∃ j, (evsOf (wholeEls .flat [] ra (emptyMaster as body) [])).length + 1 = (j + 1) + k :=
    ⟨(evsOf (wholeEls .flat [] ra (emptyMaster as body) [])).length - k, by rw [List.length_nil] at hk; omega⟩
  obtain ⟨j, hj⟩ := hk'
  rw [hj, hl, loop]
  rfl

/-- The body of C107, with two tables, in such a file: the hypotheses hold. -/
theorem C116_empty_meets : ∃ text, FileText (wholeEls .flat [] officeRoot (emptyMaster Master.defaultAttrs officeBody) []) text
    ∧ AttrsFine Master.defaultAttrs ∧ (∀ ev ∈ evsOf officeBody, Master.Quiet ev) ∧ (tablesIn officeBody).length = 2 := by
  refine ⟨_, .plain _ _ (spell_ok _ (by decide +kernel)), ⟨by decide +kernel, (by decide +kernel : (unescapeAttrs _).isSome = true)⟩,
    ?_, by rw [officeBody_tables]; rfl⟩
  have h : ((evsOf officeBody).all fun
      | .start n _ => !(Master.masterNames.contains n)
      | .end n => n != Master.tMaster
      | _ => true) = true := by decide +kernel
  intro ev hev
  have := List.all_eq_true.1 h ev hev
  cases ev with
  | start n as => simpa [Master.Quiet] using this
  | «end» n => simpa [Master.Quiet] using this
  | _ => trivial

end Verif.Whole
