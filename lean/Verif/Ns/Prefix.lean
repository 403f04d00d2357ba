import Verif.Ns.Props
import Verif.Xml.DocNames
import Verif.Meta.Props
import Verif.Config.SettingsProps

/-!
# C77: every prefix that is used is declared
-/

set_option autoImplicit false

namespace Verif.Ns

open Xml Xml.Spec Verif.Book

/-! ## Specification -/

/-- The prefix of a name. -/
def prefixOf (n : Str) : Option Str := if ':' ∈ n then some (n.takeWhile (· ≠ ':')) else none

/-- The name of the attribute that declares a prefix. -/
def declares (pre : Str) : Str := xmlnsPrefix ++ pre

/-- In a text, the prefixes of all names of elements and attributes are declared at the root element.  The prefix
`xmlns` itself needs no declaration. -/
def Bound (text : Str) : Prop :=
  ∃ ts root as, tokenize text = some ts ∧ rootOf text = some (root, as)
    ∧ ∀ n ∈ tokNames ts, ∀ pre, prefixOf n = some pre → pre = "xmlns".toList ∨ ∃ u, (declares pre, u) ∈ as

/-- Metadata that are written with the prefix `dc`. -/
def UsesDc (m : Meta.Metadata) : Prop :=
  m.title ≠ [] ∨ m.description ≠ [] ∨ m.subject ≠ [] ∨ m.creator ≠ [] ∨ m.date.isSome ∨ m.language ≠ []

/-- Metadata that are written with the prefix `xlink`. -/
def UsesXlink (m : Meta.Metadata) : Prop :=
  (m.template.actuate.isSome ∨ m.template.href.isSome ∨ m.template.title.isSome ∨ m.template.linkType.isSome)
  ∨ (m.autoReload.actuate.isSome ∨ m.autoReload.href.isSome ∨ m.autoReload.show.isSome ∨ m.autoReload.linkType.isSome)
  ∨ m.hyperlink.show.isSome

/-! ## Files -/

/-- The prefix of a name is declared in a list of attributes. -/
def BoundIn (as : List (Str × Str)) (n : Str) : Prop :=
  ∀ pre, prefixOf n = some pre → pre = "xmlns".toList ∨ ∃ u, (declares pre, u) ∈ as

theorem file_doc (lb : Bool) (p : Part) (b : NsBook) (kids : List Doc) :
    output lb (.dtd "UTF-8".toList :: docCalls (.elem false p.root (rootAtts p b) kids))
      = fileText lb p b (docsItems kids) := by
  unfold fileText docCalls
  rw [docItems, writeRoot_calls, List.cons_append, List.flatMap_cons, List.flatMap_append]
  rfl

theorem bound_iff (lb : Bool) (p : Part) (b : NsBook) (h : BookOk b) (kids : List Doc) (hk : DocsOk kids) :
    Bound (fileText lb p b (docsItems kids))
      ↔ (BoundIn ((rootAtts p b).map (·.2)) p.root
        ∧ ∀ a ∈ rootAtts p b, BoundIn ((rootAtts p b).map (·.2)) a.2.1)
        ∧ DocsNames (BoundIn ((rootAtts p b).map (·.2))) kids := by
  have hr := rootOf_file lb p b h _ (docsItems_valid kids hk)
  obtain ⟨ts, ht, hts⟩ : ∃ ts, tokenize (fileText lb p b (docsItems kids)) = some ts
      ∧ tokNames ts = (docItems (.elem false p.root (rootAtts p b) kids)).flatMap itemNames := by
    rw [← file_doc]
    unfold docCalls
    rw [tok_document lb _ (by decide) _ ?_ (elem_last _ _ _ _)]
    · refine ⟨_, rfl, ?_⟩
      rw [← tokNames_items lb]
      show tokNames ((nl lb).map Tok.chr ++ _) = _
      rw [tokNames_append, tokNames_chr]
      rfl
    · intro i hi
      exact tok_item lb i (docItems_valid (.elem false p.root (rootAtts p b) kids)
        ⟨root_name p, rootAtts_ok p b h, hk⟩ i hi)
  have := docNames_items (BoundIn ((rootAtts p b).map (·.2))) (.elem false p.root (rootAtts p b) kids)
  rw [DocNames, ← hts, ← and_assoc] at this
  rw [← this]
  constructor
  · rintro ⟨ts', root, as, h1, h2, h3⟩
    rw [ht] at h1
    rw [hr] at h2
    cases h1
    cases h2
    exact h3
  · intro h3
    exact ⟨ts, _, _, ht, hr, h3⟩

/-- A prefix of the crate. -/
theorem bound_own (p : Part) (b : NsBook) (n pre : Str) (hp : prefixOf n = some pre) (ho : own p (declares pre)) :
    BoundIn ((rootAtts p b).map (·.2)) n := by
  intro q hq
  rw [hp] at hq
  cases hq
  obtain ⟨u, hu⟩ := ho
  exact .inr ⟨u, mem_of_val p b _ _ (val_declare_own p.table (table_nodup p) _ _ hu)⟩

/-- A foreign prefix is declared only if it was read. -/
theorem bound_foreign (p : Part) (b : NsBook) (n pre : Str) (hp : prefixOf n = some pre) (hx : pre ≠ "xmlns".toList)
    (ho : ¬ own p (declares pre)) (hv : declares pre ≠ aVersion) (hm : declares pre ≠ aMime) (h : BookOk b) :
    BoundIn ((rootAtts p b).map (·.2)) n ↔ (stored p b (declares pre)).isSome := by
  have hw : val (written p b) (declares pre) = stored p b (declares pre) :=
    val_declare_other _ _ (not_own _ _ ho) _
  constructor
  · intro hb
    obtain hb | ⟨u, hu⟩ := hb pre hp
    · exact absurd hb hx
    · obtain ⟨a, ha, hu⟩ := List.mem_map.1 hu
      rcases List.mem_append.1 ha with ha | ha
      · obtain ⟨e, he, rfl⟩ := List.mem_map.1 ha
        have := HMap.get?_of_mem _ (written_ok p b h).distinct e.1 e.2 he
        rw [← hw]
        have h1 : e.1 = declares pre := congrArg Prod.fst hu
        rw [← h1]
        unfold val
        rw [this]
        rfl
      · rcases List.mem_cons.1 ha with rfl | ha
        · exact absurd (congrArg Prod.fst hu).symm hv
        · split at ha
          · obtain rfl : a = (true, aMime, mime) := by simpa using ha
            exact absurd (congrArg Prod.fst hu).symm hm
          · cases ha
  · intro hs q hq
    rw [hp] at hq
    cases hq
    obtain ⟨u, hu⟩ := Option.isSome_iff_exists.1 hs
    rw [← hw] at hu
    exact .inr ⟨u, mem_of_val p b _ _ hu⟩

theorem takeWhile_xmlns (k : Str) (h : xmlnsPrefix.isPrefixOf k = true) : prefixOf k = some "xmlns".toList := by
  rw [List.isPrefixOf_iff_prefix] at h
  obtain ⟨t, rfl⟩ := h
  unfold prefixOf
  rw [if_pos (List.mem_append.2 (.inl (by decide)))]
  rfl

/-- The root element itself. -/
theorem bound_root (p : Part) (b : NsBook) (h : BookOk b) : BoundIn ((rootAtts p b).map (·.2)) p.root
    ∧ ∀ a ∈ rootAtts p b, BoundIn ((rootAtts p b).map (·.2)) a.2.1 := by
  have ho : own p (declares "office".toList) := by cases p <;> decide +kernel
  refine ⟨bound_own p b _ "office".toList (by cases p <;> decide) ho, fun a ha => ?_⟩
  rcases List.mem_append.1 ha with ha | ha
  · obtain ⟨e, he, rfl⟩ := List.mem_map.1 ha
    intro pre hp
    have := takeWhile_xmlns e.1 ((written_ok p b h).names e he).2
    rw [hp] at this
    exact .inl (Option.some.inj this)
  · rcases List.mem_cons.1 ha with rfl | ha
    · exact bound_own p b aVersion "office".toList (by decide) ho
    · split at ha
      · obtain rfl : a = (true, aMime, mime) := by simpa using ha
        exact bound_own p b aMime "office".toList (by decide) ho
      · cases ha

/-! ## `settings.xml` -/

open Config in
theorem settings_names (P : Str → Prop) (h1 : P tItem) (h2 : ∀ k, P (tagOf k)) (h3 : P aName) (h4 : P aType)
    (fl : Codec.Floats) {x : CItem} {ok : CValue → Prop} (h : Good ok x) : ∀ n, DocNames P (itemDoc fl n x) := by
  have hopt : ∀ n, ∀ a ∈ Codec.optA aName n, P a.2.1 := by
    intro n a ha
    cases n with
    | none => cases ha
    | some n =>
      obtain rfl : a = (true, aName, n) := by simpa [Codec.optA] using ha
      exact h3
  induction h with
  | value v h =>
    intro n
    have ha : ∀ a ∈ [(true, aName, n.getD []), (false, aType, v.vtype.name)], P a.2.1 := by
      intro a ha
      simp only [List.mem_cons, List.not_mem_nil, or_false] at ha
      rcases ha with rfl | rfl
      · exact h3
      · exact h4
    rw [itemDoc]
    unfold valueDoc
    split
    · exact ⟨h1, ha⟩
    · exact ⟨h1, ha⟩
  | node k m hd hk hs ih =>
    intro n
    rw [itemDoc, DocNames]
    refine ⟨h2 k, hopt n, ?_⟩
    clear hd hk hs
    generalize decide (k = Kind.vec) = vec
    induction m with
    | nil => trivial
    | cons p m ihm =>
      obtain ⟨j, x⟩ := p
      rw [itemDocs, DocsNames]
      exact ⟨ih (j, x) List.mem_cons_self _, ihm (fun p hp => ih p (List.mem_cons_of_mem _ hp))⟩

/-- **C77**: in `settings.xml`, after any history and for every configuration, each prefix is declared. -/
theorem C77_settings (lb : Bool) (b : NsBook) (h : Reachable b) (fl : Codec.Floats) (m : List (Str × Config.CItem))
    (hm : Config.GoodConfig (Config.ValueOk fl) m) :
    ∃ calls, Config.writeSettingsDoc fl (rootAtts .settings b) m = some calls ∧ Bound (output lb calls) := by
  have hok := reachable_ok b h
  refine ⟨.dtd "UTF-8".toList :: docCalls (.elem false Part.settings.root (rootAtts .settings b)
    [Config.settingsDoc fl m]), ?_, ?_⟩
  · unfold Config.writeSettingsDoc
    rw [Config.writeSettings_eq fl m hm, Option.map_some, Config.docCalls_elem, Config.docsCalls_cons]
    simp [docsCalls, docsItems]
    rfl
  · have hd : DocsOk [Config.settingsDoc fl m] := ⟨⟨Config.name_settings, (by intro a ha; cases ha),
      Config.itemDocs_ok fl _ m (fun p hp n => Config.itemDoc_ok fl (hm.2.2 p hp) n)⟩, trivial⟩
    rw [file_doc, bound_iff lb .settings b hok _ hd]
    refine ⟨bound_root .settings b hok, ?_⟩
    have hc : own .settings (declares "config".toList) := by decide +kernel
    refine ⟨⟨bound_own .settings b _ "office".toList (by decide) (by decide +kernel), (by intro a ha; cases ha), ?_⟩,
      trivial⟩
    rw [docsNames_iff]
    intro d hd
    have : ∀ m' : List (Str × Config.CItem), (∀ p ∈ m', Config.Good (Config.ValueOk fl) p.2) →
        ∀ d ∈ Config.itemDocs fl false m', DocNames (BoundIn ((rootAtts .settings b).map (·.2))) d := by
      intro m' hm'
      induction m' with
      | nil => intro d hd; cases hd
      | cons p m' ih =>
        intro d hd
        obtain ⟨j, x⟩ := p
        rw [Config.itemDocs] at hd
        rcases List.mem_cons.1 hd with rfl | hd
        · exact settings_names _ (bound_own .settings b _ "config".toList (by decide) hc)
            (fun k => bound_own .settings b _ "config".toList (by cases k <;> decide) hc)
            (bound_own .settings b _ "config".toList (by decide) hc)
            (bound_own .settings b _ "config".toList (by decide) hc) fl (hm' _ List.mem_cons_self) _
        · exact ih (fun p hp => hm' p (List.mem_cons_of_mem _ hp)) d hd
    exact this m hm.2.2 d hd

/-! ## `meta.xml` -/

open Meta in
theorem names_text (P : Str → Prop) (tag s : Str) : DocsNames P (textDoc tag s) ↔ (s ≠ [] → P tag) := by
  unfold textDoc
  split
  · rename_i h; simp [DocsNames, h]
  · rename_i h; simp [DocsNames, DocNames, h]

open Meta in
theorem names_date (P : Str → Prop) (tag : Str) (d : Option DateTime) :
    DocsNames P (dateDoc tag d) ↔ (d.isSome → P tag) := by
  cases d <;> simp [dateDoc, DocsNames, DocNames]

open Meta in
theorem names_opt (P : Str → Prop) (e : Bool) (k : Str) (v : Option Str) :
    (∀ a ∈ optAttr e k v, P a.2.1) ↔ (v.isSome → P k) := by
  cases v <;> simp [optAttr]

/-- The prefix of a name satisfies `Q`. -/
def ByPrefix (Q : Str → Prop) (n : Str) : Prop := ∀ pre, prefixOf n = some pre → Q pre

theorem byPrefix_iff (Q : Str → Prop) (n pre : Str) (h : prefixOf n = some pre) : ByPrefix Q n ↔ Q pre := by
  unfold ByPrefix
  rw [h]
  constructor
  · intro h; exact h pre rfl
  · intro h q hq; cases hq; exact h

theorem mem_or_imp {α : Type} (l m : List α) (P : α → Prop) :
    (∀ a ∈ l ++ m, P a) ↔ (∀ a ∈ l, P a) ∧ ∀ a ∈ m, P a := by
  constructor
  · intro h
    exact ⟨fun a ha => h a (List.mem_append.2 (.inl ha)), fun a ha => h a (List.mem_append.2 (.inr ha))⟩
  · rintro ⟨h1, h2⟩ a ha
    rcases List.mem_append.1 ha with ha | ha
    · exact h1 a ha
    · exact h2 a ha

open Meta in
/-- The names in `meta.xml`. -/
theorem meta_names (Q : Str → Prop) (hm : Q "meta".toList) (ho : Q "office".toList) (f : Codec.Floats) (m : Metadata) :
    DocNames (ByPrefix Q) (metaDoc f m) ↔ (UsesDc m → Q "dc".toList) ∧ (UsesXlink m → Q "xlink".toList) := by
  have pm : ∀ n, prefixOf n = some "meta".toList → ByPrefix Q n := fun n h => (byPrefix_iff Q n _ h).2 hm
  have po : ∀ n, prefixOf n = some "office".toList → ByPrefix Q n := fun n h => (byPrefix_iff Q n _ h).2 ho
  have pd : ∀ n, prefixOf n = some "dc".toList → (ByPrefix Q n ↔ Q "dc".toList) := fun n h => byPrefix_iff Q n _ h
  have px : ∀ n, prefixOf n = some "xlink".toList → (ByPrefix Q n ↔ Q "xlink".toList) := fun n h => byPrefix_iff Q n _ h
  have ht : DocsNames (ByPrefix Q) (templateDoc m.template) ↔
      ((m.template.actuate.isSome ∨ m.template.href.isSome ∨ m.template.title.isSome ∨ m.template.linkType.isSome)
        → Q "xlink".toList) := by
    unfold templateDoc
    split
    · rename_i h; rw [h]; simp [DocsNames]
    · simp only [DocsNames, DocNames, mem_or_imp, names_opt, pm "meta:template".toList (by decide),
        pm "meta:date".toList (by decide), px "xlink:actuate".toList (by decide), px "xlink:href".toList (by decide),
        px "xlink:title".toList (by decide), px "xlink:type".toList (by decide), Option.isSome_map]
      grind
  have hr : DocsNames (ByPrefix Q) (reloadDoc m.autoReload) ↔
      ((m.autoReload.actuate.isSome ∨ m.autoReload.href.isSome ∨ m.autoReload.show.isSome
        ∨ m.autoReload.linkType.isSome) → Q "xlink".toList) := by
    unfold reloadDoc
    split
    · rename_i h; rw [h]; simp [DocsNames]
    · simp only [DocsNames, DocNames, mem_or_imp, names_opt, pm "meta:auto_reload".toList (by decide),
        pm "meta:delay".toList (by decide), px "xlink:actuate".toList (by decide), px "xlink:href".toList (by decide),
        px "xlink:show".toList (by decide), px "xlink:type".toList (by decide), Option.isSome_map]
      grind
  have hh : DocsNames (ByPrefix Q) (hyperlinkDoc m.hyperlink) ↔ (m.hyperlink.show.isSome → Q "xlink".toList) := by
    unfold hyperlinkDoc
    split
    · rename_i h; rw [h]; simp [DocsNames]
    · simp only [DocsNames, DocNames, mem_or_imp, names_opt, pm "meta:hyperlink-behaviour".toList (by decide),
        po "office:target-frame-name".toList (by decide), px "xlink:show".toList (by decide), Option.isSome_map]
      grind
  have hs : DocNames (ByPrefix Q) (statisticDoc m.statistics) := by
    refine ⟨pm _ (by decide), ?_⟩
    intro a ha
    simp only [List.mem_cons, List.not_mem_nil, or_false] at ha
    rcases ha with rfl | rfl | rfl | rfl
    · exact pm "meta:table-count".toList (by decide)
    · exact pm "meta:cell-count".toList (by decide)
    · exact pm "meta:object-count".toList (by decide)
    · exact pm "meta:ole-object-count".toList (by decide)
  have hu : DocsNames (ByPrefix Q) (m.userDefined.map (userDoc f)) := by
    rw [docsNames_iff]
    intro d hd
    obtain ⟨u, _, rfl⟩ := List.mem_map.1 hd
    refine ⟨pm _ (by decide), ?_⟩
    intro a ha
    rcases List.mem_cons.1 ha with rfl | ha
    · exact pm "meta:name".toList (by decide)
    · exact (names_opt _ _ _ _).2 (fun _ => pm "meta:value-type".toList (by decide)) a ha
  have hc : DocsNames (ByPrefix Q) (if 0 < m.editingCycles then
      [.short false "meta:editing-cycles".toList (Codec.decNat m.editingCycles)] else []) := by
    split
    · exact ⟨pm _ (by decide), trivial⟩
    · trivial
  have he : DocsNames (ByPrefix Q) (if atLeastSecond m.editingDuration then
      [.short false "meta:editing-duration".toList (Codec.fmtDuration m.editingDuration)] else []) := by
    split
    · exact ⟨pm _ (by decide), trivial⟩
    · trivial
  have hg : DocsNames (ByPrefix Q) [.short false "meta:generator".toList m.generator] := ⟨pm _ (by decide), trivial⟩
  have h1 : DocsNames (ByPrefix Q) [statisticDoc m.statistics] := ⟨hs, trivial⟩
  unfold metaDoc metaDocs
  rw [DocNames]
  simp only [docsNames_append, ht, hr, hh, h1, hu, hc, he, hg, names_text, names_date, po "office:meta".toList (by decide),
    pd "dc:title".toList (by decide), pd "dc:description".toList (by decide), pd "dc:subject".toList (by decide),
    pm "meta:keyword".toList (by decide), pm "meta:initial-creator".toList (by decide),
    pd "dc:creator".toList (by decide), pm "meta:printed-by".toList (by decide),
    pm "meta:creation-date".toList (by decide), pd "dc:date".toList (by decide), pm "meta:print-date".toList (by decide),
    pd "dc:language".toList (by decide)]
  unfold UsesDc UsesXlink
  simp only [List.not_mem_nil, false_implies, implies_true, true_and, and_true]
  generalize Q "dc".toList = D
  generalize Q "xlink".toList = X
  generalize (m.template.actuate.isSome = true ∨ m.template.href.isSome = true ∨ m.template.title.isSome = true
    ∨ m.template.linkType.isSome = true) = a1
  generalize (m.autoReload.actuate.isSome = true ∨ m.autoReload.href.isSome = true ∨ m.autoReload.show.isSome = true
    ∨ m.autoReload.linkType.isSome = true) = a2
  generalize (m.hyperlink.show.isSome = true) = a3
  generalize (m.date.isSome = true) = a4
  generalize (m.title ≠ []) = a5
  generalize (m.description ≠ []) = a6
  generalize (m.subject ≠ []) = a7
  generalize (m.creator ≠ []) = a8
  generalize (m.language ≠ []) = a9
  simp only [or_imp, and_assoc]

/-- **C77**: in `meta.xml` each prefix is declared exactly when the metadata use neither `dc` nor `xlink`, or the
`meta.xml` that was read before declared them: the crate itself declares only `meta` and `office`. -/
theorem C77_meta_iff (lb : Bool) (b : NsBook) (h : Reachable b) (f : Codec.Floats) (m : Meta.Metadata)
    (hm : Meta.Spec.Readable f m) :
    Bound (output lb (Meta.writeMetaFile (rootAtts .metadata b) f m))
      ↔ (UsesDc m → (stored .metadata b "xmlns:dc".toList).isSome)
        ∧ (UsesXlink m → (stored .metadata b "xmlns:xlink".toList).isSome) := by
  have hok := reachable_ok b h
  have hw : Meta.writeMetaFile (rootAtts .metadata b) f m
      = .dtd "UTF-8".toList :: docCalls (.elem false Part.metadata.root (rootAtts .metadata b) [Meta.metaDoc f m]) := rfl
  have hd : DocsOk [Meta.metaDoc f m] := ⟨Meta.metaDoc_ok f m hm, trivial⟩
  rw [hw, file_doc, bound_iff lb .metadata b hok _ hd]
  have hQ : BoundIn ((rootAtts .metadata b).map (·.2))
      = ByPrefix fun pre => pre = "xmlns".toList ∨ ∃ u, (declares pre, u) ∈ (rootAtts .metadata b).map (·.2) := rfl
  have hn : ∀ pre n, prefixOf n = some pre → own .metadata (declares pre) →
      (pre = "xmlns".toList ∨ ∃ u, (declares pre, u) ∈ (rootAtts .metadata b).map (·.2)) :=
    fun pre n hp ho => bound_own .metadata b n pre hp ho pre hp
  have hdc := bound_foreign .metadata b "dc:x".toList "dc".toList (by decide) (by decide) (by decide +kernel) (by decide)
    (by decide) hok
  have hxl := bound_foreign .metadata b "xlink:x".toList "xlink".toList (by decide) (by decide) (by decide +kernel)
    (by decide) (by decide) hok
  rw [hQ] at hdc hxl
  rw [byPrefix_iff _ _ "dc".toList (by decide)] at hdc
  rw [byPrefix_iff _ _ "xlink".toList (by decide)] at hxl
  have hroot := bound_root .metadata b hok
  rw [and_iff_right hroot, DocsNames, DocsNames, and_true, hQ, meta_names _ (hn _ "meta:x".toList (by decide) (by decide +kernel))
    (hn _ "office:x".toList (by decide) (by decide +kernel)), hdc, hxl]
  rfl

/-- **C77**: a new workbook with a title: `dc:title` is written, and `dc` is not declared. -/
theorem C77_meta_counterexample (lb : Bool) (f : Codec.Floats) :
    ¬ Bound (output lb (Meta.writeMetaFile (rootAtts .metadata {}) f { title := "Budget".toList })) := by
  rw [C77_meta_iff lb {} ⟨[], (by intro o ho; cases ho), rfl⟩ f _
    { generator := by decide
      creationDate := by intro d h; cases h
      date := by intro d h; cases h
      printDate := by intro d h; cases h
      cycles := by decide
      duration := by intro h; exact absurd h (by decide)
      names := by intro u hu; cases hu
      values := by intro u hu; cases hu }]
  intro h
  exact absurd (h.1 (.inl (by decide))) (by decide)

end Verif.Ns
