import Verif.Style.Sections

/-!
# What is read of the files of a package
-/

set_option autoImplicit false

namespace Verif.Style

open Xml Xml.Spec Codec Book Refs.Spec

/-! ## Fonts -/

/-- A font that can be written. -/
structure FontOk (f : Font) : Prop where
  attr : KeysOk f.attr
  noName : NoName f.attr

/-- The fonts as they are read: from the second on they get the origin `Content`. -/
def fontsRead : Origin → List Font → List Font
  | _, [] => []
  | o, f :: fs => { f with origin := o } :: fontsRead .content fs

theorem font_step (m : Refs.Ints) (o nx : Origin) (bk : SBook) (f : Font) (h : FontOk f) (lb : Bool) :
    run m o ⟨.fonts nx, bk⟩ (docEv lb (fontDoc f)) = .ok ⟨.fonts .content, bk.addFont { f with origin := nx }⟩ := by
  show run m o _ (.empty _ _ :: nlEv lb) = _
  rw [run, step, onTag]
  simp only
  unfold startInFonts
  rw [if_pos rfl]
  have hn : ∀ a ∈ escA f.attr, a.2.1 ≠ aName := by
    intro a ha
    obtain ⟨b, hb, rfl⟩ := List.mem_map.1 ha
    exact h.noName b hb
  rw [copyStyle_named _ _ (escA_ok _ h.attr) hn, escA_snd]
  exact run_nl' m o _ rfl lb

theorem run_fonts (m : Refs.Ints) (o : Origin) (lb : Bool) (fs : List Font) (h : ∀ f ∈ fs, FontOk f) :
    ∀ (nx : Origin) (bk : SBook), ∃ nx' bk', run m o ⟨.fonts nx, bk⟩ (docsEv lb (fs.map fontDoc)) = .ok ⟨.fonts nx', bk'⟩
      ∧ bk.applyAll ((fontsRead nx fs).map .font) = .ok bk' := by
  induction fs with
  | nil => intro nx bk; exact ⟨nx, bk, rfl, rfl⟩
  | cons f fs ih =>
    intro nx bk
    obtain ⟨nx', bk', h1, h2⟩ := ih (fun f hf => h f (List.mem_cons_of_mem _ hf)) .content (bk.addFont { f with origin := nx })
    refine ⟨nx', bk', ?_, h2⟩
    rw [List.map_cons, docsEv, run_ok m o _ _ _ _ (font_step m o nx bk f (h f List.mem_cons_self) lb), h1]

theorem does_fonts (m : Refs.Ints) (lb : Bool) (b : SBook) (o : Origin) (h : ∀ f ∈ fontsOf b o, FontOk f) :
    Does m o .doc (docEv lb (fontsDoc b o)) ((fontsRead o (fontsOf b o)).map .font) := by
  intro bk
  unfold fontsDoc
  split
  · rename_i he
    have : b.fonts = [] := by simpa using he
    unfold fontsOf
    rw [this]
    rw [docEv, run, step, onTag]
    simp only [if_true]
    exact run_nl' m o _ rfl lb
  · rw [docEv, run, step, onTag]
    simp only [Bool.false_eq_true, if_false, if_true]
    obtain ⟨nx', bk', h1, h2⟩ := run_fonts m o lb (fontsOf b o) h o bk
    rw [run_ok m o _ _ _ _ h1, h2, run, step, onEnd]
    simp only [if_true]
    exact run_nl' m o _ rfl lb

/-! ## Sections -/

/-- A workbook whose styles can be written: the names of attributes are XML names, each style is stored
under its name. -/
structure BookOk (b : SBook) : Prop where
  styleKey : ∀ k, ∀ e ∈ b.styles.store k, e.1 = e.2.name ∧ e.2.name ≠ []
  style : ∀ k, ∀ e ∈ b.styles.store k, BodyOk k e.2.body
  stylesMap : ∀ k, HMap.Distinct (b.styles.store k)
  formatKey : ∀ k, ∀ e ∈ b.formats.store k, e.1 = e.2.name ∧ e.2.name ≠ []
  format : ∀ k, ∀ e ∈ b.formats.store k, FormatOk k e.2.body
  formatsMap : ∀ k, HMap.Distinct (b.formats.store k)
  pageKey : ∀ e ∈ b.pages.store .page, e.1 = e.2.name ∧ e.2.name ≠ []
  page : ∀ e ∈ b.pages.store .page, PageOk e.2.body
  pagesMap : HMap.Distinct (b.pages.store .page)
  fontKey : ∀ e ∈ b.fonts, e.1 = e.2.name
  font : ∀ e ∈ b.fonts, FontOk e.2
  fontsMap : HMap.Distinct b.fonts

/-- The operations of the styles of an origin and a use. -/
def styleOps (b : SBook) (o : Origin) (u : Use) : List Op :=
  styleKinds.flatMap fun k => (chosen (b.styles.store k) o u).map fun s => .style k ⟨nameRead s, s.body.back k⟩

def formatOps (lb : Bool) (sc : Section) (b : SBook) (o : Origin) (u : Use) : List Op :=
  formatKinds.flatMap fun k => (chosenFormats (b.formats.store k) o u).map fun s => .format k ⟨s.name, s.body.back lb sc⟩

def pageOps (b : SBook) : List Op := ((b.pages.store .page).map Prod.snd).map .page

theorem mem_chosen (m : HMap Str (Style Body)) (o : Origin) (u : Use) (s : Style Body) :
    s ∈ chosen m o u ↔ (∃ e ∈ m, e.2 = s) ∧ s.body.origin = o ∧ s.body.use = u := by
  unfold chosen
  rw [List.mem_filter, List.mem_map]
  simp

theorem mem_chosenFormats (m : HMap Str (Style Format)) (o : Origin) (u : Use) (s : Style Format) :
    s ∈ chosenFormats m o u ↔ (∃ e ∈ m, e.2 = s) ∧ s.body.origin = o ∧ s.body.use = u := by
  unfold chosenFormats
  rw [List.mem_filter, List.mem_map]
  simp

variable (m : Refs.Ints) (hm : m.max = maxU32) (lb : Bool) (b : SBook) (hb : BookOk b)

include hm hb in
theorem does_styles (sc : Section) (o : Origin) (u : Use) (hu : Fits sc u) :
    Does m o (.sect sc) (docsEv lb (stylesDocs b o u)) (styleOps b o u) := by
  refine Does.flatMap lb _ _ _ fun k _ => Does.map lb _ _ _ fun s hs => ?_
  obtain ⟨⟨e, he, rfl⟩, ho, hu'⟩ := (mem_chosen _ _ _ _).1 hs
  have := does_style m hm lb sc k e.2 (hb.style k e he) (by rw [hu']; exact hu)
  rw [ho] at this
  exact this

include hb in
theorem does_formats (sc : Section) (o : Origin) (u : Use) :
    Does m o (.sect sc) (docsEv lb (formatsDocs b o u)) (formatOps lb sc b o u) := by
  refine Does.flatMap lb _ _ _ fun k _ => Does.map lb _ _ _ fun s hs => ?_
  obtain ⟨⟨e, he, rfl⟩, ho, _⟩ := (mem_chosenFormats _ _ _ _).1 hs
  have := does_format m lb sc k e.2 (hb.format k e he)
  rw [ho] at this
  exact this

include hb in
theorem does_pages (o : Origin) : Does m o (.sect .auto) (docsEv lb (pagesDocs b)) (pageOps b) := by
  refine Does.map lb _ _ _ fun s hs => ?_
  obtain ⟨e, he, rfl⟩ := List.mem_map.1 hs
  exact does_page m o lb e.2 (hb.page e he)

theorem office_ne_fonts : tOffice ≠ tFonts := by decide +kernel
theorem auto_ne_fonts : tAuto ≠ tFonts := by decide +kernel
theorem auto_ne_office : tAuto ≠ tOffice := by decide +kernel

theorem does_section (o : Origin) (sc : Section) (as : List (Bool × Str × Str)) (ds : List Doc) (ps : List Op)
    (h : Does m o (.sect sc) (docsEv lb ds) ps) : Does m o .doc (docEv lb (.elem false sc.tag as ds)) ps := by
  intro bk
  rw [docEv, run]
  have hstart : step m o ⟨.doc, bk⟩ (.start sc.tag (rawAttrs as)) = .ok ⟨.sect sc, bk⟩ := by
    rw [step, onTag]
    cases sc with
    | office =>
      simp only [Section.tag]
      rw [if_neg (by simp), if_neg office_ne_fonts, if_pos trivial]
    | auto =>
      simp only [Section.tag]
      rw [if_neg (by simp), if_neg auto_ne_fonts, if_neg auto_ne_office, if_pos trivial]
  rw [hstart]
  simp only
  rw [run_append, h bk]
  cases bk.applyAll ps with
  | error e => rfl
  | ok bk1 =>
    show run m o ⟨.sect sc, bk1⟩ _ = _
    rw [run, step, onEnd]
    simp only [if_true]
    exact run_nl' m o _ rfl lb

/-- The operations of `office:styles`. -/
def officeOps (lb : Bool) (b : SBook) (o : Origin) : List Op :=
  styleOps b o .default ++ styleOps b o .named ++ formatOps lb .office b o .named ++ formatOps lb .office b o .default

/-- The operations of `office:automatic-styles`. -/
def autoOps (lb : Bool) (b : SBook) (o : Origin) : List Op :=
  pageOps b ++ styleOps b o .automatic ++ formatOps lb .auto b o .automatic

def fontOps (b : SBook) (o : Origin) : List Op := (fontsRead o (fontsOf b o)).map .font

/-- The operations of `styles.xml`. -/
def stylesOps (lb : Bool) (b : SBook) : List Op := fontOps b .styles ++ officeOps lb b .styles ++ autoOps lb b .styles

/-- The operations of `content.xml`. -/
def contentOps (lb : Bool) (b : SBook) : List Op := fontOps b .content ++ autoOps lb b .content

include hm hb in
theorem does_office (o : Origin) : Does m o .doc (docEv lb (officeDoc b o)) (officeOps lb b o) := by
  refine does_section m lb o .office [] _ _ ?_
  rw [docsEv_append, docsEv_append, docsEv_append]
  exact (((does_styles m hm lb b hb .office o .default (.inr rfl)).append
    (does_styles m hm lb b hb .office o .named (.inl rfl))).append (does_formats m lb b hb .office o .named)).append
      (does_formats m lb b hb .office o .default)

include hm hb in
theorem does_auto (o : Origin) : Does m o .doc (docEv lb (autoDoc b o)) (autoOps lb b o) := by
  refine does_section m lb o .auto [] _ _ ?_
  rw [docsEv_append, docsEv_append]
  exact ((does_pages m lb b hb o).append (does_styles m hm lb b hb .auto o .automatic rfl)).append
    (does_formats m lb b hb .auto o .automatic)

include hb in
theorem fonts_ok (o : Origin) : ∀ f ∈ fontsOf b o, FontOk f := by
  intro f hf
  obtain ⟨e, he, rfl⟩ := List.mem_map.1 (List.mem_filter.1 hf).1
  exact hb.font e he

theorem does_root (o : Origin) (root : Str) (as : List (Bool × Str × Str)) (ds : List Doc) (ps : List Op)
    (h1 : root ≠ tFonts) (h2 : root ≠ tOffice) (h3 : root ≠ tAuto) (h : Does m o .doc (docsEv lb ds) ps) :
    Does m o .doc (docEv lb (.elem false root as ds)) ps := by
  intro bk
  rw [docEv, run]
  have hstart : step m o ⟨.doc, bk⟩ (.start root (rawAttrs as)) = .ok ⟨.doc, bk⟩ := by
    rw [step, onTag]
    simp only
    rw [if_neg (by simp), if_neg h1, if_neg h2, if_neg h3]
  rw [hstart]
  simp only
  rw [run_append, h bk]
  cases bk.applyAll ps with
  | error e => rfl
  | ok bk1 =>
    show run m o ⟨.doc, bk1⟩ _ = _
    rw [run, step, onEnd]
    exact run_nl' m o _ rfl lb

/-! ## The documents are documents -/

theorem tagDoc_ok (n : Str) (as : List (Bool × Str × Str)) (h : Name n) (ha : AttrsOk as) : DocOk (tagDoc n as) := by
  unfold tagDoc; rw [DocOk]; exact ⟨h, ha⟩

theorem propsDoc_ok (n : Str) (mm : Attrs) (h : Name n) (ha : KeysOk mm) : DocsOk (propsDoc n mm) := by
  unfold propsDoc
  split
  · trivial
  · exact ⟨tagDoc_ok n _ h (escA_ok mm ha), trivial⟩

theorem mapAtts_ok (sm : StyleMap) : AttrsOk (mapAtts sm) := by
  unfold mapAtts
  refine attrsOk_cons _ _ (by show Name _; simp only; decide +kernel) (by intro h; cases h) ?_
  refine attrsOk_cons _ _ (by show Name _; simp only; decide +kernel) (by intro h; cases h) ?_
  cases sm.baseCell with
  | none => exact attrsOk_nil
  | some r => exact attrsOk_cons _ _ (by show Name _; simp only; decide +kernel) (by intro h; cases h) attrsOk_nil

theorem docsOk_map {α : Type} (l : List α) (f : α → Doc) (h : ∀ a ∈ l, DocOk (f a)) : DocsOk (l.map f) := by
  rw [docsOk_iff]
  intro d hd
  obtain ⟨a, ha, rfl⟩ := List.mem_map.1 hd
  exact h a ha

theorem docsOk_flatMap {α : Type} (l : List α) (f : α → List Doc) (h : ∀ a ∈ l, DocsOk (f a)) :
    DocsOk (l.flatMap f) := by
  rw [docsOk_iff]
  intro d hd
  obtain ⟨a, ha, hd⟩ := List.mem_flatMap.1 hd
  exact (docsOk_iff _).1 (h a ha) d hd

theorem elemDoc_ok (i : Bool) (n : Str) (as : List (Bool × Str × Str)) (ds : List Doc) (h : Name n) (ha : AttrsOk as)
    (hd : DocsOk ds) : DocOk (.elem i n as ds) := by
  rw [DocOk]; exact ⟨h, ha, hd⟩

theorem kidDocs_ok (k : Kind) (b : Body) (h : BodyOk k b) : DocsOk (kidDocs k b) := by
  have n1 : Name tTableProps := by decide +kernel
  have n2 : Name tRowProps := by decide +kernel
  have n3 : Name tColProps := by decide +kernel
  have n4 : Name tCellProps := by decide +kernel
  have n5 : Name tParaProps := by decide +kernel
  have n6 : Name tTextProps := by decide +kernel
  have n7 : Name tRubyProps := by decide +kernel
  have n8 : Name tGraphicProps := by decide +kernel
  have n9 : Name tMap := by decide +kernel
  have n10 : Name tTabStop := by decide +kernel
  have n11 : Name tTabStops := by decide +kernel
  have hmaps : DocsOk (mapsDoc b.maps) := by
    unfold mapsDoc
    cases b.maps with
    | none => trivial
    | some l => exact docsOk_map l _ fun sm _ => tagDoc_ok _ _ n9 (mapAtts_ok sm)
  have hpara : DocsOk (paraDoc b) := by
    unfold paraDoc
    split
    · trivial
    · cases ht : b.tabs with
      | none => exact ⟨tagDoc_ok _ _ n5 (escA_ok _ h.para), trivial⟩
      | some ts =>
        refine ⟨elemDoc_ok _ _ _ _ n5 (escA_ok _ h.para) ⟨elemDoc_ok _ _ _ _ n11 attrsOk_nil ?_, trivial⟩, trivial⟩
        exact docsOk_map ts _ fun t htm => tagDoc_ok _ _ n10 (escA_ok _ (h.tabs ts ht t htm))
  cases k with
  | table => exact propsDoc_ok _ _ n1 h.main
  | row => exact propsDoc_ok _ _ n2 h.main
  | col => exact propsDoc_ok _ _ n3 h.main
  | text => exact propsDoc_ok _ _ n6 h.text
  | ruby => exact propsDoc_ok _ _ n7 h.main
  | paragraph => simp only [kidDocs, docsOk_append]; exact ⟨hpara, propsDoc_ok _ _ n6 h.text⟩
  | graphic =>
    simp only [kidDocs, docsOk_append]
    exact ⟨⟨propsDoc_ok _ _ n8 h.main, propsDoc_ok _ _ n5 h.para⟩, propsDoc_ok _ _ n6 h.text⟩
  | cell =>
    simp only [kidDocs, docsOk_append]
    exact ⟨⟨⟨propsDoc_ok _ _ n4 h.main, propsDoc_ok _ _ n5 h.para⟩, propsDoc_ok _ _ n6 h.text⟩, hmaps⟩
  | _ => trivial

theorem styleDoc_ok (k : Kind) (s : Style Body) (h : BodyOk k s.body) : DocOk (styleDoc k s) := by
  have n1 : Name (styleTag s.body.use) := by
    rcases styleTag_cases s.body.use with h | h <;> rw [h] <;> decide +kernel
  unfold styleDoc
  split
  · rw [DocOk]; exact ⟨n1, styleAtts_ok k s h.attr⟩
  · exact elemDoc_ok _ _ _ _ n1 (styleAtts_ok k s h.attr) (kidDocs_ok k _ h)

theorem partTag_name (t : PartType) : Name (partTag t) := by cases t <;> decide +kernel

theorem partDoc_ok (p : Part) (h : PartOk p) : DocOk (partDoc p) := by
  obtain ⟨t, a, pos, c⟩ := p
  have ha := escA_ok a h.attr
  have ht := partTag_name
  have he : Name tEmbedded := by decide +kernel
  have hp : ∀ z, AttrsOk [(true, aPosition, decInt z)] := fun z =>
    attrsOk_cons _ _ (by show Name _; simp only; decide +kernel) (by intro h; cases h) attrsOk_nil
  have txt : ∀ t', DocOk (match shown c with
      | none => .void true (partTag t') (escA a) none true
      | some s => .leaf true (partTag t') (escA a) true s) := by
    intro t'
    cases shown c with
    | none => simp only; rw [DocOk]; exact ⟨ht _, ha⟩
    | some s => simp only; rw [DocOk]; exact ⟨ht _, ha, (by intro h; cases h)⟩
  cases t with
  | text => exact txt .text
  | currencySymbol => exact txt .currencySymbol
  | fillCharacter => exact txt .fillCharacter
  | number =>
    cases pos with
    | none => exact tagDoc_ok _ _ (ht .number) ha
    | some z =>
      refine elemDoc_ok _ _ _ _ (ht .number) ha ⟨?_, trivial⟩
      cases c with
      | none => exact tagDoc_ok _ _ he (hp z)
      | some s => simp only; rw [DocOk]; exact ⟨he, hp z, (by intro h; cases h)⟩
  | _ => exact tagDoc_ok _ _ (ht _) ha

theorem formatDoc_ok (k : Kind) (s : Style Format) (h : FormatOk k s.body) : DocOk (formatDoc k s) := by
  have hk : ∀ k ∈ formatKinds, Name (formatTag k) := by decide +kernel
  have n6 : Name tTextProps := by decide +kernel
  have n9 : Name tMap := by decide +kernel
  refine elemDoc_ok _ _ _ _ (hk k (format_written k h.kind)) (attrsOk_cons _ _ name_aName (by intro h; cases h) (escA_ok _ h.attr)) ?_
  unfold formatKids
  rw [docsOk_append, docsOk_append]
  refine ⟨⟨propsDoc_ok _ _ n6 h.text, docsOk_map _ _ fun p hp => partDoc_ok p (h.parts p hp)⟩, ?_⟩
  unfold valueMapsDoc
  cases s.body.maps with
  | none => trivial
  | some l =>
    refine docsOk_map l _ fun sm _ => tagDoc_ok _ _ n9 ?_
    exact attrsOk_cons _ _ (by show Name _; simp only; decide +kernel) (by intro h; cases h)
      (attrsOk_cons _ _ (by show Name _; simp only; decide +kernel) (by intro h; cases h) attrsOk_nil)

theorem pageDoc_ok (s : Style Page) (h : PageOk s.body) : DocOk (pageDoc s) := by
  have n1 : Name tPage := by decide +kernel
  have n2 : Name tPageProps := by decide +kernel
  have n3 : Name tHeaderStyle := by decide +kernel
  have n4 : Name tFooterStyle := by decide +kernel
  have n5 : Name tHFProps := by decide +kernel
  refine elemDoc_ok _ _ _ _ n1 ?_ ?_
  · refine attrsOk_cons _ _ name_aName (by intro h; cases h) ?_
    cases s.body.usage with
    | none => exact attrsOk_nil
    | some u => exact attrsOk_cons _ _ (by show Name _; simp only; decide +kernel) (by intro h; cases h) attrsOk_nil
  · rw [docsOk_append]
    refine ⟨propsDoc_ok _ _ n2 h.style, ?_, ?_, trivial⟩
    · exact elemDoc_ok _ _ _ _ n3 attrsOk_nil ⟨tagDoc_ok _ _ n5 (escA_ok _ h.header), trivial⟩
    · exact elemDoc_ok _ _ _ _ n4 attrsOk_nil ⟨tagDoc_ok _ _ n5 (escA_ok _ h.footer), trivial⟩

theorem fontDoc_ok (f : Font) (h : FontOk f) : DocOk (fontDoc f) :=
  tagDoc_ok _ _ (by decide +kernel) (attrsOk_cons _ _ name_aName (by intro h; cases h) (escA_ok _ h.attr))

include hb in
theorem fontsDoc_ok (o : Origin) : DocOk (fontsDoc b o) := by
  have n1 : Name tFonts := by decide +kernel
  unfold fontsDoc
  split
  · rw [DocOk]; exact ⟨n1, attrsOk_nil⟩
  · exact elemDoc_ok _ _ _ _ n1 attrsOk_nil (docsOk_map _ _ fun f hf => fontDoc_ok f (fonts_ok b hb o f hf))

include hb in
theorem stylesDocs_ok (o : Origin) (u : Use) : DocsOk (stylesDocs b o u) := by
  refine docsOk_flatMap _ _ fun k _ => docsOk_map _ _ fun s hs => ?_
  obtain ⟨⟨e, he, rfl⟩, _⟩ := (mem_chosen _ _ _ _).1 hs
  exact styleDoc_ok k e.2 (hb.style k e he)

include hb in
theorem formatsDocs_ok (o : Origin) (u : Use) : DocsOk (formatsDocs b o u) := by
  refine docsOk_flatMap _ _ fun k _ => docsOk_map _ _ fun s hs => ?_
  obtain ⟨⟨e, he, rfl⟩, _⟩ := (mem_chosenFormats _ _ _ _).1 hs
  exact formatDoc_ok k e.2 (hb.format k e he)

include hb in
theorem pagesDocs_ok : DocsOk (pagesDocs b) := by
  refine docsOk_map _ _ fun s hs => ?_
  obtain ⟨e, he, rfl⟩ := List.mem_map.1 hs
  exact pageDoc_ok e.2 (hb.page e he)

include hb in
theorem officeDoc_ok (o : Origin) : DocOk (officeDoc b o) := by
  refine elemDoc_ok _ _ _ _ (by decide +kernel) attrsOk_nil ?_
  rw [docsOk_append, docsOk_append, docsOk_append]
  exact ⟨⟨⟨stylesDocs_ok b hb o _, stylesDocs_ok b hb o _⟩, formatsDocs_ok b hb o _⟩, formatsDocs_ok b hb o _⟩

include hb in
theorem autoDoc_ok (o : Origin) : DocOk (autoDoc b o) := by
  refine elemDoc_ok _ _ _ _ (by decide +kernel) attrsOk_nil ?_
  rw [docsOk_append, docsOk_append]
  exact ⟨⟨pagesDocs_ok b hb, stylesDocs_ok b hb o _⟩, formatsDocs_ok b hb o _⟩

/-! ## Files -/

theorem readFile_doc (o : Origin) (bk : SBook) (root : Str) (as : List (Bool × Str × Str)) (ds : List Doc)
    (ps : List Op) (hok : DocOk (.elem false root as ds)) (h : Does m o .doc (docEv lb (.elem false root as ds)) ps) :
    readFile m o bk (output lb (.dtd "UTF-8".toList :: docCalls (.elem false root as ds))) = bk.applyAll ps := by
  obtain ⟨ts, h1, h2⟩ := read_document lb "UTF-8".toList (by decide) false root as ds hok
  unfold readFile
  rw [h1]
  simp only
  rw [h2, run_cons_ok m o _ ⟨.doc, bk⟩ _ _ (by rfl), h bk]
  cases bk.applyAll ps <;> rfl

include hm hb in
/-- **`styles.xml`** is read as these operations. -/
theorem read_stylesFile (as : List (Bool × Str × Str)) (has : AttrsOk as) (bk : SBook) :
    readFile m .styles bk (output lb (writeStylesFile as b)) = bk.applyAll (stylesOps lb b) := by
  rw [stylesFile_calls]
  refine readFile_doc m lb .styles bk tDocStyles as _ _ ?_ ?_
  · exact elemDoc_ok _ _ _ _ (by decide +kernel) has
      ⟨fontsDoc_ok b hb _, officeDoc_ok b hb _, autoDoc_ok b hb _, trivial⟩
  · refine does_root m lb .styles tDocStyles as _ _ (by decide +kernel) (by decide +kernel) (by decide +kernel) ?_
    rw [docsEv, docsEv, docsEv, docsEv, List.append_nil, ← List.append_assoc]
    exact ((does_fonts m lb b .styles (fonts_ok b hb _)).append (does_office m hm lb b hb .styles)).append
      (does_auto m hm lb b hb .styles)

include hm hb in
/-- **`content.xml`** is read as these operations. -/
theorem read_contentFile (as : List (Bool × Str × Str)) (has : AttrsOk as) (bk : SBook) :
    readFile m .content bk (output lb (writeContentFile as b)) = bk.applyAll (contentOps lb b) := by
  rw [contentFile_calls]
  refine readFile_doc m lb .content bk tDocContent as _ _ ?_ ?_
  · exact elemDoc_ok _ _ _ _ (by decide +kernel) has ⟨fontsDoc_ok b hb _, autoDoc_ok b hb _, trivial⟩
  · refine does_root m lb .content tDocContent as _ _ (by decide +kernel) (by decide +kernel) (by decide +kernel) ?_
    rw [docsEv, docsEv, docsEv, List.append_nil]
    exact (does_fonts m lb b .content (fonts_ok b hb _)).append (does_auto m hm lb b hb .content)

/-- The operations of a flat file. -/
def flatOps (lb : Bool) (b : SBook) : List Op := fontOps b .content ++ officeOps lb b .content ++ autoOps lb b .content

include hm hb in
/-- **A flat file** is read as these operations. -/
theorem read_flatFile (as : List (Bool × Str × Str)) (has : AttrsOk as) (bk : SBook) :
    readFile m .content bk (output lb (writeFlatContent as b)) = bk.applyAll (flatOps lb b) := by
  rw [flatFile_calls]
  refine readFile_doc m lb .content bk tDocFlat as _ _ ?_ ?_
  · exact elemDoc_ok _ _ _ _ (by decide +kernel) has
      ⟨fontsDoc_ok b hb _, officeDoc_ok b hb _, autoDoc_ok b hb _, trivial⟩
  · refine does_root m lb .content tDocFlat as _ _ (by decide +kernel) (by decide +kernel) (by decide +kernel) ?_
    rw [docsEv, docsEv, docsEv, docsEv, List.append_nil, ← List.append_assoc]
    exact ((does_fonts m lb b .content (fonts_ok b hb _)).append (does_office m hm lb b hb .content)).append
      (does_auto m hm lb b hb .content)

end Verif.Style
