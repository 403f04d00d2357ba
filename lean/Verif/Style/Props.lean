import Verif.Style.Back

/-!
# What is read back of styles, formats, page layouts and fonts

C51 styles keep name, origin and use over write and read; C53 formats keep their parts.
-/

set_option autoImplicit false

namespace Verif.Style

open Xml Xml.Spec Codec Book Refs.Spec

namespace Spec

/-- All attributes except the name and the family, which have a place of their own. -/
def others (m : Attrs) : Attrs := m.filter fun a => a.1 ≠ aName ∧ a.1 ≠ aFamily

/-- The style `t` is the style `s`: the same name, origin, use, attributes and properties. -/
structure SameStyle (s t : Style Body) : Prop where
  name : t.name = s.name
  origin : t.body.origin = s.body.origin
  use : t.body.use = s.body.use
  attr : others t.body.attr = others s.body.attr
  main : t.body.main = s.body.main
  para : t.body.para = s.body.para
  text : t.body.text = s.body.text
  maps : t.body.maps.getD [] = s.body.maps.getD []
  tabs : s.body.para ≠ [] → t.body.tabs.getD [] = s.body.tabs.getD []

/-- The format `t` is the format `s`: the same name, origin, attributes and text properties, the same number of parts
and each part with its type and its attributes. -/
structure SameFormat (s t : Style Format) : Prop where
  name : t.name = s.name
  origin : t.body.origin = s.body.origin
  use : s.body.use ≠ .default → t.body.use = s.body.use
  attr : t.body.attr = s.body.attr
  text : t.body.text = s.body.text
  maps : t.body.maps.getD [] = s.body.maps.getD []
  parts : t.body.parts.map (fun p => (p.type, p.attr)) = s.body.parts.map (fun p => (p.type, p.attr))

/-- The style with the origin `Content`. -/
def moved (s : Style Body) : Style Body := { s with body := { s.body with origin := .content } }

/-- The format with the origin `Content`. -/
def movedF (s : Style Format) : Style Format := { s with body := { s.body with origin := .content } }

end Spec

open Spec

theorem keepList_getD {α : Type} (x : Option (List α)) : (keepList x).getD [] = x.getD [] := by
  cases x with
  | none => rfl
  | some l => cases l <;> rfl

theorem others_own (m : Attrs) (v : Str) : others ((aFamily, v) :: ownAttrs m) = others m := by
  unfold others ownAttrs
  generalize aName = x
  generalize aFamily = y
  rw [List.filter_cons, List.filter_filter]
  rw [if_neg (by simp)]
  refine List.filter_congr fun a _ => ?_
  by_cases h1 : a.1 = x <;> by_cases h2 : a.1 = y <;> simp [h1, h2]

theorem back_same (k : Kind) (s : Style Body) : SameStyle s ⟨s.name, s.body.back k⟩ where
  name := rfl
  origin := rfl
  use := rfl
  attr := others_own _ _
  main := rfl
  para := rfl
  text := rfl
  maps := keepList_getD _
  tabs := fun h => by
    show Option.getD (if s.body.para = [] then none else keepList s.body.tabs) [] = _
    rw [if_neg h]; exact keepList_getD _

theorem part_back_type (lb : Bool) (p : Part) : (p.back lb).type = p.type ∧ (p.back lb).attr = p.attr := by
  obtain ⟨t, a, pos, c⟩ := p
  cases t <;> simp only [Part.back, and_self] <;> cases pos <;> cases c <;> exact ⟨rfl, rfl⟩

theorem back_sameFormat (lb : Bool) (s : Style Format) :
    SameFormat s ⟨s.name, s.body.back lb (sectionOf s.body.use)⟩ where
  name := rfl
  origin := rfl
  use := fun h => by
    show (sectionOf s.body.use).use = _
    cases hu : s.body.use with
    | default => exact absurd hu h
    | named => rfl
    | automatic => rfl
  attr := rfl
  text := rfl
  maps := keepList_getD _
  parts := by
    show (s.body.parts.map (Part.back lb)).map _ = _
    rw [List.map_map]
    refine List.map_congr_left fun p _ => ?_
    have := part_back_type lb p
    show ((p.back lb).type, (p.back lb).attr) = _
    rw [this.1, this.2]

/-! ## Packages -/

/-- All that is found in the workbook read from a package. -/
theorem package_back (m : Refs.Ints) (hm : m.max = maxU32) (as as' : List (Bool × Str × Str)) (has : AttrsOk as)
    (has' : AttrsOk as') (b : SBook) (hb : BookOk b) (hc : b.count < 4294967296) :
    ∃ bk, readPackage m (output false (writeStylesFile as b)) (output false (writeContentFile as' b)) = .ok bk
      ∧ addsAll {} (stylesIn (packageOps b)) = .ok bk.styles ∧ addsAll {} (formatsIn (packageOps b)) = .ok bk.formats
      ∧ addsAll {} (pagesIn (packageOps b)) = .ok bk.pages ∧ bk.fonts = addFonts [] (fontsIn (packageOps b)) := by
  obtain ⟨s, hs⟩ := addsAll_ok (stylesIn (packageOps b)) (Nat.lt_of_le_of_lt (package_count b) hc)
  obtain ⟨f, hf⟩ := addsAll_named_ok (formatsIn (packageOps b)) (fun p hp => by
    obtain ⟨k, y⟩ := p
    obtain ⟨e, he, _, rfl⟩ := (mem_package_formats b hb k y).1 hp
    exact (hb.formatKey k e he).2) {}
  obtain ⟨p, hp⟩ := addsAll_named_ok (pagesIn (packageOps b)) (fun p hp => by
    rw [package_pages] at hp
    simp only [List.mem_append, or_self] at hp
    obtain ⟨y, hy, rfl⟩ := List.mem_map.1 hp
    obtain ⟨e, he, rfl⟩ := List.mem_map.1 hy
    exact (hb.pageKey e he).2) {}
  refine ⟨⟨s, f, p, addFonts [] (fontsIn (packageOps b))⟩, ?_, hs, hf, hp, rfl⟩
  have happ := applyAll_parts (packageOps b) {} s f p hs hf hp
  unfold readPackage
  rw [read_stylesFile m hm false b hb as has]
  unfold packageOps at happ ⊢
  rw [applyAll_append] at happ
  cases h1 : ({} : SBook).applyAll (stylesOps false b) with
  | error e => rw [h1] at happ; cases happ
  | ok b1 =>
    rw [h1] at happ
    have happ : b1.applyAll (contentOps false b) = _ := happ
    simp only
    rw [read_contentFile m hm false b hb as' has', happ]

/-- All that is found in the workbook read from a flat file. -/
theorem flat_back (m : Refs.Ints) (hm : m.max = maxU32) (as : List (Bool × Str × Str)) (has : AttrsOk as) (b : SBook)
    (hb : BookOk b) (hc : b.count < 4294967296) :
    ∃ bk, readFlat m (writeFlat as b).1 = .ok bk
      ∧ addsAll {} (stylesIn (flatOps true b.convert)) = .ok bk.styles
      ∧ addsAll {} (formatsIn (flatOps true b.convert)) = .ok bk.formats
      ∧ addsAll {} (pagesIn (flatOps true b.convert)) = .ok bk.pages
      ∧ bk.fonts = addFonts [] (fontsIn (flatOps true b.convert)) := by
  have hb' := convert_ok b hb
  obtain ⟨s, hs⟩ := addsAll_ok (stylesIn (flatOps true b.convert))
    (Nat.lt_of_le_of_lt (flat_count b.convert true) (by rw [convert_count]; exact hc))
  obtain ⟨f, hf⟩ := addsAll_named_ok (formatsIn (flatOps true b.convert)) (fun p hp => by
    obtain ⟨k, y⟩ := p
    obtain ⟨e, he, _, rfl⟩ := (mem_flat_formats b.convert hb' (convert_forigin b) true k y).1 hp
    exact (hb'.formatKey k e he).2) {}
  obtain ⟨p, hp⟩ := addsAll_named_ok (pagesIn (flatOps true b.convert)) (fun p hp => by
    rw [flat_pages] at hp
    obtain ⟨y, hy, rfl⟩ := List.mem_map.1 hp
    obtain ⟨e, he, rfl⟩ := List.mem_map.1 hy
    exact (hb'.pageKey e he).2) {}
  refine ⟨⟨s, f, p, addFonts [] (fontsIn (flatOps true b.convert))⟩, ?_, hs, hf, hp, rfl⟩
  unfold readFlat writeFlat
  rw [read_flatFile m hm true b.convert hb' as has]
  exact applyAll_parts _ {} s f p hs hf hp

theorem nameRead_cases (s : Style Body) : nameRead s = s.name ∨ nameRead s = [] := by
  unfold nameRead
  split
  · exact .inr rfl
  · exact .inl rfl

theorem nameRead_named (s : Style Body) (h : s.body.use ≠ .default) : nameRead s = s.name := by
  unfold nameRead; rw [if_neg h]

/-- **C51** (part), packages: writing and reading a package gives a workbook in which every named or automatic style
that has a place in the package (its origin is `Styles`, or it is automatic) is found under its name, the same style;
and each such style that is found was in the workbook. What is missing: named styles with the origin `Content` (see
`C51_content_counterexample`), default styles, which have no name in the file, the tab stops of a paragraph without
other properties. -/
theorem C51_package_partial (m : Refs.Ints) (hm : m.max = maxU32) (as as' : List (Bool × Str × Str)) (has : AttrsOk as)
    (has' : AttrsOk as') (b : SBook) (hb : BookOk b) (hc : b.count < 4294967296) :
    ∃ bk, readPackage m (output false (writeStylesFile as b)) (output false (writeContentFile as' b)) = .ok bk
      ∧ (∀ k n s, b.styles.get? k n = some s → s.body.use ≠ .default →
          (s.body.origin = .styles ∨ s.body.use = .automatic) → ∃ t, bk.styles.get? k n = some t ∧ SameStyle s t)
      ∧ (∀ k n t, bk.styles.get? k n = some t → t.body.use ≠ .default →
          ∃ s, b.styles.get? k n = some s ∧ SameStyle s t) := by
  obtain ⟨bk, h, hs, _⟩ := package_back m hm as as' has has' b hb hc
  have := back_generic b.styles.store (fun s => InPackage s.body.origin s.body.use) nameRead (fun k s => s.body.back k)
    (stylesIn (packageOps b)) (mem_package_styles b hb) hb.styleKey hb.stylesMap nameRead_cases bk.styles hs
  refine ⟨bk, h, ?_, ?_⟩
  · intro k n s hg hu hp
    refine ⟨_, this.1 k n s hg hp (nameRead_named s hu), ?_⟩
    have hk := (hb.styleKey k _ (HMap.get?_mem _ _ _ hg)).1
    simp only at hk
    rw [hk]
    exact back_same k s
  · intro k n t hg hu
    obtain ⟨e, he, hp, rfl, h1⟩ := this.2 k n t hg
    have h1 := h1 (nameRead_named e.2 hu)
    refine ⟨e.2, h1, ?_⟩
    have hk := (hb.styleKey k _ (HMap.get?_mem _ _ _ h1)).1
    simp only at hk
    rw [hk]
    exact back_same k e.2

/-- **C51** (part), packages, formats: the same for value formats; also C53: the parts have the same types and
attributes in the same order. -/
theorem C51_formats_partial (m : Refs.Ints) (hm : m.max = maxU32) (as as' : List (Bool × Str × Str)) (has : AttrsOk as)
    (has' : AttrsOk as') (b : SBook) (hb : BookOk b) (hc : b.count < 4294967296) :
    ∃ bk, readPackage m (output false (writeStylesFile as b)) (output false (writeContentFile as' b)) = .ok bk
      ∧ (∀ k n s, b.formats.get? k n = some s → (s.body.origin = .styles ∨ s.body.use = .automatic) →
          ∃ t, bk.formats.get? k n = some t ∧ SameFormat s t)
      ∧ (∀ k n t, bk.formats.get? k n = some t → ∃ s, b.formats.get? k n = some s ∧ SameFormat s t) := by
  obtain ⟨bk, h, _, hs, _⟩ := package_back m hm as as' has has' b hb hc
  have := back_generic b.formats.store (fun s => InPackage s.body.origin s.body.use) (fun s => s.name)
    (fun k s => s.body.back false (sectionOf s.body.use))
    (formatsIn (packageOps b)) (mem_package_formats b hb) hb.formatKey hb.formatsMap (fun s => .inl rfl) bk.formats hs
  refine ⟨bk, h, ?_, ?_⟩
  · intro k n s hg hp
    refine ⟨_, this.1 k n s hg hp rfl, ?_⟩
    have hk := (hb.formatKey k _ (HMap.get?_mem _ _ _ hg)).1
    simp only at hk
    rw [hk]
    exact back_sameFormat false s
  · intro k n t hg
    obtain ⟨e, he, hp, rfl, h1⟩ := this.2 k n t hg
    have h1 := h1 rfl
    refine ⟨e.2, h1, ?_⟩
    have hk := (hb.formatKey k _ (HMap.get?_mem _ _ _ h1)).1
    simp only at hk
    rw [hk]
    exact back_sameFormat false e.2

theorem pages_same (b : SBook) (hb : BookOk b) (L : List (Kind × Style Page))
    (hmem : ∀ x, x ∈ L ↔ x ∈ ((b.pages.store .page).map Prod.snd).map fun s => (Kind.page, (⟨s.name, s.body⟩ : Style Page)))
    (pages : Stores Page) (hp : addsAll {} L = .ok pages) (n : Str) : pages.get? .page n = b.pages.get? .page n := by
  have hL : ∀ k y, (k, y) ∈ L ↔
      ∃ e ∈ (fun k => if k = Kind.page then b.pages.store .page else []) k, True ∧ y = ⟨e.2.name, e.2.body⟩ := by
    intro k y
    rw [hmem]
    simp only
    constructor
    · intro h
      obtain ⟨s, hs, he⟩ := List.mem_map.1 h
      obtain ⟨e, he', rfl⟩ := List.mem_map.1 hs
      cases he
      exact ⟨e, by rw [if_pos rfl]; exact he', trivial, rfl⟩
    · rintro ⟨e, he, _, rfl⟩
      split at he
      · rename_i hk
        subst hk
        exact List.mem_map.2 ⟨e.2, List.mem_map.2 ⟨e, he, rfl⟩, rfl⟩
      · cases he
  have := back_generic (fun k => if k = Kind.page then b.pages.store .page else []) (fun _ => True) (fun s => s.name)
    (fun k s => s.body) L hL ?_ ?_ (fun s => .inl rfl) pages hp
  · cases hg : b.pages.get? .page n with
    | none =>
      cases hg' : pages.get? .page n with
      | none => rfl
      | some t =>
        obtain ⟨e, _, _, _, h1⟩ := this.2 .page n t hg'
        have h1 := h1 rfl
        rw [if_pos rfl] at h1
        rw [show b.pages.get? .page n = _ from h1] at hg
        cases hg
    | some s =>
      rw [this.1 .page n s (by rw [if_pos rfl]; exact hg) trivial rfl]
      have hk := (hb.pageKey _ (HMap.get?_mem _ _ _ hg)).1
      simp only at hk
      rw [hk]
  · intro k e he
    split at he
    · exact hb.pageKey e he
    · cases he
  · intro k
    split
    · exact hb.pagesMap
    · exact List.nodup_nil

/-- **C51**, packages, page layouts: exactly the page layouts of the workbook are found. -/
theorem C51_pages (m : Refs.Ints) (hm : m.max = maxU32) (as as' : List (Bool × Str × Str)) (has : AttrsOk as)
    (has' : AttrsOk as') (b : SBook) (hb : BookOk b) (hc : b.count < 4294967296) :
    ∃ bk, readPackage m (output false (writeStylesFile as b)) (output false (writeContentFile as' b)) = .ok bk
      ∧ ∀ n, bk.pages.get? .page n = b.pages.get? .page n := by
  obtain ⟨bk, h, _, _, hp, _⟩ := package_back m hm as as' has has' b hb hc
  refine ⟨bk, h, fun n => pages_same b hb _ (fun x => ?_) bk.pages hp n⟩
  rw [package_pages]
  simp only [List.mem_append, or_self]

/-- **C51** (part), packages, fonts: exactly the fonts of the workbook are found, with their names and attributes;
fonts with the origin `Content` keep it. What is missing: the origin `Styles` is kept for one font only, see
`C51_font_counterexample`. -/
theorem C51_fonts_partial (m : Refs.Ints) (hm : m.max = maxU32) (as as' : List (Bool × Str × Str)) (has : AttrsOk as)
    (has' : AttrsOk as') (b : SBook) (hb : BookOk b) (hc : b.count < 4294967296) :
    ∃ bk, readPackage m (output false (writeStylesFile as b)) (output false (writeContentFile as' b)) = .ok bk
      ∧ (∀ n f, b.fonts.get? n = some f → ∃ g, bk.fonts.get? n = some g ∧ g.name = f.name ∧ g.attr = f.attr
          ∧ (f.origin = .content → g.origin = .content))
      ∧ ∀ n, b.fonts.get? n = none → bk.fonts.get? n = none := by
  obtain ⟨bk, h, _, _, _, hf⟩ := package_back m hm as as' has has' b hb hc
  have hn := package_fonts_nodup b hb
  refine ⟨bk, h, ?_, ?_⟩
  · intro n f hg
    have hmem := HMap.get?_mem _ _ _ hg
    have hk := hb.fontKey _ hmem
    simp only at hk
    have : ∃ g ∈ fontsIn (packageOps b), g = { f with origin := g.origin } ∧ (f.origin = .content → g.origin = .content) := by
      rw [package_fonts]
      cases ho : f.origin with
      | styles =>
        obtain ⟨g, hg, h1, _⟩ := fontsRead_to (fontsOf b .styles) .styles f ((mem_fontsOf b _ _).2 ⟨⟨_, hmem, rfl⟩, ho⟩)
        exact ⟨g, List.mem_append_left _ hg, h1, (by intro h; cases h)⟩
      | content =>
        obtain ⟨g, hg, h1, h2⟩ := fontsRead_to (fontsOf b .content) .content f ((mem_fontsOf b _ _).2 ⟨⟨_, hmem, rfl⟩, ho⟩)
        exact ⟨g, List.mem_append_right _ hg, h1, fun _ => h2 rfl⟩
    obtain ⟨g, hg, h1, h2⟩ := this
    have hgn : g.name = f.name := by rw [h1]
    have hga : g.attr = f.attr := by rw [h1]
    refine ⟨g, ?_, hgn, hga, h2⟩
    rw [hf, hk, ← hgn]
    exact addFonts_hit _ hn g hg []
  · intro n hnone
    cases hg : bk.fonts.get? n with
    | none => rfl
    | some g =>
      rw [hf] at hg
      rcases addFonts_source _ n g [] hg with h1 | ⟨h1, h2⟩
      · cases h1
      · rw [package_fonts] at h1
        have : ∃ f, (∃ e ∈ b.fonts, e.2 = f) ∧ g = { f with origin := g.origin } := by
          rcases List.mem_append.1 h1 with h1 | h1
          · obtain ⟨f, hf, h3, _⟩ := fontsRead_of _ _ g h1
            exact ⟨f, ((mem_fontsOf b _ _).1 hf).1, h3⟩
          · obtain ⟨f, hf, h3, _⟩ := fontsRead_of _ _ g h1
            exact ⟨f, ((mem_fontsOf b _ _).1 hf).1, h3⟩
        obtain ⟨f, ⟨e, he, rfl⟩, h3⟩ := this
        have hgn : g.name = e.2.name := by rw [h3]
        have := HMap.get?_of_mem _ hb.fontsMap _ _ he
        rw [hb.fontKey e he, ← hgn, h2, hnone] at this
        cases this

/-! ## Flat files -/

/-- **C51**, flat files, page layouts: exactly the page layouts of the workbook are found. -/
theorem C51_flat_pages (m : Refs.Ints) (hm : m.max = maxU32) (as : List (Bool × Str × Str)) (has : AttrsOk as)
    (b : SBook) (hb : BookOk b) (hc : b.count < 4294967296) :
    ∃ bk, readFlat m (writeFlat as b).1 = .ok bk ∧ ∀ n, bk.pages.get? .page n = b.pages.get? .page n := by
  obtain ⟨bk, h, _, _, hp, _⟩ := flat_back m hm as has b hb hc
  refine ⟨bk, h, fun n => pages_same b hb _ (fun x => ?_) bk.pages hp n⟩
  rw [flat_pages]
  rfl

/-- **C51** (part), flat files, fonts: exactly the fonts with the origin `Content` are found, with their names and
attributes. What is missing: the others, see `C51_flat_font_counterexample`. -/
theorem C51_flat_fonts_partial (m : Refs.Ints) (hm : m.max = maxU32) (as : List (Bool × Str × Str)) (has : AttrsOk as)
    (b : SBook) (hb : BookOk b) (hc : b.count < 4294967296) :
    ∃ bk, readFlat m (writeFlat as b).1 = .ok bk ∧ ∀ n, bk.fonts.get? n = (b.fonts.get? n).filter (·.origin = .content) := by
  obtain ⟨bk, h, _, _, _, hf⟩ := flat_back m hm as has b hb hc
  rw [flat_fonts] at hf
  have hfo : fontsOf b.convert .content = fontsOf b .content := rfl
  rw [hfo] at hf
  have hn : ((fontsRead .content (fontsOf b .content)).map Font.name).Nodup := by
    rw [fontsRead_names]; exact fonts_nodup b hb _
  have same : ∀ g f : Font, g = { f with origin := g.origin } → f.origin = .content → g.origin = .content → g = f := by
    intro g f h1 h2 h3
    rw [h1, h3, ← h2]
  refine ⟨bk, h, fun n => ?_⟩
  cases hg : bk.fonts.get? n with
  | some g =>
    rw [hf] at hg
    rcases addFonts_source _ n g [] hg with h1 | ⟨h1, h2⟩
    · cases h1
    · obtain ⟨f, hfm, h3, h4⟩ := fontsRead_of _ _ g h1
      obtain ⟨⟨e, he, rfl⟩, ho⟩ := (mem_fontsOf b _ _).1 hfm
      have hgo : g.origin = .content := by
        obtain ⟨g', hg', e1, e2⟩ := fontsRead_to (fontsOf b .content) .content e.2 hfm
        have hnm : g'.name = g.name := by rw [e1, h3]
        have : g' = g := by
          have t1 := addFonts_hit _ hn g' hg' []
          have t2 := addFonts_hit _ hn g h1 []
          rw [hnm, t2] at t1
          exact (Option.some.inj t1).symm
        rw [← this]; exact e2 rfl
      have hge := same g e.2 h3 ho hgo
      have hk := HMap.get?_of_mem _ hb.fontsMap _ _ he
      rw [hb.fontKey e he, ← hge, h2] at hk
      rw [hk, hge, Option.filter_some, if_pos (by simpa using ho)]
  | none =>
    cases hf' : b.fonts.get? n with
    | none => rfl
    | some f =>
      by_cases ho : f.origin = .content
      · have hmem := HMap.get?_mem _ _ _ hf'
        have hk := hb.fontKey _ hmem
        simp only at hk
        obtain ⟨g, hgm, h1, h2⟩ := fontsRead_to (fontsOf b .content) .content f ((mem_fontsOf b _ _).2 ⟨⟨_, hmem, rfl⟩, ho⟩)
        have hge := same g f h1 ho (h2 rfl)
        have := addFonts_hit _ hn g hgm []
        rw [← hf, hge, ← hk, hg] at this
        cases this
      · rw [Option.filter_some, if_neg (by simpa using ho)]

/-- **C51** (part), flat files: every named or automatic style is found under its name, the same style but for the
origin, which is `Content` for all; and nothing else is found. -/
theorem C51_flat_partial (m : Refs.Ints) (hm : m.max = maxU32) (as : List (Bool × Str × Str)) (has : AttrsOk as)
    (b : SBook) (hb : BookOk b) (hc : b.count < 4294967296) :
    ∃ bk, readFlat m (writeFlat as b).1 = .ok bk
      ∧ (∀ k n s, b.styles.get? k n = some s → s.body.use ≠ .default → ∃ t, bk.styles.get? k n = some t
          ∧ SameStyle (moved s) t)
      ∧ (∀ k n t, bk.styles.get? k n = some t → t.body.use ≠ .default → ∃ s, b.styles.get? k n = some s
          ∧ SameStyle (moved s) t)
      ∧ (∀ k n s, b.formats.get? k n = some s → ∃ t, bk.formats.get? k n = some t
          ∧ SameFormat (movedF s) t)
      ∧ (∀ k n t, bk.formats.get? k n = some t → ∃ s, b.formats.get? k n = some s
          ∧ SameFormat (movedF s) t) := by
  obtain ⟨bk, h, hs, hf, _⟩ := flat_back m hm as has b hb hc
  have hb' := convert_ok b hb
  have h1 := back_generic b.convert.styles.store (fun _ => True) nameRead (fun k s => s.body.back k)
    _ (mem_flat_styles b.convert hb' (convert_origin b) true) hb'.styleKey hb'.stylesMap nameRead_cases bk.styles hs
  have h2 := back_generic b.convert.formats.store (fun _ => True) (fun s => s.name)
    (fun k s => s.body.back true (sectionOf s.body.use))
    _ (mem_flat_formats b.convert hb' (convert_forigin b) true) hb'.formatKey hb'.formatsMap (fun s => .inl rfl) bk.formats hf
  refine ⟨bk, h, ?_, ?_, ?_, ?_⟩
  · intro k n s hg hu
    have hg' : b.convert.styles.get? k n = some { s with body := { s.body with origin := .content } } := by
      rw [convert_get, hg]; rfl
    refine ⟨_, h1.1 k n _ hg' trivial (nameRead_named _ hu), ?_⟩
    have hk := (hb.styleKey k _ (HMap.get?_mem _ _ _ hg)).1
    simp only at hk
    rw [hk]
    exact back_same k (moved s)
  · intro k n t hg hu
    obtain ⟨e, he, _, rfl, h3⟩ := h1.2 k n t hg
    have h3 : b.convert.styles.get? k n = some e.2 := h3 (nameRead_named e.2 hu)
    rw [convert_get] at h3
    cases hg' : b.styles.get? k n with
    | none => rw [hg'] at h3; cases h3
    | some s =>
      rw [hg'] at h3
      have h3 := Option.some.inj h3
      refine ⟨s, rfl, ?_⟩
      have hk := (hb.styleKey k _ (HMap.get?_mem _ _ _ hg')).1
      simp only at hk
      rw [show moved s = e.2 from h3, hk]
      have := back_same k e.2
      rw [show e.2.name = s.name by rw [← h3]] at this
      exact this
  · intro k n s hg
    have hg' : b.convert.formats.get? k n = some { s with body := { s.body with origin := .content } } := by
      rw [convert_fget, hg]; rfl
    refine ⟨_, h2.1 k n _ hg' trivial rfl, ?_⟩
    have hk := (hb.formatKey k _ (HMap.get?_mem _ _ _ hg)).1
    simp only at hk
    rw [hk]
    exact back_sameFormat true (movedF s)
  · intro k n t hg
    obtain ⟨e, he, _, rfl, h3⟩ := h2.2 k n t hg
    have h3 : b.convert.formats.get? k n = some e.2 := h3 rfl
    rw [convert_fget] at h3
    cases hg' : b.formats.get? k n with
    | none => rw [hg'] at h3; cases h3
    | some s =>
      rw [hg'] at h3
      have h3 := Option.some.inj h3
      refine ⟨s, rfl, ?_⟩
      have hk := (hb.formatKey k _ (HMap.get?_mem _ _ _ hg')).1
      simp only at hk
      rw [show movedF s = e.2 from h3, hk]
      have := back_sameFormat true e.2
      rw [show e.2.name = s.name by rw [← h3]] at this
      exact this

end Verif.Style
