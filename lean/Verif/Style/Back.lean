import Verif.Style.Adds

/-!
# What is found after reading: from lists of additions to the stores
-/

set_option autoImplicit false

namespace Verif.Style

open Xml Xml.Spec Codec Book

theorem addsAll_named_ok {β : Type} (ps : List (Kind × Style β)) (h : ∀ p ∈ ps, p.2.name ≠ []) : ∀ b : Stores β,
    ∃ b', addsAll b ps = .ok b' := by
  induction ps with
  | nil => intro b; exact ⟨b, rfl⟩
  | cons p ps ih =>
    intro b
    have : b.add p.1 p.2 = .ok (b.setStore p.1 ((b.store p.1).insert p.2.name p.2), p.2.name) := by
      unfold Stores.add
      rw [if_neg (h p List.mem_cons_self)]
    obtain ⟨b', hb'⟩ := ih (fun q hq => h q (List.mem_cons_of_mem _ hq)) (b.setStore p.1 ((b.store p.1).insert p.2.name p.2))
    exact ⟨b', by rw [addsAll, this]; exact hb'⟩

/-- Two entries with the same name are one. -/
theorem same_entry {β : Type} (mp : HMap Str (Style β)) (hk : ∀ e ∈ mp, e.1 = e.2.name ∧ e.2.name ≠ [])
    (hd : HMap.Distinct mp) (e e' : Str × Style β) (h : e ∈ mp) (h' : e' ∈ mp) (hn : e.2.name = e'.2.name) : e = e' := by
  obtain ⟨n, s⟩ := e
  obtain ⟨n', s'⟩ := e'
  have h1 := (hk _ h).1
  have h2 := (hk _ h').1
  simp only at h1 h2 hn
  subst h1 h2
  have := HMap.get?_of_mem mp hd _ _ h
  rw [hn] at this
  have h3 := HMap.get?_of_mem mp hd _ _ h'
  rw [this] at h3
  cases h3
  rfl

section Generic

variable {β : Type} (src : Kind → HMap Str (Style β)) (P : Style β → Prop) (nm : Style β → Str) (f : Kind → Style β → β)
  (L : List (Kind × Style β))

theorem back_generic
    (hL : ∀ k y, (k, y) ∈ L ↔ ∃ e ∈ src k, P e.2 ∧ y = ⟨nm e.2, f k e.2⟩)
    (hkey : ∀ k, ∀ e ∈ src k, e.1 = e.2.name ∧ e.2.name ≠ []) (hd : ∀ k, HMap.Distinct (src k))
    (hname : ∀ s, nm s = s.name ∨ nm s = []) (b' : Stores β) (h : addsAll {} L = .ok b') :
    (∀ k n s, (src k).get? n = some s → P s → nm s = s.name → b'.get? k n = some ⟨n, f k s⟩)
    ∧ ∀ k n x, b'.get? k n = some x → ∃ e ∈ src k, P e.2 ∧ x = ⟨n, f k e.2⟩
        ∧ (nm e.2 = e.2.name → (src k).get? n = some e.2) := by
  constructor
  · intro k n s hs hp hn
    have hm := HMap.get?_mem _ _ _ hs
    have hke := hkey k _ hm
    simp only at hke
    have hin : (k, (⟨nm s, f k s⟩ : Style β)) ∈ L := (hL k _).2 ⟨_, hm, hp, rfl⟩
    have := addsAll_hit L k ⟨nm s, f k s⟩ (by rw [hn]; exact hke.2) hin ?_ {} b' h
    · rw [hn] at this
      rw [hke.1]; exact this
    · intro y hy hyn
      obtain ⟨e, he, hpe, rfl⟩ := (hL k y).1 hy
      simp only at hyn
      have he' := hkey k e he
      have : e.2.name = s.name := by
        rcases hname e.2 with h1 | h1
        · rw [← h1, hyn, hn]
        · rw [h1, hn] at hyn; exact absurd hyn.symm hke.2
      have := same_entry (src k) (hkey k) (hd k) e (n, s) he hm this
      subst this
      rfl
  · intro k n x hx
    rcases addsAll_source L {} b' h k n x hx with h1 | ⟨y, hy, rfl, hyn⟩
    · cases h1
    · obtain ⟨e, he, hpe, rfl⟩ := (hL k y).1 hy
      refine ⟨e, he, hpe, rfl, fun hn => ?_⟩
      simp only at hyn
      rw [hn] at hyn
      have he' := hkey k e he
      rw [← hyn he'.2, ← he'.1]
      exact HMap.get?_of_mem _ (hd k) _ _ he

end Generic

/-! ## The lists of a package and of a flat file -/

variable (b : SBook) (hb : BookOk b)

include hb in
theorem kind_of (k : Kind) (e : Str × Style Body) (h : e ∈ b.styles.store k) : k ∈ styleKinds :=
  family_written k (hb.style k e h).shape.kind

include hb in
theorem fkind_of (k : Kind) (e : Str × Style Format) (h : e ∈ b.formats.store k) : k ∈ formatKinds :=
  format_written k (hb.format k e h).kind

include hb in
theorem mem_styleItems (o : Origin) (u : Use) (k : Kind) (y : Style Body) : (k, y) ∈ styleItems b o u ↔
    ∃ e ∈ b.styles.store k, (e.2.body.origin = o ∧ e.2.body.use = u) ∧ y = ⟨nameRead e.2, e.2.body.back k⟩ := by
  unfold styleItems
  constructor
  · intro h
    obtain ⟨k', _, h⟩ := List.mem_flatMap.1 h
    obtain ⟨s, hs, he⟩ := List.mem_map.1 h
    obtain ⟨⟨e, he', rfl⟩, h1⟩ := (mem_chosen _ _ _ _).1 hs
    cases he
    exact ⟨e, he', h1, rfl⟩
  · rintro ⟨e, he, h1, rfl⟩
    refine List.mem_flatMap.2 ⟨k, kind_of b hb k e he, List.mem_map.2 ⟨e.2, (mem_chosen _ _ _ _).2 ⟨⟨e, he, rfl⟩, h1⟩, rfl⟩⟩

include hb in
theorem mem_formatItems (lb : Bool) (sc : Section) (o : Origin) (u : Use) (k : Kind) (y : Style Format) :
    (k, y) ∈ formatItems lb sc b o u ↔
    ∃ e ∈ b.formats.store k, (e.2.body.origin = o ∧ e.2.body.use = u) ∧ y = ⟨e.2.name, e.2.body.back lb sc⟩ := by
  unfold formatItems
  constructor
  · intro h
    obtain ⟨k', _, h⟩ := List.mem_flatMap.1 h
    obtain ⟨s, hs, he⟩ := List.mem_map.1 h
    obtain ⟨⟨e, he', rfl⟩, h1⟩ := (mem_chosenFormats _ _ _ _).1 hs
    cases he
    exact ⟨e, he', h1, rfl⟩
  · rintro ⟨e, he, h1, rfl⟩
    refine List.mem_flatMap.2 ⟨k, fkind_of b hb k e he,
      List.mem_map.2 ⟨e.2, (mem_chosenFormats _ _ _ _).2 ⟨⟨e, he, rfl⟩, h1⟩, rfl⟩⟩

/-- The section of a format. -/
def sectionOf (u : Use) : Section := if u = .automatic then .auto else .office

/-- What a package has a place for. -/
def InPackage (o : Origin) (u : Use) : Prop := o = .styles ∨ u = .automatic

include hb in
theorem mem_package_styles (k : Kind) (y : Style Body) : (k, y) ∈ stylesIn (packageOps b) ↔
    ∃ e ∈ b.styles.store k, InPackage e.2.body.origin e.2.body.use ∧ y = ⟨nameRead e.2, e.2.body.back k⟩ := by
  rw [package_styles]
  simp only [List.mem_append, mem_styleItems b hb]
  constructor
  · rintro (((⟨e, h1, ⟨h2, h3⟩, h4⟩ | ⟨e, h1, ⟨h2, h3⟩, h4⟩) | ⟨e, h1, ⟨h2, h3⟩, h4⟩) | ⟨e, h1, ⟨h2, h3⟩, h4⟩)
    · exact ⟨e, h1, .inl h2, h4⟩
    · exact ⟨e, h1, .inl h2, h4⟩
    · exact ⟨e, h1, .inl h2, h4⟩
    · exact ⟨e, h1, .inr h3, h4⟩
  · rintro ⟨e, h1, h2, h4⟩
    cases ho : e.2.body.origin with
    | styles =>
      cases hu : e.2.body.use with
      | default => exact .inl (.inl (.inl ⟨e, h1, ⟨ho, hu⟩, h4⟩))
      | named => exact .inl (.inl (.inr ⟨e, h1, ⟨ho, hu⟩, h4⟩))
      | automatic => exact .inl (.inr ⟨e, h1, ⟨ho, hu⟩, h4⟩)
    | content =>
      rcases h2 with h2 | h2
      · rw [ho] at h2; cases h2
      · exact .inr ⟨e, h1, ⟨ho, h2⟩, h4⟩

include hb in
theorem mem_flat_styles (hc : ∀ k, ∀ e ∈ b.styles.store k, e.2.body.origin = .content) (lb : Bool) (k : Kind) (y : Style Body) :
    (k, y) ∈ stylesIn (flatOps lb b) ↔
    ∃ e ∈ b.styles.store k, True ∧ y = ⟨nameRead e.2, e.2.body.back k⟩ := by
  rw [flat_styles]
  simp only [List.mem_append, mem_styleItems b hb]
  constructor
  · rintro ((⟨e, h1, ⟨h2, h3⟩, h4⟩ | ⟨e, h1, ⟨h2, h3⟩, h4⟩) | ⟨e, h1, ⟨h2, h3⟩, h4⟩)
    · exact ⟨e, h1, trivial, h4⟩
    · exact ⟨e, h1, trivial, h4⟩
    · exact ⟨e, h1, trivial, h4⟩
  · rintro ⟨e, h1, _, h4⟩
    have ho := hc k e h1
    cases hu : e.2.body.use with
    | default => exact .inl (.inl ⟨e, h1, ⟨ho, hu⟩, h4⟩)
    | named => exact .inl (.inr ⟨e, h1, ⟨ho, hu⟩, h4⟩)
    | automatic => exact .inr ⟨e, h1, ⟨ho, hu⟩, h4⟩

include hb in
theorem mem_package_formats (k : Kind) (y : Style Format) : (k, y) ∈ formatsIn (packageOps b) ↔
    ∃ e ∈ b.formats.store k, InPackage e.2.body.origin e.2.body.use
      ∧ y = ⟨e.2.name, e.2.body.back false (sectionOf e.2.body.use)⟩ := by
  rw [package_formats]
  simp only [List.mem_append, mem_formatItems b hb]
  constructor
  · rintro (((⟨e, h1, ⟨h2, h3⟩, h4⟩ | ⟨e, h1, ⟨h2, h3⟩, h4⟩) | ⟨e, h1, ⟨h2, h3⟩, h4⟩) | ⟨e, h1, ⟨h2, h3⟩, h4⟩)
    · exact ⟨e, h1, .inl h2, by rw [h3]; exact h4⟩
    · exact ⟨e, h1, .inl h2, by rw [h3]; exact h4⟩
    · exact ⟨e, h1, .inl h2, by rw [h3]; exact h4⟩
    · exact ⟨e, h1, .inr h3, by rw [h3]; exact h4⟩
  · rintro ⟨e, h1, h2, h4⟩
    cases ho : e.2.body.origin with
    | styles =>
      cases hu : e.2.body.use with
      | default => exact .inl (.inl (.inr ⟨e, h1, ⟨ho, hu⟩, by rw [hu] at h4; exact h4⟩))
      | named => exact .inl (.inl (.inl ⟨e, h1, ⟨ho, hu⟩, by rw [hu] at h4; exact h4⟩))
      | automatic => exact .inl (.inr ⟨e, h1, ⟨ho, hu⟩, by rw [hu] at h4; exact h4⟩)
    | content =>
      rcases h2 with h2 | h2
      · rw [ho] at h2; cases h2
      · exact .inr ⟨e, h1, ⟨ho, h2⟩, by rw [h2] at h4; exact h4⟩

include hb in
theorem mem_flat_formats (hc : ∀ k, ∀ e ∈ b.formats.store k, e.2.body.origin = .content) (lb : Bool) (k : Kind) (y : Style Format) :
    (k, y) ∈ formatsIn (flatOps lb b) ↔
    ∃ e ∈ b.formats.store k, True ∧ y = ⟨e.2.name, e.2.body.back lb (sectionOf e.2.body.use)⟩ := by
  rw [flat_formats]
  simp only [List.mem_append, mem_formatItems b hb]
  constructor
  · rintro ((⟨e, h1, ⟨h2, h3⟩, h4⟩ | ⟨e, h1, ⟨h2, h3⟩, h4⟩) | ⟨e, h1, ⟨h2, h3⟩, h4⟩)
    · exact ⟨e, h1, trivial, by rw [h3]; exact h4⟩
    · exact ⟨e, h1, trivial, by rw [h3]; exact h4⟩
    · exact ⟨e, h1, trivial, by rw [h3]; exact h4⟩
  · rintro ⟨e, h1, _, h4⟩
    have ho := hc k e h1
    cases hu : e.2.body.use with
    | default => exact .inl (.inr ⟨e, h1, ⟨ho, hu⟩, by rw [hu] at h4; exact h4⟩)
    | named => exact .inl (.inl ⟨e, h1, ⟨ho, hu⟩, by rw [hu] at h4; exact h4⟩)
    | automatic => exact .inr ⟨e, h1, ⟨ho, hu⟩, by rw [hu] at h4; exact h4⟩

/-! ## How many -/

/-- The number of styles. -/
def SBook.count (b : SBook) : Nat := (styleKinds.map fun k => (b.styles.store k).length).sum

theorem chosen_four (l : HMap Str (Style Body)) :
    (chosen l .styles .default).length + (chosen l .styles .named).length + (chosen l .styles .automatic).length
      + (chosen l .content .default).length + (chosen l .content .named).length + (chosen l .content .automatic).length
      = l.length := by
  induction l with
  | nil => rfl
  | cons e l ih =>
    obtain ⟨n, nm, bd⟩ := e
    obtain ⟨o, u, _, _, _, _, _, _⟩ := bd
    unfold chosen at ih ⊢
    rw [List.map_cons]
    cases o <;> cases u <;> simp [List.filter_cons] at ih ⊢ <;> omega

theorem items_length (o : Origin) (u : Use) :
    (styleItems b o u).length = (styleKinds.map fun k => (chosen (b.styles.store k) o u).length).sum := by
  unfold styleItems
  rw [List.length_flatMap]
  simp

theorem count_eq : (styleItems b .styles .default).length + (styleItems b .styles .named).length
    + (styleItems b .styles .automatic).length + (styleItems b .content .default).length
    + (styleItems b .content .named).length + (styleItems b .content .automatic).length = b.count := by
  simp only [items_length, SBook.count]
  generalize styleKinds = l
  induction l with
  | nil => rfl
  | cons k l ih =>
    have := chosen_four (b.styles.store k)
    simp only [List.map_cons, List.sum_cons]
    omega

theorem package_count : (stylesIn (packageOps b)).length ≤ b.count := by
  rw [package_styles, ← count_eq b]
  simp only [List.length_append]
  omega

theorem flat_count (lb : Bool) : (stylesIn (flatOps lb b)).length ≤ b.count := by
  rw [flat_styles, ← count_eq b]
  simp only [List.length_append]
  omega

/-! ## Conversion -/

include hb in
theorem convert_ok : BookOk b.convert := by
  refine ⟨?_, ?_, ?_, ?_, ?_, ?_, hb.pageKey, hb.page, hb.pagesMap, hb.fontKey, hb.font, hb.fontsMap⟩
  · intro k e he
    obtain ⟨e', he', rfl⟩ := List.mem_map.1 he
    exact hb.styleKey k e' he'
  · intro k e he
    obtain ⟨e', he', rfl⟩ := List.mem_map.1 he
    have := hb.style k e' he'
    exact ⟨⟨this.shape.kind, this.shape.main, this.shape.para, this.shape.text, this.shape.maps, this.shape.tabs⟩,
      this.attr, this.main, this.para, this.text, this.maps, this.tabs⟩
  · intro k
    have := hb.stylesMap k
    unfold HMap.Distinct HMap.keys at *
    show (List.map Prod.fst (List.map _ _)).Nodup
    rw [List.map_map]
    exact this
  · intro k e he
    obtain ⟨e', he', rfl⟩ := List.mem_map.1 he
    exact hb.formatKey k e' he'
  · intro k e he
    obtain ⟨e', he', rfl⟩ := List.mem_map.1 he
    have := hb.format k e' he'
    exact ⟨this.kind, this.attr, this.noName, this.text, this.parts⟩
  · intro k
    have := hb.formatsMap k
    unfold HMap.Distinct HMap.keys at *
    show (List.map Prod.fst (List.map _ _)).Nodup
    rw [List.map_map]
    exact this

theorem convert_origin (k : Kind) : ∀ e ∈ b.convert.styles.store k, e.2.body.origin = .content := by
  intro e he
  obtain ⟨e', he', rfl⟩ := List.mem_map.1 he
  rfl

theorem convert_forigin (k : Kind) : ∀ e ∈ b.convert.formats.store k, e.2.body.origin = .content := by
  intro e he
  obtain ⟨e', he', rfl⟩ := List.mem_map.1 he
  rfl

theorem get?_mapv {β : Type} (mp : HMap Str β) (g : β → β) (n : Str) :
    HMap.get? (mp.map fun e => (e.1, g e.2)) n = (mp.get? n).map g := by
  induction mp with
  | nil => rfl
  | cons e mp ih =>
    obtain ⟨k, v⟩ := e
    rw [List.map_cons, HMap.get?, HMap.get?]
    split
    · rfl
    · exact ih

theorem convert_get (k : Kind) (n : Str) : b.convert.styles.get? k n
    = (b.styles.get? k n).map fun s => { s with body := { s.body with origin := .content } } :=
  get?_mapv (b.styles.store k) (fun s => { s with body := { s.body with origin := .content } }) n

theorem convert_fget (k : Kind) (n : Str) : b.convert.formats.get? k n
    = (b.formats.get? k n).map fun s => { s with body := { s.body with origin := .content } } :=
  get?_mapv (b.formats.store k) (fun s => { s with body := { s.body with origin := .content } }) n

theorem convert_count : b.convert.count = b.count := by
  unfold SBook.count
  congr 1
  refine List.map_congr_left fun k _ => ?_
  exact List.length_map ..

/-! ## Fonts -/

theorem addFonts_other (fs : List Font) (n : Str) (h : ∀ f ∈ fs, f.name ≠ n) : ∀ mp : HMap Str Font,
    (addFonts mp fs).get? n = mp.get? n := by
  induction fs with
  | nil => intro mp; rfl
  | cons f fs ih =>
    intro mp
    show (addFonts (mp.insert f.name f) fs).get? n = _
    rw [ih fun g hg => h g (List.mem_cons_of_mem _ hg), HMap.get?_insert, if_neg (h f List.mem_cons_self)]

theorem addFonts_hit (fs : List Font) (hd : (fs.map Font.name).Nodup) (f : Font) (hf : f ∈ fs) (mp : HMap Str Font) :
    (addFonts mp fs).get? f.name = some f := by
  induction fs generalizing mp with
  | nil => cases hf
  | cons g fs ih =>
    rw [List.map_cons, List.nodup_cons] at hd
    show (addFonts (mp.insert g.name g) fs).get? f.name = _
    rcases List.mem_cons.1 hf with rfl | hf
    · rw [addFonts_other, HMap.get?_insert, if_pos rfl]
      intro g hg he
      exact hd.1 (List.mem_map.2 ⟨g, hg, he⟩)
    · exact ih hd.2 hf _

theorem addFonts_source (fs : List Font) (n : Str) (f : Font) : ∀ mp : HMap Str Font, (addFonts mp fs).get? n = some f →
    mp.get? n = some f ∨ f ∈ fs ∧ f.name = n := by
  induction fs with
  | nil => intro mp h; exact .inl h
  | cons g fs ih =>
    intro mp h
    rcases ih (mp.insert g.name g) h with h | ⟨h1, h2⟩
    · rw [HMap.get?_insert] at h
      split at h
      · cases h; rename_i he; exact .inr ⟨List.mem_cons_self, he⟩
      · exact .inl h
    · exact .inr ⟨List.mem_cons_of_mem _ h1, h2⟩

theorem fontsRead_names (fs : List Font) : ∀ o, (fontsRead o fs).map Font.name = fs.map Font.name := by
  induction fs with
  | nil => intro o; rfl
  | cons f fs ih => intro o; rw [fontsRead, List.map_cons, ih, List.map_cons]

theorem fontsRead_of (fs : List Font) : ∀ o, ∀ g ∈ fontsRead o fs, ∃ f ∈ fs, g = { f with origin := g.origin }
    ∧ (o = .content → g.origin = .content) := by
  induction fs with
  | nil => intro o g hg; cases hg
  | cons f fs ih =>
    intro o g hg
    rw [fontsRead] at hg
    rcases List.mem_cons.1 hg with rfl | hg
    · exact ⟨f, List.mem_cons_self, rfl, fun h => h⟩
    · obtain ⟨f', h1, h2, h3⟩ := ih .content g hg
      exact ⟨f', List.mem_cons_of_mem _ h1, h2, fun _ => h3 rfl⟩

theorem fontsRead_to (fs : List Font) : ∀ o, ∀ f ∈ fs, ∃ g ∈ fontsRead o fs, g = { f with origin := g.origin }
    ∧ (o = .content → g.origin = .content) := by
  induction fs with
  | nil => intro o g hg; cases hg
  | cons f fs ih =>
    intro o g hg
    rw [fontsRead]
    rcases List.mem_cons.1 hg with rfl | hg
    · exact ⟨_, List.mem_cons_self, rfl, fun h => h⟩
    · obtain ⟨f', h1, h2, h3⟩ := ih .content g hg
      exact ⟨f', List.mem_cons_of_mem _ h1, h2, fun _ => h3 rfl⟩

theorem mem_fontsOf (o : Origin) (f : Font) : f ∈ fontsOf b o ↔ (∃ e ∈ b.fonts, e.2 = f) ∧ f.origin = o := by
  unfold fontsOf
  rw [List.mem_filter, List.mem_map]
  simp

include hb in
theorem fonts_nodup (o : Origin) : ((fontsOf b o).map Font.name).Nodup := by
  have h : (b.fonts.map fun e => e.2.name).Nodup := by
    have := hb.fontsMap
    unfold HMap.Distinct HMap.keys at this
    have he : b.fonts.map (fun e => e.2.name) = b.fonts.map Prod.fst :=
      List.map_congr_left fun e he => (hb.fontKey e he).symm
    rw [he]; exact this
  unfold fontsOf
  refine List.Sublist.nodup (List.Sublist.map _ List.filter_sublist) ?_
  rw [List.map_map]
  exact h

include hb in
theorem package_fonts_nodup : ((fontsIn (packageOps b)).map Font.name).Nodup := by
  rw [package_fonts, List.map_append, fontsRead_names, fontsRead_names]
  refine List.nodup_append.2 ⟨fonts_nodup b hb _, fonts_nodup b hb _, ?_⟩
  rintro a ha _ hb' rfl
  obtain ⟨f, hf, rfl⟩ := List.mem_map.1 ha
  obtain ⟨g, hg, hn⟩ := List.mem_map.1 hb'
  obtain ⟨⟨e, he, rfl⟩, ho⟩ := (mem_fontsOf b _ _).1 hf
  obtain ⟨⟨e', he', rfl⟩, ho'⟩ := (mem_fontsOf b _ _).1 hg
  have h1 := hb.fontKey e he
  have h2 := hb.fontKey e' he'
  have h3 := HMap.get?_of_mem b.fonts hb.fontsMap _ _ he
  have h4 := HMap.get?_of_mem b.fonts hb.fontsMap _ _ he'
  rw [h1, ← hn, ← h2, h4] at h3
  have h3 := Option.some.inj h3
  rw [← h3, ho'] at ho
  cases ho

end Verif.Style
