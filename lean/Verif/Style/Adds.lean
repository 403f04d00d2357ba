import Verif.Style.Files

/-!
# The effect of what is read on the stores
-/

set_option autoImplicit false

namespace Verif.Style

open Xml Xml.Spec Codec Book

/-- Adds one style after the other. -/
def addsAll {β : Type} : Stores β → List (Kind × Style β) → Except NameFail (Stores β)
  | b, [] => .ok b
  | b, p :: ps =>
    match b.add p.1 p.2 with
    | .ok (b, _) => addsAll b ps
    | .error e => .error e

section Generic

variable {β : Type}

theorem addsAll_append (ps qs : List (Kind × Style β)) : ∀ b : Stores β,
    addsAll b (ps ++ qs) = (addsAll b ps).bind fun b => addsAll b qs := by
  induction ps with
  | nil => intro b; rfl
  | cons p ps ih =>
    intro b
    rw [List.cons_append, addsAll, addsAll]
    cases b.add p.1 p.2 with
    | error e => rfl
    | ok r => exact ih r.1

theorem addsAll_run (ps : List (Kind × Style β)) : ∀ (b b' : Stores β) (rs : List (Option Str)),
    b.run (ps.map fun p => .add p.1 p.2) = .ok (b', rs) → addsAll b ps = .ok b' := by
  induction ps with
  | nil => intro b b' rs h; cases h; rfl
  | cons p ps ih =>
    intro b b' rs h
    rw [List.map_cons, Stores.run] at h
    simp only [Stores.step] at h
    rw [addsAll]
    cases ha : b.add p.1 p.2 with
    | error e => rw [ha] at h; cases h
    | ok r =>
      obtain ⟨b1, r⟩ := r
      rw [ha] at h
      simp only at h ⊢
      cases hr : b1.run (ps.map fun p => .add p.1 p.2) with
      | error e => rw [hr] at h; cases h
      | ok x =>
        obtain ⟨b2, rs2⟩ := x
        rw [hr] at h
        simp only at h
        cases h
        exact ih b1 _ rs2 hr

/-- Fewer than 2³² styles can be added to an empty workbook. -/
theorem addsAll_ok (ps : List (Kind × Style β)) (h : ps.length < 4294967296) : ∃ b', addsAll ({} : Stores β) ps = .ok b' := by
  obtain ⟨b, rs, h1, _⟩ := C41_map (β := β) (ps.map fun p => .add p.1 p.2) (by rw [List.length_map]; exact h)
  exact ⟨b, addsAll_run ps _ _ rs h1⟩

/-- What is there stays, unless another style with the same name is added. -/
theorem addsAll_keep (ps : List (Kind × Style β)) (k : Kind) (n : Str) (x : Style β) : ∀ (b b' : Stores β),
    addsAll b ps = .ok b' → b.get? k n = some x → (∀ y, (k, y) ∈ ps → y.name = n → y = x) → (n ≠ []) → (x.name = n) →
    b'.get? k n = some x := by
  induction ps with
  | nil => intro b b' h hx _ _ _; cases h; exact hx
  | cons p ps ih =>
    intro b b' h hx hp hn hxn
    rw [addsAll] at h
    cases ha : b.add p.1 p.2 with
    | error e => rw [ha] at h; cases h
    | ok r =>
      obtain ⟨b1, r⟩ := r
      rw [ha] at h
      refine ih b1 b' h ?_ (fun y hy => hp y (List.mem_cons_of_mem _ hy)) hn hxn
      obtain ⟨kp, sp, body⟩ := p
      by_cases hs : sp = []
      · subst hs
        have := C40_any_state b b1 kp body r ha
        rw [this.2.2 k n ?_]
        · exact hx
        · rintro ⟨⟩
          rw [this.1] at hx
          cases hx
      · have := add_get b b1 kp ⟨sp, body⟩ r ha
        rw [this.2 k n]
        have hr : r = sp := this.1 hs
        subst hr
        split
        · rename_i he
          obtain ⟨rfl, rfl⟩ := he
          have := hp ⟨r, body⟩ List.mem_cons_self rfl
          rw [← this]
        · exact hx

/-- A named style is found after all were added, if it is the only one with its name. -/
theorem addsAll_hit (ps : List (Kind × Style β)) (k : Kind) (x : Style β) (hn : x.name ≠ []) (hx : (k, x) ∈ ps)
    (hu : ∀ y, (k, y) ∈ ps → y.name = x.name → y = x) (b b' : Stores β) (h : addsAll b ps = .ok b') :
    b'.get? k x.name = some x := by
  obtain ⟨as, bs, rfl⟩ := List.append_of_mem hx
  rw [addsAll_append] at h
  cases h1 : addsAll b as with
  | error e => rw [h1] at h; cases h
  | ok b1 =>
    rw [h1] at h
    have h : addsAll b1 ((k, x) :: bs) = .ok b' := h
    rw [addsAll] at h
    simp only at h
    cases ha : b1.add k x with
    | error e => rw [ha] at h; cases h
    | ok r =>
      obtain ⟨b2, r⟩ := r
      rw [ha] at h
      have hg := add_get b1 b2 k x r ha
      have hr : r = x.name := hg.1 hn
      subst hr
      refine addsAll_keep bs k x.name x b2 b' h ?_ (fun y hy => hu y (by simp [hy])) hn rfl
      rw [hg.2, if_pos ⟨rfl, rfl⟩]

/-- Whatever is found was there or was added. -/
theorem addsAll_source (ps : List (Kind × Style β)) : ∀ (b b' : Stores β), addsAll b ps = .ok b' → ∀ k n x,
    b'.get? k n = some x → b.get? k n = some x
      ∨ ∃ y, (k, y) ∈ ps ∧ x = ⟨n, y.body⟩ ∧ (y.name ≠ [] → y.name = n) := by
  induction ps with
  | nil => intro b b' h k n x hx; cases h; exact .inl hx
  | cons p ps ih =>
    intro b b' h k n x hx
    rw [addsAll] at h
    cases ha : b.add p.1 p.2 with
    | error e => rw [ha] at h; cases h
    | ok r =>
      obtain ⟨b1, r⟩ := r
      rw [ha] at h
      rcases ih b1 b' h k n x hx with h1 | ⟨y, h1, h2⟩
      · have hg := add_get b b1 p.1 p.2 r ha
        rw [hg.2 k n] at h1
        split at h1
        · rename_i he
          obtain ⟨hk, rfl⟩ := he
          cases h1
          refine .inr ⟨p.2, ?_, rfl, fun hn => (hg.1 hn).symm⟩
          rw [← hk]; exact List.mem_cons_self
        · exact .inl h1
      · exact .inr ⟨y, List.mem_cons_of_mem _ h1, h2⟩

end Generic

/-! ## Projections -/

def stylesIn (ps : List Op) : List (Kind × Style Body) :=
  ps.filterMap fun | .style k s => some (k, s) | _ => none

def formatsIn (ps : List Op) : List (Kind × Style Format) :=
  ps.filterMap fun | .format k s => some (k, s) | _ => none

def pagesIn (ps : List Op) : List (Kind × Style Page) :=
  ps.filterMap fun | .page s => some (.page, s) | _ => none

def fontsIn (ps : List Op) : List Font := ps.filterMap fun | .font f => some f | _ => none

def addFonts (m : HMap Str Font) (fs : List Font) : HMap Str Font := fs.foldl (fun m f => m.insert f.name f) m

/-- The operations on the book are those on its stores. -/
theorem applyAll_parts (ps : List Op) : ∀ (b : SBook) (s : Stores Body) (f : Stores Format) (p : Stores Page),
    addsAll b.styles (stylesIn ps) = .ok s → addsAll b.formats (formatsIn ps) = .ok f →
    addsAll b.pages (pagesIn ps) = .ok p → b.applyAll ps = .ok ⟨s, f, p, addFonts b.fonts (fontsIn ps)⟩ := by
  induction ps with
  | nil =>
    intro b s f p h1 h2 h3
    cases h1; cases h2; cases h3
    rfl
  | cons o ps ih =>
    intro b s f p h1 h2 h3
    rw [SBook.applyAll]
    cases o with
    | style k x =>
      rw [show stylesIn (.style k x :: ps) = (k, x) :: stylesIn ps from rfl, addsAll] at h1
      simp only at h1
      rw [SBook.apply, SBook.addStyle]
      cases ha : b.styles.add k x with
      | error e => rw [ha] at h1; cases h1
      | ok r =>
        obtain ⟨r, r'⟩ := r
        rw [ha] at h1
        exact ih { b with styles := r } s f p h1 h2 h3
    | format k x =>
      rw [show formatsIn (.format k x :: ps) = (k, x) :: formatsIn ps from rfl, addsAll] at h2
      simp only at h2
      rw [SBook.apply, SBook.addFormat]
      cases ha : b.formats.add k x with
      | error e => rw [ha] at h2; cases h2
      | ok r =>
        obtain ⟨r, r'⟩ := r
        rw [ha] at h2
        exact ih { b with formats := r } s f p h1 h2 h3
    | page x =>
      rw [show pagesIn (.page x :: ps) = (.page, x) :: pagesIn ps from rfl, addsAll] at h3
      simp only at h3
      rw [SBook.apply, SBook.addPage]
      cases ha : b.pages.add .page x with
      | error e => rw [ha] at h3; cases h3
      | ok r =>
        obtain ⟨r, r'⟩ := r
        rw [ha] at h3
        exact ih { b with pages := r } s f p h1 h2 h3
    | font x => exact ih (b.addFont x) s f p h1 h2 h3

theorem stylesIn_append (a b : List Op) : stylesIn (a ++ b) = stylesIn a ++ stylesIn b := List.filterMap_append ..
theorem formatsIn_append (a b : List Op) : formatsIn (a ++ b) = formatsIn a ++ formatsIn b := List.filterMap_append ..
theorem pagesIn_append (a b : List Op) : pagesIn (a ++ b) = pagesIn a ++ pagesIn b := List.filterMap_append ..
theorem fontsIn_append (a b : List Op) : fontsIn (a ++ b) = fontsIn a ++ fontsIn b := List.filterMap_append ..

/-- The styles of an origin and a use as they are read. -/
def styleItems (b : SBook) (o : Origin) (u : Use) : List (Kind × Style Body) :=
  styleKinds.flatMap fun k => (chosen (b.styles.store k) o u).map fun s => (k, ⟨nameRead s, s.body.back k⟩)

def formatItems (lb : Bool) (sc : Section) (b : SBook) (o : Origin) (u : Use) : List (Kind × Style Format) :=
  formatKinds.flatMap fun k => (chosenFormats (b.formats.store k) o u).map fun s => (k, ⟨s.name, s.body.back lb sc⟩)

theorem filterMap_none {α β : Type} (l : List α) (f : α → Option β) (h : ∀ a ∈ l, f a = none) : l.filterMap f = [] := by
  rw [List.filterMap_eq_nil_iff]; exact h

theorem filterMap_all {α β : Type} (l : List α) (f : α → Option β) (g : α → β) (h : ∀ a, f a = some (g a)) :
    l.filterMap f = l.map g := by
  induction l with
  | nil => rfl
  | cons a l ih => rw [List.filterMap_cons, h]; simp only; rw [ih, List.map_cons]

theorem stylesIn_styleOps (b : SBook) (o : Origin) (u : Use) : stylesIn (styleOps b o u) = styleItems b o u := by
  unfold stylesIn styleOps styleItems
  rw [List.filterMap_flatMap]
  congr 1
  funext k
  rw [List.filterMap_map]
  exact filterMap_all _ _ _ fun s => rfl

theorem formatsIn_formatOps (lb : Bool) (sc : Section) (b : SBook) (o : Origin) (u : Use) :
    formatsIn (formatOps lb sc b o u) = formatItems lb sc b o u := by
  unfold formatsIn formatOps formatItems
  rw [List.filterMap_flatMap]
  congr 1
  funext k
  rw [List.filterMap_map]
  exact filterMap_all _ _ _ fun s => rfl

theorem mem_styleOps (b : SBook) (o : Origin) (u : Use) (p : Op) (h : p ∈ styleOps b o u) : ∃ k s, p = .style k s := by
  obtain ⟨k, _, h⟩ := List.mem_flatMap.1 h
  obtain ⟨s, _, rfl⟩ := List.mem_map.1 h
  exact ⟨_, _, rfl⟩

theorem mem_formatOps (lb : Bool) (sc : Section) (b : SBook) (o : Origin) (u : Use) (p : Op)
    (h : p ∈ formatOps lb sc b o u) : ∃ k s, p = .format k s := by
  obtain ⟨k, _, h⟩ := List.mem_flatMap.1 h
  obtain ⟨s, _, rfl⟩ := List.mem_map.1 h
  exact ⟨_, _, rfl⟩

theorem mem_pageOps (b : SBook) (p : Op) (h : p ∈ pageOps b) : ∃ s, p = .page s := by
  obtain ⟨s, _, rfl⟩ := List.mem_map.1 h
  exact ⟨_, rfl⟩

theorem mem_fontOps (b : SBook) (o : Origin) (p : Op) (h : p ∈ fontOps b o) : ∃ f, p = .font f := by
  obtain ⟨s, _, rfl⟩ := List.mem_map.1 h
  exact ⟨_, rfl⟩

section Others

variable (lb : Bool) (sc : Section) (b : SBook) (o : Origin) (u : Use)

theorem stylesIn_formatOps : stylesIn (formatOps lb sc b o u) = [] :=
  filterMap_none _ _ fun p h => by obtain ⟨k, s, rfl⟩ := mem_formatOps lb sc b o u p h; rfl
theorem stylesIn_pageOps : stylesIn (pageOps b) = [] :=
  filterMap_none _ _ fun p h => by obtain ⟨s, rfl⟩ := mem_pageOps b p h; rfl
theorem stylesIn_fontOps : stylesIn (fontOps b o) = [] :=
  filterMap_none _ _ fun p h => by obtain ⟨s, rfl⟩ := mem_fontOps b o p h; rfl
theorem formatsIn_styleOps : formatsIn (styleOps b o u) = [] :=
  filterMap_none _ _ fun p h => by obtain ⟨k, s, rfl⟩ := mem_styleOps b o u p h; rfl
theorem formatsIn_pageOps : formatsIn (pageOps b) = [] :=
  filterMap_none _ _ fun p h => by obtain ⟨s, rfl⟩ := mem_pageOps b p h; rfl
theorem formatsIn_fontOps : formatsIn (fontOps b o) = [] :=
  filterMap_none _ _ fun p h => by obtain ⟨s, rfl⟩ := mem_fontOps b o p h; rfl
theorem pagesIn_styleOps : pagesIn (styleOps b o u) = [] :=
  filterMap_none _ _ fun p h => by obtain ⟨k, s, rfl⟩ := mem_styleOps b o u p h; rfl
theorem pagesIn_formatOps : pagesIn (formatOps lb sc b o u) = [] :=
  filterMap_none _ _ fun p h => by obtain ⟨k, s, rfl⟩ := mem_formatOps lb sc b o u p h; rfl
theorem pagesIn_fontOps : pagesIn (fontOps b o) = [] :=
  filterMap_none _ _ fun p h => by obtain ⟨s, rfl⟩ := mem_fontOps b o p h; rfl
theorem fontsIn_styleOps : fontsIn (styleOps b o u) = [] :=
  filterMap_none _ _ fun p h => by obtain ⟨k, s, rfl⟩ := mem_styleOps b o u p h; rfl
theorem fontsIn_formatOps : fontsIn (formatOps lb sc b o u) = [] :=
  filterMap_none _ _ fun p h => by obtain ⟨k, s, rfl⟩ := mem_formatOps lb sc b o u p h; rfl
theorem fontsIn_pageOps : fontsIn (pageOps b) = [] :=
  filterMap_none _ _ fun p h => by obtain ⟨s, rfl⟩ := mem_pageOps b p h; rfl
theorem pagesIn_pageOps : pagesIn (pageOps b) = ((b.pages.store .page).map Prod.snd).map fun s => (.page, s) := by
  unfold pagesIn pageOps
  rw [List.filterMap_map]
  exact filterMap_all _ _ _ fun s => rfl
theorem fontsIn_fontOps : fontsIn (fontOps b o) = fontsRead o (fontsOf b o) := by
  unfold fontsIn fontOps
  rw [List.filterMap_map]
  exact (filterMap_all _ _ (fun f => f) fun s => rfl).trans (List.map_id' _)

end Others

/-! ## A package -/

/-- All that is read of a package. -/
def packageOps (b : SBook) : List Op := stylesOps false b ++ contentOps false b

theorem package_styles (b : SBook) : stylesIn (packageOps b) =
    styleItems b .styles .default ++ styleItems b .styles .named ++ styleItems b .styles .automatic
      ++ styleItems b .content .automatic := by
  simp only [packageOps, stylesOps, contentOps, officeOps, autoOps, stylesIn_append, stylesIn_styleOps,
    stylesIn_formatOps, stylesIn_pageOps, stylesIn_fontOps, List.append_nil, List.nil_append]

theorem package_formats (b : SBook) : formatsIn (packageOps b) =
    formatItems false .office b .styles .named ++ formatItems false .office b .styles .default
      ++ formatItems false .auto b .styles .automatic ++ formatItems false .auto b .content .automatic := by
  simp only [packageOps, stylesOps, contentOps, officeOps, autoOps, formatsIn_append, formatsIn_formatOps,
    formatsIn_styleOps, formatsIn_pageOps, formatsIn_fontOps, List.append_nil, List.nil_append]

theorem package_pages (b : SBook) : pagesIn (packageOps b) =
    ((b.pages.store .page).map Prod.snd).map (fun s => (.page, s))
      ++ ((b.pages.store .page).map Prod.snd).map (fun s => (.page, s)) := by
  simp only [packageOps, stylesOps, contentOps, officeOps, autoOps, pagesIn_append, pagesIn_formatOps,
    pagesIn_styleOps, pagesIn_pageOps, pagesIn_fontOps, List.append_nil, List.nil_append]

theorem package_fonts (b : SBook) : fontsIn (packageOps b) =
    fontsRead .styles (fontsOf b .styles) ++ fontsRead .content (fontsOf b .content) := by
  simp only [packageOps, stylesOps, contentOps, officeOps, autoOps, fontsIn_append, fontsIn_formatOps,
    fontsIn_styleOps, fontsIn_pageOps, fontsIn_fontOps, List.append_nil, List.nil_append]

/-! ## A flat file -/

theorem flat_styles (lb : Bool) (b : SBook) : stylesIn (flatOps lb b) =
    styleItems b .content .default ++ styleItems b .content .named ++ styleItems b .content .automatic := by
  simp only [flatOps, officeOps, autoOps, stylesIn_append, stylesIn_styleOps,
    stylesIn_formatOps, stylesIn_pageOps, stylesIn_fontOps, List.append_nil, List.nil_append]

theorem flat_formats (lb : Bool) (b : SBook) : formatsIn (flatOps lb b) =
    formatItems lb .office b .content .named ++ formatItems lb .office b .content .default
      ++ formatItems lb .auto b .content .automatic := by
  simp only [flatOps, officeOps, autoOps, formatsIn_append, formatsIn_formatOps,
    formatsIn_styleOps, formatsIn_pageOps, formatsIn_fontOps, List.append_nil, List.nil_append]

theorem flat_pages (lb : Bool) (b : SBook) : pagesIn (flatOps lb b) =
    ((b.pages.store .page).map Prod.snd).map (fun s => (.page, s)) := by
  simp only [flatOps, officeOps, autoOps, pagesIn_append, pagesIn_formatOps,
    pagesIn_styleOps, pagesIn_pageOps, pagesIn_fontOps, List.append_nil, List.nil_append]

theorem flat_fonts (lb : Bool) (b : SBook) : fontsIn (flatOps lb b) = fontsRead .content (fontsOf b .content) := by
  simp only [flatOps, officeOps, autoOps, fontsIn_append, fontsIn_formatOps,
    fontsIn_styleOps, fontsIn_pageOps, fontsIn_fontOps, List.append_nil, List.nil_append]

end Verif.Style
