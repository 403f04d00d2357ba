import Verif.Style.OtherRun

/-!
# What is found of the definitions of a file
-/

set_option autoImplicit false

namespace Verif.Style

open Xml Xml.Spec Codec Book

/-- **What is found in a workbook after these definitions**: of the definitions with the same name the last one, as it
is defined; and nothing that is not defined.  A definition without a name (a default style) is found under some name. -/
structure Found (bk : SBook) (ps : List Op) : Prop where
  style : ∀ a k x b, ps = a ++ .style k x :: b → x.name ≠ [] → (∀ y, .style k y ∈ b → y.name ≠ x.name) →
    bk.styles.get? k x.name = some x
  format : ∀ a k x b, ps = a ++ .format k x :: b → x.name ≠ [] → (∀ y, .format k y ∈ b → y.name ≠ x.name) →
    bk.formats.get? k x.name = some x
  page : ∀ a x b, ps = a ++ .page x :: b → x.name ≠ [] → (∀ y, .page y ∈ b → y.name ≠ x.name) →
    bk.pages.get? .page x.name = some x
  font : ∀ a f b, ps = a ++ .font f :: b → (∀ g, .font g ∈ b → g.name ≠ f.name) → bk.fonts.get? f.name = some f
  onlyStyle : ∀ k n x, bk.styles.get? k n = some x → ∃ y, .style k y ∈ ps ∧ x = ⟨n, y.body⟩ ∧ (y.name ≠ [] → y.name = n)
  onlyFormat : ∀ k n x, bk.formats.get? k n = some x → ∃ y, .format k y ∈ ps ∧ x = ⟨n, y.body⟩ ∧ (y.name ≠ [] → y.name = n)
  onlyPage : ∀ n x, bk.pages.get? .page n = some x → ∃ y, .page y ∈ ps ∧ x = ⟨n, y.body⟩ ∧ (y.name ≠ [] → y.name = n)
  onlyFont : ∀ n f, bk.fonts.get? n = some f → .font f ∈ ps ∧ f.name = n

theorem addsAll_last {β : Type} (as bs : List (Kind × Style β)) (k : Kind) (x : Style β) (hn : x.name ≠ [])
    (hu : ∀ y, (k, y) ∈ bs → y.name ≠ x.name) (b b' : Stores β) (h : addsAll b (as ++ (k, x) :: bs) = .ok b') :
    b'.get? k x.name = some x := by
  rw [addsAll_append] at h
  cases h1 : addsAll b as with
  | error e => rw [h1] at h; cases h
  | ok b1 =>
    rw [h1] at h
    have h : addsAll b1 ((k, x) :: bs) = .ok b' := h
    rw [addsAll] at h
    simp only at h
    cases ha : b1.add k x with
    | error e => rw [ha] at h; cases h
    | ok r =>
      obtain ⟨b2, r⟩ := r
      rw [ha] at h
      have hg := add_get b1 b2 k x r ha
      have hr : r = x.name := hg.1 hn
      subst hr
      refine addsAll_keep bs k x.name x b2 b' h ?_ (fun y hy he => absurd he (hu y hy)) hn rfl
      rw [hg.2, if_pos ⟨rfl, rfl⟩]

theorem mem_stylesIn (ps : List Op) (k : Kind) (x : Style Body) : (k, x) ∈ stylesIn ps ↔ .style k x ∈ ps := by
  unfold stylesIn
  rw [List.mem_filterMap]
  constructor
  · rintro ⟨p, hp, he⟩
    cases p <;> simp at he
    obtain ⟨rfl, rfl⟩ := he
    exact hp
  · intro h; exact ⟨_, h, rfl⟩

theorem mem_formatsIn (ps : List Op) (k : Kind) (x : Style Format) : (k, x) ∈ formatsIn ps ↔ .format k x ∈ ps := by
  unfold formatsIn
  rw [List.mem_filterMap]
  constructor
  · rintro ⟨p, hp, he⟩
    cases p <;> simp at he
    obtain ⟨rfl, rfl⟩ := he
    exact hp
  · intro h; exact ⟨_, h, rfl⟩

theorem mem_pagesIn (ps : List Op) (x : Style Page) : (Kind.page, x) ∈ pagesIn ps ↔ .page x ∈ ps := by
  unfold pagesIn
  rw [List.mem_filterMap]
  constructor
  · rintro ⟨p, hp, he⟩
    cases p <;> simp at he
    obtain rfl := he
    exact hp
  · intro h; exact ⟨_, h, rfl⟩

theorem mem_fontsIn (ps : List Op) (f : Font) : f ∈ fontsIn ps ↔ .font f ∈ ps := by
  unfold fontsIn
  rw [List.mem_filterMap]
  constructor
  · rintro ⟨p, hp, he⟩
    cases p <;> simp at he
    obtain rfl := he
    exact hp
  · intro h; exact ⟨_, h, rfl⟩

theorem empty_get {β : Type} (k : Kind) (n : Str) : ({} : Stores β).get? k n = none := by cases k <;> rfl

/-- Fewer than 2³² definitions can be read, and are found. -/
theorem applyAll_found (ps : List Op) (h : ps.length < 4294967296) :
    ∃ bk, SBook.applyAll {} ps = .ok bk ∧ Found bk ps := by
  obtain ⟨s, hs⟩ := addsAll_ok (stylesIn ps) (Nat.lt_of_le_of_lt (List.length_filterMap_le ..) h)
  obtain ⟨f, hf⟩ := addsAll_ok (formatsIn ps) (Nat.lt_of_le_of_lt (List.length_filterMap_le ..) h)
  obtain ⟨p, hp⟩ := addsAll_ok (pagesIn ps) (Nat.lt_of_le_of_lt (List.length_filterMap_le ..) h)
  refine ⟨_, applyAll_parts ps {} s f p hs hf hp, ?_, ?_, ?_, ?_, ?_, ?_, ?_, ?_⟩
  · rintro a k x b rfl hn hu
    rw [stylesIn_append, show stylesIn (.style k x :: b) = (k, x) :: stylesIn b from rfl] at hs
    exact addsAll_last _ _ k x hn (fun y hy => hu y ((mem_stylesIn b k y).1 hy)) _ _ hs
  · rintro a k x b rfl hn hu
    rw [formatsIn_append, show formatsIn (.format k x :: b) = (k, x) :: formatsIn b from rfl] at hf
    exact addsAll_last _ _ k x hn (fun y hy => hu y ((mem_formatsIn b k y).1 hy)) _ _ hf
  · rintro a x b rfl hn hu
    rw [pagesIn_append, show pagesIn (.page x :: b) = (.page, x) :: pagesIn b from rfl] at hp
    exact addsAll_last _ _ .page x hn (fun y hy => hu y ((mem_pagesIn b y).1 hy)) _ _ hp
  · rintro a g b rfl hu
    show (addFonts [] (fontsIn (a ++ .font g :: b))).get? g.name = some g
    rw [fontsIn_append, show fontsIn (.font g :: b) = g :: fontsIn b from rfl]
    unfold addFonts
    rw [List.foldl_append, List.foldl_cons]
    rw [show ∀ mp, List.foldl (fun m (f : Font) => HMap.insert m f.name f) mp (fontsIn b) = addFonts mp (fontsIn b) from
      fun _ => rfl, addFonts_other _ _ fun f hf => hu f ((mem_fontsIn b f).1 hf), HMap.get?_insert, if_pos rfl]
  · intro k n x hx
    rcases addsAll_source _ _ _ hs k n x hx with h | ⟨y, h1, h2⟩
    · rw [empty_get] at h; cases h
    · exact ⟨y, (mem_stylesIn ps k y).1 h1, h2⟩
  · intro k n x hx
    rcases addsAll_source _ _ _ hf k n x hx with h | ⟨y, h1, h2⟩
    · rw [empty_get] at h; cases h
    · exact ⟨y, (mem_formatsIn ps k y).1 h1, h2⟩
  · intro n x hx
    rcases addsAll_source _ _ _ hp .page n x hx with h | ⟨y, h1, h2⟩
    · rw [empty_get] at h; cases h
    · exact ⟨y, (mem_pagesIn ps y).1 h1, h2⟩
  · intro n g hg
    rcases addFonts_source _ n g _ hg with h | ⟨h1, h2⟩
    · cases h
    · exact ⟨(mem_fontsIn ps g).1 h1, h2⟩

end Verif.Style
