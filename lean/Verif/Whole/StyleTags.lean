import Verif.Whole.Lemmas

/-!
# Whole files: the styles have no tag of another section
-/

set_option autoImplicit false

namespace Verif.Whole

open Xml Codec Xml.Spec
open Verif.Book (Kind)
open Verif.Style (SBook Body Font Page Format PartType tagDoc propsDoc kidDocs styleDoc partDoc formatDoc pageDoc fontDoc fontsDoc
  stylesDocs formatsDocs pagesDocs officeDoc autoDoc mapsDoc paraDoc)
open Verif.Ns (Part)

/-- The tags of the sections and of the root elements. -/
def blocked : List Str :=
  [Part.metadata.root, Part.settings.root, Part.styles.root, Part.content.root, Part.flat.root,
   tMeta, Config.tSettings, Script.tScripts, Master.tMasters, TableXml.tBody]

/-- Not one of them. -/
def Unblocked (n : Str) : Prop := n ∉ blocked

instance (n : Str) : Decidable (Unblocked n) := by unfold Unblocked; exact inferInstance

theorem free_of (p : Part) (n : Str) (h : Unblocked n) : Free p n := by
  unfold Unblocked blocked at h
  simp only [List.mem_cons, List.not_mem_nil, or_false, not_or] at h
  obtain ⟨h1, h2, h3, h4, h5, h6, h7, h8, h9, h10⟩ := h
  unfold Free special
  cases p <;> simp [*]

theorem docTags_mono {P Q : Str → Prop} (h : ∀ n, P n → Q n) : ∀ d, DocTags P d → DocTags Q d := by
  intro d
  induction d using Doc.rec (motive_2 := fun ds => DocsTags P ds → DocsTags Q ds) with
  | elem v n as kids ih => intro hd; exact ⟨h _ hd.1, ih hd.2⟩
  | leaf v n as ee s => intro hd; exact h n hd
  | short v n s => intro hd; exact h n hd
  | void v n as t ne => intro hd; exact h n hd
  | nil => trivial
  | cons d ds ih1 ih2 => rename_i hd; exact ⟨ih1 hd.1, ih2 hd.2⟩

theorem tagDoc_tags (n : Str) (as : List (Bool × Str × Str)) (h : Unblocked n) : DocTags Unblocked (tagDoc n as) := h

theorem propsDoc_tags (n : Str) (mm : Verif.Style.Attrs) (h : Unblocked n) : DocsTags Unblocked (propsDoc n mm) := by
  unfold propsDoc
  split
  · trivial
  · exact ⟨h, trivial⟩

theorem kidDocs_tags (k : Kind) (b : Body) : DocsTags Unblocked (kidDocs k b) := by
  have n1 : Unblocked Style.tTableProps := by decide +kernel
  have n2 : Unblocked Style.tRowProps := by decide +kernel
  have n3 : Unblocked Style.tColProps := by decide +kernel
  have n4 : Unblocked Style.tCellProps := by decide +kernel
  have n5 : Unblocked Style.tParaProps := by decide +kernel
  have n6 : Unblocked Style.tTextProps := by decide +kernel
  have n7 : Unblocked Style.tRubyProps := by decide +kernel
  have n8 : Unblocked Style.tGraphicProps := by decide +kernel
  have n9 : Unblocked Style.tMap := by decide +kernel
  have n10 : Unblocked Style.tTabStop := by decide +kernel
  have n11 : Unblocked Style.tTabStops := by decide +kernel
  have hmaps : DocsTags Unblocked (mapsDoc b.maps) := by
    unfold mapsDoc
    cases b.maps with
    | none => trivial
    | some l => exact docsTags_map _ l _ fun sm _ => tagDoc_tags _ _ n9
  have hpara : DocsTags Unblocked (paraDoc b) := by
    unfold paraDoc
    split
    · trivial
    · cases ht : b.tabs with
      | none => exact ⟨n5, trivial⟩
      | some ts =>
        exact ⟨⟨n5, ⟨n11, docsTags_map _ ts _ fun t _ => tagDoc_tags _ _ n10⟩, trivial⟩, trivial⟩
  cases k with
  | table => exact propsDoc_tags _ _ n1
  | row => exact propsDoc_tags _ _ n2
  | col => exact propsDoc_tags _ _ n3
  | text => exact propsDoc_tags _ _ n6
  | ruby => exact propsDoc_tags _ _ n7
  | paragraph => simp only [kidDocs, docsTags_append]; exact ⟨hpara, propsDoc_tags _ _ n6⟩
  | graphic =>
    simp only [kidDocs, docsTags_append]
    exact ⟨⟨propsDoc_tags _ _ n8, propsDoc_tags _ _ n5⟩, propsDoc_tags _ _ n6⟩
  | cell =>
    simp only [kidDocs, docsTags_append]
    exact ⟨⟨⟨propsDoc_tags _ _ n4, propsDoc_tags _ _ n5⟩, propsDoc_tags _ _ n6⟩, hmaps⟩
  | _ => trivial

theorem styleDoc_tags (k : Kind) (s : Book.Style Body) : DocTags Unblocked (styleDoc k s) := by
  have n1 : Unblocked (Style.styleTag s.body.use) := by
    rcases Style.styleTag_cases s.body.use with h | h <;> rw [h] <;> decide +kernel
  unfold styleDoc
  split
  · exact n1
  · exact ⟨n1, kidDocs_tags k _⟩

theorem partTag_tags (t : PartType) : Unblocked (Style.partTag t) := by cases t <;> decide +kernel

theorem partDoc_tags (q : Style.Part) : DocTags Unblocked (partDoc q) := by
  obtain ⟨t, a, pos, c⟩ := q
  have ht := partTag_tags
  have he : Unblocked Style.tEmbedded := by decide +kernel
  have txt : ∀ t', DocTags Unblocked (match Style.shown c with
      | none => .void true (Style.partTag t') (Style.escA a) none true
      | some s => .leaf true (Style.partTag t') (Style.escA a) true s) := by
    intro t'
    cases Style.shown c with
    | none => exact ht _
    | some s => exact ht _
  cases t with
  | text => exact txt .text
  | currencySymbol => exact txt .currencySymbol
  | fillCharacter => exact txt .fillCharacter
  | number =>
    cases pos with
    | none => exact ht .number
    | some z =>
      refine ⟨ht .number, ?_, trivial⟩
      cases c with
      | none => exact he
      | some s => exact he
  | _ => exact ht _

theorem formatDoc_tags (k : Kind) (hk : k ∈ Style.formatKinds) (s : Book.Style Format) : DocTags Unblocked (formatDoc k s) := by
  have hk' : ∀ k ∈ Style.formatKinds, Unblocked (Style.formatTag k) := by decide +kernel
  have n6 : Unblocked Style.tTextProps := by decide +kernel
  have n9 : Unblocked Style.tMap := by decide +kernel
  refine ⟨hk' k hk, ?_⟩
  unfold Style.formatKids
  rw [docsTags_append, docsTags_append]
  refine ⟨⟨propsDoc_tags _ _ n6, docsTags_map _ _ _ fun p _ => partDoc_tags p⟩, ?_⟩
  unfold Style.valueMapsDoc
  cases s.body.maps with
  | none => trivial
  | some l => exact docsTags_map _ l _ fun sm _ => tagDoc_tags _ _ n9

theorem pageDoc_tags (s : Book.Style Page) : DocTags Unblocked (pageDoc s) := by
  have n1 : Unblocked Style.tPage := by decide +kernel
  have n2 : Unblocked Style.tPageProps := by decide +kernel
  have n3 : Unblocked Style.tHeaderStyle := by decide +kernel
  have n4 : Unblocked Style.tFooterStyle := by decide +kernel
  have n5 : Unblocked Style.tHFProps := by decide +kernel
  refine ⟨n1, ?_⟩
  rw [docsTags_append]
  exact ⟨propsDoc_tags _ _ n2, ⟨n3, n5, trivial⟩, ⟨n4, n5, trivial⟩, trivial⟩

theorem fontsDoc_tags (b : SBook) (o : Style.Origin) : DocTags Unblocked (fontsDoc b o) := by
  have n1 : Unblocked Style.tFonts := by decide +kernel
  have n2 : Unblocked Style.tFont := by decide +kernel
  unfold fontsDoc
  split
  · exact n1
  · exact ⟨n1, docsTags_map _ _ _ fun f _ => tagDoc_tags _ _ n2⟩

theorem stylesDocs_tags (b : SBook) (o : Style.Origin) (u : Style.Use) : DocsTags Unblocked (stylesDocs b o u) :=
  docsTags_flatMap _ _ _ fun k _ => docsTags_map _ _ _ fun s _ => styleDoc_tags k s

theorem formatsDocs_tags (b : SBook) (o : Style.Origin) (u : Style.Use) : DocsTags Unblocked (formatsDocs b o u) :=
  docsTags_flatMap _ _ _ fun k hk => docsTags_map _ _ _ fun s _ => formatDoc_tags k hk s

theorem pagesDocs_tags (b : SBook) : DocsTags Unblocked (pagesDocs b) := docsTags_map _ _ _ fun s _ => pageDoc_tags s

theorem officeDoc_tags (b : SBook) (o : Style.Origin) : DocTags Unblocked (officeDoc b o) := by
  refine ⟨by decide +kernel, ?_⟩
  rw [docsTags_append, docsTags_append, docsTags_append]
  exact ⟨⟨⟨stylesDocs_tags b o _, stylesDocs_tags b o _⟩, formatsDocs_tags b o _⟩, formatsDocs_tags b o _⟩

theorem autoDoc_tags (b : SBook) (o : Style.Origin) : DocTags Unblocked (autoDoc b o) := by
  refine ⟨by decide +kernel, ?_⟩
  rw [docsTags_append, docsTags_append]
  exact ⟨⟨pagesDocs_tags b, stylesDocs_tags b o _⟩, formatsDocs_tags b o _⟩

end Verif.Whole
