import Verif.Style.Examples

/-!
# Each style is written once, in the place given by its use (C51)
-/

set_option autoImplicit false

namespace Verif.Style

open Xml Xml.Spec Codec Book Refs.Spec

namespace Spec

/-- An element of a document: the elements around it, from the inside, its name and its attributes. -/
abbrev Placed := List Str × Str × List (Str × Str)

/-- All elements of a document. -/
def placed : List Str → List Event → List Placed
  | _, [] => []
  | st, .start n as :: es => (st, n, as) :: placed (n :: st) es
  | st, .empty n as :: es => (st, n, as) :: placed st es
  | st, .end _ :: es => placed st.tail es
  | st, .text _ :: es => placed st es
  | st, .ref _ :: es => placed st es

/-- The places of the elements of a file with a property. -/
def placesOf (p : Str → List (Str × Str) → Bool) (file : Str) : List (List Str) :=
  match tokenize file with
  | none => []
  | some ts => ((placed [] (events ts)).filter fun x => p x.2.1 x.2.2).map (·.1)

/-- The value of an attribute. -/
def valueOf (n : Str) (as : List (Str × Str)) : Option Str := (as.lookup n).bind unescape

/-- A style with a family and a name. -/
def isStyle (k : Kind) (n : Str) (tag : Str) (as : List (Str × Str)) : Bool :=
  tag == "style:style".toList && valueOf "style:family".toList as == some (family k)
    && valueOf "style:name".toList as == some n

/-- A default style of a family. -/
def isDefault (k : Kind) (tag : Str) (as : List (Str × Str)) : Bool :=
  tag == "style:default-style".toList && valueOf "style:family".toList as == some (family k)

/-- A value format with a name. -/
def isFormat (k : Kind) (n : Str) (tag : Str) (as : List (Str × Str)) : Bool :=
  tag == formatTag k && valueOf "style:name".toList as == some n

/-- A page layout with a name. -/
def isPage (n : Str) (tag : Str) (as : List (Str × Str)) : Bool :=
  tag == "style:page-layout".toList && valueOf "style:name".toList as == some n

/-- The place of a style, by its use. -/
def placeFor (root : Str) (u : Use) : List Str :=
  [if u = .automatic then "office:automatic-styles".toList else "office:styles".toList, root]

end Spec

open Spec

/-! ## Elements of documents -/

mutual
def docPlaced (st : List Str) : Doc → List Placed
  | .elem _ n as kids => (st, n, rawAttrs as) :: docsPlaced (n :: st) kids
  | .leaf _ n as _ _ => [(st, n, rawAttrs as)]
  | .short _ n _ => [(st, n, [])]
  | .void _ n as _ _ => [(st, n, rawAttrs as)]
def docsPlaced (st : List Str) : List Doc → List Placed
  | [] => []
  | d :: ds => docPlaced st d ++ docsPlaced st ds
end

theorem placed_text (es rest : List Event) (h : ∀ e ∈ es, isTextEv e = true) (st : List Str) :
    placed st (es ++ rest) = placed st rest := by
  induction es with
  | nil => rfl
  | cons e es ih =>
    have ih := ih fun e he => h e (List.mem_cons_of_mem _ he)
    have he := h e List.mem_cons_self
    cases e with
    | text _ => rw [List.cons_append, placed, ih]
    | ref _ => rw [List.cons_append, placed, ih]
    | start _ _ => cases he
    | empty _ _ => cases he
    | «end» _ => cases he

theorem placed_nl (lb : Bool) (rest : List Event) (st : List Str) : placed st (nlEv lb ++ rest) = placed st rest := by
  cases lb <;> rfl

mutual
theorem placed_doc (lb : Bool) : ∀ (d : Doc) (st : List Str) (rest : List Event),
    placed st (docEv lb d ++ rest) = docPlaced st d ++ placed st rest
  | .elem i n as kids, st, rest => by
    rw [docEv, docPlaced, List.cons_append, placed, List.append_assoc, placed_docs lb kids, List.cons_append, placed,
      List.tail_cons, placed_nl, List.cons_append]
  | .leaf i n as e s, st, rest => by
    rw [docEv, docPlaced, List.cons_append, placed, List.append_assoc, placed_text _ _ (textEv_text e s), List.cons_append,
      placed, List.tail_cons, placed_nl]; rfl
  | .short e n s, st, rest => by
    rw [docEv, docPlaced, List.cons_append, placed, List.append_assoc, placed_text _ _ (textEv_text e s), List.cons_append,
      placed, List.tail_cons, placed_nl]; rfl
  | .void i n as t ne, st, rest => by
    rw [docEv, docPlaced, List.cons_append, placed, placed_nl]; rfl
theorem placed_docs (lb : Bool) : ∀ (ds : List Doc) (st : List Str) (rest : List Event),
    placed st (docsEv lb ds ++ rest) = docsPlaced st ds ++ placed st rest
  | [], st, rest => rfl
  | d :: ds, st, rest => by
    rw [docsEv, docsPlaced, List.append_assoc, placed_doc lb d, placed_docs lb ds, List.append_assoc]
end

/-- The places of elements with a property in documents. -/
def hits (p : Str → List (Str × Str) → Bool) (st : List Str) (ds : List Doc) : List (List Str) :=
  ((docsPlaced st ds).filter fun x => p x.2.1 x.2.2).map (·.1)

section Hits

variable (p : Str → List (Str × Str) → Bool) (st : List Str)

theorem docsPlaced_append (a b : List Doc) : docsPlaced st (a ++ b) = docsPlaced st a ++ docsPlaced st b := by
  induction a with
  | nil => rfl
  | cons d a ih => rw [List.cons_append, docsPlaced, docsPlaced, ih, List.append_assoc]

theorem hits_nil : hits p st [] = [] := rfl

theorem hits_append (a b : List Doc) : hits p st (a ++ b) = hits p st a ++ hits p st b := by
  unfold hits; rw [docsPlaced_append, List.filter_append, List.map_append]

theorem hits_cons (d : Doc) (ds : List Doc) : hits p st (d :: ds) = hits p st [d] ++ hits p st ds :=
  hits_append p st [d] ds

theorem hits_map {α : Type} (l : List α) (f : α → Doc) : hits p st (l.map f) = l.flatMap fun a => hits p st [f a] := by
  induction l with
  | nil => rfl
  | cons a l ih => rw [List.map_cons, hits_cons, ih, List.flatMap_cons]

theorem hits_flatMap {α : Type} (l : List α) (f : α → List Doc) :
    hits p st (l.flatMap f) = l.flatMap fun a => hits p st (f a) := by
  induction l with
  | nil => rfl
  | cons a l ih => rw [List.flatMap_cons, hits_append, ih, List.flatMap_cons]

theorem hits_elem (i : Bool) (n : Str) (as : List (Bool × Str × Str)) (ds : List Doc) :
    hits p st [.elem i n as ds] = (if p n (rawAttrs as) then [st] else []) ++ hits p (n :: st) ds := by
  unfold hits
  rw [docsPlaced, docsPlaced, List.append_nil, docPlaced, List.filter_cons]
  simp only
  split <;> simp

theorem hits_void (i : Bool) (n : Str) (as : List (Bool × Str × Str)) (t : Option Bool) (ne : Bool) :
    hits p st [.void i n as t ne] = if p n (rawAttrs as) then [st] else [] := by
  unfold hits
  rw [docsPlaced, docsPlaced, List.append_nil, docPlaced, List.filter_cons]
  simp only
  split <;> simp

theorem hits_leaf (i : Bool) (n : Str) (as : List (Bool × Str × Str)) (e : Bool) (s : Str) :
    hits p st [.leaf i n as e s] = if p n (rawAttrs as) then [st] else [] := by
  unfold hits
  rw [docsPlaced, docsPlaced, List.append_nil, docPlaced, List.filter_cons]
  simp only
  split <;> simp

/-- The property holds only for elements with tags that are no tags of properties. -/
def NotIn (tags : List Str) : Prop := ∀ n ∈ tags, ∀ as, p n as = false

variable {p}

theorem hits_tag (n : Str) (as : List (Bool × Str × Str)) (h : ∀ as, p n as = false) : hits p st [tagDoc n as] = [] := by
  unfold tagDoc; rw [hits_void, h]; rfl

theorem hits_props (n : Str) (mm : Attrs) (h : ∀ as, p n as = false) : hits p st (propsDoc n mm) = [] := by
  unfold propsDoc
  split
  · rfl
  · exact hits_tag st n _ h

/-- Tags within styles. -/
def innerTags : List Str := [tTableProps, tRowProps, tColProps, tCellProps, tParaProps, tTextProps, tRubyProps, tGraphicProps,
  tMap, tTabStops, tTabStop, tEmbedded, tPageProps, tHeaderStyle, tFooterStyle, tHFProps]

theorem hits_all {α : Type} (l : List α) (f : α → Doc) (h : ∀ a ∈ l, hits p st [f a] = []) : hits p st (l.map f) = [] := by
  rw [hits_map]
  exact List.flatMap_eq_nil_iff.2 h

theorem hits_kids (hp : NotIn p innerTags) (k : Kind) (b : Body) : hits p st (kidDocs k b) = [] := by
  have ht : ∀ n ∈ innerTags, ∀ mm, hits p st (propsDoc n mm) = [] := fun n hn mm => hits_props st n mm (hp n hn)
  have hmaps : hits p st (mapsDoc b.maps) = [] := by
    unfold mapsDoc
    cases b.maps with
    | none => rfl
    | some l => exact hits_all st _ _ fun sm _ => hits_tag st _ _ (hp tMap (by simp [innerTags]))
  have hpara : hits p st (paraDoc b) = [] := by
    unfold paraDoc
    split
    · rfl
    · cases b.tabs with
      | none => exact hits_tag st _ _ (hp tParaProps (by simp [innerTags]))
      | some ts =>
        simp only
        rw [hits_elem, hits_elem, hp tParaProps (by simp [innerTags]), hp tTabStops (by simp [innerTags])]
        simp only [Bool.false_eq_true, if_false, List.nil_append]
        exact hits_all _ _ _ fun t _ => hits_tag _ _ _ (hp tTabStop (by simp [innerTags]))
  cases k with
  | table => exact ht _ (by simp [innerTags]) _
  | row => exact ht _ (by simp [innerTags]) _
  | col => exact ht _ (by simp [innerTags]) _
  | text => exact ht _ (by simp [innerTags]) _
  | ruby => exact ht _ (by simp [innerTags]) _
  | paragraph => simp only [kidDocs, hits_append, hpara, ht tTextProps (by simp [innerTags]), List.append_nil]
  | graphic =>
    simp only [kidDocs, hits_append, ht tGraphicProps (by simp [innerTags]), ht tParaProps (by simp [innerTags]),
      ht tTextProps (by simp [innerTags]), List.append_nil]
  | cell =>
    simp only [kidDocs, hits_append, hmaps, ht tCellProps (by simp [innerTags]), ht tParaProps (by simp [innerTags]),
      ht tTextProps (by simp [innerTags]), List.append_nil]
  | _ => rfl

theorem hits_style (hp : NotIn p innerTags) (k : Kind) (s : Style Body) : hits p st [styleDoc k s] =
    if p (styleTag s.body.use) (rawAttrs (styleAtts k s)) then [st] else [] := by
  unfold styleDoc
  split
  · rw [hits_void]
  · rw [hits_elem, hits_kids _ hp, List.append_nil]

theorem hits_part (hp : NotIn p innerTags) (ht : ∀ t, ∀ as, p (partTag t) as = false) (q : Part) :
    hits p st [partDoc q] = [] := by
  obtain ⟨t, a, pos, c⟩ := q
  have txt : ∀ t', hits p st [match shown c with
      | none => .void true (partTag t') (escA a) none true
      | some s => .leaf true (partTag t') (escA a) true s] = [] := by
    intro t'
    cases shown c with
    | none => simp only; rw [hits_void, ht]; rfl
    | some s => simp only; rw [hits_leaf, ht]; rfl
  have he := hp tEmbedded (by simp [innerTags])
  cases t with
  | text => exact txt .text
  | currencySymbol => exact txt .currencySymbol
  | fillCharacter => exact txt .fillCharacter
  | number =>
    cases pos with
    | none => exact hits_tag st _ _ (ht .number)
    | some z =>
      simp only [partDoc]
      rw [hits_elem, ht]
      cases c with
      | none => exact hits_tag _ _ _ he
      | some s => simp only; rw [hits_leaf, he]; rfl
  | _ => exact hits_tag st _ _ (ht _)

theorem hits_format (hp : NotIn p innerTags) (ht : ∀ t, ∀ as, p (partTag t) as = false) (k : Kind) (s : Style Format) :
    hits p st [formatDoc k s] = if p (formatTag k) (rawAttrs (formatAtts s)) then [st] else [] := by
  unfold formatDoc formatKids
  rw [hits_elem, hits_append, hits_append, hits_props _ _ _ (hp tTextProps (by simp [innerTags])),
    hits_all _ _ _ fun q _ => hits_part _ hp ht q]
  have : hits p (formatTag k :: st) (valueMapsDoc s.body.maps) = [] := by
    unfold valueMapsDoc
    cases s.body.maps with
    | none => rfl
    | some l => exact hits_all _ _ _ fun sm _ => hits_tag _ _ _ (hp tMap (by simp [innerTags]))
  rw [this]
  simp

theorem hits_page (hp : NotIn p innerTags) (s : Style Page) :
    hits p st [pageDoc s] = if p tPage (rawAttrs (pageAtts s)) then [st] else [] := by
  unfold pageDoc
  rw [hits_elem, hits_append, hits_props _ _ _ (hp tPageProps (by simp [innerTags])), hits_cons, hits_elem, hits_elem,
    hits_tag _ _ _ (hp tHFProps (by simp [innerTags])), hits_tag _ _ _ (hp tHFProps (by simp [innerTags])),
    hp tHeaderStyle (by simp [innerTags]), hp tFooterStyle (by simp [innerTags])]
  simp

theorem hits_fonts (h1 : ∀ as, p tFonts as = false) (h2 : ∀ as, p tFont as = false) (b : SBook) (o : Origin) :
    hits p st [fontsDoc b o] = [] := by
  unfold fontsDoc
  split
  · rw [hits_void, h1]; rfl
  · rw [hits_elem, h1, hits_all _ _ _ fun f _ => by unfold fontDoc; exact hits_tag _ _ _ h2]; rfl

end Hits

/-! ## Files -/

theorem placesOf_doc (p : Str → List (Str × Str) → Bool) (lb : Bool) (root : Str) (as : List (Bool × Str × Str))
    (ds : List Doc) (hok : DocOk (.elem false root as ds)) (hr : p root (rawAttrs as) = false) :
    placesOf p (output lb (.dtd "UTF-8".toList :: docCalls (.elem false root as ds))) = hits p [root] ds := by
  obtain ⟨ts, h1, h2⟩ := read_document lb "UTF-8".toList (by decide) false root as ds hok
  unfold placesOf
  rw [h1]
  simp only
  rw [h2, placed]
  have := placed_doc lb (.elem false root as ds) [] []
  rw [List.append_nil] at this
  rw [this]
  show (List.filter _ (docPlaced [] _ ++ [])).map _ = _
  rw [List.append_nil]
  have h3 := hits_elem p [] false root as ds
  rw [hr] at h3
  unfold hits at h3
  rw [docsPlaced, docsPlaced, List.append_nil] at h3
  exact h3

/-! ## Sections -/

/-- The property holds only for elements with one tag. -/
def OnlyTag (p : Str → List (Str × Str) → Bool) (t : Str) : Prop := ∀ n as, n ≠ t → p n as = false

theorem only_notIn {p : Str → List (Str × Str) → Bool} {t : Str} (h : OnlyTag p t) (ts : List Str) (ht : t ∉ ts) : NotIn p ts :=
  fun n hn as => h n as fun e => ht (e ▸ hn)

theorem style_only (k : Kind) (n : Str) : OnlyTag (isStyle k n) tStyle := by
  intro t as h
  have : (t == tStyle) = false := beq_eq_false_iff_ne.2 h
  unfold isStyle
  rw [show "style:style".toList = tStyle from rfl, this]; rfl

theorem default_only (k : Kind) : OnlyTag (isDefault k) tDefault := by
  intro t as h
  have : (t == tDefault) = false := beq_eq_false_iff_ne.2 h
  unfold isDefault
  rw [show "style:default-style".toList = tDefault from rfl, this]; rfl

theorem format_only (k : Kind) (n : Str) : OnlyTag (isFormat k n) (formatTag k) := by
  intro t as h
  have : (t == formatTag k) = false := beq_eq_false_iff_ne.2 h
  unfold isFormat
  rw [this]; rfl

theorem page_only (n : Str) : OnlyTag (isPage n) tPage := by
  intro t as h
  have : (t == tPage) = false := beq_eq_false_iff_ne.2 h
  unfold isPage
  rw [show "style:page-layout".toList = tPage from rfl, this]; rfl

section Tags

variable {p : Str → List (Str × Str) → Bool} {t : Str} (hp : OnlyTag p t) (st : List Str) (b : SBook)

include hp

theorem no_styles (h1 : t ∉ innerTags) (h2 : t ≠ tStyle) (h3 : t ≠ tDefault) (o : Origin) (u : Use) :
    hits p st (stylesDocs b o u) = [] := by
  unfold stylesDocs
  rw [hits_flatMap]
  refine List.flatMap_eq_nil_iff.2 fun k _ => hits_all st _ _ fun s _ => ?_
  rw [hits_style st (only_notIn hp _ h1), hp _ _ ?_]
  · rfl
  · rcases styleTag_cases s.body.use with h | h <;> rw [h]
    · exact fun e => h2 e.symm
    · exact fun e => h3 e.symm

theorem no_formats (h1 : t ∉ innerTags) (h2 : ∀ q, partTag q ≠ t) (h3 : ∀ k ∈ formatKinds, formatTag k ≠ t)
    (o : Origin) (u : Use) : hits p st (formatsDocs b o u) = [] := by
  unfold formatsDocs
  rw [hits_flatMap]
  refine List.flatMap_eq_nil_iff.2 fun k hk => hits_all st _ _ fun s _ => ?_
  rw [hits_format st (only_notIn hp _ h1) (fun q as => hp _ _ (h2 q)), hp _ _ (h3 k hk)]
  rfl

theorem no_pages (h1 : t ∉ innerTags) (h2 : t ≠ tPage) : hits p st (pagesDocs b) = [] := by
  refine hits_all st _ _ fun s _ => ?_
  rw [hits_page st (only_notIn hp _ h1), hp _ _ fun e => h2 e.symm]
  rfl

end Tags

theorem inner_style : tStyle ∉ innerTags := by decide +kernel
theorem inner_default : tDefault ∉ innerTags := by decide +kernel
theorem inner_page : tPage ∉ innerTags := by decide +kernel
theorem inner_format (k : Kind) (h : k ∈ formatKinds) : formatTag k ∉ innerTags := by
  have : ∀ k ∈ formatKinds, formatTag k ∉ innerTags := by decide +kernel
  exact this k h
theorem part_ne (t : Str) (h : t ∈ [tStyle, tDefault, tPage] ++ formatKinds.map formatTag) (q : PartType) : partTag q ≠ t := by
  have : ∀ t ∈ [tStyle, tDefault, tPage] ++ formatKinds.map formatTag, partTag q ≠ t := by
    cases q <;> decide +kernel
  exact this t h
theorem format_ne (t : Str) (h : t ∈ [tStyle, tDefault, tPage]) : ∀ k ∈ formatKinds, formatTag k ≠ t := by
  have : ∀ t ∈ [tStyle, tDefault, tPage], ∀ k ∈ formatKinds, formatTag k ≠ t := by decide +kernel
  exact this t h
theorem formatTag_inj (k k' : Kind) (h : k ∈ formatKinds) (h' : k' ∈ formatKinds) : formatTag k = formatTag k' → k = k' := by
  have : ∀ k ∈ formatKinds, ∀ k' ∈ formatKinds, formatTag k = formatTag k' → k = k' := by decide +kernel
  exact this k h k' h'
theorem family_inj (k k' : Kind) (h : k ∈ styleKinds) (h' : k' ∈ styleKinds) (e : family k = family k') : k = k' := by
  have h1 := family_read k h
  rw [e, family_read k' h'] at h1
  exact (Option.some.inj h1).symm

theorem default_ne_style : tDefault ≠ tStyle := by decide +kernel

theorem valueOf_hit (n v : Str) (as : List (Str × Str)) : valueOf n ((n, escape v) :: as) = some v := by
  unfold valueOf
  rw [List.lookup_cons, beq_self_eq_true]
  exact unescape_escape v

theorem valueOf_skip (n n' v : Str) (as : List (Str × Str)) (h : n' ≠ n) : valueOf n ((n', v) :: as) = valueOf n as := by
  unfold valueOf
  rw [List.lookup_cons, beq_eq_false_iff_ne.2 (Ne.symm h)]

theorem raw_cons (e : Bool) (n v : Str) (as : List (Bool × Str × Str)) :
    rawAttrs ((e, n, v) :: as) = (n, rawVal (e, n, v)) :: rawAttrs as := rfl

theorem raw_family (k : Kind) : rawVal (false, aFamily, family k) = escape (family k) :=
  (escape_plain _ (family_plain k)).symm

/-- What the elements of styles say. -/
theorem style_element (k k' : Kind) (hk : k ∈ styleKinds) (hk' : k' ∈ styleKinds) (n : Str) (s : Style Body) :
    isStyle k n (styleTag s.body.use) (rawAttrs (styleAtts k' s))
      = decide (s.body.use ≠ .default ∧ k' = k ∧ s.name = n) := by
  by_cases hu : s.body.use = .default
  · rw [style_only k n _ _ (by rw [hu]; exact default_ne_style)]
    simp [hu]
  · have ht : styleTag s.body.use = tStyle := by
      cases h : s.body.use with
      | default => exact absurd h hu
      | named => rfl
      | automatic => rfl
    unfold styleAtts isStyle
    rw [if_neg hu, ht, List.cons_append, List.nil_append, raw_cons, raw_cons, raw_family,
      show "style:family".toList = aFamily from rfl, show "style:name".toList = aName from rfl,
      valueOf_skip _ _ _ _ (Ne.symm family_ne_name), valueOf_hit, show rawVal (true, aName, s.name) = escape s.name from rfl,
      valueOf_hit, show "style:style".toList = tStyle from rfl, beq_self_eq_true, Bool.true_and]
    by_cases h1 : k' = k
    · subst h1
      by_cases h2 : s.name = n <;> simp [h2, hu]
    · have : family k' ≠ family k := fun e => h1 (family_inj k' k hk' hk e)
      simp [h1, this]

theorem default_element (k k' : Kind) (hk : k ∈ styleKinds) (hk' : k' ∈ styleKinds) (s : Style Body) :
    isDefault k (styleTag s.body.use) (rawAttrs (styleAtts k' s)) = decide (s.body.use = .default ∧ k' = k) := by
  by_cases hu : s.body.use = .default
  · unfold styleAtts isDefault
    rw [if_pos hu, hu, List.nil_append, raw_cons, raw_family, show "style:family".toList = aFamily from rfl, valueOf_hit,
      show "style:default-style".toList = tDefault from rfl, show styleTag .default = tDefault from rfl, beq_self_eq_true,
      Bool.true_and]
    by_cases h1 : k' = k
    · simp [h1]
    · have : family k' ≠ family k := fun e => h1 (family_inj k' k hk' hk e)
      simp [h1, this]
  · have ht : styleTag s.body.use = tStyle := by
      cases h : s.body.use with
      | default => exact absurd h hu
      | named => rfl
      | automatic => rfl
    rw [default_only k _ _ (by rw [ht]; exact Ne.symm default_ne_style)]
    simp [hu]

theorem format_element (k k' : Kind) (hk : k ∈ formatKinds) (hk' : k' ∈ formatKinds) (n : Str) (s : Style Format) :
    isFormat k n (formatTag k') (rawAttrs (formatAtts s)) = decide (k' = k ∧ s.name = n) := by
  unfold isFormat formatAtts
  rw [raw_cons, show "style:name".toList = aName from rfl, show rawVal (true, aName, s.name) = escape s.name from rfl,
    valueOf_hit]
  by_cases h1 : k' = k
  · subst h1
    by_cases h2 : s.name = n <;> simp [h2]
  · have : formatTag k' ≠ formatTag k := fun e => h1 (formatTag_inj k' k hk' hk e)
    simp [h1, this]

theorem page_element (n : Str) (s : Style Page) : isPage n tPage (rawAttrs (pageAtts s)) = decide (s.name = n) := by
  unfold isPage pageAtts
  rw [raw_cons, show "style:name".toList = aName from rfl,
    show rawVal (true, aName, s.name) = escape s.name from rfl, valueOf_hit, show "style:page-layout".toList = tPage from rfl,
    beq_self_eq_true, Bool.true_and]
  by_cases h2 : s.name = n <;> simp [h2]

/-! ## Stores -/

/-- A place, if something is stored and fits. -/
def pick {α : Type} (s : Option α) (q : α → Bool) (x : List Str) : List (List Str) :=
  match s with
  | none => []
  | some s => if q s then [x] else []

/-- Entries under their own names: the entries with a name are the one found under it. -/
theorem entry_once {β : Type} (l : HMap Str (Style β)) (hd : HMap.Distinct l) (hk : ∀ e ∈ l, e.1 = e.2.name)
    (q : Style β → Bool) (n : Str) (x : List Str) :
    ((l.map Prod.snd).filter q).flatMap (fun s => if s.name = n then [x] else [])
      = pick (HMap.get? l n) q x := by
  induction l with
  | nil => rfl
  | cons e l ih =>
    obtain ⟨k, s⟩ := e
    have hd2 : k ∉ HMap.keys l ∧ (HMap.keys l).Nodup := List.nodup_cons.1 hd
    have ih := ih hd2.2 fun e he => hk e (List.mem_cons_of_mem _ he)
    have hs : k = s.name := hk (k, s) List.mem_cons_self
    rw [List.map_cons, HMap.get?]
    by_cases hn : k = n
    · subst hn
      rw [if_pos rfl]
      have hg : HMap.get? l k = none := by
        cases hg : HMap.get? l k with
        | none => rfl
        | some v => exact absurd (List.mem_map.2 ⟨_, HMap.get?_mem l k v hg, rfl⟩) hd2.1
      rw [hg] at ih
      simp only [pick] at ih ⊢
      cases hq : q s with
      | false => rw [List.filter_cons_of_neg (by simp [hq]), ih]; rfl
      | true =>
        rw [List.filter_cons_of_pos hq, List.flatMap_cons, ih, if_pos hs.symm]
        rfl
    · rw [if_neg hn, ← ih]
      cases hq : q s with
      | false => rw [List.filter_cons_of_neg (by simp [hq])]
      | true => rw [List.filter_cons_of_pos hq, List.flatMap_cons, if_neg (by rw [← hs]; exact hn), List.nil_append]

theorem one_kind {α : Type} (l : List Kind) (hl : l.Nodup) (k : Kind) (hk : k ∈ l) (f : Kind → List α)
    (h : ∀ k' ∈ l, k' ≠ k → f k' = []) : l.flatMap f = f k := by
  induction l with
  | nil => cases hk
  | cons a l ih =>
    have hn := List.nodup_cons.1 hl
    rw [List.flatMap_cons]
    by_cases ha : a = k
    · subst ha
      rw [List.flatMap_eq_nil_iff.2 fun k' hk' => h k' (List.mem_cons_of_mem _ hk') fun e => hn.1 (e ▸ hk'), List.append_nil]
    · rw [h a List.mem_cons_self ha, List.nil_append]
      refine ih hn.2 ?_ fun k' hk' => h k' (List.mem_cons_of_mem _ hk')
      cases hk with
      | head => exact absurd rfl ha
      | tail _ hk => exact hk

theorem styleKinds_nodup : styleKinds.Nodup := by decide
theorem formatKinds_nodup : formatKinds.Nodup := by decide

section Book

variable (b : SBook) (hb : BookOk b) (st : List Str)

theorem flatMap_congr' {α β : Type} (l : List α) (f g : α → List β) (h : ∀ a ∈ l, f a = g a) : l.flatMap f = l.flatMap g := by
  induction l with
  | nil => rfl
  | cons a l ih =>
    rw [List.flatMap_cons, List.flatMap_cons, h a List.mem_cons_self, ih fun a ha => h a (List.mem_cons_of_mem _ ha)]

include hb

theorem hits_styles (k : Kind) (hk : k ∈ styleKinds) (n : Str) (o : Origin) (u : Use) (hu : u ≠ .default) :
    hits (isStyle k n) st (stylesDocs b o u)
      = pick (b.styles.get? k n) (fun s => decide (s.body.origin = o ∧ s.body.use = u)) st := by
  have hin := only_notIn (style_only k n) _ inner_style
  unfold stylesDocs
  rw [hits_flatMap, one_kind styleKinds styleKinds_nodup k hk]
  · rw [hits_map]
    have := entry_once (b.styles.store k) (hb.stylesMap k) (fun e he => (hb.styleKey k e he).1)
      (fun s => decide (s.body.origin = o ∧ s.body.use = u)) n st
    refine Eq.trans ?_ this
    refine flatMap_congr' _ _ _ fun s hs => ?_
    have hus : s.body.use = u := ((mem_chosen _ _ _ _).1 hs).2.2
    rw [hits_style st hin, style_element k k hk hk, hus]
    simp [hu]
  · intro k' hk' hne
    refine hits_all st _ _ fun s _ => ?_
    rw [hits_style st hin, style_element k k' hk hk']
    simp [hne]

theorem no_default_styles (k : Kind) (hk : k ∈ styleKinds) (n : Str) (o : Origin) :
    hits (isStyle k n) st (stylesDocs b o .default) = [] := by
  have hin := only_notIn (style_only k n) _ inner_style
  unfold stylesDocs
  rw [hits_flatMap]
  refine List.flatMap_eq_nil_iff.2 fun k' hk' => hits_all st _ _ fun s hs => ?_
  have hus : s.body.use = .default := ((mem_chosen _ _ _ _).1 hs).2.2
  rw [hits_style st hin, style_element k k' hk hk', hus]
  simp

theorem hits_defaults (k : Kind) (hk : k ∈ styleKinds) (o : Origin) (u : Use) :
    hits (isDefault k) st (stylesDocs b o u)
      = if u = .default then (chosen (b.styles.store k) o .default).map fun _ => st else [] := by
  have hin := only_notIn (default_only k) _ inner_default
  unfold stylesDocs
  rw [hits_flatMap, one_kind styleKinds styleKinds_nodup k hk]
  · rw [hits_map]
    have : ∀ s ∈ chosen (b.styles.store k) o u, hits (isDefault k) st [styleDoc k s] = if u = .default then [st] else [] := by
      intro s hs
      have hus : s.body.use = u := ((mem_chosen _ _ _ _).1 hs).2.2
      rw [hits_style st hin, default_element k k hk hk, hus]
      simp
    rw [flatMap_congr' _ _ _ this]
    by_cases hu : u = .default
    · subst hu
      simp only [if_true]
      generalize chosen (b.styles.store k) o .default = l
      induction l with
      | nil => rfl
      | cons a l ih => rw [List.flatMap_cons, ih]; rfl
    · simp [hu]
  · intro k' hk' hne
    refine hits_all st _ _ fun s _ => ?_
    rw [hits_style st hin, default_element k k' hk hk']
    simp [hne]

theorem hits_formats (k : Kind) (hk : k ∈ formatKinds) (n : Str) (o : Origin) (u : Use) :
    hits (isFormat k n) st (formatsDocs b o u)
      = pick (b.formats.get? k n) (fun s => decide (s.body.origin = o ∧ s.body.use = u)) st := by
  have hin := only_notIn (format_only k n) _ (inner_format k hk)
  have hpt : ∀ q, ∀ as, isFormat k n (partTag q) as = false := fun q as =>
    format_only k n _ _ (part_ne _ (List.mem_append_right _ (List.mem_map.2 ⟨k, hk, rfl⟩)) q)
  unfold formatsDocs
  rw [hits_flatMap, one_kind formatKinds formatKinds_nodup k hk]
  · rw [hits_map]
    have := entry_once (b.formats.store k) (hb.formatsMap k) (fun e he => (hb.formatKey k e he).1)
      (fun s => decide (s.body.origin = o ∧ s.body.use = u)) n st
    refine Eq.trans ?_ this
    refine flatMap_congr' _ _ _ fun s hs => ?_
    rw [hits_format st hin hpt, format_element k k hk hk]
    simp
  · intro k' hk' hne
    refine hits_all st _ _ fun s _ => ?_
    rw [hits_format st hin hpt, format_element k k' hk hk']
    simp [hne]

theorem hits_pages (n : Str) : hits (isPage n) st (pagesDocs b)
    = pick (b.pages.get? .page n) (fun _ => true) st := by
  have hin := only_notIn (page_only n) _ inner_page
  unfold pagesDocs
  rw [hits_map]
  have := entry_once (b.pages.store .page) hb.pagesMap (fun e he => (hb.pageKey e he).1) (fun _ => true) n st
  rw [List.filter_eq_self.2 fun _ _ => rfl] at this
  refine Eq.trans ?_ this
  refine flatMap_congr' _ _ _ fun s hs => ?_
  rw [hits_page st hin, page_element]
  simp

end Book

/-! ## The theorems -/

section Theorems

variable (b : SBook) (hb : BookOk b)

theorem fonts_none {p : Str → List (Str × Str) → Bool} {t : Str} (hp : OnlyTag p t)
    (ht : t ∈ [tStyle, tDefault, tPage] ++ formatKinds.map formatTag) (st : List Str) (o : Origin) :
    hits p st [fontsDoc b o] = [] := by
  have : ∀ t ∈ [tStyle, tDefault, tPage] ++ formatKinds.map formatTag, tFonts ≠ t ∧ tFont ≠ t := by decide +kernel
  exact hits_fonts st (fun as => hp _ as (this t ht).1) (fun as => hp _ as (this t ht).2) b o

theorem root_none {p : Str → List (Str × Str) → Bool} {t : Str} (hp : OnlyTag p t)
    (ht : t ∈ [tStyle, tDefault, tPage] ++ formatKinds.map formatTag) (r : Str)
    (hr : r ∈ [tDocStyles, tDocContent, tDocFlat, tOffice, tAuto]) (as : List (Str × Str)) : p r as = false := by
  have : ∀ t ∈ [tStyle, tDefault, tPage] ++ formatKinds.map formatTag,
    ∀ r ∈ [tDocStyles, tDocContent, tDocFlat, tOffice, tAuto], r ≠ t := by decide +kernel
  exact hp _ as (this t ht r hr)

theorem file_places {p : Str → List (Str × Str) → Bool} {t : Str} (hp : OnlyTag p t)
    (ht : t ∈ [tStyle, tDefault, tPage] ++ formatKinds.map formatTag) (lb : Bool) (root : Str)
    (hr : root ∈ [tDocStyles, tDocContent, tDocFlat, tOffice, tAuto]) (as : List (Bool × Str × Str)) (ds : List Doc)
    (hok : DocOk (.elem false root as ds)) :
    placesOf p (output lb (.dtd "UTF-8".toList :: docCalls (.elem false root as ds))) = hits p [root] ds :=
  placesOf_doc p lb root as ds hok (root_none hp ht root hr _)

include hb

theorem office_places (k : Kind) (hk : k ∈ styleKinds) (n : Str) (root : Str) (o : Origin) :
    hits (isStyle k n) [root] [officeDoc b o]
      = pick (b.styles.get? k n) (fun s => decide (s.body.origin = o ∧ s.body.use = .named)) [tOffice, root] := by
  have hp := style_only k n
  have ht : tStyle ∈ [tStyle, tDefault, tPage] ++ formatKinds.map formatTag := by simp
  have hf := no_formats hp [tOffice, root] b inner_style (part_ne _ ht) (format_ne _ (by simp)) o
  unfold officeDoc
  rw [hits_elem, root_none hp ht _ (by simp), hits_append, hits_append, hits_append, hf, hf,
    no_default_styles b hb _ k hk, hits_styles b hb _ k hk n o .named (by decide)]
  simp

theorem auto_places (k : Kind) (hk : k ∈ styleKinds) (n : Str) (root : Str) (o : Origin) :
    hits (isStyle k n) [root] [autoDoc b o]
      = pick (b.styles.get? k n) (fun s => decide (s.body.origin = o ∧ s.body.use = .automatic)) [tAuto, root] := by
  have hp := style_only k n
  have ht : tStyle ∈ [tStyle, tDefault, tPage] ++ formatKinds.map formatTag := by simp
  have hf := no_formats hp [tAuto, root] b inner_style (part_ne _ ht) (format_ne _ (by simp)) o
  unfold autoDoc
  rw [hits_elem, root_none hp ht _ (by simp), hits_append, hits_append, hf,
    no_pages hp _ b inner_style (by decide +kernel), hits_styles b hb _ k hk n o .automatic (by decide)]
  simp

theorem office_formats (k : Kind) (hk : k ∈ formatKinds) (n : Str) (root : Str) (o : Origin) :
    hits (isFormat k n) [root] [officeDoc b o]
      = pick (b.formats.get? k n) (fun s => decide (s.body.origin = o ∧ s.body.use ≠ .automatic)) [tOffice, root] := by
  have hp := format_only k n
  have ht : formatTag k ∈ [tStyle, tDefault, tPage] ++ formatKinds.map formatTag :=
    List.mem_append_right _ (List.mem_map.2 ⟨k, hk, rfl⟩)
  have hn := fun t ht => format_ne t ht k hk
  have hs := no_styles hp [tOffice, root] b (inner_format k hk) (hn _ (by simp)) (hn _ (by simp)) o
  unfold officeDoc
  rw [hits_elem, root_none hp ht _ (by simp), hits_append, hits_append, hits_append, hs, hs,
    hits_formats b hb _ k hk, hits_formats b hb _ k hk]
  cases b.formats.get? k n with
  | none => rfl
  | some s =>
    simp only [pick]
    have : s.body.use = .default ∨ s.body.use = .named ∨ s.body.use = .automatic := by
      cases s.body.use <;> simp
    rcases this with h | h | h <;> simp [h]

theorem auto_formats (k : Kind) (hk : k ∈ formatKinds) (n : Str) (root : Str) (o : Origin) :
    hits (isFormat k n) [root] [autoDoc b o]
      = pick (b.formats.get? k n) (fun s => decide (s.body.origin = o ∧ s.body.use = .automatic)) [tAuto, root] := by
  have hp := format_only k n
  have ht : formatTag k ∈ [tStyle, tDefault, tPage] ++ formatKinds.map formatTag :=
    List.mem_append_right _ (List.mem_map.2 ⟨k, hk, rfl⟩)
  have hn := fun t ht => format_ne t ht k hk
  have hs := no_styles hp [tAuto, root] b (inner_format k hk) (hn _ (by simp)) (hn _ (by simp)) o
  unfold autoDoc
  rw [hits_elem, root_none hp ht _ (by simp), hits_append, hits_append, hs,
    no_pages hp _ b (inner_format k hk) (hn _ (by simp)), hits_formats b hb _ k hk]
  simp

theorem office_defaults (k : Kind) (hk : k ∈ styleKinds) (root : Str) (o : Origin) :
    hits (isDefault k) [root] [officeDoc b o] = (chosen (b.styles.store k) o .default).map fun _ => [tOffice, root] := by
  have hp := default_only k
  have ht : tDefault ∈ [tStyle, tDefault, tPage] ++ formatKinds.map formatTag := by simp
  have hf := no_formats hp [tOffice, root] b inner_default (part_ne _ ht) (format_ne _ (by simp)) o
  unfold officeDoc
  rw [hits_elem, root_none hp ht _ (by simp), hits_append, hits_append, hits_append, hf, hf,
    hits_defaults b hb _ k hk, hits_defaults b hb _ k hk]
  simp

theorem auto_defaults (k : Kind) (hk : k ∈ styleKinds) (root : Str) (o : Origin) :
    hits (isDefault k) [root] [autoDoc b o] = [] := by
  have hp := default_only k
  have ht : tDefault ∈ [tStyle, tDefault, tPage] ++ formatKinds.map formatTag := by simp
  have hf := no_formats hp [tAuto, root] b inner_default (part_ne _ ht) (format_ne _ (by simp)) o
  unfold autoDoc
  rw [hits_elem, root_none hp ht _ (by simp), hits_append, hits_append, hf,
    no_pages hp _ b inner_default (by decide +kernel), hits_defaults b hb _ k hk]
  simp

theorem office_pages (n : Str) (root : Str) (o : Origin) : hits (isPage n) [root] [officeDoc b o] = [] := by
  have hp := page_only n
  have ht : tPage ∈ [tStyle, tDefault, tPage] ++ formatKinds.map formatTag := by simp
  have hf := no_formats hp [tOffice, root] b inner_page (part_ne _ ht) (format_ne _ (by simp)) o
  have hs := no_styles hp [tOffice, root] b inner_page (by decide +kernel) (by decide +kernel) o
  unfold officeDoc
  rw [hits_elem, root_none hp ht _ (by simp), hits_append, hits_append, hits_append, hf, hf, hs, hs]
  simp

theorem auto_pages (n : Str) (root : Str) (o : Origin) :
    hits (isPage n) [root] [autoDoc b o] = pick (b.pages.get? .page n) (fun _ => true) [tAuto, root] := by
  have hp := page_only n
  have ht : tPage ∈ [tStyle, tDefault, tPage] ++ formatKinds.map formatTag := by simp
  have hf := no_formats hp [tAuto, root] b inner_page (part_ne _ ht) (format_ne _ (by simp)) o
  have hs := no_styles hp [tAuto, root] b inner_page (by decide +kernel) (by decide +kernel) o
  unfold autoDoc
  rw [hits_elem, root_none hp ht _ (by simp), hits_append, hits_append, hf, hs, hits_pages b hb]
  simp

section Files

variable {p : Str → List (Str × Str) → Bool} {t : Str} (hp : OnlyTag p t)
  (ht : t ∈ [tStyle, tDefault, tPage] ++ formatKinds.map formatTag) (lb : Bool) (as : List (Bool × Str × Str))
  (has : AttrsOk as)

include hp ht has

theorem places_styles : placesOf p (output lb (writeStylesFile as b))
    = hits p [tDocStyles] [officeDoc b .styles] ++ hits p [tDocStyles] [autoDoc b .styles] := by
  rw [stylesFile_calls, stylesFileDoc, file_places hp ht lb tDocStyles (by simp) as _ ?_, hits_cons, fonts_none b hp ht,
    List.nil_append, hits_cons]
  exact elemDoc_ok _ _ _ _ (by decide +kernel) has ⟨fontsDoc_ok b hb _, officeDoc_ok b hb _, autoDoc_ok b hb _, trivial⟩

theorem places_content : placesOf p (output lb (writeContentFile as b)) = hits p [tDocContent] [autoDoc b .content] := by
  rw [contentFile_calls, contentFileDoc, file_places hp ht lb tDocContent (by simp) as _ ?_, hits_cons, fonts_none b hp ht,
    List.nil_append]
  exact elemDoc_ok _ _ _ _ (by decide +kernel) has ⟨fontsDoc_ok b hb _, autoDoc_ok b hb _, trivial⟩

theorem places_flat : placesOf p (output lb (writeFlatContent as b))
    = hits p [tDocFlat] [officeDoc b .content] ++ hits p [tDocFlat] [autoDoc b .content] := by
  rw [flatFile_calls, flatFileDoc, file_places hp ht lb tDocFlat (by simp) as _ ?_, hits_cons, fonts_none b hp ht,
    List.nil_append, hits_cons]
  exact elemDoc_ok _ _ _ _ (by decide +kernel) has ⟨fontsDoc_ok b hb _, officeDoc_ok b hb _, autoDoc_ok b hb _, trivial⟩

end Files

variable (as as' : List (Bool × Str × Str)) (has : AttrsOk as) (has' : AttrsOk as')

include has has'

/-- **C51**, partial: a stored style that is no default style is written once in the package, in the section given by its
use: styles of `styles.xml` in that file and nowhere else, automatic styles of `content.xml` there and nowhere else. Names
that are not stored are not written.

Missing: named styles of `content.xml` are not written at all (third part, `C51_content_counterexample`); for default
styles see `C51_once_default`. -/
theorem C51_once_partial (k : Kind) (hk : k ∈ Spec.styleFamilies) (n : Str) :
    (∀ s, b.styles.get? k n = some s → s.body.use ≠ .default → s.body.origin = .styles →
      placesOf (isStyle k n) (output false (writeStylesFile as b)) = [placeFor "office:document-styles".toList s.body.use]
      ∧ placesOf (isStyle k n) (output false (writeContentFile as' b)) = [])
    ∧ (∀ s, b.styles.get? k n = some s → s.body.use = .automatic → s.body.origin = .content →
      placesOf (isStyle k n) (output false (writeStylesFile as b)) = []
      ∧ placesOf (isStyle k n) (output false (writeContentFile as' b)) = [placeFor "office:document-content".toList .automatic])
    ∧ ((∀ s, b.styles.get? k n = some s → s.body.use = .default ∨ (s.body.use = .named ∧ s.body.origin = .content)) →
      placesOf (isStyle k n) (output false (writeStylesFile as b)) = []
      ∧ placesOf (isStyle k n) (output false (writeContentFile as' b)) = []) := by
  replace hk := family_written k hk
  have ht : tStyle ∈ [tStyle, tDefault, tPage] ++ formatKinds.map formatTag := by simp
  rw [places_styles b hb (style_only k n) ht false as has, places_content b hb (style_only k n) ht false as' has',
    office_places b hb k hk, auto_places b hb k hk, auto_places b hb k hk]
  refine ⟨?_, ?_, ?_⟩
  · intro s hg hu ho
    rw [hg]
    simp only [pick, ho]
    cases hu' : s.body.use with
    | default => exact absurd hu' hu
    | named => exact ⟨rfl, rfl⟩
    | automatic => exact ⟨rfl, rfl⟩
  · intro s hg hu ho
    rw [hg]
    simp only [pick, ho, hu]
    exact ⟨rfl, rfl⟩
  · intro h
    cases hg : b.styles.get? k n with
    | none => exact ⟨rfl, rfl⟩
    | some s =>
      simp only [pick]
      rcases h s hg with hu | ⟨hu, ho⟩
      · simp [hu]
      · simp [hu, ho]

/-- **C51**, default styles: the package has as many default styles of a family as are stored with the origin
`styles.xml`, all of them in the section for named and default styles. -/
theorem C51_once_default (k : Kind) (hk : k ∈ Spec.styleFamilies) :
    placesOf (isDefault k) (output false (writeStylesFile as b))
      = List.replicate ((b.styles.store k).countP fun e => e.2.body.origin = .styles ∧ e.2.body.use = .default)
          (placeFor "office:document-styles".toList .default)
    ∧ placesOf (isDefault k) (output false (writeContentFile as' b)) = [] := by
  replace hk := family_written k hk
  have ht : tDefault ∈ [tStyle, tDefault, tPage] ++ formatKinds.map formatTag := by simp
  rw [places_styles b hb (default_only k) ht false as has, places_content b hb (default_only k) ht false as' has',
    office_defaults b hb k hk, auto_defaults b hb k hk, auto_defaults b hb k hk, List.append_nil]
  refine ⟨?_, rfl⟩
  rw [List.map_const', chosen, List.countP_eq_length_filter, List.filter_map, List.length_map]
  rfl

/-- **C51**, formats: a stored value format is written once, in the section given by its use, if its origin is
`styles.xml` or if it is automatic. -/
theorem C51_once_format_partial (k : Kind) (hk : k ∈ Spec.formatFamilies) (n : Str) :
    (∀ s, b.formats.get? k n = some s → s.body.origin = .styles →
      placesOf (isFormat k n) (output false (writeStylesFile as b)) = [placeFor "office:document-styles".toList s.body.use]
      ∧ placesOf (isFormat k n) (output false (writeContentFile as' b)) = [])
    ∧ (∀ s, b.formats.get? k n = some s → s.body.use = .automatic → s.body.origin = .content →
      placesOf (isFormat k n) (output false (writeStylesFile as b)) = []
      ∧ placesOf (isFormat k n) (output false (writeContentFile as' b)) = [placeFor "office:document-content".toList .automatic])
    ∧ ((∀ s, b.formats.get? k n = some s → s.body.use ≠ .automatic ∧ s.body.origin = .content) →
      placesOf (isFormat k n) (output false (writeStylesFile as b)) = []
      ∧ placesOf (isFormat k n) (output false (writeContentFile as' b)) = []) := by
  replace hk := format_written k hk
  have ht : formatTag k ∈ [tStyle, tDefault, tPage] ++ formatKinds.map formatTag :=
    List.mem_append_right _ (List.mem_map.2 ⟨k, hk, rfl⟩)
  rw [places_styles b hb (format_only k n) ht false as has, places_content b hb (format_only k n) ht false as' has',
    office_formats b hb k hk, auto_formats b hb k hk, auto_formats b hb k hk]
  refine ⟨?_, ?_, ?_⟩
  · intro s hg ho
    rw [hg]
    simp only [pick, ho]
    cases hu' : s.body.use with
    | default => exact ⟨rfl, rfl⟩
    | named => exact ⟨rfl, rfl⟩
    | automatic => exact ⟨rfl, rfl⟩
  · intro s hg hu ho
    rw [hg]
    simp only [pick, ho, hu]
    exact ⟨rfl, rfl⟩
  · intro h
    cases hg : b.formats.get? k n with
    | none => exact ⟨rfl, rfl⟩
    | some s =>
      simp only [pick]
      obtain ⟨hu, ho⟩ := h s hg
      simp [hu, ho]

/-- **C51**, the negative for page layouts: each is written twice, once in each file. -/
theorem C51_page_twice (n : Str) (s : Style Page) (h : b.pages.get? .page n = some s) :
    placesOf (isPage n) (output false (writeStylesFile as b)) = [placeFor "office:document-styles".toList .automatic]
    ∧ placesOf (isPage n) (output false (writeContentFile as' b)) = [placeFor "office:document-content".toList .automatic] := by
  have ht : tPage ∈ [tStyle, tDefault, tPage] ++ formatKinds.map formatTag := by simp
  rw [places_styles b hb (page_only n) ht false as has, places_content b hb (page_only n) ht false as' has',
    office_pages b hb, auto_pages b hb, auto_pages b hb, h]
  exact ⟨rfl, rfl⟩

omit has' in
/-- **C51** in flat files: every stored style that is no default style is written once, in the section given by its use;
every stored format is; there are as many default styles of a family as are stored; every page layout is written once. -/
theorem C51_once_flat :
    (∀ k ∈ Spec.styleFamilies, ∀ n,
      (∀ s, b.styles.get? k n = some s → s.body.use ≠ .default →
        placesOf (isStyle k n) (writeFlat as b).1 = [placeFor "office:document".toList s.body.use])
      ∧ (b.styles.get? k n = none → placesOf (isStyle k n) (writeFlat as b).1 = []))
    ∧ (∀ k ∈ Spec.styleFamilies, placesOf (isDefault k) (writeFlat as b).1
        = List.replicate ((b.styles.store k).countP fun e => e.2.body.use = .default)
            (placeFor "office:document".toList .default))
    ∧ (∀ k ∈ Spec.formatFamilies, ∀ n,
      (∀ s, b.formats.get? k n = some s →
        placesOf (isFormat k n) (writeFlat as b).1 = [placeFor "office:document".toList s.body.use])
      ∧ (b.formats.get? k n = none → placesOf (isFormat k n) (writeFlat as b).1 = []))
    ∧ (∀ n s, b.pages.get? .page n = some s →
        placesOf (isPage n) (writeFlat as b).1 = [placeFor "office:document".toList .automatic]) := by
  have hc := convert_ok b hb
  have ht : tStyle ∈ [tStyle, tDefault, tPage] ++ formatKinds.map formatTag := by simp
  have htd : tDefault ∈ [tStyle, tDefault, tPage] ++ formatKinds.map formatTag := by simp
  have htp : tPage ∈ [tStyle, tDefault, tPage] ++ formatKinds.map formatTag := by simp
  unfold writeFlat
  simp only
  refine ⟨?_, ?_, ?_, ?_⟩
  · intro k hk n
    replace hk := family_written k hk
    rw [places_flat b.convert hc (style_only k n) ht true as has, office_places b.convert hc k hk,
      auto_places b.convert hc k hk, convert_get]
    constructor
    · intro s hg hu
      rw [hg]
      simp only [pick, Option.map]
      cases hu' : s.body.use with
      | default => exact absurd hu' hu
      | named => rfl
      | automatic => rfl
    · intro hg
      rw [hg]; rfl
  · intro k hk
    replace hk := family_written k hk
    rw [places_flat b.convert hc (default_only k) htd true as has, office_defaults b.convert hc k hk,
      auto_defaults b.convert hc k hk, List.append_nil, List.map_const', chosen, List.filter_map, List.length_map]
    have : (List.filter ((fun s : Style Body => decide (s.body.origin = .content ∧ s.body.use = .default)) ∘ Prod.snd)
        (b.convert.styles.store k)).length = (b.styles.store k).countP fun e => e.2.body.use = .default := by
      rw [List.countP_eq_length_filter]
      show (List.filter _ ((b.styles.store k).map _)).length = _
      rw [List.filter_map, List.length_map]
      congr 1
      refine List.filter_congr fun e _ => ?_
      simp
    rw [this]
    rfl
  · intro k hk n
    replace hk := format_written k hk
    have htf : formatTag k ∈ [tStyle, tDefault, tPage] ++ formatKinds.map formatTag :=
      List.mem_append_right _ (List.mem_map.2 ⟨k, hk, rfl⟩)
    rw [places_flat b.convert hc (format_only k n) htf true as has, office_formats b.convert hc k hk,
      auto_formats b.convert hc k hk, convert_fget]
    constructor
    · intro s hg
      rw [hg]
      simp only [pick, Option.map]
      cases hu' : s.body.use with
      | default => rfl
      | named => rfl
      | automatic => rfl
    · intro hg
      rw [hg]; rfl
  · intro n s hg
    rw [places_flat b.convert hc (page_only n) htp true as has, office_pages b.convert hc, auto_pages b.convert hc,
      show b.convert.pages = b.pages from rfl, hg]
    rfl

end Theorems

/-- The hypotheses of the theorems above are met by the example. -/
theorem C51_once_meets : BookOk demo ∧ AttrsOk [] := ⟨demo_ok, by intro a h; cases h⟩

end Verif.Style
