import Verif.Style.OtherFormat

/-!
# Whole files with styles of other programs
-/

set_option autoImplicit false

namespace Verif.Style

open Xml Xml.Spec Codec Book

/-! ## Specification -/

mutual

/-- The tags within elements with this name. -/
def inside (t : Str) : El → List Tag
  | .text _ => []
  | .ref _ => []
  | .void _ _ => []
  | .elem n _ c => if n = t then elTagsIn c else insideIn t c

/-- Of several. -/
def insideIn (t : Str) : List El → List Tag
  | [] => []
  | e :: c => inside t e ++ insideIn t c

end

/-- **What an element says of a page layout**: the properties of the page, and those in the style of the header and
in the style of the footer. -/
def pageSaid (as : List (Str × Str)) (c : List El) : Page :=
  { usage := attrOf as aUsage
    style := propsOf tPageProps (elTagsIn c)
    header := propsOf tHFProps (insideIn tHeaderStyle c)
    footer := propsOf tHFProps (insideIn tFooterStyle c) }

mutual

/-- The styles of headers and footers are not empty tags, and those of headers are not within others of headers, those
of footers not within others of footers. -/
def HFOk (header footer : Bool) : El → Prop
  | .text _ => True
  | .ref _ => True
  | .void n _ => n ≠ tHeaderStyle ∧ n ≠ tFooterStyle
  | .elem n _ c =>
    (n = tHeaderStyle → header = false) ∧ (n = tFooterStyle → footer = false)
      ∧ HFOkIn (header || n == tHeaderStyle) (footer || n == tFooterStyle) c

/-- Of several. -/
def HFOkIn (header footer : Bool) : List El → Prop
  | [] => True
  | e :: c => HFOk header footer e ∧ HFOkIn header footer c

end

/-- The content of a page layout that can be read. -/
structure PageFine (c : List El) : Prop where
  clean : CleanIn c
  flat : NoStartIn tPage c
  hf : HFOkIn false false c

/-- The content of a style that can be read. -/
structure StyleFine (m : Refs.Ints) (k : Kind) (tag : Str) (c : List El) : Prop where
  clean : CleanIn c
  flat : NoStartIn tag c
  maps : k = .cell → ∀ as ∈ named tMap (elTagsIn c), MapFine m as

/-- What an element of a section is. -/
inductive Item where
  | style (u : Use) (k : Kind)
  | format (k : Kind)
  | page
  deriving DecidableEq

/-- Styles are `style:style`, and in `office:styles` also `style:default-style`; formats have an element for each type;
page layouts are automatic styles. -/
def itemSaid (s : Section) (n : Str) (as : List (Str × Str)) : Option Item :=
  if n = tStyle then (kindSaid as).map (.style s.use ·)
  else if n = tDefault then if s = .office then (kindSaid as).map (.style .default ·) else none
  else if n = tPage then if s = .auto then some .page else none
  else (Spec.formatFamilies.find? fun k => formatTag k = n).map .format

mutual

/-- The definitions in a section, in the order of the file. -/
def sectSaid (m : Refs.Ints) (o : Origin) (s : Section) : El → List Op
  | .text _ => []
  | .ref _ => []
  | .void n as =>
    match itemSaid s n as with
    | some (.style u k) => [.style k ⟨nameSaid as, bodySaid m o u k as []⟩]
    | _ => []
  | .elem n as c =>
    match itemSaid s n as with
    | some (.style u k) => [.style k ⟨nameSaid as, bodySaid m o u k as (elTagsIn c)⟩]
    | some (.format k) => [.format k ⟨nameSaid as, formatSaid o s.use as c⟩]
    | some .page => [.page ⟨nameSaid as, pageSaid as c⟩]
    | none => sectSaidIn m o s c

/-- Of several elements. -/
def sectSaidIn (m : Refs.Ints) (o : Origin) (s : Section) : List El → List Op
  | [] => []
  | e :: c => sectSaid m o s e ++ sectSaidIn m o s c

end

/-- No family that is unknown. -/
def FamilyFine (s : Section) (n : Str) (as : List (Str × Str)) : Prop :=
  n = tStyle ∨ (n = tDefault ∧ s = .office) → as.lookup aFamily = none

mutual

/-- An element of a section that can be read.  Formats and page layouts that are empty tags can not. -/
def SectFine (m : Refs.Ints) (s : Section) : El → Prop
  | .text _ => True
  | .ref _ => True
  | .void n as =>
    match itemSaid s n as with
    | some (.style _ _) => AttrsFine as
    | some _ => False
    | none => FamilyFine s n as
  | .elem n as c =>
    n ≠ s.tag ∧
    match itemSaid s n as with
    | some (.style _ k) => AttrsFine as ∧ StyleFine m k n c
    | some (.format _) => AttrsFine as ∧ FormatFine n c
    | some .page => AttrsFine as ∧ PageFine c
    | none => FamilyFine s n as ∧ SectFineIn m s c

/-- Several. -/
def SectFineIn (m : Refs.Ints) (s : Section) : List El → Prop
  | [] => True
  | e :: c => SectFine m s e ∧ SectFineIn m s c

end

/-- What a tag says of a font. -/
def fontSaid (as : List (Str × Str)) : Font := ⟨nameSaid as, .content, attrsSaid as⟩

mutual

/-- **The definitions in a file**, in the order of the file: fonts, styles, formats and page layouts. -/
def stylesSaid (m : Refs.Ints) (o : Origin) : El → List Op
  | .text _ => []
  | .ref _ => []
  | .void _ _ => []
  | .elem n _ c =>
    if n = tFonts then (fontsRead o ((named tFont (elTagsIn c)).map fontSaid)).map .font
    else if n = tOffice then sectSaidIn m o .office c
    else if n = tAuto then sectSaidIn m o .auto c
    else stylesSaidIn m o c

/-- Of several elements. -/
def stylesSaidIn (m : Refs.Ints) (o : Origin) : List El → List Op
  | [] => []
  | e :: c => stylesSaid m o e ++ stylesSaidIn m o c

end

mutual

/-- Styles that can be read. -/
def StylesFine (m : Refs.Ints) : El → Prop
  | .text _ => True
  | .ref _ => True
  | .void _ _ => True
  | .elem n _ c =>
    if n = tFonts then NoStartIn tFonts c ∧ ∀ as ∈ named tFont (elTagsIn c), AttrsFine as
    else if n = tOffice then SectFineIn m .office c
    else if n = tAuto then SectFineIn m .auto c
    else StylesFineIn m c

/-- Several. -/
def StylesFineIn (m : Refs.Ints) : List El → Prop
  | [] => True
  | e :: c => StylesFine m e ∧ StylesFineIn m c

end

/-! ## Styles -/

section Styles

variable (m : Refs.Ints) (o : Origin) (s : Section) (tag : Str) (k : Kind) (name : Str) (bk : SBook) (u : Use)
  (as : List (Str × Str))

mutual

theorem style_el (x : El) (ts : List Tag) (hc : x.Clean) (hs : x.NoStart tag)
    (hm : k = .cell → ∀ bs ∈ named tMap (elTags x), MapFine m bs) :
    run m o ⟨.style s tag k name (bodySaid m o u k as ts), bk⟩ x.events
      = .ok ⟨.style s tag k name (bodySaid m o u k as (ts ++ elTags x)), bk⟩ :=
  match x with
  | .text _ => by rw [elTags, List.append_nil]; rfl
  | .ref _ => by rw [elTags, List.append_nil]; rfl
  | .void n bs => by
    rw [El.events, run, step, onTag]
    simp only
    rw [readProp_said m o u k as ts n bs hc fun hk hn => hm hk bs (by rw [elTags, named_cons, if_pos hn]; simp)]
    rfl
  | .elem n bs c => by
    rw [El.events, run, step, onTag]
    simp only
    rw [readProp_said m o u k as ts n bs hc.1 fun hk hn => hm hk bs (by rw [elTags, named_cons, if_pos hn]; simp)]
    simp only [Except.map]
    rw [run_ok m o _ _ _ _ (style_elIn c _ hc.2 hs.2 fun hk bs hb => hm hk bs (by
      rw [elTags, named_cons]; exact List.mem_append_right _ hb)), run, step, onEnd]
    simp only
    rw [if_neg hs.1, elTags, List.append_assoc]
    rfl

theorem style_elIn (c : List El) (ts : List Tag) (hc : CleanIn c) (hs : NoStartIn tag c)
    (hm : k = .cell → ∀ bs ∈ named tMap (elTagsIn c), MapFine m bs) :
    run m o ⟨.style s tag k name (bodySaid m o u k as ts), bk⟩ (evsOf c)
      = .ok ⟨.style s tag k name (bodySaid m o u k as (ts ++ elTagsIn c)), bk⟩ :=
  match c with
  | [] => by rw [elTagsIn, List.append_nil]; rfl
  | x :: c => by
    rw [elTagsIn, named_append] at hm
    rw [evsOf, run_ok m o _ _ _ _ (style_el x ts hc.1 hs.1 fun hk bs hb => hm hk bs (List.mem_append_left _ hb)),
      style_elIn c _ hc.2 hs.2 fun hk bs hb => hm hk bs (List.mem_append_right _ hb), elTagsIn, List.append_assoc]

end

end Styles

theorem bodySaid_nil (m : Refs.Ints) (o : Origin) (u : Use) (k : Kind) (as : List (Str × Str)) :
    bodySaid m o u k as [] = { origin := o, use := u, attr := attrsSaid as } := by
  unfold bodySaid
  cases k <;> simp [mainTag, propsOf, named, someIf]

/-! ## Page layouts -/

theorem pageAttrs_said (as : List (Str × Str)) (h : AttrsFine as) : ∀ n (p : Page),
    pageAttrs n p as = .ok ((attrOf as aName).getD n, { p with usage := (attrOf as aUsage).or p.usage }) := by
  induction as with
  | nil => intro n p; rfl
  | cons a as ih =>
    intro n p
    obtain ⟨k, v⟩ := a
    obtain ⟨w, h1, h2, h3⟩ := plainAttrs_cons h.plain
    have hd := h.once
    rw [List.map_cons, List.nodup_cons] at hd
    have hrest : AttrsFine as := ⟨hd.2, h2⟩
    rw [attrOf_cons, attrOf_cons, pageAttrs]
    have hnu : aUsage ≠ aName := by decide +kernel
    by_cases hk : k = aName
    · subst hk
      rw [if_pos rfl, h1, if_pos rfl, if_neg hnu]
      simp only
      rw [ih hrest, attrOf_absent as _ hd.1]
      rfl
    · rw [if_neg hk, if_neg (show ¬ aName = k from fun e => hk e.symm)]
      by_cases hk2 : k = aUsage
      · subst hk2
        rw [if_pos rfl, h1, if_pos rfl]
        simp only
        rw [ih hrest, attrOf_absent as _ hd.1]
        rfl
      · rw [if_neg hk2, if_neg (show ¬ aUsage = k from fun e => hk2 e.symm), ih hrest]

/-- What the tags of a page layout add. -/
def pageGo (p : Page) (st hd ft : List Tag) : Page :=
  { p with
    style := p.style ++ propsOf tPageProps st
    header := p.header ++ propsOf tHFProps hd
    footer := p.footer ++ propsOf tHFProps ft }

theorem pageGo_go (p : Page) (a b c a' b' c' : List Tag) :
    pageGo (pageGo p a b c) a' b' c' = pageGo p (a ++ a') (b ++ b') (c ++ c') := by
  unfold pageGo
  simp only [propsOf_append, List.append_assoc]

theorem pageGo_nil (p : Page) : pageGo p [] [] [] = p := by
  unfold pageGo; simp [propsOf]

theorem pageTag_some {n : Str} {t : PageTag} (h : pageTag n = some t) :
    n = match t with | .props => tPageProps | .header => tHeaderStyle | .footer => tFooterStyle | .hf => tHFProps := by
  unfold pageTag at h
  by_cases h1 : n = tPageProps
  · rw [if_pos h1] at h; cases h; exact h1
  rw [if_neg h1] at h
  by_cases h1 : n = tHeaderStyle
  · rw [if_pos h1] at h; cases h; exact h1
  rw [if_neg h1] at h
  by_cases h1 : n = tFooterStyle
  · rw [if_pos h1] at h; cases h; exact h1
  rw [if_neg h1] at h
  by_cases h1 : n = tHFProps
  · rw [if_pos h1] at h; cases h; exact h1
  rw [if_neg h1] at h
  cases h

theorem pageTag_props : pageTag tPageProps = some .props := by decide +kernel
theorem pageTag_header : pageTag tHeaderStyle = some .header := by decide +kernel
theorem pageTag_footer : pageTag tFooterStyle = some .footer := by decide +kernel
theorem pageTag_hf : pageTag tHFProps = some .hf := by decide +kernel

section Pages

variable (m : Refs.Ints) (o : Origin) (name : Str) (bk : SBook)

/-- A tag in a page layout. -/
theorem page_tag (p : Page) (hd ft : Bool) (n : Str) (as : List (Str × Str)) (e : Bool) (he : Escaped as) :
    onTag m o ⟨.page name p hd ft, bk⟩ n as e
      = .ok ⟨.page name (pageGo p [(n, as)] (if hd then [(n, as)] else []) (if ft then [(n, as)] else []))
          (hd || n == tHeaderStyle) (ft || n == tFooterStyle), bk⟩ := by
  rw [onTag]
  simp only
  unfold startInPage pageGo
  have q1 : propsOf tPageProps [(n, as)] = if pageTag n = some .props then plainAttrs as else [] := by
    rw [propsOf_cons]
    by_cases h : pageTag n = some .props
    · rw [if_pos h, if_pos (pageTag_some h)]; simp [propsOf]
    · rw [if_neg h, if_neg (show ¬ n = tPageProps from fun e => h (by rw [e]; exact pageTag_props))]; simp [propsOf]
  have q2 : propsOf tHFProps [(n, as)] = if pageTag n = some .hf then plainAttrs as else [] := by
    rw [propsOf_cons]
    by_cases h : pageTag n = some .hf
    · rw [if_pos h, if_pos (pageTag_some h)]; simp [propsOf]
    · rw [if_neg h, if_neg (show ¬ n = tHFProps from fun e => h (by rw [e]; exact pageTag_hf))]; simp [propsOf]
  have q3 : (n == tHeaderStyle) = decide (pageTag n = some .header) := by
    by_cases h : pageTag n = some .header
    · rw [decide_eq_true h]; simpa using pageTag_some h
    · rw [decide_eq_false h]; simpa using (show ¬ n = tHeaderStyle from fun e => h (by rw [e]; exact pageTag_header))
  have q4 : (n == tFooterStyle) = decide (pageTag n = some .footer) := by
    by_cases h : pageTag n = some .footer
    · rw [decide_eq_true h]; simpa using pageTag_some h
    · rw [decide_eq_false h]; simpa using (show ¬ n = tFooterStyle from fun e => h (by rw [e]; exact pageTag_footer))
  have q0 : ∀ t, propsOf t [] = [] := fun _ => rfl
  rw [q1, q3, q4]
  cases hp : pageTag n with
  | none => cases hd <;> cases ft <;> simp [q2, hp, q0]
  | some t =>
    cases t <;> cases hd <;> cases ft <;> simp [q2, hp, q0, copyAttrs_plain as he, Except.map]

theorem header_ne_footer : tHeaderStyle ≠ tFooterStyle := by decide +kernel

mutual

theorem page_el (x : El) (p : Page) (hd ft : Bool) (hc : x.Clean) (hs : x.NoStart tPage) (hh : HFOk hd ft x) :
    run m o ⟨.page name p hd ft, bk⟩ x.events
      = .ok ⟨.page name (pageGo p (elTags x) (if hd then elTags x else inside tHeaderStyle x)
          (if ft then elTags x else inside tFooterStyle x)) hd ft, bk⟩ :=
  match x with
  | .text _ => by cases hd <;> cases ft <;> (simp only [elTags, inside]; simp [pageGo_nil, El.events, run, step, onText])
  | .ref _ => by cases hd <;> cases ft <;> (simp only [elTags, inside]; simp [pageGo_nil, El.events, run, step, onRef])
  | .void n as => by
    rw [El.events, run, step, page_tag m o name bk p hd ft n as true hc]
    simp only
    rw [show (n == tHeaderStyle) = false by simpa using hh.1, show (n == tFooterStyle) = false by simpa using hh.2]
    rw [Bool.or_false, Bool.or_false, elTags, inside, inside]
    rfl
  | .elem n as c => by
    obtain ⟨h1, h2, h3⟩ := hh
    rw [El.events, run, step, page_tag m o name bk p hd ft n as false hc.1]
    simp only
    rw [run_ok m o _ _ _ _ (page_elIn c _ _ _ hc.2 hs.2 h3), run, step, onEnd]
    simp only
    rw [pageGo_go, elTags, inside, inside]
    by_cases hn : n = tHeaderStyle
    · have hf : n ≠ tFooterStyle := fun e => header_ne_footer (hn.symm.trans e)
      rw [if_pos hn, if_pos hn, if_neg hf, h1 hn, show (n == tFooterStyle) = false by simpa using hf,
        show (n == tHeaderStyle) = true by simpa using hn]
      cases ft <;> rfl
    · rw [if_neg hn, if_neg hn, show (n == tHeaderStyle) = false by simpa using hn]
      by_cases hf : n = tFooterStyle
      · rw [if_pos hf, if_pos hf, h2 hf, show (n == tFooterStyle) = true by simpa using hf]
        cases hd <;> rfl
      · rw [if_neg hf, if_neg hf, if_neg hs.1, show (n == tFooterStyle) = false by simpa using hf]
        cases hd <;> cases ft <;> rfl

theorem page_elIn (c : List El) (p : Page) (hd ft : Bool) (hc : CleanIn c) (hs : NoStartIn tPage c) (hh : HFOkIn hd ft c) :
    run m o ⟨.page name p hd ft, bk⟩ (evsOf c)
      = .ok ⟨.page name (pageGo p (elTagsIn c) (if hd then elTagsIn c else insideIn tHeaderStyle c)
          (if ft then elTagsIn c else insideIn tFooterStyle c)) hd ft, bk⟩ :=
  match c with
  | [] => by cases hd <;> cases ft <;> (simp only [elTagsIn, insideIn]; simp [pageGo_nil, evsOf, run])
  | x :: c => by
    rw [evsOf, run_ok m o _ _ _ _ (page_el x p hd ft hc.1 hs.1 hh.1), page_elIn c _ hd ft hc.2 hs.2 hh.2, pageGo_go]
    cases hd <;> cases ft <;> rfl

end

end Pages

/-! ## Sections -/

theorem familyOf_lookup (as : List (Str × Str)) : familyOf as = as.lookup aFamily := by
  induction as with
  | nil => rfl
  | cons a as ih =>
    obtain ⟨k, v⟩ := a
    rw [familyOf, List.lookup_cons, ih]
    by_cases h : k = aFamily
    · rw [if_pos h, show (aFamily == k) = true by simpa using h.symm]
    · rw [if_neg h, show (aFamily == k) = false by simpa using fun e => h e.symm]

theorem find_family {k : Kind} {v : Str} (h : Spec.styleFamilies.find? (fun k => family k = v) = some k) :
    readFamily v = some k := by
  have h1 := List.find?_some h
  have h2 := List.mem_of_find?_eq_some h
  have : family k = v := by simpa using h1
  rw [← this]
  exact family_read k (family_written k h2)

theorem kindSaid_start {as : List (Str × Str)} {k : Kind} (h : kindSaid as = some k) :
    ∃ v, familyOf as = some v ∧ readFamily v = some k := by
  unfold kindSaid at h
  rw [familyOf_lookup]
  cases hl : as.lookup aFamily with
  | none => rw [hl] at h; cases h
  | some v => rw [hl] at h; exact ⟨v, rfl, find_family h⟩

theorem find_format {k : Kind} {n : Str} (h : Spec.formatFamilies.find? (fun k => formatTag k = n) = some k) :
    sectTag n = some (.format k) := by
  have h1 := List.find?_some h
  have h2 := List.mem_of_find?_eq_some h
  have : formatTag k = n := by simpa using h1
  rw [← this]
  exact sect_format k (format_written k h2)

theorem readFormatTag_some {n : Str} {k : Kind} (h : readFormatTag n = some k) : k ∈ Spec.formatFamilies ∧ formatTag k = n := by
  unfold readFormatTag at h
  by_cases h1 : n = "number:boolean-style".toList
  · rw [if_pos h1] at h; cases h; exact ⟨by decide, h1.symm⟩
  rw [if_neg h1] at h
  by_cases h1 : n = "number:date-style".toList
  · rw [if_pos h1] at h; cases h; exact ⟨by decide, h1.symm⟩
  rw [if_neg h1] at h
  by_cases h1 : n = "number:time-style".toList
  · rw [if_pos h1] at h; cases h; exact ⟨by decide, h1.symm⟩
  rw [if_neg h1] at h
  by_cases h1 : n = "number:number-style".toList
  · rw [if_pos h1] at h; cases h; exact ⟨by decide, h1.symm⟩
  rw [if_neg h1] at h
  by_cases h1 : n = "number:currency-style".toList
  · rw [if_pos h1] at h; cases h; exact ⟨by decide, h1.symm⟩
  rw [if_neg h1] at h
  by_cases h1 : n = "number:percentage-style".toList
  · rw [if_pos h1] at h; cases h; exact ⟨by decide, h1.symm⟩
  rw [if_neg h1] at h
  by_cases h1 : n = "number:text-style".toList
  · rw [if_pos h1] at h; cases h; exact ⟨by decide, h1.symm⟩
  rw [if_neg h1] at h
  cases h

/-- What becomes of a tag in a section. -/
theorem section_tag (o : Origin) (s : Section) (bk : SBook) (n : Str) (as : List (Str × Str)) (e : Bool) :
    match itemSaid s n as with
    | some (.style u k) => AttrsFine as → startInSection o s ⟨.sect s, bk⟩ n as e =
        if e then (bk.addStyle k ⟨nameSaid as, { origin := o, use := u, attr := attrsSaid as }⟩).map fun bk => ⟨.sect s, bk⟩
        else .ok ⟨.style s n k (nameSaid as) { origin := o, use := u, attr := attrsSaid as }, bk⟩
    | some (.format k) => AttrsFine as → startInSection o s ⟨.sect s, bk⟩ n as e =
        .ok ⟨.format s n k (nameSaid as) { origin := o, use := s.use, attr := attrsSaid as }, bk⟩
    | some .page => AttrsFine as → n = tPage ∧ s = .auto ∧ startInSection o s ⟨.sect s, bk⟩ n as e =
        .ok ⟨.page (nameSaid as) { usage := attrOf as aUsage } false false, bk⟩
    | none => FamilyFine s n as → startInSection o s ⟨.sect s, bk⟩ n as e = .ok ⟨.sect s, bk⟩ := by
  have styl : ∀ (u : Use) (k : Kind), kindSaid as = some k → AttrsFine as → startStyle o s u ⟨.sect s, bk⟩ n as e =
      if e then (bk.addStyle k ⟨nameSaid as, { origin := o, use := u, attr := attrsSaid as }⟩).map fun bk => ⟨.sect s, bk⟩
      else .ok ⟨.style s n k (nameSaid as) { origin := o, use := u, attr := attrsSaid as }, bk⟩ := by
    intro u k hk ha
    obtain ⟨v, h1, h2⟩ := kindSaid_start hk
    unfold startStyle
    rw [h1]
    simp only
    rw [h2]
    simp only
    rw [copyStyleAttr_plain as ha.once ha.plain]
  have unstyl : ∀ (u : Use), as.lookup aFamily = none → startStyle o s u ⟨.sect s, bk⟩ n as e = .ok ⟨.sect s, bk⟩ := by
    intro u hk
    unfold startStyle
    rw [familyOf_lookup, hk]
  unfold itemSaid
  by_cases h1 : n = tStyle
  · rw [if_pos h1]
    have hsect : ∀ x, startInSection o s x n as e = startStyle o s s.use x n as e := by
      intro x; unfold startInSection; rw [h1, sect_style]
    cases hk : kindSaid as with
    | none =>
      simp only [Option.map_none]
      intro hf
      rw [hsect, unstyl _ (hf (.inl h1))]
    | some k =>
      simp only [Option.map_some]
      intro ha
      rw [hsect, styl _ k hk ha]
  rw [if_neg h1]
  by_cases h2 : n = tDefault
  · rw [if_pos h2]
    cases s with
    | auto =>
      rw [if_neg (by decide)]
      simp only
      intro _
      unfold startInSection
      rw [h2, sect_default]
    | office =>
      rw [if_pos rfl]
      have hsect : ∀ x, startInSection o .office x n as e = startStyle o .office .default x n as e := by
        intro x; unfold startInSection; rw [h2, sect_default]
      cases hk : kindSaid as with
      | none =>
        simp only [Option.map_none]
        intro hf
        rw [hsect, unstyl _ (hf (.inr ⟨h2, rfl⟩))]
      | some k =>
        simp only [Option.map_some]
        intro ha
        rw [hsect, styl _ k hk ha]
  rw [if_neg h2]
  by_cases h3 : n = tPage
  · rw [if_pos h3]
    cases s with
    | office =>
      rw [if_neg (by decide)]
      simp only
      intro _
      unfold startInSection
      rw [h3, sect_page]
    | auto =>
      rw [if_pos rfl]
      simp only
      intro ha
      refine ⟨h3, trivial, ?_⟩
      unfold startInSection
      rw [h3, sect_page]
      simp only
      rw [pageAttrs_said as ha]
      simp only [Option.or_none]
      rfl
  rw [if_neg h3]
  cases hk : Spec.formatFamilies.find? (fun k => formatTag k = n) with
  | some k =>
    simp only [Option.map_some]
    intro ha
    unfold startInSection
    rw [find_format hk]
    simp only
    rw [copyStyleAttr_plain as ha.once ha.plain]
  | none =>
    simp only [Option.map_none]
    intro _
    have : sectTag n = none := by
      unfold sectTag
      rw [if_neg h1, if_neg h2, if_neg h3]
      cases hr : readFormatTag n with
      | none => rfl
      | some k =>
        have := readFormatTag_some hr
        have h4 := List.find?_eq_none.1 hk k this.1
        simp [this.2] at h4
    unfold startInSection
    rw [this]

theorem applyAll_one (bk : SBook) (p : Op) : bk.applyAll [p] = bk.apply p := by
  show (bk.apply p).bind (fun b => .ok b) = _
  cases bk.apply p <;> rfl

section Sections

variable (m : Refs.Ints) (o : Origin) (s : Section)

theorem done_map (x : Except Fault SBook) (md : Mode) :
    (match x.map (fun bk => (⟨md, bk⟩ : State)) with
      | .error e => Except.error e
      | .ok st => run m o st []) = x.map fun bk => ⟨md, bk⟩ := by
  cases x <;> rfl

mutual

theorem sect_el (x : El) (h : SectFine m s x) : Does m o (.sect s) x.events (sectSaid m o s x) :=
  match x with
  | .text _ => fun bk => by rw [sectSaid]; rfl
  | .ref _ => fun bk => by rw [sectSaid]; rfl
  | .void n as => by
    intro bk
    rw [El.events, run, step, onTag]
    simp only
    have ht := section_tag o s bk n as true
    rw [SectFine] at h
    rw [sectSaid]
    cases hi : itemSaid s n as with
    | none =>
      rw [hi] at h ht
      rw [ht h]
      rfl
    | some it =>
      cases it with
      | style u k =>
        rw [hi] at h ht
        rw [ht h, if_pos rfl]
        simp only
        rw [applyAll_one, SBook.apply, bodySaid_nil]
        exact done_map m o _ _
      | format k => rw [hi] at h; exact h.elim
      | page => rw [hi] at h; exact h.elim
  | .elem n as c => by
    intro bk
    rw [El.events, run, step, onTag]
    simp only
    have ht := section_tag o s bk n as false
    rw [SectFine] at h
    obtain ⟨hn, h⟩ := h
    rw [sectSaid]
    cases hi : itemSaid s n as with
    | none =>
      rw [hi] at h ht
      rw [ht h.1]
      simp only
      rw [run_append, sect_elIn c h.2 bk]
      cases bk.applyAll (sectSaidIn m o s c) with
      | error e => rfl
      | ok bk1 =>
        show run m o ⟨.sect s, bk1⟩ _ = _
        rw [run, step, onEnd]
        simp only
        rw [if_neg hn]
        rfl
    | some it =>
      cases it with
      | style u k =>
        rw [hi] at h ht
        rw [ht h.1, if_neg (by simp)]
        simp only
        rw [← bodySaid_nil m, run_ok m o _ _ _ _ (style_elIn m o s n k (nameSaid as) bk u as c [] h.2.clean h.2.flat h.2.maps),
          run, step, onEnd]
        simp only [if_true]
        rw [applyAll_one, SBook.apply, List.nil_append]
        exact done_map m o _ _
      | format k =>
        rw [hi] at h ht
        rw [ht h.1]
        simp only
        rw [run_ok m o _ _ _ _ (format_elIn m o s n k (nameSaid as) bk c _ h.2.parts h.2.flat h.2.maps),
          run, step, onEnd]
        simp only [if_true]
        rw [applyAll_one, SBook.apply]
        unfold formatGo formatSaid
        simp only [List.nil_append, addList_none]
        exact done_map m o _ _
      | page =>
        rw [hi] at h ht
        obtain ⟨h1, h2, h3⟩ := ht h.1
        rw [h3]
        simp only
        rw [run_ok m o _ _ _ _ (page_elIn m o (nameSaid as) bk c _ false false h.2.clean h.2.flat h.2.hf),
          run, step, onEnd]
        simp only
        rw [h1, if_neg (by decide +kernel), if_neg (by decide +kernel), if_pos rfl, applyAll_one, SBook.apply, h2]
        unfold pageGo pageSaid
        simp only [List.nil_append]
        exact done_map m o _ _

theorem sect_elIn (c : List El) (h : SectFineIn m s c) : Does m o (.sect s) (evsOf c) (sectSaidIn m o s c) :=
  match c with
  | [] => Does.nil m o _
  | x :: c => (sect_el x h.1).append (sect_elIn c h.2)

end

/-! ## Fonts -/

theorem fontsRead_append (a b : List Font) : ∀ o, fontsRead o (a ++ b)
    = fontsRead o a ++ fontsRead (if a = [] then o else .content) b := by
  induction a with
  | nil => intro o; rfl
  | cons f a ih =>
    intro o
    rw [List.cons_append, fontsRead, fontsRead, ih, List.cons_append]
    by_cases h : a = []
    · simp [h]
    · simp [h]

/-- The fonts of tags. -/
def tagFonts (ts : List Tag) : List Font := (named tFont ts).map fontSaid

/-- The origin of the font after these. -/
def nextOrigin (nx : Origin) (ts : List Tag) : Origin := if tagFonts ts = [] then nx else .content

theorem tagFonts_append (a b : List Tag) : tagFonts (a ++ b) = tagFonts a ++ tagFonts b := by
  unfold tagFonts; rw [named_append, List.map_append]

theorem nextOrigin_append (nx : Origin) (a b : List Tag) : nextOrigin (nextOrigin nx a) b = nextOrigin nx (a ++ b) := by
  unfold nextOrigin
  rw [tagFonts_append]
  by_cases ha : tagFonts a = [] <;> by_cases hb : tagFonts b = [] <;> simp [ha, hb]

/-- The events give these fonts to the workbook. -/
def Gives (es : List Event) (ts : List Tag) : Prop :=
  ∀ nx bk, ∃ bk', run m o ⟨.fonts nx, bk⟩ es = .ok ⟨.fonts (nextOrigin nx ts), bk'⟩
    ∧ bk.applyAll ((fontsRead nx (tagFonts ts)).map .font) = .ok bk'

theorem Gives.append {m : Refs.Ints} {o : Origin} {a b : List Event} {ts us : List Tag} (h : Gives m o a ts) (h' : Gives m o b us) :
    Gives m o (a ++ b) (ts ++ us) := by
  intro nx bk
  obtain ⟨b1, h1, h2⟩ := h nx bk
  obtain ⟨b2, h3, h4⟩ := h' (nextOrigin nx ts) b1
  refine ⟨b2, ?_, ?_⟩
  · rw [run_ok m o _ _ _ _ h1, h3, nextOrigin_append]
  · rw [tagFonts_append, fontsRead_append, List.map_append, applyAll_append, h2]
    exact h4

theorem gives_tag (n : Str) (as : List (Str × Str)) (e : Event) (he : e = .start n as ∨ e = .empty n as)
    (h : ∀ as' ∈ named tFont [(n, as)], AttrsFine as') : Gives m o [e] [(n, as)] := by
  intro nx bk
  have hs : run m o ⟨.fonts nx, bk⟩ [e] = (match startInFonts nx ⟨.fonts nx, bk⟩ n as with
      | .error e => .error e | .ok st => .ok st) := by
    rcases he with rfl | rfl <;> rfl
  rw [hs]
  unfold startInFonts nextOrigin tagFonts
  rw [named_cons] at h ⊢
  by_cases hn : n = tFont
  · rw [if_pos hn] at h ⊢
    have ha := h as (by simp)
    rw [if_pos hn, copyStyleAttr_plain as ha.once ha.plain]
    exact ⟨_, rfl, rfl⟩
  · rw [if_neg hn, if_neg hn]
    exact ⟨_, rfl, rfl⟩

theorem gives_end (n : Str) (h : n ≠ tFonts) : Gives m o [.end n] [] := by
  intro nx bk
  refine ⟨bk, ?_, rfl⟩
  rw [run, step, onEnd]
  simp only
  rw [if_neg h]
  rfl

mutual

theorem fonts_el (x : El) (hs : x.NoStart tFonts) (h : ∀ as ∈ named tFont (elTags x), AttrsFine as) :
    Gives m o x.events (elTags x) :=
  match x with
  | .text _ => fun nx bk => ⟨bk, rfl, rfl⟩
  | .ref _ => fun nx bk => ⟨bk, rfl, rfl⟩
  | .void n as => gives_tag m o n as _ (.inr rfl) h
  | .elem n as c => by
    rw [elTags, named_cons] at h
    have h1 := gives_tag m o n as _ (.inl rfl) (fun as' ha => h as' (by
      rw [named_cons] at ha
      rcases List.mem_append.1 ha with ha | ha
      · exact List.mem_append_left _ ha
      · cases ha))
    have h2 := fonts_elIn c hs.2 (fun as' ha => h as' (List.mem_append_right _ ha))
    have := h1.append (h2.append (gives_end m o n hs.1))
    rw [List.append_nil] at this
    exact this

theorem fonts_elIn (c : List El) (hs : NoStartIn tFonts c) (h : ∀ as ∈ named tFont (elTagsIn c), AttrsFine as) :
    Gives m o (evsOf c) (elTagsIn c) :=
  match c with
  | [] => fun nx bk => ⟨bk, rfl, rfl⟩
  | x :: c => by
    rw [elTagsIn, named_append] at h
    exact (fonts_el x hs.1 fun as ha => h as (List.mem_append_left _ ha)).append
      (fonts_elIn c hs.2 fun as ha => h as (List.mem_append_right _ ha))

end

/-! ## Files -/

theorem in_section (as : List (Str × Str)) (c : List El) (h : SectFineIn m s c) :
    Does m o .doc (.start s.tag as :: (evsOf c ++ [.end s.tag])) (sectSaidIn m o s c) := by
  intro bk
  have hstart : step m o ⟨.doc, bk⟩ (.start s.tag as) = .ok ⟨.sect s, bk⟩ := by
    rw [step, onTag]
    cases s with
    | office =>
      simp only [Section.tag]
      rw [if_neg (by simp), if_neg office_ne_fonts, if_pos trivial]
    | auto =>
      simp only [Section.tag]
      rw [if_neg (by simp), if_neg auto_ne_fonts, if_neg auto_ne_office, if_pos trivial]
  rw [run, hstart]
  simp only
  rw [run_append, sect_elIn m o s c h bk]
  cases bk.applyAll (sectSaidIn m o s c) with
  | error e => rfl
  | ok bk1 =>
    show run m o ⟨.sect s, bk1⟩ _ = _
    rw [run, step, onEnd]
    simp only [if_true]
    rfl

theorem in_fonts (as : List (Str × Str)) (c : List El) (hs : NoStartIn tFonts c)
    (h : ∀ as ∈ named tFont (elTagsIn c), AttrsFine as) :
    Does m o .doc (.start tFonts as :: (evsOf c ++ [.end tFonts]))
      ((fontsRead o ((named tFont (elTagsIn c)).map fontSaid)).map .font) := by
  intro bk
  obtain ⟨bk', h1, h2⟩ := fonts_elIn m o c hs h o bk
  rw [show bk.applyAll ((fontsRead o ((named tFont (elTagsIn c)).map fontSaid)).map .font) = .ok bk' from h2]
  have hstart : step m o ⟨.doc, bk⟩ (.start tFonts as) = .ok ⟨.fonts o, bk⟩ := by
    rw [step, onTag]
    simp only
    rw [if_neg (by simp), if_pos trivial]
  rw [run, hstart]
  simp only
  rw [run_ok m o _ _ _ _ h1, run, step, onEnd]
  simp only [if_true]
  rfl

mutual

theorem file_el (x : El) (h : StylesFine m x) : Does m o .doc x.events (stylesSaid m o x) :=
  match x with
  | .text _ => fun bk => by rw [stylesSaid]; rfl
  | .ref _ => fun bk => by rw [stylesSaid]; rfl
  | .void n as => fun bk => by
      rw [stylesSaid, El.events, run, step, onTag]
      simp only [if_true]
      rfl
  | .elem n as c => by
    rw [StylesFine] at h
    rw [stylesSaid, El.events]
    by_cases h1 : n = tFonts
    · rw [if_pos h1] at h ⊢
      rw [h1]
      exact in_fonts m o as c h.1 h.2
    rw [if_neg h1] at h ⊢
    by_cases h2 : n = tOffice
    · rw [if_pos h2] at h ⊢
      rw [h2]
      exact in_section m o .office as c h
    rw [if_neg h2] at h ⊢
    by_cases h3 : n = tAuto
    · rw [if_pos h3] at h ⊢
      rw [h3]
      exact in_section m o .auto as c h
    rw [if_neg h3] at h ⊢
    have k1 : Does m o .doc [.start n as] [] := by
      intro bk
      rw [run, step, onTag]
      simp only
      rw [if_neg (by simp), if_neg h1, if_neg h2, if_neg h3]
      rfl
    have k2 : Does m o .doc [.end n] [] := fun bk => rfl
    have := k1.append ((file_elIn c h).append k2)
    rw [List.nil_append, List.append_nil] at this
    exact this

theorem file_elIn (c : List El) (h : StylesFineIn m c) : Does m o .doc (evsOf c) (stylesSaidIn m o c) :=
  match c with
  | [] => Does.nil m o _
  | x :: c => (file_el x h.1).append (file_elIn c h.2)

end

end Sections

end Verif.Style
