import Verif.Style.Run

/-!
# What is read of formats, page layouts, fonts and of whole files
-/

set_option autoImplicit false

namespace Verif.Style

open Xml Xml.Spec Codec Book Refs.Spec

/-! ## Parts of formats -/

/-- The text `set_content` leaves: the last text; references are not looked at. -/
def lastText : Option Str → List Event → Option Str
  | c, [] => c
  | _, .text s :: es => lastText (some s) es
  | c, _ :: es => lastText c es

/-- What is read of a part. -/
def Part.back (lb : Bool) (p : Part) : Part :=
  match p.type with
  | .text | .currencySymbol | .fillCharacter => { p with position := none, content := shown p.content }
  | .number =>
    match p.position with
    | some _ =>
      match p.content with
      | some s => { p with content := lastText none (textEv true s ++ nlEv lb) }
      | none => { p with content := lastText none (nlEv lb) }
    | none => { p with content := none }
  | _ => { p with position := none, content := none }

/-- A part that can be written: the names of the attributes are XML names, the position is an `i32`. -/
structure PartOk (p : Part) : Prop where
  attr : KeysOk p.attr
  position : ∀ z, p.position = some z → -2147483648 ≤ z ∧ z < 2147483648

theorem partTag_read (t : PartType) : readPartTag (partTag t) = some t := by cases t <;> decide +kernel

theorem embedded_ne : tEmbedded ≠ partTag .number := by decide +kernel

section Format

variable (m : Refs.Ints) (o : Origin) (lb : Bool) (s : Section) (tag : Str) (k : Kind) (name : Str) (f : Format) (bk : SBook)

theorem run_tagPart (t : PartType) (as : Attrs) (h : KeysOk as) (i ne : Bool) :
    run m o ⟨.format s tag k name f, bk⟩ (docEv lb (.void i (partTag t) (escA as) none ne))
      = .ok ⟨.format s tag k name { f with parts := f.parts ++ [{ type := t, attr := as }] }, bk⟩ := by
  rw [docEv, run, step, onTag]
  simp only
  unfold startInFormat
  rw [partTag_read]
  simp only
  rw [copyAttrs_esc as h]
  simp only [if_true]
  exact run_nl' m o _ rfl lb

theorem step_startPart (t : PartType) (as : Attrs) (h : KeysOk as) :
    step m o ⟨.format s tag k name f, bk⟩ (.start (partTag t) (rawAttrs (escA as)))
      = .ok ⟨.part s tag k name f (partTag t) t.how { type := t, attr := as }, bk⟩ := by
  rw [step, onTag]
  simp only
  unfold startInFormat
  rw [partTag_read]
  simp only
  rw [copyAttrs_esc as h]
  rfl

theorem run_partText (pt : Str) (es : List Event) (h : ∀ e ∈ es, isTextEv e = true) : ∀ (p : Part),
    run m o ⟨.part s tag k name f pt .text p, bk⟩ es = .ok ⟨.part s tag k name f pt .text
      { p with content := if es = [] then p.content else some (p.content.getD [] ++ es.flatMap evText) }, bk⟩ := by
  induction es with
  | nil => intro p; rfl
  | cons e es ih =>
    intro p
    have ih := ih fun e he => h e (List.mem_cons_of_mem _ he)
    have he := h e List.mem_cons_self
    have key : step m o ⟨.part s tag k name f pt .text p, bk⟩ e
        = .ok ⟨.part s tag k name f pt .text (p.append (evText e)), bk⟩ := by
      cases e with
      | text t => rfl
      | ref r => rfl
      | start _ _ => cases he
      | empty _ _ => cases he
      | «end» _ => cases he
    rw [run_cons_ok m o _ _ _ _ key, ih]
    simp only [Part.append]
    by_cases hn : es = []
    · subst hn; simp
    · simp [hn]

theorem run_partNumber (pt : Str) (es : List Event) (h : ∀ e ∈ es, isTextEv e = true) : ∀ (p : Part),
    run m o ⟨.part s tag k name f pt .number p, bk⟩ es = .ok ⟨.part s tag k name f pt .number
      { p with content := lastText p.content es }, bk⟩ := by
  induction es with
  | nil => intro p; rfl
  | cons e es ih =>
    intro p
    have ih := ih fun e he => h e (List.mem_cons_of_mem _ he)
    have he := h e List.mem_cons_self
    cases e with
    | text t =>
      rw [run_cons_ok m o _ ⟨.part s tag k name f pt .number { p with content := some t }, bk⟩ _ _ rfl, ih]
      rfl
    | ref r =>
      rw [run_cons_ok m o _ ⟨.part s tag k name f pt .number p, bk⟩ _ _ rfl, ih]
      rfl
    | start _ _ => cases he
    | empty _ _ => cases he
    | «end» _ => cases he

theorem step_endPart (pt : Str) (h : How) (p : Part) :
    step m o ⟨.part s tag k name f pt h p, bk⟩ (.end pt)
      = .ok ⟨.format s tag k name { f with parts := f.parts ++ [p] }, bk⟩ := by
  rw [step, onEnd]; simp only [if_true]

theorem escape_plain (s : Str) (h : Plain s) : escape s = s := by
  induction s with
  | nil => rfl
  | cons c s ih =>
    have hc : escapeChar c = [c] := by
      have := h c List.mem_cons_self
      unfold Markup at this
      unfold escapeChar
      simp only [not_or] at this
      simp [this]
    rw [escape, hc, ih fun c hc => h c (List.mem_cons_of_mem _ hc)]
    rfl

theorem readPosition_dec (p : Part) (z : Int) (h : -2147483648 ≤ z ∧ z < 2147483648) :
    readPosition p (rawAttrs [(true, aPosition, decInt z)]) = .ok { p with position := some z } := by
  show readPosition p [(aPosition, escape (decInt z))] = _
  rw [escape_plain _ (plain_decInt z), readPosition, if_pos rfl, parseInt_dec 32 z (by omega) (by omega)]
  rfl

theorem onTag_embedded (pt : Str) (p : Part) (z : Int) (h : -2147483648 ≤ z ∧ z < 2147483648) (e : Bool) :
    onTag m o ⟨.part s tag k name f pt .number p, bk⟩ tEmbedded (rawAttrs [(true, aPosition, decInt z)]) e
      = .ok ⟨.part s tag k name f pt .number { p with position := some z }, bk⟩ := by
  rw [onTag]
  simp only [true_and, if_true]
  rw [readPosition_dec p z h]; rfl

theorem step_embedded (pt : Str) (p : Part) (z : Int) (h : -2147483648 ≤ z ∧ z < 2147483648) :
    step m o ⟨.part s tag k name f pt .number p, bk⟩ (.empty tEmbedded (rawAttrs [(true, aPosition, decInt z)]))
      = .ok ⟨.part s tag k name f pt .number { p with position := some z }, bk⟩
    ∧ step m o ⟨.part s tag k name f pt .number p, bk⟩ (.start tEmbedded (rawAttrs [(true, aPosition, decInt z)]))
      = .ok ⟨.part s tag k name f pt .number { p with position := some z }, bk⟩ :=
  ⟨onTag_embedded m o s tag k name f bk pt p z h true, onTag_embedded m o s tag k name f bk pt p z h false⟩

theorem nlEv_text : ∀ e ∈ nlEv lb, isTextEv e = true := by
  cases lb with
  | false => intro e he; cases he
  | true => intro e he; rcases List.mem_cons.1 he with rfl | he; · rfl
            · cases he

theorem lastText_append (c : Option Str) (a b : List Event) : lastText c (a ++ b) = lastText (lastText c a) b := by
  induction a generalizing c with
  | nil => rfl
  | cons e a ih => cases e <;> exact ih _

/-- **A part** is read with its type and its attributes. -/
theorem run_part (p : Part) (h : PartOk p) :
    run m o ⟨.format s tag k name f, bk⟩ (docEv lb (partDoc p))
      = .ok ⟨.format s tag k name { f with parts := f.parts ++ [p.back lb] }, bk⟩ := by
  obtain ⟨t, a, pos, c⟩ := p
  have ha : KeysOk a := h.attr
  have txt : ∀ t' : PartType, t'.how = .text → run m o ⟨.format s tag k name f, bk⟩ (docEv lb (match shown c with
      | none => .void true (partTag t') (escA a) none true
      | some s => .leaf true (partTag t') (escA a) true s))
      = .ok ⟨.format s tag k name { f with parts := f.parts ++ [⟨t', a, none, shown c⟩] }, bk⟩ := by
    intro t' ht
    cases hc : shown c with
    | none => exact run_tagPart m o lb s tag k name f bk t' a ha true true
    | some x =>
      have hx : x ≠ [] := by
        intro he
        subst he
        unfold shown at hc
        cases c with
        | none => cases hc
        | some y => simp [Option.filter] at hc
      simp only
      rw [docEv, run_cons_ok m o _ _ _ _ (step_startPart m o s tag k name f bk t' a ha), ht,
        run_ok m o _ _ _ _ (run_partText m o s tag k name f bk _ _ (textEv_text true x) _),
        run_cons_ok m o _ _ _ _ (step_endPart m o s tag k name f bk _ _ _), run_nl' m o _ rfl, textEv_flat]
      simp [textEv_nil, hx]
  cases t with
  | text => exact txt .text rfl
  | currencySymbol => exact txt .currencySymbol rfl
  | fillCharacter => exact txt .fillCharacter rfl
  | number =>
    cases pos with
    | none => exact run_tagPart m o lb s tag k name f bk .number a ha false false
    | some z =>
      have hz : -2147483648 ≤ z ∧ z < 2147483648 := h.position z rfl
      simp only [partDoc]
      rw [docEv, run_cons_ok m o _ _ _ _ (step_startPart m o s tag k name f bk .number a ha), docsEv, docsEv,
        List.append_nil]
      show run m o ⟨.part s tag k name f (partTag .number) .number ⟨.number, a, none, none⟩, bk⟩ _ = _
      have hend : ∀ p, step m o ⟨.part s tag k name f (partTag .number) .number p, bk⟩ (.end tEmbedded)
          = .ok ⟨.part s tag k name f (partTag .number) .number p, bk⟩ := by
        intro p
        rw [step, onEnd]
        simp only
        rw [if_neg embedded_ne]
      cases c with
      | none =>
        simp only
        show run m o _ ((.empty tEmbedded (rawAttrs [(true, aPosition, decInt z)]) :: nlEv lb) ++ _) = _
        rw [List.cons_append, run_cons_ok m o _ _ _ _ (step_embedded m o s tag k name f bk _ _ z hz).1,
          run_ok m o _ _ _ _ (run_partNumber m o s tag k name f bk _ _ (nlEv_text lb) _),
          run_cons_ok m o _ _ _ _ (step_endPart m o s tag k name f bk _ _ _), run_nl' m o _ rfl]
        rfl
      | some x =>
        simp only
        rw [docEv, List.cons_append, run_cons_ok m o _ _ _ _ (step_embedded m o s tag k name f bk _ _ z hz).2,
          List.append_assoc, run_ok m o _ _ _ _ (run_partNumber m o s tag k name f bk _ _ (textEv_text true x) _),
          List.cons_append, run_cons_ok m o _ _ _ _ (hend _),
          run_ok m o _ _ _ _ (run_partNumber m o s tag k name f bk _ _ (nlEv_text lb) _),
          run_cons_ok m o _ _ _ _ (step_endPart m o s tag k name f bk _ _ _), run_nl' m o _ rfl]
        simp only [Part.back]
        rw [lastText_append]
  | _ => exact run_tagPart m o lb s tag k name f bk _ a ha false false

end Format

/-! ## Formats -/

/-- A format that can be written: the names of attributes are XML names, none is `style:name`. -/
structure FormatOk (k : Kind) (f : Format) : Prop where
  kind : k ∈ Spec.formatFamilies
  attr : KeysOk f.attr
  noName : NoName f.attr
  text : KeysOk f.text
  parts : ∀ p ∈ f.parts, PartOk p

/-- What is read of a format: all of it, with the use of the section; see `Part.back`. -/
def Format.back (lb : Bool) (s : Section) (f : Format) : Format :=
  { f with use := s.use, parts := f.parts.map (Part.back lb), maps := keepList f.maps }

theorem run_parts (m : Refs.Ints) (o : Origin) (lb : Bool) (s : Section) (tag : Str) (k : Kind) (name : Str) (bk : SBook)
    (ps : List Part) (h : ∀ p ∈ ps, PartOk p) : ∀ (f : Format),
    run m o ⟨.format s tag k name f, bk⟩ (docsEv lb (ps.map partDoc))
      = .ok ⟨.format s tag k name { f with parts := f.parts ++ ps.map (Part.back lb) }, bk⟩ := by
  induction ps with
  | nil => intro f; simp [docsEv, run]
  | cons p ps ih =>
    intro f
    rw [List.map_cons, docsEv, run_ok m o _ _ _ _ (run_part m o lb s tag k name f bk p (h p List.mem_cons_self)),
      ih fun p hp => h p (List.mem_cons_of_mem _ hp)]
    simp

theorem part_text : readPartTag tTextProps = none := by decide +kernel
theorem part_map : readPartTag tMap = none := by decide +kernel

theorem run_formatText (m : Refs.Ints) (o : Origin) (lb : Bool) (s : Section) (tag : Str) (k : Kind) (name : Str) (bk : SBook)
    (f : Format) (mm : Attrs) (hm : KeysOk mm) :
    run m o ⟨.format s tag k name f, bk⟩ (docsEv lb (propsDoc tTextProps mm))
      = .ok ⟨.format s tag k name { f with text := f.text ++ mm }, bk⟩ := by
  unfold propsDoc
  split
  · rename_i he; subst he; rw [List.append_nil]; rfl
  · rw [docsEv, docsEv, List.append_nil]
    show run m o _ (.empty _ _ :: nlEv lb) = _
    rw [run, step, onTag]
    simp only
    unfold startInFormat
    rw [part_text, tag_text]
    simp only
    rw [copyAttrs_esc mm hm]
    exact run_nl' m o _ rfl lb

theorem readValueMap_atts (sm : ValueMap) : readValueMap {} (rawAttrs (valueMapAtts sm)) = .ok sm := by
  obtain ⟨c, a⟩ := sm
  show readValueMap {} [(aCondition, escape c), (aApply, escape a)] = _
  simp only [readValueMap, mkey_cond, mkey_apply, unescape_escape]

theorem run_valueMaps (m : Refs.Ints) (o : Origin) (lb : Bool) (s : Section) (tag : Str) (k : Kind) (name : Str)
    (bk : SBook) (l : List ValueMap) : ∀ (f : Format),
    run m o ⟨.format s tag k name f, bk⟩ (docsEv lb (l.map fun sm => tagDoc tMap (valueMapAtts sm)))
      = .ok ⟨.format s tag k name { f with maps := if l = [] then f.maps else some (f.maps.getD [] ++ l) }, bk⟩ := by
  induction l with
  | nil => intro b; rfl
  | cons sm l ih =>
    intro f
    rw [List.map_cons, docsEv]
    show run m o _ ((.empty _ _ :: nlEv lb) ++ _) = _
    rw [List.cons_append, run, step, onTag]
    simp only
    unfold startInFormat
    rw [part_map, tag_map]
    simp only
    rw [readValueMap_atts]
    show run m o _ (nlEv lb ++ _) = _
    rw [run_nl m o _ rfl, ih]
    by_cases hl : l = []
    · subst hl; simp
    · simp [hl]

/-- **A format** that is written is added when it is read. -/
theorem does_format (m : Refs.Ints) (lb : Bool) (s : Section) (k : Kind) (st : Style Format)
    (h : FormatOk k st.body) :
    Does m st.body.origin (.sect s) (docEv lb (formatDoc k st)) [.format k ⟨st.name, st.body.back lb s⟩] := by
  intro bk
  have happ : bk.applyAll [.format k ⟨st.name, st.body.back lb s⟩] = bk.addFormat k ⟨st.name, st.body.back lb s⟩ := by
    show (bk.addFormat k _).bind (fun b => .ok b) = _
    cases bk.addFormat k ⟨st.name, st.body.back lb s⟩ <;> rfl
  rw [happ]
  unfold formatDoc formatKids
  rw [docEv, run, step, onTag]
  simp only
  unfold startInSection
  rw [sect_format k (format_written k h.kind)]
  simp only
  have hn : ∀ a ∈ escA st.body.attr, a.2.1 ≠ aName := by
    intro a ha
    obtain ⟨b, hb, rfl⟩ := List.mem_map.1 ha
    exact h.noName b hb
  unfold formatAtts
  rw [copyStyle_named _ _ (escA_ok _ h.attr) hn, escA_snd]
  simp only
  rw [docsEv_append, docsEv_append, List.append_assoc, List.append_assoc,
    run_ok m _ _ _ _ _ (run_formatText m _ lb s _ k _ bk _ _ h.text),
    run_ok m _ _ _ _ _ (run_parts m _ lb s _ k _ bk _ h.parts _)]
  have hmaps : ∀ f : Format, f.maps = none → run m st.body.origin ⟨.format s (formatTag k) k st.name f, bk⟩
      (docsEv lb (valueMapsDoc st.body.maps))
      = .ok ⟨.format s (formatTag k) k st.name { f with maps := keepList st.body.maps }, bk⟩ := by
    intro f hf
    obtain ⟨f1, f2, f3, f4, f5, f6⟩ := f
    simp only at hf
    subst hf
    cases st.body.maps with
    | none => rfl
    | some l =>
      simp only [valueMapsDoc]
      rw [run_valueMaps, keepList_some]
      simp
  rw [run_ok m _ _ _ _ _ (hmaps _ rfl), run, step, onEnd]
  simp only [if_true]
  exact run_done m _ lb (.sect s) rfl _

/-! ## Page layouts -/

/-- A page layout that can be written. -/
structure PageOk (p : Page) : Prop where
  style : KeysOk p.style
  header : KeysOk p.header
  footer : KeysOk p.footer

theorem ptag_props : pageTag tPageProps = some .props := by decide +kernel
theorem ptag_header : pageTag tHeaderStyle = some .header := by decide +kernel
theorem ptag_footer : pageTag tFooterStyle = some .footer := by decide +kernel
theorem ptag_hf : pageTag tHFProps = some .hf := by decide +kernel
theorem footer_ne_header : tFooterStyle ≠ tHeaderStyle := by decide +kernel
theorem page_ne_header : tPage ≠ tHeaderStyle := by decide +kernel
theorem page_ne_footer : tPage ≠ tFooterStyle := by decide +kernel
theorem usage_ne_name : aUsage ≠ aName := by decide +kernel

theorem pageAttrs_atts (s : Style Page) :
    pageAttrs [] {} (rawAttrs (pageAtts s)) = .ok (s.name, { usage := s.body.usage }) := by
  obtain ⟨n, u, a, b, c⟩ := s
  cases u with
  | none =>
    show pageAttrs [] {} [(aName, escape n)] = _
    rw [pageAttrs, if_pos rfl, unescape_escape]; rfl
  | some u =>
    show pageAttrs [] {} [(aName, escape n), (aUsage, escape u)] = _
    rw [pageAttrs, if_pos rfl, unescape_escape]
    simp only
    rw [pageAttrs, if_neg usage_ne_name, if_pos rfl, unescape_escape]; rfl

/-- **A page layout** that is written is added when it is read. -/
theorem does_page (m : Refs.Ints) (o : Origin) (lb : Bool) (st : Style Page) (h : PageOk st.body) :
    Does m o (.sect .auto) (docEv lb (pageDoc st)) [.page st] := by
  intro bk
  have happ : bk.applyAll [.page st] = bk.addPage st := by
    show (bk.addPage st).bind (fun b => .ok b) = _
    cases bk.addPage st <;> rfl
  rw [happ]
  unfold pageDoc
  rw [docEv, run, step, onTag]
  simp only
  unfold startInSection
  rw [sect_page]
  simp only
  rw [pageAttrs_atts]
  simp only
  have hprops : run m o ⟨.page st.name { usage := st.body.usage } false false, bk⟩ (docsEv lb (propsDoc tPageProps st.body.style))
      = .ok ⟨.page st.name { usage := st.body.usage, style := st.body.style } false false, bk⟩ := by
    unfold propsDoc
    split
    · rename_i he; rw [he]; rfl
    · rw [docsEv, docsEv, List.append_nil]
      show run m o _ (.empty _ _ :: nlEv lb) = _
      rw [run, step, onTag]
      simp only
      unfold startInPage
      rw [ptag_props]
      simp only
      rw [copyAttrs_esc _ h.style]
      exact run_nl' m o _ rfl lb
  have hheader : run m o ⟨.page st.name { usage := st.body.usage, style := st.body.style } false false, bk⟩
      (docEv lb (.elem false tHeaderStyle [] [tagDoc tHFProps (escA st.body.header)]))
      = .ok ⟨.page st.name { usage := st.body.usage, style := st.body.style, header := st.body.header } false false, bk⟩ := by
    rw [docEv, docsEv, docsEv, List.append_nil]
    show run m o _ (.start _ _ :: ((.empty _ _ :: nlEv lb) ++ _)) = _
    rw [run, step, onTag]
    simp only
    unfold startInPage
    rw [ptag_header]
    simp only
    rw [List.cons_append, run, step, onTag]
    simp only
    unfold startInPage
    rw [ptag_hf]
    simp only [if_true]
    rw [copyAttrs_esc _ h.header]
    simp only [Bool.false_eq_true, if_false]
    rw [run_nl m o _ rfl, run, step, onEnd]
    simp only [if_true]
    exact run_nl' m o _ rfl lb
  have hfooter : run m o ⟨.page st.name { usage := st.body.usage, style := st.body.style, header := st.body.header } false false, bk⟩
      (docEv lb (.elem false tFooterStyle [] [tagDoc tHFProps (escA st.body.footer)]))
      = .ok ⟨.page st.name st.body false false, bk⟩ := by
    rw [docEv, docsEv, docsEv, List.append_nil]
    show run m o _ (.start _ _ :: ((.empty _ _ :: nlEv lb) ++ _)) = _
    rw [run, step, onTag]
    simp only
    unfold startInPage
    rw [ptag_footer]
    simp only
    rw [List.cons_append, run, step, onTag]
    simp only
    unfold startInPage
    rw [ptag_hf]
    simp only [if_true, Bool.false_eq_true, if_false]
    rw [copyAttrs_esc _ h.footer]
    simp only
    rw [run_nl m o _ rfl, run, step, onEnd]
    simp only
    rw [if_neg footer_ne_header]
    simp only [if_true]
    exact run_nl' m o _ rfl lb
  rw [docsEv_append, docsEv, docsEv, docsEv, List.append_nil, List.append_assoc, List.append_assoc,
    run_ok m o _ _ _ _ hprops, run_ok m o _ _ _ _ hheader, run_ok m o _ _ _ _ hfooter, run, step, onEnd]
  simp only
  rw [if_neg page_ne_header, if_neg page_ne_footer]
  simp only [if_true]
  exact run_done m _ lb (.sect .auto) rfl _

end Verif.Style
