import Verif.Style.Read

/-!
# The documents of styles
-/

set_option autoImplicit false

namespace Verif.Style

open Xml Xml.Spec Codec Book

/-- Escaped attributes. -/
def escA (m : Attrs) : List (Bool × Str × Str) := m.map fun a => (true, a.1, a.2)

theorem escA_calls (m : Attrs) : (escA m).map attrCall = escAttrs m := by
  simp [escA, escAttrs, attrCall]

theorem escA_snd (m : Attrs) : (escA m).map (·.2) = m := by
  induction m with
  | nil => rfl
  | cons a m ih =>
    show (a.1, a.2) :: (escA m).map (·.2) = _
    rw [ih]

/-- All names of attributes are XML names. -/
def KeysOk (m : Attrs) : Prop := ∀ a ∈ m, Name a.1

theorem escA_ok (m : Attrs) (h : KeysOk m) : AttrsOk (escA m) := by
  intro a ha
  obtain ⟨b, hb, rfl⟩ := List.mem_map.1 ha
  exact ⟨h b hb, (by intro h; cases h)⟩

/-- An empty tag. -/
def tagDoc (n : Str) (as : List (Bool × Str × Str)) : Doc := .void false n as none false

theorem tagDoc_calls (n : Str) (as : List (Bool × Str × Str)) : docCalls (tagDoc n as) = .empty n :: as.map attrCall := by
  simp [docCalls, tagDoc, docItems, Item.calls]

theorem docsCalls_nil : docsCalls [] = [] := rfl

theorem docsCalls_cons (d : Doc) (ds : List Doc) : docsCalls (d :: ds) = docCalls d ++ docsCalls ds := by
  simp [docsCalls, docCalls, docsItems]

theorem docsCalls_append (a b : List Doc) : docsCalls (a ++ b) = docsCalls a ++ docsCalls b := by
  simp [docsCalls, docsItems_append]

theorem elem_calls (n : Str) (as : List (Bool × Str × Str)) (ds : List Doc) :
    docCalls (.elem false n as ds) = .elem n :: (as.map attrCall ++ docsCalls ds ++ [.endElem n]) := by
  simp [docCalls, docsCalls, docItems, Item.calls]

theorem elemIf_calls (n : Str) (as : List (Bool × Str × Str)) (ds : List Doc) :
    docCalls (.elem true n as ds) = .elemIf true n :: (as.map attrCall ++ docsCalls ds ++ [.endElemIf true n]) := by
  simp [docCalls, docsCalls, docItems, Item.calls]

theorem voidIf_calls (n : Str) (as : List (Bool × Str × Str)) :
    docCalls (.void true n as none true) = .elemIf false n :: (as.map attrCall ++ [.endElemIf false n]) := by
  simp [docCalls, docItems, Item.calls]

theorem docsCalls_map {α : Type} (l : List α) (f : α → Doc) (g : α → List Call) (h : ∀ a, docCalls (f a) = g a) :
    docsCalls (l.map f) = l.flatMap g := by
  induction l with
  | nil => rfl
  | cons a l ih => rw [List.map_cons, docsCalls_cons, ih, h, List.flatMap_cons]

theorem docsCalls_flatMap {α : Type} (l : List α) (f : α → List Doc) (g : α → List Call)
    (h : ∀ a, docsCalls (f a) = g a) : docsCalls (l.flatMap f) = l.flatMap g := by
  induction l with
  | nil => rfl
  | cons a l ih => rw [List.flatMap_cons, docsCalls_append, ih, h, List.flatMap_cons]

/-! ## Styles -/

def propsDoc (tag : Str) (m : Attrs) : List Doc := if m = [] then [] else [tagDoc tag (escA m)]

theorem propsDoc_calls (tag : Str) (m : Attrs) : docsCalls (propsDoc tag m) = props tag m := by
  unfold propsDoc props
  split
  · rfl
  · rw [docsCalls_cons, tagDoc_calls, escA_calls]; simp [docsCalls_nil]

def mapAtts (sm : StyleMap) : List (Bool × Str × Str) :=
  [(true, aCondition, sm.condition), (true, aApply, sm.applied)]
    ++ (match sm.baseCell with | none => [] | some r => [(true, aBaseCell, Refs.fmtCellRef r)])

theorem mapDoc_calls (sm : StyleMap) : docCalls (tagDoc tMap (mapAtts sm)) = writeMap sm := by
  rw [tagDoc_calls]
  obtain ⟨c, a, b⟩ := sm
  cases b <;> rfl

def tabDoc (m : Attrs) : Doc := tagDoc tTabStop (escA m)

theorem tabDoc_calls (m : Attrs) : docCalls (tabDoc m) = writeTab m := by
  unfold tabDoc writeTab
  rw [tagDoc_calls, escA_calls]

def paraDoc (b : Body) : List Doc :=
  if b.para = [] then []
  else
    match b.tabs with
    | none => [tagDoc tParaProps (escA b.para)]
    | some ts => [.elem false tParaProps (escA b.para) [.elem false tTabStops [] (ts.map tabDoc)]]

theorem paraDoc_calls (b : Body) : docsCalls (paraDoc b) = writePara b := by
  unfold paraDoc writePara
  split
  · rfl
  · cases b.tabs with
    | none => simp only; rw [docsCalls_cons, tagDoc_calls, escA_calls]; simp [docsCalls_nil]
    | some ts =>
      simp only
      rw [docsCalls_cons, elem_calls, escA_calls, docsCalls_cons, elem_calls,
        docsCalls_map ts tabDoc writeTab tabDoc_calls]
      simp [docsCalls_nil]

def mapsDoc (m : Option (List StyleMap)) : List Doc :=
  match m with
  | none => []
  | some l => l.map fun sm => tagDoc tMap (mapAtts sm)

def kidDocs : Kind → Body → List Doc
  | .table, b => propsDoc tTableProps b.main
  | .row, b => propsDoc tRowProps b.main
  | .col, b => propsDoc tColProps b.main
  | .cell, b =>
    propsDoc tCellProps b.main ++ propsDoc tParaProps b.para ++ propsDoc tTextProps b.text ++ mapsDoc b.maps
  | .paragraph, b => paraDoc b ++ propsDoc tTextProps b.text
  | .text, b => propsDoc tTextProps b.text
  | .ruby, b => propsDoc tRubyProps b.main
  | .graphic, b => propsDoc tGraphicProps b.main ++ propsDoc tParaProps b.para ++ propsDoc tTextProps b.text
  | _, _ => []

theorem mapsDoc_calls (m : Option (List StyleMap)) :
    docsCalls (mapsDoc m) = (match m with | none => [] | some l => l.flatMap writeMap) := by
  cases m with
  | none => rfl
  | some l => exact docsCalls_map l _ writeMap mapDoc_calls

theorem kidDocs_calls (k : Kind) (b : Body) : docsCalls (kidDocs k b) = writeProps k b := by
  cases k <;> simp only [kidDocs, writeProps, docsCalls_append, propsDoc_calls, mapsDoc_calls, paraDoc_calls] <;> rfl

theorem empty_kids (k : Kind) (b : Body) (h : isEmpty k b = true) : kidDocs k b = [] := by
  obtain ⟨o, u, a, mn, pa, tx, ms, ts⟩ := b
  cases k <;> simp [isEmpty] at h <;> simp [kidDocs, propsDoc, mapsDoc, paraDoc, h]

def styleAtts (k : Kind) (s : Style Body) : List (Bool × Str × Str) :=
  (if s.body.use = .default then [] else [(true, aName, s.name)])
    ++ (false, aFamily, family k) :: escA (ownAttrs s.body.attr)

def styleDoc (k : Kind) (s : Style Body) : Doc :=
  if isEmpty k s.body then .void true (styleTag s.body.use) (styleAtts k s) none true
  else .elem true (styleTag s.body.use) (styleAtts k s) (kidDocs k s.body)

theorem styleAtts_calls (k : Kind) (s : Style Body) : (styleAtts k s).map attrCall =
    (if s.body.use = .default then [] else [.attrEsc aName s.name])
      ++ (.attr aFamily (family k) :: escAttrs (ownAttrs s.body.attr)) := by
  unfold styleAtts
  rw [List.map_append, List.map_cons, escA_calls]
  split <;> rfl

theorem styleDoc_calls (k : Kind) (s : Style Body) : docCalls (styleDoc k s) = writeStyle k s := by
  unfold styleDoc writeStyle
  split
  · rename_i h
    rw [voidIf_calls, styleAtts_calls, ← kidDocs_calls, empty_kids k s.body h, h]
    simp [docsCalls_nil]
  · rename_i h
    rw [elemIf_calls, styleAtts_calls, kidDocs_calls]
    simp at h
    rw [h]; simp

/-! ## Formats -/

def partDoc (p : Part) : Doc :=
  match p.type with
  | .text | .currencySymbol | .fillCharacter =>
    match shown p.content with
    | none => .void true (partTag p.type) (escA p.attr) none true
    | some s => .leaf true (partTag p.type) (escA p.attr) true s
  | .number =>
    match p.position with
    | some pos =>
      .elem false (partTag p.type) (escA p.attr)
        [match p.content with
          | some s => .leaf false tEmbedded [(true, aPosition, decInt pos)] true s
          | none => tagDoc tEmbedded [(true, aPosition, decInt pos)]]
    | none => tagDoc (partTag p.type) (escA p.attr)
  | _ => tagDoc (partTag p.type) (escA p.attr)

theorem leaf_calls (i : Bool) (n : Str) (as : List (Bool × Str × Str)) (s : Str) :
    docCalls (.leaf i n as true s) = (if i then .elemIf true n else .elem n) :: (as.map attrCall
      ++ [.textEsc s, if i then .endElemIf true n else .endElem n]) := by
  cases i <;> simp [docCalls, docItems, Item.calls]

theorem partDoc_calls (p : Part) : docCalls (partDoc p) = writePart p := by
  obtain ⟨t, a, pos, c⟩ := p
  have h1 : ∀ t' : PartType, docCalls (match shown c with
      | none => .void true (partTag t') (escA a) none true
      | some s => .leaf true (partTag t') (escA a) true s)
      = .elemIf (shown c).isSome (partTag t') :: escAttrs a
      ++ (match shown c with | none => [] | some s => [.textEsc s])
      ++ [.endElemIf (shown c).isSome (partTag t')] := by
    intro t'
    cases shown c with
    | none => simp only; rw [voidIf_calls, escA_calls]; simp
    | some s => simp only; rw [leaf_calls, escA_calls]; simp
  cases t with
  | text => exact h1 .text
  | currencySymbol => exact h1 .currencySymbol
  | fillCharacter => exact h1 .fillCharacter
  | number =>
    cases pos with
    | none => show docCalls (tagDoc _ _) = _; rw [tagDoc_calls, escA_calls]; rfl
    | some pos =>
      simp only [partDoc, writePart]
      rw [elem_calls, escA_calls, docsCalls_cons]
      cases c with
      | none => simp only; rw [tagDoc_calls]; simp [docsCalls_nil, attrCall]
      | some s => simp only; rw [leaf_calls]; simp [docsCalls_nil, attrCall]
  | _ => show docCalls (tagDoc _ _) = _; rw [tagDoc_calls, escA_calls]; rfl

def valueMapAtts (sm : ValueMap) : List (Bool × Str × Str) :=
  [(true, aCondition, sm.condition), (true, aApply, sm.applied)]

def valueMapsDoc (m : Option (List ValueMap)) : List Doc :=
  match m with
  | none => []
  | some l => l.map fun sm => tagDoc tMap (valueMapAtts sm)

def formatAtts (s : Style Format) : List (Bool × Str × Str) := (true, aName, s.name) :: escA s.body.attr

def formatKids (f : Format) : List Doc := propsDoc tTextProps f.text ++ f.parts.map partDoc ++ valueMapsDoc f.maps

def formatDoc (k : Kind) (s : Style Format) : Doc := .elem false (formatTag k) (formatAtts s) (formatKids s.body)

theorem formatDoc_calls (k : Kind) (s : Style Format) : docCalls (formatDoc k s) = writeFormat k s := by
  unfold formatDoc writeFormat formatKids formatAtts
  rw [elem_calls, docsCalls_append, docsCalls_append, propsDoc_calls, docsCalls_map _ partDoc writePart partDoc_calls,
    List.map_cons, escA_calls]
  have : docsCalls (valueMapsDoc s.body.maps)
      = (match s.body.maps with | none => [] | some l => l.flatMap writeValueMap) := by
    cases s.body.maps with
    | none => rfl
    | some l => exact docsCalls_map l _ writeValueMap (fun sm => by rw [tagDoc_calls]; rfl)
  rw [this]
  cases s.body.maps <;> simp [attrCall]

/-! ## Page layouts, fonts and sections -/

def pageAtts (s : Style Page) : List (Bool × Str × Str) :=
  (true, aName, s.name) :: (match s.body.usage with | none => [] | some u => [(true, aUsage, u)])

def pageDoc (s : Style Page) : Doc :=
  .elem false tPage (pageAtts s)
    (propsDoc tPageProps s.body.style
      ++ [.elem false tHeaderStyle [] [tagDoc tHFProps (escA s.body.header)],
          .elem false tFooterStyle [] [tagDoc tHFProps (escA s.body.footer)]])

theorem pageDoc_calls (s : Style Page) : docCalls (pageDoc s) = writePage s := by
  unfold pageDoc writePage pageAtts
  rw [elem_calls, docsCalls_append, propsDoc_calls, docsCalls_cons, docsCalls_cons, elem_calls, elem_calls,
    docsCalls_cons, docsCalls_cons, tagDoc_calls, tagDoc_calls, escA_calls, escA_calls]
  cases s.body.usage <;> simp [docsCalls_nil, attrCall]

def fontDoc (f : Font) : Doc := tagDoc tFont ((true, aName, f.name) :: escA f.attr)

theorem fontDoc_calls (f : Font) : docCalls (fontDoc f) = writeFont f := by
  unfold fontDoc writeFont
  rw [tagDoc_calls, List.map_cons, escA_calls]; rfl

def fontsOf (b : SBook) (o : Origin) : List Font := (b.fonts.map Prod.snd).filter fun f => f.origin = o

def fontsDoc (b : SBook) (o : Origin) : Doc :=
  if b.fonts.isEmpty then .void true tFonts [] none true
  else .elem true tFonts [] ((fontsOf b o).map fontDoc)

theorem fontsDoc_calls (b : SBook) (o : Origin) : docCalls (fontsDoc b o) = writeFonts b o := by
  unfold fontsDoc writeFonts
  split
  · rename_i h
    rw [voidIf_calls, h]
    have : b.fonts = [] := by simpa using h
    rw [this]; rfl
  · rename_i h
    rw [elemIf_calls, docsCalls_map _ fontDoc writeFont fontDoc_calls]
    simp at h
    simp [h, fontsOf]

def stylesDocs (b : SBook) (o : Origin) (u : Use) : List Doc :=
  styleKinds.flatMap fun k => (chosen (b.styles.store k) o u).map (styleDoc k)

def formatsDocs (b : SBook) (o : Origin) (u : Use) : List Doc :=
  formatKinds.flatMap fun k => (chosenFormats (b.formats.store k) o u).map (formatDoc k)

def pagesDocs (b : SBook) : List Doc := ((b.pages.store .page).map Prod.snd).map pageDoc

theorem stylesDocs_calls (b : SBook) (o : Origin) (u : Use) : docsCalls (stylesDocs b o u) = writeStyles b o u :=
  docsCalls_flatMap _ _ _ fun k => docsCalls_map _ _ _ (styleDoc_calls k)

theorem formatsDocs_calls (b : SBook) (o : Origin) (u : Use) : docsCalls (formatsDocs b o u) = writeFormats b o u :=
  docsCalls_flatMap _ _ _ fun k => docsCalls_map _ _ _ (formatDoc_calls k)

theorem pagesDocs_calls (b : SBook) : docsCalls (pagesDocs b) = writePages b := docsCalls_map _ _ _ pageDoc_calls

def officeDoc (b : SBook) (o : Origin) : Doc :=
  .elem false tOffice [] (stylesDocs b o .default ++ stylesDocs b o .named ++ formatsDocs b o .named
    ++ formatsDocs b o .default)

def autoDoc (b : SBook) (o : Origin) : Doc :=
  .elem false tAuto [] (pagesDocs b ++ stylesDocs b o .automatic ++ formatsDocs b o .automatic)

theorem officeDoc_calls (b : SBook) (o : Origin) : docCalls (officeDoc b o) = writeOffice b o := by
  unfold officeDoc writeOffice
  rw [elem_calls, docsCalls_append, docsCalls_append, docsCalls_append, stylesDocs_calls, stylesDocs_calls,
    formatsDocs_calls, formatsDocs_calls, List.map_nil, List.nil_append]

theorem autoDoc_calls (b : SBook) (o : Origin) : docCalls (autoDoc b o) = writeAuto b o := by
  unfold autoDoc writeAuto
  rw [elem_calls, docsCalls_append, docsCalls_append, pagesDocs_calls, stylesDocs_calls, formatsDocs_calls,
    List.map_nil, List.nil_append]

def stylesFileDoc (as : List (Bool × Str × Str)) (b : SBook) : Doc :=
  .elem false tDocStyles as [fontsDoc b .styles, officeDoc b .styles, autoDoc b .styles]

def contentFileDoc (as : List (Bool × Str × Str)) (b : SBook) : Doc :=
  .elem false tDocContent as [fontsDoc b .content, autoDoc b .content]

theorem stylesFile_calls (as : List (Bool × Str × Str)) (b : SBook) :
    writeStylesFile as b = .dtd "UTF-8".toList :: docCalls (stylesFileDoc as b) := by
  unfold stylesFileDoc writeStylesFile
  rw [elem_calls, docsCalls_cons, docsCalls_cons, docsCalls_cons, fontsDoc_calls, officeDoc_calls, autoDoc_calls]
  simp [docsCalls_nil, rootCalls]

theorem contentFile_calls (as : List (Bool × Str × Str)) (b : SBook) :
    writeContentFile as b = .dtd "UTF-8".toList :: docCalls (contentFileDoc as b) := by
  unfold contentFileDoc writeContentFile
  rw [elem_calls, docsCalls_cons, docsCalls_cons, fontsDoc_calls, autoDoc_calls]
  simp [docsCalls_nil, rootCalls]

def flatFileDoc (as : List (Bool × Str × Str)) (b : SBook) : Doc :=
  .elem false tDocFlat as [fontsDoc b .content, officeDoc b .content, autoDoc b .content]

theorem flatFile_calls (as : List (Bool × Str × Str)) (b : SBook) :
    writeFlatContent as b = .dtd "UTF-8".toList :: docCalls (flatFileDoc as b) := by
  unfold flatFileDoc writeFlatContent
  rw [elem_calls, docsCalls_cons, docsCalls_cons, docsCalls_cons, fontsDoc_calls, officeDoc_calls, autoDoc_calls]
  simp [docsCalls_nil, rootCalls]

end Verif.Style
