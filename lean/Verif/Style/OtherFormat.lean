import Verif.Style.Other

/-!
# Formats and page layouts of other programs
-/

set_option autoImplicit false

namespace Verif.Style

open Xml Xml.Spec Codec Book

/-! ## Specification -/

/-- The elements that are parts of formats. -/
def Spec.partNames : List (Str × PartType) :=
  [("number:boolean".toList, .boolean), ("number:number".toList, .number), ("number:fraction".toList, .fraction),
   ("number:scientific-number".toList, .scientificNumber), ("number:text".toList, .text), ("loext:text".toList, .text),
   ("number:am-pm".toList, .amPm), ("number:day".toList, .day), ("number:day-of-week".toList, .dayOfWeek),
   ("number:era".toList, .era), ("number:hours".toList, .hours), ("number:minutes".toList, .minutes),
   ("number:month".toList, .month), ("number:quarter".toList, .quarter), ("number:seconds".toList, .seconds),
   ("number:week-of-year".toList, .weekOfYear), ("number:year".toList, .year),
   ("number:currency-symbol".toList, .currencySymbol), ("number:fill-character".toList, .fillCharacter),
   ("loext:fill-character".toList, .fillCharacter), ("number:text-content".toList, .textContent)]

mutual

/-- The texts and references of an element, at any depth. -/
def pieces : El → List Str
  | .text s => [s]
  | .ref r => [entity r]
  | .void _ _ => []
  | .elem _ _ c => piecesIn c

/-- Of several. -/
def piecesIn : List El → List Str
  | [] => []
  | e :: c => pieces e ++ piecesIn c

end

mutual

/-- The texts of an element without its references. -/
def texts : El → List Str
  | .text s => [s]
  | .ref _ => []
  | .void _ _ => []
  | .elem _ _ c => textsIn c

/-- Of several. -/
def textsIn : List El → List Str
  | [] => []
  | e :: c => texts e ++ textsIn c

end

/-- The position an embedded text has. -/
def positionSaid (as : List (Str × Str)) : Option Int := (as.lookup aPosition).bind (parseInt 32)

/-- **What an element says of a part**: its attributes, for texts, currency symbols and fill characters its text, and
for numbers the embedded text.  Of several embedded texts the last counts. -/
def partSaid (t : PartType) (as : List (Str × Str)) (c : List El) : Part :=
  { type := t
    attr := plainAttrs as
    position := if t = .number then ((named tEmbedded (elTagsIn c)).filterMap positionSaid).getLast? else none
    content :=
      if t ∈ [.text, .currencySymbol, .fillCharacter] then (someIf (piecesIn c)).map List.flatten
      else if t = .number then (textsIn c).getLast?
      else none }

mutual

/-- The parts of a format. -/
def parts : El → List Part
  | .text _ => []
  | .ref _ => []
  | .void n as => match Spec.partNames.lookup n with | some t => [partSaid t as []] | none => []
  | .elem n as c => match Spec.partNames.lookup n with | some t => [partSaid t as c] | none => partsIn c

/-- Of several elements. -/
def partsIn : List El → List Part
  | [] => []
  | e :: c => parts e ++ partsIn c

end

mutual

/-- The tags beside the parts. -/
def outerTags : El → List Tag
  | .text _ => []
  | .ref _ => []
  | .void n as => match Spec.partNames.lookup n with | some _ => [] | none => [(n, as)]
  | .elem n as c => match Spec.partNames.lookup n with | some _ => [] | none => (n, as) :: outerTagsIn c

/-- Of several elements. -/
def outerTagsIn : List El → List Tag
  | [] => []
  | e :: c => outerTags e ++ outerTagsIn c

end

/-- What a tag says of a conditional format. -/
def valueMapSaid (as : List (Str × Str)) : ValueMap := ⟨(attrOf as aCondition).getD [], (attrOf as aApply).getD []⟩

/-- **What an element says of a format.** -/
def formatSaid (o : Origin) (u : Use) (as : List (Str × Str)) (c : List El) : Format :=
  { origin := o
    use := u
    attr := attrsSaid as
    text := propsOf tTextProps (outerTagsIn c)
    parts := partsIn c
    maps := someIf ((named tMap (outerTagsIn c)).map valueMapSaid) }

/-- Attributes that can be read: none is given twice, and their escapes are known. -/
structure AttrsFine (as : List (Str × Str)) : Prop where
  once : (as.map Prod.fst).Nodup
  plain : Escaped as

/-- The positions of embedded texts can be read. -/
def PositionsFine (c : List El) : Prop :=
  ∀ as ∈ named tEmbedded (elTagsIn c), AttrsFine as ∧ ∀ v, as.lookup aPosition = some v → ∃ i, parseInt 32 v = some i

mutual

/-- A part of a format that can be read: there is no other element of the same name in it. -/
def PartsFine : El → Prop
  | .text _ => True
  | .ref _ => True
  | .void _ as => Escaped as
  | .elem n as c =>
    Escaped as ∧ match Spec.partNames.lookup n with
      | some t => NoStartIn n c ∧ (t = .number → PositionsFine c)
      | none => PartsFineIn c

/-- Several. -/
def PartsFineIn : List El → Prop
  | [] => True
  | e :: c => PartsFine e ∧ PartsFineIn c

end

/-- The content of a format that can be read. -/
structure FormatFine (tag : Str) (c : List El) : Prop where
  parts : PartsFineIn c
  flat : NoStartIn tag c
  maps : ∀ as ∈ named tMap (outerTagsIn c), AttrsFine as

/-! ## Names -/

theorem lookup_if {α : Type} {n a : Str} {b : α} {l : List (Str × α)} {x : Option α} (h : x = l.lookup n) :
    (if n = a then some b else x) = ((a, b) :: l).lookup n := by
  rw [List.lookup_cons]
  by_cases hn : n = a
  · rw [if_pos hn, show (n == a) = true by simpa using hn]
  · rw [if_neg hn, show (n == a) = false by simpa using hn, h]

theorem readPartTag_lookup (n : Str) : readPartTag n = Spec.partNames.lookup n := by
  unfold readPartTag Spec.partNames
  repeat refine lookup_if ?_
  rfl

/-! ## Parts -/

theorem how_text (t : PartType) : t.how = .text ↔ t ∈ [.text, .currencySymbol, .fillCharacter] := by
  cases t <;> simp [PartType.how]

theorem how_number (t : PartType) : t.how = .number ↔ t = .number := by cases t <;> simp [PartType.how]

theorem named_append (t : Str) (a b : List Tag) : named t (a ++ b) = named t a ++ named t b := by
  unfold named; rw [List.filter_append, List.map_append]

theorem propsOf_append (t : Str) (a b : List Tag) : propsOf t (a ++ b) = propsOf t a ++ propsOf t b := by
  unfold propsOf; rw [List.flatMap_append]

theorem named_cons (t n : Str) (as : List (Str × Str)) (ts : List Tag) :
    named t ((n, as) :: ts) = (if n = t then [as] else []) ++ named t ts := by
  unfold named
  rw [List.filter_cons]
  by_cases h : n = t
  · rw [if_pos h, if_pos (by simpa using h)]; rfl
  · rw [if_neg h, if_neg (by simpa using h)]; rfl

theorem propsOf_cons (t n : Str) (as : List (Str × Str)) (ts : List Tag) :
    propsOf t ((n, as) :: ts) = (if n = t then plainAttrs as else []) ++ propsOf t ts := by
  unfold propsOf; rw [List.flatMap_cons]

theorem readPosition_said (as : List (Str × Str)) (hd : (as.map Prod.fst).Nodup)
    (h : ∀ v, as.lookup aPosition = some v → ∃ i, parseInt 32 v = some i) : ∀ p : Part,
    readPosition p as = .ok { p with position := (positionSaid as).or p.position } := by
  induction as with
  | nil => intro p; rfl
  | cons a as ih =>
    intro p
    obtain ⟨k, v⟩ := a
    rw [List.map_cons, List.nodup_cons] at hd
    unfold positionSaid at ih ⊢
    rw [List.lookup_cons] at h ⊢
    rw [readPosition]
    by_cases hk : k = aPosition
    · subst hk
      rw [beq_self_eq_true] at h ⊢
      obtain ⟨i, hi⟩ := h v rfl
      have hl := lookup_absent as aPosition hd.1
      rw [if_pos rfl, hi]
      simp only
      rw [ih hd.2 (fun v hv => by rw [hl] at hv; cases hv), hl]
      show _ = Except.ok { p with position := (parseInt 32 v).or p.position }
      rw [hi]
      rfl
    · rw [show (aPosition == k) = false by simpa using fun e => hk e.symm] at h ⊢
      rw [if_neg hk, ih hd.2 h]

section Parts

variable (m : Refs.Ints) (o : Origin) (s : Section) (tag : Str) (k : Kind) (name : Str) (f : Format) (bk : SBook) (pt : Str)

mutual

theorem plain_part (x : El) (p : Part) (h : x.NoStart pt) :
    run m o ⟨.part s tag k name f pt .plain p, bk⟩ x.events = .ok ⟨.part s tag k name f pt .plain p, bk⟩ :=
  match x with
  | .text _ => rfl
  | .ref _ => rfl
  | .void n as => by
    rw [El.events, run, step, onTag]
    simp only
    rw [if_neg (fun e => by cases e.1)]
    rfl
  | .elem n as c => by
    rw [El.events, run, step, onTag]
    simp only
    rw [if_neg (fun e => by cases e.1)]
    simp only
    rw [run_ok m o _ _ _ _ (plain_partIn c p h.2), run, step, onEnd]
    simp only
    rw [if_neg h.1]
    rfl

theorem plain_partIn (c : List El) (p : Part) (h : NoStartIn pt c) :
    run m o ⟨.part s tag k name f pt .plain p, bk⟩ (evsOf c) = .ok ⟨.part s tag k name f pt .plain p, bk⟩ :=
  match c with
  | [] => rfl
  | x :: c => by rw [evsOf, run_ok m o _ _ _ _ (plain_part x p h.1), plain_partIn c p h.2]

end

/-- Appends pieces of text. -/
def addText (x : Option Str) (l : List Str) : Option Str := if l = [] then x else some (x.getD [] ++ l.flatten)

theorem addText_append (x : Option Str) (a b : List Str) : addText (addText x a) b = addText x (a ++ b) := by
  unfold addText
  by_cases ha : a = []
  · subst ha; simp
  · by_cases hb : b = []
    · subst hb; simp
    · simp [ha, hb]

mutual

theorem text_part (x : El) (p : Part) (h : x.NoStart pt) :
    run m o ⟨.part s tag k name f pt .text p, bk⟩ x.events
      = .ok ⟨.part s tag k name f pt .text { p with content := addText p.content (pieces x) }, bk⟩ :=
  match x with
  | .text t => by
    rw [pieces]
    show Except.ok (State.mk (.part s tag k name f pt .text (p.append t)) bk) = _
    simp [Part.append, addText]
  | .ref r => by
    rw [pieces]
    show Except.ok (State.mk (.part s tag k name f pt .text (p.append (entity r))) bk) = _
    simp [Part.append, addText]
  | .void n as => by
    rw [El.events, run, step, onTag]
    simp only
    rw [if_neg (fun e => by cases e.1)]
    rfl
  | .elem n as c => by
    rw [El.events, run, step, onTag]
    simp only
    rw [if_neg (fun e => by cases e.1)]
    simp only
    rw [run_ok m o _ _ _ _ (text_partIn c p h.2), run, step, onEnd]
    simp only
    rw [if_neg h.1, pieces]
    rfl

theorem text_partIn (c : List El) (p : Part) (h : NoStartIn pt c) :
    run m o ⟨.part s tag k name f pt .text p, bk⟩ (evsOf c)
      = .ok ⟨.part s tag k name f pt .text { p with content := addText p.content (piecesIn c) }, bk⟩ :=
  match c with
  | [] => rfl
  | x :: c => by
    rw [evsOf, run_ok m o _ _ _ _ (text_part x p h.1), text_partIn c _ h.2, piecesIn]
    simp only [addText_append]

end

/-- What embedded texts and texts make of a number. -/
def numberGo (p : Part) (ts : List Tag) (l : List Str) : Part :=
  { p with
    position := (((named tEmbedded ts).filterMap positionSaid).getLast?).or p.position
    content := l.getLast?.or p.content }

theorem numberGo_go (p : Part) (a b : List Tag) (l r : List Str) :
    numberGo (numberGo p a l) b r = numberGo p (a ++ b) (l ++ r) := by
  unfold numberGo
  simp only [named_append, List.filterMap_append, List.getLast?_append, Option.or_assoc]

/-- A tag in a number. -/
theorem number_tag (n : Str) (as : List (Str × Str)) (e : Bool) (p : Part)
    (h : ∀ as' ∈ named tEmbedded [(n, as)], AttrsFine as' ∧ ∀ v, as'.lookup aPosition = some v → ∃ i, parseInt 32 v = some i) :
    onTag m o ⟨.part s tag k name f pt .number p, bk⟩ n as e
      = .ok ⟨.part s tag k name f pt .number (numberGo p [(n, as)] []), bk⟩ := by
  rw [onTag]
  simp only
  unfold numberGo
  rw [named_cons]
  by_cases hn : n = tEmbedded
  · have h := h as (by rw [named_cons, if_pos hn]; exact List.mem_cons_self)
    rw [if_pos ⟨trivial, hn⟩, readPosition_said as h.1.once h.2, if_pos hn]
    show Except.ok _ = _
    cases hp : positionSaid as <;> simp [named, hp]
  · rw [if_neg (fun e => hn e.2), if_neg hn]
    rfl

mutual

theorem number_part (x : El) (p : Part) (h : x.NoStart pt)
    (hp : ∀ as ∈ named tEmbedded (elTags x), AttrsFine as ∧ ∀ v, as.lookup aPosition = some v → ∃ i, parseInt 32 v = some i) :
    run m o ⟨.part s tag k name f pt .number p, bk⟩ x.events
      = .ok ⟨.part s tag k name f pt .number (numberGo p (elTags x) (texts x)), bk⟩ :=
  match x with
  | .text t => rfl
  | .ref r => rfl
  | .void n as => by
    rw [El.events, run, step, number_tag m o s tag k name f bk pt n as true p hp]
    rfl
  | .elem n as c => by
    have h1 : ∀ as' ∈ named tEmbedded [(n, as)], AttrsFine as' ∧ ∀ v, as'.lookup aPosition = some v → ∃ i, parseInt 32 v = some i :=
      fun as' ha => hp as' (by
        rw [elTags, show (n, as) :: elTagsIn c = [(n, as)] ++ elTagsIn c from rfl, named_append]
        exact List.mem_append_left _ ha)
    have h2 : PositionsFine c := fun as' ha => hp as' (by
      rw [elTags, show (n, as) :: elTagsIn c = [(n, as)] ++ elTagsIn c from rfl, named_append]
      exact List.mem_append_right _ ha)
    rw [El.events, run, step, number_tag m o s tag k name f bk pt n as false p h1]
    simp only
    rw [run_ok m o _ _ _ _ (number_partIn c _ h.2 h2), run, step, onEnd]
    simp only
    rw [if_neg h.1, numberGo_go, elTags, texts]
    rfl

theorem number_partIn (c : List El) (p : Part) (h : NoStartIn pt c) (hp : PositionsFine c) :
    run m o ⟨.part s tag k name f pt .number p, bk⟩ (evsOf c)
      = .ok ⟨.part s tag k name f pt .number (numberGo p (elTagsIn c) (textsIn c)), bk⟩ :=
  match c with
  | [] => rfl
  | x :: c => by
    have h1 : ∀ as ∈ named tEmbedded (elTags x), AttrsFine as ∧ ∀ v, as.lookup aPosition = some v → ∃ i, parseInt 32 v = some i :=
      fun as ha => hp as (by rw [elTagsIn, named_append]; exact List.mem_append_left _ ha)
    have h2 : PositionsFine c := fun as ha => hp as (by rw [elTagsIn, named_append]; exact List.mem_append_right _ ha)
    rw [evsOf, run_ok m o _ _ _ _ (number_part x p h.1 h1), number_partIn c _ h.2 h2, numberGo_go, elTagsIn, textsIn]

end

end Parts

/-! ## Formats -/

/-- Appends to a list that may not be there. -/
def addList {α : Type} (x : Option (List α)) (l : List α) : Option (List α) := if l = [] then x else some (x.getD [] ++ l)

theorem addList_append {α : Type} (x : Option (List α)) (a b : List α) : addList (addList x a) b = addList x (a ++ b) := by
  unfold addList
  by_cases ha : a = []
  · subst ha; simp
  · by_cases hb : b = []
    · subst hb; simp
    · simp [ha, hb]

theorem addList_none {α : Type} (l : List α) : addList none l = someIf l := by
  unfold addList someIf; simp

theorem readValueMap_said (as : List (Str × Str)) : ∀ sm : ValueMap, AttrsFine as →
    readValueMap sm as = .ok ⟨(attrOf as aCondition).getD sm.condition, (attrOf as aApply).getD sm.applied⟩ := by
  induction as with
  | nil => intro sm _; rfl
  | cons a as ih =>
    intro sm h
    obtain ⟨k, v⟩ := a
    obtain ⟨w, h1, h2, h3⟩ := plainAttrs_cons h.plain
    have hd := h.once
    rw [List.map_cons, List.nodup_cons] at hd
    have hrest : AttrsFine as := ⟨hd.2, h2⟩
    rw [attrOf_cons, attrOf_cons]
    cases hk : mapKey k with
    | none =>
      obtain ⟨n1, n2, n3⟩ := mapKey_none hk
      unfold readValueMap
      rw [hk]
      simp only
      rw [if_neg (fun e => n1 e.symm), if_neg (fun e => n2 e.symm)]
      exact ih sm hrest
    | some x =>
      cases x with
      | condition =>
        obtain rfl : k = aCondition := mapKey_some hk
        unfold readValueMap
        rw [hk, h1]
        simp only
        rw [if_pos trivial, if_neg (fun e => cond_ne_apply e.symm), ih _ hrest, attrOf_absent as _ hd.1]
        rfl
      | apply =>
        obtain rfl : k = aApply := mapKey_some hk
        unfold readValueMap
        rw [hk, h1]
        simp only
        rw [if_pos trivial, if_neg cond_ne_apply, ih _ hrest, attrOf_absent as _ hd.1]
        rfl
      | baseCell =>
        obtain rfl : k = aBaseCell := mapKey_some hk
        unfold readValueMap
        rw [hk]
        simp only
        rw [if_neg cond_ne_base, if_neg apply_ne_base]
        exact ih sm hrest

/-- What tags and parts add to a format. -/
def formatGo (f : Format) (ts : List Tag) (ps : List Part) : Format :=
  { f with
    text := f.text ++ propsOf tTextProps ts
    parts := f.parts ++ ps
    maps := addList f.maps ((named tMap ts).map valueMapSaid) }

theorem formatGo_go (f : Format) (a b : List Tag) (p q : List Part) :
    formatGo (formatGo f a p) b q = formatGo f (a ++ b) (p ++ q) := by
  unfold formatGo
  simp only [propsOf_append, named_append, List.map_append, addList_append, List.append_assoc]

theorem formatGo_nil (f : Format) : formatGo f [] [] = f := by
  unfold formatGo
  simp [propsOf, named, addList]

section Formats

variable (m : Refs.Ints) (o : Origin) (s : Section) (tag : Str) (k : Kind) (name : Str) (bk : SBook)

/-- A tag beside the parts. -/
theorem format_tag (f : Format) (n : Str) (as : List (Str × Str)) (e : Bool) (hn : Spec.partNames.lookup n = none)
    (he : Escaped as) (hm : ∀ as' ∈ named tMap [(n, as)], AttrsFine as') :
    onTag m o ⟨.format s tag k name f, bk⟩ n as e = .ok ⟨.format s tag k name (formatGo f [(n, as)] []), bk⟩ := by
  rw [onTag]
  simp only
  unfold startInFormat
  rw [readPartTag_lookup, hn]
  simp only
  have e6 := propsOf_snoc .text [] n as
  have e9 := named_snoc .map [] n as
  simp only [propName, List.nil_append] at e6 e9
  unfold formatGo
  rw [e6, e9]
  rw [e9] at hm
  cases hp : propTag n with
  | none => simp [propsOf, named, addList]
  | some t =>
    cases t with
    | map =>
      have hm := hm as (by rw [hp, if_pos rfl]; simp)
      simp only
      rw [readValueMap_said as {} hm]
      simp [propsOf, named, addList, Except.map, valueMapSaid]
    | text => simp [propsOf, named, addList, Except.map, copyAttrs_plain as he]
    | _ => simp [propsOf, named, addList]

/-- A part. -/
theorem format_part (f : Format) (n : Str) (as : List (Str × Str)) (c : List El) (t : PartType)
    (hn : Spec.partNames.lookup n = some t) (he : Escaped as) (hc : NoStartIn n c) (hp : t = .number → PositionsFine c) :
    run m o ⟨.format s tag k name f, bk⟩ (.start n as :: (evsOf c ++ [.end n]))
      = .ok ⟨.format s tag k name (formatGo f [] [partSaid t as c]), bk⟩ := by
  rw [run, step, onTag]
  simp only
  unfold startInFormat
  rw [readPartTag_lookup, hn]
  simp only
  rw [copyAttrs_plain as he, List.nil_append]
  simp only
  rw [if_neg (by simp)]
  simp only
  have hgo : formatGo f [] [partSaid t as c] = { f with parts := f.parts ++ [partSaid t as c] } := by
    simp [formatGo, propsOf, named, addList]
  rw [hgo]
  have done : ∀ p h, run m o ⟨.part s tag k name f n h p, bk⟩ [.end n]
      = .ok ⟨.format s tag k name { f with parts := f.parts ++ [p] }, bk⟩ := by
    intro p h
    rw [run, step_endPart]
    rfl
  cases hh : t.how with
  | plain =>
    have h1 : t ∉ [PartType.text, .currencySymbol, .fillCharacter] := fun e => by rw [(how_text t).2 e] at hh; cases hh
    have h2 : t ≠ .number := fun e => by rw [(how_number t).2 e] at hh; cases hh
    rw [run_ok m o _ _ _ _ (plain_partIn m o s tag k name f bk n c _ hc), done]
    unfold partSaid
    rw [if_neg h1, if_neg h2, if_neg h2]
  | text =>
    have h1 := (how_text t).1 hh
    have h2 : t ≠ .number := fun e => by rw [(how_number t).2 e] at hh; cases hh
    rw [run_ok m o _ _ _ _ (text_partIn m o s tag k name f bk n c _ hc), done]
    unfold partSaid
    rw [if_pos h1, if_neg h2]
    simp only [addText, someIf]
    by_cases hl : piecesIn c = []
    · simp [hl]
    · simp [hl]
  | number =>
    have h2 := (how_number t).1 hh
    have h1 : t ∉ [PartType.text, .currencySymbol, .fillCharacter] := fun e => by rw [(how_text t).2 e] at hh; cases hh
    rw [run_ok m o _ _ _ _ (number_partIn m o s tag k name f bk n c _ hc (hp h2)), done]
    unfold partSaid numberGo
    rw [if_neg h1, if_pos h2, if_pos h2]
    simp only [Option.or_none]

mutual

theorem format_el (x : El) (f : Format) (h : PartsFine x) (hs : x.NoStart tag)
    (hm : ∀ as ∈ named tMap (outerTags x), AttrsFine as) :
    run m o ⟨.format s tag k name f, bk⟩ x.events = .ok ⟨.format s tag k name (formatGo f (outerTags x) (parts x)), bk⟩ :=
  match x with
  | .text _ => by rw [outerTags, parts, formatGo_nil]; rfl
  | .ref _ => by rw [outerTags, parts, formatGo_nil]; rfl
  | .void n as => by
    rw [El.events, run, step]
    rw [outerTags] at hm ⊢
    rw [parts]
    cases hn : Spec.partNames.lookup n with
    | none =>
      rw [hn] at hm
      rw [format_tag m o s tag k name bk f n as true hn h hm]
      rfl
    | some t =>
      rw [onTag]
      simp only
      unfold startInFormat
      rw [readPartTag_lookup, hn]
      simp only
      rw [copyAttrs_plain as h, List.nil_append]
      cases t <;> simp [formatGo, propsOf, named, addList, partSaid, elTagsIn, piecesIn, textsIn, someIf, run]
  | .elem n as c => by
    rw [El.events]
    rw [outerTags] at hm ⊢
    rw [parts]
    cases hn : Spec.partNames.lookup n with
    | some t =>
      have h' := h.2
      rw [hn] at h'
      simp only at h'
      exact format_part m o s tag k name bk f n as c t hn h.1 h'.1 h'.2
    | none =>
      rw [hn] at hm
      simp only at hm ⊢
      have hm1 : ∀ as' ∈ named tMap [(n, as)], AttrsFine as' := fun as' ha => hm as' (by
        rw [show (n, as) :: outerTagsIn c = [(n, as)] ++ outerTagsIn c from rfl, named_append]
        exact List.mem_append_left _ ha)
      have hm2 : ∀ as' ∈ named tMap (outerTagsIn c), AttrsFine as' := fun as' ha => hm as' (by
        rw [show (n, as) :: outerTagsIn c = [(n, as)] ++ outerTagsIn c from rfl, named_append]
        exact List.mem_append_right _ ha)
      have h' := h.2
      rw [hn] at h'
      simp only at h'
      rw [run, step, format_tag m o s tag k name bk f n as false hn h.1 hm1]
      simp only
      rw [run_ok m o _ _ _ _ (format_elIn c _ h' hs.2 hm2), run, step, onEnd]
      simp only
      rw [if_neg hs.1, formatGo_go]
      rfl

theorem format_elIn (c : List El) (f : Format) (h : PartsFineIn c) (hs : NoStartIn tag c)
    (hm : ∀ as ∈ named tMap (outerTagsIn c), AttrsFine as) :
    run m o ⟨.format s tag k name f, bk⟩ (evsOf c)
      = .ok ⟨.format s tag k name (formatGo f (outerTagsIn c) (partsIn c)), bk⟩ :=
  match c with
  | [] => by rw [outerTagsIn, partsIn, formatGo_nil]; rfl
  | x :: c => by
    rw [outerTagsIn, named_append] at hm
    rw [evsOf, run_ok m o _ _ _ _ (format_el x f h.1 hs.1 fun as ha => hm as (List.mem_append_left _ ha)),
      format_elIn c _ h.2 hs.2 fun as ha => hm as (List.mem_append_right _ ha), formatGo_go, outerTagsIn, partsIn]

end

end Formats

end Verif.Style
