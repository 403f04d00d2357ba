import Verif.Script.Model
import Verif.Codec.NoteProps
import Verif.Xml.Fragment

/-!
# C74: scripts and event listeners
-/

set_option autoImplicit false

namespace Verif.Script

open Xml Xml.Spec Codec Book

/-! ## Specification -/

/-- Reading the section of a text. -/
def readOffice (text : Str) : Except Fault Scripts :=
  match tokenize text with
  | none => .error .malformed
  | some ts =>
    match events ts with
    | .start n _ :: es => if n = tScripts then (readScripts {} es).map Prod.fst else .error .malformed
    | _ => .error .malformed

/-- A script that can be written: the names are XML names, there is no script within the script, and in flat files
there are only texts, because of the line breaks. -/
structure ScriptOk (lb : Bool) (s : Script) : Prop where
  names : AllNamesOk s.content
  without : AllWithout tScript s.content
  breaks : lb = false ∨ ∀ x ∈ s.content, ∃ t, x = .text t

/-- A listener as the standard spells it. -/
def properActuate : Actuate → Str
  | .onLoad => "onLoad".toList
  | .onRequest => "onRequest".toList

/-- The section as another program writes it: each script has its end tag, and the values of `xlink:actuate` are
those of the standard. -/
def properOffice (ss : List Script) (ls : List Listener) : List Call :=
  .elem tScripts
    :: ((ss.flatMap fun s => .elem tScript :: .attrEsc aLang s.lang :: (writeNodes s.content ++ [.endElem tScript]))
      ++ ((ls.flatMap fun e => [.empty tListener, .attrEsc aEvent e.event, .attrEsc aLang e.lang,
          .attrEsc aMacro e.macroName, .attrEsc aActuate (properActuate e.actuate), .attrEsc aHref e.href,
          .attrEsc aType e.type.fmt])
        ++ [.endElem tScripts]))

/-- The same script: the language, and the content says the same. -/
def SameScript (s t : Script) : Prop := t.lang = s.lang ∧ treesSay t.content = treesSay s.content

/-! ## Items -/

/-- The items of a script, with the name in its end tag. -/
def scriptItems (endName : Str) (s : Script) : List Item :=
  .start false tScript [(true, aLang, s.lang)] :: (nodesItems s.content ++ [.end false endName])

/-- The attributes of a listener, with the value of `xlink:actuate`. -/
def listenerAtts (act : Actuate → Str) (e : Listener) : List (Bool × Str × Str) :=
  [(true, aEvent, e.event), (true, aLang, e.lang), (true, aMacro, e.macroName), (true, aActuate, act e.actuate),
   (true, aHref, e.href), (true, aType, e.type.fmt)]

def listenerItem (act : Actuate → Str) (e : Listener) : Item := .empty false tListener (listenerAtts act e)

/-- The items of the section. -/
def officeItems (viaIf : Bool) (endName : Str) (act : Actuate → Str) (ss : List Script) (ls : List Listener) :
    List Item :=
  .start viaIf tScripts [] :: (ss.flatMap (scriptItems endName) ++ (ls.map (listenerItem act) ++ [.end viaIf tScripts]))

theorem scriptItems_calls (endName : Str) (ss : List Script) : (ss.flatMap (scriptItems endName)).flatMap Item.calls
    = ss.flatMap fun s => .elem tScript :: .attrEsc aLang s.lang :: (writeNodes s.content ++ [.endElem endName]) := by
  rw [List.flatMap_assoc]
  congr 1
  funext s
  unfold scriptItems
  rw [List.flatMap_cons, List.flatMap_append, nodesItems_calls]
  simp [Item.calls, attrCall]

theorem listeners_calls (act : Actuate → Str) (ls : List Listener) : (ls.map (listenerItem act)).flatMap Item.calls
    = ls.flatMap fun e => [.empty tListener, .attrEsc aEvent e.event, .attrEsc aLang e.lang,
          .attrEsc aMacro e.macroName, .attrEsc aActuate (act e.actuate), .attrEsc aHref e.href,
          .attrEsc aType e.type.fmt] := by
  rw [List.flatMap_map]
  rfl

theorem office_calls (ss : List Script) (ls : List Listener) (h : ss ≠ []) :
    (officeItems true tScriptEnd Actuate.fmt ss ls).flatMap Item.calls = writeOffice ss ls := by
  have hs : (!ss.isEmpty) = true := by cases ss with | nil => exact absurd rfl h | cons _ _ => rfl
  unfold officeItems writeOffice writeScripts writeListeners
  rw [List.flatMap_cons, List.flatMap_append, List.flatMap_append, scriptItems_calls, listeners_calls, hs]
  simp [Item.calls]

theorem proper_calls (ss : List Script) (ls : List Listener) :
    (officeItems false tScript properActuate ss ls).flatMap Item.calls = properOffice ss ls := by
  unfold officeItems properOffice
  rw [List.flatMap_cons, List.flatMap_append, List.flatMap_append, scriptItems_calls, listeners_calls]
  simp [Item.calls]

theorem tok_badEnd (lb : Bool) : tokFrom .text (itemText lb (.end false tScriptEnd))
    = some (.text, itemToks lb (.end false tScriptEnd)) := by
  cases lb <;> decide

theorem office_pieces (lb viaIf : Bool) (endName : Str) (act : Actuate → Str) (ss : List Script) (ls : List Listener)
    (he : tokFrom .text (itemText lb (.end false endName)) = some (.text, itemToks lb (.end false endName)))
    (h : ∀ s ∈ ss, AllNamesOk s.content) :
    ∀ i ∈ officeItems viaIf endName act ss ls, tokFrom .text (itemText lb i) = some (.text, itemToks lb i) := by
  intro i hi
  unfold officeItems at hi
  simp only [List.mem_cons, List.mem_append, List.not_mem_nil, or_false, List.mem_flatMap, List.mem_map] at hi
  rcases hi with rfl | ⟨s, hs, hi⟩ | ⟨e, he', rfl⟩ | rfl
  · exact tok_item lb _ ⟨by decide, by intro a ha; cases ha⟩
  · unfold scriptItems at hi
    simp only [List.mem_cons, List.mem_append, List.not_mem_nil, or_false] at hi
    rcases hi with rfl | hi | rfl
    · refine tok_item lb _ ⟨by decide, ?_⟩
      intro a ha
      simp only [List.mem_cons, List.not_mem_nil, or_false] at ha
      subst ha
      exact ⟨(by decide : Name aLang), by intro h; cases h⟩
    · exact tok_item lb _ (nodesItems_valid _ (h s hs) i hi)
    · exact he
  · refine tok_item lb _ ⟨by decide, ?_⟩
    intro a ha
    simp only [listenerAtts, List.mem_cons, List.not_mem_nil, or_false] at ha
    rcases ha with rfl | rfl | rfl | rfl | rfl | rfl
    · exact ⟨(by decide : Name aEvent), by intro h; cases h⟩
    · exact ⟨(by decide : Name aLang), by intro h; cases h⟩
    · exact ⟨(by decide : Name aMacro), by intro h; cases h⟩
    · exact ⟨(by decide : Name aActuate), by intro h; cases h⟩
    · exact ⟨(by decide : Name aHref), by intro h; cases h⟩
    · exact ⟨(by decide : Name aType), by intro h; cases h⟩
  · refine tok_item lb _ ?_
    show Name _
    decide

theorem office_last (viaIf : Bool) (endName : Str) (act : Actuate → Str) (ss : List Script) (ls : List Listener) :
    ∀ i ∈ (officeItems viaIf endName act ss ls).getLast?, ¬ i.Opens := by
  intro i hi
  unfold officeItems at hi
  have hi : i = .end viaIf tScripts := by
    simp only [List.getLast?_cons, List.getLast?_append, Option.getD_some, Option.some_or] at hi
    simpa using hi.symm
  subst hi
  exact id

theorem texts_toks (lb : Bool) (c : List Node) (h : lb = false ∨ ∀ x ∈ c, ∃ t, x = .text t) :
    (nodesItems c).flatMap (itemToks lb) = toks (nodesItems c) := by
  rcases h with rfl | h
  · rfl
  · induction c with
    | nil => rfl
    | cons x c ih =>
      obtain ⟨t, rfl⟩ := h x List.mem_cons_self
      rw [nodesItems, List.flatMap_append, toks_append, ih (fun x hx => h x (List.mem_cons_of_mem _ hx))]
      rfl

/-! ## Reading -/

/-- A script without its proper end tag cannot be read. -/
theorem script_fails (s : Script) (hw : AllWithout tScript s.content) (endName : Str) (hn : endName ≠ tScript)
    (r : List Tok) : readXml tScript [(aLang, escape s.lang)] false
      (events (toks (nodesItems s.content) ++ .end endName :: r)) = .error .mismatchedEnd := by
  obtain ⟨es, h1, h2⟩ := gives_content _ s.content (Nat.le_refl _)
  rw [h1 _ (noChr_end _ _), events_end]
  unfold readXml
  rw [show unescapeAttrs [(aLang, escape s.lang)] = some [(aLang, s.lang)] by
    simp [unescapeAttrs, unescape_escape]]
  simp only [Bool.false_eq_true, if_false]
  rw [read_content tScript h2 _ _ _ (norms_without tScript _ s.content (Nat.le_refl _) hw), readXmlLoop,
    if_pos (by simpa [Frame.adds] using hn)]

/-- A script with its end tag. -/
theorem script_reads (s : Script) (hw : AllWithout tScript s.content)
    (r : List Tok) : readXml tScript [(aLang, escape s.lang)] false
      (events (toks (nodesItems s.content) ++ .end tScript :: r))
      = .ok (.tag tScript [(aLang, s.lang)] (norms s.content), events r) := by
  obtain ⟨es, h1, h2⟩ := gives_content _ s.content (Nat.le_refl _)
  rw [h1 _ (noChr_end _ _), events_end]
  unfold readXml
  rw [show unescapeAttrs [(aLang, escape s.lang)] = some [(aLang, s.lang)] by
    simp [unescapeAttrs, unescape_escape]]
  simp only [Bool.false_eq_true, if_false]
  rw [read_content tScript h2 _ _ _ (norms_without tScript _ s.content (Nat.le_refl _) hw), readXmlLoop,
    if_neg (by simp [Frame.adds]), if_pos rfl]
  simp [Frame.adds, Frame.node]

/-- A script as it is read. -/
def scriptBack (s : Script) : Script := { s with content := norms s.content }

theorem script_steps (lb : Bool) (s : Script) (h : ScriptOk lb s) (b : Scripts) :
    Steps tScripts scriptsChild ((scriptItems tScript s).flatMap (itemToks lb)) b (b.addScript (scriptBack s)) := by
  have ht : (scriptItems tScript s).flatMap (itemToks lb) = .start tScript [(aLang, escape s.lang)]
      :: (toks (nodesItems s.content) ++ .end tScript :: (nl lb).map Tok.chr) := by
    unfold scriptItems
    rw [List.flatMap_cons, List.flatMap_append, texts_toks lb _ h.breaks]
    simp [itemToks, rawAttrs, rawVal]
  rw [ht]
  apply Steps.elem
  intro r
  rw [scriptsChild, if_pos rfl, readScript]
  simp only [Bool.false_eq_true, if_false]
  rw [script_reads s h.without]
  rfl

theorem scripts_steps (lb : Bool) (ss : List Script) (h : ∀ s ∈ ss, ScriptOk lb s) : ∀ b : Scripts,
    Steps tScripts scriptsChild ((ss.flatMap (scriptItems tScript)).flatMap (itemToks lb)) b
      { b with scripts := b.scripts ++ ss.map scriptBack } := by
  induction ss with
  | nil => intro b; rw [List.map_nil, List.append_nil]; exact Steps.nil _ _ _
  | cons s ss ih =>
    intro b
    rw [List.flatMap_cons, List.flatMap_append]
    have := (script_steps lb s (h s List.mem_cons_self) b).append
      (ih (fun s hs => h s (List.mem_cons_of_mem _ hs)) (b.addScript (scriptBack s)))
    simpa [Scripts.addScript] using this

theorem key_event : lKey aEvent = some .event := by decide
theorem key_lang : lKey aLang = some .lang := by decide
theorem key_macro : lKey aMacro = some .macroName := by decide
theorem key_actuate : lKey aActuate = some .actuate := by decide
theorem key_href : lKey aHref = some .href := by decide
theorem key_type : lKey aType = some .type := by decide

theorem parse_type (t : LinkType) : parseType t.fmt = some t := by cases t <;> decide
theorem parse_proper (a : Actuate) : parseActuate (properActuate a) = some a := by cases a <;> decide
theorem parse_written (a : Actuate) : parseActuate a.fmt = none := by cases a <;> decide

theorem listener_reads (e : Listener) : readListener {} (rawAttrs (listenerAtts properActuate e)) = .ok e := by
  simp only [rawAttrs, listenerAtts, List.map_cons, List.map_nil, rawVal, readListener, key_event, key_lang, key_macro,
    key_actuate, key_href, key_type, unescape_escape, setKey, parse_type, parse_proper, orFail]
  rfl

theorem listener_fails (e : Listener) : readListener {} (rawAttrs (listenerAtts Actuate.fmt e)) = .error .parse := by
  simp only [rawAttrs, listenerAtts, List.map_cons, List.map_nil, rawVal, readListener, key_event, key_lang, key_macro,
    key_actuate, key_href, key_type, unescape_escape, setKey, parse_written, orFail]
  rfl

theorem listeners_steps (lb : Bool) (ls : List Listener) : ∀ b : Scripts,
    Steps tScripts scriptsChild ((ls.map (listenerItem properActuate)).flatMap (itemToks lb)) b
      (ls.foldl Scripts.addListener b) := by
  induction ls with
  | nil => intro b; exact Steps.nil _ _ _
  | cons e ls ih =>
    intro b
    rw [List.map_cons, List.flatMap_cons, List.foldl_cons]
    refine Steps.append ?_ (ih (b.addListener e))
    show Steps _ _ (.empty tListener (rawAttrs (listenerAtts properActuate e)) :: (nl lb).map Tok.chr) _ _
    apply Steps.void
    intro es
    rw [scriptsChild, if_neg (by decide), if_pos ⟨rfl, rfl⟩, listener_reads]
    rfl

/-! ## Properties -/

/-- **C74**: a workbook with a script is written to a file that cannot be read: the end tag of a script is written
as `<//office:script>`.  This holds for all scripts and all listeners. -/
theorem C74_scripts_counterexample (lb : Bool) (ss : List Script) (ls : List Listener) (hs : ss ≠ [])
    (h : ∀ s ∈ ss, ScriptOk lb s) : readOffice (output lb (writeOffice ss ls)) = .error .mismatchedEnd := by
  unfold readOffice
  rw [← office_calls ss ls hs, tok_pieces lb _ (office_pieces lb _ _ _ ss ls (tok_badEnd lb) fun s hs => (h s hs).names)
    (office_last _ _ _ ss ls)]
  cases ss with
  | nil => exact absurd rfl hs
  | cons s ss =>
    obtain ⟨r, hr⟩ : ∃ r, (officeItems true tScriptEnd Actuate.fmt (s :: ss) ls).flatMap (itemToks lb)
        = .start tScripts [] :: .start tScript [(aLang, escape s.lang)]
          :: (toks (nodesItems s.content) ++ .end tScriptEnd :: r) := by
      unfold officeItems scriptItems
      rw [List.flatMap_cons, List.flatMap_cons, List.flatMap_append, List.flatMap_append, List.flatMap_cons,
        List.flatMap_append, texts_toks lb _ (h s List.mem_cons_self).breaks]
      simp only [itemToks, rawAttrs, rawVal, List.map_cons, List.map_nil, List.flatMap_cons, List.flatMap_nil,
        List.append_nil, List.cons_append, List.nil_append, List.append_assoc]
      exact ⟨_, rfl⟩
    simp only [hr, events_start, if_true]
    unfold readScripts
    rw [subLoop, scriptsChild, if_pos rfl, readScript]
    simp only [Bool.false_eq_true, if_false]
    rw [script_fails s (h s List.mem_cons_self).without tScriptEnd (by decide)]
    rfl

/-- **C74**: event listeners are written so that their own reader refuses them: `xlink:actuate` is written as `OnLoad`
or `OnRequest`, and only `onLoad` and `onRequest` are read.  This holds for all listeners, also when no script stands
in the way. -/
theorem C74_listener_counterexample (lb : Bool) (ls : List Listener) (hl : ls ≠ []) :
    readOffice (output lb (.elem tScripts :: (writeListeners ls ++ [.endElem tScripts]))) = .error .parse := by
  have hc : (officeItems false tScript Actuate.fmt [] ls).flatMap Item.calls
      = .elem tScripts :: (writeListeners ls ++ [.endElem tScripts]) := by
    unfold officeItems writeListeners
    rw [List.flatMap_nil, List.nil_append, List.flatMap_cons, List.flatMap_append, listeners_calls]
    simp [Item.calls]
  unfold readOffice
  rw [← hc, tok_pieces lb _ (office_pieces lb _ _ _ [] ls
      (tok_item lb _ (by show Name _; decide)) (by intro s hs; cases hs)) (office_last _ _ _ [] ls)]
  cases ls with
  | nil => exact absurd rfl hl
  | cons e ls =>
    obtain ⟨r, hr⟩ : ∃ r, (officeItems false tScript Actuate.fmt [] (e :: ls)).flatMap (itemToks lb)
        = .start tScripts [] :: .empty tListener (rawAttrs (listenerAtts Actuate.fmt e)) :: r := by
      unfold officeItems
      rw [List.flatMap_nil, List.nil_append, List.flatMap_cons, List.flatMap_append, List.map_cons, List.flatMap_cons]
      simp only [itemToks, listenerItem, rawAttrs, List.map_nil, List.cons_append, List.append_assoc, List.nil_append]
      exact ⟨_, rfl⟩
    simp only [hr, events_start, events_empty, if_true]
    unfold readScripts
    rw [subLoop, scriptsChild, if_neg (by decide), if_pos ⟨rfl, rfl⟩, listener_fails]
    rfl

/-- **C74**: an empty script, as another program may write it, is not read: the reader panics at the end of the
section. -/
theorem C74_empty_counterexample (b : Scripts) (as as' : List (Str × Str)) (h : unescapeAttrs as = some as')
    (es : List Event) : readScripts b (.empty tScript as :: .end tScripts :: es) = .error .panic := by
  unfold readScripts
  rw [List.length_cons, List.length_cons, subLoop, scriptsChild, if_pos rfl, readScript]
  simp only [if_true, h]
  rw [readXmlLoose, if_neg (by decide), if_neg (by decide)]
  rfl

theorem foldl_scripts (ls : List Listener) : ∀ b : Scripts, (ls.foldl Scripts.addListener b).scripts = b.scripts := by
  induction ls with
  | nil => intro b; rfl
  | cons e ls ih => intro b; rw [List.foldl_cons, ih]; rfl

theorem foldl_get (ls : List Listener) (hd : (ls.map (·.event)).Nodup) : ∀ b : Scripts,
    (∀ e ∈ ls, (ls.foldl Scripts.addListener b).listeners.get? e.event = some e)
    ∧ ∀ n, n ∉ ls.map (·.event) → (ls.foldl Scripts.addListener b).listeners.get? n = b.listeners.get? n := by
  induction ls with
  | nil => intro b; exact ⟨(by intro e he; cases he), fun _ _ => rfl⟩
  | cons e ls ih =>
    intro b
    rw [List.map_cons, List.nodup_cons] at hd
    obtain ⟨h1, h2⟩ := ih hd.2 (b.addListener e)
    rw [List.foldl_cons]
    refine ⟨fun x hx => ?_, fun n hn => ?_⟩
    · rcases List.mem_cons.1 hx with rfl | hx
      · rw [h2 _ hd.1]
        show (HMap.insert _ _ _).get? _ = _
        rw [HMap.get?_insert, if_pos rfl]
      · exact h1 x hx
    · rw [List.map_cons, List.mem_cons, not_or] at hn
      rw [h2 n hn.2]
      show (HMap.insert _ _ _).get? _ = _
      rw [HMap.get?_insert, if_neg (fun e => hn.1 e.symm)]

/-- **C74 (partial).** The section as another program writes it is read: all scripts in their order, with their
language and content, and all event listeners under their names, and nothing else.

Missing (`_partial`): the files the crate itself writes, see `C74_scripts_counterexample`. -/
theorem C74_foreign_partial (lb : Bool) (ss : List Script) (ls : List Listener) (h : ∀ s ∈ ss, ScriptOk lb s)
    (hd : (ls.map (·.event)).Nodup) :
    ∃ b, readOffice (output lb (properOffice ss ls)) = .ok b
      ∧ Each SameScript ss b.scripts
      ∧ (∀ e ∈ ls, b.listeners.get? e.event = some e)
      ∧ ∀ n, n ∉ ls.map (·.event) → b.listeners.get? n = none := by
  refine ⟨ls.foldl Scripts.addListener { scripts := ss.map scriptBack }, ?_, ?_, ?_, ?_⟩
  · unfold readOffice
    rw [← proper_calls ss ls, tok_pieces lb _ (office_pieces lb _ _ _ ss ls
      (tok_item lb _ (by show Name _; decide)) fun s hs => (h s hs).names) (office_last _ _ _ ss ls)]
    have ht : (officeItems false tScript properActuate ss ls).flatMap (itemToks lb)
        = .start tScripts [] :: (((ss.flatMap (scriptItems tScript)).flatMap (itemToks lb)
          ++ (ls.map (listenerItem properActuate)).flatMap (itemToks lb)) ++ .end tScripts :: (nl lb).map Tok.chr) := by
      unfold officeItems
      rw [List.flatMap_cons, List.flatMap_append, List.flatMap_append]
      simp [itemToks, rawAttrs]
    have hs := (scripts_steps lb ss h {}).append (listeners_steps lb ls { scripts := ss.map scriptBack })
    simp only [ht, events_start, if_true]
    unfold readScripts
    rw [Steps.finish hs]
    rfl
  · rw [foldl_scripts]
    exact each_map _ _ _ fun s _ => ⟨rfl, norms_says _ _ (Nat.le_refl _)⟩
  · exact (foldl_get ls hd _).1
  · intro n hn
    rw [(foldl_get ls hd _).2 n hn]
    rfl

/-! ## Concrete cases -/

/-- A script with markup in its text. -/
def basic : Script := { lang := "ooo:Basic".toList, content := [.text "if a < b & c".toList] }

/-- A listener for the opening of the document. -/
def onOpen : Listener :=
  { event := "dom:load".toList, lang := "ooo:script".toList, macroName := [], actuate := .onLoad,
    href := "vnd.sun.star.script:Main?a&b".toList, type := .simple }

def onSave : Listener := { onOpen with event := "dom:save".toList, actuate := .onRequest }

theorem basic_ok (lb : Bool) : ScriptOk lb basic where
  names := ⟨trivial, trivial⟩
  without := ⟨trivial, trivial⟩
  breaks := Or.inr (by
    intro x hx
    cases hx with
    | head => exact ⟨_, rfl⟩
    | tail _ h => cases h)

example : readOffice (output false (writeOffice [basic] [onOpen])) = .error .mismatchedEnd :=
  C74_scripts_counterexample false [basic] [onOpen] (by decide) (by simpa using basic_ok false)

example : ∃ b, readOffice (output true (properOffice [basic] [onOpen, onSave])) = .ok b
    ∧ Each SameScript [basic] b.scripts
    ∧ (∀ e ∈ [onOpen, onSave], b.listeners.get? e.event = some e)
    ∧ ∀ n, n ∉ [onOpen, onSave].map (·.event) → b.listeners.get? n = none :=
  C74_foreign_partial true [basic] [onOpen, onSave] (by simpa using basic_ok true) (by decide)

end Verif.Script
