import Verif.Codec.Reach
import Verif.Script.Props
import Verif.Style.OtherFound

/-!
# C113: scripts and listeners of other programs
-/

set_option autoImplicit false

namespace Verif.Script

open Xml Xml.Spec Codec Book
open Verif.Style (AttrsFine attrOf_cons attrOf_absent)

/-! ## Specification -/

/-- The names that matter. -/
def scriptNames : List Str := [tScripts, tScript, tListener]

/-- The script that an element means. -/
def scriptSaid (as : List (Str × Str)) (c : List El) : Script :=
  { lang := (Style.attrOf as aLang).getD [], content := treesOf c }

/-- The listener that an element means. -/
def listenerSaid (as : List (Str × Str)) : Listener :=
  { event := (Style.attrOf as aEvent).getD []
    lang := (Style.attrOf as aLang).getD []
    macroName := (Style.attrOf as aMacro).getD []
    actuate := ((Style.attrOf as aActuate).bind parseActuate).getD .onLoad
    href := (Style.attrOf as aHref).getD []
    type := ((Style.attrOf as aType).bind parseType).getD .simple }

def scriptOfEl : El → Option Script
  | .elem n as c => if n = tScript then some (scriptSaid as c) else none
  | _ => none

def listenerOfEl : El → Option Listener
  | .void n as => if n = tListener then some (listenerSaid as) else none
  | .elem n as _ => if n = tListener then some (listenerSaid as) else none
  | _ => none

/-- The scripts of the section, in the order of the file. -/
def scriptsSaid (c : List El) : List Script := (reachIn scriptNames c).filterMap scriptOfEl

/-- The listeners of the section, in the order of the file. -/
def listenersSaid (c : List El) : List Listener := (reachIn scriptNames c).filterMap listenerOfEl

/-- Attributes of a listener that can be read. -/
structure ListenerFine (as : List (Str × Str)) : Prop where
  attrs : AttrsFine as
  actuate : ∀ v, Style.attrOf as aActuate = some v → (parseActuate v).isSome = true
  type : ∀ v, Style.attrOf as aType = some v → (parseType v).isSome = true

/-- There are no elements inside. -/
def NoElements (d : List El) : Prop := ∀ x ∈ d, match x with
  | .text _ => True
  | .ref _ => True
  | _ => False

/-- An element that can be read: scripts have a start tag and an end tag, listeners are empty tags or have no elements
inside. -/
def ScriptFine : El → Prop
  | .elem n as d => (n = tScript ∧ AttrsFine as ∧ CleanIn d ∧ NoStartIn tScript d)
      ∨ (n = tListener ∧ ListenerFine as ∧ NoElements d)
  | .void n as => n ≠ tScript ∧ (n = tListener → ListenerFine as)
  | _ => True

/-- All elements of the section can be read. -/
def ScriptsFine (c : List El) : Prop := ∀ x ∈ reachIn scriptNames c, ScriptFine x

/-! ## Attributes -/

theorem escaped_cons {k v : Str} {as : List (Str × Str)} (hp : Escaped ((k, v) :: as)) :
    ∃ w, unescape v = some w ∧ Escaped as ∧ plainAttrs ((k, v) :: as) = (k, w) :: plainAttrs as := by
  unfold Escaped at hp
  rw [unescapeAttrs] at hp
  cases hv : unescape v with
  | none => rw [hv] at hp; cases hu : unescapeAttrs as <;> rw [hu] at hp <;> cases hp
  | some w =>
    cases hu : unescapeAttrs as with
    | none => rw [hv, hu] at hp; cases hp
    | some y =>
      refine ⟨w, rfl, ?_, ?_⟩
      · unfold Escaped; rw [hu]; rfl
      · unfold plainAttrs; rw [unescapeAttrs, hv, hu]; rfl

theorem plain_names (as : List (Str × Str)) (hp : Escaped as) : (plainAttrs as).map Prod.fst = as.map Prod.fst := by
  induction as with
  | nil => rfl
  | cons kv as ih =>
    obtain ⟨k, v⟩ := kv
    obtain ⟨w, -, h2, h3⟩ := escaped_cons hp
    rw [h3, List.map_cons, List.map_cons, ih h2]

theorem attrOf_plain (k : Str) (as : List (Str × Str)) (h : AttrsFine as) :
    attrOf k (plainAttrs as) = Style.attrOf as k := by
  obtain ⟨hd, hp⟩ := h
  induction as with
  | nil => rfl
  | cons kv as ih =>
    obtain ⟨j, v⟩ := kv
    obtain ⟨w, h1, h2, h3⟩ := escaped_cons hp
    rw [List.map_cons, List.nodup_cons] at hd
    rw [h3, attrOf_cons, h1]
    have ih := ih hd.2 h2
    unfold attrOf at ih ⊢
    rw [List.reverse_cons, List.find?_append]
    by_cases e : k = j
    · subst e
      rw [if_pos rfl, List.find?_eq_none.2 (by
        intro x hx
        simp only [decide_eq_true_eq]
        intro hxk
        refine hd.1 ?_
        rw [← plain_names as h2, ← hxk]
        exact List.mem_map.2 ⟨x, List.mem_reverse.1 hx, rfl⟩)]
      simp
    · rw [if_neg e, ← ih]
      have : List.find? (fun a : Str × Str => decide (a.1 = k)) [(j, w)] = none := by
        rw [List.find?_cons_of_neg (by simp; exact fun g => e g.symm)]
        rfl
      rw [this, Option.or_none]

theorem lKey_apart : [aEvent, aLang, aMacro, aActuate, aHref, aType].Nodup := by decide +kernel

theorem readListener_said (as : List (Str × Str)) (h : ListenerFine as) : ∀ e : Listener,
    readListener e as = .ok
      { event := (Style.attrOf as aEvent).getD e.event
        lang := (Style.attrOf as aLang).getD e.lang
        macroName := (Style.attrOf as aMacro).getD e.macroName
        actuate := ((Style.attrOf as aActuate).bind parseActuate).getD e.actuate
        href := (Style.attrOf as aHref).getD e.href
        type := ((Style.attrOf as aType).bind parseType).getD e.type } := by
  obtain ⟨⟨hd, hp⟩, h1, h2⟩ := h
  have ha := lKey_apart
  simp only [List.nodup_cons, List.mem_cons, List.not_mem_nil, or_false, not_or, not_false_eq_true, List.nodup_nil,
    and_true] at ha
  induction as with
  | nil => intro e; rfl
  | cons kv as ih =>
    obtain ⟨k, v⟩ := kv
    intro e
    obtain ⟨w, hw, hp', -⟩ := escaped_cons hp
    rw [List.map_cons, List.nodup_cons] at hd
    have hno : ∀ t, k = t → Style.attrOf as t = none := fun t e => attrOf_absent as t (by rw [← e]; exact hd.1)
    have hcons : ∀ t, Style.attrOf ((k, v) :: as) t = if t = k then some w else Style.attrOf as t := by
      intro t; rw [attrOf_cons, hw]
    have ih := ih (by
      intro u hu
      by_cases ek : k = aActuate
      · rw [hno _ ek] at hu; cases hu
      · exact h1 u (by rw [hcons, if_neg (Ne.symm ek)]; exact hu)) (by
      intro u hu
      by_cases ek : k = aType
      · rw [hno _ ek] at hu; cases hu
      · exact h2 u (by rw [hcons, if_neg (Ne.symm ek)]; exact hu)) hd.2 hp'
    rw [readListener]
    simp only [hcons]
    unfold lKey
    by_cases k1 : k = aEvent
    · have := hno _ k1
      subst k1
      rw [if_pos rfl]
      simp only [hw, setKey, if_neg (Ne.symm ha.1.1), if_neg (Ne.symm ha.1.2.1), if_neg (Ne.symm ha.1.2.2.1),
        if_neg (Ne.symm ha.1.2.2.2.1), if_neg (Ne.symm ha.1.2.2.2.2), if_true]
      rw [ih, this]
      rfl
    rw [if_neg k1]
    by_cases k2 : k = aLang
    · have := hno _ k2
      subst k2
      rw [if_pos rfl]
      simp only [hw, setKey, if_neg ha.1.1, if_neg (Ne.symm ha.2.1.1), if_neg (Ne.symm ha.2.1.2.1),
        if_neg (Ne.symm ha.2.1.2.2.1), if_neg (Ne.symm ha.2.1.2.2.2), if_true]
      rw [ih, this]
      rfl
    rw [if_neg k2]
    by_cases k3 : k = aMacro
    · have := hno _ k3
      subst k3
      rw [if_pos rfl]
      simp only [hw, setKey, if_neg ha.1.2.1, if_neg ha.2.1.1, if_neg (Ne.symm ha.2.2.1.1),
        if_neg (Ne.symm ha.2.2.1.2.1), if_neg (Ne.symm ha.2.2.1.2.2), if_true]
      rw [ih, this]
      rfl
    rw [if_neg k3]
    by_cases k4 : k = aActuate
    · have := hno _ k4
      obtain ⟨y, hy⟩ := Option.isSome_iff_exists.1 (h1 w (by rw [hcons, if_pos k4.symm]))
      subst k4
      rw [if_pos rfl]
      simp only [hw, setKey, hy, orFail, Except.map, if_neg ha.1.2.2.1, if_neg ha.2.1.2.1, if_neg ha.2.2.1.1,
        if_neg (Ne.symm ha.2.2.2.1.1), if_neg (Ne.symm ha.2.2.2.1.2), if_true]
      rw [ih, this]
      simp [hy]
    rw [if_neg k4]
    by_cases k5 : k = aHref
    · have := hno _ k5
      subst k5
      rw [if_pos rfl]
      simp only [hw, setKey, if_neg ha.1.2.2.2.1, if_neg ha.2.1.2.2.1, if_neg ha.2.2.1.2.1,
        if_neg ha.2.2.2.1.1, if_neg (Ne.symm ha.2.2.2.2), if_true]
      rw [ih, this]
      rfl
    rw [if_neg k5]
    by_cases k6 : k = aType
    · have := hno _ k6
      obtain ⟨y, hy⟩ := Option.isSome_iff_exists.1 (h2 w (by rw [hcons, if_pos k6.symm]))
      subst k6
      rw [if_pos rfl]
      simp only [hw, setKey, hy, orFail, Except.map, if_neg ha.1.2.2.2.2, if_neg ha.2.1.2.2.2, if_neg ha.2.2.1.2.2,
        if_neg ha.2.2.2.1.2, if_neg ha.2.2.2.2, if_true]
      rw [ih, this]
      simp [hy]
    rw [if_neg k6]
    simp only [if_neg (Ne.symm k1), if_neg (Ne.symm k2), if_neg (Ne.symm k3), if_neg (Ne.symm k4), if_neg (Ne.symm k5),
      if_neg (Ne.symm k6)]
    exact ih e

/-! ## The section -/

/-- One element of the section. -/
def scriptStep (b : Scripts) (x : El) : Scripts :=
  match scriptOfEl x, listenerOfEl x with
  | some s, _ => b.addScript s
  | none, some e => b.addListener e
  | none, none => b

theorem scriptsChild_none (b : Scripts) (n : Str) (as : List (Str × Str)) (et : Bool) (es : List Event)
    (h : n ∉ scriptNames) : scriptsChild b n as et es = .ok none := by
  simp only [scriptNames, List.mem_cons, List.not_mem_nil, or_false, not_or] at h
  unfold scriptsChild
  rw [if_neg h.2.1, if_neg (fun g => h.2.2 g.1), if_neg h.2.2]

theorem leaf_end (n : Str) (d : List El) (h : NoElements d) (r : List Event) :
    leafEnd n (evsOf d ++ .end n :: r) = some r := by
  induction d with
  | nil => simp only [evsOf, List.nil_append, leafEnd, if_true]
  | cons x d ih =>
    have ih := ih (fun y hy => h y (List.mem_cons_of_mem _ hy))
    have hx := h x List.mem_cons_self
    cases x with
    | text s => exact ih
    | ref s => exact ih
    | void m as => exact hx.elim
    | elem m as c => exact hx.elim

theorem script_pass (x : El) (h : ScriptFine x) (b : Scripts) : Passes tScripts scriptsChild x.events b (scriptStep b x) := by
  cases x with
  | text s => exact Passes.text _ _ _ _ rfl
  | ref s => exact Passes.text _ _ _ _ rfl
  | void n as =>
    have h : n ≠ tScript ∧ (n = tListener → ListenerFine as) := h
    unfold scriptStep scriptOfEl listenerOfEl
    simp only
    by_cases e : n = tListener
    · rw [if_pos e]
      apply Passes.void
      intro r
      unfold scriptsChild
      rw [if_neg h.1, if_pos ⟨e, rfl⟩, readListener_said as (h.2 e)]
      rfl
    · rw [if_neg e]
      apply Passes.skip
      intro r
      unfold scriptsChild
      rw [if_neg h.1, if_neg (fun g => e g.1), if_neg e]
  | elem n as d =>
    rcases h with ⟨rfl, h1, h2, h3⟩ | ⟨rfl, h1, h2⟩
    · unfold scriptStep scriptOfEl
      simp only [if_true]
      apply Passes.elem
      intro r
      unfold scriptsChild readScript
      rw [if_pos rfl, if_neg (by simp), readXml_elem tScript as d h1.plain h2 h3]
      simp only [Except.map]
      unfold toScript
      simp only [El.tree]
      rw [attrOf_plain aLang as h1]
      rfl
    · unfold scriptStep scriptOfEl listenerOfEl
      have hn : tListener ≠ tScript := by decide +kernel
      simp only [if_true, if_neg hn]
      apply Passes.elem
      intro r
      unfold scriptsChild
      rw [if_neg hn, if_neg (by simp), if_pos rfl, leaf_end tListener d h2]
      simp only
      rw [readListener_said as h1]
      rfl

theorem scriptSteps (xs : List El) : ∀ b : Scripts,
    xs.foldl scriptStep b = { scripts := b.scripts ++ xs.filterMap scriptOfEl
                              listeners := (xs.filterMap listenerOfEl).foldl (fun m e => m.insert e.event e) b.listeners } := by
  induction xs with
  | nil => intro b; simp
  | cons x xs ih =>
    intro b
    rw [List.foldl_cons, ih]
    unfold scriptStep
    cases h1 : scriptOfEl x with
    | some s =>
      have h2 : listenerOfEl x = none := by
        cases x with
        | elem n as d =>
          unfold scriptOfEl at h1
          unfold listenerOfEl
          by_cases e : n = tScript
          · subst e
            exact if_neg (by decide +kernel)
          · simp only [if_neg e] at h1
            cases h1
        | _ => first | rfl | cases h1
      rw [h2, List.filterMap_cons_some h1, List.filterMap_cons_none h2]
      simp [Scripts.addScript]
    | none =>
      rw [List.filterMap_cons_none h1]
      cases h2 : listenerOfEl x with
      | none => rw [List.filterMap_cons_none h2]
      | some e => rw [List.filterMap_cons_some h2]; rfl

theorem listeners_found (l : List Listener) (n : Str) : ∀ m : HMap Str Listener,
    (l.foldl (fun m e => m.insert e.event e) m).get? n = (l.reverse.find? fun e => e.event = n).or (m.get? n) := by
  induction l with
  | nil => intro m; rfl
  | cons e l ih =>
    intro m
    rw [List.foldl_cons, ih, List.reverse_cons, List.find?_append, HMap.get?_insert]
    cases hf : l.reverse.find? fun e => decide (e.event = n) with
    | some y => rfl
    | none =>
      by_cases h : n = e.event
      · simp [h]
      · rw [if_neg (Ne.symm h), List.find?_cons_of_neg (by simp; exact fun g => h g.symm)]
        rfl

/-- The section is read into any workbook. -/
theorem section_read (c : List El) (h : ScriptsFine c) (b : Scripts) (r : List Event) :
    readScripts b (evsOf c ++ .end tScripts :: r)
      = .ok ({ scripts := b.scripts ++ scriptsSaid c
               listeners := (listenersSaid c).foldl (fun m e => m.insert e.event e) b.listeners }, r) := by
  unfold readScripts
  have hc := chain_foldl (tag := tScripts) (f := scriptsChild) scriptStep (reachIn scriptNames c) (fun x hx a =>
    script_pass x (h x hx) a) b
  rw [(El.passReachIn List.mem_cons_self scriptsChild_none c _ _ hc).finish r, scriptSteps]
  rfl

/-- **C113 (partial)**: the scripts of a file of another program are read in their order, with their languages and
contents, and of the listeners for an event the last one.  Missing: scripts that are empty tags, and listeners with
elements inside (which are simplified in the model). -/
theorem C113_scripts_partial (c : List El) (h : ScriptsFine c) :
    ∃ b, (∀ r, readScripts {} (evsOf c ++ .end tScripts :: r) = .ok (b, r))
      ∧ b.scripts = scriptsSaid c
      ∧ ∀ ev, b.listeners.get? ev = (listenersSaid c).reverse.find? fun e => e.event = ev := by
  refine ⟨_, fun r => section_read c h {} r, by simp, fun ev => ?_⟩
  rw [listeners_found]
  simp [HMap.get?]

/-- The section as an office program writes it: a library reference, and two listeners for the same event in their own
element. -/
def officeScripts : List El :=
  [.elem tScript [(aLang, "ooo:Basic".toList)] [.elem "ooo:libraries".toList [] [.void "ooo:library-linked".toList []]],
   .elem "office:event-listeners".toList []
    [.void tListener [(aLang, "ooo:script".toList), (aEvent, "dom:load".toList), (aHref, "a&amp;b".toList)],
     .elem tListener [(aEvent, "dom:load".toList), (aMacro, "Main".toList)] [.text " ".toList]]]

theorem office_reach : reachIn scriptNames officeScripts =
    [.elem tScript [(aLang, "ooo:Basic".toList)] [.elem "ooo:libraries".toList [] [.void "ooo:library-linked".toList []]],
     .void tListener [(aLang, "ooo:script".toList), (aEvent, "dom:load".toList), (aHref, "a&amp;b".toList)],
     .elem tListener [(aEvent, "dom:load".toList), (aMacro, "Main".toList)] [.text " ".toList]] := by
  rfl

/-- The section of an office program meets the hypothesis of the theorem; one script is found, and the second listener
takes the place of the first. -/
theorem C113_meets : ScriptsFine officeScripts
    ∧ (scriptsSaid officeScripts).map (·.lang) = ["ooo:Basic".toList]
    ∧ (listenersSaid officeScripts).map (fun e => (e.event, e.href)) =
        [("dom:load".toList, "a&b".toList), ("dom:load".toList, [])]
    ∧ ((listenersSaid officeScripts).reverse.find? fun e => e.event = "dom:load".toList).map (·.macroName)
        = some "Main".toList := by
  refine ⟨?_, by decide +kernel, by decide +kernel, by decide +kernel⟩
  intro x hx
  rw [office_reach] at hx
  simp only [List.mem_cons, List.not_mem_nil, or_false] at hx
  rcases hx with rfl | rfl | rfl
  · exact .inl ⟨rfl, ⟨by decide +kernel, by unfold Escaped; decide +kernel⟩,
      ⟨⟨by unfold Escaped; decide +kernel, by unfold El.Clean Escaped; decide +kernel, trivial⟩, trivial⟩,
      ⟨⟨by decide +kernel, trivial, trivial⟩, trivial⟩⟩
  · refine ⟨by decide +kernel, fun _ => ⟨⟨by decide +kernel, by unfold Escaped; decide +kernel⟩, ?_, ?_⟩⟩
    · intro v hv
      cases (show (none : Option Str) = some v from hv)
    · intro v hv
      cases (show (none : Option Str) = some v from hv)
  · refine .inr ⟨rfl, ⟨⟨by decide +kernel, by unfold Escaped; decide +kernel⟩, ?_, ?_⟩, ?_⟩
    · intro v hv
      cases (show (none : Option Str) = some v from hv)
    · intro v hv
      cases (show (none : Option Str) = some v from hv)
    · intro y hy
      cases List.mem_singleton.1 hy
      exact trivial

end Verif.Script
