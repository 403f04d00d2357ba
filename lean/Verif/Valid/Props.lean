import Verif.Valid.Model
import Verif.Book.NameProps
import Verif.Codec.CellRead
import Verif.Refs.Props

/-!
# What is kept of validations (C49)
-/

set_option autoImplicit false

namespace Verif.Valid

open Xml Xml.Spec Codec Book Refs.Spec

/-! ## Specification -/

/-- The rule of a validation, without its messages. -/
structure Rule where
  condition : Str
  baseCell : CellRef
  allowEmpty : Bool
  displayList : Display
  deriving DecidableEq

def Body.rule (b : Body) : Rule := ⟨b.condition, b.baseCell, b.allowEmpty, b.displayList⟩

/-- A text that can be read: the names are XML names and it does not contain the element around it. -/
def TextOk (tag : Str) : Option Frame → Prop
  | none => True
  | some f => NamesOk f.node ∧ AllWithout tag [f.node]

/-- A validation whose text can be read back: it has a name, the reference to the base cell can be read
(see C35), the list is not hidden. -/
structure Ok (v : Validation) : Prop where
  name : v.name ≠ []
  cell : GoodRef v.body.baseCell ∧ RefU32 v.body.baseCell
  display : v.body.displayList ≠ .noDisplay
  err : ∀ e, v.body.err = some e → TextOk tErr e.text
  help : ∀ e, v.body.help = some e → TextOk tHelp e.text

/-! ## Attributes -/

theorem vkey_name : vKey aName = some .name := by decide +kernel
theorem vkey_cond : vKey aCond = some .condition := by decide +kernel
theorem vkey_empty : vKey aEmpty = some .allowEmpty := by decide +kernel
theorem vkey_base : vKey aBase = some .baseCell := by decide +kernel
theorem vkey_list : vKey aList = some .displayList := by decide +kernel
theorem mkey_display : mKey aDisplay = some .display := by decide +kernel
theorem mkey_type : mKey aType = some .msgType := by decide +kernel
theorem mkey_title : mKey aTitle = some .title := by decide +kernel

/-- The attributes of a validation. -/
def atts (v : Validation) : List (Bool × Str × Str) :=
  [(true, aName, v.name), (true, aCond, condText v.body.condition), (false, aEmpty, fmtBool v.body.allowEmpty),
   (false, aList, v.body.displayList.text), (true, aBase, Refs.fmtCellRef v.body.baseCell)]

theorem plain_display (d : Display) : Plain d.text := by cases d <;> (unfold Plain; decide)
theorem plain_type (d : MessageType) : Plain d.text := by cases d <;> (unfold Plain; decide)

theorem attrsOk_cons (a : Bool × Str × Str) (as : List (Bool × Str × Str)) (h : Name a.2.1)
    (hp : a.1 = false → Plain a.2.2) (has : AttrsOk as) : AttrsOk (a :: as) := by
  intro b hb
  rcases List.mem_cons.1 hb with rfl | hb
  · exact ⟨h, hp⟩
  · exact has b hb

theorem attrsOk_nil : AttrsOk [] := by intro a h; cases h

theorem atts_ok (v : Validation) : AttrsOk (atts v) := by
  refine attrsOk_cons _ _ (by show Name _; simp only; decide +kernel) (by intro h; cases h) ?_
  refine attrsOk_cons _ _ (by show Name _; simp only; decide +kernel) (by intro h; cases h) ?_
  refine attrsOk_cons _ _ (by show Name _; simp only; decide +kernel) (fun _ => plain_bool _) ?_
  refine attrsOk_cons _ _ (by show Name _; simp only; decide +kernel) (fun _ => plain_display _) ?_
  exact attrsOk_cons _ _ (by show Name _; simp only; decide +kernel) (by intro h; cases h) attrsOk_nil

theorem splitBytes_of (c : Str) : splitBytes (condText c) 3 = some c := by
  show splitBytes ('o' :: 'f' :: ':' :: c) 3 = some c
  have e1 : ('o' : Char).utf8Size = 1 := by decide
  have e2 : ('f' : Char).utf8Size = 1 := by decide
  have e3 : (':' : Char).utf8Size = 1 := by decide
  cases c with
  | nil => simp [splitBytes, e1, e2, e3]
  | cons d c => simp [splitBytes, e1, e2, e3]

theorem parseBool_fmt (b : Bool) : parseBool (fmtBool b) = some b := by cases b <;> decide +kernel

theorem parseDisplay (d : Display) (h : d ≠ .noDisplay) : Display.parse d.text = some d := by
  cases d
  · exact absurd rfl h
  · decide +kernel
  · decide +kernel

theorem parseType (d : MessageType) : MessageType.parse d.text = some d := by cases d <;> decide +kernel

/-- The rule that is read. -/
theorem readAttrs_atts (m : Refs.Ints) (hm : m.max = maxU32) (v : Validation) (h : Ok v) :
    readAttrs m Validation.new (rawAttrs (atts v)) = .ok ⟨v.name, { v.body with err := some {}, help := none }⟩ := by
  have h1 : Refs.parseCellRef m (Refs.fmtCellRef v.body.baseCell) = .ok v.body.baseCell :=
    (Refs.C35_roundtrip_partial m hm _ h.cell.2).2 h.cell.1
  obtain ⟨n, b⟩ := v
  obtain ⟨c, r, e, d, er, he⟩ := b
  show readAttrs m Validation.new [(aName, escape n), (aCond, escape (condText c)), (aEmpty, fmtBool e),
    (aList, d.text), (aBase, escape (Refs.fmtCellRef r))] = _
  simp only [readAttrs, readAttr, vkey_name, vkey_cond, vkey_empty, vkey_list, vkey_base, unescape_escape,
    splitBytes_of, parseBool_fmt, parseDisplay d h.display]
  rw [show Refs.parseCellRef m (Refs.fmtCellRef r) = .ok r from h1]
  rfl

/-- The attributes of the messages. -/
def titleAtt (t : Option Str) : List (Bool × Str × Str) := match t with | none => [] | some t => [(true, aTitle, t)]

def errAtts (e : VError) : List (Bool × Str × Str) :=
  (false, aDisplay, fmtBool e.display) :: (false, aType, e.msgType.text) :: titleAtt e.title

def helpAtts (e : VHelp) : List (Bool × Str × Str) := (false, aDisplay, fmtBool e.display) :: titleAtt e.title

theorem titleAtt_ok (t : Option Str) : AttrsOk (titleAtt t) := by
  cases t with
  | none => exact attrsOk_nil
  | some t => exact attrsOk_cons _ _ (by show Name _; simp only; decide +kernel) (by intro h; cases h) attrsOk_nil

theorem errAtts_ok (e : VError) : AttrsOk (errAtts e) := by
  refine attrsOk_cons _ _ (by show Name _; simp only; decide +kernel) (fun _ => plain_bool _) ?_
  exact attrsOk_cons _ _ (by show Name _; simp only; decide +kernel) (fun _ => plain_type _) (titleAtt_ok _)

theorem helpAtts_ok (e : VHelp) : AttrsOk (helpAtts e) :=
  attrsOk_cons _ _ (by show Name _; simp only; decide +kernel) (fun _ => plain_bool _) (titleAtt_ok _)

theorem errAttrs_atts (e : VError) : errAttrs {} (rawAttrs (errAtts e)) = .ok { e with text := none } := by
  obtain ⟨d, t, ti, tx⟩ := e
  cases ti with
  | none =>
    show errAttrs {} [(aDisplay, fmtBool d), (aType, t.text)] = _
    simp only [errAttrs, mkey_display, mkey_type, parseBool_fmt, parseType]
  | some ti =>
    show errAttrs {} [(aDisplay, fmtBool d), (aType, t.text), (aTitle, escape ti)] = _
    simp only [errAttrs, mkey_display, mkey_type, mkey_title, parseBool_fmt, parseType, unescape_escape]

theorem helpAttrs_atts (e : VHelp) : helpAttrs {} (rawAttrs (helpAtts e)) = .ok { e with text := none } := by
  obtain ⟨d, ti, tx⟩ := e
  cases ti with
  | none =>
    show helpAttrs {} [(aDisplay, fmtBool d)] = _
    simp only [helpAttrs, mkey_display, parseBool_fmt]
  | some ti =>
    show helpAttrs {} [(aDisplay, fmtBool d), (aTitle, escape ti)] = _
    simp only [helpAttrs, mkey_display, mkey_title, parseBool_fmt, unescape_escape]

/-! ## Items -/

/-- A message: its items. -/
def msgItems (tag : Str) (as : List (Bool × Str × Str)) : Option Frame → List Item
  | none => [.empty true tag as, .noEnd tag]
  | some f => .start true tag as :: (nodeItems f.node ++ [.end true tag])

def oneItems (v : Validation) : List Item :=
  .start false tOne (atts v)
    :: ((match v.body.err with | none => [] | some e => msgItems tErr (errAtts e) e.text)
      ++ ((match v.body.help with | none => [] | some e => msgItems tHelp (helpAtts e) e.text)
        ++ [.end false tOne]))

def allItems (vs : List Validation) : List Item :=
  .start false tAll [] :: (vs.flatMap oneItems ++ [.end false tAll])

theorem titleAtt_calls (t : Option Str) : (titleAtt t).map attrCall = titleCalls t := by cases t <;> rfl

theorem errItems_calls (e : VError) : (msgItems tErr (errAtts e) e.text).flatMap Item.calls = writeError e := by
  obtain ⟨d, t, ti, tx⟩ := e
  cases tx with
  | none =>
    show (.elemIf false tErr :: .attr aDisplay (fmtBool d) :: .attr aType t.text :: (titleAtt ti).map attrCall)
      ++ ([.endElemIf false tErr] ++ []) = _
    rw [titleAtt_calls]; rfl
  | some f =>
    show (msgItems tErr _ (some f)).flatMap Item.calls = _
    simp only [msgItems, List.flatMap_cons, List.flatMap_append, nodeItems_calls, List.flatMap_nil, List.append_nil]
    show (.elemIf true tErr :: .attr aDisplay (fmtBool d) :: .attr aType t.text :: (titleAtt ti).map attrCall)
      ++ (writeNode f.node ++ [.endElemIf true tErr]) = _
    rw [titleAtt_calls]; rfl

theorem helpItems_calls (e : VHelp) : (msgItems tHelp (helpAtts e) e.text).flatMap Item.calls = writeHelp e := by
  obtain ⟨d, ti, tx⟩ := e
  cases tx with
  | none =>
    show (.elemIf false tHelp :: .attr aDisplay (fmtBool d) :: (titleAtt ti).map attrCall)
      ++ ([.endElemIf false tHelp] ++ []) = _
    rw [titleAtt_calls]; rfl
  | some f =>
    show (msgItems tHelp _ (some f)).flatMap Item.calls = _
    simp only [msgItems, List.flatMap_cons, List.flatMap_append, nodeItems_calls, List.flatMap_nil, List.append_nil]
    show (.elemIf true tHelp :: .attr aDisplay (fmtBool d) :: (titleAtt ti).map attrCall)
      ++ (writeNode f.node ++ [.endElemIf true tHelp]) = _
    rw [titleAtt_calls]; rfl

theorem oneItems_calls (v : Validation) : (oneItems v).flatMap Item.calls = writeOne v := by
  obtain ⟨n, b⟩ := v
  obtain ⟨c, r, e, d, er, he⟩ := b
  cases er <;> cases he <;>
    simp only [oneItems, writeOne, List.flatMap_cons, List.flatMap_append, List.flatMap_nil, List.append_nil,
      List.nil_append, errItems_calls, helpItems_calls] <;> rfl

theorem allItems_calls (vs : List Validation) (h : vs ≠ []) : (allItems vs).flatMap Item.calls = writeAll vs := by
  have hf : (vs.flatMap oneItems).flatMap Item.calls = vs.flatMap writeOne := by
    rw [List.flatMap_assoc]
    congr 1
    funext v
    exact oneItems_calls v
  unfold allItems writeAll
  rw [if_neg (by cases vs with | nil => exact absurd rfl h | cons _ _ => simp)]
  simp only [List.flatMap_cons, List.flatMap_append, List.flatMap_nil, List.append_nil, hf]
  rfl

theorem name_err : Name tErr := by decide +kernel
theorem name_help : Name tHelp := by decide +kernel
theorem name_one : Name tOne := by decide +kernel
theorem name_all : Name tAll := by decide +kernel

theorem msgItems_valid (tag : Str) (ht : Name tag) (as : List (Bool × Str × Str)) (ha : AttrsOk as) (t : Option Frame)
    (h : TextOk tag t) : ∀ i ∈ msgItems tag as t, i.Valid := by
  intro i hi
  cases t with
  | none =>
    simp only [msgItems, List.mem_cons, List.not_mem_nil, or_false] at hi
    rcases hi with rfl | rfl
    · exact ⟨ht, ha⟩
    · trivial
  | some f =>
    simp only [msgItems, List.mem_cons, List.mem_append, List.not_mem_nil, or_false] at hi
    rcases hi with rfl | hi | rfl
    · exact ⟨ht, ha⟩
    · exact nodeItems_valid _ h.1 i hi
    · exact ht

theorem oneItems_valid (v : Validation) (h : Ok v) : ∀ i ∈ oneItems v, i.Valid := by
  intro i hi
  unfold oneItems at hi
  rcases List.mem_cons.1 hi with rfl | hi
  · exact ⟨name_one, atts_ok v⟩
  rcases List.mem_append.1 hi with hi | hi
  · cases he : v.body.err with
    | none => rw [he] at hi; cases hi
    | some e => rw [he] at hi; exact msgItems_valid _ name_err _ (errAtts_ok e) _ (h.err e he) i hi
  rcases List.mem_append.1 hi with hi | hi
  · cases he : v.body.help with
    | none => rw [he] at hi; cases hi
    | some e => rw [he] at hi; exact msgItems_valid _ name_help _ (helpAtts_ok e) _ (h.help e he) i hi
  · rcases List.mem_cons.1 hi with rfl | hi
    · exact name_one
    · cases hi

theorem allItems_valid (vs : List Validation) (h : ∀ v ∈ vs, Ok v) : ∀ i ∈ allItems vs, i.Valid := by
  intro i hi
  unfold allItems at hi
  rcases List.mem_cons.1 hi with rfl | hi
  · exact ⟨name_all, attrsOk_nil⟩
  rcases List.mem_append.1 hi with hi | hi
  · obtain ⟨v, hv, hi⟩ := List.mem_flatMap.1 hi
    exact oneItems_valid v (h v hv) i hi
  · rcases List.mem_cons.1 hi with rfl | hi
    · exact name_all
    · cases hi

/-! ## Messages -/

/-- The text of a message after reading: the element of the message is around it. -/
def wrapped (tag : Str) (as : List (Bool × Str × Str)) (t : Option Frame) : Option Frame :=
  t.map fun f => ⟨tag, as.map (·.2), [norm f.node]⟩

/-- The events of a message. -/
def MsgEv (tag : Str) (as : List (Bool × Str × Str)) (t : Option Frame) (ev : List Event) : Prop :=
  (t = none ∧ ev = [.empty tag (rawAttrs as)])
    ∨ ∃ ec, t ≠ none ∧ ev = .start tag (rawAttrs as) :: (ec ++ [.end tag])
      ∧ ∀ rest, msgText tag (rawAttrs as) false (ec ++ .end tag :: rest) = .ok (wrapped tag as t, rest)

theorem msg_gives (tag : Str) (as : List (Bool × Str × Str)) (ha : AttrsOk as) (t : Option Frame) (h : TextOk tag t) :
    ∃ ev, Gives (toks (msgItems tag as t)) ev ∧ MsgEv tag as t ev := by
  cases t with
  | none =>
    refine ⟨[.empty tag (rawAttrs as)], ?_, .inl ⟨rfl, rfl⟩⟩
    intro r _
    simp [msgItems, toks, itemToks, nl, events]
  | some f =>
    obtain ⟨es, h1, h2⟩ := gives_content _ [f.node] (Nat.le_refl _)
    refine ⟨.start tag (rawAttrs as) :: (es ++ [.end tag]), ?_, .inr ⟨es, (by simp), rfl, ?_⟩⟩
    · have := gives_tag tag (rawAttrs as) (toks (nodesItems [f.node])) [] es [] h1 gives_nil
      have ht : toks (msgItems tag as (some f))
          = .start tag (rawAttrs as) :: (toks (nodesItems [f.node]) ++ [.end tag]) := by
        simp [msgItems, toks, itemToks, nl, nodesItems]
      rw [ht]
      exact this
    · intro rest
      have hr := readText_reads tag (rawAttrs as) _ (rawAttrs_unescape as ha) h2
        (norms_without tag _ [f.node] (Nat.le_refl _) h.2) rest
      unfold msgText
      rw [if_neg (by simp), hr]
      have : norms [f.node] = [norm f.node] := rfl
      rw [this]
      rfl

/-- The message of a validation after reading. -/
def errBack (e : VError) : VError := { e with text := wrapped tErr (errAtts e) e.text }
def helpBack (e : VHelp) : VHelp := { e with text := wrapped tHelp (helpAtts e) e.text }

theorem tags : tErr ≠ tOne ∧ tHelp ≠ tOne ∧ tHelp ≠ tErr ∧ tAll ≠ tOne := by decide +kernel

theorem loop_err (m : Refs.Ints) (e : VError) (ev : List Event) (h : MsgEv tErr (errAtts e) e.text ev) (k : Nat)
    (v : Validation) (b : Stores Body) (rest : List Event) (hk : (ev ++ rest).length < k) :
    ∃ j, rest.length < j ∧ readLoop m k v b (ev ++ rest)
      = readLoop m j { v with body := { v.body with err := some (errBack e) } } b rest := by
  obtain ⟨k, rfl⟩ : ∃ i, k = i + 1 := ⟨k - 1, by omega⟩
  rcases h with ⟨h1, rfl⟩ | ⟨ec, h1, rfl, h2⟩
  · refine ⟨k, by simp at hk; omega, ?_⟩
    rw [List.cons_append, List.nil_append, readLoop, if_pos rfl]
    unfold readError
    rw [errAttrs_atts]
    simp only [msgText, if_true]
    unfold errBack
    rw [h1]
    simp [wrapped]
  · refine ⟨k, by simp at hk; omega, ?_⟩
    rw [List.cons_append, List.append_assoc, readLoop, if_neg tags.1, if_pos rfl]
    unfold readError
    rw [errAttrs_atts, List.cons_append, List.nil_append, h2]
    cases ht : e.text with
    | none => exact absurd ht h1
    | some f =>
      unfold errBack
      rw [ht]
      rfl

theorem loop_help (m : Refs.Ints) (e : VHelp) (ev : List Event) (h : MsgEv tHelp (helpAtts e) e.text ev) (k : Nat)
    (v : Validation) (b : Stores Body) (rest : List Event) (hk : (ev ++ rest).length < k) :
    ∃ j, rest.length < j ∧ readLoop m k v b (ev ++ rest)
      = readLoop m j { v with body := { v.body with help := some (helpBack e) } } b rest := by
  obtain ⟨k, rfl⟩ : ∃ i, k = i + 1 := ⟨k - 1, by omega⟩
  rcases h with ⟨h1, rfl⟩ | ⟨ec, h1, rfl, h2⟩
  · refine ⟨k, by simp at hk; omega, ?_⟩
    rw [List.cons_append, List.nil_append, readLoop, if_neg tags.2.2.1, if_pos rfl]
    unfold readHelp
    rw [helpAttrs_atts]
    simp only [msgText, if_true]
    unfold helpBack
    rw [h1]
    simp [wrapped]
  · refine ⟨k, by simp at hk; omega, ?_⟩
    rw [List.cons_append, List.append_assoc, readLoop, if_neg tags.2.1, if_neg tags.2.2.1, if_pos rfl]
    unfold readHelp
    rw [helpAttrs_atts, List.cons_append, List.nil_append, h2]
    cases ht : e.text with
    | none => exact absurd ht h1
    | some f =>
      unfold helpBack
      rw [ht]
      rfl

/-! ## All validations -/

/-- What is stored when a validation is read: its rule with the default messages under its name, … -/
def named (v : Validation) : Validation := ⟨v.name, { v.body with err := some {}, help := none }⟩

/-- … and its messages with the default rule under a generated name. -/
def anonymous (v : Validation) : Validation :=
  ⟨[], { err := some ((v.body.err.map errBack).getD {}), help := v.body.help.map helpBack }⟩

/-- All that is stored. -/
def stored : List Validation → Stores Body → Except Fault (Stores Body)
  | [], b => .ok b
  | v :: vs, b =>
    match addValid b (named v) with
    | .error e => .error e
    | .ok b =>
      match addValid b (anonymous v) with
      | .error e => .error e
      | .ok b => stored vs b

theorem gives_append {ts ts' : List Tok} {es es' : List Event} (h : Gives ts es) (h' : Gives ts' es')
    (hn : ∀ r, NoChr r → NoChr (ts' ++ r)) : Gives (ts ++ ts') (es ++ es') := by
  intro r hr
  rw [List.append_assoc, h _ (hn r hr), h' r hr, List.append_assoc]

theorem toks_cons (a : Item) (b : List Item) : toks (a :: b) = itemToks false a ++ toks b := by simp [toks]

theorem noChr_msg (tag : Str) (as : List (Bool × Str × Str)) (t : Option Frame) (r : List Tok) :
    NoChr (toks (msgItems tag as t) ++ r) := by
  cases t <;> exact noChr_cons _ _ (by intro c; simp)

/-- One validation. -/
theorem loop_one (m : Refs.Ints) (hm : m.max = maxU32) (v : Validation) (h : Ok v) :
    ∃ ev, Gives (toks (oneItems v)) ev ∧ ∀ (k : Nat) (b : Stores Body) (rest : List Event),
      (ev ++ rest).length < k →
      (∃ e, addValid b (named v) = .error e ∧ readLoop m k Validation.new b (ev ++ rest) = .error e)
      ∨ ∃ b1, addValid b (named v) = .ok b1 ∧
        ((∃ e, addValid b1 (anonymous v) = .error e ∧ readLoop m k Validation.new b (ev ++ rest) = .error e)
        ∨ ∃ b2 j, addValid b1 (anonymous v) = .ok b2 ∧ rest.length < j
          ∧ readLoop m k Validation.new b (ev ++ rest) = readLoop m j Validation.new b2 rest) := by
  have he : ∃ ev, Gives (toks (match v.body.err with | none => [] | some e => msgItems tErr (errAtts e) e.text)) ev
      ∧ ∀ (k : Nat) (w : Validation) (b : Stores Body) (rest : List Event), w.body.err = some {} →
        (ev ++ rest).length < k → ∃ j, rest.length < j ∧ readLoop m k w b (ev ++ rest)
          = readLoop m j { w with body := { w.body with err := some ((v.body.err.map errBack).getD {}) } } b rest := by
    cases hv : v.body.err with
    | none =>
      refine ⟨[], gives_nil, fun k w b rest hw hk => ⟨k, hk, ?_⟩⟩
      simp only [List.nil_append, Option.map_none, Option.getD_none]
      rw [← hw]
    | some e =>
      obtain ⟨ev, h1, h2⟩ := msg_gives tErr (errAtts e) (errAtts_ok e) e.text (h.err e hv)
      exact ⟨ev, h1, fun k w b rest _ hk => loop_err m e ev h2 k w b rest hk⟩
  have hh : ∃ ev, Gives (toks (match v.body.help with | none => [] | some e => msgItems tHelp (helpAtts e) e.text)) ev
      ∧ ∀ (k : Nat) (w : Validation) (b : Stores Body) (rest : List Event), w.body.help = none →
        (ev ++ rest).length < k → ∃ j, rest.length < j ∧ readLoop m k w b (ev ++ rest)
          = readLoop m j { w with body := { w.body with help := v.body.help.map helpBack } } b rest := by
    cases hv : v.body.help with
    | none =>
      refine ⟨[], gives_nil, fun k w b rest hw hk => ⟨k, hk, ?_⟩⟩
      simp only [List.nil_append, Option.map_none]
      rw [← hw]
    | some e =>
      obtain ⟨ev, h1, h2⟩ := msg_gives tHelp (helpAtts e) (helpAtts_ok e) e.text (h.help e hv)
      exact ⟨ev, h1, fun k w b rest _ hk => loop_help m e ev h2 k w b rest hk⟩
  obtain ⟨ee, ge, re⟩ := he
  obtain ⟨eh, gh, rh⟩ := hh
  have nh : ∀ r, NoChr r →
      NoChr (toks (match v.body.help with | none => [] | some e => msgItems tHelp (helpAtts e) e.text) ++ r) := by
    intro r hr
    cases v.body.help with
    | none => exact hr
    | some e => exact noChr_msg _ _ _ r
  refine ⟨.start tOne (rawAttrs (atts v)) :: ((ee ++ eh) ++ [.end tOne]), ?_, ?_⟩
  · have := gives_tag tOne (rawAttrs (atts v)) _ [] (ee ++ eh) [] (gives_append ge gh nh) gives_nil
    have ht : toks (oneItems v) = .start tOne (rawAttrs (atts v))
        :: ((toks (match v.body.err with | none => [] | some e => msgItems tErr (errAtts e) e.text)
          ++ toks (match v.body.help with | none => [] | some e => msgItems tHelp (helpAtts e) e.text)) ++ [.end tOne]) := by
      unfold oneItems
      rw [toks_cons, toks_append, toks_append]
      simp [itemToks, toks, nl]
    rw [ht]
    exact this
  · intro k b rest hk
    obtain ⟨k, rfl⟩ : ∃ i, k = i + 1 := ⟨k - 1, by omega⟩
    rw [List.cons_append, readLoop, if_pos rfl, readAttrs_atts m hm v h]
    simp only
    rw [show (⟨v.name, { v.body with err := some {}, help := none }⟩ : Validation) = named v from rfl]
    cases ha : addValid b (named v) with
    | error e => exact .inl ⟨e, rfl, rfl⟩
    | ok b1 =>
      refine .inr ⟨b1, rfl, ?_⟩
      simp only
      have hassoc : ((ee ++ eh) ++ [Event.end tOne]) ++ rest = ee ++ (eh ++ (.end tOne :: rest)) := by simp
      rw [hassoc]
      have hk1 : (ee ++ (eh ++ (.end tOne :: rest))).length < k := by
        rw [← hassoc]
        simp only [List.cons_append, List.length_cons] at hk
        omega
      obtain ⟨j1, hj1, e1⟩ := re k Validation.new b1 _ rfl hk1
      rw [e1]
      obtain ⟨j2, hj2, e2⟩ := rh j1 { Validation.new with body := { Validation.new.body with
        err := some ((v.body.err.map errBack).getD {}) } } b1 _ rfl hj1
      rw [e2]
      obtain ⟨j2, rfl⟩ : ∃ i, j2 = i + 1 := ⟨j2 - 1, by omega⟩
      rw [readLoop, if_pos rfl]
      rw [show ({ name := Validation.new.name, body := { Validation.new.body with
        err := some ((v.body.err.map errBack).getD {}), help := v.body.help.map helpBack } } : Validation)
          = anonymous v from rfl]
      cases hb : addValid b1 (anonymous v) with
      | error e => exact .inl ⟨e, rfl, rfl⟩
      | ok b2 => exact .inr ⟨b2, j2, rfl, by simp at hj2; omega, rfl⟩

theorem noChr_one (v : Validation) (r : List Tok) : NoChr (toks (oneItems v) ++ r) :=
  noChr_cons _ _ (by intro c; simp)

theorem loop_all (m : Refs.Ints) (hm : m.max = maxU32) (vs : List Validation) (h : ∀ v ∈ vs, Ok v) :
    ∃ ev, Gives (toks (vs.flatMap oneItems)) ev ∧ ∀ (k : Nat) (b : Stores Body) (rest : List Event),
      (ev ++ .end tAll :: rest).length < k →
      readLoop m k Validation.new b (ev ++ .end tAll :: rest) = (stored vs b).map fun b => (b, rest) := by
  induction vs with
  | nil =>
    refine ⟨[], gives_nil, fun k b rest hk => ?_⟩
    obtain ⟨k, rfl⟩ : ∃ i, k = i + 1 := ⟨k - 1, by omega⟩
    rw [List.nil_append, readLoop, if_neg tags.2.2.2, if_pos rfl]
    rfl
  | cons v vs ih =>
    obtain ⟨ev, g1, r1⟩ := ih (fun w hw => h w (List.mem_cons_of_mem _ hw))
    obtain ⟨ev1, g2, r2⟩ := loop_one m hm v (h v List.mem_cons_self)
    refine ⟨ev1 ++ ev, ?_, fun k b rest hk => ?_⟩
    · rw [List.flatMap_cons, toks_append]
      refine gives_append g2 g1 ?_
      intro r hr
      cases vs with
      | nil => exact hr
      | cons w ws => rw [List.flatMap_cons, toks_append, List.append_assoc]; exact noChr_one w _
    · rw [List.append_assoc] at hk ⊢
      rcases r2 k b _ hk with ⟨e, h1, h2⟩ | ⟨b1, h1, ⟨e, h2, h3⟩ | ⟨b2, j, h2, hj, h3⟩⟩
      · rw [h2, stored, h1]; rfl
      · rw [h3, stored, h1]; simp only [h2]; rfl
      · rw [h3, stored, h1]; simp only [h2]
        exact r1 j b2 rest hj

/-! ## C49 -/

/-- The file of a package is read from the start tag of the validations on. -/
def readFile (m : Refs.Ints) (b : Stores Body) (s : Str) : Except Fault (Stores Body) :=
  match tokenize s with
  | none => .error .malformed
  | some ts =>
    match events ts with
    | .start n _ :: es => if n = tAll then (readValidations m b es).map Prod.fst else .error .malformed
    | _ => .error .malformed

/-- **C49**: exactly what is read back in a package file, for all validations with names whose list is shown and
whose base cell can be read: for each the rule under its name, without its messages, and a second validation
with a generated name that has the messages, without the rule. -/
theorem C49_exact (m : Refs.Ints) (hm : m.max = maxU32) (vs : List Validation) (hne : vs ≠ [])
    (h : ∀ v ∈ vs, Ok v) (b : Stores Body) : readFile m b (output false (writeAll vs)) = stored vs b := by
  unfold readFile
  rw [← allItems_calls vs hne, tok_fragment false _ (allItems_valid vs h) (by
    intro i hi
    unfold allItems at hi
    rw [← List.cons_append, List.getLast?_append] at hi
    simp at hi
    subst hi
    simp [Item.Opens])]
  simp only
  obtain ⟨ev, g, r⟩ := loop_all m hm vs h
  have ht : (allItems vs).flatMap (itemToks false) = .start tAll [] :: (toks (vs.flatMap oneItems) ++ [.end tAll]) := by
    show toks (allItems vs) = _
    unfold allItems
    rw [toks_cons, toks_append]
    simp [itemToks, toks, nl, rawAttrs]
  rw [ht, show events (.start tAll [] :: (toks (vs.flatMap oneItems) ++ [.end tAll])) = .start tAll [] :: events (toks (vs.flatMap oneItems) ++ [.end tAll]) from rfl, g _ (noChr_cons _ _ (by intro c; simp))]
  have he : events [Tok.end tAll] = [.end tAll] := rfl
  rw [he]
  simp only [if_true]
  unfold readValidations
  rw [r _ b [] (by simp)]
  cases stored vs b <;> rfl

/-- The calls that store them. -/
def ops (vs : List Validation) : List (StoreOp Body) :=
  vs.flatMap fun v => [.add .validation (named v), .add .validation (anonymous v)]

theorem stored_run (vs : List Validation) : ∀ (b b' : Stores Body) (rs : List (Option Str)),
    b.run (ops vs) = .ok (b', rs) → stored vs b = .ok b' := by
  induction vs with
  | nil => intro b b' rs h; cases h; rfl
  | cons v vs ih =>
    intro b b' rs h
    show stored (v :: vs) b = _
    have h0 : b.run (.add .validation (named v) :: .add .validation (anonymous v) :: ops vs) = .ok (b', rs) := h
    unfold Stores.run at h0
    rw [stored]
    simp only [Stores.step] at h0
    unfold addValid
    cases h1 : b.add .validation (named v) with
    | error e => rw [h1] at h0; cases h0
    | ok p =>
      obtain ⟨b1, r1⟩ := p
      rw [h1] at h0
      simp only at h0 ⊢
      unfold Stores.run at h0
      simp only [Stores.step] at h0
      cases h2 : b1.add .validation (anonymous v) with
      | error e => rw [h2] at h0; cases h0
      | ok p =>
        obtain ⟨b2, r2⟩ := p
        rw [h2] at h0
        simp only at h0 ⊢
        cases h3 : b2.run (ops vs) with
        | error e => rw [h3] at h0; cases h0
        | ok p =>
          obtain ⟨b3, r3⟩ := p
          rw [h3] at h0
          cases h0
          exact ih b2 b' r3 h3

theorem addValid_ok {b b' : Stores Body} {v : Validation} (h : addValid b v = .ok b') :
    ∃ r, b.add .validation v = .ok (b', r) := by
  unfold addValid at h
  cases h1 : b.add .validation v with
  | error e => rw [h1] at h; cases h
  | ok p =>
    obtain ⟨b1, r⟩ := p
    rw [h1] at h
    cases h
    exact ⟨r, rfl⟩

/-- What is under a name is only replaced by a validation with this name. -/
theorem stored_get (vs : List Validation) : ∀ (b b' : Stores Body), stored vs b = .ok b' → (∀ v ∈ vs, v.name ≠ []) →
    (vs.map (·.name)).Nodup →
    (∀ v ∈ vs, b'.get? .validation v.name = some (named v))
    ∧ ∀ n s, b.get? .validation n = some s → n ∉ vs.map (·.name) → b'.get? .validation n = some s := by
  induction vs with
  | nil => intro b b' h _ _; cases h; exact ⟨(by intro v hv; cases hv), fun n s hs _ => hs⟩
  | cons v vs ih =>
    intro b b' h hne hnd
    rw [stored] at h
    cases h1 : addValid b (named v) with
    | error e => rw [h1] at h; cases h
    | ok b1 =>
      rw [h1] at h
      simp only at h
      cases h2 : addValid b1 (anonymous v) with
      | error e => rw [h2] at h; cases h
      | ok b2 =>
        rw [h2] at h
        simp only at h
        obtain ⟨r1, a1⟩ := addValid_ok h1
        obtain ⟨r2, a2⟩ := addValid_ok h2
        have g1 := add_get b b1 .validation (named v) r1 a1
        obtain rfl : r1 = v.name := g1.1 (hne v List.mem_cons_self)
        obtain ⟨g2, g3, g4⟩ := C40_any_state b1 b2 .validation (anonymous v).body r2 a2
        have keep : ∀ n s, b1.get? .validation n = some s → b2.get? .validation n = some s := by
          intro n s hs
          rw [g4 .validation n, hs]
          intro he
          cases he
          rw [g2] at hs
          cases hs
        rw [List.map_cons, List.nodup_cons] at hnd
        obtain ⟨i1, i2⟩ := ih b2 b' h (fun w hw => hne w (List.mem_cons_of_mem _ hw)) hnd.2
        refine ⟨?_, ?_⟩
        · intro w hw
          rcases List.mem_cons.1 hw with rfl | hw
          · refine i2 _ _ (keep _ _ ?_) hnd.1
            rw [g1.2, if_pos ⟨rfl, rfl⟩]
            rfl
          · exact i1 w hw
        · intro n s hs hn
          rw [List.map_cons, List.mem_cons, not_or] at hn
          refine i2 n s (keep n s ?_) hn.2
          rw [g1.2, if_neg (by rintro ⟨_, he⟩; exact hn.1 he.symm)]
          exact hs

theorem ops_length (vs : List Validation) : (ops vs).length = 2 * vs.length := by
  induction vs with
  | nil => rfl
  | cons v vs ih => simp [ops] at ih ⊢; omega

/-- **C49** (rules): all rules are found again under their names: the condition, the base cell, whether empty
cells are allowed and how the list is shown. Missing from the property: the messages, see
`C49_messages_counterexample`; lists that are not shown, see `C49_display_counterexample`. -/
theorem C49_rules_partial (m : Refs.Ints) (hm : m.max = maxU32) (vs : List Validation) (hne : vs ≠ [])
    (h : ∀ v ∈ vs, Ok v) (hnd : (vs.map (·.name)).Nodup) (hlen : 2 * vs.length < 4294967296) :
    ∃ b, readFile m {} (output false (writeAll vs)) = .ok b
      ∧ ∀ v ∈ vs, ∃ s, b.get? .validation v.name = some s ∧ s.name = v.name ∧ s.body.rule = v.body.rule := by
  rw [C49_exact m hm vs hne h]
  obtain ⟨b, rs, h1, _⟩ := C41_map (ops vs) (by rw [ops_length]; exact hlen)
  have h2 := stored_run vs {} b rs h1
  refine ⟨b, h2, fun v hv => ⟨named v, ?_, rfl, rfl⟩⟩
  exact (stored_get vs {} b h2 (fun w hw => (h w hw).name) hnd).1 v hv

/-- **C49** (messages): whatever messages a validation has, it has the default messages after reading. -/
theorem C49_messages_lost (m : Refs.Ints) (hm : m.max = maxU32) (vs : List Validation) (hne : vs ≠ [])
    (h : ∀ v ∈ vs, Ok v) (hnd : (vs.map (·.name)).Nodup) (hlen : 2 * vs.length < 4294967296) :
    ∃ b, readFile m {} (output false (writeAll vs)) = .ok b
      ∧ ∀ v ∈ vs, ∃ s, b.get? .validation v.name = some s ∧ s.body.err = some {} ∧ s.body.help = none := by
  rw [C49_exact m hm vs hne h]
  obtain ⟨b, rs, h1, _⟩ := C41_map (ops vs) (by rw [ops_length]; exact hlen)
  have h2 := stored_run vs {} b rs h1
  refine ⟨b, h2, fun v hv => ⟨named v, ?_, rfl, rfl⟩⟩
  exact (stored_get vs {} b h2 (fun w hw => (h w hw).name) hnd).1 v hv

/-- A validation with a help message. -/
def demo : Validation :=
  ⟨"v".toList, ⟨"cell-content()>5".toList, { row := { row := 3 }, col := { col := 1 } }, false, .unsorted, none, some ⟨true, some "Help & more".toList, none⟩⟩⟩

theorem demo_ok : Ok demo where
  name := by decide
  cell := by
    refine ⟨⟨?_, ?_, ?_⟩, by decide, by decide⟩
    · intro n h; cases h
    · decide
    · decide
  display := by decide
  err := by intro e h; cases h
  help := by intro e h; cases h; trivial

/-- The hypotheses can be met; the help message is found under a name nobody gave. -/
theorem C49_messages_counterexample :
    ∃ b, readFile Refs.checked {} (output false (writeAll [demo])) = .ok b
      ∧ demo.body.help.isSome = true
      ∧ (b.get? .validation "v".toList).map (fun s => s.body.help.isNone) = some true
      ∧ (b.get? .validation "val0".toList).map (fun s => (s.body.condition, s.body.help.map (·.title)))
        = some ([], some (some "Help & more".toList)) := by
  rw [C49_exact _ rfl [demo] (by simp) (by intro v hv; cases hv with | head => exact demo_ok | tail _ h => cases h)]
  exact ⟨_, rfl, rfl, by decide +kernel, by decide +kernel⟩

theorem C49_demo : ∃ b, readFile Refs.checked {} (output false (writeAll [demo])) = .ok b
    ∧ (b.get? .validation "v".toList).map (fun s => s.body.rule) = some demo.body.rule := by
  rw [C49_exact _ rfl [demo] (by simp) (by intro v hv; cases hv with | head => exact demo_ok | tail _ h => cases h)]
  exact ⟨_, rfl, by decide +kernel⟩

/-- A validation whose list is not shown is written, and the file is refused when it is read. -/
theorem C49_display_counterexample :
    (readFile Refs.checked {} (output false (writeAll [{ demo with body := { demo.body with displayList := .noDisplay } }]))).isOk
      = false := by
  decide +kernel

/-- A condition of fewer than three bytes in a file is a panic. -/
theorem C49_panic_counterexample :
    (match readFile Refs.checked {}
      "<table:content-validations><table:content-validation table:condition=\"x\"></table:content-validation></table:content-validations>".toList with
     | .error .panic => true | _ => false) = true := by
  decide +kernel

end Verif.Valid
