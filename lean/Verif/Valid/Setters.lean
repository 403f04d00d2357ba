import Verif.Valid.Props

/-!
# C119: validations that are set up with their setters, in memory and after a file
-/

set_option autoImplicit false

namespace Verif.Valid

open Xml Xml.Spec Codec Book Refs.Spec

/-! ## Model -/

/-- The setters of `ValidationHelp`, src/validation.rs:84-111. -/
inductive HelpOp where
  | setDisplay (b : Bool)
  | setTitle (t : Option Str)
  | setText (t : Option Frame)

/-- src/validation.rs:85-87, 95-97, 105-111. -/
def HelpOp.step (h : VHelp) : HelpOp → VHelp
  | .setDisplay b => { h with display := b }
  | .setTitle t => { h with title := t }
  | .setText (some t) => { h with text := some t }
  | .setText none => { h with text := none }

/-- The setters of `ValidationError`, src/validation.rs:168-205. -/
inductive ErrorOp where
  | setDisplay (b : Bool)
  | setMsgType (t : MessageType)
  | setTitle (t : Option Str)
  | setText (t : Option Frame)

/-- src/validation.rs:169-171, 179-181, 189-191, 199-205. -/
def ErrorOp.step (e : VError) : ErrorOp → VError
  | .setDisplay b => { e with display := b }
  | .setMsgType t => { e with msgType := t }
  | .setTitle t => { e with title := t }
  | .setText (some t) => { e with text := some t }
  | .setText none => { e with text := none }

/-- The setters of `Validation`, src/validation.rs:250-324. A message is given as the calls that made it from
`ValidationError::new` or `ValidationHelp::new`. -/
inductive VOp where
  | setName (n : Str)
  | setCondition (c : Str)
  | setBaseCell (c : CellRef)
  | setAllowEmpty (b : Bool)
  | setDisplay (d : Display)
  | setErr (e : Option (List ErrorOp))
  | setHelp (h : Option (List HelpOp))

/-- src/validation.rs:250-252, 265-267, 277-279, 287-289, 297-299, 307-309, 317-319. -/
def VOp.step (v : Validation) : VOp → Validation
  | .setName n => { v with name := n }
  | .setCondition c => { v with body := { v.body with condition := c } }
  | .setBaseCell c => { v with body := { v.body with baseCell := c } }
  | .setAllowEmpty b => { v with body := { v.body with allowEmpty := b } }
  | .setDisplay d => { v with body := { v.body with displayList := d } }
  | .setErr e => { v with body := { v.body with err := e.map (List.foldl ErrorOp.step {}) } }
  | .setHelp h => { v with body := { v.body with help := h.map (List.foldl HelpOp.step {}) } }

/-- `Validation::new` and a sequence of calls. -/
def made (ops : List VOp) : Validation := ops.foldl VOp.step .new

/-! ## Specification -/

namespace Spec

/-- The last value that a sequence of calls gives, or the value for the case that none does. -/
def last {α β : Type} (f : α → Option β) (d : β) (ops : List α) : β := ((ops.filterMap f).getLast?).getD d

def helpTold (ops : List HelpOp) : VHelp where
  display := last (fun | .setDisplay b => some b | _ => none) true ops
  title := last (fun | .setTitle t => some t | _ => none) none ops
  text := last (fun | .setText t => some t | _ => none) none ops

def errTold (ops : List ErrorOp) : VError where
  display := last (fun | .setDisplay b => some b | _ => none) true ops
  msgType := last (fun | .setMsgType t => some t | _ => none) .error ops
  title := last (fun | .setTitle t => some t | _ => none) none ops
  text := last (fun | .setText t => some t | _ => none) none ops

def nameTold (ops : List VOp) : Str := last (fun | .setName n => some n | _ => none) [] ops
def conditionTold (ops : List VOp) : Str := last (fun | .setCondition c => some c | _ => none) [] ops
def cellTold (ops : List VOp) : CellRef :=
  last (fun | .setBaseCell c => some c | _ => none) { row := { row := 0 }, col := { col := 0 } } ops
def emptyTold (ops : List VOp) : Bool := last (fun | .setAllowEmpty b => some b | _ => none) true ops
def displayTold (ops : List VOp) : Display := last (fun | .setDisplay d => some d | _ => none) .unsorted ops
/-- Without a call there is an error message, without texts. -/
def errOf (ops : List VOp) : Option (List ErrorOp) := last (fun | .setErr e => some e | _ => none) (some []) ops
def helpOf (ops : List VOp) : Option (List HelpOp) := last (fun | .setHelp h => some h | _ => none) none ops

/-- The arguments of the call can be kept in a file. -/
def Kept : VOp → Prop
  | .setBaseCell c => GoodRef c ∧ RefU32 c
  | .setErr (some e) => TextOk tErr (errTold e).text
  | .setHelp (some h) => TextOk tHelp (helpTold h).text
  | _ => True

end Spec

open Spec

/-! ## Proofs -/

theorem last_snoc {α β : Type} (f : α → Option β) (d : β) (ops : List α) (op : α) :
    last f d (ops ++ [op]) = (f op).getD (last f d ops) := by
  unfold last
  rw [List.filterMap_append]
  cases h : f op with
  | none => simp [List.filterMap, h]
  | some b => simp [List.filterMap, h]

theorem last_nil {α β : Type} (f : α → Option β) (d : β) : last f d [] = d := rfl

theorem last_mem {α β : Type} (f : α → Option β) (d : β) (ops : List α) (P : β → Prop) (hd : P d)
    (h : ∀ op ∈ ops, ∀ b, f op = some b → P b) : P (last f d ops) := by
  unfold last
  cases hl : (ops.filterMap f).getLast? with
  | none => exact hd
  | some b =>
    obtain ⟨op, ho, hb⟩ := List.mem_filterMap.1 (List.mem_of_getLast? hl)
    exact h op ho b hb

/-- Induction from the end. -/
theorem snoc_ind {α : Type} {P : List α → Prop} (h0 : P []) (h1 : ∀ l a, P l → P (l ++ [a])) (l : List α) : P l := by
  have : ∀ r : List α, P r.reverse := by
    intro r
    induction r with
    | nil => exact h0
    | cons a r ih => rw [List.reverse_cons]; exact h1 _ _ ih
  have h := this l.reverse
  rwa [List.reverse_reverse] at h

theorem help_told (ops : List HelpOp) : ops.foldl HelpOp.step {} = helpTold ops := by
  induction ops using snoc_ind with
  | h0 => rfl
  | h1 ops op ih =>
    rw [List.foldl_append, ih]
    unfold helpTold
    simp only [last_snoc, List.foldl_cons, List.foldl_nil]
    cases op with
    | setText t => cases t <;> rfl
    | _ => rfl

theorem err_told (ops : List ErrorOp) : ops.foldl ErrorOp.step {} = errTold ops := by
  induction ops using snoc_ind with
  | h0 => rfl
  | h1 ops op ih =>
    rw [List.foldl_append, ih]
    unfold errTold
    simp only [last_snoc, List.foldl_cons, List.foldl_nil]
    cases op with
    | setText t => cases t <;> rfl
    | _ => rfl

/-- All getters of a validation, whatever setters were called before and in which order, give what was last set, or the
value of a new validation. -/
theorem C119_setters (ops : List VOp) :
    (made ops).name = nameTold ops ∧ (made ops).body.condition = conditionTold ops
      ∧ (made ops).body.baseCell = cellTold ops ∧ (made ops).body.allowEmpty = emptyTold ops
      ∧ (made ops).body.displayList = displayTold ops ∧ (made ops).body.err = (errOf ops).map errTold
      ∧ (made ops).body.help = (helpOf ops).map helpTold := by
  have key : made ops = ⟨nameTold ops, ⟨conditionTold ops, cellTold ops, emptyTold ops, displayTold ops,
      (errOf ops).map errTold, (helpOf ops).map helpTold⟩⟩ := by
    induction ops using snoc_ind with
    | h0 => rfl
    | h1 ops op ih =>
      unfold made at ih ⊢
      rw [List.foldl_append, ih]
      unfold nameTold conditionTold cellTold emptyTold displayTold errOf helpOf
      simp only [last_snoc, List.foldl_cons, List.foldl_nil]
      cases op with
      | setErr e =>
        have he : (List.foldl ErrorOp.step {}) = errTold := funext err_told
        simp only [VOp.step, he, Option.getD_none, Option.getD_some]
      | setHelp h =>
        have he : (List.foldl HelpOp.step {}) = helpTold := funext help_told
        simp only [VOp.step, he, Option.getD_none, Option.getD_some]
      | _ => rfl
  rw [key]
  exact ⟨rfl, rfl, rfl, rfl, rfl, rfl, rfl⟩

theorem made_ok (ops : List VOp) (h1 : nameTold ops ≠ []) (h2 : displayTold ops ≠ .noDisplay)
    (h3 : ∀ op ∈ ops, Kept op) : Ok (made ops) := by
  obtain ⟨e1, _, e3, _, e5, e6, e7⟩ := C119_setters ops
  refine ⟨by rw [e1]; exact h1, ?_, by rw [e5]; exact h2, ?_, ?_⟩
  · rw [e3]
    refine last_mem _ _ ops (fun c => GoodRef c ∧ RefU32 c) ?_ ?_
    · refine ⟨⟨?_, ?_, ?_⟩, by decide, by decide⟩
      · intro n h; cases h
      · decide
      · decide
    · intro op ho c hc
      cases op with
      | setBaseCell x => cases hc; exact h3 _ ho
      | _ => cases hc
  · intro e he
    rw [e6] at he
    obtain ⟨x, hx, rfl⟩ := Option.map_eq_some_iff.1 he
    have := last_mem (fun | VOp.setErr e => some e | _ => none) (some []) ops
      (fun o => ∀ x, o = some x → TextOk tErr (errTold x).text) (by intro x hx; cases hx; exact trivial)
      (by
        intro op ho b hb
        cases op with
        | setErr y => cases hb; intro x hx; subst hx; exact h3 _ ho
        | _ => cases hb)
    exact this x hx
  · intro e he
    rw [e7] at he
    obtain ⟨x, hx, rfl⟩ := Option.map_eq_some_iff.1 he
    have := last_mem (fun | VOp.setHelp e => some e | _ => none) none ops
      (fun o => ∀ x, o = some x → TextOk tHelp (helpTold x).text) (by intro x hx; cases hx)
      (by
        intro op ho b hb
        cases op with
        | setHelp y => cases hb; intro x hx; subst hx; exact h3 _ ho
        | _ => cases hb)
    exact this x hx

/-- Validations that are set up by any calls are found after writing and reading them, under the names that were last
set, with the condition, the base cell and the flags that were last set. Missing: the messages (C49) and lists that are
not shown. -/
theorem C119_saved_partial (m : Refs.Ints) (hm : m.max = maxU32) (hs : List (List VOp)) (hne : hs ≠ [])
    (h1 : ∀ ops ∈ hs, nameTold ops ≠ []) (h2 : ∀ ops ∈ hs, displayTold ops ≠ .noDisplay)
    (h3 : ∀ ops ∈ hs, ∀ op ∈ ops, Kept op) (hnd : (hs.map nameTold).Nodup) (hlen : 2 * hs.length < 4294967296) :
    ∃ b, readFile m {} (output false (writeAll (hs.map made))) = .ok b
      ∧ ∀ ops ∈ hs, ∃ v, b.get? .validation (nameTold ops) = some v ∧ v.name = nameTold ops
        ∧ v.body.condition = conditionTold ops ∧ v.body.baseCell = cellTold ops
        ∧ v.body.allowEmpty = emptyTold ops ∧ v.body.displayList = displayTold ops := by
  obtain ⟨b, hb, hg⟩ := C49_rules_partial m hm (hs.map made) (by simp [hne])
    (by
      intro v hv
      obtain ⟨ops, ho, rfl⟩ := List.mem_map.1 hv
      exact made_ok ops (h1 ops ho) (h2 ops ho) (h3 ops ho))
    (by
      rw [List.map_map]
      have : ((fun v : Validation => v.name) ∘ made) = nameTold := funext fun ops => (C119_setters ops).1
      rw [this]
      exact hnd)
    (by rw [List.length_map]; exact hlen)
  refine ⟨b, hb, fun ops ho => ?_⟩
  obtain ⟨v, g1, g2, g3⟩ := hg (made ops) (List.mem_map_of_mem ho)
  obtain ⟨e1, e2, e3, e4, e5, _, _⟩ := C119_setters ops
  rw [e1] at g1 g2
  refine ⟨v, g1, g2, ?_⟩
  unfold Body.rule at g3
  rw [e2, e3, e4, e5] at g3
  exact ⟨congrArg Rule.condition g3, congrArg Rule.baseCell g3, congrArg Rule.allowEmpty g3,
    congrArg Rule.displayList g3⟩

/-- Two validations with several calls meet the hypotheses. -/
theorem C119_meets :
    let hs : List (List VOp) := [[.setName "a".toList, .setCondition "cell-content()>5".toList, .setAllowEmpty false,
        .setErr (some [.setDisplay false, .setTitle (some "No".toList)]), .setName "b".toList],
      [.setDisplay .noDisplay, .setName "c".toList, .setDisplay .sortAscending, .setHelp none]]
    (∀ ops ∈ hs, nameTold ops ≠ []) ∧ (∀ ops ∈ hs, displayTold ops ≠ .noDisplay) ∧ (∀ ops ∈ hs, ∀ op ∈ ops, Kept op)
      ∧ (hs.map nameTold).Nodup ∧ hs.map nameTold = ["b".toList, "c".toList] ∧ hs.map emptyTold = [false, true] := by
  refine ⟨by decide +kernel, by decide +kernel, ?_, by decide +kernel, by decide +kernel, by decide +kernel⟩
  intro ops ho op hop
  simp only [List.mem_cons, List.not_mem_nil, or_false] at ho
  rcases ho with rfl | rfl <;> simp only [List.mem_cons, List.not_mem_nil, or_false] at hop <;>
    rcases hop with rfl | rfl | rfl | rfl | rfl <;> exact trivial

end Verif.Valid
