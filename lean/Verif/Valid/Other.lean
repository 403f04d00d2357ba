import Verif.Valid.Props
import Verif.TableXml.OtherAttrs

/-!
# C106: validations of other programs

What is read for the validations of any file: those with a start tag and an end tag are stored under
their names with their rules; those that are empty tags are lost.
-/

set_option autoImplicit false

namespace Verif.Valid

open Xml Xml.Spec Codec Book
open Verif.TableXml (foldAttrs fold_get fold_keep fold_ok)

/-! ## Specification -/

/-- The name of a validation. -/
def nameOf (as : List (Str × Str)) : Str := ((attrText as "table:name").bind unescape).getD []

/-- The rule that the attributes give. The condition is what follows the prefix `of:`. -/
def ruleSaid (m : Refs.Ints) (as : List (Str × Str)) : Rule :=
  { condition := (((attrText as "table:condition").bind unescape).getD []).drop 3
    baseCell := (((attrText as "table:base-cell-address").bind unescape).bind
      fun v => (Refs.parseCellRef m v).toOption).getD { row := { row := 0 }, col := { col := 0 } }
    allowEmpty := ((attrText as "table:allow-empty-cell").bind parseBool).getD true
    displayList := ((attrText as "table:display-list").bind Display.parse).getD .unsorted }

/-- Each attribute is there once, the condition is an OpenFormula, the others are of their forms. -/
def RuleReadable (m : Refs.Ints) (as : List (Str × Str)) : Prop :=
  (as.map Prod.fst).Nodup ∧ ∀ a ∈ as,
    (a.1 = "table:name".toList → (unescape a.2).isSome = true)
    ∧ (a.1 = "table:condition".toList → ∃ c, unescape a.2 = some ("of:".toList ++ c))
    ∧ (a.1 = "table:allow-empty-cell".toList → (parseBool a.2).isSome = true)
    ∧ (a.1 = "table:base-cell-address".toList → ∃ v r, unescape a.2 = some v ∧ Refs.parseCellRef m v = .ok r)
    ∧ (a.1 = "table:display-list".toList → (Display.parse a.2).isSome = true)

/-- The attributes of a message can be read. -/
def MsgAttrs (as : List (Str × Str)) : Prop :=
  Escaped as ∧ ∀ a ∈ as,
    (a.1 = "table:title".toList → (unescape a.2).isSome = true)
    ∧ (a.1 = "table:display".toList → (parseBool a.2).isSome = true)
    ∧ (a.1 = "table:message-type".toList → (MessageType.parse a.2).isSome = true)

/-- The names that matter. -/
def validNames : List Str := [tAll, tOne, tErr, tHelp]

/-- What may be in a validation: messages with paragraphs, or without anything, and elements of other kinds. -/
def MsgPart : El → Prop
  | .elem n as c =>
    (n = tErr ∨ n = tHelp → MsgAttrs as ∧ CleanIn c ∧ NoStartIn n c ∧ (c = [] ∨ c.all El.isText = false))
    ∧ (¬ (n = tErr ∨ n = tHelp) → (El.elem n as c).Free validNames)
  | .void n as => n = tErr ∨ n = tHelp → MsgAttrs as
  | _ => True

/-- What may be in the list of the validations. -/
def ListPart (m : Refs.Ints) : El → Prop
  | .elem n as c =>
    (n = tOne → RuleReadable m as ∧ ∀ e ∈ c, MsgPart e)
    ∧ (n ≠ tOne → (El.elem n as c).Free validNames)
  | .void n _ => n ≠ tErr ∧ n ≠ tHelp
  | _ => True

/-- The validations with a start tag and an end tag: their names and rules. -/
def rulesIn (m : Refs.Ints) (c : List El) : List (Str × Rule) :=
  c.filterMap fun
    | .elem n as _ => if n = tOne then some (nameOf as, ruleSaid m as) else none
    | _ => none

/-! ## Attributes -/

theorem vKey_spec (k : Str) : match vKey k with
    | some .name => k = aName
    | some .condition => k = aCond
    | some .allowEmpty => k = aEmpty
    | some .baseCell => k = aBase
    | some .displayList => k = aList
    | none => k ≠ aName ∧ k ≠ aCond ∧ k ≠ aEmpty ∧ k ≠ aBase ∧ k ≠ aList := by
  by_cases h1 : k = aName
  · rw [vKey, if_pos h1]; exact h1
  by_cases h2 : k = aCond
  · rw [vKey, if_neg h1, if_pos h2]; exact h2
  by_cases h3 : k = aEmpty
  · rw [vKey, if_neg h1, if_neg h2, if_pos h3]; exact h3
  by_cases h4 : k = aBase
  · rw [vKey, if_neg h1, if_neg h2, if_neg h3, if_pos h4]; exact h4
  by_cases h5 : k = aList
  · rw [vKey, if_neg h1, if_neg h2, if_neg h3, if_neg h4, if_pos h5]; exact h5
  · rw [vKey, if_neg h1, if_neg h2, if_neg h3, if_neg h4, if_neg h5]; exact ⟨h1, h2, h3, h4, h5⟩

theorem vKeys : vKey aName = some .name ∧ vKey aCond = some .condition ∧ vKey aEmpty = some .allowEmpty
    ∧ vKey aBase = some .baseCell ∧ vKey aList = some .displayList := by decide +kernel

theorem readAttrs_fold (m : Refs.Ints) (as : List (Str × Str)) : ∀ v, readAttrs m v as = foldAttrs (readAttr m) v as := by
  induction as with
  | nil => intro v; rfl
  | cons kv as ih =>
    intro v
    rw [readAttrs, foldAttrs]
    cases readAttr m v kv.1 kv.2 with
    | error e => rfl
    | ok v => exact ih v

/-- The effect of an attribute. -/
theorem readAttr_ok (m : Refs.Ints) (v v' : Validation) (k raw : Str) (h : readAttr m v k raw = .ok v') :
    match vKey k with
    | some .name => ∃ s, unescape raw = some s ∧ v' = { v with name := s }
    | some .condition => ∃ s c, unescape raw = some s ∧ splitBytes s 3 = some c
        ∧ v' = { v with body := { v.body with condition := c } }
    | some .allowEmpty => ∃ b, parseBool raw = some b ∧ v' = { v with body := { v.body with allowEmpty := b } }
    | some .baseCell => ∃ s r, unescape raw = some s ∧ Refs.parseCellRef m s = .ok r
        ∧ v' = { v with body := { v.body with baseCell := r } }
    | some .displayList => ∃ d, Display.parse raw = some d ∧ v' = { v with body := { v.body with displayList := d } }
    | none => v' = v := by
  unfold readAttr at h
  cases hk : vKey k with
  | none => rw [hk] at h; exact (Except.ok.inj h).symm
  | some y =>
    rw [hk] at h
    cases y with
    | name =>
      simp only at h ⊢
      split at h
      · cases h
      · rename_i s hs; exact ⟨s, hs, (Except.ok.inj h).symm⟩
    | condition =>
      simp only at h ⊢
      split at h
      · cases h
      · rename_i s hs
        split at h
        · cases h
        · rename_i c hc; exact ⟨s, c, hs, hc, (Except.ok.inj h).symm⟩
    | allowEmpty =>
      simp only at h ⊢
      split at h
      · cases h
      · rename_i s hs; exact ⟨s, hs, (Except.ok.inj h).symm⟩
    | baseCell =>
      simp only at h ⊢
      split at h
      · cases h
      · rename_i s hs
        split at h
        · cases h
        · cases h
        · rename_i r hr; exact ⟨s, r, hs, hr, (Except.ok.inj h).symm⟩
    | displayList =>
      simp only at h ⊢
      split at h
      · cases h
      · rename_i s hs; exact ⟨s, hs, (Except.ok.inj h).symm⟩

theorem splitBytes_of' (c : Str) : splitBytes ("of:".toList ++ c) 3 = some c := splitBytes_of c

/-- Each attribute can be read. -/
theorem readAttr_total (m : Refs.Ints) (v : Validation) (a : Str × Str)
    (h : (a.1 = "table:name".toList → (unescape a.2).isSome = true)
      ∧ (a.1 = "table:condition".toList → ∃ c, unescape a.2 = some ("of:".toList ++ c))
      ∧ (a.1 = "table:allow-empty-cell".toList → (parseBool a.2).isSome = true)
      ∧ (a.1 = "table:base-cell-address".toList → ∃ v r, unescape a.2 = some v ∧ Refs.parseCellRef m v = .ok r)
      ∧ (a.1 = "table:display-list".toList → (Display.parse a.2).isSome = true)) :
    ∃ v', readAttr m v a.1 a.2 = .ok v' := by
  obtain ⟨h1, h2, h3, h4, h5⟩ := h
  have hs := vKey_spec a.1
  unfold readAttr
  cases hk : vKey a.1 with
  | none => exact ⟨_, rfl⟩
  | some y =>
    rw [hk] at hs
    cases y with
    | name =>
      obtain ⟨s, e⟩ := Option.isSome_iff_exists.1 (h1 hs)
      simp only [e]
      exact ⟨_, rfl⟩
    | condition =>
      obtain ⟨c, e⟩ := h2 hs
      simp only
      rw [e]
      simp only
      rw [splitBytes_of']
      exact ⟨_, rfl⟩
    | allowEmpty =>
      obtain ⟨s, e⟩ := Option.isSome_iff_exists.1 (h3 hs)
      simp only [e]
      exact ⟨_, rfl⟩
    | baseCell =>
      obtain ⟨s, r, e, e'⟩ := h4 hs
      simp only [e, e']
      exact ⟨_, rfl⟩
    | displayList =>
      obtain ⟨s, e⟩ := Option.isSome_iff_exists.1 (h5 hs)
      simp only [e]
      exact ⟨_, rfl⟩

/-- A condition as the file has it. -/
def condOf (raw : Str) : Option Str := (unescape raw).bind fun s => splitBytes s 3

/-- The validation that the attributes give. -/
def validOf (m : Refs.Ints) (as : List (Str × Str)) : Validation :=
  ⟨nameOf as, { condition := (ruleSaid m as).condition, baseCell := (ruleSaid m as).baseCell,
                allowEmpty := (ruleSaid m as).allowEmpty, displayList := (ruleSaid m as).displayList }⟩

theorem cond_said (m : Refs.Ints) (as : List (Str × Str)) (h : RuleReadable m as) :
    ((attrText as "table:condition").bind condOf).getD [] = (ruleSaid m as).condition := by
  unfold ruleSaid
  simp only
  cases ha : attrText as "table:condition" with
  | none => rfl
  | some raw =>
    obtain ⟨c, hc⟩ := (h.2 ("table:condition".toList, raw) (by
      unfold Codec.attrText at ha
      obtain ⟨l1, l2, e, -⟩ := List.lookup_eq_some_iff.1 ha
      rw [e]; exact List.mem_append_right _ List.mem_cons_self)).2.1 rfl
    rw [Option.bind_some, Option.bind_some, condOf, hc, Option.bind_some, splitBytes_of']
    rfl

theorem rule_read (m : Refs.Ints) (as : List (Str × Str)) (h : RuleReadable m as) :
    readAttrs m Validation.new as = .ok (validOf m as) := by
  rw [readAttrs_fold]
  have hcond := cond_said m as h
  obtain ⟨hnd, hr⟩ := h
  obtain ⟨t, ht⟩ := fold_ok (readAttr m) as (fun a x hx => readAttr_total m a x (hr x hx)) Validation.new
  rw [ht]
  have hk1 : ∀ (k : Str) (q : VKey), vKey k = some q → match q with
      | .name => k = "table:name".toList
      | .condition => k = "table:condition".toList
      | .allowEmpty => k = "table:allow-empty-cell".toList
      | .baseCell => k = "table:base-cell-address".toList
      | .displayList => k = "table:display-list".toList := by
    intro k q hk
    have hs := vKey_spec k
    rw [hk] at hs
    cases q <;> exact hs
  have e0 := fold_keep (readAttr m) (fun v => (v.body.err, v.body.help)) (by
    intro a a' k v h
    have := readAttr_ok m a a' k v h
    cases hk : vKey k with
    | none => rw [hk] at this; rw [this]
    | some y =>
      rw [hk] at this
      cases y with
      | name => obtain ⟨s, -, rfl⟩ := this; rfl
      | condition => obtain ⟨s, c, -, -, rfl⟩ := this; rfl
      | allowEmpty => obtain ⟨s, -, rfl⟩ := this; rfl
      | baseCell => obtain ⟨s, r, -, -, rfl⟩ := this; rfl
      | displayList => obtain ⟨s, -, rfl⟩ := this; rfl) as _ t ht
  have e1 := fold_get (readAttr m) (fun v => v.name) "table:name" unescape id (by
    intro a a' k v hne h
    have := readAttr_ok m a a' k v h
    cases hk : vKey k with
    | none => rw [hk] at this; rw [this]
    | some y =>
      rw [hk] at this
      have hq := hk1 k y hk
      cases y with
      | name => exact absurd hq hne
      | condition => obtain ⟨s, c, -, -, rfl⟩ := this; rfl
      | allowEmpty => obtain ⟨s, -, rfl⟩ := this; rfl
      | baseCell => obtain ⟨s, r, -, -, rfl⟩ := this; rfl
      | displayList => obtain ⟨s, -, rfl⟩ := this; rfl) (by
    intro a a' v h
    have := readAttr_ok m a a' _ v h
    rw [show vKey "table:name".toList = some .name from vKeys.1] at this
    obtain ⟨s, hs, rfl⟩ := this
    exact ⟨_, hs, rfl⟩) as hnd _ t ht
  have e2 := fold_get (readAttr m) (fun v => v.body.condition) "table:condition" condOf id (by
    intro a a' k v hne h
    have := readAttr_ok m a a' k v h
    cases hk : vKey k with
    | none => rw [hk] at this; rw [this]
    | some y =>
      rw [hk] at this
      have hq := hk1 k y hk
      cases y with
      | name => obtain ⟨s, -, rfl⟩ := this; rfl
      | condition => exact absurd hq hne
      | allowEmpty => obtain ⟨s, -, rfl⟩ := this; rfl
      | baseCell => obtain ⟨s, r, -, -, rfl⟩ := this; rfl
      | displayList => obtain ⟨s, -, rfl⟩ := this; rfl) (by
    intro a a' v h
    have := readAttr_ok m a a' _ v h
    rw [show vKey "table:condition".toList = some .condition from vKeys.2.1] at this
    obtain ⟨s, c, hs, hc, rfl⟩ := this
    exact ⟨_, by rw [condOf, hs, Option.bind_some, hc], rfl⟩) as hnd _ t ht
  have e3 := fold_get (readAttr m) (fun v => v.body.allowEmpty) "table:allow-empty-cell" parseBool id (by
    intro a a' k v hne h
    have := readAttr_ok m a a' k v h
    cases hk : vKey k with
    | none => rw [hk] at this; rw [this]
    | some y =>
      rw [hk] at this
      have hq := hk1 k y hk
      cases y with
      | name => obtain ⟨s, -, rfl⟩ := this; rfl
      | condition => obtain ⟨s, c, -, -, rfl⟩ := this; rfl
      | allowEmpty => exact absurd hq hne
      | baseCell => obtain ⟨s, r, -, -, rfl⟩ := this; rfl
      | displayList => obtain ⟨s, -, rfl⟩ := this; rfl) (by
    intro a a' v h
    have := readAttr_ok m a a' _ v h
    rw [show vKey "table:allow-empty-cell".toList = some .allowEmpty from vKeys.2.2.1] at this
    obtain ⟨s, hs, rfl⟩ := this
    exact ⟨_, hs, rfl⟩) as hnd _ t ht
  have e4 := fold_get (readAttr m) (fun v => v.body.baseCell) "table:base-cell-address" (fun raw => (unescape raw).bind fun v => (Refs.parseCellRef m v).toOption) id (by
    intro a a' k v hne h
    have := readAttr_ok m a a' k v h
    cases hk : vKey k with
    | none => rw [hk] at this; rw [this]
    | some y =>
      rw [hk] at this
      have hq := hk1 k y hk
      cases y with
      | name => obtain ⟨s, -, rfl⟩ := this; rfl
      | condition => obtain ⟨s, c, -, -, rfl⟩ := this; rfl
      | allowEmpty => obtain ⟨s, -, rfl⟩ := this; rfl
      | baseCell => exact absurd hq hne
      | displayList => obtain ⟨s, -, rfl⟩ := this; rfl) (by
    intro a a' v h
    have := readAttr_ok m a a' _ v h
    rw [show vKey "table:base-cell-address".toList = some .baseCell from vKeys.2.2.2.1] at this
    obtain ⟨s, r, hs, hc, rfl⟩ := this
    exact ⟨_, by rw [hs, Option.bind_some, hc]; rfl, rfl⟩) as hnd _ t ht
  have e5 := fold_get (readAttr m) (fun v => v.body.displayList) "table:display-list" Display.parse id (by
    intro a a' k v hne h
    have := readAttr_ok m a a' k v h
    cases hk : vKey k with
    | none => rw [hk] at this; rw [this]
    | some y =>
      rw [hk] at this
      have hq := hk1 k y hk
      cases y with
      | name => obtain ⟨s, -, rfl⟩ := this; rfl
      | condition => obtain ⟨s, c, -, -, rfl⟩ := this; rfl
      | allowEmpty => obtain ⟨s, -, rfl⟩ := this; rfl
      | baseCell => obtain ⟨s, r, -, -, rfl⟩ := this; rfl
      | displayList => exact absurd hq hne) (by
    intro a a' v h
    have := readAttr_ok m a a' _ v h
    rw [show vKey "table:display-list".toList = some .displayList from vKeys.2.2.2.2] at this
    obtain ⟨s, hs, rfl⟩ := this
    exact ⟨_, hs, rfl⟩) as hnd _ t ht
  obtain ⟨n, c, cell, al, dl, er, he⟩ := t
  simp only [Option.map_id_apply] at e1 e2 e3 e4 e5
  simp only [Prod.mk.injEq] at e0
  obtain ⟨rfl, rfl⟩ := e0
  have e2' := e2.trans hcond
  unfold validOf nameOf
  rw [e1, e2', e3, e4, e5]
  congr 3
  unfold ruleSaid
  cases Codec.attrText as "table:base-cell-address" <;> rfl

/-! ## Messages -/

theorem errAttrs_ok (as : List (Str × Str)) (h : ∀ a ∈ as,
    (a.1 = "table:title".toList → (unescape a.2).isSome = true)
    ∧ (a.1 = "table:display".toList → (parseBool a.2).isSome = true)
    ∧ (a.1 = "table:message-type".toList → (MessageType.parse a.2).isSome = true)) :
    ∀ e, ∃ e', errAttrs e as = .ok e' := by
  induction as with
  | nil => intro e; exact ⟨e, rfl⟩
  | cons kv as ih =>
    intro e
    obtain ⟨k, raw⟩ := kv
    have ih := ih (fun a ha => h a (List.mem_cons_of_mem _ ha))
    obtain ⟨h1, h2, h3⟩ := h (k, raw) List.mem_cons_self
    rw [errAttrs]
    by_cases k1 : k = aDisplay
    · obtain ⟨b, hb⟩ := Option.isSome_iff_exists.1 (h2 k1)
      rw [mKey, if_pos k1]
      simp only [hb]
      exact ih _
    by_cases k2 : k = aType
    · obtain ⟨b, hb⟩ := Option.isSome_iff_exists.1 (h3 k2)
      rw [mKey, if_neg k1, if_pos k2]
      simp only [hb]
      exact ih _
    by_cases k3 : k = aTitle
    · obtain ⟨b, hb⟩ := Option.isSome_iff_exists.1 (h1 k3)
      rw [mKey, if_neg k1, if_neg k2, if_pos k3]
      simp only [hb]
      exact ih _
    · rw [mKey, if_neg k1, if_neg k2, if_neg k3]
      exact ih _

theorem helpAttrs_ok (as : List (Str × Str)) (h : ∀ a ∈ as,
    (a.1 = "table:title".toList → (unescape a.2).isSome = true)
    ∧ (a.1 = "table:display".toList → (parseBool a.2).isSome = true)
    ∧ (a.1 = "table:message-type".toList → (MessageType.parse a.2).isSome = true)) :
    ∀ e, ∃ e', helpAttrs e as = .ok e' := by
  induction as with
  | nil => intro e; exact ⟨e, rfl⟩
  | cons kv as ih =>
    intro e
    obtain ⟨k, raw⟩ := kv
    have ih := ih (fun a ha => h a (List.mem_cons_of_mem _ ha))
    obtain ⟨h1, h2, h3⟩ := h (k, raw) List.mem_cons_self
    rw [helpAttrs]
    by_cases k1 : k = aDisplay
    · obtain ⟨b, hb⟩ := Option.isSome_iff_exists.1 (h2 k1)
      rw [mKey, if_pos k1]
      simp only [hb]
      exact ih _
    by_cases k2 : k = aType
    · rw [mKey, if_neg k1, if_pos k2]
      exact ih _
    by_cases k3 : k = aTitle
    · obtain ⟨b, hb⟩ := Option.isSome_iff_exists.1 (h1 k3)
      rw [mKey, if_neg k1, if_neg k2, if_pos k3]
      simp only [hb]
      exact ih _
    · rw [mKey, if_neg k1, if_neg k2, if_neg k3]
      exact ih _

theorem msgText_ok (n : Str) (as : List (Str × Str)) (c : List El) (ha : Escaped as) (hc : CleanIn c)
    (hn : NoStartIn n c) (hr : c = [] ∨ c.all El.isText = false) :
    ∃ x, ∀ r, msgText n as false (evsOf c ++ .end n :: r) = .ok (x, r) := by
  rcases hr with rfl | hr
  · refine ⟨none, fun r => ?_⟩
    unfold msgText readText
    rw [if_neg (by simp), show evsOf ([] : List El) ++ .end n :: r = .end n :: r from rfl, readTextLoop_end,
      if_neg (by simp [openName]), if_pos rfl]
    rfl
  · refine ⟨some ⟨n, plainAttrs as, joinLead c⟩, fun r => ?_⟩
    unfold msgText readText
    rw [if_neg (by simp), El.textLoopIn n as _ (escaped_some ha) c hc hn .empty trivial, el_adds_rich _ _ _ hr,
      readTextLoop_end, if_neg (by simp [openName]), if_pos rfl]
    rfl

/-! ## The loop -/

/-- Storing several validations. -/
def storeAll : List Validation → Stores Body → Except Fault (Stores Body)
  | [], b => .ok b
  | v :: l, b =>
    match addValid b v with
    | .error e => .error e
    | .ok b => storeAll l b

theorem storeAll_append (l l' : List Validation) : ∀ b, storeAll (l ++ l') b =
    match storeAll l b with
    | .error e => .error e
    | .ok b => storeAll l' b := by
  induction l with
  | nil => intro b; rfl
  | cons v l ih =>
    intro b
    rw [List.cons_append, storeAll, storeAll]
    cases addValid b v with
    | error e => rfl
    | ok b => exact ih b

/-- The loop gets from `v` to `v'` over the events, and stores `l`. -/
def Loops (m : Refs.Ints) (es : List Event) (v v' : Validation) (l : List Validation) : Prop :=
  ∀ b rest k, (es ++ rest).length < k → ∃ j, rest.length < j ∧ readLoop m k v b (es ++ rest)
    = match storeAll l b with
      | .error e => .error e
      | .ok b => readLoop m j v' b rest

theorem Loops.nil (m : Refs.Ints) (v : Validation) : Loops m [] v v [] :=
  fun _ _ k hk => ⟨k, hk, rfl⟩

theorem Loops.append {m : Refs.Ints} {es us : List Event} {v w x : Validation} {l l' : List Validation}
    (h1 : Loops m es v w l) (h2 : Loops m us w x l') : Loops m (es ++ us) v x (l ++ l') := by
  intro b rest k hk
  rw [List.append_assoc] at hk ⊢
  obtain ⟨j, hj, e⟩ := h1 b (us ++ rest) k hk
  rw [e, storeAll_append]
  cases storeAll l b with
  | error e => exact ⟨rest.length + 1, by omega, rfl⟩
  | ok b => exact h2 b rest j hj

/-- One event that does not matter. -/
theorem Loops.skip (m : Refs.Ints) (ev : Event) (v : Validation)
    (h : ∀ k b rest, readLoop m (k + 1) v b (ev :: rest) = readLoop m k v b rest) : Loops m [ev] v v [] := by
  intro b rest k hk
  obtain ⟨k, rfl⟩ : ∃ i, k = i + 1 := ⟨k - 1, by omega⟩
  exact ⟨k, by simp at hk; omega, h k b rest⟩

mutual

theorem El.loopsFree (m : Refs.Ints) (e : El) (h : e.Free validNames) (v : Validation) : Loops m e.events v v [] :=
  match e with
  | .text s => Loops.skip m _ v (fun _ _ _ => rfl)
  | .ref s => Loops.skip m _ v (fun _ _ _ => rfl)
  | .void n as => by
    simp only [El.Free, validNames, List.mem_cons, List.not_mem_nil, or_false, not_or] at h
    refine Loops.skip m _ v (fun k b rest => ?_)
    rw [readLoop, if_neg h.2.2.1, if_neg h.2.2.2]
  | .elem n as c => by
    simp only [El.Free] at h
    have hin := El.loopsFreeIn m c h.2 v
    obtain ⟨h, -⟩ := h
    simp only [validNames, List.mem_cons, List.not_mem_nil, or_false, not_or] at h
    have h1 : Loops m [.start n as] v v [] := Loops.skip m _ v (fun k b rest => by
      rw [readLoop, if_neg h.2.1, if_neg h.2.2.1, if_neg h.2.2.2])
    have h2 : Loops m [.end n] v v [] := Loops.skip m _ v (fun k b rest => by
      rw [readLoop, if_neg h.2.1, if_neg h.1])
    exact h1.append (hin.append h2)

theorem El.loopsFreeIn (m : Refs.Ints) (c : List El) (h : FreeIn validNames c) (v : Validation) :
    Loops m (evsOf c) v v [] :=
  match c with
  | [] => Loops.nil m v
  | e :: c => by
    simp only [FreeIn] at h
    exact (El.loopsFree m e h.1 v).append (El.loopsFreeIn m c h.2 v)

end

/-- A message. -/
theorem msg_loops (m : Refs.Ints) (e : El) (h : MsgPart e) (v : Validation) :
    ∃ v', v'.name = v.name ∧ Loops m e.events v v' [] := by
  cases e with
  | text s => exact ⟨v, rfl, Loops.skip m _ v (fun _ _ _ => rfl)⟩
  | ref s => exact ⟨v, rfl, Loops.skip m _ v (fun _ _ _ => rfl)⟩
  | void n as =>
    unfold MsgPart at h
    by_cases h1 : n = tErr
    · subst h1
      obtain ⟨e, he⟩ := errAttrs_ok as (h (.inl rfl)).2 {}
      refine ⟨{ v with body := { v.body with err := some e } }, rfl, ?_⟩
      intro b rest k hk
      obtain ⟨k, rfl⟩ : ∃ i, k = i + 1 := ⟨k - 1, by omega⟩
      refine ⟨k, by simp [El.events] at hk; omega, ?_⟩
      rw [El.events, List.cons_append, List.nil_append, readLoop, if_pos rfl, readError, he]
      rfl
    by_cases h2 : n = tHelp
    · subst h2
      obtain ⟨e, he⟩ := helpAttrs_ok as (h (.inr rfl)).2 {}
      refine ⟨{ v with body := { v.body with help := some e } }, rfl, ?_⟩
      intro b rest k hk
      obtain ⟨k, rfl⟩ : ∃ i, k = i + 1 := ⟨k - 1, by omega⟩
      refine ⟨k, by simp [El.events] at hk; omega, ?_⟩
      rw [El.events, List.cons_append, List.nil_append, readLoop, if_neg h1, if_pos rfl, readHelp, he]
      rfl
    · refine ⟨v, rfl, Loops.skip m _ v (fun k b rest => ?_)⟩
      rw [readLoop, if_neg h1, if_neg h2]
  | elem n as c =>
    obtain ⟨h, h'⟩ := h
    by_cases h1 : n = tErr
    · subst h1
      obtain ⟨ha, hc, hn, hr⟩ := h (.inl rfl)
      obtain ⟨e, he⟩ := errAttrs_ok as ha.2 {}
      obtain ⟨x, hx⟩ := msgText_ok tErr as c ha.1 hc hn hr
      have : ∃ v' : Validation, v'.name = v.name ∧ ∀ r, readError v as false (evsOf c ++ .end tErr :: r) = .ok (v', r) := by
        cases x with
        | none => exact ⟨{ v with body := { v.body with err := some e } }, rfl, fun r => by rw [readError, he]; simp only [hx]⟩
        | some f =>
          exact ⟨{ v with body := { v.body with err := some { e with text := some f } } }, rfl,
            fun r => by rw [readError, he]; simp only [hx]⟩
      obtain ⟨v', h3, h4⟩ := this
      refine ⟨v', h3, ?_⟩
      intro b rest k hk
      obtain ⟨k, rfl⟩ : ∃ i, k = i + 1 := ⟨k - 1, by omega⟩
      refine ⟨k, by simp [El.events] at hk; omega, ?_⟩
      rw [El.events, List.cons_append, List.append_assoc, show [Event.end tErr] ++ rest = .end tErr :: rest from rfl,
        readLoop, if_neg tags.1, if_pos rfl, h4]
      rfl
    by_cases h2 : n = tHelp
    · subst h2
      obtain ⟨ha, hc, hn, hr⟩ := h (.inr rfl)
      obtain ⟨e, he⟩ := helpAttrs_ok as ha.2 {}
      obtain ⟨x, hx⟩ := msgText_ok tHelp as c ha.1 hc hn hr
      have : ∃ v' : Validation, v'.name = v.name ∧ ∀ r, readHelp v as false (evsOf c ++ .end tHelp :: r) = .ok (v', r) := by
        cases x with
        | none => exact ⟨{ v with body := { v.body with help := some e } }, rfl, fun r => by rw [readHelp, he]; simp only [hx]⟩
        | some f =>
          exact ⟨{ v with body := { v.body with help := some { e with text := some f } } }, rfl,
            fun r => by rw [readHelp, he]; simp only [hx]⟩
      obtain ⟨v', h3, h4⟩ := this
      refine ⟨v', h3, ?_⟩
      intro b rest k hk
      obtain ⟨k, rfl⟩ : ∃ i, k = i + 1 := ⟨k - 1, by omega⟩
      refine ⟨k, by simp [El.events] at hk; omega, ?_⟩
      rw [El.events, List.cons_append, List.append_assoc, show [Event.end tHelp] ++ rest = .end tHelp :: rest from rfl,
        readLoop, if_neg tags.2.1, if_neg h1, if_pos rfl, h4]
      rfl
    · exact ⟨v, rfl, El.loopsFree m _ (h' (by rintro (h | h); exact h1 h; exact h2 h)) v⟩

theorem msgs_loops (m : Refs.Ints) (c : List El) (h : ∀ e ∈ c, MsgPart e) : ∀ v,
    ∃ v' : Validation, v'.name = v.name ∧ Loops m (evsOf c) v v' [] := by
  induction c with
  | nil => intro v; exact ⟨v, rfl, Loops.nil m v⟩
  | cons e c ih =>
    intro v
    obtain ⟨w, h1, h2⟩ := msg_loops m e (h e List.mem_cons_self) v
    obtain ⟨x, h3, h4⟩ := ih (fun e he => h e (List.mem_cons_of_mem _ he)) w
    exact ⟨x, h3.trans h1, h2.append h4⟩

/-- The validations that are stored under names. -/
def namedIn (m : Refs.Ints) (c : List El) : List Validation :=
  c.filterMap fun
    | .elem n as _ => if n = tOne then some (validOf m as) else none
    | _ => none

theorem part_loops (m : Refs.Ints) (e : El) (h : ListPart m e) :
    ∃ l, Loops m e.events Validation.new Validation.new l
      ∧ l.filter (fun v => !v.name.isEmpty) = (namedIn m [e]).filter (fun v => !v.name.isEmpty)
      ∧ l.length = 2 * (namedIn m [e]).length := by
  cases e with
  | text s => exact ⟨[], Loops.skip m _ _ (fun _ _ _ => rfl), rfl, rfl⟩
  | ref s => exact ⟨[], Loops.skip m _ _ (fun _ _ _ => rfl), rfl, rfl⟩
  | void n as =>
    refine ⟨[], Loops.skip m _ _ (fun k b rest => ?_), rfl, rfl⟩
    rw [readLoop, if_neg h.1, if_neg h.2]
  | elem n as c =>
    obtain ⟨h, h'⟩ := h
    by_cases h1 : n = tOne
    · subst h1
      obtain ⟨hr, hm⟩ := h rfl
      obtain ⟨v', hn, hl⟩ := msgs_loops m c hm Validation.new
      have hs : Loops m [.start tOne as] Validation.new Validation.new [validOf m as] := by
        intro b rest k hk
        obtain ⟨k, rfl⟩ : ∃ i, k = i + 1 := ⟨k - 1, by omega⟩
        refine ⟨k, by simp at hk; omega, ?_⟩
        rw [List.cons_append, List.nil_append, readLoop, if_pos rfl, rule_read m as hr, storeAll]
        simp only
        cases addValid b (validOf m as) with
        | error e => rfl
        | ok b => rfl
      have he : Loops m [.end tOne] v' Validation.new [v'] := by
        intro b rest k hk
        obtain ⟨k, rfl⟩ : ∃ i, k = i + 1 := ⟨k - 1, by omega⟩
        refine ⟨k, by simp at hk; omega, ?_⟩
        rw [List.cons_append, List.nil_append, readLoop, if_pos rfl, storeAll]
        cases addValid b v' with
        | error e => rfl
        | ok b => rfl
      have hnm : namedIn m [El.elem tOne as c] = [validOf m as] := by
        unfold namedIn
        rw [List.filterMap_cons]
        simp
      refine ⟨[validOf m as] ++ ([] ++ [v']), hs.append (hl.append he), ?_, ?_⟩
      · rw [hnm, List.nil_append, List.filter_append]
        rw [show List.filter (fun v => !v.name.isEmpty) [v'] = [] from by
          rw [List.filter_cons, hn]; rfl, List.append_nil]
      · rw [hnm]; rfl
    · have hnm : namedIn m [El.elem n as c] = [] := by
        unfold namedIn
        rw [List.filterMap_cons]
        simp only
        rw [if_neg h1]
        rfl
      refine ⟨[], El.loopsFree m _ (h' h1) _, ?_, ?_⟩
      · rw [hnm]
      · rw [hnm]; rfl

theorem namedIn_cons (m : Refs.Ints) (e : El) (c : List El) : namedIn m (e :: c) = namedIn m [e] ++ namedIn m c := by
  show namedIn m ([e] ++ c) = _
  unfold namedIn
  rw [List.filterMap_append]

theorem list_loops (m : Refs.Ints) (c : List El) (h : ∀ e ∈ c, ListPart m e) :
    ∃ l, Loops m (evsOf c) Validation.new Validation.new l
      ∧ l.filter (fun v => !v.name.isEmpty) = (namedIn m c).filter (fun v => !v.name.isEmpty)
      ∧ l.length = 2 * (namedIn m c).length := by
  induction c with
  | nil => exact ⟨[], Loops.nil m _, rfl, rfl⟩
  | cons e c ih =>
    obtain ⟨l1, a1, a2, a3⟩ := part_loops m e (h e List.mem_cons_self)
    obtain ⟨l2, b1, b2, b3⟩ := ih (fun e he => h e (List.mem_cons_of_mem _ he))
    refine ⟨l1 ++ l2, a1.append b1, ?_, ?_⟩
    · rw [namedIn_cons, List.filter_append, List.filter_append, a2, b2]
    · rw [namedIn_cons, List.length_append, List.length_append, a3, b3]; omega

theorem Loops.read {m : Refs.Ints} {es : List Event} {l : List Validation}
    (h : Loops m es Validation.new Validation.new l) (b : Stores Body) (r : List Event) :
    readValidations m b (es ++ .end tAll :: r) = (storeAll l b).map fun b => (b, r) := by
  unfold readValidations
  obtain ⟨j, hj, e⟩ := h b (.end tAll :: r) ((es ++ .end tAll :: r).length + 1) (by omega)
  rw [e]
  cases storeAll l b with
  | error e => rfl
  | ok b =>
    obtain ⟨j, rfl⟩ : ∃ i, j = i + 1 := ⟨j - 1, by omega⟩
    simp only
    rw [readLoop, if_neg tags.2.2.2, if_pos rfl]
    rfl

theorem storeAll_run (l : List Validation) : ∀ (b b' : Stores Body) (rs : List (Option Str)),
    b.run (l.map (StoreOp.add .validation)) = .ok (b', rs) → storeAll l b = .ok b' := by
  induction l with
  | nil => intro b b' rs h; cases h; rfl
  | cons v l ih =>
    intro b b' rs h
    rw [List.map_cons, Stores.run] at h
    simp only [Stores.step] at h
    rw [storeAll, addValid]
    cases h1 : b.add .validation v with
    | error e => rw [h1] at h; cases h
    | ok p =>
      obtain ⟨b1, r1⟩ := p
      rw [h1] at h
      simp only at h ⊢
      cases h3 : b1.run (l.map (StoreOp.add .validation)) with
      | error e => rw [h3] at h; cases h
      | ok p =>
        obtain ⟨b3, r3⟩ := p
        rw [h3] at h
        cases h
        exact ih b1 b' r3 h3

/-- What is stored under a name stays until a validation with this name is stored. -/
theorem storeAll_get (l : List Validation) : ∀ (b b' : Stores Body), storeAll l b = .ok b' →
    ((l.filter (fun v => !v.name.isEmpty)).map (·.name)).Nodup →
    (∀ v ∈ l, v.name ≠ [] → b'.get? .validation v.name = some v)
    ∧ ∀ n s, b.get? .validation n = some s → n ∉ (l.filter (fun v => !v.name.isEmpty)).map (·.name) →
      b'.get? .validation n = some s := by
  induction l with
  | nil => intro b b' h _; cases h; exact ⟨(by intro v hv; cases hv), fun n s hs _ => hs⟩
  | cons v l ih =>
    intro b b' h hnd
    rw [storeAll] at h
    cases h1 : addValid b v with
    | error e => rw [h1] at h; cases h
    | ok b1 =>
      rw [h1] at h
      simp only at h
      obtain ⟨r1, a1⟩ := addValid_ok h1
      by_cases hv : v.name = []
      · have hf : (v :: l).filter (fun v => !v.name.isEmpty) = l.filter (fun v => !v.name.isEmpty) := by
          rw [List.filter_cons, hv]; rfl
        rw [hf] at hnd ⊢
        obtain ⟨n, body⟩ := v
        simp only at hv
        subst hv
        obtain ⟨g2, g3, g4⟩ := C40_any_state b b1 .validation body r1 a1
        obtain ⟨i1, i2⟩ := ih b1 b' h hnd
        refine ⟨?_, ?_⟩
        · intro w hw hne
          rcases List.mem_cons.1 hw with rfl | hw
          · exact absurd rfl hne
          · exact i1 w hw hne
        · intro n s hs hn
          refine i2 n s ?_ hn
          rw [g4 .validation n, hs]
          intro he
          cases he
          rw [g2] at hs
          cases hs
      · have hf : (v :: l).filter (fun v => !v.name.isEmpty) = v :: l.filter (fun v => !v.name.isEmpty) := by
          rw [List.filter_cons, if_pos]
          cases hx : v.name with
          | nil => exact absurd hx hv
          | cons a b => rfl
        rw [hf] at hnd ⊢
        have g1 := add_get b b1 .validation v r1 a1
        obtain rfl : r1 = v.name := g1.1 hv
        rw [List.map_cons, List.nodup_cons] at hnd
        obtain ⟨i1, i2⟩ := ih b1 b' h hnd.2
        refine ⟨?_, ?_⟩
        · intro w hw hne
          rcases List.mem_cons.1 hw with rfl | hw
          · refine i2 _ _ ?_ hnd.1
            rw [g1.2, if_pos ⟨rfl, rfl⟩]
          · exact i1 w hw hne
        · intro n s hs hn
          rw [List.map_cons, List.mem_cons, not_or] at hn
          refine i2 n s ?_ hn.2
          rw [g1.2, if_neg (by rintro ⟨_, he⟩; exact hn.1 he.symm)]
          exact hs

theorem rulesIn_named (m : Refs.Ints) (c : List El) :
    rulesIn m c = (namedIn m c).map fun v => (v.name, v.body.rule) := by
  unfold rulesIn namedIn
  rw [List.map_filterMap]
  congr 1
  funext e
  cases e with
  | elem n as c =>
    simp only
    split <;> rfl
  | _ => rfl

/-- The rules of the named validations are found. -/
theorem named_found (m : Refs.Ints) (c : List El) (l : List Validation)
    (h2 : l.filter (fun v => !v.name.isEmpty) = (namedIn m c).filter (fun v => !v.name.isEmpty))
    (h3 : l.length = 2 * (namedIn m c).length)
    (hne : ∀ x ∈ rulesIn m c, x.1 ≠ []) (hnd : ((rulesIn m c).map Prod.fst).Nodup)
    (hlen : 2 * (rulesIn m c).length < 4294967296) :
    ∃ b, storeAll l {} = .ok b ∧ ∀ n rule, (n, rule) ∈ rulesIn m c →
        ∃ s, b.get? .validation n = some s ∧ s.name = n ∧ s.body.rule = rule := by
  have hall : (namedIn m c).filter (fun v => !v.name.isEmpty) = namedIn m c := by
    rw [List.filter_eq_self]
    intro v hv
    have := hne (v.name, v.body.rule) (by rw [rulesIn_named]; exact List.mem_map.2 ⟨v, hv, rfl⟩)
    cases hx : v.name with
    | nil => exact absurd hx this
    | cons a b => rfl
  rw [hall] at h2
  have hl : (namedIn m c).length = (rulesIn m c).length := by rw [rulesIn_named, List.length_map]
  obtain ⟨b, rs, h4, -⟩ := C41_map (l.map (StoreOp.add .validation)) (by rw [List.length_map, h3, hl]; exact hlen)
  have h5 := storeAll_run l {} b rs h4
  refine ⟨b, h5, ?_⟩
  intro n rule hx
  rw [rulesIn_named] at hx
  obtain ⟨v, hv, he⟩ := List.mem_map.1 hx
  cases he
  refine ⟨v, ?_, rfl, rfl⟩
  have hmem : v ∈ l ∧ v.name ≠ [] := by
    rw [← h2, List.mem_filter] at hv
    refine ⟨hv.1, fun e => ?_⟩
    rw [e] at hv
    cases hv.2
  refine (storeAll_get l {} b h5 ?_).1 v hmem.1 hmem.2
  rw [h2]
  rw [rulesIn_named, List.map_map] at hnd
  exact hnd

/-! ## The properties -/

/-- **C106** (validations): the validations of any file, with their messages and anything else between them, are
read, and each that has a start tag and an end tag is found under its name with the rule that the file has.
Missing: the messages, which are stored elsewhere (`C49_messages_counterexample`), and validations that are
empty tags (`C106_empty_counterexample`). -/
theorem C106_rules_partial (m : Refs.Ints) (c : List El) (h : ∀ e ∈ c, ListPart m e)
    (hne : ∀ x ∈ rulesIn m c, x.1 ≠ []) (hnd : ((rulesIn m c).map Prod.fst).Nodup)
    (hlen : 2 * (rulesIn m c).length < 4294967296) (r : List Event) :
    ∃ b, readValidations m {} (evsOf c ++ .end tAll :: r) = .ok (b, r)
      ∧ ∀ n rule, (n, rule) ∈ rulesIn m c →
        ∃ s, b.get? .validation n = some s ∧ s.name = n ∧ s.body.rule = rule := by
  obtain ⟨l, h1, h2, h3⟩ := list_loops m c h
  obtain ⟨b, h5, h6⟩ := named_found m c l h2 h3 hne hnd hlen
  exact ⟨b, by rw [h1.read, h5]; rfl, h6⟩

theorem evsOf_append (c d : List El) : evsOf (c ++ d) = evsOf c ++ evsOf d := by
  induction c with
  | nil => rfl
  | cons e c ih => rw [List.cons_append, evsOf, evsOf, ih, List.append_assoc]

/-- C106 fails for validations without messages: they are empty tags in the files of other programs, and
each of them is lost.  The file is read as if it were not there. -/
theorem C106_empty_counterexample (m : Refs.Ints) (b : Stores Body) (c d : List El) (as : List (Str × Str))
    (hc : ∀ e ∈ c, ListPart m e) (hd : ∀ e ∈ d, ListPart m e) (r : List Event) :
    readValidations m b (evsOf (c ++ El.void tOne as :: d) ++ .end tAll :: r)
      = readValidations m b (evsOf (c ++ d) ++ .end tAll :: r) := by
  obtain ⟨l1, h1, -, -⟩ := list_loops m c hc
  obtain ⟨l2, h2, -, -⟩ := list_loops m d hd
  have h3 : Loops m (El.void tOne as).events Validation.new Validation.new [] :=
    Loops.skip m _ _ (fun k b rest => by rw [readLoop, if_neg (Ne.symm tags.1), if_neg (Ne.symm tags.2.1)])
  rw [evsOf_append, evsOf_append, evsOf, (h1.append (h3.append h2)).read, (h1.append h2).read]
  rfl

/-! ## Validations as other programs write them -/

def officeRule : List (Str × Str) :=
  [("table:name".toList, "val1".toList),
    ("table:condition".toList, "of:cell-content-is-decimal-number() and cell-content()&gt;5".toList),
    ("table:allow-empty-cell".toList, "true".toList),
    ("table:base-cell-address".toList, "Sheet1.B4".toList)]

def officeList : List (Str × Str) :=
  [("table:condition".toList, "of:cell-content-is-in-list([.A1:.A3])".toList),
    ("table:name".toList, "val2".toList), ("table:display-list".toList, "sort-ascending".toList)]

def officeValids : List El :=
  [.text "\n ".toList,
    .elem tOne officeRule
      [.elem tHelp [("table:title".toList, "T &amp; U".toList), ("table:display".toList, "true".toList)]
        [.elem tPara [] [.text "h".toList]],
       .void tErr [("table:message-type".toList, "stop".toList), ("table:display".toList, "true".toList)]],
    .elem tOne officeList [.elem "office:event-listeners".toList [] [.void "script:event-listener".toList []]]]

theorem officeRule_ok : RuleReadable Refs.checked officeRule := by
  refine ⟨by decide +kernel, ?_⟩
  intro a ha
  simp only [officeRule, List.mem_cons, List.not_mem_nil, or_false] at ha
  rcases ha with rfl | rfl | rfl | rfl
  · exact ⟨fun _ => by decide +kernel, fun h => absurd h (by decide +kernel), fun h => absurd h (by decide +kernel),
      fun h => absurd h (by decide +kernel), fun h => absurd h (by decide +kernel)⟩
  · exact ⟨fun h => absurd h (by decide +kernel),
      fun _ => ⟨"cell-content-is-decimal-number() and cell-content()>5".toList, by decide +kernel⟩,
      fun h => absurd h (by decide +kernel), fun h => absurd h (by decide +kernel), fun h => absurd h (by decide +kernel)⟩
  · exact ⟨fun h => absurd h (by decide +kernel), fun h => absurd h (by decide +kernel), fun _ => by decide +kernel,
      fun h => absurd h (by decide +kernel), fun h => absurd h (by decide +kernel)⟩
  · refine ⟨fun h => absurd h (by decide +kernel), fun h => absurd h (by decide +kernel),
      fun h => absurd h (by decide +kernel), fun _ => ⟨"Sheet1.B4".toList, ?_⟩, fun h => absurd h (by decide +kernel)⟩
    have h1 : (Refs.parseCellRef Refs.checked "Sheet1.B4".toList).isOk = true := by decide +kernel
    cases h2 : Refs.parseCellRef Refs.checked "Sheet1.B4".toList with
    | error e => rw [h2] at h1; cases h1
    | ok r => exact ⟨r, by decide +kernel, rfl⟩

theorem officeList_ok : RuleReadable Refs.checked officeList := by
  refine ⟨by decide +kernel, ?_⟩
  intro a ha
  simp only [officeList, List.mem_cons, List.not_mem_nil, or_false] at ha
  rcases ha with rfl | rfl | rfl
  · exact ⟨fun h => absurd h (by decide +kernel),
      fun _ => ⟨"cell-content-is-in-list([.A1:.A3])".toList, by decide +kernel⟩,
      fun h => absurd h (by decide +kernel), fun h => absurd h (by decide +kernel), fun h => absurd h (by decide +kernel)⟩
  · exact ⟨fun _ => by decide +kernel, fun h => absurd h (by decide +kernel), fun h => absurd h (by decide +kernel),
      fun h => absurd h (by decide +kernel), fun h => absurd h (by decide +kernel)⟩
  · exact ⟨fun h => absurd h (by decide +kernel), fun h => absurd h (by decide +kernel),
      fun h => absurd h (by decide +kernel), fun h => absurd h (by decide +kernel), fun _ => by decide +kernel⟩

theorem officeValids_ok : ∀ e ∈ officeValids, ListPart Refs.checked e := by
  intro e he
  simp only [officeValids, List.mem_cons, List.not_mem_nil, or_false] at he
  rcases he with rfl | rfl | rfl
  · trivial
  · refine ⟨fun _ => ⟨officeRule_ok, ?_⟩, fun h => absurd rfl h⟩
    intro e he
    simp only [List.mem_cons, List.not_mem_nil, or_false] at he
    rcases he with rfl | rfl
    · refine ⟨fun _ => ⟨⟨by unfold Escaped; decide +kernel, by decide +kernel⟩, ?_, ?_, .inr rfl⟩,
        fun h => absurd (.inr rfl) h⟩
      · exact ⟨⟨rfl, trivial, trivial⟩, trivial⟩
      · exact ⟨⟨by decide +kernel, trivial, trivial⟩, trivial⟩
    · intro _
      exact ⟨by unfold Escaped; decide +kernel, by decide +kernel⟩
  · refine ⟨fun _ => ⟨officeList_ok, ?_⟩, fun h => absurd rfl h⟩
    intro e he
    simp only [List.mem_cons, List.not_mem_nil, or_false] at he
    subst he
    refine ⟨fun h => absurd h (by decide +kernel), fun _ => ⟨by decide +kernel, ⟨(show "script:event-listener".toList ∉ validNames by decide +kernel), trivial⟩⟩⟩

theorem officeValids_rules : rulesIn Refs.checked officeValids
    = [("val1".toList, ⟨"cell-content-is-decimal-number() and cell-content()>5".toList,
          { table := some "Sheet1".toList, row := { row := 3 }, col := { col := 1 } }, true, .unsorted⟩),
       ("val2".toList, ⟨"cell-content-is-in-list([.A1:.A3])".toList,
          { row := { row := 0 }, col := { col := 0 } }, true, .sortAscending⟩)] := by
  decide +kernel

/-- `C106_rules_partial` says that these are found. -/
example (r : List Event) : ∃ b, readValidations Refs.checked {} (evsOf officeValids ++ .end tAll :: r) = .ok (b, r)
    ∧ (b.get? .validation "val2".toList).map (fun s => (s.body.condition, s.body.displayList))
      = some ("cell-content-is-in-list([.A1:.A3])".toList, .sortAscending) := by
  obtain ⟨b, h1, h2⟩ := C106_rules_partial Refs.checked officeValids officeValids_ok
    (by rw [officeValids_rules]; decide +kernel) (by rw [officeValids_rules]; decide +kernel)
    (by rw [officeValids_rules]; decide +kernel) r
  refine ⟨b, h1, ?_⟩
  obtain ⟨s, h3, -, h4⟩ := h2 "val2".toList ⟨"cell-content-is-in-list([.A1:.A3])".toList,
    { row := { row := 0 }, col := { col := 0 } }, true, .sortAscending⟩
    (by rw [officeValids_rules]; exact List.mem_cons_of_mem _ List.mem_cons_self)
  rw [h3, Option.map_some]
  cases s with
  | mk n body =>
    cases body
    cases h4
    rfl

end Verif.Valid
