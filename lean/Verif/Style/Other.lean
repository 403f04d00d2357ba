import Verif.Style.Back
import Verif.Codec.OtherNotes

/-!
# Styles of other programs

What is read of styles and formats that are laid out in ways the crate would never write: elements in any order and at
any depth, unknown elements and attributes, comments and white space anywhere.
-/

set_option autoImplicit false

namespace Verif.Style

open Xml Xml.Spec Codec Book

/-! ## Specification -/

/-- A tag with its attributes. -/
abbrev Tag := Str × List (Str × Str)

mutual

/-- All tags of an element, in the order of the file. -/
def elTags : El → List Tag
  | .text _ => []
  | .ref _ => []
  | .void n as => [(n, as)]
  | .elem n as c => (n, as) :: elTagsIn c

/-- Of several. -/
def elTagsIn : List El → List Tag
  | [] => []
  | e :: c => elTags e ++ elTagsIn c

end

/-- The value of an attribute. -/
def attrOf (as : List (Str × Str)) (k : Str) : Option Str := (as.lookup k).bind unescape

/-- The attributes of all tags with this name. -/
def propsOf (t : Str) (ts : List Tag) : Attrs := ts.flatMap fun x => if x.1 = t then plainAttrs x.2 else []

/-- The tags with this name. -/
def named (t : Str) (ts : List Tag) : List (List (Str × Str)) := (ts.filter fun x => x.1 = t).map Prod.snd

/-- `None` if there is nothing. -/
def someIf {α : Type} (l : List α) : Option (List α) := if l = [] then none else some l

/-- What a tag says of a conditional style. -/
def mapSaid (m : Refs.Ints) (as : List (Str × Str)) : StyleMap :=
  { condition := (attrOf as aCondition).getD []
    applied := (attrOf as aApply).getD []
    baseCell := (attrOf as aBaseCell).bind fun v => (Refs.parseCellRef m v).toOption }

/-- The element with the main properties of a style of this family. -/
def mainTag : Kind → Option Str
  | .table => some tTableProps
  | .row => some tRowProps
  | .col => some tColProps
  | .cell => some tCellProps
  | .ruby => some tRubyProps
  | .graphic => some tGraphicProps
  | _ => none

/-- The name an element gives. -/
def nameSaid (as : List (Str × Str)) : Str := (attrOf as aName).getD []

/-- The attributes but for the name. -/
def attrsSaid (as : List (Str × Str)) : Attrs := (plainAttrs as).filter fun a => !(a.1 == aName)

/-- **What an element says of a style**: its attributes, and the attributes of the property elements its family has. -/
def bodySaid (m : Refs.Ints) (o : Origin) (u : Use) (k : Kind) (as : List (Str × Str)) (ts : List Tag) : Body :=
  { origin := o
    use := u
    attr := attrsSaid as
    main := match mainTag k with | some t => propsOf t ts | none => []
    para := if k ∈ [.cell, .paragraph, .graphic] then propsOf tParaProps ts else []
    text := if k ∈ [.cell, .paragraph, .graphic, .text] then propsOf tTextProps ts else []
    maps := if k = .cell then someIf ((named tMap ts).map (mapSaid m)) else none
    tabs := if k = .paragraph then someIf ((named tTabStop ts).map plainAttrs) else none }

/-- The family of a style. -/
def kindSaid (as : List (Str × Str)) : Option Kind :=
  (as.lookup aFamily).bind fun v => Spec.styleFamilies.find? fun k => family k = v

/-! ## Attributes -/

theorem plainAttrs_cons {k v : Str} {as : List (Str × Str)} (h : Escaped ((k, v) :: as)) :
    ∃ w, unescape v = some w ∧ Escaped as ∧ plainAttrs ((k, v) :: as) = (k, w) :: plainAttrs as := by
  unfold Escaped at h ⊢
  unfold plainAttrs
  rw [unescapeAttrs] at h ⊢
  cases hv : unescape v with
  | none => rw [hv] at h; simp at h
  | some w =>
    cases ha : unescapeAttrs as with
    | none => rw [hv, ha] at h; simp at h
    | some bs => exact ⟨w, rfl, rfl, rfl⟩

theorem copyAttrs_plain (as : List (Str × Str)) (h : Escaped as) : ∀ m, copyAttrs m as = .ok (m ++ plainAttrs as) := by
  induction as with
  | nil => intro m; simp [copyAttrs, plainAttrs, unescapeAttrs]
  | cons a as ih =>
    intro m
    obtain ⟨k, v⟩ := a
    obtain ⟨w, h1, h2, h3⟩ := plainAttrs_cons h
    rw [copyAttrs, h1]
    simp only
    rw [ih h2, h3, List.append_assoc]
    rfl

theorem attrOf_cons (k v k' : Str) (as : List (Str × Str)) :
    attrOf ((k, v) :: as) k' = if k' = k then unescape v else attrOf as k' := by
  unfold attrOf
  rw [List.lookup_cons]
  by_cases h : k' = k
  · rw [if_pos h, show (k' == k) = true by simpa using h]; rfl
  · rw [if_neg h, show (k' == k) = false by simpa using h]

theorem attrOf_absent (as : List (Str × Str)) (k : Str) (h : k ∉ as.map Prod.fst) : attrOf as k = none := by
  unfold attrOf
  rw [lookup_absent as k h]
  rfl

theorem copyStyleAttrs_plain (as : List (Str × Str)) (hd : (as.map Prod.fst).Nodup) (h : Escaped as) : ∀ m n,
    copyStyleAttrs m n as = .ok (m ++ attrsSaid as, (attrOf as aName).getD n) := by
  induction as with
  | nil => intro m n; simp [copyStyleAttrs, attrsSaid, plainAttrs, unescapeAttrs, attrOf]
  | cons a as ih =>
    intro m n
    obtain ⟨k, v⟩ := a
    obtain ⟨w, h1, h2, h3⟩ := plainAttrs_cons h
    rw [List.map_cons, List.nodup_cons] at hd
    rw [copyStyleAttrs, h1, attrOf_cons]
    simp only
    unfold attrsSaid at ih ⊢
    rw [h3, List.filter_cons]
    by_cases hk : k = aName
    · subst hk
      rw [if_pos rfl, if_pos rfl, ih hd.2 h2, attrOf_absent as aName hd.1, h1, if_neg (by simp)]
      rfl
    · have hk' : (!((k, w).1 == aName)) = true := by simpa using hk
      rw [if_neg hk, if_pos hk', if_neg (fun e => hk e.symm), ih hd.2 h2, List.append_assoc]
      rfl

theorem copyStyleAttr_plain (as : List (Str × Str)) (hd : (as.map Prod.fst).Nodup) (h : Escaped as) :
    copyStyleAttr as = .ok (attrsSaid as, nameSaid as) := by
  unfold copyStyleAttr
  rw [copyStyleAttrs_plain as hd h, List.nil_append]
  rfl

/-! ## Conditional styles -/

/-- The attributes of conditional styles. -/
def mapName : MapKey → Str
  | .condition => aCondition
  | .apply => aApply
  | .baseCell => aBaseCell

theorem mapKey_some {k : Str} {x : MapKey} (h : mapKey k = some x) : k = mapName x := by
  unfold mapKey at h
  by_cases h1 : k = aCondition
  · rw [if_pos h1] at h; cases h; exact h1
  · rw [if_neg h1] at h
    by_cases h2 : k = aApply
    · rw [if_pos h2] at h; cases h; exact h2
    · rw [if_neg h2] at h
      by_cases h3 : k = aBaseCell
      · rw [if_pos h3] at h; cases h; exact h3
      · rw [if_neg h3] at h; cases h

theorem mapKey_none {k : Str} (h : mapKey k = none) : k ≠ aCondition ∧ k ≠ aApply ∧ k ≠ aBaseCell :=
  ⟨fun e => by (rw [e, mkey_cond] at h; cases h), fun e => by (rw [e, mkey_apply] at h; cases h),
    fun e => by (rw [e, mkey_base] at h; cases h)⟩

theorem cond_ne_apply : aCondition ≠ aApply := by decide +kernel
theorem cond_ne_base : aCondition ≠ aBaseCell := by decide +kernel
theorem apply_ne_base : aApply ≠ aBaseCell := by decide +kernel

/-- A conditional style that can be read. -/
structure MapFine (m : Refs.Ints) (as : List (Str × Str)) : Prop where
  once : (as.map Prod.fst).Nodup
  plain : Escaped as
  base : ∀ v, attrOf as aBaseCell = some v → ∃ r, Refs.parseCellRef m v = .ok r

theorem readMap_said (m : Refs.Ints) (as : List (Str × Str)) : ∀ sm : StyleMap, MapFine m as →
    readMap m sm as = .ok
      { condition := (attrOf as aCondition).getD sm.condition
        applied := (attrOf as aApply).getD sm.applied
        baseCell := match attrOf as aBaseCell with
          | some v => (Refs.parseCellRef m v).toOption
          | none => sm.baseCell } := by
  induction as with
  | nil => intro sm _; rfl
  | cons a as ih =>
    intro sm h
    obtain ⟨k, v⟩ := a
    obtain ⟨w, h1, h2, h3⟩ := plainAttrs_cons h.plain
    have hd := h.once
    rw [List.map_cons, List.nodup_cons] at hd
    have hb := h.base
    rw [readMap, attrOf_cons, attrOf_cons, attrOf_cons]
    rw [attrOf_cons] at hb
    have hrest : k ≠ aBaseCell → MapFine m as := fun hne =>
      ⟨hd.2, h2, fun v hv => hb v (by rw [if_neg (fun e => hne e.symm)]; exact hv)⟩
    cases hk : mapKey k with
    | none =>
      obtain ⟨n1, n2, n3⟩ := mapKey_none hk
      simp only
      rw [if_neg (fun e => n1 e.symm), if_neg (fun e => n2 e.symm), if_neg (fun e => n3 e.symm)]
      exact ih sm (hrest n3)
    | some x =>
      simp only
      rw [h1]
      simp only
      cases x with
      | condition =>
        obtain rfl : k = aCondition := mapKey_some hk
        simp only
        rw [if_pos trivial, if_neg (fun e => cond_ne_apply e.symm), if_neg (fun e => cond_ne_base e.symm)]
        rw [ih _ (hrest cond_ne_base), attrOf_absent as _ hd.1]
        rfl
      | apply =>
        obtain rfl : k = aApply := mapKey_some hk
        simp only
        rw [if_pos trivial, if_neg cond_ne_apply, if_neg (fun e => apply_ne_base e.symm)]
        rw [ih _ (hrest apply_ne_base), attrOf_absent as _ hd.1]
        rfl
      | baseCell =>
        obtain rfl : k = aBaseCell := mapKey_some hk
        simp only
        rw [if_pos rfl] at hb
        obtain ⟨r, hr⟩ := hb w h1
        rw [hr]
        simp only
        rw [if_pos trivial, if_neg cond_ne_base, if_neg apply_ne_base]
        rw [ih _ ⟨hd.2, h2, fun v hv => by (rw [attrOf_absent as _ hd.1] at hv; cases hv)⟩, attrOf_absent as _ hd.1]
        simp only
        rw [hr]
        rfl

theorem readMap_plain (m : Refs.Ints) (as : List (Str × Str)) (h : MapFine m as) : readMap m {} as = .ok (mapSaid m as) := by
  rw [readMap_said m as {} h]
  unfold mapSaid
  cases attrOf as aBaseCell <;> rfl

/-! ## The content of a style -/

/-- The names of the elements in styles. -/
def propName : PropTag → Str
  | .table => tTableProps
  | .row => tRowProps
  | .col => tColProps
  | .cell => tCellProps
  | .para => tParaProps
  | .text => tTextProps
  | .ruby => tRubyProps
  | .graphic => tGraphicProps
  | .map => tMap
  | .tabStops => tTabStops
  | .tabStop => tTabStop

theorem propTag_name (t : PropTag) : propTag (propName t) = some t := by cases t <;> decide +kernel

theorem propTag_some {n : Str} {t : PropTag} (h : propTag n = some t) : n = propName t := by
  unfold propTag at h
  by_cases h1 : n = tTableProps
  · rw [if_pos h1] at h; cases h; exact h1
  rw [if_neg h1] at h
  by_cases h1 : n = tRowProps
  · rw [if_pos h1] at h; cases h; exact h1
  rw [if_neg h1] at h
  by_cases h1 : n = tColProps
  · rw [if_pos h1] at h; cases h; exact h1
  rw [if_neg h1] at h
  by_cases h1 : n = tCellProps
  · rw [if_pos h1] at h; cases h; exact h1
  rw [if_neg h1] at h
  by_cases h1 : n = tParaProps
  · rw [if_pos h1] at h; cases h; exact h1
  rw [if_neg h1] at h
  by_cases h1 : n = tTextProps
  · rw [if_pos h1] at h; cases h; exact h1
  rw [if_neg h1] at h
  by_cases h1 : n = tRubyProps
  · rw [if_pos h1] at h; cases h; exact h1
  rw [if_neg h1] at h
  by_cases h1 : n = tGraphicProps
  · rw [if_pos h1] at h; cases h; exact h1
  rw [if_neg h1] at h
  by_cases h1 : n = tMap
  · rw [if_pos h1] at h; cases h; exact h1
  rw [if_neg h1] at h
  by_cases h1 : n = tTabStops
  · rw [if_pos h1] at h; cases h; exact h1
  rw [if_neg h1] at h
  by_cases h1 : n = tTabStop
  · rw [if_pos h1] at h; cases h; exact h1
  rw [if_neg h1] at h
  cases h

theorem propTag_iff (n : Str) (t : PropTag) : n = propName t ↔ propTag n = some t :=
  ⟨fun h => h ▸ propTag_name t, propTag_some⟩

theorem propsOf_snoc (t : PropTag) (ts : List Tag) (n : Str) (as : List (Str × Str)) :
    propsOf (propName t) (ts ++ [(n, as)]) = propsOf (propName t) ts ++ if propTag n = some t then plainAttrs as else [] := by
  unfold propsOf
  rw [List.flatMap_append, List.flatMap_cons, List.flatMap_nil, List.append_nil]
  congr 1
  simp only [propTag_iff]

theorem named_snoc (t : PropTag) (ts : List Tag) (n : Str) (as : List (Str × Str)) :
    named (propName t) (ts ++ [(n, as)]) = named (propName t) ts ++ if propTag n = some t then [as] else [] := by
  unfold named
  rw [List.filter_append, List.map_append, List.filter_cons, List.filter_nil]
  congr 1
  by_cases h : propTag n = some t
  · rw [if_pos h, if_pos (by simpa using (propTag_iff n t).2 h)]; rfl
  · rw [if_neg h, if_neg (by simpa using fun e => h ((propTag_iff n t).1 e))]; rfl

theorem someIf_snoc {α : Type} (l : List α) (a : α) : some ((someIf l).getD [] ++ [a]) = someIf (l ++ [a]) := by
  unfold someIf
  by_cases h : l = []
  · subst h; simp
  · simp [h]

/-- One more tag. -/
theorem readProp_said (m : Refs.Ints) (o : Origin) (u : Use) (k : Kind) (as : List (Str × Str)) (ts : List Tag) (n : Str)
    (bs : List (Str × Str)) (hc : Escaped bs) (hm : k = .cell → n = tMap → MapFine m bs) :
    readProp m k (bodySaid m o u k as ts) n bs = .ok (bodySaid m o u k as (ts ++ [(n, bs)])) := by
  have e1 := propsOf_snoc .table ts n bs
  have e2 := propsOf_snoc .row ts n bs
  have e3 := propsOf_snoc .col ts n bs
  have e4 := propsOf_snoc .cell ts n bs
  have e5 := propsOf_snoc .para ts n bs
  have e6 := propsOf_snoc .text ts n bs
  have e7 := propsOf_snoc .ruby ts n bs
  have e8 := propsOf_snoc .graphic ts n bs
  have e9 := named_snoc .map ts n bs
  have e10 := named_snoc .tabStop ts n bs
  simp only [propName] at e1 e2 e3 e4 e5 e6 e7 e8 e9 e10
  have hm' : k = .cell → propTag n = some .map → readMap m {} bs = .ok (mapSaid m bs) :=
    fun hk h => readMap_plain m bs (hm hk (propTag_some h))
  unfold readProp bodySaid
  rw [e5, e6, e9, e10]
  cases hp : propTag n with
  | none =>
    simp only [hp] at e1 e2 e3 e4 e7 e8
    cases k <;> simp [mainTag, e1, e2, e3, e4, e7, e8]
  | some t =>
    simp only [hp] at e1 e2 e3 e4 e7 e8 hm'
    cases t <;> cases k <;>
      simp [mainTag, e1, e2, e3, e4, e7, e8, hm', copyAttrs_plain bs hc, Except.map, pushMap, pushTab, someIf_snoc]

end Verif.Style
