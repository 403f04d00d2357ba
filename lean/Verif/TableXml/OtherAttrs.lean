import Verif.TableXml.Run
import Verif.Codec.OtherProps

/-!
# C105: the attributes of tables, rows, columns and groups, and the cells, of other programs

What the attributes of an element of a table say, in whatever order they are, and what is read for a
cell, exactly.
-/

set_option autoImplicit false

namespace Verif.TableXml

open Xml Xml.Spec Verif.Codec
open Verif.Enum (parseVisibility)

/-! ## Specification -/

/-- A style, or another name, that an attribute gives. -/
def nameSaid (as : List (Str × Str)) (k : String) : Option String :=
  ((attrText as k).bind unescape).map String.ofList

/-- A row. -/
def rowSaid (as : List (Str × Str)) : RowTag :=
  { repeated := (attrText as "table:number-rows-repeated").bind parseU32
    style := nameSaid as "table:style-name"
    cellstyle := nameSaid as "table:default-cell-style-name"
    visibility := (attrText as "table:visibility").bind parseVisibility }

/-- A column, or several. -/
def colSaid (as : List (Str × Str)) : ColTag :=
  { repeated := (attrText as "table:number-columns-repeated").bind parseU32
    style := nameSaid as "table:style-name"
    cellstyle := nameSaid as "table:default-cell-style-name"
    visibility := (attrText as "table:visibility").bind parseVisibility }

/-- A group: is it displayed? -/
def groupSaid (as : List (Str × Str)) : Option Bool := (attrText as "table:display").bind parseBool

/-- Each attribute is there once, as in any XML document, and those that matter can be read. -/
def LineReadable (count : String) (as : List (Str × Str)) : Prop :=
  (as.map Prod.fst).Nodup ∧ ∀ a ∈ as,
    (a.1 = count.toList → (parseU32 a.2).isSome = true)
    ∧ (a.1 ∈ ["table:style-name".toList, "table:default-cell-style-name".toList] → (unescape a.2).isSome = true)
    ∧ (a.1 = "table:visibility".toList → (parseVisibility a.2).isSome = true)

def GroupReadable (as : List (Str × Str)) : Prop :=
  (as.map Prod.fst).Nodup ∧ ∀ a ∈ as, a.1 = "table:display".toList → (parseBool a.2).isSome = true

/-- The fields of a sheet that the start tag of a table gives. -/
def headSaid (m : Refs.Ints) (as : List (Str × Str)) : Head :=
  { name := ((attrText as "table:name").bind unescape).getD []
    style := (attrText as "table:style-name").bind unescape
    ranges := ((attrText as "table:print-ranges").bind fun v => (unescape v).bind fun v =>
      (Refs.parseCellRanges m v).toOption).bind id
    print := ((attrText as "table:print").bind parseBool).getD true
    display := ((attrText as "table:display").bind parseBool).getD true }

def HeadReadable (m : Refs.Ints) (as : List (Str × Str)) : Prop :=
  (as.map Prod.fst).Nodup ∧ ∀ a ∈ as,
    (a.1 ∈ ["table:name".toList, "table:style-name".toList] → (unescape a.2).isSome = true)
    ∧ (a.1 ∈ ["table:print".toList, "table:display".toList] → (parseBool a.2).isSome = true)
    ∧ (a.1 = "table:print-ranges".toList → ∃ v r, unescape a.2 = some v ∧ Refs.parseCellRanges m v = .ok r)

/-- What the file says about a cell: `none` if that is not a cell. -/
def cellSaid (fl : Floats) (as : List (Str × Str)) (c : List El) : Option CellContent :=
  (meaning fl as (cellText (parasIn c))).bind fun v =>
  (attrPlain as "table:formula").bind fun f =>
  (attrPlain as "table:style-name").bind fun st =>
  (attrPlain as "table:content-validation-name").bind fun va =>
  (attrCount as "table:number-rows-spanned").bind fun rs =>
  (attrCount as "table:number-columns-spanned").bind fun cs =>
  (attrCount as "table:number-matrix-rows-spanned").bind fun mr =>
  (attrCount as "table:number-matrix-columns-spanned").map fun mc =>
    { value := v, formula := f, style := st.map String.ofList, validation := va.map String.ofList
      span := ⟨max 1 rs, max 1 cs⟩, matrixSpan := ⟨max 1 mr, max 1 mc⟩
      annotation := (notesIn c).getLast?, drawFrames := framesIn c, «repeat» := 1 }

/-- A cell that can be read. -/
def CellReadable (fl : Floats) (tag : Str) (as : List (Str × Str)) (c : List El) : Prop :=
  (as.map Prod.fst).Nodup ∧ (∀ a ∈ as, AttrReadable fl a.1 a.2) ∧ (∀ e ∈ c, CellPart tag e)
    ∧ (meaning fl as (cellText (parasIn c))).isSome = true

/-! ## Folding attributes -/

theorem fold_get {α β γ : Type} (f : α → Str → Str → Except Fault α) (g : α → β) (q : String)
    (p : Str → Option γ) (w : γ → β)
    (h1 : ∀ a a' k v, k ≠ q.toList → f a k v = .ok a' → g a' = g a)
    (h2 : ∀ a a' v, f a q.toList v = .ok a' → ∃ x, p v = some x ∧ g a' = w x)
    (as : List (Str × Str)) (hnd : (as.map Prod.fst).Nodup) : ∀ a a', foldAttrs f a as = .ok a' →
      g a' = (((attrText as q).bind p).map w).getD (g a) := by
  induction as with
  | nil =>
    intro a a' h
    rw [← Except.ok.inj h]
    rfl
  | cons kv as ih =>
    obtain ⟨k, v⟩ := kv
    intro a a' h
    rw [List.map_cons, List.nodup_cons] at hnd
    rw [foldAttrs] at h
    cases hf : f a k v with
    | error e => rw [hf] at h; cases h
    | ok b =>
      rw [hf] at h
      have ih := ih hnd.2 b a' h
      by_cases hk : k = q.toList
      · subst hk
        have hno : attrText as q = none := by
          unfold Codec.attrText
          rw [List.lookup_eq_none_iff]
          intro x hx
          have : x.1 ≠ q.toList := fun e => hnd.1 (List.mem_map.2 ⟨x, hx, e⟩)
          simpa using Ne.symm this
        rw [hno] at ih
        obtain ⟨x, hx, hg⟩ := h2 a b v hf
        rw [attrText_self, Option.bind_some, hx, ih]
        exact hg
      · rw [attrText_other q k v as hk, ih, h1 a b k v hk hf]

theorem fold_keep {α β : Type} (f : α → Str → Str → Except Fault α) (g : α → β)
    (h1 : ∀ a a' k v, f a k v = .ok a' → g a' = g a) (as : List (Str × Str)) : ∀ a a',
      foldAttrs f a as = .ok a' → g a' = g a := by
  induction as with
  | nil => intro a a' h; rw [← Except.ok.inj h]
  | cons kv as ih =>
    intro a a' h
    rw [foldAttrs] at h
    cases hf : f a kv.1 kv.2 with
    | error e => rw [hf] at h; cases h
    | ok b => rw [hf] at h; rw [ih b a' h, h1 a b _ _ hf]

theorem fold_ok {α : Type} (f : α → Str → Str → Except Fault α) (as : List (Str × Str))
    (h : ∀ a, ∀ x ∈ as, ∃ a', f a x.1 x.2 = .ok a') : ∀ a, ∃ a', foldAttrs f a as = .ok a' := by
  induction as with
  | nil => intro a; exact ⟨a, rfl⟩
  | cons x as ih =>
    intro a
    obtain ⟨b, hb⟩ := h a x List.mem_cons_self
    rw [foldAttrs, hb]
    exact ih (fun a x hx => h a x (List.mem_cons_of_mem _ hx)) b

theorem orFail_ok {β γ : Type} {e : Fault} {o : Option β} {f : β → γ} {c : γ}
    (h : (orFail e o).map f = .ok c) : ∃ b, o = some b ∧ f b = c := by
  cases o with
  | none => cases h
  | some b => exact ⟨b, rfl, Except.ok.inj h⟩

theorem orFail_some {β γ : Type} (e : Fault) {o : Option β} (f : β → γ) (h : o.isSome = true) :
    ∃ c, (orFail e o).map f = .ok c := by
  cases o with
  | none => cases h
  | some b => exact ⟨_, rfl⟩

/-- The same for a field that is optional. -/
theorem fold_opt {α β γ : Type} (f : α → Str → Str → Except Fault α) (g : α → Option β) (q : String)
    (p : Str → Option γ) (w : γ → β)
    (h1 : ∀ a a' k v, k ≠ q.toList → f a k v = .ok a' → g a' = g a)
    (h2 : ∀ a a' v, f a q.toList v = .ok a' → ∃ x, p v = some x ∧ g a' = some (w x))
    (as : List (Str × Str)) (hnd : (as.map Prod.fst).Nodup) (a a' : α) (h : foldAttrs f a as = .ok a')
    (h0 : g a = none) : g a' = ((attrText as q).bind p).map w := by
  rw [fold_get f g q p (fun x => some (w x)) h1 h2 as hnd a a' h, h0]
  cases (attrText as q).bind p <;> rfl

theorem ite_neg_of {α : Type} {P : Prop} [Decidable P] {a b : α} (h : ¬ P) : (if P then a else b) = b := if_neg h

theorem row_read (as : List (Str × Str)) (h : LineReadable "table:number-rows-repeated" as) :
    foldAttrs rowAttr {} as = .ok (rowSaid as) := by
  obtain ⟨hnd, hr⟩ := h
  obtain ⟨t, ht⟩ := fold_ok rowAttr as (by
    intro a x hx
    obtain ⟨g1, g2, g3⟩ := hr x hx
    unfold rowAttr
    split
    · rename_i hk; exact orFail_some _ _ (g1 hk)
    · split
      · rename_i hk; exact orFail_some _ _ (g2 (by rw [hk]; exact List.mem_cons_self))
      · split
        · rename_i hk; exact orFail_some _ _ (g2 (by rw [hk]; exact List.mem_cons_of_mem _ List.mem_cons_self))
        · split
          · rename_i hk; exact orFail_some _ _ (g3 hk)
          · exact ⟨_, rfl⟩) {}
  rw [ht]
  have e1 := fold_opt rowAttr RowTag.repeated "table:number-rows-repeated" parseU32 id (by
    intro a a' k v hk h
    unfold rowAttr at h
    rw [if_neg hk] at h
    repeat' split at h
    all_goals first
      | (obtain ⟨b, -, rfl⟩ := orFail_ok h; rfl)
      | (rw [← Except.ok.inj h])) (by
    intro a a' v h
    unfold rowAttr at h
    rw [if_pos rfl] at h
    obtain ⟨b, hb, rfl⟩ := orFail_ok h
    exact ⟨b, hb, rfl⟩) as hnd {} t ht rfl
  have e2 := fold_opt rowAttr RowTag.style "table:style-name" unescape String.ofList (by
    intro a a' k v hk h
    unfold rowAttr at h
    rw [ite_neg_of hk] at h
    repeat' split at h
    all_goals first
      | (obtain ⟨b, -, rfl⟩ := orFail_ok h; rfl)
      | (rw [← Except.ok.inj h])) (by
    intro a a' v h
    unfold rowAttr at h
    rw [if_neg (by decide +kernel), if_pos rfl] at h
    obtain ⟨b, hb, rfl⟩ := orFail_ok h
    exact ⟨b, hb, rfl⟩) as hnd {} t ht rfl
  have e3 := fold_opt rowAttr RowTag.cellstyle "table:default-cell-style-name" unescape String.ofList (by
    intro a a' k v hk h
    unfold rowAttr at h
    rw [ite_neg_of (P := k = "table:default-cell-style-name".toList) hk] at h
    repeat' split at h
    all_goals first
      | (obtain ⟨b, -, rfl⟩ := orFail_ok h; rfl)
      | (rw [← Except.ok.inj h])) (by
    intro a a' v h
    unfold rowAttr at h
    rw [if_neg (by decide +kernel), if_neg (by decide +kernel), if_pos rfl] at h
    obtain ⟨b, hb, rfl⟩ := orFail_ok h
    exact ⟨b, hb, rfl⟩) as hnd {} t ht rfl
  have e4 := fold_opt rowAttr RowTag.visibility "table:visibility" parseVisibility id (by
    intro a a' k v hk h
    unfold rowAttr at h
    rw [ite_neg_of (P := k = "table:visibility".toList) hk] at h
    repeat' split at h
    all_goals first
      | (obtain ⟨b, -, rfl⟩ := orFail_ok h; rfl)
      | (rw [← Except.ok.inj h])) (by
    intro a a' v h
    unfold rowAttr at h
    rw [if_neg (by decide +kernel), if_neg (by decide +kernel), if_neg (by decide +kernel), if_pos rfl] at h
    obtain ⟨b, hb, rfl⟩ := orFail_ok h
    exact ⟨b, hb, rfl⟩) as hnd {} t ht rfl
  obtain ⟨t1, t2, t3, t4⟩ := t
  simp only at e1 e2 e3 e4
  unfold rowSaid nameSaid
  rw [e1, e2, e3, e4, Option.map_id_apply, Option.map_id_apply]

theorem col_read (as : List (Str × Str)) (h : LineReadable "table:number-columns-repeated" as) :
    foldAttrs colAttr {} as = .ok (colSaid as) := by
  obtain ⟨hnd, hr⟩ := h
  obtain ⟨t, ht⟩ := fold_ok colAttr as (by
    intro a x hx
    obtain ⟨g1, g2, g3⟩ := hr x hx
    unfold colAttr
    split
    · rename_i hk; exact orFail_some _ _ (g1 hk)
    · split
      · rename_i hk; exact orFail_some _ _ (g2 (by rw [hk]; exact List.mem_cons_self))
      · split
        · rename_i hk; exact orFail_some _ _ (g2 (by rw [hk]; exact List.mem_cons_of_mem _ List.mem_cons_self))
        · split
          · rename_i hk; exact orFail_some _ _ (g3 hk)
          · exact ⟨_, rfl⟩) {}
  rw [ht]
  have e1 := fold_opt colAttr ColTag.repeated "table:number-columns-repeated" parseU32 id (by
    intro a a' k v hk h
    unfold colAttr at h
    rw [if_neg hk] at h
    repeat' split at h
    all_goals first
      | (obtain ⟨b, -, rfl⟩ := orFail_ok h; rfl)
      | (rw [← Except.ok.inj h])) (by
    intro a a' v h
    unfold colAttr at h
    rw [if_pos rfl] at h
    obtain ⟨b, hb, rfl⟩ := orFail_ok h
    exact ⟨b, hb, rfl⟩) as hnd {} t ht rfl
  have e2 := fold_opt colAttr ColTag.style "table:style-name" unescape String.ofList (by
    intro a a' k v hk h
    unfold colAttr at h
    rw [ite_neg_of hk] at h
    repeat' split at h
    all_goals first
      | (obtain ⟨b, -, rfl⟩ := orFail_ok h; rfl)
      | (rw [← Except.ok.inj h])) (by
    intro a a' v h
    unfold colAttr at h
    rw [if_neg (by decide +kernel), if_pos rfl] at h
    obtain ⟨b, hb, rfl⟩ := orFail_ok h
    exact ⟨b, hb, rfl⟩) as hnd {} t ht rfl
  have e3 := fold_opt colAttr ColTag.cellstyle "table:default-cell-style-name" unescape String.ofList (by
    intro a a' k v hk h
    unfold colAttr at h
    rw [ite_neg_of (P := k = "table:default-cell-style-name".toList) hk] at h
    repeat' split at h
    all_goals first
      | (obtain ⟨b, -, rfl⟩ := orFail_ok h; rfl)
      | (rw [← Except.ok.inj h])) (by
    intro a a' v h
    unfold colAttr at h
    rw [if_neg (by decide +kernel), if_neg (by decide +kernel), if_pos rfl] at h
    obtain ⟨b, hb, rfl⟩ := orFail_ok h
    exact ⟨b, hb, rfl⟩) as hnd {} t ht rfl
  have e4 := fold_opt colAttr ColTag.visibility "table:visibility" parseVisibility id (by
    intro a a' k v hk h
    unfold colAttr at h
    rw [ite_neg_of (P := k = "table:visibility".toList) hk] at h
    repeat' split at h
    all_goals first
      | (obtain ⟨b, -, rfl⟩ := orFail_ok h; rfl)
      | (rw [← Except.ok.inj h])) (by
    intro a a' v h
    unfold colAttr at h
    rw [if_neg (by decide +kernel), if_neg (by decide +kernel), if_neg (by decide +kernel), if_pos rfl] at h
    obtain ⟨b, hb, rfl⟩ := orFail_ok h
    exact ⟨b, hb, rfl⟩) as hnd {} t ht rfl
  obtain ⟨t1, t2, t3, t4⟩ := t
  simp only at e1 e2 e3 e4
  unfold colSaid nameSaid
  rw [e1, e2, e3, e4, Option.map_id_apply, Option.map_id_apply]

theorem group_read (as : List (Str × Str)) (h : GroupReadable as) :
    foldAttrs groupAttr none as = .ok (groupSaid as) := by
  obtain ⟨hnd, hr⟩ := h
  obtain ⟨t, ht⟩ := fold_ok groupAttr as (by
    intro a x hx
    unfold groupAttr
    split
    · rename_i hk; exact orFail_some _ _ (hr x hx hk)
    · exact ⟨_, rfl⟩) none
  rw [ht]
  have e := fold_opt groupAttr id "table:display" parseBool id (by
    intro a a' k v hk h
    unfold groupAttr at h
    rw [if_neg hk] at h
    rw [← Except.ok.inj h]) (by
    intro a a' v h
    unfold groupAttr at h
    rw [if_pos rfl] at h
    obtain ⟨b, hb, rfl⟩ := orFail_ok h
    exact ⟨b, hb, rfl⟩) as hnd none t ht rfl
  rw [Option.map_id_apply] at e
  exact congrArg _ e

theorem ranges_ok {m : Refs.Ints} {h a' : Head} {v : Str}
    (he : tableAttr m h "table:print-ranges".toList v = .ok a') :
    ∃ w r, unescape v = some w ∧ Refs.parseCellRanges m w = .ok r ∧ a' = { h with ranges := r } := by
  unfold tableAttr at he
  rw [if_neg (by decide +kernel), if_neg (by decide +kernel), if_neg (by decide +kernel), if_neg (by decide +kernel),
    if_pos rfl] at he
  cases hu : unescape v with
  | none => rw [hu] at he; cases he
  | some w =>
    rw [hu] at he
    simp only at he
    cases hp : Refs.parseCellRanges m w with
    | ok r => rw [hp] at he; exact ⟨w, r, rfl, hp, (Except.ok.inj he).symm⟩
    | error e => rw [hp] at he; cases e <;> cases he

theorem ranges_other {m : Refs.Ints} {h a' : Head} {v : Str}
    (he : (match unescape v with
      | none => .error .badAttr
      | some v =>
        match Refs.parseCellRanges m v with
        | .ok r => .ok { h with ranges := r }
        | .error .panic => .error .panic
        | .error _ => .error .parse : Except Fault Head) = .ok a') : ∃ r, a' = { h with ranges := r } := by
  split at he
  · cases he
  · split at he
    · rename_i r _; exact ⟨r, (Except.ok.inj he).symm⟩
    · cases he
    · cases he

theorem head_read (m : Refs.Ints) (as : List (Str × Str)) (h : HeadReadable m as) :
    foldAttrs (tableAttr m) {} as = .ok (headSaid m as) := by
  obtain ⟨hnd, hr⟩ := h
  obtain ⟨t, ht⟩ := fold_ok (tableAttr m) as (by
    intro a x hx
    obtain ⟨g1, g2, g3⟩ := hr x hx
    unfold tableAttr
    split
    · rename_i hk; exact orFail_some _ _ (g1 (by rw [hk]; exact List.mem_cons_self))
    · split
      · rename_i hk; exact orFail_some _ _ (g1 (by rw [hk]; exact List.mem_cons_of_mem _ List.mem_cons_self))
      · split
        · rename_i hk; exact orFail_some _ _ (g2 (by rw [hk]; exact List.mem_cons_self))
        · split
          · rename_i hk; exact orFail_some _ _ (g2 (by rw [hk]; exact List.mem_cons_of_mem _ List.mem_cons_self))
          · split
            · rename_i hk
              obtain ⟨v, r, h1, h2⟩ := g3 hk
              rw [h1]
              simp only
              rw [h2]
              exact ⟨_, rfl⟩
            · exact ⟨_, rfl⟩) {}
  rw [ht]
  have e1 := fold_get (tableAttr m) Head.name "table:name" unescape id (by
    intro a a' k v hk h
    unfold tableAttr at h
    rw [if_neg hk] at h
    repeat' split at h
    all_goals first
      | (obtain ⟨b, -, rfl⟩ := orFail_ok h; rfl)
      | (rw [← Except.ok.inj h])
      | (obtain ⟨r, rfl⟩ := ranges_other h; rfl)
      | cases h) (by
    intro a a' v h
    unfold tableAttr at h
    rw [if_pos rfl] at h
    obtain ⟨b, hb, rfl⟩ := orFail_ok h
    exact ⟨b, hb, rfl⟩) as hnd {} t ht
  have e2 := fold_opt (tableAttr m) Head.style "table:style-name" unescape id (by
    intro a a' k v hk h
    unfold tableAttr at h
    rw [ite_neg_of (P := k = "table:style-name".toList) hk] at h
    repeat' split at h
    all_goals first
      | (obtain ⟨b, -, rfl⟩ := orFail_ok h; rfl)
      | (rw [← Except.ok.inj h])
      | cases h) (by
    intro a a' v h
    unfold tableAttr at h
    rw [if_neg (by decide +kernel), if_pos rfl] at h
    obtain ⟨b, hb, rfl⟩ := orFail_ok h
    exact ⟨b, hb, rfl⟩) as hnd {} t ht rfl
  have e3 := fold_get (tableAttr m) Head.ranges "table:print-ranges" (fun v => (unescape v).bind fun v =>
      (Refs.parseCellRanges m v).toOption) id (by
    intro a a' k v hk h
    unfold tableAttr at h
    rw [ite_neg_of (P := k = "table:print-ranges".toList) hk] at h
    repeat' split at h
    all_goals first
      | (obtain ⟨b, -, rfl⟩ := orFail_ok h; rfl)
      | (rw [← Except.ok.inj h])
      | cases h) (by
    intro a a' v h
    obtain ⟨w, r, h1, h2, rfl⟩ := ranges_ok h
    exact ⟨r, by rw [h1, Option.bind_some, h2]; rfl, rfl⟩) as hnd {} t ht
  have e4 := fold_get (tableAttr m) Head.print "table:print" parseBool id (by
    intro a a' k v hk h
    unfold tableAttr at h
    rw [ite_neg_of (P := k = "table:print".toList) hk] at h
    repeat' split at h
    all_goals first
      | (obtain ⟨b, -, rfl⟩ := orFail_ok h; rfl)
      | (rw [← Except.ok.inj h])
      | cases h) (by
    intro a a' v h
    unfold tableAttr at h
    rw [if_neg (by decide +kernel), if_neg (by decide +kernel), if_pos rfl] at h
    obtain ⟨b, hb, rfl⟩ := orFail_ok h
    exact ⟨b, hb, rfl⟩) as hnd {} t ht
  have e5 := fold_get (tableAttr m) Head.display "table:display" parseBool id (by
    intro a a' k v hk h
    unfold tableAttr at h
    rw [ite_neg_of (P := k = "table:display".toList) hk] at h
    repeat' split at h
    all_goals first
      | (obtain ⟨b, -, rfl⟩ := orFail_ok h; rfl)
      | (rw [← Except.ok.inj h])
      | cases h) (by
    intro a a' v h
    unfold tableAttr at h
    rw [if_neg (by decide +kernel), if_neg (by decide +kernel), if_neg (by decide +kernel), if_pos rfl] at h
    obtain ⟨b, hb, rfl⟩ := orFail_ok h
    exact ⟨b, hb, rfl⟩) as hnd {} t ht
  have e6 : t.extra = [] := by
    refine fold_keep (tableAttr m) Head.extra ?_ as {} t ht
    intro a a' k v h
    unfold tableAttr at h
    repeat' split at h
    all_goals first
      | (obtain ⟨b, -, rfl⟩ := orFail_ok h; rfl)
      | (rw [← Except.ok.inj h])
      | cases h
  obtain ⟨t1, t2, t3, t4, t5, t6⟩ := t
  simp only at e1 e2 e3 e4 e5 e6
  unfold headSaid
  subst e6
  rw [e1, e2, e3, e4, e5, Option.map_id_apply, Option.map_id_apply, Option.map_id_apply, Option.map_id_apply,
    Option.map_id_apply]
  congr 2
  cases (attrText as "table:print-ranges").bind _ <;> rfl

/-! ## Cells -/

theorem cellSaid_of {fl : Floats} {as : List (Str × Str)} {c : List El} {x : CellContent}
    (hv : meaning fl as (cellText (parasIn c)) = some x.value) (hf : CellFacts as x)
    (ha : x.annotation = (notesIn c).getLast?) (hd : x.drawFrames = framesIn c) (h1 : x.repeat = 1) :
    cellSaid fl as c = some x := by
  obtain ⟨f1, f2, f3, f4, f5, f6, f7⟩ := hf
  have back : ∀ o : Option String, (o.map String.toList).map String.ofList = o := by
    intro o
    cases o with
    | none => rfl
    | some s => exact congrArg some (String.ofList_toList)
  have key : ∀ {o : Option Nat} {n : Nat}, o.map (max 1) = some n → ∃ k, o = some k ∧ max 1 k = n := by
    intro o n h
    cases o with
    | none => cases h
    | some k => exact ⟨k, rfl, Option.some.inj h⟩
  obtain ⟨k4, g4, e4⟩ := key f4
  obtain ⟨k5, g5, e5⟩ := key f5
  obtain ⟨k6, g6, e6⟩ := key f6
  obtain ⟨k7, g7, e7⟩ := key f7
  unfold cellSaid
  rw [hv, Option.bind_some, f1, Option.bind_some, f2, Option.bind_some, f3, Option.bind_some, g4, Option.bind_some,
    g5, Option.bind_some, g6, Option.bind_some, g7, Option.map_some, e4, e5, e6, e7, back, back]
  obtain ⟨v, st, f, r, va, ⟨a, b⟩, ⟨p, q⟩, an, df⟩ := x
  simp only at ha hd h1
  rw [ha, hd, h1]

/-- What comes of a cell behind its attributes and its content. -/
theorem cell_finish (fl : Floats) (as : List (Str × Str)) (hnd : (as.map Prod.fst).Nodup) (c : List El) (v : Value)
    (hv : meaning fl as (cellText (parasIn c)) = some v) (s : CellState) (ha : cellAttrs fl {} as = .ok s) :
    ∃ x, cellSaid fl as c = some x ∧ ∀ ie cs,
      ∃ r, finishCell ie cs (noted s (notesIn c) (framesIn c)) ((parasIn c).foldl putPara .empty) = .ok r
        ∧ r.map CellData.toContent = if ignoreContent ie cs x then none else some { x with «repeat» := s.repeat } := by
  generalize hs' : noted s (notesIn c) (framesIn c) = s'
  generalize ht : (parasIn c).foldl putPara .empty = t
  have htv : contentValue t = cellText (parasIn c) := by rw [← ht]; exact putParas _
  have hh : SameHead ⟨s, .empty⟩ ⟨s', t⟩ := by rw [← hs']; exact noted_head _ _ _ _
  have hno := noted_content s (notesIn c) (framesIn c)
  rw [hs'] at hno
  obtain ⟨n1, n2⟩ := notes_attrs fl as {} s ha
  rw [n1, n2] at hno
  have hno1 : s'.content.annotation = (notesIn c).getLast? := by rw [hno.1]; exact Option.or_none
  have hno2 : s'.content.drawFrames = framesIn c := hno.2
  obtain ⟨h1, h2, h3⟩ := hh
  simp only at h1 h2 h3
  obtain ⟨i1, i2, i3, i4⟩ := inv_attrs fl as {} s ⟨fun h => absurd rfl h, nofun, rfl, rfl⟩ ha
  have hm := value_meaning fl as hnd s ha t
  rw [← setValue_others h1 t, htv, hv] at hm
  have hfac := facts_bare as s.content s'.content (state_facts fl as hnd s ha) h2
  have hrep : s'.repeat = s.repeat := (congrArg CellState.repeat h1 : s'.others.repeat = s.others.repeat)
  have hval : s'.content.value = .empty := by
    have : s'.content.value = s.content.value := congrArg (·.value) h2
    rw [this, i3]
  have hone : s'.content.repeat = 1 := by
    have : s'.content.repeat = s.content.repeat := congrArg (·.repeat) h2
    rw [this, i4]
  cases hset : setValue s' t with
  | error e => rw [hset] at hm; cases hm
  | ok w =>
    rw [hset] at hm
    have hw : w.getD .empty = v := Option.some.inj hm
    refine ⟨{ s'.content with value := v }, ?_, ?_⟩
    · exact cellSaid_of hv ⟨hfac.1, hfac.2, hfac.3, hfac.4, hfac.5, hfac.6, hfac.7⟩ hno1 hno2 hone
    · intro ie cs
      have := finish_read ie cs s' t w s'.content s.repeat rfl hval hrep hset (by
        intro hne
        have hty : s.valType ≠ .empty := by
          intro he
          have hty' : s'.valType = .empty := by
            have e : s'.valType = s.valType := (congrArg CellState.valType h1 : s'.others.valType = s.others.valType)
            rw [e, he]
          unfold setValue at hset
          rw [hty'] at hset
          exact hne (Except.ok.inj hset).symm
        exact h3 (i1 hty))
      rw [hw] at this
      exact this

/-- **C105**: a cell, exactly: what the file says is stored, unless the cell is empty and has no style of
its own. -/
theorem C105_cell (fl : Floats) (tag : Str) (as : List (Str × Str)) (c : List El) (h : CellReadable fl tag as c) :
    ∃ x n, cellSaid fl as c = some x ∧ attrCount as "table:number-columns-repeated" = some n ∧
      ∀ ie cs rest, readTableCell fl ie cs tag as false (evsOf c ++ .end tag :: rest)
        = .ok (⟨n, if ignoreContent ie cs x then none else some { x with «repeat» := n }.toData⟩, rest) := by
  obtain ⟨hnd, hok, hc, hv⟩ := h
  obtain ⟨v, hv⟩ := Option.isSome_iff_exists.1 hv
  obtain ⟨s, ha⟩ := (attrs_ok fl as {}).2 hok
  obtain ⟨x, hx, hfin⟩ := cell_finish fl as hnd c v hv s ha
  refine ⟨x, s.repeat, hx, state_repeat fl as hnd s ha, ?_⟩
  intro ie cs rest
  obtain ⟨r, hr, hrx⟩ := hfin ie cs
  have hl : cellLoop tag ((evsOf c ++ .end tag :: rest).length + 1) ⟨s, .empty⟩ [] (evsOf c ++ .end tag :: rest)
      = .ok (⟨noted s (notesIn c) (framesIn c), (parasIn c).foldl putPara .empty⟩, rest) := by
    have := (Passes.list bodyStep c (fun e he b => cellPart_pass tag e (hc e he) b) ⟨s, .empty⟩).finish rest
    rw [bodySteps] at this
    exact this
  have hrep : (noted s (notesIn c) (framesIn c)).repeat = s.repeat := by
    unfold noted
    split <;> rfl
  have hread : readTableCell fl ie cs tag as false (evsOf c ++ .end tag :: rest) = .ok (⟨s.repeat, r⟩, rest) := by
    unfold readTableCell
    rw [ha]
    simp only [Bool.false_eq_true, if_false]
    rw [hl]
    simp only
    rw [hr]
    simp only
    rw [hrep]
  rw [hread]
  congr 3
  cases r with
  | none =>
    split at hrx
    · rename_i hi; rw [if_pos hi]
    · cases hrx
  | some d =>
    have ht : Tidy d := tidy_read fl ie cs tag as false _ rest _ d hread rfl
    split at hrx
    · cases hrx
    · rename_i hi
      rw [if_neg hi, ← Option.some.inj hrx]
      exact congrArg some ht.symm

/-- The same for an empty tag. -/
theorem C105_cell_void (fl : Floats) (tag : Str) (as : List (Str × Str)) (h : CellReadable fl tag as []) :
    ∃ x n, cellSaid fl as [] = some x ∧ attrCount as "table:number-columns-repeated" = some n ∧
      ∀ ie cs rest, readTableCell fl ie cs tag as true rest
        = .ok (⟨n, if ignoreContent ie cs x then none else some { x with «repeat» := n }.toData⟩, rest) := by
  obtain ⟨hnd, hok, hc, hv⟩ := h
  obtain ⟨v, hv⟩ := Option.isSome_iff_exists.1 hv
  obtain ⟨s, ha⟩ := (attrs_ok fl as {}).2 hok
  obtain ⟨x, hx, hfin⟩ := cell_finish fl as hnd [] v hv s ha
  refine ⟨x, s.repeat, hx, state_repeat fl as hnd s ha, ?_⟩
  intro ie cs rest
  obtain ⟨r, hr, hrx⟩ := hfin ie cs
  have hread : readTableCell fl ie cs tag as true rest = .ok (⟨s.repeat, r⟩, rest) := by
    unfold readTableCell
    rw [ha]
    simp only [if_true]
    have hr : finishCell ie cs s .empty = .ok r := hr
    rw [hr]
  rw [hread]
  congr 3
  cases r with
  | none =>
    split at hrx
    · rename_i hi; rw [if_pos hi]
    · cases hrx
  | some d =>
    have ht : Tidy d := tidy_read fl ie cs tag as true _ rest _ d hread rfl
    split at hrx
    · cases hrx
    · rename_i hi
      rw [if_neg hi, ← Option.some.inj hrx]
      exact congrArg some ht.symm

end Verif.TableXml
