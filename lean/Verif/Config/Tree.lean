import Verif.Config.Map
import Verif.Types

/-!
# The configuration tree (src/config.rs)

The maps in the tree are the lists of `Config/Map.lean`: by `C45_map` this is what a `ConfigMap` is.
-/

set_option autoImplicit false

namespace Verif.Config

/-- `ConfigValue`, src/config.rs:14-23. -/
inductive CValue where
  | base64 (s : Str)
  | boolean (b : Bool)
  | dateTime (d : DateTime)
  | double (f : F64)
  | int (z : Int)
  | long (z : Int)
  | short (z : Int)
  | string (s : Str)
  deriving DecidableEq

/-- The four kinds of maps, src/config.rs:242-248. -/
inductive Kind where
  | set | vec | map | entry
  deriving DecidableEq

/-- `ConfigItem`, src/config.rs:242-248. -/
inductive CItem where
  | value (v : CValue)
  | node (k : Kind) (m : List (Str × CItem))

/-- `ConfigItemType`, src/config.rs:196-202; `none` is `Value`. -/
abbrev IType := Option Kind

/-- `ConfigItemType::from`, src/config.rs:204-226, and the comparison, 228-240. -/
def CItem.itype : CItem → IType
  | .value _ => none
  | .node k _ => some k

/-- `ConfigItem::new`, src/config.rs:272-280; a panic for `Value`. -/
def newItem : IType → Option CItem
  | none => none
  | some k => some (.node k [])

/-- `ConfigItem::insert`, src/config.rs:360-370; a panic for a value. -/
def CItem.insert (n : Str) (v : CItem) : CItem → Option CItem
  | .value _ => none
  | .node k m => some (.node k (put m n v))

/-- `ConfigItem::create_path`, src/config.rs:395-430, with a change of the item it returns; `none` is a
panic. -/
def createPath (f : CItem → Option CItem) : List (Str × IType) → CItem → Option CItem
  | _, .value _ => none
  | [], .node k m => f (.node k m)
  | (n, t) :: rest, .node k m =>
    match (match lookup m n with | some x => some x | none => newItem t) with
    | none => none
    | some x =>
      if x.itype = t then
        match createPath f rest x with
        | none => none
        | some x' => some (.node k (put m n x'))
      else none

/-- `ConfigItem::get_rec`, src/config.rs:433-454. -/
def getRec : List Str → CItem → Option CItem
  | [], x => some x
  | _ :: _, .value _ => none
  | n :: rest, .node _ m =>
    match lookup m n with
    | some x => getRec rest x
    | none => none

/-- `ConfigItem::get_value_rec`, src/config.rs:457-478. -/
def getValueRec : List Str → CItem → Option CValue
  | [], .value v => some v
  | [], .node _ _ => none
  | _ :: _, .value _ => none
  | n :: rest, .node _ m =>
    match lookup m n with
    | some x => getValueRec rest x
    | none => none

/-- `create_path(path).insert(name, value)`. -/
def setAt (path : List (Str × IType)) (n : Str) (v : CItem) (t : CItem) : Option CItem :=
  createPath (CItem.insert n v) path t

/-! ## C45 -/

/-- What the code finds at a path is a map of the kind that is asked for, or nothing. -/
def PathFits : List (Str × IType) → CItem → Prop
  | _, .value _ => False
  | [], .node _ _ => True
  | (n, t) :: rest, .node _ m =>
    match lookup m n with
    | some x => x.itype = t ∧ PathFits rest x
    | none => ∀ p ∈ (n, t) :: rest, p.2 ≠ none

theorem insert_some (n : Str) (v : CItem) (k : Kind) (m : List (Str × CItem)) :
    CItem.insert n v (.node k m) = some (.node k (put m n v)) := rfl

/-- A path of maps is created from nothing. -/
theorem createPath_new (f : CItem → Option CItem) (hf : ∀ k m, (f (.node k m)).isSome = true)
    (path : List (Str × IType)) : ∀ k, ((createPath f path (.node k [])).isSome = true ↔ ∀ p ∈ path, p.2 ≠ none) := by
  induction path with
  | nil => intro k; simp [createPath, hf]
  | cons p rest ih =>
    intro k
    obtain ⟨n, t⟩ := p
    cases t with
    | none => simp [createPath, lookup, newItem]
    | some k' =>
      have := ih k'
      simp only [createPath, lookup, newItem, CItem.itype, if_true]
      cases h : createPath f rest (.node k' []) with
      | none =>
        rw [h] at this
        simp only [Option.isSome_none, Bool.false_eq_true, List.mem_cons, false_iff] at this ⊢
        intro hh
        exact this (fun p hp => hh p (.inr hp))
      | some x =>
        rw [h] at this
        simp only [Option.isSome_some, List.mem_cons, true_iff] at this ⊢
        rintro p (rfl | hp)
        · simp
        · exact this p hp

/-- **C45.**  A value can be set exactly if the items on the path are of the kinds that are asked for;
otherwise the call panics. -/
theorem C45_set_iff (path : List (Str × IType)) (n : Str) (v : CItem) : ∀ t : CItem,
    (setAt path n v t).isSome = true ↔ PathFits path t := by
  unfold setAt
  induction path with
  | nil =>
    intro t
    cases t with
    | value w => simp [createPath, PathFits]
    | node k m => simp [createPath, PathFits, CItem.insert]
  | cons p rest ih =>
    intro t
    obtain ⟨a, ty⟩ := p
    cases t with
    | value w => simp [createPath, PathFits]
    | node k m =>
      simp only [createPath, PathFits]
      cases hl : lookup m a with
      | some x =>
        simp only
        by_cases hx : x.itype = ty
        · rw [if_pos hx, ← ih x]
          cases createPath (CItem.insert n v) rest x <;> simp [hx]
        · rw [if_neg hx]; simp [hx]
      | none =>
        simp only
        have := createPath_new (CItem.insert n v) (fun _ _ => rfl) ((a, ty) :: rest) k
        simp only [createPath, lookup] at this
        rw [← this]
        cases newItem ty with
        | none => rfl
        | some x =>
          simp only
          split
          · cases createPath (CItem.insert n v) rest x <;> rfl
          · rfl

/-- **C45.**  After a value was set, it and what is below it is found at its path … -/
theorem C45_get_set (path : List (Str × IType)) (n : Str) (v : CItem) (r : List Str) : ∀ t t' : CItem,
    setAt path n v t = some t' → getRec (path.map (·.1) ++ n :: r) t' = getRec r v := by
  unfold setAt
  induction path with
  | nil =>
    intro t t' h
    cases t with
    | value w => simp [createPath] at h
    | node k m =>
      simp only [createPath, CItem.insert, Option.some.injEq] at h
      subst h
      simp only [List.map_nil, List.nil_append, getRec, lookup_put, if_true]
  | cons p rest ih =>
    intro t t' h
    obtain ⟨a, ty⟩ := p
    cases t with
    | value w => simp [createPath] at h
    | node k m =>
      simp only [createPath] at h
      cases hx : (match lookup m a with | some x => some x | none => newItem ty) with
      | none => rw [hx] at h; cases h
      | some x =>
        rw [hx] at h
        simp only at h
        split at h
        · cases hc : createPath (CItem.insert n v) rest x with
          | none => rw [hc] at h; cases h
          | some x' =>
            rw [hc] at h
            simp only [Option.some.injEq] at h
            subst h
            simp only [List.map_cons, List.cons_append, getRec, lookup_put, if_true]
            exact ih x x' hc
        · cases h

theorem getValueRec_new (k : Kind) (q : List Str) : getValueRec q (.node k []) = none := by
  cases q <;> rfl

/-- … and the values at all other paths are as before. -/
theorem C45_get_other (path : List (Str × IType)) (n : Str) (v : CItem) : ∀ (q : List Str) (t t' : CItem),
    setAt path n v t = some t' → ¬ (path.map (·.1) ++ [n]) <+: q → getValueRec q t' = getValueRec q t := by
  unfold setAt
  induction path with
  | nil =>
    intro q t t' h hq
    cases t with
    | value w => simp [createPath] at h
    | node k m =>
      simp only [createPath, CItem.insert, Option.some.injEq] at h
      subst h
      cases q with
      | nil => rfl
      | cons b q =>
        have hb : n ≠ b := by
          rintro rfl
          exact hq ⟨q, rfl⟩
        simp only [getValueRec, lookup_put, if_neg hb]
  | cons p rest ih =>
    intro q t t' h hq
    obtain ⟨a, ty⟩ := p
    cases t with
    | value w => simp [createPath] at h
    | node k m =>
      simp only [createPath] at h
      cases hx : (match lookup m a with | some x => some x | none => newItem ty) with
      | none => rw [hx] at h; cases h
      | some x =>
        rw [hx] at h
        simp only at h
        split at h
        · rename_i hxt
          cases hc : createPath (CItem.insert n v) rest x with
          | none => rw [hc] at h; cases h
          | some x' =>
            rw [hc] at h
            simp only [Option.some.injEq] at h
            subst h
            cases q with
            | nil => rfl
            | cons b q =>
              simp only [getValueRec, lookup_put]
              by_cases hb : a = b
              · subst hb
                rw [if_pos rfl]
                simp only
                have hq' : ¬ (rest.map (·.1) ++ [n]) <+: q := by
                  rintro ⟨s, hs⟩
                  exact hq ⟨s, by rw [← hs]; rfl⟩
                rw [ih q x x' hc hq']
                cases hl : lookup m a with
                | some y =>
                  rw [hl] at hx
                  simp only [Option.some.injEq] at hx
                  subst hx
                  rfl
                | none =>
                  rw [hl] at hx
                  simp only at hx
                  cases ty with
                  | none => cases hx
                  | some k' =>
                    simp only [newItem, Option.some.injEq] at hx
                    subst hx
                    exact getValueRec_new k' q
              · rw [if_neg hb]
        · cases h

/-- A value is what is found there. -/
theorem getValueRec_eq (q : List Str) : ∀ t, getValueRec q t = match getRec q t with
    | some (.value v) => some v
    | _ => none := by
  induction q with
  | nil => intro t; cases t <;> rfl
  | cons n q ih =>
    intro t
    cases t with
    | value v => rfl
    | node k m =>
      simp only [getValueRec, getRec]
      cases lookup m n with
      | none => rfl
      | some x => exact ih x

/-- **C45**, for values: a value that was set is what is read at its path. -/
theorem C45_value (path : List (Str × IType)) (n : Str) (v : CValue) (t t' : CItem)
    (h : setAt path n (.value v) t = some t') : getValueRec (path.map (·.1) ++ [n]) t' = some v := by
  rw [getValueRec_eq, C45_get_set path n _ [] t t' h]
  rfl

/-- A path through a new set, a new list and an entry; and one that is refused. -/
example : ∃ t, setAt [("s".toList, some .set), ("l".toList, some .vec), ("0".toList, some .entry)] "x".toList
      (.value (.int 7)) (.node .set [("a".toList, .value (.int 1))]) = some t
    ∧ getValueRec ["s".toList, "l".toList, "0".toList, "x".toList] t = some (.int 7)
    ∧ getValueRec ["a".toList] t = some (.int 1)
    ∧ setAt [("s".toList, some .map)] "x".toList (.value (.int 7)) t = none := by
  refine ⟨_, rfl, by decide, by decide, rfl⟩

end Verif.Config
