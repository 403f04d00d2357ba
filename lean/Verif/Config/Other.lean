import Verif.Config.SettingsProps
import Verif.Script.Other
import Verif.Whole.OtherFile

/-!
# C114: settings of other programs
-/

set_option autoImplicit false

namespace Verif.Config

open Xml Xml.Spec Codec
open Verif.Style (AttrsFine attrOf attrOf_cons attrOf_absent)
open Verif.Script (escaped_cons)

/-! ## Specification -/

/-- Where an element stands: directly in the settings, or in an item of some kind. -/
inductive Level where
  | settings
  | node (k : Kind)
  deriving DecidableEq

/-- The element around. -/
def Level.tag : Level → Str
  | .settings => tSettings
  | .node k => tagOf k

/-- What may stand there: the names of elements and what they are, `none` for a value. -/
def members : Level → List (Str × Option Kind)
  | .settings => [(tagOf .set, some .set)]
  | .node .set => [(tItem, none), (tagOf .set, some .set), (tagOf .vec, some .vec), (tagOf .map, some .map)]
  | .node .entry => [(tItem, none), (tagOf .set, some .set), (tagOf .vec, some .vec), (tagOf .map, some .map)]
  | .node .vec => [(tagOf .entry, some .entry)]
  | .node .map => [(tagOf .entry, some .entry)]

/-- The name of an item. -/
def nameSaid (as : List (Str × Str)) : Option Str := attrOf as aName

/-- The type of a value. -/
def typeSaid (as : List (Str × Str)) : Option VType := (as.lookup aType).bind findType

mutual

/-- The text of an element, with all that is in it. -/
def deep : El → Str
  | .text s => s
  | .ref n => entity n
  | .void _ _ => []
  | .elem _ _ c => deepIn c

/-- Of several. -/
def deepIn : List El → Str
  | [] => []
  | e :: c => deep e ++ deepIn c

end

/-- The value that an element means. -/
def valueSaid (fl : Floats) (as : List (Str × Str)) (c : List El) : Option CValue :=
  (typeSaid as).bind fun t => (parseValue fl (deepIn c) t).toOption

/-- The items of a list get the numbers 0, 1, 2, … as names, all others have theirs; of several with one name the last
one counts, and it has the place of the first. -/
def mapSaid (k : Kind) (l : List (Option Str × CItem)) : List (Str × CItem) :=
  if k = .vec then l.zipIdx.map fun p => (decNat p.2, p.1.2)
  else l.foldl (fun m p => put m (p.1.getD []) p.2) []

mutual

/-- The items an element means, with their names. -/
def itemsSaid (fl : Floats) (lv : Level) : El → List (Option Str × CItem)
  | .text _ => []
  | .ref _ => []
  | .void _ _ => []
  | .elem n as c =>
    match (members lv).lookup n with
    | none => itemsSaidIn fl lv c
    | some none => [(nameSaid as, .value ((valueSaid fl as c).getD (.string [])))]
    | some (some k) => [(nameSaid as, .node k (mapSaid k (itemsSaidIn fl (.node k) c)))]

/-- Of several. -/
def itemsSaidIn (fl : Floats) (lv : Level) : List El → List (Option Str × CItem)
  | [] => []
  | e :: c => itemsSaid fl lv e ++ itemsSaidIn fl lv c

end

/-- The settings of a section. -/
def configSaid (fl : Floats) (c : List El) : List (Str × CItem) :=
  (itemsSaidIn fl .settings c).foldl (fun m p => put m (p.1.getD []) p.2) []

mutual

/-- Items that can be read: they have names (but for those of lists), values have types and are of the form of
their types, and there is no element of the name of the one around. -/
def ItemFine (fl : Floats) (lv : Level) : El → Prop
  | .text _ => True
  | .ref _ => True
  | .void _ _ => True
  | .elem n as c =>
    match (members lv).lookup n with
    | none => n ≠ lv.tag ∧ ItemsFine fl lv c
    | some none => AttrsFine as ∧ (nameSaid as).isSome = true ∧ (typeSaid as).isSome = true
      ∧ (valueSaid fl as c).isSome = true ∧ NoStartIn tItem c
    | some (some k) => AttrsFine as ∧ (lv = .node .vec ∨ (nameSaid as).isSome = true) ∧ ItemsFine fl (.node k) c

/-- Several. -/
def ItemsFine (fl : Floats) (lv : Level) : List El → Prop
  | [] => True
  | e :: c => ItemFine fl lv e ∧ ItemsFine fl lv c

end

/-! ## Attributes -/

theorem readName_said (as : List (Str × Str)) (hd : (as.map Prod.fst).Nodup) (hp : Escaped as) : ∀ n,
    readName n as = .ok ((nameSaid as).or n) := by
  induction as with
  | nil => intro n; rfl
  | cons kv as ih =>
    obtain ⟨k, v⟩ := kv
    intro n
    obtain ⟨w, hw, hp', -⟩ := escaped_cons hp
    rw [List.map_cons, List.nodup_cons] at hd
    rw [readName]
    unfold nameSaid
    rw [attrOf_cons, hw]
    by_cases h : k = aName
    · subst h
      rw [if_pos rfl, if_pos rfl]
      simp only
      rw [ih hd.2 hp']
      unfold nameSaid
      rw [attrOf_absent as _ hd.1]
      rfl
    · rw [if_neg h, if_neg (Ne.symm h), ih hd.2 hp']
      rfl

theorem readType_said (as : List (Str × Str)) (hd : (as.map Prod.fst).Nodup) : ∀ t,
    (∀ v, as.lookup aType = some v → (findType v).isSome = true) →
    readType t as = .ok ((typeSaid as).or t) := by
  induction as with
  | nil => intro t _; rfl
  | cons kv as ih =>
    obtain ⟨k, v⟩ := kv
    intro t hv
    rw [List.map_cons, List.nodup_cons] at hd
    rw [readType]
    unfold typeSaid
    rw [List.lookup_cons]
    rw [List.lookup_cons] at hv
    by_cases h : k = aType
    · rw [show (aType == k) = true by simp [h]] at hv ⊢
      obtain ⟨w, hw⟩ := Option.isSome_iff_exists.1 (hv v rfl)
      have ha : as.lookup aType = none := Codec.lookup_absent as aType (by rw [← h]; exact hd.1)
      rw [if_pos h, hw]
      simp only
      rw [ih hd.2 _ (by intro u hu; rw [ha] at hu; cases hu)]
      unfold typeSaid
      rw [ha]
      simp [hw]
    · rw [show (aType == k) = false by simpa using Ne.symm h] at hv ⊢
      rw [if_neg h, ih hd.2 t hv]
      rfl

/-! ## Functions at work -/

/-- The function that is at work on this level. -/
def At : Level → Frame → Prop
  | .settings, .settings _ => True
  | .node k, .node k' _ _ _ => k = k'
  | _, _ => False

/-- One item more. -/
def addTo (f : Frame) (p : Option Str × CItem) : Frame :=
  match f with
  | .settings m => .settings (put m (p.1.getD []) p.2)
  | .node .vec nm m i => .node .vec nm (put m (decNat i) p.2) (i + 1)
  | .node k nm m i => .node k nm (put m (p.1.getD []) p.2) i
  | .value a b c => .value a b c

theorem at_addTo {lv : Level} {f : Frame} (p : Option Str × CItem) (h : At lv f) : At lv (addTo f p) := by
  cases f with
  | settings m => cases lv with | settings => trivial | node k => exact h
  | value a b c => cases lv <;> exact h
  | node k nm m i =>
    cases lv with
    | settings => exact h.elim
    | node k' =>
      obtain rfl : k' = k := h
      cases k' <;> rfl

theorem at_addAll {lv : Level} (l : List (Option Str × CItem)) : ∀ {f : Frame}, At lv f → At lv (l.foldl addTo f) := by
  induction l with
  | nil => intro f h; exact h
  | cons p l ih => intro f h; exact ih (at_addTo p h)

theorem add_ok' {lv : Level} {f : Frame} (n : Option Str) (x : CItem) (h : At lv f) (hn : lv = .node .vec ∨ n.isSome = true) :
    f.add n x = .ok (addTo f (n, x)) := by
  cases f with
  | settings m =>
    cases lv with
    | node k => exact h.elim
    | settings =>
      obtain ⟨n', rfl⟩ := Option.isSome_iff_exists.1 (hn.resolve_left (by intro e; cases e))
      rfl
  | value a b c => cases lv <;> exact h.elim
  | node k nm m i =>
    cases lv with
    | settings => exact h.elim
    | node k' =>
      obtain rfl : k' = k := h
      rcases hn with e | hn
      · cases e; rfl
      · obtain ⟨n', rfl⟩ := Option.isSome_iff_exists.1 hn
        cases k' <;> rfl

theorem at_tag {lv : Level} {f : Frame} (h : At lv f) : f.tag = lv.tag := by
  cases f with
  | settings m => cases lv with | settings => rfl | node k => exact h.elim
  | value a b c => cases lv <;> exact h.elim
  | node k nm m i =>
    cases lv with
    | settings => exact h.elim
    | node k' => obtain rfl : k' = k := h; rfl

theorem text_at {lv : Level} {f : Frame} (h : At lv f) (op : List Str) (fs : List Frame) (cfg : List (Str × CItem)) (s : Str) :
    State.text ⟨op, f :: fs, cfg⟩ s = ⟨op, f :: fs, cfg⟩ := by
  cases f with
  | settings m => rfl
  | value a b c => cases lv <;> exact h.elim
  | node k nm m i => rfl

/-- What is opened at a start tag. -/
def toOpens : Option Kind → Opens
  | none => .value
  | some k => .node k

theorem lookup_four (n : Str) :
    ([(tItem, none), (tagOf .set, some .set), (tagOf .vec, some .vec), (tagOf .map, some .map)] :
      List (Str × Option Kind)).lookup n
      = if n = tItem then some none else if n = tagOf .set then some (some .set)
        else if n = tagOf .vec then some (some .vec) else if n = tagOf .map then some (some .map) else none := by
  have hs : ∀ j : Str, (n == j) = decide (n = j) := fun j => by rw [Bool.eq_iff_iff]; simp
  simp only [List.lookup_cons, List.lookup_nil, hs]
  repeat' split <;> simp_all

theorem lookup_one (n : Str) (k : Kind) : ([(tagOf k, some k)] : List (Str × Option Kind)).lookup n
    = if n = tagOf k then some (some k) else none := by
  have hs : ∀ j : Str, (n == j) = decide (n = j) := fun j => by rw [Bool.eq_iff_iff]; simp
  simp only [List.lookup_cons, List.lookup_nil, hs]
  repeat' split <;> simp_all

theorem opens_at {lv : Level} {f : Frame} (h : At lv f) (n : Str) :
    opens (some f) n = ((members lv).lookup n).map toOpens := by
  have h4 : (if n = tItem then some Opens.value else if n = tagOf .set then some (.node .set)
      else if n = tagOf .vec then some (.node .vec) else if n = tagOf .map then some (.node .map) else none)
      = (([(tItem, none), (tagOf .set, some .set), (tagOf .vec, some .vec), (tagOf .map, some .map)] :
      List (Str × Option Kind)).lookup n).map toOpens := by
    rw [lookup_four]
    by_cases h1 : n = tItem
    · rw [if_pos h1, if_pos h1]; rfl
    rw [if_neg h1, if_neg h1]
    by_cases h1 : n = tagOf .set
    · rw [if_pos h1, if_pos h1]; rfl
    rw [if_neg h1, if_neg h1]
    by_cases h1 : n = tagOf .vec
    · rw [if_pos h1, if_pos h1]; rfl
    rw [if_neg h1, if_neg h1]
    by_cases h1 : n = tagOf .map
    · rw [if_pos h1, if_pos h1]; rfl
    rw [if_neg h1, if_neg h1]; rfl
  have h5 : ∀ k, (if n = tagOf k then some (Opens.node k) else none)
      = (([(tagOf k, some k)] : List (Str × Option Kind)).lookup n).map toOpens := by
    intro k
    rw [lookup_one]
    split <;> rfl
  cases f with
  | settings m =>
    cases lv with
    | node k => exact h.elim
    | settings => exact h5 .set
  | value a b c => cases lv <;> exact h.elim
  | node k nm m i =>
    cases lv with
    | settings => exact h.elim
    | node k' =>
      obtain rfl : k' = k := h
      cases k' with
      | set => exact h4
      | entry => exact h4
      | vec => exact h5 .entry
      | map => exact h5 .entry

theorem members_value (lv : Level) (n : Str) (h : (members lv).lookup n = some none) : n = tItem := by
  have h4 : ∀ n, ([(tItem, none), (tagOf .set, some .set), (tagOf .vec, some .vec), (tagOf .map, some .map)] :
      List (Str × Option Kind)).lookup n = some none → n = tItem := by
    intro n h
    rw [lookup_four] at h
    by_cases h1 : n = tItem
    · exact h1
    · rw [if_neg h1] at h
      repeat' split at h
      all_goals cases h
  have h5 : ∀ k, ([(tagOf k, some k)] : List (Str × Option Kind)).lookup n ≠ some none := by
    intro k h
    rw [lookup_one] at h
    split at h <;> cases h
  cases lv with
  | settings => exact absurd h (h5 .set)
  | node k =>
    cases k with
    | set => exact h4 n h
    | entry => exact h4 n h
    | vec => exact absurd h (h5 .entry)
    | map => exact absurd h (h5 .entry)

theorem members_node (lv : Level) (n : Str) (k : Kind) (h : (members lv).lookup n = some (some k)) : n = tagOf k := by
  have h4 : ([(tItem, none), (tagOf .set, some .set), (tagOf .vec, some .vec), (tagOf .map, some .map)] :
      List (Str × Option Kind)).lookup n = some (some k) → n = tagOf k := by
    intro h
    rw [lookup_four] at h
    by_cases h1 : n = tItem
    · rw [if_pos h1] at h; cases h
    rw [if_neg h1] at h
    by_cases h1 : n = tagOf .set
    · rw [if_pos h1] at h; cases h; exact h1
    rw [if_neg h1] at h
    by_cases h1 : n = tagOf .vec
    · rw [if_pos h1] at h; cases h; exact h1
    rw [if_neg h1] at h
    by_cases h1 : n = tagOf .map
    · rw [if_pos h1] at h; cases h; exact h1
    rw [if_neg h1] at h; cases h
  have h5 : ∀ k', ([(tagOf k', some k')] : List (Str × Option Kind)).lookup n = some (some k) → n = tagOf k := by
    intro k' h
    rw [lookup_one] at h
    by_cases h1 : n = tagOf k'
    · rw [if_pos h1] at h; cases h; exact h1
    · rw [if_neg h1] at h; cases h
  cases lv with
  | settings => exact h5 .set h
  | node k =>
    cases k with
    | set => exact h4 h
    | entry => exact h4 h
    | vec => exact h5 .entry h
    | map => exact h5 .entry h

/-! ## Values -/

section Values

variable (fl : Floats) (nm : Str) (t : VType) (fs : List Frame) (cfg : List (Str × CItem))

mutual

theorem value_el (x : El) (h : x.NoStart tItem) (op : List Str) (u : Str) :
    run fl ⟨op, .value nm t u :: fs, cfg⟩ x.events = .ok ⟨op, .value nm t (u ++ deep x) :: fs, cfg⟩ :=
  match x with
  | .text s => rfl
  | .ref s => rfl
  | .void n as => by rw [deep, List.append_nil]; rfl
  | .elem n as c => by
    rw [El.events, run, step]
    simp only [opens, List.head?_cons]
    rw [run_append, value_elIn c h.2 (n :: op) u]
    simp only
    rw [run, step]
    simp only
    rw [if_neg (by simp), if_neg (by exact h.1)]
    rfl

theorem value_elIn (c : List El) (h : NoStartIn tItem c) (op : List Str) (u : Str) :
    run fl ⟨op, .value nm t u :: fs, cfg⟩ (evsOf c) = .ok ⟨op, .value nm t (u ++ deepIn c) :: fs, cfg⟩ :=
  match c with
  | [] => by rw [deepIn, List.append_nil]; rfl
  | x :: c => by
    rw [evsOf, run_append, value_el x h.1 op u]
    simp only
    rw [value_elIn c h.2 op, deepIn, List.append_assoc]

end

end Values

/-! ## Items -/

theorem adds_vec (nm : Option Str) (l : List (Option Str × CItem)) : ∀ (m : List (Str × CItem)) (i : Nat),
    (∀ j, i ≤ j → decNat j ∉ m.map (·.1)) →
    l.foldl addTo (.node .vec nm m i)
      = .node .vec nm (m ++ (l.zipIdx i).map fun p => (decNat p.2, p.1.2)) (i + l.length) := by
  induction l with
  | nil => intro m i _; simp
  | cons p l ih =>
    intro m i h
    rw [List.foldl_cons]
    simp only [addTo]
    rw [put_new m _ _ (h i (Nat.le_refl i)), ih]
    · simp [Nat.add_comm, Nat.add_left_comm]
    · intro j hj hm
      rw [List.map_append] at hm
      rcases List.mem_append.1 hm with hm | hm
      · exact h j (by omega) hm
      · simp at hm
        have := decNat_inj hm
        omega

theorem adds_named (k : Kind) (hk : k ≠ .vec) (nm : Option Str) (i : Nat) (l : List (Option Str × CItem)) :
    ∀ m : List (Str × CItem),
    l.foldl addTo (.node k nm m i) = .node k nm (l.foldl (fun m p => put m (p.1.getD []) p.2) m) i := by
  induction l with
  | nil => intro m; rfl
  | cons p l ih =>
    intro m
    rw [List.foldl_cons, List.foldl_cons]
    have : addTo (.node k nm m i) p = .node k nm (put m (p.1.getD []) p.2) i := by
      cases k with
      | vec => exact absurd rfl hk
      | _ => rfl
    rw [this, ih]

theorem adds_node (k : Kind) (nm : Option Str) (l : List (Option Str × CItem)) :
    ∃ i, l.foldl addTo (.node k nm [] 0) = .node k nm (mapSaid k l) i := by
  unfold mapSaid
  by_cases h : k = .vec
  · subst h
    rw [if_pos rfl]
    exact ⟨_, by rw [adds_vec nm l [] 0 (by intro j _ hm; cases hm), List.nil_append]⟩
  · rw [if_neg h]
    exact ⟨0, adds_named k h nm 0 l []⟩

theorem adds_settings (l : List (Option Str × CItem)) : ∀ m : List (Str × CItem),
    l.foldl addTo (.settings m) = .settings (l.foldl (fun m p => put m (p.1.getD []) p.2) m) := by
  induction l with
  | nil => intro m; rfl
  | cons p l ih => intro m; exact ih _

mutual

theorem item_read (fl : Floats) (x : El) (lv : Level) (h : ItemFine fl lv x) (f : Frame) (hf : At lv f) (op : List Str)
    (fs : List Frame) (cfg : List (Str × CItem)) :
    run fl ⟨op, f :: fs, cfg⟩ x.events = .ok ⟨op, (itemsSaid fl lv x).foldl addTo f :: fs, cfg⟩ :=
  match x with
  | .text s => by
    rw [El.events, run, step]
    simp only
    rw [text_at hf]
    rfl
  | .ref s => by
    rw [El.events, run, step]
    simp only
    rw [text_at hf]
    rfl
  | .void n as => rfl
  | .elem n as c => by
    rw [ItemFine] at h
    rw [itemsSaid, El.events, run, step]
    simp only [List.head?_cons]
    rw [opens_at hf]
    cases hl : (members lv).lookup n with
    | none =>
      rw [hl] at h
      simp only [Option.map] at h ⊢
      rw [run_append, items_read fl c lv h.2 f hf (n :: op) fs cfg]
      simp only
      rw [run, step]
      simp only
      rw [if_neg (by simp), if_neg (by rw [at_tag (at_addAll _ hf)]; exact h.1)]
      rfl
    | some o =>
      rw [hl] at h
      cases o with
      | none =>
        simp only [Option.map, toOpens] at h ⊢
        obtain ⟨⟨hd, hp⟩, hn, ht, hv, hs⟩ := h
        obtain ⟨nm, hn⟩ := Option.isSome_iff_exists.1 hn
        obtain ⟨t, ht⟩ := Option.isSome_iff_exists.1 ht
        obtain ⟨v, hv⟩ := Option.isSome_iff_exists.1 hv
        have hpv : parseValue fl (deepIn c) t = .ok v := by
          unfold valueSaid at hv
          rw [ht] at hv
          cases hq : parseValue fl (deepIn c) t with
          | error e => simp [hq, Except.toOption] at hv
          | ok w => simp [hq, Except.toOption] at hv; rw [hv]
        have hni : n = tItem := members_value lv n hl
        subst hni
        unfold openFrame
        simp only
        rw [readName_said as hd hp, readType_said as hd none (by
          intro w hw
          unfold typeSaid at ht
          rw [hw] at ht
          simp only [Option.bind] at ht
          rw [ht]; rfl), hn, ht]
        simp only [Option.or, Except.map]
        rw [run_append, value_elIn fl nm t (f :: fs) cfg c hs]
        simp only [List.nil_append]
        rw [run, step]
        simp only
        rw [if_neg (by simp), if_pos (show tItem = (Frame.value nm t (deepIn c)).tag from rfl)]
        unfold closeFrame
        simp only [hpv]
        rw [add_ok' (some nm) _ hf (.inr rfl), hv]
        rfl
      | some k =>
        simp only [Option.map, toOpens] at h ⊢
        obtain ⟨⟨hd, hp⟩, hn, hc⟩ := h
        obtain rfl : n = tagOf k := members_node lv n k hl
        unfold openFrame
        simp only
        rw [readName_said as hd hp]
        simp only [Option.or_none]
        have hne : ¬ (k ≠ .entry ∧ nameSaid as = none) := by
          rintro ⟨h1, h2⟩
          rcases hn with e | hn
          · subst e
            rw [members, lookup_one] at hl
            split at hl
            · cases hl; exact h1 rfl
            · cases hl
          · rw [h2] at hn; cases hn
        rw [if_neg hne]
        simp only [Except.map]
        rw [run_append, items_read fl c (.node k) hc (.node k (nameSaid as) [] 0) rfl (tagOf k :: op) (f :: fs) cfg]
        simp only
        obtain ⟨i, hi⟩ := adds_node k (nameSaid as) (itemsSaidIn fl (.node k) c)
        rw [hi, run, step]
        simp only
        rw [if_neg (by simp), if_pos (show tagOf k = (Frame.node k _ _ i).tag from rfl)]
        unfold closeFrame
        simp only
        rw [add_ok' (nameSaid as) _ hf hn]
        rfl

theorem items_read (fl : Floats) (c : List El) (lv : Level) (h : ItemsFine fl lv c) (f : Frame) (hf : At lv f) (op : List Str)
    (fs : List Frame) (cfg : List (Str × CItem)) :
    run fl ⟨op, f :: fs, cfg⟩ (evsOf c) = .ok ⟨op, (itemsSaidIn fl lv c).foldl addTo f :: fs, cfg⟩ :=
  match c with
  | [] => rfl
  | x :: c => by
    rw [ItemsFine] at h
    rw [evsOf, run_append, item_read fl x lv h.1 f hf op fs cfg]
    simp only
    rw [items_read fl c lv h.2 _ (at_addAll _ hf) op fs cfg, itemsSaidIn, List.foldl_append]

end

/-! ## Files -/

section Outside

variable (fl : Floats) (cfg : List (Str × CItem))

mutual

theorem outside_el (x : El) (h : x.NoStart tSettings) (op : List Str) :
    run fl ⟨op, [], cfg⟩ x.events = .ok ⟨op, [], cfg⟩ :=
  match x with
  | .text s => rfl
  | .ref s => rfl
  | .void n as => rfl
  | .elem n as c => by
    rw [El.events, run, step]
    simp only [opens, List.head?_nil]
    rw [if_neg h.1]
    simp only
    rw [run_append, outside_elIn c h.2 (n :: op)]
    simp only
    rw [run, step]
    simp only
    rw [if_neg (by simp)]
    rfl

theorem outside_elIn (c : List El) (h : NoStartIn tSettings c) (op : List Str) :
    run fl ⟨op, [], cfg⟩ (evsOf c) = .ok ⟨op, [], cfg⟩ :=
  match c with
  | [] => rfl
  | x :: c => by
    rw [evsOf, run_append, outside_el x h.1 op]
    simp only
    rw [outside_elIn c h.2 op]

end

end Outside

/-- The section of the settings. -/
theorem section_read (fl : Floats) (c : List El) (h : ItemsFine fl .settings c) (op : List Str) (fs : List Frame)
    (cfg : List (Str × CItem)) :
    run fl ⟨op, .settings [] :: fs, cfg⟩ (evsOf c) = .ok ⟨op, .settings (configSaid fl c) :: fs, cfg⟩ := by
  rw [items_read fl c .settings h (.settings []) trivial, adds_settings]
  rfl

/-- A file with one section of settings in its root element. -/
def settingsFile (front : List El) (root : Str) (as : List (Str × Str)) (pre : List El) (bs : List (Str × Str))
    (c post back : List El) : List El := front ++ .elem root as (pre ++ .elem tSettings bs c :: post) :: back

/-- **C114** (exact): the settings of a file of another program are those that its elements mean. -/
theorem C114_settings (fl : Floats) (front : List El) (root : Str) (as : List (Str × Str)) (pre : List El)
    (bs : List (Str × Str)) (c post back : List El) (hroot : root ≠ tSettings) (h1 : NoStartIn tSettings front)
    (h2 : NoStartIn tSettings pre) (h3 : NoStartIn tSettings post) (h4 : NoStartIn tSettings back) (text : Str)
    (ht : Whole.FileText (settingsFile front root as pre bs c post back) text) (h : ItemsFine fl .settings c) :
    readFile fl text = .ok (configSaid fl c) := by
  obtain ⟨ts, g1, g2⟩ := Whole.file_events ht
  unfold readFile
  rw [g1]
  simp only
  have hev : evsOf (settingsFile front root as pre bs c post back)
      = evsOf front ++ (.start root as :: (evsOf pre ++ (.start tSettings bs :: (evsOf c ++ (.end tSettings ::
        (evsOf post ++ (.end root :: evsOf back))))))) := by
    unfold settingsFile
    rw [Valid.evsOf_append, evsOf, El.events, Valid.evsOf_append, evsOf, El.events]
    simp
  unfold readSettings
  rw [g2, hev, run_append, outside_elIn fl [] front h1 []]
  simp only
  rw [run, step]
  simp only [opens, List.head?_nil]
  rw [if_neg hroot]
  simp only
  rw [run_append, outside_elIn fl [] pre h2]
  simp only
  rw [run, step]
  simp only [opens, List.head?_nil]
  rw [if_pos trivial]
  simp only [openFrame, Except.map]
  rw [run_append, section_read fl c h]
  simp only
  rw [run, step]
  simp only
  rw [if_neg (by simp), if_pos (show tSettings = (Frame.settings (configSaid fl c)).tag from rfl)]
  simp only [closeFrame, Except.map]
  rw [run_append, outside_elIn fl _ post h3]
  simp only
  rw [run, step]
  simp only
  rw [if_neg (by simp)]
  simp only
  rw [outside_elIn fl _ back h4]
  rfl

/-! ## What is found -/

theorem lookup_named (l : List (Option Str × CItem)) (n : Str) : ∀ m : List (Str × CItem),
    lookup (l.foldl (fun m p => put m (p.1.getD []) p.2) m) n
      = ((l.reverse.find? fun p => p.1.getD [] = n).map Prod.snd).or (lookup m n) := by
  induction l with
  | nil => intro m; rfl
  | cons p l ih =>
    intro m
    rw [List.foldl_cons, ih, List.reverse_cons, List.find?_append, lookup_put]
    cases hf : l.reverse.find? fun p => decide (p.1.getD [] = n) with
    | some y => rfl
    | none =>
      by_cases h : p.1.getD [] = n
      · simp [h]
      · rw [if_neg h, List.find?_cons_of_neg (by simpa using h)]
        rfl

/-- The settings by their names: of several with the same name the last one. -/
theorem C114_found (fl : Floats) (c : List El) (n : Str) :
    lookup (configSaid fl c) n
      = ((itemsSaidIn fl .settings c).reverse.find? fun p => p.1.getD [] = n).map Prod.snd := by
  unfold configSaid
  rw [lookup_named]
  simp [lookup]

/-- The items of an item by their names. -/
theorem C114_named (k : Kind) (hk : k ≠ .vec) (l : List (Option Str × CItem)) (n : Str) :
    lookup (mapSaid k l) n = (l.reverse.find? fun p => p.1.getD [] = n).map Prod.snd := by
  unfold mapSaid
  rw [if_neg hk, lookup_named]
  simp [lookup]

/-- The entries of a list by their numbers. -/
theorem C114_indexed (l : List (Option Str × CItem)) (i : Nat) :
    lookup (mapSaid .vec l) (decNat i) = (l[i]?).map Prod.snd := by
  unfold mapSaid
  rw [if_pos rfl]
  have : ∀ (l : List (Option Str × CItem)) (s : Nat), s ≤ i →
      lookup ((l.zipIdx s).map fun p => (decNat p.2, p.1.2)) (decNat i) = (l[i - s]?).map Prod.snd := by
    intro l
    induction l with
    | nil => intro s _; rfl
    | cons p l ih =>
      intro s hs
      rw [List.zipIdx_cons, List.map_cons, lookup]
      by_cases h : s = i
      · subst h; simp
      · rw [if_neg (fun e => h (decNat_inj e)), ih (s + 1) (by omega),
          show i - s = (i - (s + 1)) + 1 by omega, List.getElem?_cons_succ]
  exact this l 0 (by omega)

/-! ## A file as other programs write it -/

def str (s : String) : Str := s.toList

def itemEl (n t : String) (v : List El) : El := .elem tItem [(aName, str n), (aType, str t)] v

/-- The settings of the views, with white space, an unknown element and a list with one entry. -/
def officeSettings : List El :=
  [.text (str "\n "),
   .elem (tagOf .set) [(aName, str "ooo:view-settings")]
    [itemEl "VisibleAreaTop" "int" [.text (str "-17")],
     .elem (str "loext:more") [] [itemEl "ShowGrid" "boolean" [.text (str "true")]],
     .elem (tagOf .vec) [(aName, str "Views")]
      [.text (str " "),
       .elem (tagOf .entry) []
        [itemEl "ViewId" "string" [.text (str "a"), .ref (str "amp"), .text (str "b")],
         .elem (tagOf .map) [(aName, str "Tables")]
          [.elem (tagOf .entry) [(aName, str "Sheet1")] [itemEl "ZoomValue" "int" [.text (str "85")]]]]]]]

theorem value_is (fl fl' : Floats) (as : List (Str × Str)) (c : List El) (t : VType) (ht : typeSaid as = some t)
    (hd : t ≠ .double) : valueSaid fl as c = valueSaid fl' as c := by
  unfold valueSaid
  rw [ht]
  cases t <;> first | rfl | exact absurd rfl hd

/-- Such a value can be read. -/
theorem itemEl_fine (fl : Floats) (lv : Level) (n t : String) (v : List El) (ty : VType)
    (hl : (members lv).lookup tItem = some none)
    (ha : (Style.attrOf [(aName, str n), (aType, str t)] aName).isSome = true
      ∧ (unescapeAttrs [(aName, str n), (aType, str t)]).isSome = true
      ∧ findType (str t) = some ty ∧ ty ≠ .double ∧ (valueSaid Meta.asBits [(aName, str n), (aType, str t)] v).isSome = true)
    (hs : NoStartIn tItem v) : ItemFine fl lv (itemEl n t v) := by
  have ht : typeSaid [(aName, str n), (aType, str t)] = some ty := by
    unfold typeSaid
    rw [show ([(aName, str n), (aType, str t)] : List (Str × Str)).lookup aType = some (str t) by
      rw [List.lookup_cons, show (aType == aName) = false by decide +kernel, List.lookup_cons, beq_self_eq_true]]
    exact ha.2.2.1
  unfold itemEl
  rw [ItemFine, hl]
  refine ⟨⟨?_, ha.2.1⟩, ha.1, by rw [ht]; rfl, ?_, hs⟩
  · show [aName, aType].Nodup
    decide +kernel
  · rw [value_is fl Meta.asBits _ _ ty ht ha.2.2.2.1]
    exact ha.2.2.2.2

theorem officeSettings_fine (fl : Floats) : ItemsFine fl .settings officeSettings := by
  have e : ∀ as : List (Str × Str), (as.map Prod.fst).Nodup → (unescapeAttrs as).isSome = true → AttrsFine as :=
    fun _ h1 h2 => ⟨h1, h2⟩
  refine ⟨trivial, ?_, trivial⟩
  rw [ItemFine, show (members .settings).lookup (tagOf .set) = some (some .set) by decide +kernel]
  refine ⟨e _ (by decide +kernel) (by decide +kernel), .inr (by decide +kernel), ?_, ?_, ?_, trivial⟩
  · exact itemEl_fine fl _ _ _ _ .int (by decide +kernel) (by decide +kernel) ⟨trivial, trivial⟩
  · rw [ItemFine, show (members (.node .set)).lookup (str "loext:more") = none by decide +kernel]
    exact ⟨by decide +kernel, itemEl_fine fl _ _ _ _ .boolean (by decide +kernel) (by decide +kernel) ⟨trivial, trivial⟩, trivial⟩
  · rw [ItemFine, show (members (.node .set)).lookup (tagOf .vec) = some (some .vec) by decide +kernel]
    refine ⟨e _ (by decide +kernel) (by decide +kernel), .inr (by decide +kernel), trivial, ?_, trivial⟩
    rw [ItemFine, show (members (.node .vec)).lookup (tagOf .entry) = some (some .entry) by decide +kernel]
    refine ⟨e _ (by decide +kernel) (by decide +kernel), .inl rfl, ?_, ?_, trivial⟩
    · exact itemEl_fine fl _ _ _ _ .string (by decide +kernel) (by decide +kernel) ⟨trivial, trivial, trivial, trivial⟩
    · rw [ItemFine, show (members (.node .entry)).lookup (tagOf .map) = some (some .map) by decide +kernel]
      refine ⟨e _ (by decide +kernel) (by decide +kernel), .inr (by decide +kernel), ?_, trivial⟩
      rw [ItemFine, show (members (.node .map)).lookup (tagOf .entry) = some (some .entry) by decide +kernel]
      exact ⟨e _ (by decide +kernel) (by decide +kernel), .inr (by decide +kernel),
        itemEl_fine fl _ _ _ _ .int (by decide +kernel) (by decide +kernel) ⟨trivial, trivial⟩, trivial⟩

/-- The file. -/
def officeSettingsFile : List El :=
  settingsFile [] (str "office:document-settings") [] [.text (str "\n")] [] officeSettings [] []

/-- What the file has: at four paths. -/
def officeValues : List (List Str × CValue) :=
  [([str "ooo:view-settings", str "VisibleAreaTop"], .int (-17)),
   ([str "ooo:view-settings", str "ShowGrid"], .boolean true),
   ([str "ooo:view-settings", str "Views", str "0", str "ViewId"], .string (str "a&b")),
   ([str "ooo:view-settings", str "Views", str "0", str "Tables", str "Sheet1", str "ZoomValue"], .int 85)]

/-- `C114_settings` says what is read of this file, and the values are where they are to be. -/
theorem C114_meets : readFile Meta.asBits (spellIn officeSettingsFile) = .ok (configSaid Meta.asBits officeSettings)
    ∧ officeValues.map (fun p => getValueRec p.1 (.node .set (configSaid Meta.asBits officeSettings)))
      = officeValues.map fun p => some p.2 := by
  refine ⟨C114_settings Meta.asBits [] (str "office:document-settings") [] [.text (str "\n")] [] officeSettings [] [] (by decide +kernel) trivial ⟨trivial, trivial⟩ trivial trivial _
    (.plain _ _ (spell_ok _ (by decide +kernel))) (officeSettings_fine Meta.asBits), by decide +kernel⟩

/-- C114 fails for values that are empty tags, which is how empty texts are often written: whatever the setting is, it
is lost, and nothing is left of the file but the set around it. -/
theorem C114_empty_counterexample (fl : Floats) (root s : Str) (as bs : List (Str × Str)) (hs : Plain s) (hroot : root ≠ tSettings)
    (text : Str)
    (ht : Whole.FileText (settingsFile [] root [] [] [] [.elem (tagOf .set) [(aName, s)] [.void tItem as, .void tItem bs]] [] []) text) :
    ∃ m, readFile fl text = .ok m ∧ ∀ n, getValueRec [s, n] (.node .set m) = none := by
  have hu : unescape s = some s := unescape_plain s hs
  have hm : (members .settings).lookup (tagOf .set) = some (some .set) := by decide +kernel
  have hn : nameSaid [(aName, s)] = some s := by
    unfold nameSaid
    rw [attrOf_cons, if_pos rfl, hu]
  have hc : configSaid fl [.elem (tagOf .set) [(aName, s)] [.void tItem as, .void tItem bs]] = [(s, .node .set [])] := by
    unfold configSaid
    rw [itemsSaidIn, itemsSaid, hm]
    simp only [hn, itemsSaidIn, itemsSaid]
    rfl
  refine ⟨[(s, .node .set [])], ?_, ?_⟩
  · rw [C114_settings fl [] root [] [] [] _ [] [] hroot trivial trivial trivial trivial text ht ?_, hc]
    refine ⟨?_, trivial⟩
    rw [ItemFine, hm]
    refine ⟨⟨by simp, ?_⟩, .inr (by rw [hn]; rfl), trivial, trivial, trivial⟩
    unfold Escaped
    rw [unescapeAttrs, hu, unescapeAttrs]
    rfl
  · intro n
    rw [getValueRec, lookup, if_pos rfl]
    rfl

end Verif.Config
