import Verif.Codec.Reach
import Verif.Master.Props
import Verif.Style.OtherFound

/-!
# C112: master pages of other programs
-/

set_option autoImplicit false

namespace Verif.Master

open Xml Xml.Spec Codec Book
open Verif.Style (attrOf AttrsFine addsAll addsAll_ok addsAll_last addsAll_source addsAll_append attrOf_cons attrOf_absent)

/-! ## Specification -/

/-- The names that matter in a header or footer. -/
def hfNames (tag : Str) : List Str := [tag, tLeft, tCenter, tRight, pName, hName]

/-- The elements in a region. -/
def regionOf (t : Str) (x : El) : Option (List Node) := if x.name? = some t then some (elements (kids x.tree)) else none

/-- The last region counts. -/
def regionSaid (t : Str) (xs : List El) : List Node := (xs.filterMap (regionOf t)).getLast?.getD []

/-- A paragraph or a heading.  One with nothing in it is left out.  One of text only is a paragraph without attributes,
also if the file has a heading. -/
def lineSaid : El → Option Node
  | .void n _ => if n = pName ∨ n = hName then some (.tag pName [] [.text []]) else none
  | .elem n as c =>
    if n = pName ∨ n = hName then
      if c.isEmpty then none
      else if c.all El.isText then some (.tag pName [] [.text (saidIn c)])
      else some (.tag n (plainAttrs as) (joinLead c))
    else none
  | _ => none

/-- The header or footer that an element means. -/
def hfSaid (tag : Str) (as : List (Str × Str)) (c : List El) : HeaderFooter :=
  { display := ((Codec.attrText as "style:display").bind parseBool).getD true
    left := regionSaid tLeft (reachIn (hfNames tag) c)
    center := regionSaid tCenter (reachIn (hfNames tag) c)
    right := regionSaid tRight (reachIn (hfNames tag) c)
    content := (reachIn (hfNames tag) c).filterMap lineSaid }

/-- A region, paragraph or heading that can be read. -/
def HFPart (tag : Str) : El → Prop
  | .void n as => n = tLeft ∨ n = tCenter ∨ n = tRight → Escaped as
  | .elem n as c => n ≠ tag ∧ KeepOk n as c ∧ (n = tLeft ∨ n = tCenter ∨ n = tRight → ∀ x ∈ treesOf c, Blank x)
  | _ => True

/-- A header or footer that can be read. -/
structure HFFine (tag : Str) (as : List (Str × Str)) (c : List El) : Prop where
  once : (as.map Prod.fst).Nodup
  display : ∀ v, Codec.attrText as "style:display" = some v → (parseBool v).isSome = true
  parts : ∀ x ∈ reachIn (hfNames tag) c, HFPart tag x

/-- The names that matter in a master page. -/
def masterNames : List Str := tMaster :: slots.map Slot.tag

/-- The header or footer for this place. -/
def slotOfEl (s : Slot) : El → Option HeaderFooter
  | .elem n as c => if n = s.tag then some (hfSaid n as c) else none
  | _ => none

/-- The master page that an element means.  Of several headers the last one counts; without one there is an empty
one. -/
def masterSaid (as : List (Str × Str)) (c : List El) : Style Master :=
  ⟨(attrOf as aName).getD [],
    { display := (attrOf as aDisplayName).getD []
      page := attrOf as aLayout
      next := attrOf as aNext
      slot := fun s => ((reachIn masterNames c).filterMap (slotOfEl s)).getLast?.getD {} }⟩

/-- A master page that can be read. -/
structure MasterFine (as : List (Str × Str)) (c : List El) : Prop where
  attrs : AttrsFine as
  slots : ∀ n bs d, .elem n bs d ∈ reachIn masterNames c → n ≠ tMaster ∧ HFFine n bs d

/-- The names that matter in the section. -/
def mastersNames : List Str := [tMasters, tMaster]

/-- The master page of an element. -/
def masterOfEl : El → Option (Style Master)
  | .elem n as c => if n = tMaster then some (masterSaid as c) else none
  | _ => none

/-- The master pages of a section, in the order of the file. -/
def mastersSaid (c : List El) : List (Style Master) := (reachIn mastersNames c).filterMap masterOfEl

/-- All elements in the section can be read.  Master pages that are empty tags can not. -/
def MastersFine (c : List El) : Prop :=
  ∀ x ∈ reachIn mastersNames c, match x with
    | .elem n as d => n ≠ tMasters ∧ MasterFine as d
    | .void n _ => n ≠ tMaster
    | _ => True

/-! ## Lemmas -/

theorem foldl_opt {α β : Type} (g : α → β) (upd : α → El → α) (v : El → Option β)
    (h : ∀ a x, g (upd a x) = (v x).getD (g a)) (xs : List El) : ∀ a,
    g (xs.foldl upd a) = (xs.filterMap v).getLast?.getD (g a) := by
  induction xs with
  | nil => intro a; rfl
  | cons x xs ih =>
    intro a
    rw [List.foldl_cons, ih, h]
    cases hv : v x with
    | none => rw [List.filterMap_cons_none hv]; rfl
    | some y =>
      rw [List.filterMap_cons_some hv, getLast?_cons_or]
      cases (xs.filterMap v).getLast? <;> rfl

/-- The content of a paragraph or heading. -/
def lineContent : El → TextContent
  | .void _ _ => .text []
  | .elem n as c =>
    if c.isEmpty then .empty else if c.all El.isText then .text (saidIn c) else .xml ⟨n, plainAttrs as, joinLead c⟩
  | _ => .empty

theorem line_read (n : Str) (as : List (Str × Str)) (c : List El) (h : KeepOk n as c) (r : List Event) :
    readText n as (evsOf c ++ .end n :: r) = .ok (lineContent (.elem n as c), r) := by
  unfold readText
  rw [El.textLoopIn n as _ (escaped_some h.1) c h.2.1 h.2.2 .empty trivial]
  have hcont : TextContent.adds n (plainAttrs as) .empty (treesOf c) = lineContent (.elem n as c) := by
    unfold lineContent
    cases c with
    | nil => rfl
    | cons x l =>
      simp only
      rw [if_neg (by simp)]
      cases ha : (x :: l).all El.isText with
      | false => rw [if_neg (by simp), el_adds_rich _ _ _ ha]
      | true =>
        rw [if_pos rfl]
        rw [List.all_cons, Bool.and_eq_true] at ha
        cases x with
        | text t => exact el_adds_texts _ _ l ha.2 t
        | ref t => exact el_adds_texts _ _ l ha.2 (entity t)
        | void n bs => cases ha.1
        | elem n bs d => cases ha.1
  rw [hcont, readTextLoop_end, if_neg (by
    unfold lineContent
    simp only
    split
    · simp [openName]
    · split <;> simp [openName]), if_pos rfl]
  rfl

/-- The text with another paragraph. -/
def putText (t new : TextContent) : TextContent :=
  match appendText new t with
  | .ok t => t
  | .error _ => t

theorem putText_ok (t new : TextContent) (h : new.single) :
    appendText new t = .ok (putText t new) ∧ contentNodes (putText t new) = contentNodes t ++ contentNodes new := by
  unfold putText
  cases t <;> cases new <;> first | exact h.elim | (refine ⟨rfl, ?_⟩; simp [appendText, pushContent, contentNodes, Except.map])

theorem line_single (x : El) : (lineContent x).single := by
  cases x with
  | elem n as c =>
    unfold lineContent
    simp only
    split
    · trivial
    · split <;> trivial
  | _ => trivial

theorem line_nodes (x : El) (h : x.name? = some pName ∨ x.name? = some hName) :
    contentNodes (lineContent x) = (lineSaid x).toList := by
  cases x with
  | text s => rcases h with h | h <;> cases h
  | ref s => rcases h with h | h <;> cases h
  | void n as =>
    have hn : n = pName ∨ n = hName := by simpa [El.name?] using h
    unfold lineContent lineSaid
    simp only
    rw [if_pos hn]
    rfl
  | elem n as c =>
    have hn : n = pName ∨ n = hName := by simpa [El.name?] using h
    unfold lineContent lineSaid
    simp only
    rw [if_pos hn]
    split
    · rfl
    · split <;> rfl

/-! ## Headers and footers -/

/-- One part of a header or footer. -/
def hfStep (h : HState) (x : El) : HState :=
  if x.name? = some tLeft then { h with hf := { h.hf with left := elements (kids x.tree) } }
  else if x.name? = some tCenter then { h with hf := { h.hf with center := elements (kids x.tree) } }
  else if x.name? = some tRight then { h with hf := { h.hf with right := elements (kids x.tree) } }
  else if x.name? = some pName ∨ x.name? = some hName then { h with text := putText h.text (lineContent x) }
  else h

theorem withRegion_el {α : Type} (tag : Str) (x : El) (n : Str) (hn : n = tLeft ∨ n = tCenter ∨ n = tRight)
    (h : HFPart tag x) (g : List Node → α) :
    (∀ as, x = .void n as → ∀ r, withRegion n as true r g = .ok (some (g (elements (kids x.tree)), r)))
    ∧ (∀ as c, x = .elem n as c → ∀ r, withRegion n as false (evsOf c ++ .end n :: r) g
      = .ok (some (g (elements (kids x.tree)), r))) := by
  constructor
  · rintro as rfl r
    unfold withRegion
    rw [readXml_void n as (h hn)]
    rfl
  · rintro as c rfl r
    obtain ⟨-, h1, h2⟩ := h
    unfold withRegion
    rw [readXml_elem n as c h1.1 h1.2.1 h1.2.2]
    have := (C72_region_text (treesOf c)).1 (h2 hn)
    simp only
    rw [show kids (El.elem n as c).tree = treesOf c from rfl, this]
    rfl

theorem hfNames_apart : tLeft ≠ tCenter ∧ tLeft ≠ tRight ∧ tCenter ≠ tRight ∧ tLeft ≠ pName ∧ tLeft ≠ hName
    ∧ tCenter ≠ pName ∧ tCenter ≠ hName ∧ tRight ≠ pName ∧ tRight ≠ hName ∧ pName ≠ hName := by decide +kernel

theorem hfPart_pass (tag : Str) (x : El) (h : HFPart tag x) (hn : ∃ n ∈ hfNames tag, x.name? = some n)
    (htag : tag ∉ [tLeft, tCenter, tRight, pName, hName]) (a : HState) :
    Passes tag hfChild x.events a (hfStep a x) := by
  obtain ⟨n, hn, hx⟩ := hn
  unfold hfStep
  rw [hx]
  simp only [Option.some.injEq]
  cases x with
  | text s => cases hx
  | ref s => cases hx
  | void n' as =>
    obtain rfl : n' = n := Option.some.inj hx
    by_cases h1 : n' = tLeft
    · rw [if_pos h1]
      apply Passes.void
      intro r
      unfold hfChild
      rw [if_pos h1]
      exact (withRegion_el tag _ n' (.inl h1) h _).1 as rfl r
    rw [if_neg h1]
    by_cases h2 : n' = tCenter
    · rw [if_pos h2]
      apply Passes.void
      intro r
      unfold hfChild
      rw [if_neg h1, if_pos h2]
      exact (withRegion_el tag _ n' (.inr (.inl h2)) h _).1 as rfl r
    rw [if_neg h2]
    by_cases h3 : n' = tRight
    · rw [if_pos h3]
      apply Passes.void
      intro r
      unfold hfChild
      rw [if_neg h1, if_neg h2, if_pos h3]
      exact (withRegion_el tag _ n' (.inr (.inr h3)) h _).1 as rfl r
    rw [if_neg h3]
    by_cases h4 : n' = pName ∨ n' = hName
    · rw [if_pos h4]
      apply Passes.void
      intro r
      unfold hfChild
      rw [if_neg h1, if_neg h2, if_neg h3, if_pos h4, if_pos rfl]
      rw [(putText_ok a.text (.text []) trivial).1]
      rfl
    · rw [if_neg h4]
      apply Passes.skip
      intro r
      unfold hfChild
      rw [if_neg h1, if_neg h2, if_neg h3, if_neg h4]
  | elem n' as c =>
    obtain rfl : n' = n := Option.some.inj hx
    by_cases h1 : n' = tLeft
    · rw [if_pos h1]
      apply Passes.elem
      intro r
      unfold hfChild
      rw [if_pos h1]
      exact (withRegion_el tag _ n' (.inl h1) h _).2 as c rfl r
    rw [if_neg h1]
    by_cases h2 : n' = tCenter
    · rw [if_pos h2]
      apply Passes.elem
      intro r
      unfold hfChild
      rw [if_neg h1, if_pos h2]
      exact (withRegion_el tag _ n' (.inr (.inl h2)) h _).2 as c rfl r
    rw [if_neg h2]
    by_cases h3 : n' = tRight
    · rw [if_pos h3]
      apply Passes.elem
      intro r
      unfold hfChild
      rw [if_neg h1, if_neg h2, if_pos h3]
      exact (withRegion_el tag _ n' (.inr (.inr h3)) h _).2 as c rfl r
    rw [if_neg h3]
    by_cases h4 : n' = pName ∨ n' = hName
    · rw [if_pos h4]
      apply Passes.elem
      intro r
      unfold hfChild
      rw [if_neg h1, if_neg h2, if_neg h3, if_pos h4, if_neg (by simp), line_read n' as c h.2.1]
      simp only
      rw [(putText_ok a.text _ (line_single _)).1]
      rfl
    · exfalso
      simp only [hfNames, List.mem_cons, List.not_mem_nil, or_false] at hn
      rcases hn with e | e | e | e | e | e
      · exact h.1 e
      · exact h1 e
      · exact h2 e
      · exact h3 e
      · exact h4 (.inl e)
      · exact h4 (.inr e)

theorem hfSteps (xs : List El) : ∀ a : HState,
    (xs.foldl hfStep a).hf = { display := a.hf.display, left := (xs.filterMap (regionOf tLeft)).getLast?.getD a.hf.left
                               center := (xs.filterMap (regionOf tCenter)).getLast?.getD a.hf.center
                               right := (xs.filterMap (regionOf tRight)).getLast?.getD a.hf.right
                               content := a.hf.content }
    ∧ contentNodes (xs.foldl hfStep a).text = contentNodes a.text ++ xs.filterMap lineSaid := by
  have ha := hfNames_apart
  intro a
  have hl := foldl_opt (fun h : HState => h.hf.left) hfStep (regionOf tLeft) (by
    intro h x
    unfold hfStep regionOf
    split
    · rfl
    · split
      · rfl
      · split
        · rfl
        · split <;> rfl) xs a
  have hc := foldl_opt (fun h : HState => h.hf.center) hfStep (regionOf tCenter) (by
    intro h x
    unfold hfStep regionOf
    by_cases h1 : x.name? = some tLeft
    · rw [if_pos h1, if_neg (by rw [h1]; intro e; exact ha.1 (Option.some.inj e))]; rfl
    · rw [if_neg h1]
      split
      · rfl
      · split
        · rfl
        · split <;> rfl) xs a
  have hr := foldl_opt (fun h : HState => h.hf.right) hfStep (regionOf tRight) (by
    intro h x
    unfold hfStep regionOf
    by_cases h1 : x.name? = some tLeft
    · rw [if_pos h1, if_neg (by rw [h1]; intro e; exact ha.2.1 (Option.some.inj e))]; rfl
    · rw [if_neg h1]
      by_cases h2 : x.name? = some tCenter
      · rw [if_pos h2, if_neg (by rw [h2]; intro e; exact ha.2.2.1 (Option.some.inj e))]; rfl
      · rw [if_neg h2]
        split
        · rfl
        · split <;> rfl) xs a
  have hd := foldl_opt (fun h : HState => (h.hf.display, h.hf.content)) hfStep (fun _ => none) (by
    intro h x
    unfold hfStep
    split
    · rfl
    · split
      · rfl
      · split
        · rfl
        · split <;> rfl) xs a
  rw [show xs.filterMap (fun _ => (none : Option (Bool × List Node))) = [] by induction xs <;> simp] at hd
  simp only [List.getLast?_nil, Option.getD_none, Prod.mk.injEq] at hd
  constructor
  · rw [← hl, ← hc, ← hr, ← hd.1, ← hd.2]
  · clear hl hc hr hd
    induction xs generalizing a with
    | nil => simp
    | cons x xs ih =>
      rw [List.foldl_cons, ih]
      by_cases h4 : x.name? = some pName ∨ x.name? = some hName
      · have hne : ∀ t, t ≠ pName → t ≠ hName → x.name? ≠ some t := by
          intro t h1 h2 e
          rw [e] at h4
          rcases h4 with h4 | h4
          · exact h1 (Option.some.inj h4)
          · exact h2 (Option.some.inj h4)
        have hs : hfStep a x = { a with text := putText a.text (lineContent x) } := by
          unfold hfStep
          rw [if_neg (hne _ ha.2.2.2.1 ha.2.2.2.2.1), if_neg (hne _ ha.2.2.2.2.2.1 ha.2.2.2.2.2.2.1),
            if_neg (hne _ ha.2.2.2.2.2.2.2.1 ha.2.2.2.2.2.2.2.2.1), if_pos h4]
        rw [hs]
        simp only
        rw [(putText_ok a.text _ (line_single x)).2, line_nodes x h4, List.append_assoc]
        congr 1
        cases hx : lineSaid x with
        | none => rw [List.filterMap_cons_none hx]; rfl
        | some y => rw [List.filterMap_cons_some hx]; rfl
      · have hs : (hfStep a x).text = a.text := by
          unfold hfStep
          split
          · rfl
          · split
            · rfl
            · split
              · rfl
              · rfl
        have hx : lineSaid x = none := by
          cases x with
          | text s => rfl
          | ref s => rfl
          | void n as => unfold lineSaid; simp only; rw [if_neg (by simpa [El.name?] using h4)]
          | elem n as c => unfold lineSaid; simp only; rw [if_neg (by simpa [El.name?] using h4)]
        rw [hs, List.filterMap_cons_none hx]

theorem hfChild_none (tag : Str) (a : HState) (n : Str) (as : List (Str × Str)) (et : Bool) (es : List Event)
    (h : n ∉ hfNames tag) : hfChild a n as et es = .ok none := by
  simp only [hfNames, List.mem_cons, List.not_mem_nil, or_false, not_or] at h
  unfold hfChild
  rw [if_neg h.2.1, if_neg h.2.2.1, if_neg h.2.2.2.1, if_neg (by rintro (g | g); exact h.2.2.2.2.1 g; exact h.2.2.2.2.2 g)]

theorem hfAttrs_said (as : List (Str × Str)) (hd : (as.map Prod.fst).Nodup)
    (h : ∀ v, Codec.attrText as "style:display" = some v → (parseBool v).isSome = true) : ∀ hf : HeaderFooter,
    hfAttrs hf as = .ok { hf with display := ((Codec.attrText as "style:display").bind parseBool).getD hf.display } := by
  induction as with
  | nil => intro hf; rfl
  | cons kv as ih =>
    obtain ⟨k, v⟩ := kv
    intro hf
    rw [List.map_cons, List.nodup_cons] at hd
    rw [hfAttrs]
    have hk : ∀ w, Codec.attrText ((k, w) :: as) "style:display" = if k = aDisplay then some w
        else Codec.attrText as "style:display" := by
      intro w
      unfold Codec.attrText
      rw [List.lookup_cons]
      by_cases e : k = aDisplay
      · rw [if_pos e, show ("style:display".toList == k) = true from beq_iff_eq.2 e.symm]
      · rw [if_neg e, show ("style:display".toList == k) = false from by
          rw [beq_eq_false_iff_ne]; exact fun g => e g.symm]
    rw [hk] at h ⊢
    by_cases e : k = aDisplay
    · rw [if_pos e] at h
      rw [if_pos e, if_pos e]
      obtain ⟨b, hb⟩ := Option.isSome_iff_exists.1 (h v rfl)
      have hnone : Codec.attrText as "style:display" = none := by
        unfold Codec.attrText
        cases hl : as.lookup "style:display".toList with
        | none => rfl
        | some w =>
          obtain ⟨l1, l2, e', -⟩ := List.lookup_eq_some_iff.1 hl
          refine absurd ?_ hd.1
          rw [show (k, v).1 = aDisplay from e, e']
          exact List.mem_map.2 ⟨_, List.mem_append_right _ List.mem_cons_self, rfl⟩
      rw [hb]
      simp only
      rw [ih hd.2 (by intro w hw; rw [hnone] at hw; cases hw), hnone, Option.bind_some, hb]
      rfl
    · rw [if_neg e] at h
      rw [if_neg e, if_neg e]
      exact ih hd.2 h hf

theorem slot_tags (s : Slot) : s.tag ∉ [tLeft, tCenter, tRight, pName, hName] := by cases s <;> decide +kernel

theorem readHF_said (s : Slot) (as : List (Str × Str)) (c : List El) (h : HFFine s.tag as c) (r : List Event) :
    readHF s.tag as (evsOf c ++ .end s.tag :: r) = .ok (hfSaid s.tag as c, r) := by
  unfold readHF
  rw [hfAttrs_said as h.once h.display]
  simp only
  have hc := chain_foldl (tag := s.tag) (f := hfChild) hfStep (reachIn (hfNames s.tag) c) (fun x hx a =>
    hfPart_pass s.tag x (h.parts x hx) (reachIn_names _ c x hx) (slot_tags s) a)
    { hf := { HeaderFooter.new with
        display := ((Codec.attrText as "style:display").bind parseBool).getD HeaderFooter.new.display } }
  rw [(El.passReachIn List.mem_cons_self (hfChild_none s.tag) c _ _ hc).finish r]
  simp only [Except.map]
  rw [(hfSteps _ _).1, (hfSteps _ _).2]
  rfl

/-! ## Master pages -/

theorem slotOf_iff (n : Str) (s : Slot) : slotOf n = some s ↔ n = s.tag := by
  have hd : ∀ s t : Slot, s.tag = t.tag → s = t := by
    intro s t; cases s <;> cases t <;> first | (intro _; rfl) | (intro h; exact absurd h (by decide +kernel))
  constructor
  · intro h
    unfold slotOf at h
    iterate 6
      rcases ite_some h with ⟨e, h⟩ | h
      · injection h with h
        subst h
        exact e
    cases h
  · rintro rfl
    cases s <;> decide +kernel

/-- One part of a master page. -/
def masterStep (p : Master) : El → Master
  | .elem n as c =>
    match slotOf n with
    | some s => p.change s fun _ => hfSaid n as c
    | none => p
  | _ => p

theorem masterChild_none (p : Master) (n : Str) (as : List (Str × Str)) (et : Bool) (es : List Event)
    (h : n ∉ masterNames) : masterChild p n as et es = .ok none := by
  unfold masterChild
  cases hs : slotOf n with
  | none => rfl
  | some s =>
    exfalso
    refine h (List.mem_cons_of_mem _ (List.mem_map.2 ⟨s, ?_, ((slotOf_iff n s).1 hs).symm⟩))
    cases s <;> decide

theorem masterPart_pass (x : El) (h : ∀ n bs d, x = .elem n bs d → n ≠ tMaster ∧ HFFine n bs d)
    (hn : ∃ n ∈ masterNames, x.name? = some n) (p : Master) : Passes tMaster masterChild x.events p (masterStep p x) := by
  obtain ⟨n, hn, hx⟩ := hn
  cases x with
  | text s => cases hx
  | ref s => cases hx
  | void n' as =>
    show Passes tMaster masterChild _ p p
    cases hs : slotOf n' with
    | none => exact Passes.skip fun r => by unfold masterChild; rw [hs]
    | some s => exact Passes.void fun r => by unfold masterChild; rw [hs]; rfl
  | elem n' as c =>
    obtain rfl : n' = n := Option.some.inj hx
    obtain ⟨h1, h2⟩ := h n' as c rfl
    rcases List.mem_cons.1 hn with e | hn
    · exact absurd e h1
    · obtain ⟨s, -, rfl⟩ := List.mem_map.1 hn
      apply Passes.elem
      intro r
      unfold masterChild masterStep
      simp only [(slotOf_iff _ s).2 rfl, Bool.false_eq_true, if_false]
      rw [readHF_said s as c h2]
      rfl

theorem masterSteps (xs : List El) (p : Master) :
    xs.foldl masterStep p = { p with slot := fun s => (xs.filterMap (slotOfEl s)).getLast?.getD (p.slot s) } := by
  have hs : ∀ s, (xs.foldl masterStep p).slot s = (xs.filterMap (slotOfEl s)).getLast?.getD (p.slot s) := by
    intro s
    refine foldl_opt (fun q : Master => q.slot s) masterStep (slotOfEl s) ?_ xs p
    intro q x
    cases x with
    | elem n as c =>
      unfold masterStep slotOfEl
      simp only
      cases ht : slotOf n with
      | none =>
        rw [if_neg (fun e => by rw [(slotOf_iff n s).2 e] at ht; cases ht)]
        rfl
      | some t =>
        have ht' := (slotOf_iff n t).1 ht
        by_cases e : n = s.tag
        · have : s = t := by
            have := (slotOf_iff n s).2 e
            rw [ht] at this
            exact (Option.some.inj this).symm
          subst this
          rw [if_pos e]
          simp [Master.change]
        · rw [if_neg e]
          simp only [Master.change]
          rw [if_neg (fun g => e (by rw [g]; exact ht'))]
          rfl
    | _ => rfl
  have hk := foldl_opt (fun q : Master => (q.display, q.page, q.next)) masterStep (fun _ => none) (by
    intro q x
    cases x with
    | elem n as c =>
      unfold masterStep
      simp only
      cases slotOf n <;> rfl
    | _ => rfl) xs p
  rw [show xs.filterMap (fun _ => (none : Option (Str × Option Str × Option Str))) = [] by induction xs <;> simp] at hk
  simp only [List.getLast?_nil, Option.getD_none, Prod.mk.injEq] at hk
  have hs := funext hs
  generalize xs.foldl masterStep p = q at hs hk ⊢
  obtain ⟨q1, q2, q3, q4⟩ := q
  simp only at hs hk
  rw [hs, hk.1, hk.2.1, hk.2.2]

theorem mKey_apart : aName ≠ aLayout ∧ aName ≠ aDisplayName ∧ aName ≠ aNext ∧ aLayout ≠ aDisplayName ∧ aLayout ≠ aNext
    ∧ aDisplayName ≠ aNext := by decide +kernel

theorem masterAttrs_said (as : List (Str × Str)) (h : AttrsFine as) : ∀ x : Str × Master,
    masterAttrs x as = .ok ((attrOf as aName).getD x.1,
      { x.2 with display := (attrOf as aDisplayName).getD x.2.display, page := (attrOf as aLayout).or x.2.page
                 next := (attrOf as aNext).or x.2.next }) := by
  obtain ⟨hd, hp⟩ := h
  induction as with
  | nil => intro x; rfl
  | cons kv as ih =>
    obtain ⟨k, v⟩ := kv
    intro x
    rw [List.map_cons, List.nodup_cons] at hd
    have hp' : Escaped as := by
      unfold Escaped at hp ⊢
      rw [unescapeAttrs] at hp
      cases hu : unescapeAttrs as with
      | none => rw [hu] at hp; cases hv : unescape v <;> rw [hv] at hp <;> cases hp
      | some y => rfl
    obtain ⟨w, hw⟩ : ∃ w, unescape v = some w := by
      unfold Escaped at hp
      rw [unescapeAttrs] at hp
      cases hv : unescape v with
      | none => rw [hv] at hp; cases hu : unescapeAttrs as <;> rw [hu] at hp <;> cases hp
      | some w => exact ⟨w, rfl⟩
    have ih := ih hd.2 hp'
    have ha := mKey_apart
    have hno : ∀ t, k = t → attrOf as t = none := fun t e => attrOf_absent as t (by rw [← e]; exact hd.1)
    rw [masterAttrs, attrOf_cons, attrOf_cons, attrOf_cons, attrOf_cons, hw]
    unfold mKey
    by_cases h1 : k = aName
    · rw [if_pos h1, if_pos h1.symm, if_neg (by rw [h1]; exact Ne.symm ha.2.1), if_neg (by rw [h1]; exact Ne.symm ha.1),
        if_neg (by rw [h1]; exact Ne.symm ha.2.2.1)]
      simp only
      rw [ih, hno _ h1]
      rfl
    rw [if_neg h1, if_neg (Ne.symm h1)]
    by_cases h2 : k = aLayout
    · rw [if_pos h2, if_neg (by rw [h2]; exact Ne.symm ha.2.2.2.1), if_pos h2.symm,
        if_neg (by rw [h2]; exact Ne.symm ha.2.2.2.2.1)]
      simp only
      rw [ih, hno _ h2]
      rfl
    rw [if_neg h2, if_neg (Ne.symm h2)]
    by_cases h3 : k = aDisplayName
    · rw [if_pos h3, if_pos h3.symm, if_neg (by rw [h3]; exact Ne.symm ha.2.2.2.2.2)]
      simp only
      rw [ih, hno _ h3]
      rfl
    rw [if_neg h3, if_neg (Ne.symm h3)]
    by_cases h4 : k = aNext
    · rw [if_pos h4, if_pos h4.symm]
      simp only
      rw [ih, hno _ h4]
      rfl
    rw [if_neg h4, if_neg (Ne.symm h4)]
    exact ih x

theorem readMaster_said (as : List (Str × Str)) (c : List El) (h : MasterFine as c) (r : List Event) :
    readMaster as false (evsOf c ++ .end tMaster :: r) = .ok (masterSaid as c, r) := by
  unfold readMaster
  rw [masterAttrs_said as h.attrs]
  simp only [Bool.false_eq_true, if_false]
  have hc := chain_foldl (tag := tMaster) (f := masterChild) masterStep (reachIn masterNames c) (fun x hx a =>
    masterPart_pass x (fun n bs d e => h.slots n bs d (by rw [← e]; exact hx)) (reachIn_names _ c x hx) a)
    { display := (attrOf as aDisplayName).getD [], page := (attrOf as aLayout).or none, next := (attrOf as aNext).or none }
  rw [show ({ ({} : Master) with display := (attrOf as aDisplayName).getD ({} : Master).display
                                 page := (attrOf as aLayout).or ({} : Master).page
                                 next := (attrOf as aNext).or ({} : Master).next } : Master)
    = { display := (attrOf as aDisplayName).getD [], page := (attrOf as aLayout).or none, next := (attrOf as aNext).or none }
    from rfl]
  rw [(El.passReachIn List.mem_cons_self masterChild_none c _ _ hc).finish r]
  simp only [Except.map]
  rw [masterSteps]
  unfold masterSaid
  simp only [Option.or_none]

/-! ## The section -/

theorem mastersChild_none (b : Stores Master) (n : Str) (as : List (Str × Str)) (et : Bool) (es : List Event)
    (h : n ∉ mastersNames) : mastersChild b n as et es = .ok none := by
  simp only [mastersNames, List.mem_cons, List.not_mem_nil, or_false, not_or] at h
  unfold mastersChild
  rw [if_neg h.2]

theorem masters_chain (xs : List El) (hn : ∀ x ∈ xs, ∃ n ∈ mastersNames, x.name? = some n)
    (h : ∀ x ∈ xs, match x with
      | .elem n as d => n ≠ tMasters ∧ MasterFine as d
      | .void n _ => n ≠ tMaster
      | _ => True) : ∀ b b' : Stores Master,
    addsAll b ((xs.filterMap masterOfEl).map fun p => (.masterPage, p)) = .ok b' → Chain tMasters mastersChild b xs b' := by
  induction xs with
  | nil => intro b b' hb; cases hb; exact rfl
  | cons x xs ih =>
    intro b b' hb
    have ih := ih (fun y hy => hn y (List.mem_cons_of_mem _ hy)) (fun y hy => h y (List.mem_cons_of_mem _ hy))
    have hx := h x List.mem_cons_self
    obtain ⟨n, hm, hnx⟩ := hn x List.mem_cons_self
    cases x with
    | text s => cases hnx
    | ref s => cases hnx
    | void n' as =>
      have hx : n' ≠ tMaster := hx
      exact ⟨b, Passes.skip fun r => by unfold mastersChild; rw [if_neg hx], ih b b' hb⟩
    | elem n' as d =>
      have hx : n' ≠ tMasters ∧ MasterFine as d := hx
      obtain rfl : n' = n := Option.some.inj hnx
      simp only [mastersNames, List.mem_cons, List.not_mem_nil, or_false] at hm
      rcases hm with e | rfl
      · exact absurd e hx.1
      have hsome : masterOfEl (.elem tMaster as d) = some (masterSaid as d) := by
        unfold masterOfEl; simp only; rw [if_pos trivial]
      rw [List.filterMap_cons_some hsome, List.map_cons, addsAll] at hb
      simp only at hb
      cases ha : b.add .masterPage (masterSaid as d) with
      | error e => rw [ha] at hb; cases hb
      | ok p =>
        obtain ⟨b1, n1⟩ := p
        rw [ha] at hb
        refine ⟨b1, Passes.elem fun r => ?_, ih b1 b' hb⟩
        unfold mastersChild
        rw [if_pos rfl, readMaster_said as d hx.2]
        simp only
        unfold addMaster
        rw [ha]
        rfl

theorem section_read (c : List El) (h : MastersFine c) (b b' : Stores Master)
    (hb : addsAll b ((mastersSaid c).map fun p => (.masterPage, p)) = .ok b') (r : List Event) :
    readMasters b (evsOf c ++ .end tMasters :: r) = .ok (b', r) := by
  unfold readMasters
  exact (El.passReachIn List.mem_cons_self mastersChild_none c _ _
    (masters_chain _ (reachIn_names _ c) h b b' hb)).finish r

/-- **What is found of these master pages**: of those with the same name the last one, as it is defined; and nothing
that is not defined. -/
structure MastersFound (b : Stores Master) (l : List (Style Master)) : Prop where
  last : ∀ a x d, l = a ++ x :: d → x.name ≠ [] → (∀ y ∈ d, y.name ≠ x.name) → b.get? .masterPage x.name = some x
  only : ∀ n x, b.get? .masterPage n = some x → ∃ y ∈ l, x = ⟨n, y.body⟩ ∧ (y.name ≠ [] → y.name = n)

theorem masters_found (l : List (Style Master)) (h : l.length < 4294967296) :
    ∃ b, addsAll {} (l.map fun p => (Kind.masterPage, p)) = .ok b ∧ MastersFound b l := by
  obtain ⟨b, hb⟩ := addsAll_ok (l.map fun p => (Kind.masterPage, p)) (by rw [List.length_map]; exact h)
  refine ⟨b, hb, ?_, ?_⟩
  · rintro a x d rfl hn hu
    rw [List.map_append, List.map_cons] at hb
    refine addsAll_last _ _ .masterPage x hn ?_ _ _ hb
    intro y hy
    obtain ⟨z, hz, he⟩ := List.mem_map.1 hy
    cases he
    exact hu y hz
  · intro n x hx
    rcases addsAll_source _ _ _ hb .masterPage n x hx with h | ⟨y, h1, h2⟩
    · rw [Style.empty_get] at h; cases h
    · obtain ⟨z, hz, he⟩ := List.mem_map.1 h1
      cases he
      exact ⟨y, hz, h2⟩

/-- **C112 (partial)**: the master pages of a file of another program are found as the file defines them, with the
headers and footers of each, wherever they are in the section. Missing: master pages that are empty tags, for which it
is false (`C112_empty_counterexample`). -/
theorem C112_masters_partial (c : List El) (h : MastersFine c) (hl : (mastersSaid c).length < 4294967296) :
    ∃ b, (∀ r, readMasters {} (evsOf c ++ .end tMasters :: r) = .ok (b, r)) ∧ MastersFound b (mastersSaid c) := by
  obtain ⟨b, h1, h2⟩ := masters_found (mastersSaid c) hl
  exact ⟨b, fun r => section_read c h _ _ h1 r, h2⟩

/-! ## Master pages that are empty tags -/

/-- Neither a master page nor a header or footer begins or ends here. -/
def Quiet : Event → Prop
  | .start n _ => n ∉ masterNames
  | .end n => n ≠ tMaster
  | _ => True

theorem quiet_loop (p : Master) (es : List Event) (h : ∀ ev ∈ es, Quiet ev) : ∀ k, es.length < k →
    looseLoop tMaster masterChild k p es = .ok (p, []) := by
  induction es with
  | nil =>
    intro k hk
    obtain ⟨k, rfl⟩ : ∃ j, k = j + 1 := ⟨k - 1, by simp at hk; omega⟩
    rfl
  | cons ev es ih =>
    intro k hk
    rw [List.length_cons] at hk
    obtain ⟨k, rfl⟩ : ∃ j, k = j + 1 := ⟨k - 1, by omega⟩
    have ih := ih (fun x hx => h x (List.mem_cons_of_mem _ hx)) k (by omega)
    have hq := h ev List.mem_cons_self
    cases ev with
    | text s => exact ih
    | ref s => exact ih
    | «end» n => rw [looseLoop, if_neg hq]; exact ih
    | start n as => rw [looseLoop, masterChild_none _ _ _ _ _ hq]; exact ih
    | empty n as =>
      rw [looseLoop]
      unfold masterChild
      cases slotOf n <;> exact ih

/-- **C112** is false for a master page that is an empty tag: everything behind it is lost, not only the master pages
behind it in its section, but the rest of the file. -/
theorem C112_empty_counterexample (as : List (Str × Str)) (h : AttrsFine as) (rest : List Event)
    (hq : ∀ ev ∈ rest, Quiet ev) :
    ∃ b, readMasters {} (.empty tMaster as :: .end tMasters :: rest) = .ok (b, [])
      ∧ ∀ n x, b.get? .masterPage n = some x → x.body = (masterSaid as []).body := by
  obtain ⟨b, h1, h2⟩ := masters_found [masterSaid as []] (by rw [List.length_singleton]; decide)
  rw [List.map_cons, List.map_nil, addsAll] at h1
  simp only at h1
  cases ha : ({} : Stores Master).add .masterPage (masterSaid as []) with
  | error e => rw [ha] at h1; cases h1
  | ok p =>
    obtain ⟨b1, n1⟩ := p
    rw [ha] at h1
    cases h1
    refine ⟨b, ?_, ?_⟩
    · have hr : readMaster as true (.end tMasters :: rest) = .ok (masterSaid as [], []) := by
        unfold readMaster
        rw [masterAttrs_said as h]
        simp only [if_true]
        rw [quiet_loop _ _ (by
          intro ev hev
          rcases List.mem_cons.1 hev with rfl | hev
          · exact (show tMasters ≠ tMaster by decide +kernel)
          · exact hq ev hev) _ (by omega)]
        simp only [Except.map]
        unfold masterSaid
        simp only [Option.or_none, reachIn, List.filterMap_nil, List.getLast?_nil, Option.getD_none]
      unfold readMasters
      rw [List.length_cons, subLoop]
      unfold mastersChild
      rw [if_pos rfl, hr]
      simp only
      unfold addMaster
      rw [ha]
      rfl
    · intro n x hx
      obtain ⟨y, hy, he, -⟩ := h2.only n x hx
      rw [List.mem_singleton] at hy
      subst hy
      rw [he]

/-! ## A section as other programs write it -/

def t (s : String) : Str := s.toList

def officeHeader : List El :=
  [.elem tCenter [] [.text (t " "), .elem pName [] [.elem (t "text:sheet-name") [] [.text (t "???")]]]]

def officeFooter : List El :=
  [.elem (t "text:section") [] [.elem pName [] [.text (t "Page "), .ref (t "amp"), .text (t " more")]],
   .elem hName [] [.text (t "of "), .void (t "text:page-count") []]]

def defaultAttrs : List (Str × Str) := [(aLayout, t "Mpm1"), (aName, t "Default")]

def officeDefault : List El :=
  [.elem (Slot.header).tag [] officeHeader, .void (Slot.headerLeft).tag [(aDisplay, t "false")],
   .elem (Slot.footer).tag [(aDisplay, t "false")] officeFooter]

def reportAttrs : List (Str × Str) :=
  [(aName, t "Report"), (aDisplayName, t "A &lt;report&gt;"), (aNext, t "Default")]

/-- Two master pages, with a region, a heading with a field, and a paragraph in an element that is not known. -/
def officeMasters : List El :=
  [.text (t "\n"), .elem tMaster defaultAttrs officeDefault,
   .elem (t "loext:group") [] [.elem tMaster reportAttrs []]]

theorem officeMasters_reach :
    reachIn mastersNames officeMasters = [.elem tMaster defaultAttrs officeDefault, .elem tMaster reportAttrs []] := rfl

theorem officeHeader_fine : HFFine (Slot.header).tag [] officeHeader := by
  refine ⟨List.nodup_nil, (by intro v hv; cases hv), ?_⟩
  rw [show reachIn (hfNames (Slot.header).tag) officeHeader = officeHeader from rfl]
  intro x hx
  rw [officeHeader, List.mem_singleton] at hx
  subst hx
  refine ⟨by decide +kernel, ⟨rfl, ⟨trivial, ⟨rfl, ⟨rfl, trivial, trivial⟩, trivial⟩, trivial⟩, ?_⟩, ?_⟩
  · exact ⟨trivial, ⟨by decide +kernel, ⟨by decide +kernel, trivial, trivial⟩, trivial⟩, trivial⟩
  · intro _ x hx
    rw [treesOf, treesOf, treesOf] at hx
    rcases List.mem_cons.1 hx with rfl | hx
    · show ∀ c ∈ t " ", isWhite c = true
      decide +kernel
    · rw [List.mem_singleton] at hx
      subst hx
      trivial

theorem officeFooter_fine : HFFine (Slot.footer).tag [(aDisplay, t "false")] officeFooter := by
  refine ⟨by decide, ?_, ?_⟩
  · intro v hv
    have : Codec.attrText [(aDisplay, t "false")] "style:display" = some (t "false") := by decide +kernel
    rw [this] at hv
    cases hv
    decide +kernel
  · rw [show reachIn (hfNames (Slot.footer).tag) officeFooter
      = [.elem pName [] [.text (t "Page "), .ref (t "amp"), .text (t " more")],
         .elem hName [] [.text (t "of "), .void (t "text:page-count") []]] from rfl]
    intro x hx
    rcases List.mem_cons.1 hx with rfl | hx
    · exact ⟨by decide +kernel, ⟨rfl, ⟨trivial, trivial, trivial, trivial⟩, ⟨trivial, trivial, trivial, trivial⟩⟩,
        fun e => absurd e (by decide +kernel)⟩
    · rw [List.mem_singleton] at hx
      subst hx
      exact ⟨by decide +kernel, ⟨rfl, ⟨trivial, rfl, trivial⟩, ⟨trivial, trivial, trivial⟩⟩,
        fun e => absurd e (by decide +kernel)⟩

theorem officeMasters_fine : MastersFine officeMasters := by
  unfold MastersFine
  rw [officeMasters_reach]
  intro x hx
  rcases List.mem_cons.1 hx with rfl | hx
  · refine ⟨by decide +kernel, ⟨by decide +kernel, by unfold Escaped; decide +kernel⟩, ?_⟩
    rw [show reachIn masterNames officeDefault = officeDefault from rfl]
    intro n bs d hm
    rw [officeDefault] at hm
    simp only [List.mem_cons, List.not_mem_nil, or_false] at hm
    rcases hm with e | e | e
    · cases e; exact ⟨by decide +kernel, officeHeader_fine⟩
    · cases e
    · cases e; exact ⟨by decide +kernel, officeFooter_fine⟩
  · rw [List.mem_singleton] at hx
    subst hx
    exact ⟨by decide +kernel, ⟨by decide +kernel, by unfold Escaped; decide +kernel⟩, by intro n bs d hm; cases hm⟩

/-- `C112_masters_partial` says what is found of it. -/
theorem C112_meets : ∃ b q r, (∀ es, readMasters {} (evsOf officeMasters ++ .end tMasters :: es) = .ok (b, es))
    ∧ b.get? .masterPage (t "Default") = some ⟨t "Default", q⟩ ∧ q.page = some (t "Mpm1")
    ∧ q.slot .header
      = { display := true, center := [.tag pName [] [.tag (t "text:sheet-name") [] [.text (t "???")]]] }
    ∧ q.slot .headerLeft = {}
    ∧ q.slot .footer
      = { display := false
          content := [.tag pName [] [.text (t "Page & more")],
            .tag hName [] [.text (t "of "), .tag (t "text:page-count") [] []]] }
    ∧ b.get? .masterPage (t "Report") = some ⟨t "Report", r⟩ ∧ r.display = t "A <report>" ∧ r.next = some (t "Default")
    ∧ b.get? .masterPage (t "Mpm1") = none := by
  have hs : mastersSaid officeMasters = [masterSaid defaultAttrs officeDefault, masterSaid reportAttrs []] := by
    unfold mastersSaid
    rw [officeMasters_reach]
    unfold masterOfEl
    simp
  obtain ⟨b, h1, h2⟩ := C112_masters_partial officeMasters officeMasters_fine (by rw [hs]; decide +kernel)
  rw [hs] at h2
  have n1 : (masterSaid defaultAttrs officeDefault).name = t "Default" := by decide +kernel
  have n2 : (masterSaid reportAttrs []).name = t "Report" := by decide +kernel
  have g1 := h2.last [] _ _ rfl (by rw [n1]; decide +kernel) (by
    intro y hy
    rw [List.mem_singleton] at hy
    rw [hy, n1, n2]
    decide +kernel)
  have g2 := h2.last [_] _ _ rfl (by rw [n2]; decide +kernel) (by intro y hy; cases hy)
  rw [n1] at g1
  rw [n2] at g2
  refine ⟨b, (masterSaid defaultAttrs officeDefault).body, (masterSaid reportAttrs []).body, h1, ?_, ?_, ?_, ?_, ?_, ?_,
    ?_, ?_, ?_⟩
  · rw [g1, ← n1]
  · decide +kernel
  · decide +kernel
  · decide +kernel
  · decide +kernel
  · rw [g2, ← n2]
  · decide +kernel
  · decide +kernel
  · cases hx : b.get? .masterPage (t "Mpm1") with
    | none => rfl
    | some x =>
      obtain ⟨y, hy, -, he⟩ := h2.only _ _ hx
      simp only [List.mem_cons, List.not_mem_nil, or_false] at hy
      rcases hy with rfl | rfl
      · rw [n1] at he
        exact absurd (he (by decide +kernel)) (by decide +kernel)
      · rw [n2] at he
        exact absurd (he (by decide +kernel)) (by decide +kernel)

end Verif.Master
