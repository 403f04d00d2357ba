import Verif.Master.Model
import Verif.Conv.Props

/-!
# Lemmas about master pages
-/

set_option autoImplicit false

namespace Verif.Master

open Xml Xml.Spec Codec Book
open Verif.Conv (addPara node_single)

/-! ## Items -/

def regionItems (tag : Str) (l : List Node) : List Item :=
  if l = [] then [] else .start false tag [] :: (nodesItems l ++ [.end false tag])

def hfItems (h : HeaderFooter) : List Item :=
  regionItems tLeft h.left ++ regionItems tCenter h.center ++ regionItems tRight h.right ++ nodesItems h.content

def slotAtts (s : Slot) (h : HeaderFooter) : List (Bool × Str × Str) :=
  if hides s h then [(false, aDisplay, "false".toList)] else []

def slotItems (s : Slot) (h : HeaderFooter) : List Item :=
  if h.isEmpty then [.empty true s.tag (slotAtts s h), .noEnd s.tag]
  else .start true s.tag (slotAtts s h) :: (hfItems h ++ [.end true s.tag])

def masterAtts (p : Style Master) : List (Bool × Str × Str) :=
  (true, aName, p.name)
    :: ((if p.body.display = [] then [] else [(true, aDisplayName, p.body.display)])
      ++ (match p.body.page with | none => [] | some s => [(true, aLayout, s)])
      ++ (match p.body.next with | none => [] | some s => [(true, aNext, s)]))

def masterItems (p : Style Master) : List Item :=
  .start false tMaster (masterAtts p)
    :: (slots.flatMap (fun s => slotItems s (p.body.slot s)) ++ [.end false tMaster])

def mastersItems (l : List (Style Master)) : List Item :=
  .start false tMasters [] :: (l.flatMap masterItems ++ [.end false tMasters])

theorem regionItems_calls (tag : Str) (l : List Node) : (regionItems tag l).flatMap Item.calls = writeRegion tag l := by
  unfold regionItems writeRegion
  split
  · rfl
  · rw [List.flatMap_cons, List.flatMap_append, nodesItems_calls]; rfl

theorem isEmpty_iff (h : HeaderFooter) :
    h.isEmpty = true ↔ h.left = [] ∧ h.center = [] ∧ h.right = [] ∧ h.content = [] := by
  simp [HeaderFooter.isEmpty, and_assoc]

theorem regions_empty (h : HeaderFooter) (he : h.isEmpty = true) : writeRegions h = [] := by
  obtain ⟨h1, h2, h3, h4⟩ := (isEmpty_iff h).1 he
  simp [writeRegions, writeRegion, h1, h2, h3, h4, writeNodes]

theorem slotItems_calls (s : Slot) (h : HeaderFooter) : (slotItems s h).flatMap Item.calls = writeSlot s h := by
  have ha : (slotAtts s h).map attrCall = if hides s h then [.attr aDisplay "false".toList] else [] := by
    unfold slotAtts
    split <;> rfl
  unfold slotItems writeSlot
  cases he : h.isEmpty with
  | true =>
    rw [if_pos rfl, regions_empty h he, ← ha]
    rfl
  | false =>
    rw [if_neg (by simp), ← ha]
    simp only [List.flatMap_cons, List.flatMap_append, List.flatMap_nil, hfItems, regionItems_calls,
      nodesItems_calls, Item.calls, writeRegions, Bool.not_false]
    simp

theorem masterItems_calls (p : Style Master) : (masterItems p).flatMap Item.calls = writeMaster p := by
  have ha : (masterAtts p).map attrCall = .attrEsc aName p.name
    :: ((if p.body.display = [] then [] else [.attrEsc aDisplayName p.body.display])
      ++ (match p.body.page with | none => [] | some s => [.attrEsc aLayout s])
      ++ (match p.body.next with | none => [] | some s => [.attrEsc aNext s])) := by
    unfold masterAtts
    rw [List.map_cons, List.map_append, List.map_append]
    cases p.body.page <;> cases p.body.next <;> split <;> rfl
  have hs : (slots.flatMap (fun s => slotItems s (p.body.slot s))).flatMap Item.calls
      = slots.flatMap (fun s => writeSlot s (p.body.slot s)) := by
    rw [List.flatMap_assoc]
    congr 1
    funext s
    exact slotItems_calls s _
  unfold masterItems writeMaster
  rw [List.flatMap_cons, List.flatMap_append, hs, Item.calls, ha]
  cases p.body.page <;> cases p.body.next <;> simp [Item.calls]

theorem mastersItems_calls (l : List (Style Master)) : (mastersItems l).flatMap Item.calls = writeMasters l := by
  unfold mastersItems writeMasters
  rw [List.flatMap_cons, List.flatMap_append, List.flatMap_assoc]
  have : (l.flatMap fun x => (masterItems x).flatMap Item.calls) = l.flatMap writeMaster := by
    congr 1
    funext p
    exact masterItems_calls p
  rw [this]
  rfl

/-! ## What can be written -/

/-- Elements of a region: not texts, with names, and without the element that stands for the region itself. -/
def RegionOk (tag : Str) (l : List Node) : Prop :=
  ∀ x ∈ l, (∃ n as c, x = .tag n as c) ∧ NamesOk x ∧ Without tag x

/-- A paragraph or heading without another of the same kind in it. -/
def Paragraph (x : Node) : Prop := ∃ n as c, x = .tag n as c ∧ (n = pName ∨ n = hName) ∧ AllWithout n c

/-- A header or footer that can be written and read. -/
structure HFOk (lb : Bool) (h : HeaderFooter) : Prop where
  left : RegionOk tLeft h.left
  center : RegionOk tCenter h.center
  right : RegionOk tRight h.right
  content : ∀ x ∈ h.content, NamesOk x ∧ Paragraph x
  breaks : lb = false ∨ h.isEmpty = true

/-- A master page that can be written and read. -/
def MasterOk (lb : Bool) (p : Style Master) : Prop := ∀ s, HFOk lb (p.body.slot s)

theorem allNames_of (l : List Node) (h : ∀ x ∈ l, NamesOk x) : AllNamesOk l := by
  induction l with
  | nil => trivial
  | cons x l ih => exact ⟨h x List.mem_cons_self, ih fun y hy => h y (List.mem_cons_of_mem _ hy)⟩

theorem allWithout_of (tag : Str) (l : List Node) (h : ∀ x ∈ l, Without tag x) : AllWithout tag l := by
  induction l with
  | nil => trivial
  | cons x l ih => exact ⟨h x List.mem_cons_self, ih fun y hy => h y (List.mem_cons_of_mem _ hy)⟩

theorem regionItems_valid (tag : Str) (ht : Name tag) (l : List Node) (h : RegionOk tag l) :
    ∀ i ∈ regionItems tag l, i.Valid := by
  intro i hi
  unfold regionItems at hi
  split at hi
  · cases hi
  · simp only [List.mem_cons, List.mem_append, List.not_mem_nil, or_false] at hi
    rcases hi with rfl | hi | rfl
    · exact ⟨ht, by intro a ha; cases ha⟩
    · exact nodesItems_valid l (allNames_of l fun x hx => (h x hx).2.1) i hi
    · exact ht

theorem slotAtts_ok (s : Slot) (h : HeaderFooter) : AttrsOk (slotAtts s h) := by
  unfold slotAtts
  split
  · intro a ha
    rw [List.mem_singleton] at ha
    subst ha
    exact ⟨by decide, fun _ => by decide⟩
  · intro a ha; cases ha

theorem slotTag_name (s : Slot) : Name s.tag := by cases s <;> decide

theorem slotItems_valid (lb : Bool) (s : Slot) (h : HeaderFooter) (ho : HFOk lb h) : ∀ i ∈ slotItems s h, i.Valid := by
  intro i hi
  unfold slotItems at hi
  split at hi
  · simp only [List.mem_cons, List.not_mem_nil, or_false] at hi
    rcases hi with rfl | rfl
    · exact ⟨slotTag_name s, slotAtts_ok s h⟩
    · trivial
  · simp only [List.mem_cons, List.mem_append, List.not_mem_nil, or_false, hfItems] at hi
    rcases hi with rfl | ((((hi | hi) | hi) | hi) | rfl)
    · exact ⟨slotTag_name s, slotAtts_ok s h⟩
    · exact regionItems_valid _ (by decide) _ ho.left i hi
    · exact regionItems_valid _ (by decide) _ ho.center i hi
    · exact regionItems_valid _ (by decide) _ ho.right i hi
    · exact nodesItems_valid _ (allNames_of _ fun x hx => (ho.content x hx).1) i hi
    · exact slotTag_name s

theorem masterAtts_ok (p : Style Master) : AttrsOk (masterAtts p) := by
  have key : ∀ n v, Name n → Name ((true, n, v) : Bool × Str × Str).2.1
      ∧ (((true, n, v) : Bool × Str × Str).1 = false → Plain ((true, n, v) : Bool × Str × Str).2.2) :=
    fun n v h => ⟨h, by intro h; cases h⟩
  intro a ha
  unfold masterAtts at ha
  simp only [List.mem_cons, List.mem_append] at ha
  rcases ha with rfl | ((ha | ha) | ha)
  · exact key _ _ (by decide)
  · split at ha
    · cases ha
    · rw [List.mem_singleton] at ha; subst ha; exact key _ _ (by decide)
  · cases hp : p.body.page with
    | none => rw [hp] at ha; cases ha
    | some v => rw [hp] at ha; rw [List.mem_singleton] at ha; subst ha; exact key _ _ (by decide)
  · cases hp : p.body.next with
    | none => rw [hp] at ha; cases ha
    | some v => rw [hp] at ha; rw [List.mem_singleton] at ha; subst ha; exact key _ _ (by decide)

theorem masterItems_valid (lb : Bool) (p : Style Master) (h : MasterOk lb p) : ∀ i ∈ masterItems p, i.Valid := by
  intro i hi
  unfold masterItems at hi
  simp only [List.mem_cons, List.mem_append, List.not_mem_nil, or_false] at hi
  rcases hi with rfl | hi | rfl
  · exact ⟨by decide, masterAtts_ok p⟩
  · obtain ⟨s, _, hs⟩ := List.mem_flatMap.1 hi
    exact slotItems_valid lb s _ (h s) i hs
  · show Name tMaster; decide

theorem mastersItems_valid (lb : Bool) (l : List (Style Master)) (h : ∀ p ∈ l, MasterOk lb p) :
    ∀ i ∈ mastersItems l, i.Valid := by
  intro i hi
  unfold mastersItems at hi
  simp only [List.mem_cons, List.mem_append, List.not_mem_nil, or_false] at hi
  rcases hi with rfl | hi | rfl
  · exact ⟨by decide, by intro a ha; cases ha⟩
  · obtain ⟨p, hp, hi⟩ := List.mem_flatMap.1 hi
    exact masterItems_valid lb p (h p hp) i hi
  · show Name tMasters; decide

/-! ## Regions -/

theorem readXml_back (n : Str) (as : List (Str × Str)) (y : Node) (c : List Node) (hw : AllWithout n (y :: c))
    (r : List Tok) : readXml n (raws as) false (events (toks (nodesItems (y :: c)) ++ .end n :: r))
      = .ok (norm (.tag n as (y :: c)), events r) := by
  have ht : toks (nodeItems (.tag n as (y :: c))) ++ r
      = .start n (raws as) :: (toks (nodesItems (y :: c)) ++ .end n :: r) := by
    simp [nodeItems, nodesItems, toks, itemToks, escAttrs_raw, nl]
  obtain ⟨es, h1, h2⟩ := element_reads n as (y :: c) hw r
  rw [ht, events_start] at h1
  rw [← h1] at h2
  exact h2

theorem norms_tags (l : List Node) (h : ∀ x ∈ l, ∃ n as c, x = .tag n as c) : norms l = l.map norm := by
  induction l with
  | nil => rfl
  | cons x l ih =>
    obtain ⟨n, as, c, rfl⟩ := h x List.mem_cons_self
    rw [norms, List.map_cons, ih fun y hy => h y (List.mem_cons_of_mem _ hy)]

theorem intoVec_tags (l : List Node) (h : ∀ x ∈ l, ∃ n as c, x = .tag n as c) : intoVec (l.map norm) = .ok (l.map norm) := by
  induction l with
  | nil => rfl
  | cons x l ih =>
    obtain ⟨n, as, c, rfl⟩ := h x List.mem_cons_self
    rw [List.map_cons, norm, intoVec, ih fun y hy => h y (List.mem_cons_of_mem _ hy)]
    rfl

theorem region_steps (tag t : Str) (l : List Node) (hl : RegionOk t l) (h : HState) (g : List Node → HState)
    (hf : ∀ as et es, hfChild h t as et es = withRegion t as et es g) (h0 : g [] = h) :
    Steps tag hfChild (toks (regionItems t l)) h (g (l.map norm)) := by
  cases l with
  | nil =>
    rw [List.map_nil, h0]
    exact Steps.nil tag hfChild h
  | cons y c =>
    have ht : toks (regionItems t (y :: c))
        = .start t [] :: (toks (nodesItems (y :: c)) ++ .end t :: (nl false).map Tok.chr) := by
      simp [regionItems, toks, itemToks, nl, rawAttrs]
    rw [ht]
    apply Steps.elem
    intro r
    have hr := readXml_back t [] y c (allWithout_of t _ fun x hx => (hl x hx).2.2) r
    rw [hf, withRegion, show ([] : List (Str × Str)) = raws [] from rfl, hr]
    simp only
    rw [norm, kids, norms_tags _ fun x hx => (hl x hx).1, intoVec_tags _ fun x hx => (hl x hx).1]
    rfl

/-! ## The free content -/

theorem append_ok (x : Node) (hx : ∃ n as c, x = .tag n as c) (c : TextContent) :
    appendText (nodeContent x) c = .ok (addPara c x) := by
  obtain ⟨n, as, k, rfl⟩ := hx
  have hs := node_single n as k
  unfold addPara
  generalize nodeContent (.tag n as k) = y at hs
  cases y with
  | xmlVec l => exact absurd rfl (hs l)
  | empty => cases c <;> rfl
  | text t => cases c <;> rfl
  | xml f => cases c <;> rfl

theorem par_names (n : Str) (h : n = pName ∨ n = hName) : n ≠ tLeft ∧ n ≠ tCenter ∧ n ≠ tRight := by
  rcases h with rfl | rfl <;> decide

theorem par_step (tag : Str) (x : Node) (hx : Paragraph x) (hf : HeaderFooter) (c : TextContent) :
    Steps tag hfChild (toks (nodeItems x)) ⟨hf, c⟩ ⟨hf, addPara c x⟩ := by
  obtain ⟨n, as, k, rfl, hn, hw⟩ := hx
  have hne := par_names n hn
  have ha := append_ok (.tag n as k) ⟨n, as, k, rfl⟩ c
  cases k with
  | nil =>
    have ht : toks (nodeItems (.tag n as [])) = .empty n (raws as) :: (nl false).map Tok.chr := by
      simp [nodeItems, toks, itemToks, escAttrs_raw, nl]
    rw [ht]
    apply Steps.void
    intro es
    rw [show nodeContent (.tag n as []) = .text [] from rfl] at ha
    rw [hfChild, if_neg hne.1, if_neg hne.2.1, if_neg hne.2.2, if_pos hn, if_pos rfl, ha]
    rfl
  | cons y k =>
    have ht : toks (nodeItems (.tag n as (y :: k)))
        = .start n (raws as) :: (toks (nodesItems (y :: k)) ++ .end n :: (nl false).map Tok.chr) := by
      simp [nodeItems, nodesItems, toks, itemToks, escAttrs_raw, nl]
    obtain ⟨es, h1, h2⟩ := gives_content _ (y :: k) (Nat.le_refl _)
    rw [ht]
    apply Steps.elem
    intro r
    have hr := readText_reads n (raws as) as (raws_unescape as) h2
      (norms_without n _ (y :: k) (Nat.le_refl _) hw) (events r)
    rw [h1 _ (noChr_end _ _), events_end, hfChild, if_neg hne.1, if_neg hne.2.1, if_neg hne.2.2, if_pos hn,
      if_neg (by decide), hr]
    simp only
    rw [show nodeContent (.tag n as (y :: k)) = TextContent.adds n as .empty (norms (y :: k)) from rfl] at ha
    rw [ha]
    rfl

theorem content_steps (tag : Str) (l : List Node) (h : ∀ x ∈ l, Paragraph x) (hf : HeaderFooter) : ∀ c : TextContent,
    Steps tag hfChild (toks (nodesItems l)) ⟨hf, c⟩ ⟨hf, l.foldl addPara c⟩ := by
  induction l with
  | nil => intro c; exact Steps.nil _ _ _
  | cons x l ih =>
    intro c
    rw [toks_nodes, List.foldl_cons]
    exact (par_step tag x (h x List.mem_cons_self) hf c).append (ih (fun y hy => h y (List.mem_cons_of_mem _ hy)) _)

/-- What is read of the free content. -/
def contentBack (l : List Node) : List Node := contentNodes (l.foldl addPara .empty)

/-! ## Headers and footers -/

/-- A header or footer as it is read. -/
def hfBack (h : HeaderFooter) : HeaderFooter :=
  { display := h.display, left := h.left.map norm, center := h.center.map norm, right := h.right.map norm
    content := contentBack h.content }

theorem hides_of (s : Slot) (h : HeaderFooter) (he : h.isEmpty = false) : hides s h = !h.display := by
  cases s <;> simp [hides, he]

theorem hfAttrs_back (s : Slot) (h : HeaderFooter) (he : h.isEmpty = false) :
    hfAttrs HeaderFooter.new (rawAttrs (slotAtts s h)) = .ok { display := h.display } := by
  unfold slotAtts
  rw [hides_of s h he]
  cases h.display with
  | true => rfl
  | false =>
    simp only [Bool.not_false, if_true]
    decide

theorem readHF_back (s : Slot) (h : HeaderFooter) (he : h.isEmpty = false) (ho : HFOk false h) (r : List Tok) :
    readHF s.tag (rawAttrs (slotAtts s h)) (events (toks (hfItems h) ++ .end s.tag :: r))
      = .ok (hfBack h, events r) := by
  unfold readHF
  rw [hfAttrs_back s h he]
  have s1 := region_steps s.tag tLeft h.left ho.left { hf := { display := h.display } }
    (fun l => { hf := { display := h.display, left := l } })
    (fun as et es => by rw [hfChild, if_pos rfl]) rfl
  have s2 := region_steps s.tag tCenter h.center ho.center { hf := { display := h.display, left := h.left.map norm } }
    (fun l => { hf := { display := h.display, left := h.left.map norm, center := l } })
    (fun as et es => by rw [hfChild, if_neg (by decide), if_pos rfl]) rfl
  have s3 := region_steps s.tag tRight h.right ho.right
    { hf := { display := h.display, left := h.left.map norm, center := h.center.map norm } }
    (fun l => { hf := { display := h.display, left := h.left.map norm, center := h.center.map norm, right := l } })
    (fun as et es => by rw [hfChild, if_neg (by decide), if_neg (by decide), if_pos rfl]) rfl
  have s4 := content_steps s.tag h.content (fun x hx => (ho.content x hx).2)
    { display := h.display, left := h.left.map norm, center := h.center.map norm, right := h.right.map norm } .empty
  have hall := ((s1.append s2).append s3).append s4
  have ht : toks (hfItems h) = toks (regionItems tLeft h.left) ++ toks (regionItems tCenter h.center)
      ++ toks (regionItems tRight h.right) ++ toks (nodesItems h.content) := by
    unfold hfItems
    rw [toks_append, toks_append, toks_append]
  rw [← ht] at hall
  simp only
  rw [Steps.finish hall r]
  rfl

/-- One header or footer of a master page as it is read: an empty one is not read. -/
def slotBack (old h : HeaderFooter) : HeaderFooter := if h.isEmpty then old else hfBack h

theorem slotOf_tag (s : Slot) : slotOf s.tag = some s := by cases s <;> decide

theorem change_same (p : Master) (s : Slot) : (p.change s fun _ => p.slot s) = p := by
  obtain ⟨d, pg, nx, sl⟩ := p
  simp only [Master.change, Master.mk.injEq, true_and]
  funext t
  split
  · rename_i h; rw [h]
  · rfl

theorem slot_steps (lb : Bool) (s : Slot) (h : HeaderFooter) (ho : HFOk lb h) (p : Master) :
    Steps tMaster masterChild ((slotItems s h).flatMap (itemToks lb)) p (p.change s fun _ => slotBack (p.slot s) h) := by
  unfold slotItems slotBack
  cases he : h.isEmpty with
  | true =>
    rw [if_pos rfl, if_pos rfl, change_same]
    have ht : ([Item.empty true s.tag (slotAtts s h), .noEnd s.tag]).flatMap (itemToks lb)
        = .empty s.tag (rawAttrs (slotAtts s h)) :: (nl lb).map Tok.chr := by
      simp [itemToks]
    rw [ht]
    apply Steps.void
    intro es
    rw [masterChild, slotOf_tag]
    rfl
  | false =>
    have hlb : lb = false := ho.breaks.resolve_right (by rw [he]; simp)
    subst hlb
    rw [if_neg (by simp), if_neg (by simp)]
    have ht : (Item.start true s.tag (slotAtts s h) :: (hfItems h ++ [.end true s.tag])).flatMap (itemToks false)
        = .start s.tag (rawAttrs (slotAtts s h)) :: (toks (hfItems h) ++ .end s.tag :: (nl false).map Tok.chr) := by
      rw [List.flatMap_cons, List.flatMap_append]
      simp [itemToks, toks]
    rw [ht]
    apply Steps.elem
    intro r
    rw [masterChild, slotOf_tag]
    simp only
    rw [if_neg (by decide), readHF_back s h he ho r]
    rfl

/-! ## Master pages -/

/-- A master page as it is read. -/
def masterBack (p : Master) : Master := { p with slot := fun s => slotBack {} (p.slot s) }

theorem slots_steps (lb : Bool) (q : Slot → HeaderFooter) (hq : ∀ s, HFOk lb (q s)) (l : List Slot) : ∀ p : Master,
    Steps tMaster masterChild ((l.flatMap fun s => slotItems s (q s)).flatMap (itemToks lb)) p
      (l.foldl (fun p s => p.change s fun _ => slotBack (p.slot s) (q s)) p) := by
  induction l with
  | nil => intro p; exact Steps.nil _ _ _
  | cons s l ih =>
    intro p
    rw [List.flatMap_cons, List.flatMap_append, List.foldl_cons]
    exact (slot_steps lb s (q s) (hq s) p).append (ih _)

theorem slots_all (d : Str) (pg nx : Option Str) (q : Slot → HeaderFooter) :
    slots.foldl (fun p s => p.change s fun _ => slotBack (p.slot s) (q s))
      ({ display := d, page := pg, next := nx } : Master)
      = { display := d, page := pg, next := nx, slot := fun s => slotBack {} (q s) } := by
  simp only [slots, List.foldl_cons, List.foldl_nil, Master.change, Master.mk.injEq, true_and]
  funext t
  cases t <;> simp

theorem mKey_name : mKey aName = some .name := by decide
theorem mKey_layout : mKey aLayout = some .layout := by decide
theorem mKey_display : mKey aDisplayName = some .display := by decide
theorem mKey_next : mKey aNext = some .next := by decide

theorem masterAttrs_back (p : Style Master) : masterAttrs ([], {}) (rawAttrs (masterAtts p))
    = .ok (p.name, { display := p.body.display, page := p.body.page, next := p.body.next }) := by
  unfold masterAtts
  obtain ⟨n, ⟨d, pg, nx, sl⟩⟩ := p
  simp only
  cases pg <;> cases nx <;> by_cases hd : d = [] <;>
    simp [hd, rawAttrs, masterAttrs, mKey_name, mKey_layout, mKey_display, mKey_next, rawVal, unescape_escape]

theorem readMaster_back (lb : Bool) (p : Style Master) (h : MasterOk lb p) (r : List Tok) :
    readMaster (rawAttrs (masterAtts p)) false
        (events ((slots.flatMap fun s => slotItems s (p.body.slot s)).flatMap (itemToks lb) ++ .end tMaster :: r))
      = .ok (⟨p.name, masterBack p.body⟩, events r) := by
  unfold readMaster
  rw [masterAttrs_back]
  simp only [Bool.false_eq_true, if_false]
  rw [Steps.finish (slots_steps lb p.body.slot h slots _) r, slots_all]
  rfl

/-- All master pages are stored one after the other. -/
def storeAll : List (Style Master) → Stores Master → Except Fault (Stores Master)
  | [], b => .ok b
  | p :: l, b =>
    match addMaster b p with
    | .error e => .error e
    | .ok b => storeAll l b

theorem masters_steps (lb : Bool) (l : List (Style Master)) (h : ∀ p ∈ l, MasterOk lb p) : ∀ b b' : Stores Master,
    storeAll (l.map fun p => ⟨p.name, masterBack p.body⟩) b = .ok b' →
    Steps tMasters mastersChild ((l.flatMap masterItems).flatMap (itemToks lb)) b b' := by
  induction l with
  | nil => intro b b' hb; cases hb; exact Steps.nil _ _ _
  | cons p l ih =>
    intro b b' hb
    rw [List.map_cons, storeAll] at hb
    cases h1 : addMaster b ⟨p.name, masterBack p.body⟩ with
    | error e => rw [h1] at hb; cases hb
    | ok b1 =>
      rw [h1] at hb
      rw [List.flatMap_cons, List.flatMap_append]
      refine Steps.append ?_ (ih (fun q hq => h q (List.mem_cons_of_mem _ hq)) b1 b' hb)
      have ht : (masterItems p).flatMap (itemToks lb) = .start tMaster (rawAttrs (masterAtts p))
          :: ((slots.flatMap fun s => slotItems s (p.body.slot s)).flatMap (itemToks lb)
            ++ .end tMaster :: (nl lb).map Tok.chr) := by
        unfold masterItems
        rw [List.flatMap_cons, List.flatMap_append]
        simp [itemToks]
      rw [ht]
      apply Steps.elem
      intro r
      rw [mastersChild, if_pos rfl, readMaster_back lb p (h p List.mem_cons_self)]
      simp only
      rw [h1]
      rfl

/-- The section in its place. -/
theorem masters_reads (lb : Bool) (l : List (Style Master)) (h : ∀ p ∈ l, MasterOk lb p) (b b' : Stores Master)
    (hb : storeAll (l.map fun p => ⟨p.name, masterBack p.body⟩) b = .ok b') (r : List Tok) :
    ∃ es, events ((mastersItems l).flatMap (itemToks lb) ++ r) = .start tMasters [] :: es
      ∧ readMasters b es = .ok (b', events ((nl lb).map Tok.chr ++ r)) := by
  have ht : (mastersItems l).flatMap (itemToks lb) ++ r = .start tMasters []
      :: ((l.flatMap masterItems).flatMap (itemToks lb) ++ .end tMasters :: ((nl lb).map Tok.chr ++ r)) := by
    unfold mastersItems
    rw [List.flatMap_cons, List.flatMap_append]
    simp [itemToks, rawAttrs]
  rw [ht]
  refine ⟨_, rfl, ?_⟩
  exact Steps.finish (masters_steps lb l h b b' hb) _

end Verif.Master
