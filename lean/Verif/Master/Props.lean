import Verif.Master.Spec
import Verif.Book.NameProps

/-!
# Master pages: the properties
-/

set_option autoImplicit false

namespace Verif.Master

open Xml Xml.Spec Codec Book
open Verif.Conv (addPara node_single vanishes norms_nil)

/-! ## The free content -/

theorem contentNodes_append (c : TextContent) (x : Node) (hx : ∃ n as k, x = .tag n as k) :
    contentNodes (addPara c x) = contentNodes c ++ contentNodes (nodeContent x) := by
  have ha := append_ok x hx c
  obtain ⟨n, as, k, rfl⟩ := hx
  have hs := node_single n as k
  generalize addPara c (.tag n as k) = d at ha
  generalize nodeContent (.tag n as k) = y at hs ha
  cases y with
  | xmlVec l => exact absurd rfl (hs l)
  | empty => cases c <;> cases ha <;> simp [contentNodes]
  | text t => cases c <;> cases ha <;> simp [contentNodes]
  | xml f => cases c <;> cases ha <;> simp [contentNodes]

theorem contentNodes_fold (l : List Node) (h : ∀ x ∈ l, ∃ n as k, x = .tag n as k) : ∀ c : TextContent,
    contentNodes (l.foldl addPara c) = contentNodes c ++ l.flatMap fun x => contentNodes (nodeContent x) := by
  induction l with
  | nil => intro c; simp
  | cons x l ih =>
    intro c
    rw [List.foldl_cons, ih fun y hy => h y (List.mem_cons_of_mem _ hy), contentNodes_append c x (h x List.mem_cons_self),
      List.flatMap_cons, List.append_assoc]

theorem textsOf_addChar_none (c : Char) (g : List Node) (h : textsOf g = none) : textsOf (addChar c g) = none := by
  unfold addChar
  split
  · simp [textsOf, h]
  · split
    · rename_i d s g'
      split
      · simp [textsOf] at h ⊢; exact h
      · simp [textsOf] at h ⊢; exact h
    · simp [textsOf] at h ⊢; exact h
    · simp [textsOf, h]

theorem textsOf_addText_none (s : Str) (g : List Node) (h : textsOf g = none) : textsOf (addText s g) = none := by
  induction s with
  | nil => exact h
  | cons c s ih => exact textsOf_addChar_none c _ ih

theorem textsOf_addText_some (s : Str) (g : List Node) (t : Str) (h : textsOf g = some t) :
    textsOf (addText s g) = some (s ++ t) := by
  induction s with
  | nil => exact h
  | cons c s ih => exact textsOf_addChar c _ _ ih

theorem textsOf_norms (c : List Node) : textsOf (norms c) = textsOf c := by
  induction c with
  | nil => simp [norms]
  | cons x c ih =>
    cases x with
    | tag n as k => simp [norms, norm, textsOf]
    | text s =>
      rw [norms, textsOf]
      cases h : textsOf c with
      | none => rw [h] at ih; exact textsOf_addText_none s _ ih
      | some t => rw [h] at ih; exact textsOf_addText_some s _ t ih

/-- Reading content with an element in it gives the paragraph. -/
theorem adds_tagged (n : Str) (as : List (Str × Str)) (g : List Node) : ∀ c : TextContent,
    (∀ l, c ≠ .xmlVec l) → (∀ f, c ≠ .xml f) → textsOf g = none →
    ∃ k, TextContent.adds n as c g = .xml ⟨n, as, k⟩ ∧ treesSay k = treesSay (match c with | .text t => .text t :: g | _ => g) := by
  induction g with
  | nil => intro c _ _ h; cases h
  | cons x g ih =>
    intro c h1 h2 h
    cases x with
    | text s =>
      have hg : textsOf g = none := by
        cases he : textsOf g with
        | none => rfl
        | some t => rw [textsOf, he] at h; cases h
      cases c with
      | xmlVec l => exact absurd rfl (h1 l)
      | xml f => exact absurd rfl (h2 f)
      | empty =>
        obtain ⟨k, hk, hs⟩ := ih (.text s) (by simp) (by simp) hg
        exact ⟨k, hk, by rw [hs]⟩
      | text t =>
        obtain ⟨k, hk, hs⟩ := ih (.text (t ++ s)) (by simp) (by simp) hg
        exact ⟨k, hk, by rw [hs]; simp [treesSay, treeSays]⟩
    | tag m as' k' =>
      cases c with
      | xmlVec l => exact absurd rfl (h1 l)
      | xml f => exact absurd rfl (h2 f)
      | empty => exact ⟨_, adds_xml n as g _, by simp [Frame.adds]⟩
      | text t => exact ⟨_, adds_xml n as g _, by simp [Frame.adds]⟩

theorem textsOf_tagged (n : Str) (as : List (Str × Str)) (c : List Node) :
    textsOf c = if Tagged (.tag n as c) then none else some (chars (.tag n as c)) := by
  induction c with
  | nil => rfl
  | cons x c ih =>
    cases x with
    | tag m as' k => simp [textsOf, Tagged]
    | text s =>
      rw [textsOf, ih]
      simp only [Tagged, chars, List.any_cons, List.flatMap_cons, Bool.false_or]
      split <;> rename_i h <;> simp [h]

theorem vanish_chars (n : Str) (as : List (Str × Str)) (c : List Node) (hv : vanishes (.tag n as c) = true) :
    norms c = [] ∧ c ≠ [] := by
  cases c with
  | nil => cases hv
  | cons x c => exact ⟨(norms_nil _).2 hv, by simp⟩

/-- One paragraph. -/
theorem node_back (x : Node) (hx : ∃ n as k, x = .tag n as k) :
    (vanishes x = true → contentNodes (nodeContent x) = [])
    ∧ (vanishes x = false → ∃ y, contentNodes (nodeContent x) = [y] ∧ ParaBack x y) := by
  obtain ⟨n, as, c, rfl⟩ := hx
  have ht := textsOf_tagged n as c
  refine ⟨?_, ?_⟩
  · intro hv
    obtain ⟨h1, h2⟩ := vanish_chars n as c hv
    cases c with
    | nil => exact absurd rfl h2
    | cons x c =>
      rw [nodeContent, h1]
      rfl
  · intro hv
    cases c with
    | nil => exact ⟨textP [], rfl, rfl⟩
    | cons x c =>
      have hne : norms (x :: c) ≠ [] := by
        intro he
        have hv' : vanishes (.tag n as (x :: c)) = true := (norms_nil _).1 he
        rw [hv'] at hv
        cases hv
      rw [← textsOf_norms] at ht
      have hsay := norms_says _ (x :: c) (Nat.le_refl _)
      rw [nodeContent]
      unfold ParaBack
      generalize norms (x :: c) = g at hne ht hsay
      cases htg : Tagged (.tag n as (x :: c)) with
      | true =>
        rw [htg, if_pos rfl] at ht
        obtain ⟨k, hk, hs⟩ := adds_tagged n as g .empty (by simp) (by simp) ht
        rw [hk]
        refine ⟨.tag n as k, rfl, ?_⟩
        rw [if_pos rfl, Alike, treeSays, treeSays, hs, hsay]
      | false =>
        rw [htg, if_neg (by simp)] at ht
        simp only [Bool.false_eq_true, if_false]
        cases g with
        | nil => exact absurd rfl hne
        | cons y g =>
          cases y with
          | tag m as' k => rw [textsOf] at ht; cases ht
          | text s =>
            rw [textsOf, Option.map_eq_some_iff] at ht
            obtain ⟨u, hu, hs⟩ := ht
            have := adds_texts n as g s u hu
            refine ⟨textP (s ++ u), ?_, ?_⟩
            · show contentNodes (TextContent.adds n as (.text s) g) = _
              rw [this]
              rfl
            · rw [← hs]
              rfl

theorem content_back (l : List Node) (h : ∀ x ∈ l, ∃ n as k, x = .tag n as k) :
    Each ParaBack (l.filter fun x => !vanishes x) (contentBack l) := by
  unfold contentBack
  rw [contentNodes_fold l h]
  show Each _ _ ([] ++ _)
  rw [List.nil_append]
  induction l with
  | nil => trivial
  | cons x l ih =>
    have hi := ih fun y hy => h y (List.mem_cons_of_mem _ hy)
    obtain ⟨h1, h2⟩ := node_back x (h x List.mem_cons_self)
    rw [List.flatMap_cons]
    cases hv : vanishes x with
    | true =>
      rw [h1 hv, List.filter_cons_of_neg (by simp [hv])]
      exact hi
    | false =>
      obtain ⟨y, hy, hp⟩ := h2 hv
      rw [hy, List.filter_cons_of_pos (by simp [hv])]
      exact ⟨hp, hi⟩

theorem slotBack_spec (lb : Bool) (h : HeaderFooter) (ho : HFOk lb h) : HFBack h (slotBack {} h) := by
  unfold HFBack slotBack
  split
  · rfl
  · refine ⟨rfl, each_map _ _ _ fun x _ => norm_says x, each_map _ _ _ fun x _ => norm_says x,
      each_map _ _ _ fun x _ => norm_says x, content_back _ fun x hx => ?_⟩
    obtain ⟨n, as, c, rfl, _⟩ := (ho.content x hx).2
    exact ⟨n, as, c, rfl⟩

/-! ## The pages in the workbook -/

theorem addMaster_named (b : Stores Master) (p : Style Master) (h : p.name ≠ []) :
    ∃ b', addMaster b p = .ok b' ∧ ∀ n, b'.get? .masterPage n = if p.name = n then some p else b.get? .masterPage n := by
  have ha : b.add .masterPage p
      = .ok (b.setStore .masterPage ((b.store .masterPage).insert p.name p), p.name) := by
    unfold Stores.add
    rw [if_neg h]
  refine ⟨_, by unfold addMaster; rw [ha], ?_⟩
  intro n
  have := (add_get _ _ _ _ _ ha).2 .masterPage n
  rw [this]
  by_cases hn : p.name = n
  · rw [if_pos ⟨rfl, hn⟩, if_pos hn]
  · rw [if_neg fun h => hn h.2, if_neg hn]

theorem storeAll_get (l : List (Style Master)) : ∀ b : Stores Master, (∀ p ∈ l, p.name ≠ []) → (l.map (·.name)).Nodup →
    ∃ b', storeAll l b = .ok b' ∧ (∀ p ∈ l, b'.get? .masterPage p.name = some p)
      ∧ ∀ n, n ∉ l.map (·.name) → b'.get? .masterPage n = b.get? .masterPage n := by
  induction l with
  | nil => intro b _ _; exact ⟨b, rfl, (by intro p hp; cases hp), fun n _ => rfl⟩
  | cons p l ih =>
    intro b hne hnd
    rw [List.map_cons, List.nodup_cons] at hnd
    obtain ⟨b1, h1, g1⟩ := addMaster_named b p (hne p List.mem_cons_self)
    obtain ⟨b', h2, g2, g3⟩ := ih b1 (fun q hq => hne q (List.mem_cons_of_mem _ hq)) hnd.2
    refine ⟨b', by rw [storeAll, h1]; exact h2, ?_, ?_⟩
    · intro q hq
      rcases List.mem_cons.1 hq with rfl | hq
      · rw [g3 _ hnd.1, g1, if_pos rfl]
      · exact g2 q hq
    · intro n hn
      rw [List.map_cons, List.mem_cons, not_or] at hn
      rw [g3 n hn.2, g1, if_neg fun he => hn.1 he.symm]

theorem masters_tokens (lb : Bool) (l : List (Style Master)) (h : ∀ p ∈ l, MasterOk lb p) :
    tokenize (mastersXml lb l) = some ((mastersItems l).flatMap (itemToks lb)) := by
  unfold mastersXml
  rw [← mastersItems_calls]
  apply tok_fragment lb _ (mastersItems_valid lb l h)
  intro i hi
  rw [show mastersItems l = (.start false tMasters [] :: l.flatMap masterItems) ++ [.end false tMasters] by
    simp [mastersItems], List.getLast?_concat] at hi
  cases hi
  intro ho
  exact ho

theorem masters_read (lb : Bool) (l : List (Style Master)) (h : ∀ p ∈ l, MasterOk lb p)
    (hne : ∀ p ∈ l, p.name ≠ []) (hnd : (l.map (·.name)).Nodup) :
    ∃ b, mastersBack (mastersXml lb l) = some b
      ∧ (∀ p ∈ l, b.get? .masterPage p.name = some ⟨p.name, masterBack p.body⟩)
      ∧ ∀ n, n ∉ l.map (·.name) → b.get? .masterPage n = none := by
  have hm : (l.map fun p => (⟨p.name, masterBack p.body⟩ : Style Master)).map (·.name) = l.map (·.name) := by
    rw [List.map_map]; rfl
  obtain ⟨b, h1, h2, h3⟩ := storeAll_get (l.map fun p => ⟨p.name, masterBack p.body⟩) {}
    (by
      intro q hq
      obtain ⟨p, hp, rfl⟩ := List.mem_map.1 hq
      exact hne p hp) (by rw [hm]; exact hnd)
  obtain ⟨es, he, hr⟩ := masters_reads lb l h {} b h1 []
  rw [List.append_nil] at he
  refine ⟨b, ?_, ?_, ?_⟩
  · unfold mastersBack
    rw [masters_tokens lb l h]
    simp only
    rw [he]
    simp only
    rw [hr]
    rfl
  · intro p hp
    exact h2 ⟨p.name, masterBack p.body⟩ (List.mem_map.2 ⟨p, hp, rfl⟩)
  · intro n hn
    rw [hm] at h3
    exact h3 n hn

/-- **C72** (exactly what comes back): any number of master pages, in any order, are found again under their
names, with their display name, page layout and next style. Each of the six headers and footers has its regions,
its paragraphs and its flag as `HFBack` says. Nothing else is added. -/
theorem C72_exact (lb : Bool) (l : List (Style Master)) (h : ∀ p ∈ l, MasterOk lb p)
    (hne : ∀ p ∈ l, p.name ≠ []) (hnd : (l.map (·.name)).Nodup) :
    ∃ b, mastersBack (mastersXml lb l) = some b
      ∧ (∀ p ∈ l, ∃ q, b.get? .masterPage p.name = some ⟨p.name, q⟩ ∧ MasterBack p.body q)
      ∧ ∀ n, n ∉ l.map (·.name) → b.get? .masterPage n = none := by
  obtain ⟨b, h1, h2, h3⟩ := masters_read lb l h hne hnd
  exact ⟨b, h1, fun p hp => ⟨_, h2 p hp, rfl, rfl, rfl, fun s => slotBack_spec lb _ (h p hp s)⟩, h3⟩

/-- What keeps a header or footer the same: it is empty and not shown, or it is not empty and its paragraphs
without elements are paragraphs without attributes. -/
def Keeps (h : HeaderFooter) : Prop :=
  if h.isEmpty then h.display = false
  else ∀ x ∈ h.content, vanishes x = false ∧ (Tagged x = false → ∃ c, x = .tag pName [] c)

theorem chars_say (n : Str) (as : List (Str × Str)) (c : List Node) (h : Tagged (.tag n as c) = false) :
    treesSay c = (chars (.tag n as c)).map Ev.chr := by
  induction c with
  | nil => rfl
  | cons x c ih =>
    cases x with
    | tag m as' k => cases h
    | text s =>
      have h' : Tagged (.tag n as c) = false := by simpa [Tagged] using h
      rw [treesSay, ih h', treeSays]
      simp [chars]

theorem each_imp {α : Type} {R S : α → α → Prop} : ∀ (l m : List α), (∀ a ∈ l, ∀ b, R a b → S a b) → Each R l m → Each S l m
  | [], [], _, _ => trivial
  | a :: l, b :: m, h, ⟨h1, h2⟩ =>
    ⟨h a List.mem_cons_self b h1, each_imp l m (fun x hx => h x (List.mem_cons_of_mem _ hx)) h2⟩

theorem hf_same (h h' : HeaderFooter) (hk : Keeps h) (hb : HFBack h h') : HFSame h h' := by
  unfold Keeps at hk
  unfold HFBack at hb
  cases he : h.isEmpty with
  | true =>
    rw [he, if_pos rfl] at hk hb
    obtain ⟨h1, h2, h3, h4⟩ := (isEmpty_iff h).1 he
    subst hb
    exact ⟨hk.symm, by rw [h1]; trivial, by rw [h2]; trivial, by rw [h3]; trivial, by rw [h4]; trivial⟩
  | false =>
    rw [he, if_neg (by simp)] at hk hb
    obtain ⟨b1, b2, b3, b4, b5⟩ := hb
    refine ⟨b1, b2, b3, b4, ?_⟩
    rw [List.filter_eq_self.2 fun x hx => by rw [(hk x hx).1]; rfl] at b5
    refine each_imp _ _ ?_ b5
    intro x hx y hp
    unfold ParaBack at hp
    cases ht : Tagged x with
    | true => rw [ht, if_pos rfl] at hp; exact hp
    | false =>
      rw [ht, if_neg (by simp)] at hp
      obtain ⟨c, rfl⟩ := (hk x hx).2 ht
      unfold Alike at hp ⊢
      rw [hp, treeSays, treeSays, chars_say pName [] c ht]
      simp [treesSay, treeSays]

/-- **C72** (partial): master pages come back the same, when no paragraph of plain text has attributes or is a
heading, no paragraph consists of empty texts, and a header or footer without content is not marked as shown.
Missing: all others, see the counterexamples. -/
theorem C72_same_partial (lb : Bool) (l : List (Style Master)) (h : ∀ p ∈ l, MasterOk lb p)
    (hne : ∀ p ∈ l, p.name ≠ []) (hnd : (l.map (·.name)).Nodup) (hk : ∀ p ∈ l, ∀ s, Keeps (p.body.slot s)) :
    ∃ b, mastersBack (mastersXml lb l) = some b
      ∧ (∀ p ∈ l, ∃ q, b.get? .masterPage p.name = some ⟨p.name, q⟩ ∧ MasterSame p.body q)
      ∧ ∀ n, n ∉ l.map (·.name) → b.get? .masterPage n = none := by
  obtain ⟨b, h1, h2, h3⟩ := C72_exact lb l h hne hnd
  refine ⟨b, h1, ?_, h3⟩
  intro p hp
  obtain ⟨q, hq, e1, e2, e3, e4⟩ := h2 p hp
  exact ⟨q, hq, e1, e2, e3, fun s => hf_same _ _ (hk p hp s) (e4 s)⟩

/-! ## A case -/

/-- A header with regions. -/
def demoHeader : HeaderFooter :=
  { display := true, left := [textP "left <1>".toList], right := [textP "a".toList, textP "b".toList] }

/-- A footer with plain and rich text. -/
def demoFooter : HeaderFooter :=
  { display := true
    content := [textP "Page".toList, .tag pName [("text:style-name".toList, "P1".toList)]
      [.text "of ".toList, .tag "text:page-count".toList [] []]] }

/-- A master page with a header and a footer. -/
def demoMaster : Style Master :=
  ⟨"Report & co".toList,
    { display := "Report".toList, page := some "Mpm1".toList, next := some "Default".toList
      slot := fun s => match s with
        | .header => demoHeader
        | .footerLeft => demoFooter
        | _ => {} }⟩

theorem textP_region (tag : Str) (ht : pName ≠ tag) (s : Str) : (∃ n as c, textP s = .tag n as c)
    ∧ NamesOk (textP s) ∧ Without tag (textP s) :=
  ⟨⟨_, _, _, rfl⟩, ⟨by decide, by simp, trivial, trivial⟩, ht, trivial, trivial⟩

theorem hfOk_empty (lb : Bool) (d : Bool) : HFOk lb { display := d } :=
  ⟨(by intro x hx; cases hx), (by intro x hx; cases hx), (by intro x hx; cases hx), (by intro x hx; cases hx), .inr rfl⟩

theorem demoMaster_ok : MasterOk false demoMaster := by
  intro s
  cases s with
  | header =>
    show HFOk false demoHeader
    refine ⟨?_, ?_, ?_, ?_, .inl rfl⟩
    · intro x hx
      rw [List.mem_singleton.1 hx]
      exact textP_region _ (by decide) _
    · intro x hx; cases hx
    · intro x hx
      simp only [demoHeader, List.mem_cons, List.not_mem_nil, or_false] at hx
      rcases hx with rfl | rfl <;> exact textP_region _ (by decide) _
    · intro x hx; cases hx
  | footerLeft =>
    show HFOk false demoFooter
    refine ⟨(by intro x hx; cases hx), (by intro x hx; cases hx), (by intro x hx; cases hx), ?_, .inl rfl⟩
    intro x hx
    simp only [demoFooter, List.mem_cons, List.not_mem_nil, or_false] at hx
    rcases hx with rfl | rfl
    · exact ⟨(textP_region tLeft (by decide) _).2.1, pName, _, _, rfl, .inl rfl, trivial, trivial⟩
    · refine ⟨⟨by decide, by simp; decide, trivial, ⟨by decide, by simp, trivial⟩, trivial⟩,
        pName, _, _, rfl, .inl rfl, trivial, ⟨by decide, trivial⟩, trivial⟩
  | headerFirst => exact hfOk_empty false false
  | headerLeft => exact hfOk_empty false false
  | footer => exact hfOk_empty false false
  | footerFirst => exact hfOk_empty false false

theorem demoMaster_keeps : ∀ s, Keeps (demoMaster.body.slot s) := by
  intro s
  cases s with
  | header =>
    show Keeps demoHeader
    unfold Keeps
    rw [if_neg (by decide)]
    intro x hx
    cases hx
  | footerLeft =>
    show Keeps demoFooter
    unfold Keeps
    rw [if_neg (by decide)]
    intro x hx
    simp only [demoFooter, List.mem_cons, List.not_mem_nil, or_false] at hx
    rcases hx with rfl | rfl
    · exact ⟨by decide, fun _ => ⟨_, rfl⟩⟩
    · exact ⟨by decide, fun h => by cases h⟩
  | headerFirst => exact rfl
  | headerLeft => exact rfl
  | footer => exact rfl
  | footerFirst => exact rfl

/-- Two pages that meet all conditions of C72. -/
example : ∃ l : List (Style Master), l.length = 2 ∧ (∀ p ∈ l, MasterOk false p) ∧ (∀ p ∈ l, p.name ≠ [])
    ∧ (l.map (·.name)).Nodup ∧ ∀ p ∈ l, ∀ s, Keeps (p.body.slot s) := by
  refine ⟨[demoMaster, newMaster "Default".toList], rfl, ?_, ?_, by decide, ?_⟩
  · intro p hp
    simp only [List.mem_cons, List.not_mem_nil, or_false] at hp
    rcases hp with rfl | rfl
    · exact demoMaster_ok
    · intro s; exact hfOk_empty false false
  · intro p hp
    simp only [List.mem_cons, List.not_mem_nil, or_false] at hp
    rcases hp with rfl | rfl <;> decide
  · intro p hp
    simp only [List.mem_cons, List.not_mem_nil, or_false] at hp
    rcases hp with rfl | rfl
    · exact demoMaster_keeps
    · intro s; rfl

/-! ## What is lost -/

/-- A master page with one header. -/
def withHeader (h : HeaderFooter) : Style Master := ⟨"m".toList, ({} : Master).change .header fun _ => h⟩

/-- The header that is read. -/
def headerBack (h : HeaderFooter) : Option HeaderFooter :=
  ((mastersBack (mastersXml false [withHeader h])).bind fun b => b.get? .masterPage "m".toList).map
    fun p => p.body.slot .header

/-- **C72** is false of the code: a heading comes back as a paragraph. -/
theorem C72_heading_counterexample :
    ∃ h, h.display = true ∧ h.content = [.tag hName [] [.text "Title".toList]]
      ∧ headerBack h = some { display := true, content := [.tag pName [] [.text "Title".toList]] } :=
  ⟨{ display := true, content := [.tag hName [] [.text "Title".toList]] }, rfl, rfl, by decide +kernel⟩

/-- **C72** is false of the code: a paragraph of plain text loses its style. -/
theorem C72_style_counterexample :
    ∃ h, h.display = true ∧ h.content = [.tag pName [("text:style-name".toList, "P1".toList)] [.text "Title".toList]]
      ∧ headerBack h = some { display := true, content := [.tag pName [] [.text "Title".toList]] } :=
  ⟨{ display := true, content := [.tag pName [("text:style-name".toList, "P1".toList)] [.text "Title".toList]] },
    rfl, rfl, by decide +kernel⟩

/-- **C72** is false of the code: an empty header that is shown comes back as one that is not. -/
theorem C72_empty_counterexample : HeaderFooter.new.display = true
    ∧ headerBack HeaderFooter.new = some { display := false } :=
  ⟨rfl, by decide +kernel⟩

/-- Is this text of white space only, or an element? -/
def Blank : Node → Prop
  | .text s => ∀ c ∈ s, isWhite c = true
  | .tag _ _ _ => True

/-- The elements of a content. -/
def elements : List Node → List Node
  | [] => []
  | .text _ :: l => elements l
  | .tag n as c :: l => .tag n as c :: elements l

/-- A region with text between its elements is refused, white space is skipped, and all elements are kept. -/
theorem C72_region_text (l : List Node) :
    ((∀ x ∈ l, Blank x) → intoVec l = .ok (elements l)) ∧ ((¬ ∀ x ∈ l, Blank x) → intoVec l = .error .parse) := by
  induction l with
  | nil => exact ⟨fun _ => rfl, fun h => absurd (fun x hx => by cases hx) h⟩
  | cons x l ih =>
    rw [List.forall_mem_cons]
    cases x with
    | text s =>
      rw [intoVec, elements]
      by_cases hs : s.all isWhite = true
      · rw [if_pos hs]
        have hb : Blank (.text s) := List.all_eq_true.1 hs
        exact ⟨fun h => ih.1 h.2, fun h => ih.2 fun hl => h ⟨hb, hl⟩⟩
      · rw [if_neg hs]
        have hb : ¬ Blank (.text s) := fun h => hs (List.all_eq_true.2 h)
        exact ⟨fun h => absurd h.1 hb, fun _ => rfl⟩
    | tag n as c =>
      rw [intoVec, elements]
      have hb : Blank (.tag n as c) := trivial
      exact ⟨fun h => by rw [ih.1 h.2]; rfl, fun h => by rw [ih.2 fun hl => h ⟨hb, hl⟩]; rfl⟩

/-! ## New master pages -/

/-- The start tag of a header or footer, as it is in the file. -/
def InFile (lb : Bool) (p : Style Master) (s : Slot) (as : List (Str × Str)) : Prop :=
  ∃ ts, tokenize (mastersXml lb [p]) = some ts ∧ Tok.start s.tag as ∈ ts

theorem slot_inFile (p : Style Master) (s : Slot) (h : MasterOk false p) (he : (p.body.slot s).isEmpty = false) :
    InFile false p s (if (p.body.slot s).display then [] else [(aDisplay, "false".toList)]) := by
  have ho : ∀ q ∈ [p], MasterOk false q := by
    intro q hq
    rw [List.mem_singleton.1 hq]
    exact h
  refine ⟨_, masters_tokens false [p] ho, ?_⟩
  have hm : Item.start true s.tag (slotAtts s (p.body.slot s)) ∈ mastersItems [p] := by
    unfold mastersItems
    refine List.mem_cons_of_mem _ (List.mem_append_left _ ?_)
    rw [List.flatMap_cons, List.flatMap_nil, List.append_nil]
    unfold masterItems
    refine List.mem_cons_of_mem _ (List.mem_append_left _ (List.mem_flatMap.2 ⟨s, by cases s <;> decide, ?_⟩))
    unfold slotItems
    rw [he, if_neg (by simp)]
    exact List.mem_cons_self
  refine List.mem_flatMap.2 ⟨_, hm, ?_⟩
  unfold slotAtts
  rw [hides_of s _ he]
  cases (p.body.slot s).display <;> simp [itemToks, rawAttrs, rawVal]

/-- **C73** is false of the code: whatever is put into a header or footer of a new master page by changing it in
place, it is written as not shown and comes back as not shown. -/
theorem C73_hidden_counterexample (name : Str) (s : Slot) (f : HeaderFooter → HeaderFooter)
    (hf : ∀ h, (f h).display = h.display) (he : (f {}).isEmpty = false) (hne : name ≠ [])
    (h : HFOk false (f {})) :
    InFile false ⟨name, (newMaster name).body.change s f⟩ s [(aDisplay, "false".toList)]
    ∧ ∃ b q, mastersBack (mastersXml false [⟨name, (newMaster name).body.change s f⟩]) = some b
      ∧ b.get? .masterPage name = some ⟨name, q⟩ ∧ (q.slot s).display = false := by
  obtain ⟨p, hp⟩ : ∃ p : Style Master, p = ⟨name, (newMaster name).body.change s f⟩ := ⟨_, rfl⟩
  have hs : p.body.slot s = f {} := by subst hp; simp [Master.change, newMaster]
  have hd : (f {}).display = false := hf {}
  have ho : MasterOk false p := by
    intro t
    subst hp
    simp only [Master.change, newMaster]
    split
    · exact h
    · exact hfOk_empty false false
  rw [← hp]
  refine ⟨?_, ?_⟩
  · have := slot_inFile p s ho (by rw [hs]; exact he)
    rw [hs, hd] at this
    exact this
  · have ho' : ∀ q ∈ [p], MasterOk false q := by
      intro q hq
      rw [List.mem_singleton.1 hq]
      exact ho
    have hn : p.name = name := by subst hp; rfl
    obtain ⟨b, h1, h2, _⟩ := C72_exact false [p] ho' (by intro q hq; rw [List.mem_singleton.1 hq, hn]; exact hne)
      (by simp)
    obtain ⟨q, hq, _, _, _, hb⟩ := h2 p List.mem_cons_self
    refine ⟨b, q, h1, by rw [← hn]; exact hq, ?_⟩
    have := hb s
    unfold HFBack at this
    rw [hs, he, if_neg (by simp)] at this
    rw [this.1, hd]

/-- A case of the conditions of C73: a text put into the header. -/
example : (∀ h : HeaderFooter, ({ h with content := h.content ++ [textP "Title".toList] } : HeaderFooter).display = h.display)
    ∧ ({ content := [textP "Title".toList] } : HeaderFooter).isEmpty = false
    ∧ HFOk false { content := [textP "Title".toList] } := by
  refine ⟨fun _ => rfl, rfl, (by intro x hx; cases hx), (by intro x hx; cases hx), (by intro x hx; cases hx), ?_, .inl rfl⟩
  intro x hx
  rw [List.mem_singleton.1 hx]
  exact ⟨(textP_region tLeft (by decide) _).2.1, pName, _, _, rfl, .inl rfl, trivial, trivial⟩

/-- **C73** (partial): a header or footer that is put into the master page as a whole, made with
`HeaderFooter::new` and filled, is written as shown and comes back as shown. Missing: changes in place of a new
master page, see the counterexample. -/
theorem C73_shown_partial (p : Style Master) (s : Slot) (f : HeaderFooter → HeaderFooter)
    (hf : ∀ h, (f h).display = h.display) (he : (f HeaderFooter.new).isEmpty = false) (hne : p.name ≠ [])
    (ho : MasterOk false p) (h : HFOk false (f HeaderFooter.new)) :
    InFile false ⟨p.name, p.body.change s fun _ => f HeaderFooter.new⟩ s []
    ∧ ∃ b q, mastersBack (mastersXml false [⟨p.name, p.body.change s fun _ => f HeaderFooter.new⟩]) = some b
      ∧ b.get? .masterPage p.name = some ⟨p.name, q⟩ ∧ (q.slot s).display = true := by
  obtain ⟨p', hp⟩ : ∃ p' : Style Master, p' = ⟨p.name, p.body.change s fun _ => f HeaderFooter.new⟩ := ⟨_, rfl⟩
  have hs : p'.body.slot s = f HeaderFooter.new := by subst hp; simp [Master.change]
  have hd : (f HeaderFooter.new).display = true := hf _
  have ho' : MasterOk false p' := by
    intro t
    subst hp
    simp only [Master.change]
    split
    · exact h
    · exact ho t
  rw [← hp]
  refine ⟨?_, ?_⟩
  · have := slot_inFile p' s ho' (by rw [hs]; exact he)
    rw [hs, hd] at this
    exact this
  · have ho2 : ∀ q ∈ [p'], MasterOk false q := by
      intro q hq
      rw [List.mem_singleton.1 hq]
      exact ho'
    have hn : p'.name = p.name := by subst hp; rfl
    obtain ⟨b, h1, h2, _⟩ := C72_exact false [p'] ho2 (by intro q hq; rw [List.mem_singleton.1 hq, hn]; exact hne)
      (by simp)
    obtain ⟨q, hq, _, _, _, hb⟩ := h2 p' List.mem_cons_self
    refine ⟨b, q, h1, by rw [← hn]; exact hq, ?_⟩
    have := hb s
    unfold HFBack at this
    rw [hs, he, if_neg (by simp)] at this
    rw [this.1, hd]

end Verif.Master
