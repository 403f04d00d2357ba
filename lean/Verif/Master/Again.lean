import Verif.Master.Props

/-!
# Master pages that were read can be written and read again
-/

set_option autoImplicit false

namespace Verif.Master

open Xml Xml.Spec Codec Book
open Verif.Conv (vanishes)

/-! ## What a tree says decides what can be done with it -/

/-- A start tag with names. -/
def EvOk : Ev → Prop
  | .start n as => Name n ∧ ∀ a ∈ as, Name a.1
  | _ => True

/-- Not the start tag of this element. -/
def EvNot (m : Str) : Ev → Prop
  | .start n _ => n ≠ m
  | _ => True

mutual

theorem names_iff : ∀ x : Node, NamesOk x ↔ ∀ e ∈ treeSays x, EvOk e
  | .text s => by
    simp only [NamesOk, treeSays, List.mem_map, true_iff]
    rintro e ⟨c, _, rfl⟩
    trivial
  | .tag n as c => by
    simp only [NamesOk, treeSays, List.mem_cons, List.mem_append, List.not_mem_nil, or_false]
    constructor
    · rintro ⟨h1, h2, h3⟩ e (rfl | he | rfl)
      · refine ⟨h1, ?_⟩
        intro a ha
        obtain ⟨b, hb, rfl⟩ := List.mem_map.1 ha
        exact h2 b hb
      · exact (allNames_iff c).1 h3 e he
      · trivial
    · intro h
      have h1 := h _ (.inl rfl)
      refine ⟨h1.1, ?_, (allNames_iff c).2 fun e he => h e (.inr (.inl he))⟩
      intro a ha
      exact h1.2 (a.1, some a.2) (List.mem_map.2 ⟨a, ha, rfl⟩)

theorem allNames_iff : ∀ l : List Node, AllNamesOk l ↔ ∀ e ∈ treesSay l, EvOk e
  | [] => by simp [AllNamesOk, treesSay]
  | x :: l => by
    simp only [AllNamesOk, treesSay, List.mem_append]
    rw [names_iff x, allNames_iff l]
    exact ⟨fun h e he => he.elim (h.1 e) (h.2 e), fun h => ⟨fun e he => h e (.inl he), fun e he => h e (.inr he)⟩⟩

end

mutual

theorem without_iff (m : Str) : ∀ x : Node, Without m x ↔ ∀ e ∈ treeSays x, EvNot m e
  | .text s => by
    simp only [Without, treeSays, List.mem_map, true_iff]
    rintro e ⟨c, _, rfl⟩
    trivial
  | .tag n as c => by
    simp only [Without, treeSays, List.mem_cons, List.mem_append, List.not_mem_nil, or_false]
    constructor
    · rintro ⟨h1, h3⟩ e (rfl | he | rfl)
      · exact h1
      · exact (allWithout_iff m c).1 h3 e he
      · trivial
    · intro h
      exact ⟨h _ (.inl rfl), (allWithout_iff m c).2 fun e he => h e (.inr (.inl he))⟩

theorem allWithout_iff (m : Str) : ∀ l : List Node, AllWithout m l ↔ ∀ e ∈ treesSay l, EvNot m e
  | [] => by simp [AllWithout, treesSay]
  | x :: l => by
    simp only [AllWithout, treesSay, List.mem_append]
    rw [without_iff m x, allWithout_iff m l]
    exact ⟨fun h e he => he.elim (h.1 e) (h.2 e), fun h => ⟨fun e he => h e (.inl he), fun e he => h e (.inr he)⟩⟩

end

theorem attrsSay_inj : ∀ l m : List (Str × Str), attrsSay l = attrsSay m → l = m
  | [], [], _ => rfl
  | [], _ :: _, h => by cases h
  | _ :: _, [], h => by cases h
  | (a, b) :: l, (c, d) :: m, h => by
    simp only [attrsSay, List.map_cons, List.cons.injEq, Prod.mk.injEq, Option.some.injEq] at h
    obtain ⟨⟨rfl, rfl⟩, h⟩ := h
    rw [attrsSay_inj l m h]

/-- The shape of an element that is alike. -/
theorem alike_tag (n : Str) (as : List (Str × Str)) (c : List Node) (y : Node) (h : Alike (.tag n as c) y) :
    ∃ k, y = .tag n as k ∧ treesSay k = treesSay c := by
  unfold Alike at h
  cases y with
  | text s =>
    rw [treeSays, treeSays] at h
    cases s <;> simp at h
  | tag n' as' k =>
    rw [treeSays, treeSays] at h
    simp only [List.cons.injEq, Ev.start.injEq] at h
    obtain ⟨⟨rfl, h1⟩, h2⟩ := h
    rw [attrsSay_inj _ _ h1]
    exact ⟨k, rfl, (List.append_inj_left' h2 rfl)⟩

theorem alike_trans (x y z : Node) (h : Alike x y) (h' : Alike y z) : Alike x z := by
  unfold Alike at *
  rw [h', h]

theorem each_trans {α : Type} {R : α → α → Prop} (ht : ∀ a b c, R a b → R b c → R a c) :
    ∀ l m k : List α, Each R l m → Each R m k → Each R l k
  | [], [], [], _, _ => trivial
  | _ :: _, _ :: _, _ :: _, ⟨h1, h2⟩, ⟨h3, h4⟩ => ⟨ht _ _ _ h1 h3, each_trans ht _ _ _ h2 h4⟩
  | [], [], _ :: _, _, h => h.elim
  | [], _ :: _, _, h, _ => h.elim
  | _ :: _, [], _, h, _ => h.elim
  | _ :: _, _ :: _, [], _, h => h.elim

theorem each_mem {α : Type} {R : α → α → Prop} : ∀ (l m : List α), Each R l m → ∀ y ∈ m, ∃ x ∈ l, R x y
  | [], [], _, y, hy => by cases hy
  | a :: l, b :: m, ⟨h1, h2⟩, y, hy => by
    rcases List.mem_cons.1 hy with rfl | hy
    · exact ⟨a, List.mem_cons_self, h1⟩
    · obtain ⟨x, hx, hr⟩ := each_mem l m h2 y hy
      exact ⟨x, List.mem_cons_of_mem _ hx, hr⟩

theorem each_nil {α : Type} {R : α → α → Prop} (l m : List α) (h : Each R l m) : m = [] ↔ l = [] := by
  cases l <;> cases m <;> simp_all [Each]

/-! ## Headers and footers -/

theorem tagged_iff (n : Str) (as : List (Str × Str)) (c : List Node) :
    Tagged (.tag n as c) = true ↔ ∃ m as', Ev.start m as' ∈ treesSay c := by
  induction c with
  | nil => simp [Tagged, treesSay]
  | cons x c ih =>
    simp only [Tagged] at ih
    simp only [Tagged, List.any_cons, Bool.or_eq_true, treesSay]
    cases x with
    | text s => simp [treeSays, ih]
    | tag m as' k =>
      simp only [true_or, true_iff]
      exact ⟨m, _, List.mem_append_left _ (by rw [treeSays]; exact List.mem_cons_self)⟩

/-- A paragraph with text or elements in it. -/
def Worded (x : Node) : Prop := Tagged x = true ∨ chars x ≠ []

theorem worded_stays (x : Node) (hx : ∃ n as c, x = .tag n as c) (h : Worded x) : vanishes x = false := by
  obtain ⟨n, as, c, rfl⟩ := hx
  cases c with
  | nil => rfl
  | cons y c =>
    cases hv : vanishes (.tag n as (y :: c)) with
    | false => rfl
    | true =>
      have hv' : ∀ z ∈ y :: c, z = .text [] := by simpa [vanishes] using hv
      rcases h with h | h
      · unfold Tagged at h
        rw [List.any_eq_true] at h
        obtain ⟨z, hz, h⟩ := h
        rw [hv' z hz] at h
        cases h
      · refine absurd ?_ h
        unfold chars
        rw [List.flatMap_eq_nil_iff]
        intro z hz
        rw [hv' z hz]

/-- A paragraph that is alike can be written as well. -/
theorem para_alike (x y : Node) (hn : NamesOk x) (hp : Paragraph x) (hw : Worded x)
    (hk : Tagged x = false → ∃ c, x = .tag pName [] c) (h : Alike x y) :
    NamesOk y ∧ Paragraph y ∧ Worded y ∧ (Tagged y = false → ∃ c, y = .tag pName [] c) := by
  have hn' : NamesOk y := (names_iff y).2 (by rw [h]; exact (names_iff x).1 hn)
  obtain ⟨n, as, c, rfl, hname, hno⟩ := hp
  obtain ⟨k, rfl, hs⟩ := alike_tag n as c y h
  have ht : Tagged (.tag n as k) = Tagged (.tag n as c) := by
    rw [Bool.eq_iff_iff, tagged_iff, tagged_iff, hs]
  refine ⟨hn', ⟨n, as, k, rfl, hname, (allWithout_iff n k).2 (by rw [hs]; exact (allWithout_iff n c).1 hno)⟩, ?_, ?_⟩
  · unfold Worded
    rw [ht]
    cases htc : Tagged (.tag n as c) with
    | true => exact .inl rfl
    | false =>
      rw [htc] at ht
      right
      have h1 := chars_say n as k ht
      rw [hs, chars_say n as c htc] at h1
      have h2 : chars (.tag n as c) ≠ [] := hw.resolve_left (by rw [htc]; simp)
      intro he
      rw [he] at h1
      exact h2 (by simpa using h1)
  · intro hf
    rw [ht] at hf
    obtain ⟨c', hc⟩ := hk hf
    cases hc
    exact ⟨k, rfl⟩

/-- A header or footer that stays the same any number of times: as `Keeps`, and no paragraph is empty. -/
def Stays (h : HeaderFooter) : Prop := Keeps h ∧ ∀ x ∈ h.content, Worded x

theorem same_empty (h h' : HeaderFooter) (hs : HFSame h h') : h'.isEmpty = h.isEmpty := by
  obtain ⟨_, h1, h2, h3, h4⟩ := hs
  rw [Bool.eq_iff_iff, isEmpty_iff, isEmpty_iff, each_nil _ _ h1, each_nil _ _ h2, each_nil _ _ h3, each_nil _ _ h4]

theorem region_alike (tag : Str) (l m : List Node) (h : RegionOk tag l) (hs : Each Alike l m) : RegionOk tag m := by
  intro y hy
  obtain ⟨x, hx, ha⟩ := each_mem l m hs y hy
  obtain ⟨⟨n, as, c, rfl⟩, h2, h3⟩ := h x hx
  refine ⟨?_, (names_iff y).2 (by rw [ha]; exact (names_iff _).1 h2), (without_iff tag y).2 (by rw [ha]; exact (without_iff tag _).1 h3)⟩
  obtain ⟨k, rfl, _⟩ := alike_tag n as c y ha
  exact ⟨n, as, k, rfl⟩

theorem keeps_content (h : HeaderFooter) (hk : Keeps h) (x : Node) (hx : x ∈ h.content) :
    Tagged x = false → ∃ c, x = .tag pName [] c := by
  unfold Keeps at hk
  cases he : h.isEmpty with
  | true =>
    rw [((isEmpty_iff h).1 he).2.2.2] at hx
    cases hx
  | false =>
    rw [he, if_neg (by simp)] at hk
    exact (hk x hx).2

theorem hf_closed (lb : Bool) (h h' : HeaderFooter) (ho : HFOk lb h) (hk : Stays h) (hs : HFSame h h') :
    HFOk lb h' ∧ Stays h' := by
  have he := same_empty h h' hs
  have hc : ∀ y ∈ h'.content, NamesOk y ∧ Paragraph y ∧ Worded y ∧ (Tagged y = false → ∃ c, y = .tag pName [] c) := by
    intro y hy
    obtain ⟨x, hx, ha⟩ := each_mem _ _ hs.2.2.2.2 y hy
    exact para_alike x y (ho.content x hx).1 (ho.content x hx).2 (hk.2 x hx) (keeps_content h hk.1 x hx) ha
  refine ⟨⟨region_alike _ _ _ ho.left hs.2.1, region_alike _ _ _ ho.center hs.2.2.1,
    region_alike _ _ _ ho.right hs.2.2.2.1, fun y hy => ⟨(hc y hy).1, (hc y hy).2.1⟩, by rw [he]; exact ho.breaks⟩,
    ?_, fun y hy => (hc y hy).2.2.1⟩
  unfold Keeps
  rw [he]
  have hk1 := hk.1
  unfold Keeps at hk1
  split
  · rename_i hi
    rw [hi, if_pos rfl] at hk1
    rw [hs.1, hk1]
  · intro y hy
    obtain ⟨n, as, k, rfl, _⟩ := (hc y hy).2.1
    exact ⟨worded_stays _ ⟨n, as, k, rfl⟩ (hc _ hy).2.2.1, (hc _ hy).2.2.2⟩

theorem hf_trans (a b c : HeaderFooter) (h : HFSame a b) (h' : HFSame b c) : HFSame a c :=
  ⟨h'.1.trans h.1, each_trans alike_trans _ _ _ h.2.1 h'.2.1, each_trans alike_trans _ _ _ h.2.2.1 h'.2.2.1,
    each_trans alike_trans _ _ _ h.2.2.2.1 h'.2.2.2.1, each_trans alike_trans _ _ _ h.2.2.2.2 h'.2.2.2.2⟩

theorem master_trans (a b c : Master) (h : MasterSame a b) (h' : MasterSame b c) : MasterSame a c :=
  ⟨h'.1.trans h.1, h'.2.1.trans h.2.1, h'.2.2.1.trans h.2.2.1, fun s => hf_trans _ _ _ (h.2.2.2 s) (h'.2.2.2 s)⟩

/-- A master page that stays the same any number of times. -/
def MasterStays (p : Style Master) : Prop := ∀ s, Stays (p.body.slot s)

theorem masterBack_same (lb : Bool) (p : Style Master) (ho : MasterOk lb p) (hk : ∀ s, Keeps (p.body.slot s)) :
    MasterSame p.body (masterBack p.body) :=
  ⟨rfl, rfl, rfl, fun s => hf_same _ _ (hk s) (slotBack_spec lb _ (ho s))⟩

theorem master_closed (lb : Bool) (p : Style Master) (ho : MasterOk lb p) (hk : MasterStays p) :
    MasterOk lb ⟨p.name, masterBack p.body⟩ ∧ MasterStays ⟨p.name, masterBack p.body⟩ := by
  have h := masterBack_same lb p ho fun s => (hk s).1
  exact ⟨fun s => (hf_closed lb _ _ (ho s) (hk s) (h.2.2.2 s)).1, fun s => (hf_closed lb _ _ (ho s) (hk s) (h.2.2.2 s)).2⟩

end Verif.Master
