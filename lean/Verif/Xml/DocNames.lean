import Verif.Xml.Doc

/-!
# The names in a document
-/

set_option autoImplicit false

namespace Verif.Xml

open Spec

/-- The names of elements and attributes in a sequence of tokens. -/
def tokNames : List Tok → List Str
  | [] => []
  | .start n as :: ts => n :: (as.map Prod.fst ++ tokNames ts)
  | .empty n as :: ts => n :: (as.map Prod.fst ++ tokNames ts)
  | .end n :: ts => n :: tokNames ts
  | _ :: ts => tokNames ts

theorem tokNames_append (a b : List Tok) : tokNames (a ++ b) = tokNames a ++ tokNames b := by
  induction a with
  | nil => rfl
  | cons t a ih => cases t <;> simp [tokNames, ih]

theorem tokNames_chr (s : Str) : tokNames (s.map Tok.chr) = [] := by
  induction s with
  | nil => rfl
  | cons c s ih => exact ih

theorem tokNames_esc (s : Str) : tokNames (s.map escTok) = [] := by
  induction s with
  | nil => rfl
  | cons c s ih =>
    rw [List.map_cons]
    unfold escTok
    repeat' split
    all_goals exact ih

theorem rawAttrs_keys (as : List (Bool × Str × Str)) : (rawAttrs as).map Prod.fst = as.map (·.2.1) := by
  unfold rawAttrs
  rw [List.map_map]
  rfl

/-- The names in an item. -/
def itemNames : Item → List Str
  | .start _ n as => n :: as.map (·.2.1)
  | .empty _ n as => n :: as.map (·.2.1)
  | .text _ _ => []
  | .elemText _ n _ => [n, n]
  | .end _ n => [n]
  | .noEnd _ => []

theorem tokNames_item (lb : Bool) (i : Item) : tokNames (itemToks lb i) = itemNames i := by
  cases i with
  | start v n as => simp [itemToks, tokNames, itemNames, rawAttrs_keys]
  | empty v n as => simp [itemToks, tokNames, itemNames, rawAttrs_keys, tokNames_chr]
  | text e s => cases e <;> simp [itemToks, itemNames, tokNames_chr, tokNames_esc]
  | elemText e n s =>
    cases e <;> simp [itemToks, itemNames, tokNames, tokNames_append, tokNames_chr, tokNames_esc]
  | «end» v n => simp [itemToks, tokNames, itemNames, tokNames_chr]
  | noEnd n => rfl

theorem tokNames_items (lb : Bool) (l : List Item) : tokNames (l.flatMap (itemToks lb)) = l.flatMap itemNames := by
  induction l with
  | nil => rfl
  | cons i l ih => rw [List.flatMap_cons, List.flatMap_cons, tokNames_append, tokNames_item, ih]

mutual
/-- All names of elements and attributes satisfy `P`. -/
def DocNames (P : Str → Prop) : Doc → Prop
  | .elem _ n as kids => P n ∧ (∀ a ∈ as, P a.2.1) ∧ DocsNames P kids
  | .leaf _ n as _ _ => P n ∧ ∀ a ∈ as, P a.2.1
  | .short _ n _ => P n
  | .void _ n as _ _ => P n ∧ ∀ a ∈ as, P a.2.1
/-- The same for each. -/
def DocsNames (P : Str → Prop) : List Doc → Prop
  | [] => True
  | d :: ds => DocNames P d ∧ DocsNames P ds
end

theorem docsNames_append (P : Str → Prop) (a b : List Doc) : DocsNames P (a ++ b) ↔ DocsNames P a ∧ DocsNames P b := by
  induction a with
  | nil => simp [DocsNames]
  | cons d a ih => rw [List.cons_append, DocsNames, DocsNames, ih, and_assoc]

theorem docsNames_iff (P : Str → Prop) (a : List Doc) : DocsNames P a ↔ ∀ d ∈ a, DocNames P d := by
  induction a with
  | nil => simp [DocsNames]
  | cons d a ih => rw [DocsNames, ih]; simp

mutual
theorem docNames_items (P : Str → Prop) : ∀ (d : Doc), (∀ n ∈ (docItems d).flatMap itemNames, P n) ↔ DocNames P d
  | .elem v n as kids => by
    have ih := docsNames_items P kids
    rw [docItems, DocNames, ← ih]
    simp only [List.flatMap_cons, List.cons_append, List.flatMap_append, itemNames, List.flatMap_nil, List.mem_cons,
      List.mem_append, List.mem_map, List.append_nil, List.not_mem_nil, or_false]
    constructor
    · intro h
      exact ⟨h n (.inl rfl), fun a ha => h _ (.inr (.inl ⟨a, ha, rfl⟩)), fun m hm => h m (.inr (.inr (.inl hm)))⟩
    · rintro ⟨h1, h2, h3⟩ m (rfl | ⟨a, ha, rfl⟩ | hm | rfl)
      · exact h1
      · exact h2 a ha
      · exact h3 m hm
      · exact h1
  | .leaf v n as e s => by
    rw [docItems, DocNames]
    simp only [List.flatMap_cons, List.cons_append, itemNames, List.flatMap_nil, List.mem_cons, List.nil_append,
      List.mem_append, List.mem_map, List.append_nil, List.not_mem_nil, or_false]
    constructor
    · intro h
      exact ⟨h n (.inl rfl), fun a ha => h _ (.inr (.inl ⟨a, ha, rfl⟩))⟩
    · rintro ⟨h1, h2⟩ m (rfl | ⟨a, ha, rfl⟩ | rfl)
      · exact h1
      · exact h2 a ha
      · exact h1
  | .short e n s => by
    rw [docItems, DocNames]
    simp [itemNames]
  | .void v n as t ne => by
    rw [docItems, DocNames]
    have h0 : ((t.map (Item.text · [])).toList ++ (if ne then [Item.noEnd n] else [])).flatMap itemNames = [] := by
      cases t <;> cases ne <;> rfl
    rw [List.cons_append, List.flatMap_cons, h0, List.append_nil]
    simp only [itemNames, List.mem_cons, List.mem_map]
    constructor
    · intro h
      exact ⟨h n (.inl rfl), fun a ha => h _ (.inr ⟨a, ha, rfl⟩)⟩
    · rintro ⟨h1, h2⟩ m (rfl | ⟨a, ha, rfl⟩)
      · exact h1
      · exact h2 a ha
theorem docsNames_items (P : Str → Prop) : ∀ (ds : List Doc),
    (∀ n ∈ (docsItems ds).flatMap itemNames, P n) ↔ DocsNames P ds
  | [] => by simp [docsItems, DocsNames]
  | d :: ds => by
    rw [docsItems, DocsNames, ← docNames_items P d, ← docsNames_items P ds]
    simp only [List.flatMap_append, List.mem_append]
    constructor
    · intro h
      exact ⟨fun n hn => h n (.inl hn), fun n hn => h n (.inr hn)⟩
    · rintro ⟨h1, h2⟩ n (hn | hn)
      · exact h1 n hn
      · exact h2 n hn
end

end Verif.Xml
