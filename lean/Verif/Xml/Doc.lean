import Verif.Xml.Fragment

/-!
# Documents of elements

Most of what the crate writes are elements that contain either elements or one text.  For such
documents the events the reader gets are the elements themselves: `events_docs`.  Everything holds
with and without line breaks (flat files are written with line breaks).
-/

set_option autoImplicit false

namespace Verif.Xml

open Spec

/-- Something that was written. -/
inductive Doc where
  /-- `elem`, the attributes, the content, `end_elem` -/
  | elem (viaIf : Bool) (name : Str) (attrs : List (Bool × Str × Str)) (kids : List Doc)
  /-- `elem`, the attributes, a text, `end_elem` -/
  | leaf (viaIf : Bool) (name : Str) (attrs : List (Bool × Str × Str)) (esc : Bool) (s : Str)
  /-- `elem_text`, `elem_text_esc` -/
  | short (esc : Bool) (name s : Str)
  /-- `empty`, or `elem_if(false, ..)` with the attributes; an empty text may follow and
  `end_elem_if(false, ..)` -/
  | void (viaIf : Bool) (name : Str) (attrs : List (Bool × Str × Str)) (txt : Option Bool) (noEnd : Bool)

mutual
/-- The items. -/
def docItems : Doc → List Item
  | .elem i n as kids => .start i n as :: docsItems kids ++ [.end i n]
  | .leaf i n as e s => [.start i n as, .text e s, .end i n]
  | .short e n s => [.elemText e n s]
  | .void i n as t ne => .empty i n as :: (t.map (Item.text · [])).toList ++ (if ne then [.noEnd n] else [])
/-- The items. -/
def docsItems : List Doc → List Item
  | [] => []
  | d :: ds => docItems d ++ docsItems ds
end

/-- The calls. -/
def docCalls (d : Doc) : List Call := (docItems d).flatMap Item.calls

/-- The calls. -/
def docsCalls (ds : List Doc) : List Call := (docsItems ds).flatMap Item.calls

/-- A line break between tags. -/
def nlEv (lb : Bool) : List Event := if lb then [.text ['\n']] else []

/-- The events of a text. -/
def textEv (esc : Bool) (s : Str) : List Event := events (if esc then s.map escTok else s.map Tok.chr)

mutual
/-- The events. -/
def docEv (lb : Bool) : Doc → List Event
  | .elem _ n as kids => .start n (rawAttrs as) :: (docsEv lb kids ++ .end n :: nlEv lb)
  | .leaf _ n as e s => .start n (rawAttrs as) :: (textEv e s ++ .end n :: nlEv lb)
  | .short e n s => .start n [] :: (textEv e s ++ .end n :: nlEv lb)
  | .void _ n as _ _ => .empty n (rawAttrs as) :: nlEv lb
/-- The events. -/
def docsEv (lb : Bool) : List Doc → List Event
  | [] => []
  | d :: ds => docEv lb d ++ docsEv lb ds
end

mutual
/-- Names are XML names, and what is not escaped needs no escaping. -/
def DocOk : Doc → Prop
  | .elem _ n as kids => Name n ∧ AttrsOk as ∧ DocsOk kids
  | .leaf _ n as e s => Name n ∧ AttrsOk as ∧ (e = false → Plain s)
  | .short e n s => Name n ∧ (e = false → Plain s)
  | .void _ n as _ _ => Name n ∧ AttrsOk as
/-- The same for each. -/
def DocsOk : List Doc → Prop
  | [] => True
  | d :: ds => DocOk d ∧ DocsOk ds
end

theorem docsEv_append (lb : Bool) (a b : List Doc) : docsEv lb (a ++ b) = docsEv lb a ++ docsEv lb b := by
  induction a with
  | nil => rfl
  | cons d a ih => rw [List.cons_append, docsEv, docsEv, ih, List.append_assoc]

theorem docsItems_append (a b : List Doc) : docsItems (a ++ b) = docsItems a ++ docsItems b := by
  induction a with
  | nil => rfl
  | cons d a ih => rw [List.cons_append, docsItems, docsItems, ih, List.append_assoc]

theorem docsOk_append (a b : List Doc) : DocsOk (a ++ b) ↔ DocsOk a ∧ DocsOk b := by
  induction a with
  | nil => simp [DocsOk]
  | cons d a ih => rw [List.cons_append, DocsOk, DocsOk, ih, and_assoc]

theorem docsOk_iff (a : List Doc) : DocsOk a ↔ ∀ d ∈ a, DocOk d := by
  induction a with
  | nil => simp [DocsOk]
  | cons d a ih => rw [DocsOk, ih]; simp

mutual
theorem docItems_valid : ∀ (d : Doc), DocOk d → ∀ i ∈ docItems d, i.Valid
  | .elem v n as kids, h, i, hi => by
    rw [DocOk] at h
    rw [docItems] at hi
    simp only [List.cons_append, List.mem_cons, List.mem_append, List.not_mem_nil, or_false] at hi
    rcases hi with rfl | hi | rfl
    · exact ⟨h.1, h.2.1⟩
    · exact docsItems_valid kids h.2.2 i hi
    · exact h.1
  | .leaf v n as e s, h, i, hi => by
    rw [DocOk] at h
    rw [docItems] at hi
    simp only [List.mem_cons, List.not_mem_nil, or_false] at hi
    rcases hi with rfl | rfl | rfl
    · exact ⟨h.1, h.2.1⟩
    · exact h.2.2
    · exact h.1
  | .short e n s, h, i, hi => by
    rw [DocOk] at h
    rw [docItems] at hi
    simp only [List.mem_cons, List.not_mem_nil, or_false] at hi
    subst hi
    exact h
  | .void v n as t ne, h, i, hi => by
    rw [DocOk] at h
    rw [docItems] at hi
    simp only [List.cons_append, List.mem_cons, List.mem_append] at hi
    rcases hi with rfl | hi | hi
    · exact h
    · cases t with
      | none => simp at hi
      | some b =>
        simp at hi; subst hi
        intro _ c hc; cases hc
    · cases ne with
      | false => simp at hi
      | true => simp at hi; subst hi; trivial
theorem docsItems_valid : ∀ (ds : List Doc), DocsOk ds → ∀ i ∈ docsItems ds, i.Valid
  | [], _, i, hi => by rw [docsItems] at hi; cases hi
  | d :: ds, h, i, hi => by
    rw [DocsOk] at h
    rw [docsItems, List.mem_append] at hi
    rcases hi with hi | hi
    · exact docItems_valid d h.1 i hi
    · exact docsItems_valid ds h.2 i hi
end

/-- The tokens of items. -/
def itemsToks (lb : Bool) (items : List Item) : List Tok := items.flatMap (itemToks lb)

theorem itemsToks_append (lb : Bool) (a b : List Item) :
    itemsToks lb (a ++ b) = itemsToks lb a ++ itemsToks lb b := by simp [itemsToks]

theorem itemsToks_cons (lb : Bool) (a : Item) (b : List Item) :
    itemsToks lb (a :: b) = itemToks lb a ++ itemsToks lb b := by simp [itemsToks]

theorem events_nl (lb : Bool) (r : List Tok) (hr : NoChr r) :
    events ((nl lb).map Tok.chr ++ r) = nlEv lb ++ events r := by
  rw [events_append _ r hr]
  cases lb <;> rfl

theorem noChr_end (n : Str) (r : List Tok) : NoChr (.end n :: r) := noChr_cons _ _ (by intro c; simp)

theorem events_start (n : Str) (as : List (Str × Str)) (r : List Tok) :
    events (.start n as :: r) = .start n as :: events r := rfl

theorem events_end (n : Str) (r : List Tok) : events (.end n :: r) = .end n :: events r := rfl

theorem events_empty (n : Str) (as : List (Str × Str)) (r : List Tok) :
    events (.empty n as :: r) = .empty n as :: events r := rfl

theorem docItems_head (lb : Bool) (d : Doc) (r : List Tok) : NoChr (itemsToks lb (docItems d) ++ r) := by
  cases d with
  | elem v n as kids => rw [docItems]; exact noChr_cons _ _ (by intro c; simp)
  | leaf v n as e s => rw [docItems]; exact noChr_cons _ _ (by intro c; simp)
  | short e n s => rw [docItems]; cases e <;> exact noChr_cons _ _ (by intro c; simp)
  | void v n as t ne => rw [docItems]; exact noChr_cons _ _ (by intro c; simp)

theorem docsItems_head (lb : Bool) (ds : List Doc) (r : List Tok) (hr : NoChr r) :
    NoChr (itemsToks lb (docsItems ds) ++ r) := by
  cases ds with
  | nil => exact hr
  | cons d ds =>
    rw [docsItems, itemsToks_append, List.append_assoc]
    exact docItems_head lb d _

theorem textToks (lb e : Bool) (s : Str) :
    itemToks lb (.text e s) = if e then s.map escTok else s.map Tok.chr := by
  cases e <;> rfl

mutual
theorem events_doc (lb : Bool) : ∀ (d : Doc) (r : List Tok), NoChr r →
    events (itemsToks lb (docItems d) ++ r) = docEv lb d ++ events r
  | .elem v n as kids, r, hr => by
    rw [docItems, docEv, itemsToks_append, itemsToks_cons]
    show events (.start n (rawAttrs as) :: (itemsToks lb (docsItems kids) ++ (itemsToks lb [.end v n])) ++ r) = _
    have he : itemsToks lb [.end v n] = .end n :: (nl lb).map Tok.chr := by simp [itemsToks, itemToks]
    rw [he, List.cons_append, events_start, List.append_assoc, List.cons_append,
      events_docs lb kids _ (noChr_end n _), events_end, events_nl lb r hr]
    simp
  | .leaf v n as e s, r, hr => by
    rw [docItems, docEv, itemsToks_cons, itemsToks_cons]
    have he : itemsToks lb [.end v n] = .end n :: (nl lb).map Tok.chr := by simp [itemsToks, itemToks]
    rw [he, textToks]
    show events (.start n (rawAttrs as) :: ((if e then s.map escTok else s.map Tok.chr)
      ++ .end n :: (nl lb).map Tok.chr) ++ r) = _
    rw [List.cons_append, events_start, List.append_assoc, List.cons_append, events_append _ _ (noChr_end n _),
      events_end, events_nl lb r hr]
    simp [textEv]
  | .short e n s, r, hr => by
    rw [docItems, docEv]
    have he : itemsToks lb [.elemText e n s] = .start n [] :: ((if e then s.map escTok else s.map Tok.chr)
      ++ .end n :: (nl lb).map Tok.chr) := by
      cases e <;> simp [itemsToks, itemToks]
    rw [he, List.cons_append, events_start, List.append_assoc, List.cons_append,
      events_append _ _ (noChr_end n _), events_end, events_nl lb r hr]
    simp [textEv]
  | .void v n as t ne, r, hr => by
    rw [docItems, docEv]
    have he : itemsToks lb (.empty v n as :: (t.map (Item.text · [])).toList ++ (if ne then [.noEnd n] else []))
        = .empty n (rawAttrs as) :: (nl lb).map Tok.chr := by
      cases t with
      | none => cases ne <;> simp [itemsToks, itemToks]
      | some b => cases b <;> cases ne <;> simp [itemsToks, itemToks]
    rw [he, List.cons_append, events_empty, events_nl lb r hr]
    simp
theorem events_docs (lb : Bool) : ∀ (ds : List Doc) (r : List Tok), NoChr r →
    events (itemsToks lb (docsItems ds) ++ r) = docsEv lb ds ++ events r
  | [], r, _ => rfl
  | d :: ds, r, hr => by
    rw [docsItems, docsEv, itemsToks_append, List.append_assoc,
      events_doc lb d _ (docsItems_head lb ds r hr), events_docs lb ds r hr, List.append_assoc]
end

theorem getLast?_append_ne {α : Type} (a b : List α) (h : b ≠ []) : (a ++ b).getLast? = b.getLast? := by
  rw [List.getLast?_append]
  cases hb : b.getLast? with
  | none => exact absurd (List.getLast?_eq_none_iff.1 hb) h
  | some x => rfl

/-- The last item of an element is not an open tag. -/
theorem elem_last (v : Bool) (n : Str) (as : List (Bool × Str × Str)) (kids : List Doc) :
    ∀ i ∈ (docItems (.elem v n as kids)).getLast?, ¬ i.Opens := by
  intro i hi
  rw [docItems, getLast?_append_ne _ _ (by simp)] at hi
  simp at hi
  subst hi
  exact fun h => h

/-- **What is read of a document**: a declaration and an element with its content. -/
theorem read_document (lb : Bool) (encoding : Str) (he : '>' ∉ encoding) (v : Bool) (n : Str)
    (as : List (Bool × Str × Str)) (kids : List Doc) (hok : DocOk (.elem v n as kids)) :
    ∃ ts, tokenize (output lb (.dtd encoding :: docCalls (.elem v n as kids))) = some ts
      ∧ events ts = .text (if lb then ['\n', '\n'] else ['\n']) :: docEv lb (.elem v n as kids) := by
  refine ⟨.chr '\n' :: (nl lb).map Tok.chr ++ itemsToks lb (docItems (.elem v n as kids)), ?_, ?_⟩
  · unfold docCalls
    rw [output_doc lb encoding _ (elem_last v n as kids)]
    unfold tokenize
    rw [tokFrom_seq (tok_dtd lb encoding he) _ (tok_items lb _ (docItems_valid _ hok))]
    rfl
  · rw [events_append _ _ (by
      have := docItems_head lb (.elem v n as kids) []
      rwa [List.append_nil] at this)]
    have := events_doc lb (.elem v n as kids) [] ⟨nofun, nofun⟩
    rw [List.append_nil] at this
    rw [this]
    rw [show events [] = [] from rfl, List.append_nil]
    cases lb <;> rfl

/-- What is read of an element without a declaration. -/
theorem read_element (lb : Bool) (v : Bool) (n : Str) (as : List (Bool × Str × Str)) (kids : List Doc)
    (hok : DocOk (.elem v n as kids)) :
    ∃ ts, tokenize (output lb (docCalls (.elem v n as kids))) = some ts
      ∧ events ts = docEv lb (.elem v n as kids) := by
  refine ⟨itemsToks lb (docItems (.elem v n as kids)), ?_, ?_⟩
  · exact tok_fragment lb _ (docItems_valid _ hok) (elem_last v n as kids)
  · have := events_doc lb (.elem v n as kids) [] ⟨nofun, nofun⟩
    rw [List.append_nil] at this
    rw [this]; simp [events]

/-! ## Texts -/

/-- Only text and references. -/
def isTextEv : Event → Bool
  | .text _ => true
  | .ref _ => true
  | _ => false

/-- The text of an event. -/
def evText : Event → Str
  | .text s => s
  | .ref n => entity n
  | _ => []

theorem events_text (ts : List Tok) (h : ∀ t ∈ ts, (∃ c, t = .chr c) ∨ ∃ n, t = .ref n) :
    ∀ e ∈ events ts, isTextEv e = true := by
  induction ts with
  | nil => intro e he; cases he
  | cons t ts ih =>
    have ih := ih (fun t ht => h t (List.mem_cons_of_mem _ ht))
    rcases h t List.mem_cons_self with ⟨c, rfl⟩ | ⟨n, rfl⟩
    · intro e he
      rcases events_chr_cases c ts with h1 | ⟨s, es, h1, h2⟩
      · rw [h1] at he
        rcases List.mem_cons.1 he with rfl | he
        · rfl
        · exact ih e he
      · rw [h2] at he
        rw [h1] at ih
        rcases List.mem_cons.1 he with rfl | he
        · rfl
        · exact ih e (List.mem_cons_of_mem _ he)
    · intro e he
      rw [events] at he
      rcases List.mem_cons.1 he with rfl | he
      · rfl
      · exact ih e he

theorem escTok_text (c : Char) : (∃ d, escTok c = .chr d) ∨ ∃ n, escTok c = .ref n := by
  cases hm : isMarkup c with
  | true => obtain ⟨n, h1, _⟩ := escTok_markup c hm; exact .inr ⟨n, h1⟩
  | false => exact .inl ⟨c, escTok_plain c hm⟩

/-- The events of a text are texts and references. -/
theorem textEv_text (esc : Bool) (s : Str) : ∀ e ∈ textEv esc s, isTextEv e = true := by
  unfold textEv
  apply events_text
  intro t ht
  cases esc with
  | true =>
    simp only [if_true] at ht
    obtain ⟨c, _, rfl⟩ := List.mem_map.1 ht
    exact escTok_text c
  | false =>
    simp only [Bool.false_eq_true, if_false] at ht
    obtain ⟨c, _, rfl⟩ := List.mem_map.1 ht
    exact .inl ⟨c, rfl⟩

theorem events_chr_flat (c : Char) (ts : List Tok) :
    (events (.chr c :: ts)).flatMap evText = c :: (events ts).flatMap evText := by
  rcases events_chr_cases c ts with h1 | ⟨s, es, h1, h2⟩
  · rw [h1]; rfl
  · rw [h1, h2]; rfl

/-- The text comes back. -/
theorem textEv_flat (esc : Bool) (s : Str) : (textEv esc s).flatMap evText = s := by
  unfold textEv
  cases esc with
  | true =>
    simp only [if_true]
    induction s with
    | nil => rfl
    | cons c s ih =>
      rw [List.map_cons]
      cases hm : isMarkup c with
      | true =>
        obtain ⟨n, h1, h2⟩ := escTok_markup c hm
        rw [h1, events, List.flatMap_cons, ih]
        show entity n ++ s = _
        rw [h2]; rfl
      | false => rw [escTok_plain c hm, events_chr_flat, ih]
  | false =>
    simp only [Bool.false_eq_true, if_false]
    induction s with
    | nil => rfl
    | cons c s ih => rw [List.map_cons, events_chr_flat, ih]

/-- There is no event exactly for the empty text. -/
theorem textEv_nil (esc : Bool) (s : Str) : textEv esc s = [] ↔ s = [] := by
  constructor
  · intro h
    have := textEv_flat esc s
    rw [h] at this
    exact this.symm
  · rintro rfl
    cases esc <;> rfl

end Verif.Xml
