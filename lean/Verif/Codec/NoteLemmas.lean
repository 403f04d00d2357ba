import Verif.Codec.Note
import Verif.Codec.TimeProps
import Verif.Xml.Doc

/-!
# Lemmas about annotations and images
-/

set_option autoImplicit false

namespace Verif.Codec

open Xml Xml.Spec

/-! ## Steps of the loop -/

/-- The loop gets from `a` to `a'` over the tokens, whatever tag follows. -/
def Steps {α : Type} (tag : Str) (f : Child α) (ts : List Tok) (a a' : α) : Prop :=
  ∀ r, NoChr r → NoChr (ts ++ r) ∧ ∃ n, n + (events r).length ≤ (events (ts ++ r)).length
    ∧ ∀ k, subLoop tag f (k + n) a [] (events (ts ++ r)) = subLoop tag f k a' [] (events r)

theorem Steps.nil {α : Type} (tag : Str) (f : Child α) (a : α) : Steps tag f [] a a :=
  fun r hr => ⟨hr, 0, by simp, fun _ => rfl⟩

theorem Steps.append {α : Type} {tag : Str} {f : Child α} {ts us : List Tok} {a b c : α}
    (h1 : Steps tag f ts a b) (h2 : Steps tag f us b c) : Steps tag f (ts ++ us) a c := by
  intro r hr
  obtain ⟨n2, m, l2, e2⟩ := h2 r hr
  obtain ⟨n1, n, l1, e1⟩ := h1 (us ++ r) n2
  rw [List.append_assoc]
  refine ⟨n1, m + n, by omega, fun k => ?_⟩
  rw [← Nat.add_assoc, e1, e2]

/-- To the end tag. -/
theorem Steps.finish {α : Type} {tag : Str} {f : Child α} {ts : List Tok} {a a' : α}
    (h : Steps tag f ts a a') (r : List Tok) :
    subLoop tag f ((events (ts ++ .end tag :: r)).length + 1) a [] (events (ts ++ .end tag :: r))
      = .ok (a', events r) := by
  obtain ⟨_, n, l, e⟩ := h (.end tag :: r) (noChr_end tag r)
  rw [events_end, List.length_cons] at l
  have hk : (events (ts ++ .end tag :: r)).length + 1
      = ((events (ts ++ .end tag :: r)).length - n) + 1 + n := by omega
  rw [hk, e, events_end, subLoop, if_neg (by simp), if_pos rfl]

/-- A line break. -/
theorem subLoop_nl {α : Type} (tag : Str) (f : Child α) (lb : Bool) (r : List Tok) (hr : NoChr r) :
    ∃ n, (events ((nl lb).map Tok.chr ++ r)).length = n + (events r).length
      ∧ ∀ k a, subLoop tag f (k + n) a [] (events ((nl lb).map Tok.chr ++ r)) = subLoop tag f k a [] (events r) := by
  rw [events_nl lb r hr]
  cases lb with
  | false => exact ⟨0, by simp [nlEv], fun _ _ => rfl⟩
  | true => exact ⟨1, by simp [nlEv]; omega, fun _ _ => rfl⟩

/-- An element with a start and an end tag. -/
theorem Steps.elem {α : Type} {tag n : Str} {as : List (Str × Str)} {f : Child α} {ts : List Tok} {a a' : α}
    (lb : Bool) (h : ∀ r, f a n as false (events (ts ++ .end n :: r)) = .ok (some (a', events r))) :
    Steps tag f (.start n as :: (ts ++ .end n :: (nl lb).map Tok.chr)) a a' := by
  intro r hr
  obtain ⟨m, l, e⟩ := subLoop_nl tag f lb r hr
  refine ⟨noChr_cons _ _ (by intro c; simp), m + 1, ?_, fun k => ?_⟩
  · rw [List.cons_append, events_start, List.append_assoc, List.cons_append,
      events_append _ _ (noChr_end _ _), events_end]
    simp only [List.length_cons, List.length_append]
    omega
  · rw [List.cons_append, events_start, List.append_assoc, List.cons_append, ← Nat.add_assoc, subLoop, h]
    exact e k a'

/-- An empty element. -/
theorem Steps.void {α : Type} {tag n : Str} {as : List (Str × Str)} {f : Child α} {a a' : α}
    (lb : Bool) (h : ∀ es, f a n as true es = .ok (some (a', es))) :
    Steps tag f (.empty n as :: (nl lb).map Tok.chr) a a' := by
  intro r hr
  obtain ⟨m, l, e⟩ := subLoop_nl tag f lb r hr
  refine ⟨noChr_cons _ _ (by intro c; simp), m + 1, ?_, fun k => ?_⟩
  · rw [List.cons_append, events_empty, List.length_cons]
    omega
  · rw [List.cons_append, events_empty, ← Nat.add_assoc, subLoop, h]
    exact e k a'

/-! ## Texts -/

theorem readStr_text (tag : Str) (es : List Event) (h : ∀ e ∈ es, isTextEv e = true) (rest : List Event) :
    ∀ s, readStr tag s (es ++ .end tag :: rest) = .ok (s ++ es.flatMap evText, rest) := by
  induction es with
  | nil => intro s; simp [readStr]
  | cons e es ih =>
    intro s
    have ih := ih (fun e he => h e (List.mem_cons_of_mem _ he))
    have he := h e List.mem_cons_self
    cases e with
    | text t => rw [List.cons_append, readStr, ih, List.flatMap_cons, List.append_assoc]; rfl
    | ref n => rw [List.cons_append, readStr, ih, List.flatMap_cons, List.append_assoc]; rfl
    | start n as => cases he
    | empty n as => cases he
    | «end» n => cases he

/-- The text of an element comes back, escaped or not. -/
theorem readStr_back (tag : Str) (esc : Bool) (s : Str) (r : List Tok) :
    readStr tag [] (events ((if esc then s.map escTok else s.map Tok.chr) ++ .end tag :: r)) = .ok (s, events r) := by
  rw [events_append _ _ (noChr_end _ _), events_end]
  have := readStr_text tag (textEv esc s) (textEv_text esc s) (events r) []
  unfold textEv at this
  rw [this]
  have h2 := textEv_flat esc s
  unfold textEv at h2
  rw [h2, List.nil_append]

theorem withText_back {α : Type} (tag : Str) (esc : Bool) (s : Str) (r : List Tok) (g : Option Str → Except Fault α)
    (a : α) (h : g (some s) = .ok a) :
    withText tag false (events ((if esc then s.map escTok else s.map Tok.chr) ++ .end tag :: r)) g
      = .ok (some (a, events r)) := by
  unfold withText
  rw [if_neg (by decide), readStr_back]
  simp only
  rw [h]
  rfl

/-! ## Elements that are kept as they are -/

/-- The tokens of an element, and how it is read. -/
theorem Steps.node {α : Type} {tag : Str} {f : Child α} {a : α} (g : Node → α) (n : Str) (as : List (Str × Str))
    (c : List Node) (hw : AllWithout n c)
    (h : ∀ as et es, f a n as et es = withNode n as et es g) :
    Steps tag f (toks (nodeItems (.tag n as c))) a (g (norm (.tag n as c))) := by
  cases c with
  | nil =>
    have ht : toks (nodeItems (.tag n as [])) = .empty n (raws as) :: (nl false).map Tok.chr := by
      simp [nodeItems, toks, itemToks, escAttrs_raw, nl]
    rw [ht]
    apply Steps.void
    intro es
    rw [h, withNode, readXml, raws_unescape]
    rfl
  | cons y c =>
    have ht : toks (nodeItems (.tag n as (y :: c)))
        = .start n (raws as) :: (toks (nodesItems (y :: c)) ++ .end n :: (nl false).map Tok.chr) := by
      simp [nodeItems, nodesItems, toks, itemToks, escAttrs_raw, nl]
    have hr : ∀ r, readXml n (raws as) false (events (toks (nodesItems (y :: c)) ++ .end n :: r))
        = .ok (norm (.tag n as (y :: c)), events r) := by
      intro r
      obtain ⟨es, h1, h2⟩ := element_reads n as (y :: c) hw r
      have ht' : toks (nodeItems (.tag n as (y :: c))) ++ r
          = .start n (raws as) :: (toks (nodesItems (y :: c)) ++ .end n :: r) := by
        rw [ht]; simp [nl]
      rw [ht', events_start] at h1
      rw [← h1] at h2
      exact h2
    rw [ht]
    apply Steps.elem
    intro r
    rw [h, withNode, hr]
    rfl

/-- An element with one of the names that are read. -/
def NodeOk (x : Node) : Prop :=
  ∃ n as c, x = .tag n as c ∧ (n = tList ∨ n = tPara) ∧ NamesOk x ∧ AllWithout n c

theorem toks_nodes (x : Node) (c : List Node) : toks (nodesItems (x :: c)) = toks (nodeItems x) ++ toks (nodesItems c) := by
  rw [nodesItems, toks_append]

/-- Several. -/
theorem Steps.nodes {α : Type} {tag : Str} {f : Child α} (g : α → Node → α)
    (h : ∀ a n as et es, n = tList ∨ n = tPara → f a n as et es = withNode n as et es (g a)) (c : List Node)
    (hc : ∀ x ∈ c, NodeOk x) : ∀ a, Steps tag f (toks (nodesItems c)) a ((c.map norm).foldl g a) := by
  induction c with
  | nil => intro a; exact Steps.nil tag f a
  | cons x c ih =>
    intro a
    obtain ⟨n, as, c', rfl, hn, _, hw⟩ := hc x List.mem_cons_self
    rw [toks_nodes]
    exact (Steps.node (g a) n as c' hw (fun as et es => h a n as et es hn)).append
      (ih (fun x hx => hc x (List.mem_cons_of_mem _ hx)) _)

theorem nodes_flat (lb : Bool) (c : List Node) (h : lb = false ∨ c = []) :
    (nodesItems c).flatMap (itemToks lb) = toks (nodesItems c) := by
  rcases h with rfl | rfl
  · rfl
  · rfl

theorem allNames (c : List Node) (h : ∀ x ∈ c, NodeOk x) : AllNamesOk c := by
  induction c with
  | nil => trivial
  | cons x c ih =>
    refine ⟨?_, ih (fun x hx => h x (List.mem_cons_of_mem _ hx))⟩
    obtain ⟨n, as, c', rfl, _, hn, _⟩ := h x List.mem_cons_self
    exact hn

/-! ## Items -/

/-- An element with a text, if there is one. -/
def textItems (esc : Bool) (tag : Str) : Option Str → List Item
  | none => []
  | some s => [.start false tag [], .text esc s, .end false tag]

theorem textItems_calls (tag : Str) (o : Option Str) : (textItems true tag o).flatMap Item.calls = writeText tag o := by
  cases o <;> rfl

theorem binItems_calls (o : Option Str) : (textItems false tBinary o).flatMap Item.calls = writeBinary o := by
  cases o <;> rfl

theorem textItems_valid (esc : Bool) (tag : Str) (o : Option Str) (ht : Name tag)
    (h : esc = false → ∀ s, o = some s → Plain s) : ∀ i ∈ textItems esc tag o, i.Valid := by
  intro i hi
  cases o with
  | none => cases hi
  | some s =>
    simp only [textItems, List.mem_cons, List.not_mem_nil, or_false] at hi
    rcases hi with rfl | rfl | rfl
    · exact ⟨ht, by intro a ha; cases ha⟩
    · intro he; exact h he s rfl
    · exact ht

theorem textItems_toks (lb esc : Bool) (tag s : Str) : (textItems esc tag (some s)).flatMap (itemToks lb)
    = .start tag [] :: ((if esc then s.map escTok else s.map Tok.chr) ++ .end tag :: (nl lb).map Tok.chr) := by
  cases esc <;> simp [textItems, itemToks, rawAttrs]

/-- A text in an element. -/
theorem Steps.text {α : Type} {tag n : Str} {f : Child α} {a a' : α} (lb esc : Bool) (o : Option Str)
    (g : Option Str → Except Fault α) (h : ∀ es, f a n [] false es = withText n false es g)
    (h0 : o = none → a' = a) (h1 : ∀ s, o = some s → g (some s) = .ok a') :
    Steps tag f ((textItems esc n o).flatMap (itemToks lb)) a a' := by
  cases o with
  | none => rw [h0 rfl]; exact Steps.nil tag f a
  | some s =>
    rw [textItems_toks]
    apply Steps.elem
    intro r
    rw [h]
    exact withText_back n esc s r g a' (h1 s rfl)

/-! ## Annotations -/

/-- The attributes of an annotation. -/
def annAtts (a : Annotation) : List (Bool × Str × Str) :=
  (false, "office:display".toList, fmtBool a.display) :: (true, "office:name".toList, a.name) :: escAttrs a.attrs

/-- The items of an annotation. -/
def annItems (a : Annotation) : List Item :=
  .start false tAnnotation (annAtts a)
    :: (textItems true tCreator a.creator ++ textItems true tDate (a.date.map fmtDateTime) ++ nodesItems a.text
    ++ [.end false tAnnotation])

theorem annItems_calls (a : Annotation) : (annItems a).flatMap Item.calls = writeAnnotation a := by
  unfold annItems writeAnnotation
  have h : (annAtts a).map attrCall = .attr "office:display".toList (fmtBool a.display)
      :: .attrEsc "office:name".toList a.name :: writeAttrs a.attrs := by
    unfold annAtts writeAttrs
    rw [List.map_cons, List.map_cons, escAttrs_calls]
    rfl
  simp only [List.flatMap_cons, List.flatMap_append, textItems_calls, nodesItems_calls, List.flatMap_nil,
    Item.calls, h]
  simp

/-- An annotation that can be written and read. -/
structure AnnotationOk (lb : Bool) (a : Annotation) : Prop where
  attrs : ∀ x ∈ a.attrs, Name x.1 ∧ x.1 ≠ "office:display".toList ∧ x.1 ≠ "office:name".toList
  date : ∀ d, a.date = some d → ValidDateTime d ∧ d.year ≤ 9999
  text : ∀ x ∈ a.text, NodeOk x
  flat : lb = false ∨ a.text = []

/-- An annotation as it is read. -/
def annBack (a : Annotation) : Annotation := { a with text := a.text.map norm }

theorem plain_fmtBool (b : Bool) : Plain (fmtBool b) := by cases b <;> decide

theorem annAtts_ok (lb : Bool) (a : Annotation) (h : AnnotationOk lb a) : AttrsOk (annAtts a) := by
  intro x hx
  unfold annAtts at hx
  rcases List.mem_cons.1 hx with rfl | hx
  · exact ⟨(by decide : Name "office:display".toList), fun _ => plain_fmtBool _⟩
  · rcases List.mem_cons.1 hx with rfl | hx
    · exact ⟨(by decide : Name "office:name".toList), by intro h; cases h⟩
    · exact escAttrs_ok a.attrs (fun x hx => (h.attrs x hx).1) x hx

theorem annItems_valid (lb : Bool) (a : Annotation) (h : AnnotationOk lb a) : ∀ i ∈ annItems a, i.Valid := by
  intro i hi
  unfold annItems at hi
  simp only [List.mem_cons, List.mem_append, List.not_mem_nil, or_false] at hi
  rcases hi with rfl | ((hi | hi) | hi) | rfl
  · exact ⟨by decide, annAtts_ok lb a h⟩
  · exact textItems_valid true _ _ (by decide) (by intro h; cases h) i hi
  · exact textItems_valid true _ _ (by decide) (by intro h; cases h) i hi
  · exact nodesItems_valid _ (allNames _ h.text) i hi
  · show Name _; decide

theorem annAttrs_append (a : Annotation) (l : List (Str × Str))
    (h : ∀ x ∈ l, x.1 ≠ "office:display".toList ∧ x.1 ≠ "office:name".toList) :
    annAttrs a (raws l) = .ok { a with attrs := a.attrs ++ l } := by
  induction l generalizing a with
  | nil => simp [raws, annAttrs]
  | cons x l ih =>
    obtain ⟨h1, h2⟩ := h x List.mem_cons_self
    show annAttrs a ((x.1, escape x.2) :: raws l) = _
    rw [annAttrs, annAttr, if_neg h1, if_neg h2, unescape_escape]
    show annAttrs { a with attrs := a.attrs ++ [(x.1, x.2)] } (raws l) = _
    rw [ih _ (fun x hx => h x (List.mem_cons_of_mem _ hx))]
    simp

theorem annAttrs_read (lb : Bool) (a : Annotation) (h : AnnotationOk lb a) :
    annAttrs {} (rawAttrs (annAtts a)) = .ok { name := a.name, display := a.display, attrs := a.attrs } := by
  have e : rawAttrs (annAtts a) = ("office:display".toList, fmtBool a.display)
      :: ("office:name".toList, escape a.name) :: raws a.attrs := by
    unfold annAtts
    rw [← escAttrs_raw]
    rfl
  have hb : parseBool (fmtBool a.display) = some a.display := by cases a.display <;> decide
  rw [e, annAttrs, annAttr, if_pos rfl, hb]
  show annAttrs { display := a.display } (("office:name".toList, escape a.name) :: raws a.attrs) = _
  rw [annAttrs, annAttr, if_neg (by decide), if_pos rfl, unescape_escape]
  show annAttrs { display := a.display, name := a.name } (raws a.attrs) = _
  rw [annAttrs_append _ _ (fun x hx => (h.attrs x hx).2)]
  rfl

theorem foldl_text (l : List Node) : ∀ a : Annotation,
    l.foldl (fun a t => { a with text := a.text ++ [t] }) a = { a with text := a.text ++ l } := by
  induction l with
  | nil => intro a; simp
  | cons x l ih => intro a; rw [List.foldl_cons, ih]; simp

/-- The elements of an annotation. -/
theorem ann_steps (lb : Bool) (a : Annotation) (h : AnnotationOk lb a) :
    Steps tAnnotation annChild ((textItems true tCreator a.creator ++ textItems true tDate (a.date.map fmtDateTime)
      ++ nodesItems a.text).flatMap (itemToks lb)) { name := a.name, display := a.display, attrs := a.attrs }
      (annBack a) := by
  rw [List.flatMap_append, List.flatMap_append, nodes_flat lb _ h.flat]
  have h1 : Steps tAnnotation annChild ((textItems true tCreator a.creator).flatMap (itemToks lb))
      { name := a.name, display := a.display, attrs := a.attrs }
      { name := a.name, display := a.display, attrs := a.attrs, creator := a.creator } := by
    refine Steps.text lb true a.creator
      (fun s => .ok { name := a.name, display := a.display, attrs := a.attrs, creator := s }) ?_ ?_ ?_
    · intro es; rfl
    · intro e; rw [e]
    · intro s e; rw [e]
  have h2 : Steps tAnnotation annChild ((textItems true tDate (a.date.map fmtDateTime)).flatMap (itemToks lb))
      { name := a.name, display := a.display, attrs := a.attrs, creator := a.creator }
      { name := a.name, display := a.display, attrs := a.attrs, creator := a.creator, date := a.date } := by
    refine Steps.text lb true (a.date.map fmtDateTime)
      (setDate { name := a.name, display := a.display, attrs := a.attrs, creator := a.creator }) ?_ ?_ ?_
    · intro es; rfl
    · intro e
      cases hd : a.date with
      | none => rfl
      | some d => rw [hd] at e; cases e
    · intro s e
      cases hd : a.date with
      | none => rw [hd] at e; cases e
      | some d =>
        rw [hd] at e
        cases e
        obtain ⟨g1, g2⟩ := h.date d hd
        rw [setDate, C62_datetime_partial d g1 g2]
        rfl
  have h3 := Steps.nodes (tag := tAnnotation) (f := annChild) (fun a t => { a with text := a.text ++ [t] })
    (by
      intro a n as et es hn
      have n1 : n ≠ tCreator := by rcases hn with rfl | rfl <;> decide
      have n2 : n ≠ tDate := by rcases hn with rfl | rfl <;> decide
      rw [annChild, if_neg n1, if_neg n2, if_pos hn]) a.text h.text
    { name := a.name, display := a.display, attrs := a.attrs, creator := a.creator, date := a.date }
  rw [foldl_text] at h3
  exact (h1.append h2).append h3

/-- An annotation is read. -/
theorem annotation_read (lb : Bool) (a : Annotation) (h : AnnotationOk lb a) (r : List Tok) :
    readAnnotation (rawAttrs (annAtts a)) (events ((textItems true tCreator a.creator
      ++ textItems true tDate (a.date.map fmtDateTime) ++ nodesItems a.text).flatMap (itemToks lb)
      ++ .end tAnnotation :: r)) = .ok (annBack a, events r) := by
  rw [readAnnotation, annAttrs_read lb a h]
  exact (ann_steps lb a h).finish r

/-! ## Images -/

/-- The items of an image. -/
def imageItems (i : DrawImage) : List Item :=
  .start false tImage (escAttrs i.attrs) :: (textItems false tBinary i.binary ++ nodesItems i.text
    ++ [.end false tImage])

theorem imageItems_calls (i : DrawImage) : (imageItems i).flatMap Item.calls = writeImage i := by
  unfold imageItems writeImage writeAttrs
  simp only [List.flatMap_cons, List.flatMap_append, binItems_calls, nodesItems_calls, List.flatMap_nil,
    Item.calls, escAttrs_calls]
  simp

/-- An image that can be written and read. -/
structure ImageOk (lb : Bool) (i : DrawImage) : Prop where
  attrs : ∀ x ∈ i.attrs, Name x.1
  binary : ∀ b, i.binary = some b → Plain b
  text : ∀ x ∈ i.text, NodeOk x
  flat : lb = false ∨ i.text = []

/-- An image as it is read. -/
def imageBack (i : DrawImage) : DrawImage := { i with text := i.text.map norm }

theorem imageItems_valid (lb : Bool) (i : DrawImage) (h : ImageOk lb i) : ∀ x ∈ imageItems i, x.Valid := by
  intro x hx
  unfold imageItems at hx
  simp only [List.mem_cons, List.mem_append, List.not_mem_nil, or_false] at hx
  rcases hx with rfl | (hx | hx) | rfl
  · exact ⟨by decide, escAttrs_ok _ h.attrs⟩
  · exact textItems_valid false _ _ (by decide) (fun _ => h.binary) x hx
  · exact nodesItems_valid _ (allNames _ h.text) x hx
  · show Name _; decide

theorem foldl_imageText (l : List Node) : ∀ i : DrawImage,
    l.foldl (fun i t => { i with text := i.text ++ [t] }) i = { i with text := i.text ++ l } := by
  induction l with
  | nil => intro a; simp
  | cons x l ih => intro a; rw [List.foldl_cons, ih]; simp

theorem image_steps (lb : Bool) (i : DrawImage) (h : ImageOk lb i) :
    Steps tImage imageChild ((textItems false tBinary i.binary ++ nodesItems i.text).flatMap (itemToks lb))
      { attrs := i.attrs } (imageBack i) := by
  rw [List.flatMap_append, nodes_flat lb _ h.flat]
  have h1 : Steps tImage imageChild ((textItems false tBinary i.binary).flatMap (itemToks lb))
      { attrs := i.attrs } { attrs := i.attrs, binary := i.binary } := by
    refine Steps.text lb false i.binary (fun s => .ok { attrs := i.attrs, binary := s }) ?_ ?_ ?_
    · intro es; rfl
    · intro e; rw [e]
    · intro s e; rw [e]
  have h3 := Steps.nodes (tag := tImage) (f := imageChild) (fun i t => { i with text := i.text ++ [t] })
    (by
      intro a n as et es hn
      have n1 : ¬ (n = tBinary ∧ et = false) := by
        rintro ⟨rfl, _⟩
        rcases hn with h | h
        · exact absurd h (by decide)
        · exact absurd h (by decide)
      rw [imageChild, if_neg n1, if_pos hn]) i.text h.text { attrs := i.attrs, binary := i.binary }
  rw [foldl_imageText] at h3
  exact h1.append h3

theorem image_read (lb : Bool) (i : DrawImage) (h : ImageOk lb i) (r : List Tok) :
    readImage (rawAttrs (escAttrs i.attrs)) false (events ((textItems false tBinary i.binary
      ++ nodesItems i.text).flatMap (itemToks lb) ++ .end tImage :: r)) = .ok (imageBack i, events r) := by
  rw [readImage, escAttrs_raw, raws_unescape]
  exact (image_steps lb i h).finish r

/-- The items of a frame. -/
def frameItems (f : DrawFrame) : List Item :=
  .start false tFrame (escAttrs f.attrs) :: (f.images.flatMap imageItems ++ textItems true tDesc f.desc
    ++ textItems true tTitle f.title ++ [.end false tFrame])

theorem images_calls (l : List DrawImage) : (l.flatMap imageItems).flatMap Item.calls = l.flatMap writeImage := by
  induction l with
  | nil => rfl
  | cons i l ih => rw [List.flatMap_cons, List.flatMap_append, ih, imageItems_calls, List.flatMap_cons]

theorem frameItems_calls (f : DrawFrame) : (frameItems f).flatMap Item.calls = writeFrame f := by
  unfold frameItems writeFrame writeAttrs
  simp only [List.flatMap_cons, List.flatMap_append, images_calls, textItems_calls, List.flatMap_nil,
    Item.calls, escAttrs_calls]
  simp

/-- A frame that can be written and read. -/
structure FrameOk (lb : Bool) (f : DrawFrame) : Prop where
  attrs : ∀ x ∈ f.attrs, Name x.1
  images : ∀ i ∈ f.images, ImageOk lb i

/-- A frame as it is read. -/
def frameBack (f : DrawFrame) : DrawFrame := { f with images := f.images.map imageBack }

theorem frameItems_valid (lb : Bool) (f : DrawFrame) (h : FrameOk lb f) : ∀ x ∈ frameItems f, x.Valid := by
  intro x hx
  unfold frameItems at hx
  simp only [List.mem_cons, List.mem_append, List.mem_flatMap, List.not_mem_nil, or_false] at hx
  rcases hx with rfl | ((⟨i, hi, hx⟩ | hx) | hx) | rfl
  · exact ⟨by decide, escAttrs_ok _ h.attrs⟩
  · exact imageItems_valid lb i (h.images i hi) x hx
  · exact textItems_valid true _ _ (by decide) (by intro h; cases h) x hx
  · exact textItems_valid true _ _ (by decide) (by intro h; cases h) x hx
  · show Name _; decide

theorem imageItems_toks (lb : Bool) (i : DrawImage) : (imageItems i).flatMap (itemToks lb)
    = .start tImage (rawAttrs (escAttrs i.attrs)) :: ((textItems false tBinary i.binary
      ++ nodesItems i.text).flatMap (itemToks lb) ++ .end tImage :: (nl lb).map Tok.chr) := by
  unfold imageItems
  simp [itemToks]

theorem images_steps (lb : Bool) (l : List DrawImage) (h : ∀ i ∈ l, ImageOk lb i) : ∀ f : DrawFrame,
    Steps tFrame frameChild ((l.flatMap imageItems).flatMap (itemToks lb)) f
      { f with images := f.images ++ l.map imageBack } := by
  induction l with
  | nil => intro f; simpa using Steps.nil tFrame frameChild f
  | cons i l ih =>
    intro f
    rw [List.flatMap_cons, List.flatMap_append, imageItems_toks]
    have h1 : Steps tFrame frameChild (.start tImage (rawAttrs (escAttrs i.attrs)) :: ((textItems false tBinary i.binary
        ++ nodesItems i.text).flatMap (itemToks lb) ++ .end tImage :: (nl lb).map Tok.chr)) f
        { f with images := f.images ++ [imageBack i] } := by
      apply Steps.elem
      intro r
      rw [frameChild, if_pos rfl, image_read lb i (h i List.mem_cons_self)]
      rfl
    have h2 := ih (fun i hi => h i (List.mem_cons_of_mem _ hi)) { f with images := f.images ++ [imageBack i] }
    have h3 := h1.append h2
    simpa using h3

theorem frame_steps (lb : Bool) (f : DrawFrame) (h : FrameOk lb f) :
    Steps tFrame frameChild ((f.images.flatMap imageItems ++ textItems true tDesc f.desc
      ++ textItems true tTitle f.title).flatMap (itemToks lb)) { attrs := f.attrs } (frameBack f) := by
  rw [List.flatMap_append, List.flatMap_append]
  have h1 := images_steps lb f.images h.images { attrs := f.attrs }
  have h2 : Steps tFrame frameChild ((textItems true tDesc f.desc).flatMap (itemToks lb))
      { attrs := f.attrs, images := [] ++ f.images.map imageBack }
      { attrs := f.attrs, images := f.images.map imageBack, desc := f.desc } := by
    refine Steps.text lb true f.desc (fun s => .ok { attrs := f.attrs, images := f.images.map imageBack, desc := s })
      ?_ ?_ ?_
    · intro es; rfl
    · intro e; rw [e]; rfl
    · intro s e; rw [e]
  have h3 : Steps tFrame frameChild ((textItems true tTitle f.title).flatMap (itemToks lb))
      { attrs := f.attrs, images := f.images.map imageBack, desc := f.desc }
      (frameBack f) := by
    refine Steps.text lb true f.title
      (fun s => .ok { attrs := f.attrs, images := f.images.map imageBack, desc := f.desc, title := s }) ?_ ?_ ?_
    · intro es; rfl
    · intro e; unfold frameBack; rw [e]
    · intro s e; unfold frameBack; rw [e]
  exact (h1.append h2).append h3

theorem frame_read (lb : Bool) (f : DrawFrame) (h : FrameOk lb f) (r : List Tok) :
    readFrame (rawAttrs (escAttrs f.attrs)) (events ((f.images.flatMap imageItems ++ textItems true tDesc f.desc
      ++ textItems true tTitle f.title).flatMap (itemToks lb) ++ .end tFrame :: r)) = .ok (frameBack f, events r) := by
  rw [readFrame, escAttrs_raw, raws_unescape]
  exact (frame_steps lb f h).finish r

end Verif.Codec
