import Verif.Codec.Element

/-!
# C104: annotations and frames of other programs
-/

set_option autoImplicit false

namespace Verif.Codec

open Xml Xml.Spec

/-! ## Specification -/

/-- The elements with this name that have a start tag, as texts; an empty tag has no text. -/
def fieldsIn (tag : Str) (c : List El) : List (Option Str) :=
  c.filterMap fun
    | .void n _ => if n = tag then some none else none
    | .elem n _ c => if n = tag then some (some (saidIn c)) else none
    | _ => none

/-- The same without the empty tags. -/
def textsWith (tag : Str) (c : List El) : List Str := (fieldsIn tag c).filterMap id

/-- The paragraphs and lists among the elements, as trees. -/
def paragraphsIn (c : List El) : List Node :=
  (c.filter fun e => e.name? == some tList || e.name? == some tPara).map El.tree

/-- The attributes of an annotation that have no field of their own. -/
def noteRest (as : List (Str × Str)) : List (Str × Str) :=
  as.filter fun a => a.1 ≠ "office:display".toList && a.1 ≠ "office:name".toList

/-- The annotation that an element means: the last creator and date count, and all paragraphs and lists. -/
def noteOf (as : List (Str × Str)) (c : List El) : Annotation :=
  { name := (attrPlain as "office:name").join.getD []
    display := ((attrText as "office:display").bind parseBool).getD false
    creator := (fieldsIn tCreator c).getLast?.join
    date := (fieldsIn tDate c).getLast?.join.bind parseDateTime
    text := paragraphsIn c
    attrs := plainAttrs (noteRest as) }

/-- The image that an element means. -/
def imageOf (as : List (Str × Str)) (c : List El) : DrawImage :=
  { attrs := plainAttrs as, binary := (textsWith tBinary c).getLast?, text := paragraphsIn c }

/-- The images among the elements. -/
def imagesIn (c : List El) : List DrawImage :=
  c.filterMap fun
    | .void n as => if n = tImage then some (imageOf as []) else none
    | .elem n as c => if n = tImage then some (imageOf as c) else none
    | _ => none

/-- The frame that an element means. -/
def frameOf (as : List (Str × Str)) (c : List El) : DrawFrame :=
  { attrs := plainAttrs as, images := imagesIn c
    desc := (textsWith tDesc c).getLast?, title := (textsWith tTitle c).getLast? }

/-- The names that matter in an annotation. -/
def noteNames : List Str := [tAnnotation, tCreator, tDate, tList, tPara]
/-- The names that matter in an image. -/
def imageNames : List Str := [tImage, tBinary, tList, tPara]
/-- The names that matter in a frame. -/
def frameNames : List Str := [tFrame, tImage, tDesc, tTitle]

/-- A paragraph or a list that can be kept: no such element inside, and all escapes known. -/
def KeepOk (n : Str) (as : List (Str × Str)) (c : List El) : Prop := Escaped as ∧ CleanIn c ∧ NoStartIn n c

/-- What may be in an annotation: texts, creators, dates, paragraphs, lists, and anything else that has
none of these inside. -/
def NotePart : El → Prop
  | .void n as => n = tList ∨ n = tPara → Escaped as
  | .elem n as c =>
    n ≠ tAnnotation
      ∧ (n = tCreator → ∀ e ∈ c, e.isText = true)
      ∧ (n = tDate → (∀ e ∈ c, e.isText = true) ∧ (parseDateTime (saidIn c)).isSome = true)
      ∧ (n = tList ∨ n = tPara → KeepOk n as c)
      ∧ (n ∉ noteNames → FreeIn noteNames c)
  | _ => True

/-- What may be in an image. -/
def ImagePart : El → Prop
  | .void n as => n = tList ∨ n = tPara → Escaped as
  | .elem n as c =>
    n ≠ tImage
      ∧ (n = tBinary → ∀ e ∈ c, e.isText = true)
      ∧ (n = tList ∨ n = tPara → KeepOk n as c)
      ∧ (n ∉ imageNames → FreeIn imageNames c)
  | _ => True

/-- What may be in a frame. -/
def FramePart : El → Prop
  | .void n as => n = tImage → Escaped as
  | .elem n as c =>
    n ≠ tFrame
      ∧ (n = tDesc ∨ n = tTitle → ∀ e ∈ c, e.isText = true)
      ∧ (n = tImage → Escaped as ∧ ∀ e ∈ c, ImagePart e)
      ∧ (n ∉ frameNames → FreeIn frameNames c)
  | _ => True

/-- The attributes of an annotation that can be read. -/
def NoteAttrs (as : List (Str × Str)) : Prop :=
  (as.map Prod.fst).Nodup
    ∧ (∀ v, attrText as "office:display" = some v → (parseBool v).isSome = true)
    ∧ ∀ a ∈ as, a.1 ≠ "office:display".toList → (unescape a.2).isSome = true

/-! ## The parts of an annotation -/

/-- One part of an annotation. -/
def noteStep (a : Annotation) : El → Annotation
  | .void n as =>
    if n = tCreator then { a with creator := none }
    else if n = tDate then { a with date := none }
    else if n = tList ∨ n = tPara then { a with text := a.text ++ [(El.void n as).tree] }
    else a
  | .elem n as c =>
    if n = tCreator then { a with creator := some (saidIn c) }
    else if n = tDate then { a with date := parseDateTime (saidIn c) }
    else if n = tList ∨ n = tPara then { a with text := a.text ++ [(El.elem n as c).tree] }
    else a
  | _ => a

theorem annChild_none (a : Annotation) (n : Str) (as : List (Str × Str)) (et : Bool) (es : List Event)
    (h : n ∉ noteNames) : annChild a n as et es = .ok none := by
  simp only [noteNames, List.mem_cons, List.not_mem_nil, or_false, not_or] at h
  unfold annChild
  rw [if_neg h.2.1, if_neg h.2.2.1, if_neg (by rintro (g | g); exact h.2.2.2.1 g; exact h.2.2.2.2 g)]

theorem withNode_elem {α : Type} (n : Str) (as : List (Str × Str)) (c : List El) (h : KeepOk n as c) (g : Node → α)
    (r : List Event) : withNode n as false (evsOf c ++ .end n :: r) g = .ok (some (g (El.elem n as c).tree, r)) := by
  unfold withNode
  rw [readXml_elem n as c h.1 h.2.1 h.2.2]
  rfl

theorem withNode_void {α : Type} (n : Str) (as : List (Str × Str)) (h : Escaped as) (g : Node → α)
    (r : List Event) : withNode n as true r g = .ok (some (g (El.void n as).tree, r)) := by
  unfold withNode
  rw [readXml_void n as h]
  rfl

theorem withText_elem {α : Type} (n : Str) (c : List El) (h : ∀ e ∈ c, e.isText = true)
    (g : Option Str → Except Fault α) (a : α) (hg : g (some (saidIn c)) = .ok a) (r : List Event) :
    withText n false (evsOf c ++ .end n :: r) g = .ok (some (a, r)) := by
  unfold withText
  rw [if_neg (by decide), readStr_said n c h]
  simp only [List.nil_append]
  rw [hg]
  rfl

theorem notePart_pass (e : El) (h : NotePart e) (a : Annotation) :
    Passes tAnnotation annChild e.events a (noteStep a e) := by
  cases e with
  | text s => exact Passes.text _ _ _ _ rfl
  | ref s => exact Passes.text _ _ _ _ rfl
  | void n as =>
    unfold noteStep
    simp only
    split
    · rename_i hn
      apply Passes.void
      intro r
      unfold annChild
      rw [if_pos hn]
      rfl
    · rename_i hn1
      split
      · rename_i hn2
        apply Passes.void
        intro r
        unfold annChild
        rw [if_neg hn1, if_pos hn2]
        rfl
      · rename_i hn2
        split
        · rename_i hn3
          apply Passes.void
          intro r
          unfold annChild
          rw [if_neg hn1, if_neg hn2, if_pos hn3]
          exact withNode_void n as (h hn3) _ r
        · rename_i hn3
          by_cases ht : n = tAnnotation
          · intro names r
            refine ⟨1, by simp [El.events], fun k => ?_⟩
            rw [El.events, List.cons_append, List.nil_append, subLoop]
            unfold annChild
            rw [if_neg hn1, if_neg hn2, if_neg hn3]
          · refine El.over tAnnotation annChild noteNames List.mem_cons_self annChild_none (.void n as) ?_ a
            simp only [El.Free, noteNames, List.mem_cons, List.not_mem_nil, or_false, not_or]
            exact ⟨ht, hn1, hn2, fun g => hn3 (.inl g), fun g => hn3 (.inr g)⟩
  | elem n as c =>
    obtain ⟨h0, h1, h2, h3, h4⟩ := h
    unfold noteStep
    simp only
    split
    · rename_i hn
      apply Passes.elem
      intro r
      unfold annChild
      rw [if_pos hn]
      exact withText_elem n c (h1 hn) (fun s => .ok { a with creator := s }) _ rfl r
    · rename_i hn1
      split
      · rename_i hn2
        apply Passes.elem
        intro r
        unfold annChild
        rw [if_neg hn1, if_pos hn2]
        refine withText_elem n c (h2 hn2).1 _ _ ?_ r
        have := (h2 hn2).2
        unfold setDate
        cases hd : parseDateTime (saidIn c) with
        | none => rw [hd] at this; cases this
        | some d => simp only [hd]; rfl
      · rename_i hn2
        split
        · rename_i hn3
          apply Passes.elem
          intro r
          unfold annChild
          rw [if_neg hn1, if_neg hn2, if_pos hn3]
          exact withNode_elem n as c (h3 hn3) _ r
        · rename_i hn3
          have hnn : n ∉ noteNames := by
            simp only [noteNames, List.mem_cons, List.not_mem_nil, or_false, not_or]
            exact ⟨h0, hn1, hn2, fun g => hn3 (.inl g), fun g => hn3 (.inr g)⟩
          refine El.over tAnnotation annChild noteNames List.mem_cons_self annChild_none (.elem n as c) ?_ a
          exact ⟨hnn, h4 hnn⟩

theorem getLast?_cons_or {α : Type} (x : α) (l : List α) : (x :: l).getLast? = l.getLast?.or (some x) := by
  induction l generalizing x with
  | nil => rfl
  | cons y l ih => rw [List.getLast?_cons_cons, ih]; cases l.getLast? <;> rfl

theorem names_apart : tCreator ≠ tDate ∧ tCreator ≠ tList ∧ tCreator ≠ tPara ∧ tDate ≠ tList ∧ tDate ≠ tPara
    ∧ tBinary ≠ tList ∧ tBinary ≠ tPara ∧ tImage ≠ tDesc ∧ tImage ≠ tTitle ∧ tDesc ≠ tTitle := by decide

theorem fieldsIn_text (t : Str) (e : El) (c : List El) (h : e.isText = true) : fieldsIn t (e :: c) = fieldsIn t c := by
  cases e <;> first | rfl | cases h

theorem fieldsIn_void (t n : Str) (as : List (Str × Str)) (c : List El) :
    fieldsIn t (.void n as :: c) = if n = t then none :: fieldsIn t c else fieldsIn t c := by
  unfold fieldsIn
  rw [List.filterMap_cons]
  simp only
  split <;> split <;> simp_all

theorem fieldsIn_elem (t n : Str) (as : List (Str × Str)) (d c : List El) :
    fieldsIn t (.elem n as d :: c) = if n = t then some (saidIn d) :: fieldsIn t c else fieldsIn t c := by
  unfold fieldsIn
  rw [List.filterMap_cons]
  simp only
  split <;> split <;> simp_all

theorem paragraphsIn_cons (e : El) (c : List El) : paragraphsIn (e :: c)
    = if e.name? = some tList ∨ e.name? = some tPara then e.tree :: paragraphsIn c else paragraphsIn c := by
  unfold paragraphsIn
  rw [List.filter_cons]
  split
  · rename_i h
    rw [if_pos (by simpa using h)]
    rfl
  · rename_i h
    rw [if_neg (by simpa using h)]

/-- The fields of an annotation after all parts. -/
theorem noteSteps (c : List El) : ∀ a : Annotation, c.foldl noteStep a =
    { a with creator := ((fieldsIn tCreator c).getLast?.or (some a.creator)).join
             date := ((fieldsIn tDate c).getLast?.map fun s => s.bind parseDateTime).getD a.date
             text := a.text ++ paragraphsIn c } := by
  have ha := names_apart
  have ha1 := Ne.symm ha.1
  induction c with
  | nil => intro a; simp [fieldsIn, paragraphsIn]
  | cons e c ih =>
    intro a
    rw [List.foldl_cons, ih, paragraphsIn_cons]
    cases e with
    | text s => rw [fieldsIn_text _ _ _ rfl, fieldsIn_text _ _ _ rfl]; simp [noteStep, El.name?]
    | ref s => rw [fieldsIn_text _ _ _ rfl, fieldsIn_text _ _ _ rfl]; simp [noteStep, El.name?]
    | void n as =>
      rw [fieldsIn_void, fieldsIn_void]
      generalize fieldsIn tCreator c = cr
      generalize fieldsIn tDate c = da
      by_cases h1 : n = tCreator
      · subst h1
        simp only [noteStep, if_true, El.name?, Option.some.injEq, ha.1, ha.2.1, ha.2.2.1, getLast?_cons_or, or_self, if_false]
        cases cr.getLast? <;> rfl
      · by_cases h2 : n = tDate
        · subst h2
          simp only [noteStep, if_true, El.name?, Option.some.injEq, ha1, ha.2.2.2.1, ha.2.2.2.2.1, getLast?_cons_or, or_self, if_false]
          cases da.getLast? <;> rfl
        · by_cases h3 : n = tList ∨ n = tPara
          · simp [noteStep, El.name?, h1, h2, h3]
          · simp [noteStep, El.name?, h1, h2, h3]
    | elem n as d =>
      rw [fieldsIn_elem, fieldsIn_elem]
      generalize fieldsIn tCreator c = cr
      generalize fieldsIn tDate c = da
      by_cases h1 : n = tCreator
      · subst h1
        simp only [noteStep, if_true, El.name?, Option.some.injEq, ha.1, ha.2.1, ha.2.2.1, getLast?_cons_or, or_self, if_false]
        cases cr.getLast? <;> rfl
      · by_cases h2 : n = tDate
        · subst h2
          simp only [noteStep, if_true, El.name?, Option.some.injEq, ha1, ha.2.2.2.1, ha.2.2.2.2.1, getLast?_cons_or, or_self, if_false]
          cases da.getLast? <;> rfl
        · by_cases h3 : n = tList ∨ n = tPara
          · simp [noteStep, El.name?, h1, h2, h3]
          · simp [noteStep, El.name?, h1, h2, h3]

/-! ## The attributes of an annotation -/

theorem plainAttrs_cons (k v w : Str) (as : List (Str × Str)) (hv : unescape v = some w)
    (h : ∀ a ∈ as, (unescape a.2).isSome = true) : plainAttrs ((k, v) :: as) = (k, w) :: plainAttrs as := by
  have hs : ∀ as : List (Str × Str), (∀ a ∈ as, (unescape a.2).isSome = true) → ∃ x, unescapeAttrs as = some x := by
    intro as
    induction as with
    | nil => intro _; exact ⟨_, rfl⟩
    | cons a as ih =>
      intro h
      obtain ⟨k, v⟩ := a
      obtain ⟨x, hx⟩ := ih fun a ha => h a (List.mem_cons_of_mem _ ha)
      have h1 := h _ List.mem_cons_self
      simp only at h1
      cases hv : unescape v with
      | none => rw [hv] at h1; cases h1
      | some w => exact ⟨(k, w) :: x, by rw [unescapeAttrs, hv, hx]⟩
  obtain ⟨x, hx⟩ := hs as h
  unfold plainAttrs
  rw [unescapeAttrs, hv, hx]
  rfl

theorem lookup_absent (as : List (Str × Str)) (k : Str) (h : k ∉ as.map Prod.fst) : as.lookup k = none := by
  induction as with
  | nil => rfl
  | cons a as ih =>
    obtain ⟨k', v⟩ := a
    rw [List.map_cons, List.mem_cons, not_or] at h
    rw [List.lookup_cons, ih h.2, show (k == k') = false by simpa using h.1]

theorem attrText_self (q : String) (v : Str) (as : List (Str × Str)) : attrText ((q.toList, v) :: as) q = some v := by
  unfold attrText
  rw [List.lookup_cons, beq_self_eq_true]

theorem attrText_other (q : String) (k v : Str) (as : List (Str × Str)) (h : k ≠ q.toList) :
    attrText ((k, v) :: as) q = attrText as q := by
  unfold attrText
  rw [List.lookup_cons, show (q.toList == k) = false by simpa using Ne.symm h]

theorem attrPlain_other (q : String) (k v : Str) (as : List (Str × Str)) (h : k ≠ q.toList) :
    attrPlain ((k, v) :: as) q = attrPlain as q := by
  unfold attrPlain
  rw [attrText_other q k v as h]

theorem noteRest_cons (k v : Str) (as : List (Str × Str)) : noteRest ((k, v) :: as)
    = if k = "office:display".toList ∨ k = "office:name".toList then noteRest as else (k, v) :: noteRest as := by
  unfold noteRest
  generalize "office:display".toList = D
  generalize "office:name".toList = N
  by_cases h1 : k = D <;> by_cases h2 : k = N <;> simp [h1, h2, List.filter_cons]

theorem noteAttrs_read (as : List (Str × Str)) : ∀ a : Annotation, NoteAttrs as → annAttrs a as = .ok
    { a with name := (attrPlain as "office:name").join.getD a.name
             display := ((attrText as "office:display").bind parseBool).getD a.display
             attrs := a.attrs ++ plainAttrs (noteRest as) } := by
  induction as with
  | nil =>
    intro a _
    show Except.ok a = Except.ok { a with attrs := a.attrs ++ [] }
    rw [List.append_nil]
  | cons x as ih =>
    rintro a ⟨h1, h2, h3⟩
    obtain ⟨k, v⟩ := x
    rw [List.map_cons, List.nodup_cons] at h1
    have hrest : NoteAttrs as := by
      refine ⟨h1.2, ?_, fun a ha => h3 a (List.mem_cons_of_mem _ ha)⟩
      intro w hw
      apply h2 w
      by_cases hk : k = "office:display".toList
      · have : attrText as "office:display" = none := lookup_absent as _ (by rw [← hk]; exact h1.1)
        rw [this] at hw
        cases hw
      · rw [attrText_other _ _ _ _ hk]
        exact hw
    have hr : ∀ b ∈ noteRest as, (unescape b.2).isSome = true := by
      intro b hb
      unfold noteRest at hb
      rw [List.mem_filter] at hb
      have := hb.2
      simp only [Bool.and_eq_true, decide_eq_true_eq, bne_iff_ne] at this
      exact h3 b (List.mem_cons_of_mem _ hb.1) (by simpa using this.1)
    rw [annAttrs]
    unfold annAttr
    by_cases hd : k = "office:display".toList
    · rw [if_pos hd]
      subst hd
      have ha := attrText_self "office:display" v as
      have hp := h2 v ha
      cases hb : parseBool v with
      | none => rw [hb] at hp; cases hp
      | some b =>
        have hl := lookup_absent as _ h1.1
        have e : (orFail Fault.parse (some b)).map (fun b => { a with display := b }) = .ok { a with display := b } := rfl
        rw [e]
        simp only
        rw [ih _ hrest, ha, Option.bind_some, hb]
        have hn := attrPlain_other "office:name" "office:display".toList v as (by decide)
        have ht : attrText as "office:display" = none := hl
        have hf : noteRest (("office:display".toList, v) :: as) = noteRest as := by
          rw [noteRest_cons, if_pos (.inl rfl)]
        rw [hn, ht, hf]
        rfl
    · rw [if_neg hd]
      have hu := h3 _ List.mem_cons_self hd
      simp only at hu
      have hdisp := attrText_other "office:display" k v as hd
      cases hw : unescape v with
      | none => rw [hw] at hu; cases hu
      | some w =>
        by_cases hn : k = "office:name".toList
        · rw [if_pos hn]
          subst hn
          have e : (orFail Fault.badAttr (some w)).map (fun n => { a with name := n }) = .ok { a with name := w } := rfl
          rw [e]
          simp only
          rw [ih _ hrest, hdisp]
          have hl := lookup_absent as _ h1.1
          have h4 : attrPlain (("office:name".toList, v) :: as) "office:name" = some (some w) := by
            unfold attrPlain
            rw [attrText_self]
            simp only
            rw [hw]
            rfl
          have h5 : attrPlain as "office:name" = some none := by
            unfold attrPlain
            rw [show attrText as "office:name" = none from hl]
          have hf : noteRest (("office:name".toList, v) :: as) = noteRest as := by
            rw [noteRest_cons, if_pos (.inr rfl)]
          rw [h4, h5, hf]
          rfl
        · rw [if_neg hn]
          have e : (orFail Fault.badAttr (some w)).map (fun v => { a with attrs := a.attrs ++ [(k, v)] })
              = .ok { a with attrs := a.attrs ++ [(k, w)] } := rfl
          rw [e]
          simp only
          rw [ih _ hrest, hdisp]
          have h4 := attrPlain_other "office:name" k v as hn
          have hf : noteRest ((k, v) :: as) = (k, v) :: noteRest as := by
            rw [noteRest_cons, if_neg (not_or.2 ⟨hd, hn⟩)]
          rw [h4, hf, plainAttrs_cons k v w _ hw hr, List.append_assoc]
          rfl

/-- An annotation is read as what it means. -/
theorem note_read (as : List (Str × Str)) (c : List El) (ha : NoteAttrs as) (hc : ∀ e ∈ c, NotePart e)
    (r : List Event) : readAnnotation as (evsOf c ++ .end tAnnotation :: r) = .ok (noteOf as c, r) := by
  unfold readAnnotation
  rw [noteAttrs_read as {} ha]
  simp only
  rw [(Passes.list noteStep c (fun e he a => notePart_pass e (hc e he) a) _).finish r, noteSteps]
  unfold noteOf
  simp only [List.nil_append]
  cases (fieldsIn tCreator c).getLast? <;> cases (fieldsIn tDate c).getLast? <;> rfl

/-! ## Images -/

/-- One part of an image. -/
def imageStep (i : DrawImage) : El → DrawImage
  | .void n as => if n = tList ∨ n = tPara then { i with text := i.text ++ [(El.void n as).tree] } else i
  | .elem n as c =>
    if n = tBinary then { i with binary := some (saidIn c) }
    else if n = tList ∨ n = tPara then { i with text := i.text ++ [(El.elem n as c).tree] }
    else i
  | _ => i

theorem imageChild_none (i : DrawImage) (n : Str) (as : List (Str × Str)) (et : Bool) (es : List Event)
    (h : n ∉ imageNames) : imageChild i n as et es = .ok none := by
  simp only [imageNames, List.mem_cons, List.not_mem_nil, or_false, not_or] at h
  unfold imageChild
  rw [if_neg (fun g => h.2.1 g.1), if_neg (by rintro (g | g); exact h.2.2.1 g; exact h.2.2.2 g)]

/-- An empty tag for which there is no arm. -/
theorem Passes.skip {α : Type} {tag n : Str} {as : List (Str × Str)} {f : Child α} {a : α}
    (h : ∀ r, f a n as true r = .ok none) : Passes tag f (El.void n as).events a a := by
  intro names r
  refine ⟨1, by simp [El.events], fun k => ?_⟩
  rw [El.events, List.cons_append, List.nil_append, subLoop, h]

theorem imagePart_pass (e : El) (h : ImagePart e) (i : DrawImage) :
    Passes tImage imageChild e.events i (imageStep i e) := by
  cases e with
  | text s => exact Passes.text _ _ _ _ rfl
  | ref s => exact Passes.text _ _ _ _ rfl
  | void n as =>
    unfold imageStep
    simp only
    split
    · rename_i hn
      apply Passes.void
      intro r
      unfold imageChild
      rw [if_neg (by simp), if_pos hn]
      exact withNode_void n as (h hn) _ r
    · rename_i hn
      apply Passes.skip
      intro r
      unfold imageChild
      rw [if_neg (by simp), if_neg hn]
  | elem n as c =>
    obtain ⟨h0, h1, h3, h4⟩ := h
    unfold imageStep
    simp only
    split
    · rename_i hn
      apply Passes.elem
      intro r
      unfold imageChild
      rw [if_pos ⟨hn, rfl⟩]
      exact withText_elem n c (h1 hn) (fun s => .ok { i with binary := s }) _ rfl r
    · rename_i hn1
      split
      · rename_i hn3
        apply Passes.elem
        intro r
        unfold imageChild
        rw [if_neg (fun g => hn1 g.1), if_pos hn3]
        exact withNode_elem n as c (h3 hn3) _ r
      · rename_i hn3
        have hnn : n ∉ imageNames := by
          simp only [imageNames, List.mem_cons, List.not_mem_nil, or_false, not_or]
          exact ⟨h0, hn1, fun g => hn3 (.inl g), fun g => hn3 (.inr g)⟩
        exact El.over tImage imageChild imageNames List.mem_cons_self imageChild_none (.elem n as c) ⟨hnn, h4 hnn⟩ i

theorem textsWith_text (t : Str) (e : El) (c : List El) (h : e.isText = true) : textsWith t (e :: c) = textsWith t c := by
  unfold textsWith
  rw [fieldsIn_text t e c h]

theorem textsWith_void (t n : Str) (as : List (Str × Str)) (c : List El) :
    textsWith t (.void n as :: c) = textsWith t c := by
  unfold textsWith
  rw [fieldsIn_void]
  split <;> rfl

theorem textsWith_elem (t n : Str) (as : List (Str × Str)) (d c : List El) :
    textsWith t (.elem n as d :: c) = if n = t then saidIn d :: textsWith t c else textsWith t c := by
  unfold textsWith
  rw [fieldsIn_elem]
  split <;> rfl

theorem imageSteps (c : List El) : ∀ i : DrawImage, c.foldl imageStep i =
    { i with binary := (textsWith tBinary c).getLast?.or i.binary, text := i.text ++ paragraphsIn c } := by
  have ha := names_apart
  induction c with
  | nil => intro a; simp [textsWith, fieldsIn, paragraphsIn]
  | cons e c ih =>
    intro a
    rw [List.foldl_cons, ih, paragraphsIn_cons]
    cases e with
    | text s => rw [textsWith_text _ _ _ rfl]; simp [imageStep, El.name?]
    | ref s => rw [textsWith_text _ _ _ rfl]; simp [imageStep, El.name?]
    | void n as =>
      rw [textsWith_void]
      by_cases h3 : n = tList ∨ n = tPara
      · simp [imageStep, El.name?, h3]
      · simp [imageStep, El.name?, h3]
    | elem n as d =>
      rw [textsWith_elem]
      generalize textsWith tBinary c = bi
      by_cases h1 : n = tBinary
      · subst h1
        simp only [imageStep, if_true, El.name?, Option.some.injEq, ha.2.2.2.2.2.1, ha.2.2.2.2.2.2.1, getLast?_cons_or, or_self, if_false]
        cases bi.getLast? <;> rfl
      · by_cases h3 : n = tList ∨ n = tPara
        · simp [imageStep, El.name?, h1, h3]
        · simp [imageStep, El.name?, h1, h3]

/-- An image is read as what it means. -/
theorem image_elem (as : List (Str × Str)) (c : List El) (ha : Escaped as) (hc : ∀ e ∈ c, ImagePart e)
    (r : List Event) : readImage as false (evsOf c ++ .end tImage :: r) = .ok (imageOf as c, r) := by
  unfold readImage
  rw [escaped_some ha]
  simp only [Bool.false_eq_true, if_false]
  rw [(Passes.list imageStep c (fun e he a => imagePart_pass e (hc e he) a) _).finish r, imageSteps]
  unfold imageOf
  simp

theorem image_void (as : List (Str × Str)) (ha : Escaped as) (r : List Event) :
    readImage as true r = .ok (imageOf as [], r) := by
  unfold readImage
  rw [escaped_some ha]
  rfl

/-! ## Frames -/

/-- One part of a frame. -/
def frameStep (f : DrawFrame) : El → DrawFrame
  | .void n as => if n = tImage then { f with images := f.images ++ [imageOf as []] } else f
  | .elem n as c =>
    if n = tImage then { f with images := f.images ++ [imageOf as c] }
    else if n = tDesc then { f with desc := some (saidIn c) }
    else if n = tTitle then { f with title := some (saidIn c) }
    else f
  | _ => f

theorem frameChild_none (f : DrawFrame) (n : Str) (as : List (Str × Str)) (et : Bool) (es : List Event)
    (h : n ∉ frameNames) : frameChild f n as et es = .ok none := by
  simp only [frameNames, List.mem_cons, List.not_mem_nil, or_false, not_or] at h
  unfold frameChild
  rw [if_neg h.2.1, if_neg (fun g => h.2.2.1 g.1), if_neg (fun g => h.2.2.2 g.1)]

theorem framePart_pass (e : El) (h : FramePart e) (f : DrawFrame) :
    Passes tFrame frameChild e.events f (frameStep f e) := by
  cases e with
  | text s => exact Passes.text _ _ _ _ rfl
  | ref s => exact Passes.text _ _ _ _ rfl
  | void n as =>
    unfold frameStep
    simp only
    split
    · rename_i hn
      apply Passes.void
      intro r
      unfold frameChild
      rw [if_pos hn, image_void as (h hn)]
      rfl
    · rename_i hn
      apply Passes.skip
      intro r
      unfold frameChild
      rw [if_neg hn, if_neg (by simp), if_neg (by simp)]
  | elem n as c =>
    obtain ⟨h0, h1, h3, h4⟩ := h
    unfold frameStep
    simp only
    split
    · rename_i hn
      apply Passes.elem
      intro r
      unfold frameChild
      rw [if_pos hn, hn, image_elem as c (h3 hn).1 (h3 hn).2]
      rfl
    · rename_i hn1
      split
      · rename_i hn2
        apply Passes.elem
        intro r
        unfold frameChild
        rw [if_neg hn1, if_pos ⟨hn2, rfl⟩]
        exact withText_elem n c (h1 (.inl hn2)) (fun s => .ok { f with desc := s }) _ rfl r
      · rename_i hn2
        split
        · rename_i hn3
          apply Passes.elem
          intro r
          unfold frameChild
          rw [if_neg hn1, if_neg (fun g => hn2 g.1), if_pos ⟨hn3, rfl⟩]
          exact withText_elem n c (h1 (.inr hn3)) (fun s => .ok { f with title := s }) _ rfl r
        · rename_i hn3
          have hnn : n ∉ frameNames := by
            simp only [frameNames, List.mem_cons, List.not_mem_nil, or_false, not_or]
            exact ⟨h0, hn1, hn2, hn3⟩
          exact El.over tFrame frameChild frameNames List.mem_cons_self frameChild_none (.elem n as c) ⟨hnn, h4 hnn⟩ f

theorem imagesIn_void (n : Str) (as : List (Str × Str)) (c : List El) :
    imagesIn (.void n as :: c) = if n = tImage then imageOf as [] :: imagesIn c else imagesIn c := by
  unfold imagesIn
  rw [List.filterMap_cons]
  simp only
  split <;> split <;> simp_all

theorem imagesIn_elem (n : Str) (as : List (Str × Str)) (d c : List El) :
    imagesIn (.elem n as d :: c) = if n = tImage then imageOf as d :: imagesIn c else imagesIn c := by
  unfold imagesIn
  rw [List.filterMap_cons]
  simp only
  split <;> split <;> simp_all

theorem frameSteps (c : List El) : ∀ f : DrawFrame, c.foldl frameStep f =
    { f with images := f.images ++ imagesIn c, desc := (textsWith tDesc c).getLast?.or f.desc
             title := (textsWith tTitle c).getLast?.or f.title } := by
  have ha := names_apart
  have ha1 := Ne.symm ha.2.2.2.2.2.2.2.2.2
  induction c with
  | nil => intro a; simp [textsWith, fieldsIn, imagesIn]
  | cons e c ih =>
    intro a
    rw [List.foldl_cons, ih]
    cases e with
    | text s => rw [textsWith_text _ _ _ rfl, textsWith_text _ _ _ rfl]; rfl
    | ref s => rw [textsWith_text _ _ _ rfl, textsWith_text _ _ _ rfl]; rfl
    | void n as =>
      rw [textsWith_void, textsWith_void, imagesIn_void]
      by_cases h3 : n = tImage
      · simp [frameStep, h3]
      · simp [frameStep, h3]
    | elem n as d =>
      rw [textsWith_elem, textsWith_elem, imagesIn_elem]
      generalize textsWith tDesc c = de
      generalize textsWith tTitle c = ti
      by_cases h1 : n = tImage
      · subst h1
        simp [frameStep, ha.2.2.2.2.2.2.2.1, ha.2.2.2.2.2.2.2.2.1]
      · by_cases h2 : n = tDesc
        · subst h2
          simp only [frameStep, if_true, if_neg h1, ha.2.2.2.2.2.2.2.2.2, if_false, getLast?_cons_or]
          cases de.getLast? <;> rfl
        · by_cases h3 : n = tTitle
          · subst h3
            simp only [frameStep, if_true, if_neg h1, if_neg h2, getLast?_cons_or]
            cases ti.getLast? <;> rfl
          · simp [frameStep, h1, h2, h3]

/-- A frame is read as what it means. -/
theorem frame_elem (as : List (Str × Str)) (c : List El) (ha : Escaped as) (hc : ∀ e ∈ c, FramePart e)
    (r : List Event) : readFrame as (evsOf c ++ .end tFrame :: r) = .ok (frameOf as c, r) := by
  unfold readFrame
  rw [escaped_some ha]
  simp only
  rw [(Passes.list frameStep c (fun e he a => framePart_pass e (hc e he) a) _).finish r, frameSteps]
  unfold frameOf
  simp

end Verif.Codec
