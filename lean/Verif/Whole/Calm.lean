import Verif.Whole.OtherWhole

/-!
# Reading comes to an end: the readers of elements

Each reader of an element ends with what it has read or with an error, and what it leaves are the last events of
those it was given.
-/

set_option autoImplicit false

namespace Verif.Whole

open Xml Codec Xml.Spec

/-- The reader has neither crashed nor gone on forever. -/
def Calm {α : Type} (r : Except Fault α) : Prop := r ≠ .error .panic ∧ r ≠ .error .endless

/-- How many more end tags than start tags there are. -/
def excess : List Event → Int
  | [] => 0
  | .start _ _ :: es => excess es - 1
  | .end _ :: es => excess es + 1
  | .empty _ _ :: es => excess es
  | .text _ :: es => excess es
  | .ref _ :: es => excess es

/-! ## Results -/

theorem calm_ok {α : Type} (a : α) : Calm (.ok a : Except Fault α) := ⟨by simp, by simp⟩

theorem calm_error {α : Type} {f : Fault} (h1 : f ≠ .panic) (h2 : f ≠ .endless) : Calm (.error f : Except Fault α) :=
  ⟨by simpa using h1, by simpa using h2⟩

theorem Calm.of {α β : Type} {f : Fault} {r : Except Fault α} (h : Calm r) (e : r = .error f) :
    Calm (.error f : Except Fault β) := by
  subst e
  exact calm_error (fun e => h.1 (by rw [e])) (fun e => h.2 (by rw [e]))

theorem Calm.map {α β : Type} {r : Except Fault α} (h : Calm r) (g : α → β) : Calm (r.map g) := by
  cases r with
  | ok a => exact calm_ok _
  | error f => exact h.of rfl

theorem calm_orFail {α : Type} {f : Fault} (o : Option α) (h1 : f ≠ .panic) (h2 : f ≠ .endless) : Calm (orFail f o) := by
  cases o with
  | none => exact calm_error h1 h2
  | some a => exact calm_ok a

/-! ## What is left -/

/-- The events after the end tag of an element, or none. -/
def After (tag : Str) (es es' : List Event) : Prop := es' = [] ∨ ∃ pre, es = pre ++ .end tag :: es'

/-- The last events. -/
def Ends (es es' : List Event) : Prop := ∃ pre, es = pre ++ es'

theorem Ends.refl (es : List Event) : Ends es es := ⟨[], rfl⟩

theorem Ends.cons {es es' : List Event} (ev : Event) (h : Ends es es') : Ends (ev :: es) es' := by
  obtain ⟨pre, h⟩ := h
  exact ⟨ev :: pre, by rw [h]; rfl⟩

theorem Ends.trans {a b c : List Event} (h : Ends a b) (g : Ends b c) : Ends a c := by
  obtain ⟨p, h⟩ := h
  obtain ⟨q, g⟩ := g
  exact ⟨p ++ q, by rw [h, g, List.append_assoc]⟩

theorem Ends.length {es es' : List Event} (h : Ends es es') : es'.length ≤ es.length := by
  obtain ⟨p, h⟩ := h
  rw [h, List.length_append]; omega

theorem ends_nil (es : List Event) : Ends es [] := ⟨es, by simp⟩

theorem After.ends {tag : Str} {es es' : List Event} (h : After tag es es') : Ends es es' := by
  rcases h with h | ⟨p, h⟩
  · rw [h]; exact ends_nil es
  · exact ⟨p ++ [.end tag], by rw [h]; simp⟩

theorem After.cons {tag : Str} {es es' : List Event} (ev : Event) (h : After tag es es') : After tag (ev :: es) es' := by
  rcases h with h | ⟨p, h⟩
  · exact .inl h
  · exact .inr ⟨ev :: p, by rw [h]; rfl⟩

theorem After.before {tag : Str} {a b c : List Event} (h : Ends a b) (g : After tag b c) : After tag a c := by
  obtain ⟨p, h⟩ := h
  rcases g with g | ⟨q, g⟩
  · exact .inl g
  · exact .inr ⟨p ++ q, by rw [h, g]; simp⟩

/-! ## Foreign elements -/

theorem xmlLoop_calm (root : Str) : ∀ (es : List Event) (f : Frame) (st : List Frame),
    ((f :: st).getLast (by simp)).name = root →
    Calm (readXmlLoop root (f :: st) es)
      ∧ ∀ x es', readXmlLoop root (f :: st) es = .ok (x, es') →
          After root es es' ∧ excess es ≤ excess es' + st.length + 1 := by
  intro es
  induction es with
  | nil =>
    intro f st hr
    rw [readXmlLoop]
    refine ⟨calm_ok _, ?_⟩
    intro x es' h
    cases h
    exact ⟨.inl rfl, by simp only [excess]; omega⟩
  | cons ev es ih =>
    intro f st hr
    cases ev with
    | start n as =>
      rw [readXmlLoop]
      cases unescapeAttrs as with
      | none => exact ⟨calm_error (by decide) (by decide), by intro x es' h; cases h⟩
      | some as =>
        obtain ⟨h1, h2⟩ := ih ⟨n, as, []⟩ (f :: st) (by rw [List.getLast_cons (by simp)]; exact hr)
        refine ⟨h1, ?_⟩
        intro x es' h
        obtain ⟨g1, g2⟩ := h2 x es' h
        refine ⟨g1.cons _, ?_⟩
        simp only [excess, List.length_cons] at g2 ⊢
        omega
    | «end» n =>
      unfold readXmlLoop
      by_cases hn : n ≠ f.name
      · rw [if_pos hn]
        exact ⟨calm_error (by decide) (by decide), by intro x es' h; cases h⟩
      · rw [if_neg hn]
        by_cases hroot : n = root
        · rw [if_pos hroot]
          refine ⟨calm_ok _, ?_⟩
          intro x es' h
          cases h
          exact ⟨.inr ⟨[], by rw [hroot]; rfl⟩, by simp only [excess]; omega⟩
        · rw [if_neg hroot]
          cases st with
          | nil =>
            exfalso
            apply hroot
            have : n = f.name := Classical.byContradiction hn
            rw [this]; exact hr
          | cons p st =>
            have hr2 : ((p.add f.node :: st).getLast (by simp)).name = root := by
              rw [List.getLast_cons (by simp)] at hr
              cases st with
              | nil => exact hr
              | cons q st => rw [List.getLast_cons (by simp)] at hr ⊢; exact hr
            obtain ⟨h1, h2⟩ := ih (p.add f.node) st hr2
            refine ⟨h1, ?_⟩
            intro x es' h
            obtain ⟨g1, g2⟩ := h2 x es' h
            refine ⟨g1.cons _, ?_⟩
            simp only [excess, List.length_cons] at g2 ⊢
            omega
    | empty n as =>
      rw [readXmlLoop]
      cases unescapeAttrs as with
      | none => exact ⟨calm_error (by decide) (by decide), by intro x es' h; cases h⟩
      | some as =>
        have hr2 : ((f.add (.tag n as []) :: st).getLast (by simp)).name = root := by
          cases st with
          | nil => exact hr
          | cons q st => rw [List.getLast_cons (by simp)] at hr ⊢; exact hr
        obtain ⟨h1, h2⟩ := ih _ st hr2
        refine ⟨h1, ?_⟩
        intro x es' h
        obtain ⟨g1, g2⟩ := h2 x es' h
        exact ⟨g1.cons _, by simpa only [excess] using g2⟩
    | ref n =>
      rw [readXmlLoop]
      have hr2 : ((f.add (.text (entity n)) :: st).getLast (by simp)).name = root := by
        cases st with
        | nil => exact hr
        | cons q st => rw [List.getLast_cons (by simp)] at hr ⊢; exact hr
      obtain ⟨h1, h2⟩ := ih _ st hr2
      refine ⟨h1, ?_⟩
      intro x es' h
      obtain ⟨g1, g2⟩ := h2 x es' h
      exact ⟨g1.cons _, by simpa only [excess] using g2⟩
    | text s =>
      rw [readXmlLoop]
      have hr2 : ((f.add (.text s) :: st).getLast (by simp)).name = root := by
        cases st with
        | nil => exact hr
        | cons q st => rw [List.getLast_cons (by simp)] at hr ⊢; exact hr
      obtain ⟨h1, h2⟩ := ih _ st hr2
      refine ⟨h1, ?_⟩
      intro x es' h
      obtain ⟨g1, g2⟩ := h2 x es' h
      exact ⟨g1.cons _, by simpa only [excess] using g2⟩

/-- What a reader of an element leaves: after a start tag the events after its end tag, after an empty tag all. -/
def Rest (tag : Str) (et : Bool) (es es' : List Event) : Prop :=
  if et then es' = es else After tag es es' ∧ excess es ≤ excess es' + 1

theorem Rest.ends {tag : Str} {et : Bool} {es es' : List Event} (h : Rest tag et es es') : Ends es es' := by
  cases et with
  | true => rw [show es' = es from h]; exact Ends.refl es
  | false => exact h.1.ends

theorem Rest.bal {tag : Str} {et : Bool} {es es' : List Event} (h : Rest tag et es es') :
    excess es ≤ excess es' + (if et then 0 else 1) := by
  cases et with
  | true => rw [show es' = es from h]; simp
  | false => simpa using h.2

theorem readXml_calm (root : Str) (as : List (Str × Str)) (et : Bool) (es : List Event) :
    Calm (readXml root as et es) ∧ ∀ x es', readXml root as et es = .ok (x, es') → Rest root et es es' := by
  unfold readXml
  cases unescapeAttrs as with
  | none => exact ⟨calm_error (by decide) (by decide), by intro x es' h; cases h⟩
  | some as =>
    cases et with
    | true =>
      refine ⟨calm_ok _, ?_⟩
      intro x es' h
      cases h
      rfl
    | false =>
      obtain ⟨h1, h2⟩ := xmlLoop_calm root es ⟨root, as, []⟩ [] rfl
      refine ⟨h1, ?_⟩
      intro x es' h
      obtain ⟨g1, g2⟩ := h2 x es' h
      exact ⟨g1, by simpa using g2⟩

/-! ## Texts -/

/-- The content is not a list of elements. -/
def NotVec (c : TextContent) : Prop := ∀ l, c ≠ .xmlVec l

theorem createTop_calm (name : Str) (raw : List (Str × Str)) (t : Option Str) : Calm (createTop name raw t) := by
  unfold createTop
  cases unescapeAttrs raw with
  | none => exact calm_error (by decide) (by decide)
  | some as => cases t <;> exact calm_ok _

theorem parentOf_calm (name : Str) (raw : List (Str × Str)) (c : TextContent) (h : NotVec c) :
    Calm (parentOf name raw c) := by
  cases c with
  | empty => exact createTop_calm name raw none
  | text t => exact createTop_calm name raw (some t)
  | xml f => exact calm_ok _
  | xmlVec l => exact absurd rfl (h l)

theorem addPiece_ok (v : Str) (c : TextContent) (h : NotVec c) : ∃ c', c.addPiece v = .ok c' ∧ NotVec c' := by
  cases c with
  | empty => exact ⟨_, rfl, by intro l hl; cases hl⟩
  | text t => exact ⟨_, rfl, by intro l hl; cases hl⟩
  | xml f => exact ⟨_, rfl, by intro l hl; cases hl⟩
  | xmlVec l => exact absurd rfl (h l)

theorem textLoop_calm (name : Str) (raw : List (Str × Str)) : ∀ (es : List Event) (c : TextContent) (st : List Frame),
    NotVec c →
    Calm (readTextLoop name raw c st es)
      ∧ ∀ x es', readTextLoop name raw c st es = .ok (x, es') →
          NotVec x ∧ After name es es' ∧ excess es ≤ excess es' + st.length + 1 := by
  intro es
  induction es with
  | nil =>
    intro c st hc
    rw [readTextLoop]
    refine ⟨calm_ok _, ?_⟩
    intro x es' h
    cases h
    exact ⟨hc, .inl rfl, by simp only [excess]; omega⟩
  | cons ev es ih =>
    intro c st hc
    cases ev with
    | start n as =>
      rw [readTextLoop]
      cases hp : parentOf name raw c with
      | error f => exact ⟨(parentOf_calm name raw c hc).of hp, by intro x es' h; cases h⟩
      | ok p =>
        simp only
        cases unescapeAttrs as with
        | none => exact ⟨calm_error (by decide) (by decide), by intro x es' h; cases h⟩
        | some as =>
          obtain ⟨h1, h2⟩ := ih (.xml ⟨n, as, []⟩) (p :: st) (by intro l hl; cases hl)
          refine ⟨h1, ?_⟩
          intro x es' h
          obtain ⟨g0, g1, g2⟩ := h2 x es' h
          refine ⟨g0, g1.cons _, ?_⟩
          simp only [excess, List.length_cons] at g2 ⊢
          omega
    | empty n as =>
      rw [readTextLoop]
      cases hp : parentOf name raw c with
      | error f => exact ⟨(parentOf_calm name raw c hc).of hp, by intro x es' h; cases h⟩
      | ok p =>
        simp only
        cases unescapeAttrs as with
        | none => exact ⟨calm_error (by decide) (by decide), by intro x es' h; cases h⟩
        | some as =>
          obtain ⟨h1, h2⟩ := ih (.xml (p.add (.tag n as []))) st (by intro l hl; cases hl)
          refine ⟨h1, ?_⟩
          intro x es' h
          obtain ⟨g0, g1, g2⟩ := h2 x es' h
          exact ⟨g0, g1.cons _, by simpa only [excess] using g2⟩
    | ref n =>
      rw [readTextLoop]
      obtain ⟨c', e, hc'⟩ := addPiece_ok (entity n) c hc
      rw [e]
      obtain ⟨h1, h2⟩ := ih c' st hc'
      refine ⟨h1, ?_⟩
      intro x es' h
      obtain ⟨g0, g1, g2⟩ := h2 x es' h
      exact ⟨g0, g1.cons _, by simpa only [excess] using g2⟩
    | text s =>
      rw [readTextLoop]
      obtain ⟨c', e, hc'⟩ := addPiece_ok s c hc
      rw [e]
      obtain ⟨h1, h2⟩ := ih c' st hc'
      refine ⟨h1, ?_⟩
      intro x es' h
      obtain ⟨g0, g1, g2⟩ := h2 x es' h
      exact ⟨g0, g1.cons _, by simpa only [excess] using g2⟩
    | «end» n =>
      unfold readTextLoop
      by_cases hn : n ≠ openName name c
      · rw [if_pos hn]
        exact ⟨calm_error (by decide) (by decide), by intro x es' h; cases h⟩
      · rw [if_neg hn]
        by_cases hname : n = name
        · rw [if_pos hname]
          cases hst : st.isEmpty with
          | true =>
            rw [if_pos rfl]
            refine ⟨calm_ok _, ?_⟩
            intro x es' h
            cases h
            exact ⟨hc, .inr ⟨[], by rw [hname]; rfl⟩, by simp only [excess]; omega⟩
          | false => exact ⟨calm_error (by decide) (by decide), by intro x es' h; cases h⟩
        · rw [if_neg hname]
          cases c with
          | empty => exact ⟨calm_error (by decide) (by decide), by intro x es' h; cases h⟩
          | text t => exact ⟨calm_error (by decide) (by decide), by intro x es' h; cases h⟩
          | xmlVec l => exact absurd rfl (hc l)
          | xml f =>
            cases st with
            | nil => exact ⟨calm_error (by decide) (by decide), by intro x es' h; cases h⟩
            | cons p st =>
              obtain ⟨h1, h2⟩ := ih (.xml (p.add f.node)) st (by intro l hl; cases hl)
              refine ⟨h1, ?_⟩
              intro x es' h
              obtain ⟨g0, g1, g2⟩ := h2 x es' h
              refine ⟨g0, g1.cons _, ?_⟩
              simp only [excess, List.length_cons] at g2 ⊢
              omega

theorem readText_calm (name : Str) (raw : List (Str × Str)) (es : List Event) :
    Calm (readText name raw es)
      ∧ ∀ x es', readText name raw es = .ok (x, es') → NotVec x ∧ Rest name false es es' := by
  obtain ⟨h1, h2⟩ := textLoop_calm name raw es .empty [] (by intro l hl; cases hl)
  refine ⟨h1, ?_⟩
  intro x es' h
  obtain ⟨g0, g1, g2⟩ := h2 x es' h
  exact ⟨g0, g1, by simpa using g2⟩

theorem pushContent_calm (l : List Node) (c : TextContent) (h : NotVec c) : Calm (pushContent l c) := by
  cases c with
  | empty => exact calm_ok _
  | text t => exact calm_ok _
  | xml f => exact calm_ok _
  | xmlVec l => exact absurd rfl (h l)

theorem appendText_calm (new c : TextContent) (h : NotVec new) : Calm (appendText new c) := by
  cases c with
  | empty => exact calm_ok _
  | text t => exact (pushContent_calm _ new h).map _
  | xml f => exact (pushContent_calm _ new h).map _
  | xmlVec l => exact (pushContent_calm _ new h).map _

theorem readStr_calm (tag : Str) : ∀ (es : List Event) (s : Str),
    Calm (readStr tag s es) ∧ ∀ x es', readStr tag s es = .ok (x, es') → Rest tag false es es' := by
  intro es
  induction es with
  | nil =>
    intro s
    rw [readStr]
    refine ⟨calm_ok _, ?_⟩
    intro x es' h
    cases h
    exact ⟨.inl rfl, by simp [excess]⟩
  | cons ev es ih =>
    intro s
    cases ev with
    | start n as => exact ⟨calm_error (by decide) (by decide), by intro x es' h; cases h⟩
    | empty n as => exact ⟨calm_error (by decide) (by decide), by intro x es' h; cases h⟩
    | «end» n =>
      rw [readStr]
      by_cases hn : n = tag
      · rw [if_pos hn]
        refine ⟨calm_ok _, ?_⟩
        intro x es' h
        cases h
        exact ⟨.inr ⟨[], by rw [hn]; rfl⟩, by simp [excess]⟩
      · rw [if_neg hn]
        exact ⟨calm_error (by decide) (by decide), by intro x es' h; cases h⟩
    | ref n =>
      rw [readStr]
      obtain ⟨h1, h2⟩ := ih (s ++ entity n)
      refine ⟨h1, ?_⟩
      intro x es' h
      obtain ⟨g1, g2⟩ := h2 x es' h
      exact ⟨g1.cons _, by simpa only [excess] using g2⟩
    | text t =>
      rw [readStr]
      obtain ⟨h1, h2⟩ := ih (s ++ t)
      refine ⟨h1, ?_⟩
      intro x es' h
      obtain ⟨g1, g2⟩ := h2 x es' h
      exact ⟨g1.cons _, by simpa only [excess] using g2⟩

/-! ## The loop over the elements inside -/

/-- The tag of an element. -/
def tagEv (et : Bool) (n : Str) (as : List (Str × Str)) : Event := if et then .empty n as else .start n as

/-- What the readers of the elements inside do for events with the property `P` and a state with `I`, which may
depend on the number of events that are left: they do not crash, they leave the last events, and keep `I`. -/
structure ChildOk {α : Type} (f : Child α) (P : List Event → Prop) (I : α → Nat → Prop) : Prop where
  calm : ∀ a n as et es, P (tagEv et n as :: es) → I a (es.length + 1) → Calm (f a n as et es)
  next : ∀ a n as et es a' es', P (tagEv et n as :: es) → I a (es.length + 1) → f a n as et es = .ok (some (a', es')) →
    Ends es es' ∧ I a' es'.length

/-- The property of the events passes to the last ones. -/
def Inherited (P : List Event → Prop) : Prop := ∀ ev es, P (ev :: es) → P es

theorem Inherited.ends {P : List Event → Prop} (h : Inherited P) {es es' : List Event} (e : Ends es es') (hp : P es) :
    P es' := by
  obtain ⟨pre, e⟩ := e
  subst e
  induction pre with
  | nil => exact hp
  | cons ev pre ih => exact ih (h ev _ hp)

theorem subLoop_calm {α : Type} (tag : Str) (f : Child α) (P : List Event → Prop) (I : α → Nat → Prop)
    (hP : Inherited P) (hI : ∀ a k, I a (k + 1) → I a k) (hf : ChildOk f P I) :
    ∀ (k : Nat) (a : α) (names : List Str) (es : List Event), es.length < k → P es → I a es.length →
    Calm (subLoop tag f k a names es)
      ∧ ∀ a' es', subLoop tag f k a names es = .ok (a', es') → After tag es es' ∧ I a' es'.length := by
  intro k
  induction k with
  | zero => intro a names es h; omega
  | succ k ih =>
    intro a names es hl hp hi
    cases es with
    | nil =>
      rw [subLoop]
      refine ⟨calm_ok _, ?_⟩
      intro a' es' h
      cases h
      exact ⟨.inl rfl, hi⟩
    | cons ev es =>
      have hl2 : es.length < k := by simp at hl; omega
      have hp2 : P es := hP ev es hp
      have hi2 : I a es.length := hI a _ hi
      have pass : ∀ names, Calm (subLoop tag f k a names es)
          ∧ ∀ a' es', subLoop tag f k a names es = .ok (a', es') → After tag (ev :: es) es' ∧ I a' es'.length := by
        intro names
        obtain ⟨h1, h2⟩ := ih a names es hl2 hp2 hi2
        refine ⟨h1, ?_⟩
        intro a' es' h
        obtain ⟨g1, g2⟩ := h2 a' es' h
        exact ⟨g1.cons _, g2⟩
      have go : ∀ et n as, ev = tagEv et n as → ∀ a1 es1, f a n as et es = .ok (some (a1, es1)) →
          Calm (subLoop tag f k a1 names es1)
          ∧ ∀ a' es', subLoop tag f k a1 names es1 = .ok (a', es') → After tag (ev :: es) es' ∧ I a' es'.length := by
        intro et n as he a1 es1 h
        obtain ⟨g1, g2⟩ := hf.next a n as et es a1 es1 (he ▸ hp) hi h
        obtain ⟨h1, h2⟩ := ih a1 names es1 (by have := g1.length; omega) (hP.ends g1 hp2) g2
        refine ⟨h1, ?_⟩
        intro a' es' h
        obtain ⟨k1, k2⟩ := h2 a' es' h
        exact ⟨After.before (g1.cons ev) k1, k2⟩
      cases ev with
      | text s => exact pass names
      | ref s => exact pass names
      | «end» n =>
        rw [subLoop]
        by_cases hn : n ≠ names.headD tag
        · rw [if_pos hn]
          exact ⟨calm_error (by decide) (by decide), by intro x es' h; cases h⟩
        · rw [if_neg hn]
          by_cases ht : n = tag
          · rw [if_pos ht]
            refine ⟨calm_ok _, ?_⟩
            intro a' es' h
            cases h
            exact ⟨.inr ⟨[], by rw [ht]; rfl⟩, hi2⟩
          · rw [if_neg ht]
            exact pass names.tail
      | start n as =>
        rw [subLoop]
        have hc := hf.calm a n as false es hp hi
        cases hr : f a n as false es with
        | error x => exact ⟨hc.of hr, by intro x es' h; cases h⟩
        | ok o =>
          cases o with
          | none => exact pass (n :: names)
          | some r => exact go false n as rfl r.1 r.2 hr
      | empty n as =>
        rw [subLoop]
        have hc := hf.calm a n as true es hp hi
        cases hr : f a n as true es with
        | error x => exact ⟨hc.of hr, by intro x es' h; cases h⟩
        | ok o =>
          cases o with
          | none => exact pass names
          | some r => exact go true n as rfl r.1 r.2 hr

/-- The tags: an element that is read inside takes with it at most one end tag more than start tags. -/
theorem subLoop_excess {α : Type} (tag : Str) (f : Child α)
    (hf : ∀ a n as et es a' es', f a n as et es = .ok (some (a', es')) → excess es ≤ excess es' + (if et then 0 else 1)) :
    ∀ (k : Nat) (a : α) (names : List Str) (es : List Event) (a' : α) (es' : List Event),
    subLoop tag f k a names es = .ok (a', es') → excess es ≤ excess es' + names.length + 1 := by
  intro k
  induction k with
  | zero => intro a names es a' es' h; cases h
  | succ k ih =>
    intro a names es a' es' h
    cases es with
    | nil => cases h; simp only [excess]; omega
    | cons ev es =>
      cases ev with
      | text s => exact ih a names es a' es' h
      | ref s => exact ih a names es a' es' h
      | «end» n =>
        rw [subLoop] at h
        by_cases hn : n ≠ names.headD tag
        · rw [if_pos hn] at h; cases h
        · rw [if_neg hn] at h
          by_cases ht : n = tag
          · rw [if_pos ht] at h
            cases h
            simp only [excess]; omega
          · rw [if_neg ht] at h
            have g := ih _ _ _ _ _ h
            cases names with
            | nil => exact absurd (Classical.byContradiction hn) ht
            | cons m names =>
              simp only [excess, List.length_cons, List.tail_cons] at g ⊢
              omega
      | start n as =>
        rw [subLoop] at h
        cases hr : f a n as false es with
        | error x => rw [hr] at h; cases h
        | ok o =>
          rw [hr] at h
          cases o with
          | none =>
            have g := ih _ _ _ _ _ h
            simp only [excess, List.length_cons] at g ⊢
            omega
          | some r =>
            have g := ih _ _ _ _ _ h
            have g2 := hf a n as false es r.1 r.2 hr
            simp only [excess, Bool.false_eq_true, if_false] at g2 ⊢
            omega
      | empty n as =>
        rw [subLoop] at h
        cases hr : f a n as true es with
        | error x => rw [hr] at h; cases h
        | ok o =>
          rw [hr] at h
          cases o with
          | none => exact ih a names es a' es' h
          | some r =>
            have g := ih _ _ _ _ _ h
            have g2 := hf a n as true es r.1 r.2 hr
            simp only [excess, if_true] at g2 ⊢
            omega

/-! ## Notes, images, frames and cells -/

/-- A reader of elements inside that needs nothing and takes whole elements. -/
def Plain {α : Type} (f : Child α) : Prop :=
  ∀ a n as et es, Calm (f a n as et es) ∧ ∀ a' es', f a n as et es = .ok (some (a', es')) → Rest n et es es'

theorem Plain.ok {α : Type} {f : Child α} (h : Plain f) : ChildOk f (fun _ => True) (fun _ _ => True) :=
  ⟨fun a n as et es _ _ => (h a n as et es).1, fun a n as et es a' es' _ _ e => ⟨((h a n as et es).2 a' es' e).ends, trivial⟩⟩

theorem Plain.loop {α : Type} {f : Child α} (h : Plain f) (tag : Str) (a : α) (es : List Event) :
    Calm (subLoop tag f (es.length + 1) a [] es)
      ∧ ∀ a' es', subLoop tag f (es.length + 1) a [] es = .ok (a', es') → Rest tag false es es' := by
  obtain ⟨h1, h2⟩ := subLoop_calm tag f (fun _ => True) (fun _ _ => True) (fun _ _ _ => trivial) (fun _ _ _ => trivial) h.ok
    (es.length + 1) a [] es (by omega) trivial trivial
  refine ⟨h1, ?_⟩
  intro a' es' e
  refine ⟨(h2 a' es' e).1, ?_⟩
  have := subLoop_excess tag f (fun a n as et es a' es' e => ((h a n as et es).2 a' es' e).bal) _ _ _ _ _ _ e
  simpa using this

theorem plain_none {α : Type} (n : Str) (et : Bool) (es : List Event) :
    Calm (.ok none : Except Fault (Option (α × List Event)))
      ∧ ∀ (a' : α) (es' : List Event), (.ok none : Except Fault (Option (α × List Event))) = .ok (some (a', es')) → Rest n et es es' :=
  ⟨calm_ok _, by intro a' es' h; cases h⟩

theorem withText_plain {α : Type} (tag : Str) (et : Bool) (es : List Event) (g : Option Str → Except Fault α)
    (hg : ∀ s, Calm (g s)) :
    Calm (withText tag et es g) ∧ ∀ a' es', withText tag et es g = .ok (some (a', es')) → Rest tag et es es' := by
  unfold withText
  cases et with
  | true =>
    rw [if_pos rfl]
    refine ⟨(hg none).map _, ?_⟩
    intro a' es' h
    cases hx : g none with
    | error f => rw [hx] at h; cases h
    | ok a => rw [hx] at h; cases h; rfl
  | false =>
    rw [if_neg (by simp)]
    obtain ⟨h1, h2⟩ := readStr_calm tag es []
    cases hr : readStr tag [] es with
    | error f => exact ⟨h1.of hr, by intro a' es' h; cases h⟩
    | ok x =>
      obtain ⟨s, es1⟩ := x
      simp only
      refine ⟨(hg _).map _, ?_⟩
      intro a' es' h
      cases hx : g (some s) with
      | error f => rw [hx] at h; cases h
      | ok a => rw [hx] at h; cases h; exact h2 _ _ hr

theorem withNode_plain {α : Type} (n : Str) (as : List (Str × Str)) (et : Bool) (es : List Event) (g : Node → α) :
    Calm (withNode n as et es g) ∧ ∀ a' es', withNode n as et es g = .ok (some (a', es')) → Rest n et es es' := by
  unfold withNode
  obtain ⟨h1, h2⟩ := readXml_calm n as et es
  refine ⟨h1.map _, ?_⟩
  intro a' es' h
  cases hx : readXml n as et es with
  | error f => rw [hx] at h; cases h
  | ok x =>
    rw [hx] at h
    cases h
    exact h2 x.1 x.2 hx

theorem annChild_plain : Plain annChild := by
  intro a n as et es
  unfold annChild
  split
  · exact withText_plain n et es _ fun s => calm_ok _
  · split
    · refine withText_plain n et es _ fun s => ?_
      cases s with
      | none => exact calm_ok _
      | some s => exact (calm_orFail _ (by decide) (by decide)).map _
    · split
      · exact withNode_plain n as et es _
      · exact plain_none n et es

theorem annAttr_calm (a : Annotation) (k v : Str) : Calm (annAttr a k v) := by
  unfold annAttr
  split
  · exact (calm_orFail _ (by decide) (by decide)).map _
  · split <;> exact (calm_orFail _ (by decide) (by decide)).map _

theorem annAttrs_calm : ∀ (as : List (Str × Str)) (a : Annotation), Calm (annAttrs a as) := by
  intro as
  induction as with
  | nil => intro a; exact calm_ok _
  | cons p as ih =>
    intro a
    obtain ⟨k, v⟩ := p
    rw [annAttrs]
    cases hr : annAttr a k v with
    | error f => exact (annAttr_calm a k v).of hr
    | ok a => exact ih a

theorem readAnnotation_calm (as : List (Str × Str)) (es : List Event) :
    Calm (readAnnotation as es) ∧ ∀ x es', readAnnotation as es = .ok (x, es') → Rest tAnnotation false es es' := by
  unfold readAnnotation
  cases hr : annAttrs {} as with
  | error f => exact ⟨(annAttrs_calm as {}).of hr, by intro x es' h; cases h⟩
  | ok a => exact annChild_plain.loop tAnnotation a es

theorem imageChild_plain : Plain imageChild := by
  intro a n as et es
  unfold imageChild
  split
  · rename_i h
    rw [h.2]
    exact withText_plain n false es _ fun s => calm_ok _
  · split
    · exact withNode_plain n as et es _
    · exact plain_none n et es

theorem readImage_calm (as : List (Str × Str)) (et : Bool) (es : List Event) :
    Calm (readImage as et es) ∧ ∀ x es', readImage as et es = .ok (x, es') → Rest tImage et es es' := by
  unfold readImage
  cases unescapeAttrs as with
  | none => exact ⟨calm_error (by decide) (by decide), by intro x es' h; cases h⟩
  | some as =>
    cases et with
    | true =>
      refine ⟨calm_ok _, ?_⟩
      intro x es' h
      cases h
      rfl
    | false => exact imageChild_plain.loop tImage _ es

theorem map_some {α β : Type} {n : Str} {et : Bool} {es : List Event} {r : Except Fault (β × List Event)} (g : β → α)
    (h : Calm r ∧ ∀ x es', r = .ok (x, es') → Rest n et es es') :
    Calm (r.map fun x => some (g x.1, x.2))
      ∧ ∀ a' es', (r.map fun x => some (g x.1, x.2)) = .ok (some (a', es')) → Rest n et es es' := by
  refine ⟨h.1.map _, ?_⟩
  intro a' es' e
  cases hr : r with
  | error f => rw [hr] at e; cases e
  | ok x => rw [hr] at e; cases e; exact h.2 x.1 x.2 hr

theorem frameChild_plain : Plain frameChild := by
  intro a n as et es
  unfold frameChild
  split
  · rename_i h
    rw [h]
    exact map_some (fun x => { a with images := a.images ++ [x] }) (readImage_calm as et es)
  · split
    · rename_i h
      rw [h.2]
      exact withText_plain n false es _ fun s => calm_ok _
    · split
      · rename_i h
        rw [h.2]
        exact withText_plain n false es _ fun s => calm_ok _
      · exact plain_none n et es

theorem readFrame_calm (as : List (Str × Str)) (es : List Event) :
    Calm (readFrame as es) ∧ ∀ x es', readFrame as es = .ok (x, es') → Rest tFrame false es es' := by
  unfold readFrame
  cases unescapeAttrs as with
  | none => exact ⟨calm_error (by decide) (by decide), by intro x es' h; cases h⟩
  | some as => exact frameChild_plain.loop tFrame _ es

theorem paragraph_plain {α : Type} (n : Str) (as : List (Str × Str)) (et : Bool) (es : List Event) (old : TextContent)
    (g : TextContent → α) :
    let r := if et then (appendText (.text []) old).map fun c => some (g c, es)
      else match readText n as es with
        | .error e => .error e
        | .ok (t, es) => (appendText t old).map fun c => some (g c, es)
    Calm r ∧ ∀ a' es', r = .ok (some (a', es')) → Rest n et es es' := by
  cases et with
  | true =>
    simp only [if_true]
    refine ⟨(appendText_calm _ _ (by intro l hl; cases hl)).map _, ?_⟩
    intro a' es' h
    cases hx : appendText (.text []) old with
    | error f => rw [hx] at h; cases h
    | ok c => rw [hx] at h; cases h; rfl
  | false =>
    simp only [Bool.false_eq_true, if_false]
    obtain ⟨h1, h2⟩ := readText_calm n as es
    cases hr : readText n as es with
    | error f => exact ⟨h1.of hr, by intro a' es' h; cases h⟩
    | ok x =>
      obtain ⟨t, es1⟩ := x
      obtain ⟨g1, g2⟩ := h2 t es1 hr
      simp only
      refine ⟨(appendText_calm _ _ g1).map _, ?_⟩
      intro a' es' h
      cases hx : appendText t old with
      | error f => rw [hx] at h; cases h
      | ok c => rw [hx] at h; cases h; exact g2

theorem cellChild_plain : Plain cellChild := by
  intro b n as et es
  unfold cellChild
  split
  · rename_i h
    rw [h]
    exact paragraph_plain pName as et es b.text fun c => { b with text := c }
  · split
    · rename_i h
      rw [h.1, h.2]
      exact map_some (fun x => { b with st := b.st.updateExt fun e => { e with annotation := some x } })
        (readAnnotation_calm as es)
    · split
      · rename_i h
        rw [h.1, h.2]
        exact map_some (fun x => { b with st := b.st.updateExt fun e => { e with drawFrames := e.drawFrames ++ [x] } })
          (readFrame_calm as es)
      · exact plain_none n et es

/-- The value is not a list of elements before the content has been read. -/
theorem valueType_text (v : Str) (t : ValueType) (h : readValueType v = some t) : t ≠ .textXml := by
  unfold readValueType at h
  repeat' split at h
  all_goals (cases h; try decide)

end Verif.Whole
