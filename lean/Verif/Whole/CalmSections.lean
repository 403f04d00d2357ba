import Verif.Whole.CalmParts

/-!
# Reading comes to an end: styles, master pages, scripts, settings and metadata
-/

set_option autoImplicit false

namespace Verif.Whole

open Xml Codec Xml.Spec
open Verif.Book (Stores Kind)

/-! ## Styles -/

/-- The stores of styles, formats and page layouts. -/
def StylesMade (b : Style.SBook) (left : Nat) : Prop := Made b.styles left ∧ Made b.formats left ∧ Made b.pages left

theorem StylesMade.less {b : Style.SBook} {k l : Nat} (h : StylesMade b k) (hl : l ≤ k) : StylesMade b l :=
  ⟨h.1.less hl, h.2.1.less hl, h.2.2.less hl⟩

theorem addStyle_made {b : Style.SBook} {l : Nat} (h : StylesMade b (l + 1)) (k : Kind) (s : Book.Style Style.Body) :
    ∃ b', b.addStyle k s = .ok b' ∧ StylesMade b' l := by
  obtain ⟨b', r, h1, h2⟩ := h.1.add k s
  exact ⟨{ b with styles := b' }, by unfold Style.SBook.addStyle; rw [h1]; rfl, h2, h.2.1.less (by omega), h.2.2.less (by omega)⟩

theorem addFormat_made {b : Style.SBook} {l : Nat} (h : StylesMade b (l + 1)) (k : Kind) (s : Book.Style Style.Format) :
    ∃ b', b.addFormat k s = .ok b' ∧ StylesMade b' l := by
  obtain ⟨b', r, h1, h2⟩ := h.2.1.add k s
  exact ⟨{ b with formats := b' }, by unfold Style.SBook.addFormat; rw [h1]; rfl, h.1.less (by omega), h2, h.2.2.less (by omega)⟩

theorem addPage_made {b : Style.SBook} {l : Nat} (h : StylesMade b (l + 1)) (s : Book.Style Style.Page) :
    ∃ b', b.addPage s = .ok b' ∧ StylesMade b' l := by
  obtain ⟨b', r, h1, h2⟩ := h.2.2.add .page s
  exact ⟨{ b with pages := b' }, by unfold Style.SBook.addPage; rw [h1]; rfl, h.1.less (by omega), h.2.1.less (by omega), h2⟩

theorem copyAttrs_calm : ∀ (as : List (Str × Str)) (m : Style.Attrs), Calm (Style.copyAttrs m as) := by
  intro as
  induction as with
  | nil => intro m; exact calm_ok _
  | cons p as ih =>
    intro m
    obtain ⟨k, v⟩ := p
    rw [Style.copyAttrs]
    cases unescape v with
    | none => exact calm_error (by decide) (by decide)
    | some v => exact ih _

theorem copyStyleAttrs_calm : ∀ (as : List (Str × Str)) (m : Style.Attrs) (n : Str), Calm (Style.copyStyleAttrs m n as) := by
  intro as
  induction as with
  | nil => intro m n; exact calm_ok _
  | cons p as ih =>
    intro m n
    obtain ⟨k, v⟩ := p
    rw [Style.copyStyleAttrs]
    cases unescape v with
    | none => exact calm_error (by decide) (by decide)
    | some v =>
      simp only
      split
      · exact ih _ _
      · exact ih _ _

theorem copyStyleAttr_calm (as : List (Str × Str)) : Calm (Style.copyStyleAttr as) := copyStyleAttrs_calm as [] []

theorem readMap_calm (m : Refs.Ints) (hm : m.wrap = true) : ∀ (as : List (Str × Str)) (sm : Style.StyleMap),
    Calm (Style.readMap m sm as) := by
  intro as
  induction as with
  | nil => intro sm; exact calm_ok _
  | cons p as ih =>
    intro sm
    obtain ⟨k, v⟩ := p
    rw [Style.readMap]
    split
    · exact ih _
    · split
      · exact calm_error (by decide) (by decide)
      · split
        · exact ih _
        · exact ih _
        · split
          · exact ih _
          · rename_i h; exact absurd h (ref_calm m hm _)
          · exact calm_error (by decide) (by decide)

theorem readValueMap_calm : ∀ (as : List (Str × Str)) (sm : Style.ValueMap), Calm (Style.readValueMap sm as) := by
  intro as
  induction as with
  | nil => intro sm; exact calm_ok _
  | cons p as ih =>
    intro sm
    obtain ⟨k, v⟩ := p
    rw [Style.readValueMap]
    split
    · split
      · exact calm_error (by decide) (by decide)
      · exact ih _
    · split
      · exact calm_error (by decide) (by decide)
      · exact ih _
    · exact ih _

theorem readProp_calm (m : Refs.Ints) (hm : m.wrap = true) (k : Kind) (b : Style.Body) (n : Str) (as : List (Str × Str)) :
    Calm (Style.readProp m k b n as) := by
  unfold Style.readProp
  split
  all_goals first
    | exact calm_ok _
    | exact (copyAttrs_calm _ _).map _
    | exact (readMap_calm m hm _ _).map _

theorem readPosition_calm : ∀ (as : List (Str × Str)) (p : Style.Part), Calm (Style.readPosition p as) := by
  intro as
  induction as with
  | nil => intro p; exact calm_ok _
  | cons q as ih =>
    intro p
    obtain ⟨k, v⟩ := q
    rw [Style.readPosition]
    split
    · split
      · exact calm_error (by decide) (by decide)
      · exact ih _
    · exact ih _

theorem pageAttrs_calm : ∀ (as : List (Str × Str)) (n : Str) (p : Style.Page), Calm (Style.pageAttrs n p as) := by
  intro as
  induction as with
  | nil => intro n p; exact calm_ok _
  | cons q as ih =>
    intro n p
    obtain ⟨k, v⟩ := q
    rw [Style.pageAttrs]
    split
    · split
      · exact calm_error (by decide) (by decide)
      · exact ih _ _
    · split
      · split
        · exact calm_error (by decide) (by decide)
        · exact ih _ _
      · exact ih _ _

/-- The result of one event: no crash, and a style more at most. -/
def StyleTurn (left : Nat) (r : Except Fault Style.State) : Prop := Calm r ∧ ∀ st, r = .ok st → StylesMade st.book left

theorem styleTurn_ok {left : Nat} {st : Style.State} (h : StylesMade st.book left) : StyleTurn left (.ok st) :=
  ⟨calm_ok _, by intro s e; cases e; exact h⟩

theorem styleTurn_of {left : Nat} {α : Type} {r : Except Fault α} {f : Fault} (h : Calm r) (e : r = .error f) :
    StyleTurn left (.error f) := ⟨h.of e, by intro s e; cases e⟩

theorem styleTurn_map {left : Nat} {α : Type} {r : Except Fault α} {g : α → Style.State} (h : Calm r)
    (hg : ∀ a, StylesMade (g a).book left) : StyleTurn left (r.map g) :=
  ⟨h.map _, map_keeps fun a _ => hg a⟩

theorem startStyle_turn (left : Nat) (o : Style.Origin) (s : Style.Section) (u : Style.Use) (st : Style.State) (n : Str)
    (as : List (Str × Str)) (et : Bool) (h : StylesMade st.book (left + 1)) :
    StyleTurn left (Style.startStyle o s u st n as et) := by
  have h0 := h.less (Nat.le_succ left)
  unfold Style.startStyle
  cases Style.familyOf as with
  | none => exact styleTurn_ok h0
  | some v =>
    simp only
    cases Style.readFamily v with
    | none => exact ⟨calm_error (by decide) (by decide), by intro s e; cases e⟩
    | some k =>
      simp only
      cases hc : Style.copyStyleAttr as with
      | error e => exact styleTurn_of (copyStyleAttr_calm as) hc
      | ok r =>
        obtain ⟨a, name⟩ := r
        simp only
        split
        · obtain ⟨b', e1, e2⟩ := addStyle_made h k ⟨name, { origin := o, use := u, attr := a }⟩
          rw [e1]
          exact styleTurn_ok e2
        · exact styleTurn_ok h0

theorem styleStep_turn (left : Nat) (m : Refs.Ints) (hm : m.wrap = true) (o : Style.Origin) (st : Style.State) (ev : Event)
    (h : StylesMade st.book (left + 1)) : StyleTurn left (Style.step m o st ev) := by
  have h0 := h.less (Nat.le_succ left)
  have tag : ∀ n as et, StyleTurn left (Style.onTag m o st n as et) := by
    intro n as et
    unfold Style.onTag
    split
    · split
      · exact styleTurn_ok h0
      · split
        · exact styleTurn_ok h0
        · split
          · exact styleTurn_ok h0
          · split <;> exact styleTurn_ok h0
    · unfold Style.startInFonts
      split
      · split
        · rename_i e; exact styleTurn_of (copyStyleAttr_calm as) e
        · exact styleTurn_ok h0
      · exact styleTurn_ok h0
    · unfold Style.startInSection
      split
      · exact startStyle_turn left o _ _ st n as et h
      · split
        · exact startStyle_turn left o _ _ st n as et h
        · exact styleTurn_ok h0
      · split
        · rename_i e; exact styleTurn_of (copyStyleAttr_calm as) e
        · exact styleTurn_ok h0
      · split
        · exact styleTurn_ok h0
        · split
          · rename_i e; exact styleTurn_of (pageAttrs_calm as _ _) e
          · exact styleTurn_ok h0
      · exact styleTurn_ok h0
    · exact styleTurn_map (readProp_calm m hm _ _ n as) fun _ => h0
    · unfold Style.startInFormat
      split
      · split
        · rename_i e; exact styleTurn_of (copyAttrs_calm as _) e
        · split <;> exact styleTurn_ok h0
      · split
        · exact styleTurn_map (readValueMap_calm as _) fun _ => h0
        · exact styleTurn_map (copyAttrs_calm as _) fun _ => h0
        · exact styleTurn_ok h0
    · split
      · exact styleTurn_map (readPosition_calm as _) fun _ => h0
      · exact styleTurn_ok h0
    · unfold Style.startInPage
      split
      · exact styleTurn_map (copyAttrs_calm as _) fun _ => h0
      · exact styleTurn_ok h0
      · exact styleTurn_ok h0
      · have opt : ∀ (b : Bool) (a : Style.Attrs), Calm (if b then Style.copyAttrs a as else .ok a) := by
          intro b a
          cases b
          · exact calm_ok _
          · exact copyAttrs_calm as a
        split
        · rename_i e; exact styleTurn_of (opt _ _) e
        · split
          · rename_i e; exact styleTurn_of (opt _ _) e
          · exact styleTurn_ok h0
      · exact styleTurn_ok h0
  cases ev with
  | start n as => exact tag n as false
  | empty n as => exact tag n as true
  | text s =>
    refine styleTurn_ok ?_
    unfold Style.onText
    split <;> exact h0
  | ref r =>
    refine styleTurn_ok ?_
    unfold Style.onRef
    split <;> exact h0
  | «end» n =>
    show StyleTurn left (Style.onEnd st n)
    unfold Style.onEnd
    split
    · exact styleTurn_ok h0
    · split <;> exact styleTurn_ok h0
    · split <;> exact styleTurn_ok h0
    · rename_i s tag k name b _
      split
      · obtain ⟨b', e1, e2⟩ := addStyle_made h k ⟨name, b⟩
        rw [e1]
        exact styleTurn_ok e2
      · exact styleTurn_ok h0
    · rename_i s tag k name f _
      split
      · obtain ⟨b', e1, e2⟩ := addFormat_made h k ⟨name, f⟩
        rw [e1]
        exact styleTurn_ok e2
      · exact styleTurn_ok h0
    · split <;> exact styleTurn_ok h0
    · rename_i name p hd ft _
      split
      · exact styleTurn_ok h0
      · split
        · exact styleTurn_ok h0
        · split
          · obtain ⟨b', e1, e2⟩ := addPage_made h ⟨name, p⟩
            rw [e1]
            exact styleTurn_ok e2
          · exact styleTurn_ok h0

theorem styleEof_calm (left : Nat) (st : Style.State) (h : StylesMade st.book (left + 1)) :
    Calm (Style.atEof st) ∧ ∀ b, Style.atEof st = .ok b → StylesMade b left := by
  unfold Style.atEof
  split
  · rename_i k name f _
    obtain ⟨b', e1, e2⟩ := addFormat_made h k ⟨name, f⟩
    rw [e1]
    exact ⟨calm_ok _, by intro b e; cases e; exact e2⟩
  · rename_i k name f _ _ p _
    obtain ⟨b', e1, e2⟩ := addFormat_made h k ⟨name, { f with parts := f.parts ++ [p] }⟩
    rw [e1]
    exact ⟨calm_ok _, by intro b e; cases e; exact e2⟩
  · rename_i name p _ _ _
    obtain ⟨b', e1, e2⟩ := addPage_made h ⟨name, p⟩
    rw [e1]
    exact ⟨calm_ok _, by intro b e; cases e; exact e2⟩
  · exact ⟨calm_ok _, by intro b e; cases e; exact h.less (Nat.le_succ left)⟩

/-! ## Master pages -/

theorem intoVec_calm : ∀ l : List Node, Calm (Master.intoVec l) := by
  intro l
  induction l with
  | nil => exact calm_ok _
  | cons x l ih =>
    cases x with
    | text s =>
      rw [Master.intoVec]
      split
      · exact ih
      · exact calm_error (by decide) (by decide)
    | tag n as c => exact ih.map _

theorem withRegion_plain {α : Type} (n : Str) (as : List (Str × Str)) (et : Bool) (es : List Event) (g : List Node → α) :
    Calm (Master.withRegion n as et es g)
      ∧ ∀ a' es', Master.withRegion n as et es g = .ok (some (a', es')) → Rest n et es es' := by
  unfold Master.withRegion
  obtain ⟨h1, h2⟩ := readXml_calm n as et es
  cases hr : readXml n as et es with
  | error f => exact ⟨h1.of hr, by intro a' es' h; cases h⟩
  | ok p =>
    simp only
    refine ⟨(intoVec_calm _).map _, ?_⟩
    intro a' es' h
    exact map_keeps (Q := fun o => ∀ q, o = some q → Rest n et es q.2)
      (fun l _ q hq => by cases hq; exact h2 p.1 p.2 hr) _ h _ rfl

theorem hfChild_plain : Plain Master.hfChild := by
  intro b n as et es
  unfold Master.hfChild
  split
  · exact withRegion_plain n as et es _
  · split
    · exact withRegion_plain n as et es _
    · split
      · exact withRegion_plain n as et es _
      · split
        · exact paragraph_plain n as et es b.text fun c => { b with text := c }
        · exact plain_none n et es

theorem hfAttrs_calm : ∀ (as : List (Str × Str)) (h : Master.HeaderFooter), Calm (Master.hfAttrs h as) := by
  intro as
  induction as with
  | nil => intro h; exact calm_ok _
  | cons q as ih =>
    intro h
    obtain ⟨k, v⟩ := q
    rw [Master.hfAttrs]
    split
    · split
      · exact calm_error (by decide) (by decide)
      · exact ih _
    · exact ih _

theorem readHF_calm (tag : Str) (as : List (Str × Str)) (es : List Event) :
    Calm (Master.readHF tag as es) ∧ ∀ x es', Master.readHF tag as es = .ok (x, es') → Rest tag false es es' := by
  unfold Master.readHF
  cases hr : Master.hfAttrs Master.HeaderFooter.new as with
  | error f => exact ⟨(hfAttrs_calm as _).of hr, by intro x es' h; cases h⟩
  | ok h =>
    simp only
    obtain ⟨h1, h2⟩ := hfChild_plain.loop tag { hf := h } es
    refine ⟨h1.map _, ?_⟩
    intro x es' e
    exact map_keeps (Q := fun p => Rest tag false es p.2) (fun p hp => h2 p.1 p.2 hp) _ e

theorem masterChild_plain : Plain Master.masterChild := by
  intro b n as et es
  unfold Master.masterChild
  split
  · exact plain_none n et es
  · rename_i s _
    split
    · rename_i het
      rw [het]
      exact ⟨calm_ok _, by intro a' es' h; cases h; rfl⟩
    · rename_i het
      have het : et = false := by simpa using het
      rw [het]
      exact map_some (fun x => b.change s fun _ => x) (readHF_calm n as es)

theorem looseLoop_calm {α : Type} (tag : Str) (f : Child α) (hf : Plain f) : ∀ (k : Nat) (a : α) (es : List Event),
    es.length < k →
    Calm (Master.looseLoop tag f k a es) ∧ ∀ a' es', Master.looseLoop tag f k a es = .ok (a', es') → Ends es es' := by
  intro k
  induction k with
  | zero => intro a es h; omega
  | succ k ih =>
    intro a es hl
    cases es with
    | nil => exact ⟨calm_ok _, by intro a' es' h; cases h; exact Ends.refl _⟩
    | cons ev es =>
      have hl2 : es.length < k := by simp at hl; omega
      have go : ∀ a es1, Ends es es1 → Calm (Master.looseLoop tag f k a es1)
          ∧ ∀ a' es', Master.looseLoop tag f k a es1 = .ok (a', es') → Ends (ev :: es) es' := by
        intro a es1 he
        obtain ⟨h1, h2⟩ := ih a es1 (by have := he.length; omega)
        exact ⟨h1, fun a' es' h => (he.trans (h2 a' es' h)).cons ev⟩
      cases ev with
      | text s => exact go a es (Ends.refl es)
      | ref s => exact go a es (Ends.refl es)
      | «end» n =>
        rw [Master.looseLoop]
        split
        · exact ⟨calm_ok _, by intro a' es' h; cases h; exact (Ends.refl es).cons _⟩
        · exact go a es (Ends.refl es)
      | start n as =>
        rw [Master.looseLoop]
        obtain ⟨h1, h2⟩ := hf a n as false es
        cases hr : f a n as false es with
        | error x => exact ⟨h1.of hr, by intro a' es' h; cases h⟩
        | ok o =>
          cases o with
          | none => exact go a es (Ends.refl es)
          | some r => exact go r.1 r.2 (h2 r.1 r.2 hr).ends
      | empty n as =>
        rw [Master.looseLoop]
        obtain ⟨h1, h2⟩ := hf a n as true es
        cases hr : f a n as true es with
        | error x => exact ⟨h1.of hr, by intro a' es' h; cases h⟩
        | ok o =>
          cases o with
          | none => exact go a es (Ends.refl es)
          | some r => exact go r.1 r.2 (h2 r.1 r.2 hr).ends

theorem masterAttrs_calm : ∀ (as : List (Str × Str)) (x : Str × Master.Master), Calm (Master.masterAttrs x as) := by
  intro as
  induction as with
  | nil => intro x; exact calm_ok _
  | cons q as ih =>
    intro x
    obtain ⟨k, v⟩ := q
    rw [Master.masterAttrs]
    split
    · exact ih _
    · split
      · exact calm_error (by decide) (by decide)
      · split <;> exact ih _

theorem readMaster_calm (as : List (Str × Str)) (et : Bool) (es : List Event) :
    Calm (Master.readMaster as et es) ∧ ∀ x es', Master.readMaster as et es = .ok (x, es') → Ends es es' := by
  unfold Master.readMaster
  cases hr : Master.masterAttrs ([], {}) as with
  | error f => exact ⟨(masterAttrs_calm as _).of hr, by intro x es' h; cases h⟩
  | ok q =>
    obtain ⟨name, p⟩ := q
    simp only
    cases et with
    | true =>
      simp only [if_true]
      obtain ⟨h1, h2⟩ := looseLoop_calm Master.tMaster Master.masterChild masterChild_plain (es.length + 1) p es (by omega)
      refine ⟨h1.map _, ?_⟩
      intro x es' e
      exact map_keeps (Q := fun p => Ends es p.2) (fun p hp => h2 p.1 p.2 hp) _ e
    | false =>
      simp only [Bool.false_eq_true, if_false]
      obtain ⟨h1, h2⟩ := masterChild_plain.loop Master.tMaster p es
      refine ⟨h1.map _, ?_⟩
      intro x es' e
      exact map_keeps (Q := fun p => Ends es p.2) (fun p hp => (h2 p.1 p.2 hp).ends) _ e

theorem readMasters_calm (more : Nat) (b : Stores Master.Master) (es : List Event) (hb : Made b (es.length + more)) :
    Calm (Master.readMasters b es)
      ∧ ∀ b' es', Master.readMasters b es = .ok (b', es') → Ends es es' ∧ Made b' (es'.length + more) := by
  have ok : ChildOk Master.mastersChild (fun _ => True) (fun b k => Made b (k + more)) := by
    have add : ∀ (a : Stores Master.Master) (es es1 : List Event) (p : Book.Style Master.Master), Ends es es1 →
        Made a (es.length + 1 + more) → ∃ a', Master.addMaster a p = .ok a' ∧ Made a' (es1.length + more) := by
      intro a es es1 p he h
      obtain ⟨a', r, h1, h2⟩ := (h.less (l := es.length + more + 1) (by omega)).add .masterPage p
      exact ⟨a', by unfold Master.addMaster; rw [h1], h2.less (by have := he.length; omega)⟩
    refine ⟨?_, ?_⟩
    · intro a n as et es _ hi
      unfold Master.mastersChild
      split
      · obtain ⟨h1, h2⟩ := readMaster_calm as et es
        cases hr : Master.readMaster as et es with
        | error f => exact h1.of hr
        | ok p =>
          obtain ⟨a', e1, _⟩ := add a es p.2 p.1 (h2 p.1 p.2 hr) hi
          simp only
          rw [e1]
          exact calm_ok _
      · exact calm_ok _
    · intro a n as et es a' es' _ hi h
      unfold Master.mastersChild at h
      split at h
      · obtain ⟨h1, h2⟩ := readMaster_calm as et es
        cases hr : Master.readMaster as et es with
        | error f => rw [hr] at h; cases h
        | ok p =>
          obtain ⟨a1, e1, e2⟩ := add a es p.2 p.1 (h2 p.1 p.2 hr) hi
          rw [hr] at h
          simp only at h
          rw [e1] at h
          cases h
          exact ⟨h2 p.1 p.2 hr, e2⟩
      · cases h
  obtain ⟨h1, h2⟩ := subLoop_calm Master.tMasters Master.mastersChild (fun _ => True) (fun b k => Made b (k + more))
    (fun _ _ _ => trivial) (fun a k h => h.less (by omega)) ok (es.length + 1) b [] es (by omega) trivial hb
  exact ⟨h1, fun b' es' h => ⟨(h2 b' es' h).1.ends, (h2 b' es' h).2⟩⟩

/-! ## Scripts -/

theorem listener_calm : ∀ (as : List (Str × Str)) (e : Script.Listener), Calm (Script.readListener e as) := by
  intro as
  induction as with
  | nil => intro e; exact calm_ok _
  | cons q as ih =>
    intro e
    obtain ⟨k, v⟩ := q
    rw [Script.readListener]
    split
    · exact ih _
    · rename_i key _
      split
      · exact calm_error (by decide) (by decide)
      · rename_i s _
        have hk : Calm (Script.setKey e s key) := by
          cases key with
          | actuate => exact (calm_orFail _ (by decide) (by decide)).map _
          | type => exact (calm_orFail _ (by decide) (by decide)).map _
          | _ => exact calm_ok _
        split
        · rename_i h; exact hk.of h
        · exact ih _

theorem leafEnd_ends (n : Str) (es es' : List Event) (h : Script.leafEnd n es = some es') : Ends es es' := by
  induction es with
  | nil => cases h; exact Ends.refl []
  | cons ev es ih =>
    cases ev with
    | text s => exact (ih h).cons _
    | ref s => exact (ih h).cons _
    | «end» m =>
      unfold Script.leafEnd at h
      split at h
      · cases h; exact (Ends.refl _).cons _
      · cases h
    | start m as => cases h
    | empty m as => cases h

theorem readScripts_calm (b : Script.Scripts) (es : List Event) (hs : EventsSafe es) :
    Calm (Script.readScripts b es) ∧ ∀ b' es', Script.readScripts b es = .ok (b', es') → Ends es es' := by
  have ok : ChildOk Script.scriptsChild EventsSafe (fun _ _ => True) := by
    have one : ∀ n as et es, EventsSafe (tagEv et n as :: es) → n = Script.tScript →
        et = false ∧ Calm (Script.readScript n as et es)
          ∧ ∀ x es', Script.readScript n as et es = .ok (x, es') → Ends es es' := by
      intro n as et es hs hn
      cases et with
      | true => exact absurd hn hs.1.2
      | false =>
        unfold Script.readScript
        simp only [Bool.false_eq_true, if_false]
        obtain ⟨h1, h2⟩ := readXml_calm n as false es
        refine ⟨trivial, h1.map _, ?_⟩
        intro x es' e
        exact map_keeps (Q := fun p => Ends es p.2) (fun p hp => (h2 p.1 p.2 hp).ends) _ e
    refine ⟨?_, ?_⟩
    · intro a n as et es hs _
      unfold Script.scriptsChild
      split
      · rename_i hn
        exact (one n as et es hs hn).2.1.map _
      · split
        · exact (listener_calm as {}).map _
        · split
          · split
            · exact (listener_calm as {}).map _
            · exact calm_ok _
          · exact calm_ok _
    · intro a n as et es a' es' hs _ h
      unfold Script.scriptsChild at h
      split at h
      · rename_i hn
        exact ⟨map_keeps (Q := fun o => ∀ q, o = some q → Ends es q.2)
          (fun p hp q hq => by cases hq; exact (one n as et es hs hn).2.2 p.1 p.2 hp) _ h _ rfl, trivial⟩
      · split at h
        · exact ⟨map_keeps (Q := fun o => ∀ q, o = some q → Ends es q.2)
            (fun p hp q hq => by cases hq; exact Ends.refl es) _ h _ rfl, trivial⟩
        · split at h
          · split at h
            · rename_i hl
              exact ⟨map_keeps (Q := fun o => ∀ q, o = some q → Ends es q.2)
                (fun p hp q hq => by cases hq; exact leafEnd_ends _ _ _ hl) _ h _ rfl, trivial⟩
            · cases h
          · cases h
  obtain ⟨h1, h2⟩ := subLoop_calm Script.tScripts Script.scriptsChild EventsSafe (fun _ _ => True)
    (fun _ _ h => h.2) (fun _ _ _ => trivial) ok (es.length + 1) b [] es (by omega) hs trivial
  exact ⟨h1, fun b' es' h => (h2 b' es' h).1.ends⟩

end Verif.Whole
