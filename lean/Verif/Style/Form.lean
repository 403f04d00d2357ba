import Verif.Style.Run
import Verif.Book.Less

/-!
# Reading styles into a workbook that has fewer of them

What a reader of styles does next does not depend on the styles that are there; and where styles can be added to a
workbook, they can be added to one with fewer styles.
-/

set_option autoImplicit false

namespace Verif.Style

open Xml Codec
open Verif.Book (Kind Style Stores Less)

/-- A step that does not look at the styles that are there: it fails, changes the loop, or adds something. -/
inductive Formed (f : SBook → Except Fault State) : Prop where
  | fails (e : Fault) (h : ∀ bk, f bk = .error e)
  | goes (md : Mode) (h : ∀ bk, f bk = .ok ⟨md, bk⟩)
  | adds (md : Mode) (p : Op) (h : ∀ bk, f bk = (bk.apply p).map fun bk => ⟨md, bk⟩)

theorem formed_map {α : Type} (x : Except Fault α) (g : α → Mode) :
    Formed fun bk => x.map fun a => (⟨g a, bk⟩ : State) := by
  cases x with
  | error e => exact .fails e fun _ => rfl
  | ok a => exact .goes (g a) fun _ => rfl

theorem formed_startStyle (o : Origin) (s : Section) (use : Use) (md : Mode) (n : Str) (as : List (Str × Str))
    (et : Bool) : Formed fun bk => startStyle o s use ⟨md, bk⟩ n as et := by
  unfold startStyle
  cases familyOf as with
  | none => exact .goes md fun _ => rfl
  | some v =>
    simp only
    cases readFamily v with
    | none => exact .fails _ fun _ => rfl
    | some k =>
      simp only
      cases copyStyleAttr as with
      | error e => exact .fails _ fun _ => rfl
      | ok a =>
        obtain ⟨a, name⟩ := a
        cases et with
        | true => exact .adds md (.style k ⟨name, { origin := o, use := use, attr := a }⟩) fun _ => rfl
        | false => exact .goes (.style s n k name { origin := o, use := use, attr := a }) fun _ => rfl

theorem formed_startInSection (o : Origin) (s : Section) (md : Mode) (n : Str) (as : List (Str × Str)) (et : Bool) :
    Formed fun bk => startInSection o s ⟨md, bk⟩ n as et := by
  unfold startInSection
  cases sectTag n with
  | none => exact .goes md fun _ => rfl
  | some t =>
    cases t with
    | style => exact formed_startStyle o s s.use md n as et
    | default =>
      cases s with
      | office => exact formed_startStyle o _ _ md n as et
      | auto => exact .goes md fun _ => rfl
    | format k =>
      simp only
      cases copyStyleAttr as with
      | error e => exact .fails _ fun _ => rfl
      | ok a => exact .goes (.format s n k a.2 { origin := o, use := s.use, attr := a.1 }) fun _ => rfl
    | page =>
      cases s with
      | office => exact .goes md fun _ => rfl
      | auto =>
        simp only
        cases pageAttrs [] {} as with
        | error e => exact .fails _ fun _ => rfl
        | ok a => exact .goes (.page a.1 a.2 false false) fun _ => rfl

theorem formed_startInFormat (s : Section) (tag : Str) (k : Kind) (name : Str) (f : Format) (md : Mode) (n : Str)
    (as : List (Str × Str)) (et : Bool) : Formed fun bk => startInFormat s tag k name f ⟨md, bk⟩ n as et := by
  unfold startInFormat
  cases readPartTag n with
  | some t =>
    simp only
    cases copyAttrs [] as with
    | error e => exact .fails _ fun _ => rfl
    | ok a =>
      cases et with
      | true => exact .goes _ fun _ => rfl
      | false => exact .goes _ fun _ => rfl
  | none =>
    simp only
    split
    · exact formed_map _ _
    · exact formed_map _ _
    · exact .goes md fun _ => rfl

theorem formed_startInPage (name : Str) (p : Page) (header footer : Bool) (md : Mode) (n : Str) (as : List (Str × Str)) :
    Formed fun bk => startInPage name p header footer ⟨md, bk⟩ n as := by
  unfold startInPage
  cases pageTag n with
  | none => exact .goes md fun _ => rfl
  | some t =>
    cases t with
    | props => exact formed_map _ _
    | header => exact .goes _ fun _ => rfl
    | footer => exact .goes _ fun _ => rfl
    | hf =>
      simp only
      cases (if header then copyAttrs p.header as else .ok p.header) with
      | error e => exact .fails _ fun _ => rfl
      | ok h =>
        simp only
        cases (if footer then copyAttrs p.footer as else .ok p.footer) with
        | error e => exact .fails _ fun _ => rfl
        | ok f => exact .goes _ fun _ => rfl

theorem formed_onTag (m : Refs.Ints) (o : Origin) (md : Mode) (n : Str) (as : List (Str × Str)) (et : Bool) :
    Formed fun bk => onTag m o ⟨md, bk⟩ n as et := by
  unfold onTag
  cases md with
  | doc =>
    simp only
    split
    · exact .goes _ fun _ => rfl
    · split
      · exact .goes _ fun _ => rfl
      · split
        · exact .goes _ fun _ => rfl
        · split
          · exact .goes _ fun _ => rfl
          · exact .goes _ fun _ => rfl
  | fonts next =>
    simp only
    unfold startInFonts
    split
    · cases copyStyleAttr as with
      | error e => exact .fails _ fun _ => rfl
      | ok a => exact .adds (.fonts .content) (.font ⟨a.2, next, a.1⟩) fun _ => rfl
    · exact .goes _ fun _ => rfl
  | sect s => exact formed_startInSection o s _ n as et
  | style s tag k name b => exact formed_map _ _
  | format s tag k name f => exact formed_startInFormat s tag k name f _ n as et
  | part s tag k name f ptag h p =>
    simp only
    split
    · exact formed_map _ _
    · exact .goes _ fun _ => rfl
  | page name p header footer => exact formed_startInPage name p header footer _ n as

theorem formed_onEnd (md : Mode) (n : Str) : Formed fun bk => onEnd ⟨md, bk⟩ n := by
  unfold onEnd
  cases md with
  | doc => exact .goes _ fun _ => rfl
  | fonts next =>
    simp only
    split
    · exact .goes _ fun _ => rfl
    · exact .goes _ fun _ => rfl
  | sect s =>
    simp only
    split
    · exact .goes _ fun _ => rfl
    · exact .goes _ fun _ => rfl
  | style s tag k name b =>
    simp only
    split
    · exact .adds (.sect s) (.style k ⟨name, b⟩) fun _ => rfl
    · exact .goes _ fun _ => rfl
  | format s tag k name f =>
    simp only
    split
    · exact .adds (.sect s) (.format k ⟨name, f⟩) fun _ => rfl
    · exact .goes _ fun _ => rfl
  | part s tag k name f ptag h p =>
    simp only
    split
    · exact .goes _ fun _ => rfl
    · exact .goes _ fun _ => rfl
  | page name p header footer =>
    simp only
    split
    · exact .goes _ fun _ => rfl
    · split
      · exact .goes _ fun _ => rfl
      · split
        · exact .adds (.sect .auto) (.page ⟨name, p⟩) fun _ => rfl
        · exact .goes _ fun _ => rfl

theorem formed_step (m : Refs.Ints) (o : Origin) (md : Mode) (ev : Event) : Formed fun bk => step m o ⟨md, bk⟩ ev := by
  cases ev with
  | start n as => exact formed_onTag m o md n as false
  | empty n as => exact formed_onTag m o md n as true
  | «end» n => exact formed_onEnd md n
  | text s =>
    show Formed fun bk => .ok (onText ⟨md, bk⟩ s)
    unfold onText
    simp only
    split
    · exact .goes _ fun _ => rfl
    · exact .goes _ fun _ => rfl
    · exact .goes _ fun _ => rfl
  | ref r =>
    show Formed fun bk => .ok (onRef ⟨md, bk⟩ r)
    unfold onRef
    simp only
    split
    · exact .goes _ fun _ => rfl
    · exact .goes _ fun _ => rfl

/-- The end of the file. -/
theorem formed_atEof (md : Mode) : (∀ bk, atEof ⟨md, bk⟩ = .ok bk) ∨ ∃ p, ∀ bk : SBook, atEof ⟨md, bk⟩ = bk.apply p := by
  cases md with
  | format s tag k name f => exact .inr ⟨.format k ⟨name, f⟩, fun _ => rfl⟩
  | part s tag k name f ptag h p => exact .inr ⟨.format k ⟨name, { f with parts := f.parts ++ [p] }⟩, fun _ => rfl⟩
  | page name p h f => exact .inr ⟨.page ⟨name, p⟩, fun _ => rfl⟩
  | doc | fonts | sect | style => exact .inl fun _ => rfl

/-! ## Fewer styles -/

/-- All stores have seen less. -/
structure LessBook (a b : SBook) : Prop where
  styles : Less a.styles b.styles
  formats : Less a.formats b.formats
  pages : Less a.pages b.pages

theorem liftAdd_ok {β γ : Type} {r : Except Book.NameFail (Stores β × Str)} {f : Stores β → γ} {g : γ}
    (h : liftAdd r f = .ok g) : ∃ b n, r = .ok (b, n) ∧ f b = g := by
  cases r with
  | error e => cases h
  | ok x => cases h; exact ⟨x.1, x.2, rfl, rfl⟩

theorem less_apply {a b b' : SBook} (h : LessBook a b) (p : Op) (hb : b.apply p = .ok b') :
    ∃ a', a.apply p = .ok a' ∧ LessBook a' b' := by
  cases p with
  | style k s =>
    obtain ⟨x, n, h1, h2⟩ := liftAdd_ok (show liftAdd (b.styles.add k s) _ = .ok b' from hb)
    obtain ⟨y, n', g1, g2⟩ := Book.less_add h.styles k s n h1
    refine ⟨{ a with styles := y }, ?_, ?_⟩
    · show liftAdd (a.styles.add k s) _ = _
      rw [g1]; rfl
    · rw [← h2]; exact ⟨g2, h.formats, h.pages⟩
  | format k s =>
    obtain ⟨x, n, h1, h2⟩ := liftAdd_ok (show liftAdd (b.formats.add k s) _ = .ok b' from hb)
    obtain ⟨y, n', g1, g2⟩ := Book.less_add h.formats k s n h1
    refine ⟨{ a with formats := y }, ?_, ?_⟩
    · show liftAdd (a.formats.add k s) _ = _
      rw [g1]; rfl
    · rw [← h2]; exact ⟨h.styles, g2, h.pages⟩
  | page s =>
    obtain ⟨x, n, h1, h2⟩ := liftAdd_ok (show liftAdd (b.pages.add .page s) _ = .ok b' from hb)
    obtain ⟨y, n', g1, g2⟩ := Book.less_add h.pages .page s n h1
    refine ⟨{ a with pages := y }, ?_, ?_⟩
    · show liftAdd (a.pages.add .page s) _ = _
      rw [g1]; rfl
    · rw [← h2]; exact ⟨h.styles, h.formats, g2⟩
  | font f =>
    cases hb
    exact ⟨_, rfl, h.styles, h.formats, h.pages⟩

theorem less_step {a b : SBook} (h : LessBook a b) (m : Refs.Ints) (o : Origin) (md : Mode) (ev : Event) (st : State)
    (hb : step m o ⟨md, b⟩ ev = .ok st) : ∃ a', step m o ⟨md, a⟩ ev = .ok ⟨st.mode, a'⟩ ∧ LessBook a' st.book := by
  cases formed_step m o md ev with
  | fails e hf => simp only [hf] at hb; cases hb
  | goes md' hf =>
    simp only [hf] at hb ⊢
    cases hb
    exact ⟨a, rfl, h⟩
  | adds md' p hf =>
    simp only [hf] at hb ⊢
    cases hp : b.apply p with
    | error e => rw [hp] at hb; cases hb
    | ok b' =>
      rw [hp] at hb
      cases hb
      obtain ⟨a', g1, g2⟩ := less_apply h p hp
      exact ⟨a', by rw [g1]; rfl, g2⟩

theorem less_atEof {a b b' : SBook} (h : LessBook a b) (md : Mode) (hb : atEof ⟨md, b⟩ = .ok b') :
    ∃ a', atEof ⟨md, a⟩ = .ok a' ∧ LessBook a' b' := by
  rcases formed_atEof md with hf | ⟨p, hf⟩
  · rw [hf] at hb ⊢
    cases hb
    exact ⟨a, rfl, h⟩
  · rw [hf] at hb ⊢
    exact less_apply h p hb

/-- Counters within their range. -/
def Counted (b : SBook) : Prop := LessBook {} b

end Verif.Style
