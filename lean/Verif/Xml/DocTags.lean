import Verif.Xml.Doc

/-!
# The tags in the events of a document
-/

set_option autoImplicit false

namespace Verif.Xml

open Spec

/-- All start tags have names with `P`. -/
def StartsOk (P : Str → Prop) (es : List Event) : Prop := ∀ n as, Event.start n as ∈ es → P n

theorem startsOk_append {P : Str → Prop} {a b : List Event} (ha : StartsOk P a) (hb : StartsOk P b) :
    StartsOk P (a ++ b) := by
  intro n as h
  rcases List.mem_append.1 h with h | h
  · exact ha n as h
  · exact hb n as h

mutual
/-- All names of elements satisfy `P`. -/
def DocTags (P : Str → Prop) : Doc → Prop
  | .elem _ n _ kids => P n ∧ DocsTags P kids
  | .leaf _ n _ _ _ => P n
  | .short _ n _ => P n
  | .void _ n _ _ _ => P n
/-- The same for each. -/
def DocsTags (P : Str → Prop) : List Doc → Prop
  | [] => True
  | d :: ds => DocTags P d ∧ DocsTags P ds
end

theorem docsTags_append (P : Str → Prop) (a b : List Doc) : DocsTags P (a ++ b) ↔ DocsTags P a ∧ DocsTags P b := by
  induction a with
  | nil => simp [DocsTags]
  | cons d a ih => rw [List.cons_append, DocsTags, DocsTags, ih, and_assoc]

theorem docsTags_iff (P : Str → Prop) (a : List Doc) : DocsTags P a ↔ ∀ d ∈ a, DocTags P d := by
  induction a with
  | nil => simp [DocsTags]
  | cons d a ih => rw [DocsTags, ih]; simp

theorem docsTags_map {α : Type} (P : Str → Prop) (l : List α) (f : α → Doc) (h : ∀ a ∈ l, DocTags P (f a)) :
    DocsTags P (l.map f) := by
  rw [docsTags_iff]
  intro d hd
  obtain ⟨a, ha, rfl⟩ := List.mem_map.1 hd
  exact h a ha

theorem docsTags_flatMap {α : Type} (P : Str → Prop) (l : List α) (f : α → List Doc)
    (h : ∀ a ∈ l, DocsTags P (f a)) : DocsTags P (l.flatMap f) := by
  rw [docsTags_iff]
  intro d hd
  obtain ⟨a, ha, hd⟩ := List.mem_flatMap.1 hd
  exact (docsTags_iff _ _).1 (h a ha) d hd

theorem startsOk_nl (P : Str → Prop) (lb : Bool) : StartsOk P (nlEv lb) := by
  intro n as h
  cases lb <;> simp [nlEv] at h

/-- Texts and references only. -/
def Silent : List Tok → Prop
  | [] => True
  | .chr _ :: ts => Silent ts
  | .ref _ :: ts => Silent ts
  | _ :: _ => False

theorem silent_chr (s : Str) : Silent (s.map Tok.chr) := by
  induction s with
  | nil => trivial
  | cons c s ih => exact ih

theorem silent_esc (s : Str) : Silent (s.map escTok) := by
  induction s with
  | nil => trivial
  | cons c s ih =>
    rw [List.map_cons]
    unfold escTok
    repeat' split
    all_goals exact ih

theorem startsOk_silent (P : Str → Prop) (ts : List Tok) (h : Silent ts) : StartsOk P (events ts) := by
  induction ts with
  | nil => intro n as h; cases h
  | cons t ts ih =>
    cases t with
    | chr c =>
      intro n as hm
      rw [events] at hm
      have := ih h n as
      split at hm <;> simp_all
    | ref r =>
      intro n as hm
      rw [events] at hm
      have := ih h n as
      simp_all
    | skip s => exact absurd h id
    | start n as => exact absurd h id
    | «end» n => exact absurd h id
    | empty n as => exact absurd h id

theorem startsOk_text (P : Str → Prop) (e : Bool) (s : Str) : StartsOk P (textEv e s) := by
  unfold textEv
  apply startsOk_silent
  cases e
  · exact silent_chr s
  · exact silent_esc s

mutual
theorem startsOk_doc (P : Str → Prop) (lb : Bool) : ∀ d, DocTags P d → StartsOk P (docEv lb d)
  | .elem v n as kids, h => by
    rw [DocTags] at h
    rw [docEv]
    intro m bs hm
    rcases List.mem_cons.1 hm with he | hm
    · cases he; exact h.1
    · rcases List.mem_append.1 hm with hm | hm
      · exact startsOk_docs P lb kids h.2 m bs hm
      · rcases List.mem_cons.1 hm with he | hm
        · cases he
        · exact startsOk_nl P lb m bs hm
  | .leaf v n as e s, h => by
    rw [DocTags] at h
    rw [docEv]
    intro m bs hm
    rcases List.mem_cons.1 hm with he | hm
    · cases he; exact h
    · rcases List.mem_append.1 hm with hm | hm
      · exact startsOk_text P e s m bs hm
      · rcases List.mem_cons.1 hm with he | hm
        · cases he
        · exact startsOk_nl P lb m bs hm
  | .short e n s, h => by
    rw [DocTags] at h
    rw [docEv]
    intro m bs hm
    rcases List.mem_cons.1 hm with he | hm
    · cases he; exact h
    · rcases List.mem_append.1 hm with hm | hm
      · exact startsOk_text P e s m bs hm
      · rcases List.mem_cons.1 hm with he | hm
        · cases he
        · exact startsOk_nl P lb m bs hm
  | .void v n as t ne, h => by
    rw [docEv]
    intro m bs hm
    rcases List.mem_cons.1 hm with he | hm
    · cases he
    · exact startsOk_nl P lb m bs hm
theorem startsOk_docs (P : Str → Prop) (lb : Bool) : ∀ ds, DocsTags P ds → StartsOk P (docsEv lb ds)
  | [], _ => by intro n as h; rw [docsEv] at h; cases h
  | d :: ds, h => by
    rw [DocsTags] at h
    rw [docsEv]
    exact startsOk_append (startsOk_doc P lb d h.1) (startsOk_docs P lb ds h.2)
end

/-! ## The end tags -/

/-- All end tags have names with `P`. -/
def EndsOk (P : Str → Prop) (es : List Event) : Prop := ∀ n, Event.end n ∈ es → P n

theorem endsOk_append {P : Str → Prop} {a b : List Event} (ha : EndsOk P a) (hb : EndsOk P b) : EndsOk P (a ++ b) := by
  intro n h
  rcases List.mem_append.1 h with h | h
  · exact ha n h
  · exact hb n h

theorem endsOk_nl (P : Str → Prop) (lb : Bool) : EndsOk P (nlEv lb) := by
  intro n h
  cases lb <;> simp [nlEv] at h

theorem endsOk_silent (P : Str → Prop) (ts : List Tok) (h : Silent ts) : EndsOk P (events ts) := by
  induction ts with
  | nil => intro n h; cases h
  | cons t ts ih =>
    cases t with
    | chr c =>
      intro n hm
      rw [events] at hm
      have := ih h n
      split at hm <;> simp_all
    | ref r =>
      intro n hm
      rw [events] at hm
      have := ih h n
      simp_all
    | skip s => exact absurd h id
    | start n as => exact absurd h id
    | «end» n => exact absurd h id
    | empty n as => exact absurd h id

theorem endsOk_text (P : Str → Prop) (e : Bool) (s : Str) : EndsOk P (textEv e s) := by
  unfold textEv
  apply endsOk_silent
  cases e
  · exact silent_chr s
  · exact silent_esc s

theorem endsOk_tail {P : Str → Prop} {lb : Bool} {a : List Event} {n : Str} {ev : Event} (hev : ∀ m, ev ≠ .end m)
    (ha : EndsOk P a) (hn : P n) : EndsOk P (ev :: (a ++ .end n :: nlEv lb)) := by
  intro m hm
  rcases List.mem_cons.1 hm with he | hm
  · exact absurd he.symm (hev m)
  · rcases List.mem_append.1 hm with hm | hm
    · exact ha m hm
    · rcases List.mem_cons.1 hm with he | hm
      · cases he; exact hn
      · exact endsOk_nl P lb m hm

mutual
theorem endsOk_doc (P : Str → Prop) (lb : Bool) : ∀ d, DocTags P d → EndsOk P (docEv lb d)
  | .elem v n as kids, h => by
    rw [DocTags] at h
    rw [docEv]
    exact endsOk_tail (by simp) (endsOk_docs P lb kids h.2) h.1
  | .leaf v n as e s, h => by
    rw [DocTags] at h
    rw [docEv]
    exact endsOk_tail (by simp) (endsOk_text P e s) h
  | .short e n s, h => by
    rw [DocTags] at h
    rw [docEv]
    exact endsOk_tail (by simp) (endsOk_text P e s) h
  | .void v n as t ne, h => by
    rw [docEv]
    intro m hm
    rcases List.mem_cons.1 hm with he | hm
    · cases he
    · exact endsOk_nl P lb m hm
theorem endsOk_docs (P : Str → Prop) (lb : Bool) : ∀ ds, DocsTags P ds → EndsOk P (docsEv lb ds)
  | [], _ => by intro n h; rw [docsEv] at h; cases h
  | d :: ds, h => by
    rw [DocsTags] at h
    rw [docsEv]
    exact endsOk_append (endsOk_doc P lb d h.1) (endsOk_docs P lb ds h.2)
end

end Verif.Xml
