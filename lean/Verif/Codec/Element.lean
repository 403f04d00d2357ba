import Verif.Codec.OtherCells

/-!
# Elements of files of other programs

The elements of any file as trees: what their events are, what they mean, and what the loops of the
readers do with them.
-/

set_option autoImplicit false

namespace Verif.Codec

open Xml Xml.Spec

/-! ## Specification -/

/-- A piece of the content of an element of a file: text, a reference like `&lt;`, an empty tag, or an element
with a start tag and an end tag.  The attributes are as they are in the file. -/
inductive El where
  | text (s : Str)
  | ref (n : Str)
  | void (n : Str) (as : List (Str × Str))
  | elem (n : Str) (as : List (Str × Str)) (c : List El)

mutual

/-- What the parser reports for it. -/
def El.events : El → List Event
  | .text s => [.text s]
  | .ref n => [.ref n]
  | .void n as => [.empty n as]
  | .elem n as c => .start n as :: (evsOf c ++ [.end n])

/-- What the parser reports for several. -/
def evsOf : List El → List Event
  | [] => []
  | e :: c => e.events ++ evsOf c

end

/-- The attributes without escapes. -/
def plainAttrs (as : List (Str × Str)) : List (Str × Str) := (unescapeAttrs as).getD []

/-- The escapes in the attributes are known. -/
def Escaped (as : List (Str × Str)) : Prop := (unescapeAttrs as).isSome = true

mutual

/-- The element as a tree. -/
def El.tree : El → Node
  | .text s => .text s
  | .ref n => .text (entity n)
  | .void n as => .tag n (plainAttrs as) []
  | .elem n as c => .tag n (plainAttrs as) (treesOf c)

/-- Several. -/
def treesOf : List El → List Node
  | [] => []
  | e :: c => e.tree :: treesOf c

end

mutual

/-- All attributes in it have known escapes. -/
def El.Clean : El → Prop
  | .text _ => True
  | .ref _ => True
  | .void _ as => Escaped as
  | .elem _ as c => Escaped as ∧ CleanIn c

/-- All of several. -/
def CleanIn : List El → Prop
  | [] => True
  | e :: c => e.Clean ∧ CleanIn c

end

mutual

/-- It has no element with this name, but for empty tags. -/
def El.NoStart (m : Str) : El → Prop
  | .text _ => True
  | .ref _ => True
  | .void _ _ => True
  | .elem n _ c => n ≠ m ∧ NoStartIn m c

/-- None of several. -/
def NoStartIn (m : Str) : List El → Prop
  | [] => True
  | e :: c => e.NoStart m ∧ NoStartIn m c

end

mutual

/-- It has no element with one of these names. -/
def El.Free (ns : List Str) : El → Prop
  | .text _ => True
  | .ref _ => True
  | .void n _ => n ∉ ns
  | .elem n _ c => n ∉ ns ∧ FreeIn ns c

/-- None of several. -/
def FreeIn (ns : List Str) : List El → Prop
  | [] => True
  | e :: c => e.Free ns ∧ FreeIn ns c

end

/-- It is text or a reference. -/
def El.isText : El → Bool
  | .text _ => true
  | .ref _ => true
  | _ => false

/-- The text of a piece. -/
def El.said : El → Str
  | .text s => s
  | .ref n => entity n
  | _ => []

/-- The joined text. -/
def saidIn (c : List El) : Str := c.flatMap El.said

/-- The name of the element. -/
def El.name? : El → Option Str
  | .void n _ => some n
  | .elem n _ _ => some n
  | _ => none

/-! ## Elements that are kept as they are -/

theorem escaped_some {as : List (Str × Str)} (h : Escaped as) : unescapeAttrs as = some (plainAttrs as) := by
  unfold Escaped at h
  unfold plainAttrs
  cases ho : unescapeAttrs as with
  | none => rw [ho] at h; cases h
  | some x => rfl

mutual

theorem El.xmlLoop (root : Str) (e : El) (hc : e.Clean) (hn : e.NoStart root) (f : Frame) (st : List Frame)
    (r : List Event) :
    readXmlLoop root (f :: st) (e.events ++ r) = readXmlLoop root (f.adds [e.tree] :: st) r :=
  match e with
  | .text s => by rw [El.events, List.cons_append, readXmlLoop]; rfl
  | .ref s => by rw [El.events, List.cons_append, readXmlLoop]; rfl
  | .void n as => by
    simp only [El.Clean] at hc
    rw [El.events, List.cons_append, readXmlLoop, escaped_some hc]
    rfl
  | .elem n as c => by
    simp only [El.Clean] at hc
    simp only [El.NoStart] at hn
    have := El.xmlLoopIn root c hc.2 hn.2 ⟨n, plainAttrs as, []⟩ (f :: st) (.end n :: r)
    rw [El.events, List.cons_append, readXmlLoop, escaped_some hc.1, List.append_assoc]
    simp only
    rw [show [Event.end n] ++ r = .end n :: r from rfl, this, readXmlLoop,
      if_neg (by simp [Frame.adds]), if_neg hn.1]
    simp [Frame.adds, Frame.add, Frame.node, El.tree]

theorem El.xmlLoopIn (root : Str) (c : List El) (hc : CleanIn c) (hn : NoStartIn root c) (f : Frame)
    (st : List Frame) (r : List Event) :
    readXmlLoop root (f :: st) (evsOf c ++ r) = readXmlLoop root (f.adds (treesOf c) :: st) r :=
  match c with
  | [] => by rw [treesOf, adds_nil]; rfl
  | e :: c => by
    simp only [CleanIn] at hc
    simp only [NoStartIn] at hn
    rw [evsOf, List.append_assoc, El.xmlLoop root e hc.1 hn.1, El.xmlLoopIn root c hc.2 hn.2]
    simp [Frame.adds, treesOf]

end

/-- An element is read as its tree. -/
theorem readXml_elem (n : Str) (as : List (Str × Str)) (c : List El) (ha : Escaped as) (hc : CleanIn c)
    (hn : NoStartIn n c) (r : List Event) :
    readXml n as false (evsOf c ++ .end n :: r) = .ok ((El.elem n as c).tree, r) := by
  unfold readXml
  rw [escaped_some ha]
  simp only [Bool.false_eq_true, if_false]
  rw [El.xmlLoopIn n c hc hn, readXmlLoop, if_neg (by simp [Frame.adds]), if_pos (by rfl)]
  simp [Frame.adds, Frame.node, El.tree]

theorem readXml_void (n : Str) (as : List (Str × Str)) (ha : Escaped as) (r : List Event) :
    readXml n as true r = .ok ((El.void n as).tree, r) := by
  unfold readXml
  rw [escaped_some ha]
  rfl

/-! ## Texts -/

theorem readStr_said (tag : Str) (c : List El) (h : ∀ e ∈ c, e.isText = true) (r : List Event) : ∀ s,
    readStr tag s (evsOf c ++ .end tag :: r) = .ok (s ++ saidIn c, r) := by
  induction c with
  | nil => intro s; simp [evsOf, readStr, saidIn]
  | cons e c ih =>
    intro s
    have ih := ih (fun e he => h e (List.mem_cons_of_mem _ he))
    have he := h e List.mem_cons_self
    rw [evsOf, List.append_assoc]
    cases e with
    | text t =>
      rw [El.events, List.cons_append, readStr, List.nil_append, ih]
      simp [saidIn, El.said]
    | ref t =>
      rw [El.events, List.cons_append, readStr, List.nil_append, ih]
      simp [saidIn, El.said]
    | void n as => cases he
    | elem n as c => cases he

/-! ## The loop -/

/-- The loop gets from `a` to `a'` over the events, whatever is open and whatever follows. -/
def Passes {α : Type} (tag : Str) (f : Child α) (es : List Event) (a a' : α) : Prop :=
  ∀ names r, ∃ n, n ≤ es.length
    ∧ ∀ k, subLoop tag f (k + n) a names (es ++ r) = subLoop tag f k a' names r

theorem Passes.nil {α : Type} (tag : Str) (f : Child α) (a : α) : Passes tag f [] a a :=
  fun _ _ => ⟨0, by simp, fun _ => rfl⟩

theorem Passes.append {α : Type} {tag : Str} {f : Child α} {es us : List Event} {a b c : α}
    (h1 : Passes tag f es a b) (h2 : Passes tag f us b c) : Passes tag f (es ++ us) a c := by
  intro names r
  obtain ⟨m, l2, e2⟩ := h2 names r
  obtain ⟨n, l1, e1⟩ := h1 names (us ++ r)
  rw [List.append_assoc]
  refine ⟨m + n, by rw [List.length_append]; omega, fun k => ?_⟩
  rw [← Nat.add_assoc, e1, e2]

theorem Passes.finish {α : Type} {tag : Str} {f : Child α} {es : List Event} {a a' : α}
    (h : Passes tag f es a a') (r : List Event) :
    subLoop tag f ((es ++ .end tag :: r).length + 1) a [] (es ++ .end tag :: r) = .ok (a', r) := by
  obtain ⟨n, l, e⟩ := h [] (.end tag :: r)
  have hk : (es ++ .end tag :: r).length + 1 = ((es ++ .end tag :: r).length - n) + 1 + n := by
    rw [List.length_append, List.length_cons]; omega
  rw [hk, e, subLoop, if_neg (by simp), if_pos rfl]

theorem Passes.text {α : Type} (tag : Str) (f : Child α) (a : α) (e : El) (h : e.isText = true) :
    Passes tag f e.events a a := by
  intro names r
  cases e with
  | text s => exact ⟨1, by simp [El.events], fun k => rfl⟩
  | ref s => exact ⟨1, by simp [El.events], fun k => rfl⟩
  | void n as => cases h
  | elem n as c => cases h

/-- An element for which there is an arm. -/
theorem Passes.elem {α : Type} {tag n : Str} {as : List (Str × Str)} {c : List El} {f : Child α} {a a' : α}
    (h : ∀ r, f a n as false (evsOf c ++ .end n :: r) = .ok (some (a', r))) :
    Passes tag f (El.elem n as c).events a a' := by
  intro names r
  refine ⟨1, by simp [El.events], fun k => ?_⟩
  rw [El.events, List.cons_append, List.append_assoc, show [Event.end n] ++ r = .end n :: r from rfl, subLoop, h]

theorem Passes.void {α : Type} {tag n : Str} {as : List (Str × Str)} {f : Child α} {a a' : α}
    (h : ∀ r, f a n as true r = .ok (some (a', r))) : Passes tag f (El.void n as).events a a' := by
  intro names r
  refine ⟨1, by simp [El.events], fun k => ?_⟩
  rw [El.events, List.cons_append, List.nil_append, subLoop, h]

mutual

/-- Elements for which there is no arm are passed over, with all that is in them. -/
theorem El.over {α : Type} (tag : Str) (f : Child α) (ns : List Str) (htag : tag ∈ ns)
    (hf : ∀ a n as et es, n ∉ ns → f a n as et es = .ok none) (e : El) (he : e.Free ns) (a : α) :
    Passes tag f e.events a a :=
  match e with
  | .text s => Passes.text tag f a _ rfl
  | .ref s => Passes.text tag f a _ rfl
  | .void n as => by
    simp only [El.Free] at he
    intro names r
    refine ⟨1, by simp [El.events], fun k => ?_⟩
    rw [El.events, List.cons_append, List.nil_append, subLoop, hf _ _ _ _ _ he]
  | .elem n as c => by
    simp only [El.Free] at he
    intro names r
    obtain ⟨m, l, e⟩ := El.overIn tag f ns htag hf c he.2 a (n :: names) (.end n :: r)
    refine ⟨m + 2, by rw [El.events, List.length_cons, List.length_append]; simp; omega, fun k => ?_⟩
    rw [El.events, List.cons_append, List.append_assoc, show [Event.end n] ++ r = .end n :: r from rfl,
      show k + (m + 2) = (k + 1 + m) + 1 by omega, subLoop, hf _ _ _ _ _ he.1]
    simp only
    rw [e, subLoop, if_neg (by simp), if_neg (by intro h; exact he.1 (h ▸ htag))]
    rfl

theorem El.overIn {α : Type} (tag : Str) (f : Child α) (ns : List Str) (htag : tag ∈ ns)
    (hf : ∀ a n as et es, n ∉ ns → f a n as et es = .ok none) (c : List El) (hc : FreeIn ns c) (a : α) :
    Passes tag f (evsOf c) a a :=
  match c with
  | [] => Passes.nil tag f a
  | e :: c => by
    simp only [FreeIn] at hc
    exact (El.over tag f ns htag hf e hc.1 a).append (El.overIn tag f ns htag hf c hc.2 a)

end

/-- A list of elements, each of which has an effect. -/
theorem Passes.list {α : Type} {tag : Str} {f : Child α} (upd : α → El → α) (c : List El)
    (h : ∀ e ∈ c, ∀ a, Passes tag f e.events a (upd a e)) : ∀ a, Passes tag f (evsOf c) a (c.foldl upd a) := by
  induction c with
  | nil => intro a; exact Passes.nil tag f a
  | cons e c ih =>
    intro a
    rw [evsOf]
    exact (h e List.mem_cons_self a).append (ih (fun e he => h e (List.mem_cons_of_mem _ he)) _)

end Verif.Codec
