import Verif.Codec.OtherProps

/-!
# Elements within elements that are not known

The loops of the readers pass over the tags they do not know, and find the elements they know wherever they are.
-/

set_option autoImplicit false

namespace Verif.Codec

open Xml Xml.Spec

mutual

/-- The elements with one of these names that are not in another one of them, in the order of the file. -/
def El.reach (ns : List Str) : El → List El
  | .text _ => []
  | .ref _ => []
  | .void n as => if n ∈ ns then [.void n as] else []
  | .elem n as c => if n ∈ ns then [.elem n as c] else reachIn ns c

/-- Of several. -/
def reachIn (ns : List Str) : List El → List El
  | [] => []
  | e :: c => e.reach ns ++ reachIn ns c

end

/-- The loop goes over these elements one by one. -/
def Chain {α : Type} (tag : Str) (f : Child α) : α → List El → α → Prop
  | a, [], a' => a = a'
  | a, x :: xs, a' => ∃ b, Passes tag f x.events a b ∧ Chain tag f b xs a'

theorem chain_append {α : Type} {tag : Str} {f : Child α} (xs ys : List El) : ∀ (a a' : α),
    Chain tag f a (xs ++ ys) a' → ∃ b, Chain tag f a xs b ∧ Chain tag f b ys a' := by
  induction xs with
  | nil => intro a a' h; exact ⟨a, rfl, h⟩
  | cons x xs ih =>
    rintro a a' ⟨b, h1, h2⟩
    obtain ⟨d, h3, h4⟩ := ih b a' h2
    exact ⟨d, ⟨b, h1, h3⟩, h4⟩

theorem chain_foldl {α : Type} {tag : Str} {f : Child α} (upd : α → El → α) (xs : List El)
    (h : ∀ x ∈ xs, ∀ a, Passes tag f x.events a (upd a x)) : ∀ a, Chain tag f a xs (xs.foldl upd a) := by
  induction xs with
  | nil => intro a; exact rfl
  | cons x xs ih =>
    intro a
    exact ⟨upd a x, h x List.mem_cons_self a, ih (fun y hy => h y (List.mem_cons_of_mem _ hy)) _⟩

mutual

theorem El.passReach {α : Type} {tag : Str} {f : Child α} {ns : List Str} (htag : tag ∈ ns)
    (hf : ∀ a n as et es, n ∉ ns → f a n as et es = .ok none) (e : El) (a a' : α)
    (h : Chain tag f a (e.reach ns) a') : Passes tag f e.events a a' :=
  match e with
  | .text s => by
    obtain rfl : a = a' := h
    exact Passes.text tag f a _ rfl
  | .ref s => by
    obtain rfl : a = a' := h
    exact Passes.text tag f a _ rfl
  | .void n as => by
    rw [El.reach] at h
    split at h
    · obtain ⟨b, h1, rfl⟩ := h
      exact h1
    · rename_i hn
      obtain rfl : a = a' := h
      exact Passes.skip fun r => hf _ _ _ _ _ hn
  | .elem n as c => by
    rw [El.reach] at h
    split at h
    · obtain ⟨b, h1, rfl⟩ := h
      exact h1
    · rename_i hn
      exact Passes.through (fun e => hn (by rw [e]; exact htag)) (fun a es => hf _ _ _ _ _ hn)
        (El.passReachIn htag hf c a a' h)

theorem El.passReachIn {α : Type} {tag : Str} {f : Child α} {ns : List Str} (htag : tag ∈ ns)
    (hf : ∀ a n as et es, n ∉ ns → f a n as et es = .ok none) (c : List El) (a a' : α)
    (h : Chain tag f a (reachIn ns c) a') : Passes tag f (evsOf c) a a' :=
  match c with
  | [] => by
    obtain rfl : a = a' := h
    exact Passes.nil tag f a
  | e :: c => by
    rw [reachIn] at h
    obtain ⟨b, h1, h2⟩ := chain_append _ _ _ _ h
    rw [evsOf]
    exact (El.passReach htag hf e a b h1).append (El.passReachIn htag hf c b a' h2)

end

mutual

theorem reach_names (ns : List Str) (e : El) : ∀ x ∈ e.reach ns, ∃ n ∈ ns, x.name? = some n :=
  match e with
  | .text _ => by intro x hx; cases hx
  | .ref _ => by intro x hx; cases hx
  | .void n as => by
    intro x hx
    rw [El.reach] at hx
    split at hx
    · rename_i hn
      rw [List.mem_singleton] at hx
      subst hx
      exact ⟨n, hn, rfl⟩
    · cases hx
  | .elem n as c => by
    intro x hx
    rw [El.reach] at hx
    split at hx
    · rename_i hn
      rw [List.mem_singleton] at hx
      subst hx
      exact ⟨n, hn, rfl⟩
    · exact reachIn_names ns c x hx

theorem reachIn_names (ns : List Str) (c : List El) : ∀ x ∈ reachIn ns c, ∃ n ∈ ns, x.name? = some n :=
  match c with
  | [] => by intro x hx; cases hx
  | e :: c => by
    intro x hx
    rw [reachIn] at hx
    rcases List.mem_append.1 hx with hx | hx
    · exact reach_names ns e x hx
    · exact reachIn_names ns c x hx

end

end Verif.Codec
