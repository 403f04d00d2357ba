import Verif.Cond.Spec
import Verif.Refs.Props

/-!
# Conditions are faithful (C48)
-/

set_option autoImplicit false

namespace Verif.Cond

open Codec Spec Refs.Spec

/-! ## Literals -/

theorem body_quote (s rest : Str) (h : rest.head? ≠ some '"') : body (quoteBody s ++ '"' :: rest) = some (s, rest) := by
  induction s with
  | nil =>
    cases rest with
    | nil => rfl
    | cons d r =>
      have hd : d ≠ '"' := by intro e; subst e; exact h rfl
      show body ('"' :: d :: r) = _
      rw [body, if_pos rfl, if_neg hd]
  | cons c s ih =>
    rw [quoteBody]
    by_cases hc : c = '"'
    · rw [if_pos hc]
      show body ('"' :: '"' :: (quoteBody s ++ '"' :: rest)) = _
      rw [body, if_pos rfl, if_pos rfl, ih, hc]
      rfl
    · rw [if_neg hc]
      cases hq : quoteBody s ++ '"' :: rest with
      | nil => simp at hq
      | cons d r =>
        show body (c :: (quoteBody s ++ '"' :: rest)) = _
        rw [hq, body, if_neg hc, ← hq, ih]
        rfl

theorem literal_quote (s rest : Str) (h : rest.head? ≠ some '"') : literal (quote s ++ rest) = some (s, rest) := by
  have : quote s ++ rest = '"' :: (quoteBody s ++ '"' :: rest) := by simp [quote]
  rw [this]
  exact body_quote s rest h

theorem literal_quote' (s : Str) : literal (quote s) = some (s, []) := by
  have := literal_quote s [] (by simp)
  rwa [List.append_nil] at this

theorem after_append (p s : Str) : after p (p ++ s) = some s := by
  induction p with
  | nil => rfl
  | cons c p ih => show (if c = c then _ else _) = _; rw [if_pos rfl]; exact ih

theorem after_cons_ne (c d : Char) (p s : Str) (h : c ≠ d) : after (c :: p) (d :: s) = none := by
  show (if c = d then _ else _) = _; rw [if_neg h]

theorem comparison_text (op : Cmp) (s : Str) (h : s.head? ≠ some '=') : comparison (op.text ++ s) = some (op, s) := by
  unfold comparison
  cases s with
  | nil => cases op <;> decide
  | cons d s =>
    have hd : '=' ≠ d := by intro e; subst e; exact h rfl
    cases op <;> simp [Cmp.text, after, hd]

/-! ## C48 -/

/-- **C48**: the text and the comparison can be recovered from a condition on the content, … -/
theorem C48_content (op : Cmp) (s : Str) :
    comparesText "cell-content()".toList (contentCond op (.text s)) = some (op, s) := by
  unfold comparesText contentCond
  rw [after_append]
  simp only
  rw [comparison_text op _ (by show (quote s).head? ≠ _; simp [quote])]
  simp only
  show (match literal (quote s) with | some (t, []) => some (op, t) | _ => none) = _
  rw [literal_quote']

/-- … from a condition of a style map, … -/
theorem C48_value (op : Cmp) (s : Str) : comparesText "value()".toList (valueCond op (.text s)) = some (op, s) := by
  unfold comparesText valueCond
  rw [after_append]
  simp only
  rw [comparison_text op _ (by show (quote s).head? ≠ _; simp [quote])]
  simp only
  show (match literal (quote s) with | some (t, []) => some (op, t) | _ => none) = _
  rw [literal_quote']

theorem quoteBody_none (s : Str) (h : ∀ c ∈ s, c ≠ '"') : quoteBody s = s := by
  induction s with
  | nil => rfl
  | cons c s ih =>
    rw [quoteBody, if_neg (h c List.mem_cons_self), ih (fun d hd => h d (List.mem_cons_of_mem _ hd))]

theorem digit_ne {c d : Char} (h : Refs.isDigit c = true) (hd : Refs.isDigit d = false) : c ≠ d := by
  intro e; subst e; rw [h] at hd; cases hd

theorem decInt_chars (z : Int) : ∀ c ∈ decInt z, c = '-' ∨ Refs.isDigit c = true := by
  intro c hc
  unfold decInt at hc
  split at hc
  · rcases List.mem_cons.1 hc with rfl | hc
    · exact .inl rfl
    · exact .inr (decNat_digits _ c hc)
  · exact .inr (decNat_digits _ c hc)

theorem shown_plain (v : Operand) (h : ∀ s, v ≠ .text s) : v.value = shown v ∧ ∀ c ∈ shown v, c ≠ '"' := by
  cases v with
  | text s => exact absurd rfl (h s)
  | int z =>
    refine ⟨rfl, fun c hc => ?_⟩
    rcases decInt_chars z c hc with rfl | hd
    · decide
    · exact digit_ne hd (by decide)
  | bool b => cases b <;> exact ⟨rfl, by decide⟩

theorem itemText_eq (v : Operand) : itemText v = quote (shown v) := by
  by_cases h : ∃ s, v = .text s
  · obtain ⟨s, rfl⟩ := h
    rfl
  · have h' : ∀ s, v ≠ .text s := fun s e => h ⟨s, e⟩
    obtain ⟨h1, h2⟩ := shown_plain v h'
    unfold itemText
    rw [h1]
    split
    · rename_i s hs
      exact absurd rfl (h2 '"' (by rw [hs]; exact List.mem_cons_self))
    · unfold quote
      rw [quoteBody_none _ h2]

theorem listLoop_sep (v : Operand) (vs : List Operand) :
    listLoop true (v :: vs) = ';' :: listLoop false (v :: vs) := rfl

theorem items_loop (vs : List Operand) : ∀ (v : Operand) (n : Nat), vs.length < n →
    items n (listLoop false (v :: vs) ++ [')']) = some ((v :: vs).map shown) := by
  induction vs with
  | nil =>
    intro v n hn
    cases n with
    | zero => cases hn
    | succ n =>
      show items (n + 1) (([] ++ (itemText v ++ [])) ++ [')']) = _
      rw [List.nil_append, List.append_nil, itemText_eq, items, literal_quote _ _ (by decide)]
      rfl
  | cons w vs ih =>
    intro v n hn
    cases n with
    | zero => cases hn
    | succ n =>
      show items (n + 1) (([] ++ (itemText v ++ listLoop true (w :: vs))) ++ [')']) = _
      rw [List.nil_append, itemText_eq, listLoop_sep, List.append_assoc, List.cons_append, items,
        literal_quote _ _ (by simp)]
      simp only
      rw [ih w n (by simp at hn; omega)]
      rfl

theorem listLoop_length (vs : List Operand) : ∀ b, vs.length ≤ (listLoop b vs).length := by
  induction vs with
  | nil => intro b; exact Nat.zero_le _
  | cons v vs ih =>
    intro b
    have := ih true
    have h1 : 0 < (itemText v).length := by rw [itemText_eq]; simp [quote]
    simp only [listLoop, List.length_append, List.length_cons]
    omega

/-- … and from a list of choices: all of them, in their order. -/
theorem C48_list (vs : List Operand) : entries (inListCond vs) = some (vs.map shown) := by
  unfold entries inListCond
  rw [after_append]
  cases vs with
  | nil => rfl
  | cons v vs =>
    have hq : ∃ r, listLoop false (v :: vs) ++ [')'] = '"' :: r := by
      refine ⟨quoteBody (shown v) ++ '"' :: (listLoop true vs ++ [')']), ?_⟩
      show (([] ++ (itemText v ++ listLoop true vs)) ++ [')']) = _
      rw [List.nil_append, itemText_eq, quote]
      simp
    have hl := listLoop_length (v :: vs) false
    have hi := items_loop vs v (listLoop false (v :: vs) ++ [')']).length (by
      rw [List.length_append]; simp only [List.length_cons] at hl ⊢; omega)
    obtain ⟨r, hr⟩ := hq
    rw [hr] at hi ⊢
    split
    · rename_i h; cases h
    · rename_i h; cases h
    · rename_i s _ h
      cases h
      exact hi

/-! ### Different calls make different conditions -/

/-- The beginnings of the conditions. -/
inductive Head where
  | content | length | between | notBetween | list | kind (k : Content) | formula
  deriving DecidableEq

def Head.text : Head → Str
  | .content => "cell-content()".toList
  | .length => "cell-content-text-length()".toList
  | .between => "cell-content-text-length-is-between(".toList
  | .notBetween => "cell-content-text-length-is-not-between(".toList
  | .list => "cell-content-is-in-list(".toList
  | .kind k => k.text
  | .formula => "is-true-formula(".toList

/-- `a` is the beginning of `b`. -/
def isPre : Str → Str → Bool
  | [], _ => true
  | c :: p, d :: s => (c == d) && isPre p s
  | _ :: _, [] => false

theorem isPre_of_append (a b s t : Str) (h : a ++ s = b ++ t) : isPre a b = true ∨ isPre b a = true := by
  induction a generalizing b with
  | nil => exact .inl rfl
  | cons c a ih =>
    cases b with
    | nil => exact .inr rfl
    | cons d b =>
      simp only [List.cons_append, List.cons.injEq] at h
      rcases ih b h.2 with h2 | h2
      · left; simp [isPre, h.1, h2]
      · right; simp [isPre, h.1, h2]

theorem head_pre (a b : Head) (h : isPre a.text b.text = true ∨ isPre b.text a.text = true) : a = b := by
  revert h
  rcases a with _ | _ | _ | _ | _ | k | _ <;> rcases b with _ | _ | _ | _ | _ | k' | _ <;>
    first
      | (intro _; rfl)
      | (intro h; exact absurd h (by decide +kernel))
      | (cases k <;> intro h <;> exact absurd h (by decide +kernel))
      | (cases k' <;> intro h <;> exact absurd h (by decide +kernel))
      | (cases k <;> cases k' <;> first | (intro _; rfl) | (intro h; exact absurd h (by decide +kernel)))

theorem head_inj (a b : Head) (s t : Str) (h : a.text ++ s = b.text ++ t) : a = b ∧ s = t := by
  have hab := head_pre a b (isPre_of_append _ _ s t h)
  subst hab
  exact ⟨rfl, List.append_cancel_left h⟩

/-- The beginning and the rest of a condition. -/
def Call.parts : Call → Head × Str
  | .content op v => (.content, op.text ++ v.value)
  | .textLength op n => (.length, op.text ++ decNat n)
  | .between a b => (.between, decNat a ++ (", ".toList ++ (decNat b ++ [')'])))
  | .notBetween a b => (.notBetween, decNat a ++ (", ".toList ++ (decNat b ++ [')'])))
  | .inList vs => (.list, listLoop false vs ++ [')'])
  | .inRange r => (.list, rangeFormula r ++ [')'])
  | .and k c => (.kind k, " and ".toList ++ c.text)
  | .formula f => (.formula, f ++ [')'])

theorem text_parts (c : Call) : c.text = c.parts.1.text ++ c.parts.2 := by cases c <;> rfl

theorem parts_inj (c d : Call) (h : c.text = d.text) : c.parts = d.parts := by
  rw [text_parts, text_parts] at h
  obtain ⟨h1, h2⟩ := head_inj _ _ _ _ h
  exact Prod.ext h1 h2

theorem head_decNat (n : Nat) : ∃ c r, decNat n = c :: r ∧ Refs.isDigit c = true := by
  cases h : decNat n with
  | nil => exact absurd h (decNat_ne n)
  | cons c r => exact ⟨c, r, rfl, decNat_digits n c (by rw [h]; exact List.mem_cons_self)⟩

theorem value_head (v : Operand) : v.value.head? ≠ some '=' := by
  cases v with
  | text s => simp [Operand.value, quote]
  | int z =>
    show (decInt z).head? ≠ _
    intro h
    have : '=' ∈ decInt z := List.mem_of_head? h
    rcases decInt_chars z _ this with h | h
    · exact absurd h (by decide)
    · exact absurd h (by decide)
  | bool b => cases b <;> decide

theorem cmp_inj (a b : Cmp) (s t : Str) (hs : s.head? ≠ some '=') (ht : t.head? ≠ some '=')
    (h : a.text ++ s = b.text ++ t) : a = b ∧ s = t := by
  have h1 := comparison_text a s hs
  rw [h, comparison_text b t ht] at h1
  simp only [Option.some.injEq, Prod.mk.injEq] at h1
  exact ⟨h1.1.symm, h1.2.symm⟩

theorem decInt_inj (a b : Int) (h : decInt a = decInt b) : a = b := by
  unfold decInt at h
  obtain ⟨c, r, hc, hd⟩ := head_decNat a.natAbs
  obtain ⟨c', r', hc', hd'⟩ := head_decNat b.natAbs
  have hm : ∀ c : Char, Refs.isDigit c = true → c ≠ '-' := fun c h => digit_ne h (by decide)
  split at h <;> split at h
  · have := decNat_inj (List.cons.inj h).2; omega
  · rw [hc'] at h; exact absurd (List.cons.inj h).1.symm (hm _ hd')
  · rw [hc] at h; exact absurd (List.cons.inj h).1 (hm _ hd)
  · have := decNat_inj h; omega

theorem value_inj (v w : Operand) (h : v.value = w.value) : v = w := by
  have key : ∀ (s : Str) (w : Operand), (∀ t, w ≠ .text t) → quote s ≠ w.value := by
    intro s w hw he
    obtain ⟨h1, h2⟩ := shown_plain w hw
    rw [h1] at he
    exact h2 '"' (by rw [← he]; exact List.mem_cons_self) rfl
  have key2 : ∀ (z : Int) (b : Bool), decInt z ≠ boolText b := by
    intro z b he
    have : ∀ c ∈ boolText b, c = '-' ∨ Refs.isDigit c = true := by rw [← he]; exact decInt_chars z
    cases b
    · exact absurd (this 'f' (by decide)) (by decide)
    · exact absurd (this 't' (by decide)) (by decide)
  cases v with
  | text s =>
    cases w with
    | text t =>
      have h1 := literal_quote' s
      rw [show quote s = quote t from h, literal_quote'] at h1
      simp only [Option.some.injEq, Prod.mk.injEq, and_true] at h1
      rw [h1]
    | int z => exact absurd h (key s _ (by intro t e; cases e))
    | bool b => exact absurd h (key s _ (by intro t e; cases e))
  | int z =>
    cases w with
    | text t => exact absurd h.symm (key t _ (by intro t e; cases e))
    | int y => rw [decInt_inj z y h]
    | bool b => exact absurd h (key2 z b)
  | bool b =>
    cases w with
    | text t => exact absurd h.symm (key t _ (by intro t e; cases e))
    | int z => exact absurd h.symm (key2 z b)
    | bool c => cases b <;> cases c <;> first | rfl | exact absurd h (by decide)

theorem digits_split (a b s t : Str) (c : Char) (hc : Refs.isDigit c = false) (ha : ∀ x ∈ a, Refs.isDigit x = true)
    (hb : ∀ x ∈ b, Refs.isDigit x = true) (h : a ++ c :: s = b ++ c :: t) : a = b ∧ s = t := by
  induction a generalizing b with
  | nil =>
    cases b with
    | nil => exact ⟨rfl, (List.cons.inj h).2⟩
    | cons d b =>
      exact absurd (List.cons.inj h).1.symm (digit_ne (hb d List.mem_cons_self) hc)
  | cons d a ih =>
    cases b with
    | nil => exact absurd (List.cons.inj h).1 (digit_ne (ha d List.mem_cons_self) hc)
    | cons e b =>
      obtain ⟨h1, h2⟩ := List.cons.inj h
      obtain ⟨h3, h4⟩ := ih b (fun x hx => ha x (List.mem_cons_of_mem _ hx))
        (fun x hx => hb x (List.mem_cons_of_mem _ hx)) h2
      exact ⟨by rw [h1, h3], h4⟩

theorem pair_inj (a b c d : Nat)
    (h : decNat a ++ (", ".toList ++ (decNat b ++ [')'])) = decNat c ++ (", ".toList ++ (decNat d ++ [')']))) :
    a = c ∧ b = d := by
  obtain ⟨h1, h2⟩ := digits_split _ _ _ _ ',' (by decide) (decNat_digits a) (decNat_digits c) h
  have h3 := (List.cons.inj h2).2
  exact ⟨decNat_inj h1, decNat_inj (List.append_cancel_right h3)⟩

theorem list_inj (vs ws : List Operand) (h : listLoop false vs ++ [')'] = listLoop false ws ++ [')']) :
    vs.map shown = ws.map shown := by
  have h1 := C48_list vs
  have h2 : inListCond vs = inListCond ws := by unfold inListCond; rw [h]
  rw [h2, C48_list] at h1
  exact (Option.some.inj h1).symm

theorem list_range (vs : List Operand) (r : CellRange) : listLoop false vs ++ [')'] ≠ rangeFormula r ++ [')'] := by
  cases vs with
  | nil => intro h; exact absurd (List.cons.inj h).1 (by decide)
  | cons v vs =>
    intro h
    have : (listLoop false (v :: vs) ++ [')']).head? = some '"' := by
      show (([] ++ (itemText v ++ listLoop true vs)) ++ [')']).head? = _
      rw [itemText_eq]; simp [quote]
    rw [h] at this
    exact absurd this (by simp [rangeFormula])

/-- **C48**: different calls make different conditions.  The entries of a list count as they are shown: the
number 1 and the text 1 make the same condition. -/
theorem C48_injective (c d : Call) (hc : GoodCall c) (hd : GoodCall d) (h : c.text = d.text) : Same c d := by
  induction c generalizing d with
  | content op v =>
    have hp := parts_inj _ _ h
    cases d with
    | content op' v' =>
      obtain ⟨h1, h2⟩ := cmp_inj _ _ _ _ (value_head v) (value_head v') (congrArg Prod.snd hp)
      show Call.content op v = Call.content op' v'
      rw [h1, value_inj _ _ h2]
    | _ => exact absurd (congrArg Prod.fst hp) (by simp [Call.parts])
  | textLength op n =>
    have hp := parts_inj _ _ h
    cases d with
    | textLength op' n' =>
      have hh : ∀ n, (decNat n).head? ≠ some '=' := by
        intro n
        obtain ⟨c, r, hc, hd⟩ := head_decNat n
        rw [hc]
        simp only [List.head?_cons, ne_eq, Option.some.injEq]
        exact digit_ne hd (by decide)
      obtain ⟨h1, h2⟩ := cmp_inj _ _ _ _ (hh n) (hh n') (congrArg Prod.snd hp)
      show Call.textLength op n = Call.textLength op' n'
      rw [h1, decNat_inj h2]
    | _ => exact absurd (congrArg Prod.fst hp) (by simp [Call.parts])
  | between a b =>
    have hp := parts_inj _ _ h
    cases d with
    | between a' b' =>
      obtain ⟨h1, h2⟩ := pair_inj _ _ _ _ (congrArg Prod.snd hp)
      show Call.between a b = Call.between a' b'
      rw [h1, h2]
    | _ => exact absurd (congrArg Prod.fst hp) (by simp [Call.parts])
  | notBetween a b =>
    have hp := parts_inj _ _ h
    cases d with
    | notBetween a' b' =>
      obtain ⟨h1, h2⟩ := pair_inj _ _ _ _ (congrArg Prod.snd hp)
      show Call.notBetween a b = Call.notBetween a' b'
      rw [h1, h2]
    | _ => exact absurd (congrArg Prod.fst hp) (by simp [Call.parts])
  | inList vs =>
    have hp := parts_inj _ _ h
    cases d with
    | inList ws => exact list_inj vs ws (congrArg Prod.snd hp)
    | inRange r => exact absurd (congrArg Prod.snd hp) (list_range vs r)
    | _ => exact absurd (congrArg Prod.fst hp) (by simp [Call.parts])
  | inRange r =>
    have hp := parts_inj _ _ h
    cases d with
    | inList ws => exact absurd (congrArg Prod.snd hp).symm (list_range ws r)
    | inRange r' =>
      have h1 : rangeFormula r ++ [')'] = rangeFormula r' ++ [')'] := congrArg Prod.snd hp
      have h2 := List.append_cancel_right h1
      have h3 := List.append_cancel_right (List.cons.inj h2).2
      show Call.inRange r = Call.inRange r'
      rw [Refs.C38_cellrange r r' hc.1 hc.2 hd.1 hd.2 h3]
    | _ => exact absurd (congrArg Prod.fst hp) (by simp [Call.parts])
  | and k c ih =>
    have hp := parts_inj _ _ h
    cases d with
    | and k' c' =>
      have h1 : Head.kind k = Head.kind k' := congrArg Prod.fst hp
      have h2 : " and ".toList ++ c.text = " and ".toList ++ c'.text := congrArg Prod.snd hp
      exact ⟨by injection h1, ih c' hc hd (List.append_cancel_left h2)⟩
    | _ => exact absurd (congrArg Prod.fst hp) (by simp [Call.parts])
  | formula f =>
    have hp := parts_inj _ _ h
    cases d with
    | formula f' =>
      show Call.formula f = Call.formula f'
      have h1 : f ++ [')'] = f' ++ [')'] := congrArg Prod.snd hp
      rw [List.append_cancel_right h1]
    | _ => exact absurd (congrArg Prod.fst hp) (by simp [Call.parts])

/-- The same for the conditions of style maps. -/
theorem C48_value_injective (op op' : Cmp) (v v' : Operand) (h : valueCond op v = valueCond op' v') :
    op = op' ∧ v = v' := by
  obtain ⟨h1, h2⟩ := cmp_inj _ _ _ _ (value_head v) (value_head v') (List.append_cancel_left h)
  exact ⟨h1, value_inj _ _ h2⟩

/-- A text with quotation marks, as an example. -/
theorem C48_demo : contentCond .le (.text "a\"b\"\"".toList) = "cell-content()<=\"a\"\"b\"\"\"\"\"".toList
    ∧ inListCond [.text "x;\"".toList, .int (-3)] = "cell-content-is-in-list(\"x;\"\"\";\"-3\")".toList := by
  decide +kernel

end Verif.Cond
