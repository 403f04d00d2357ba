import Verif.Xml.Spec

/-!
# Lemmas about the writer and the tokeniser
-/

set_option autoImplicit false

namespace Verif.Xml

open Spec

/-! ## Escaping -/

theorem unescapeFrom_plain (a s : Str) (h : ∀ c ∈ a, c ≠ '&') :
    unescapeFrom none (a ++ s) = (unescapeFrom none s).map (a ++ ·) := by
  induction a with
  | nil =>
    show unescapeFrom none s = _
    cases unescapeFrom none s <;> rfl
  | cons c a ih =>
    have hc := h c List.mem_cons_self
    have ih' := ih (fun x hx => h x (List.mem_cons_of_mem _ hx))
    have e : unescapeFrom none (c :: (a ++ s))
        = if c = '&' then unescapeFrom (some []) (a ++ s)
          else (unescapeFrom none (a ++ s)).map (c :: ·) := rfl
    rw [List.cons_append, e, if_neg hc, ih']
    cases unescapeFrom none s <;> rfl

theorem unescape_escapeChar (c : Char) (s : Str) :
    unescapeFrom none (escapeChar c ++ s) = (unescapeFrom none s).map (c :: ·) := by
  unfold escapeChar
  split
  · rename_i h; subst h; rfl
  split
  · rename_i h; subst h; rfl
  split
  · rename_i h; subst h; rfl
  split
  · rename_i h; subst h; rfl
  split
  · rename_i h; subst h; rfl
  rename_i h3 _ _
  exact unescapeFrom_plain [c] s (by intro x hx; simp at hx; subst hx; exact h3)

theorem unescape_escape (s : Str) : unescape (escape s) = some s := by
  unfold unescape
  induction s with
  | nil => rfl
  | cons c s ih =>
    rw [escape, unescape_escapeChar, ih]; rfl

theorem escapeChar_cases (c : Char) :
    (c = '"' ∧ escapeChar c = ['&', 'q', 'u', 'o', 't', ';']) ∨
    (c = '\'' ∧ escapeChar c = ['&', 'a', 'p', 'o', 's', ';']) ∨
    (c = '&' ∧ escapeChar c = ['&', 'a', 'm', 'p', ';']) ∨
    (c = '<' ∧ escapeChar c = ['&', 'l', 't', ';']) ∨
    (c = '>' ∧ escapeChar c = ['&', 'g', 't', ';']) ∨
    (¬ Markup c ∧ escapeChar c = [c]) := by
  unfold escapeChar
  split
  · exact .inl ⟨by assumption, rfl⟩
  split
  · exact .inr (.inl ⟨by assumption, rfl⟩)
  split
  · exact .inr (.inr (.inl ⟨by assumption, rfl⟩))
  split
  · exact .inr (.inr (.inr (.inl ⟨by assumption, rfl⟩)))
  split
  · exact .inr (.inr (.inr (.inr (.inl ⟨by assumption, rfl⟩))))
  · refine .inr (.inr (.inr (.inr (.inr ⟨?_, rfl⟩))))
    rintro (h | h | h | h | h) <;> contradiction

theorem escape_no_markup (s : Str) :
    ∀ c ∈ escape s, c ≠ '<' ∧ c ≠ '>' ∧ c ≠ '"' ∧ c ≠ '\'' := by
  induction s with
  | nil => intro c hc; simp [escape] at hc
  | cons d s ih =>
    intro c hc
    rw [escape, List.mem_append] at hc
    rcases hc with hc | hc
    · rcases escapeChar_cases d with ⟨_, e⟩ | ⟨_, e⟩ | ⟨_, e⟩ | ⟨_, e⟩ | ⟨_, e⟩ | ⟨hm, e⟩
      · rw [e] at hc; revert c; decide
      · rw [e] at hc; revert c; decide
      · rw [e] at hc; revert c; decide
      · rw [e] at hc; revert c; decide
      · rw [e] at hc; revert c; decide
      · rw [e] at hc
        have : c = d := by simpa using hc
        subst this
        exact ⟨fun h => hm (.inl h), fun h => hm (.inr (.inl h)),
          fun h => hm (.inr (.inr (.inr (.inl h)))), fun h => hm (.inr (.inr (.inr (.inr h))))⟩
    · exact ih c hc

/-! ## Names -/

/-- What a name character is not. -/
theorem nameChar_ne (c : Char) (h : NameChar c) :
    c ≠ '<' ∧ c ≠ '>' ∧ c ≠ '/' ∧ c ≠ '=' ∧ c ≠ '"' ∧ c ≠ '\'' ∧ c ≠ '&' ∧ c ≠ '\\' ∧ c ≠ '!'
      ∧ c ≠ '?' ∧ isWs c = false := by
  have key : ∀ d : Char, ¬ NameChar d → c ≠ d := by
    intro d hd e; subst e; exact hd h
  have dn : ∀ d : Char, Decidable (NameChar d) := fun d => by unfold NameChar; infer_instance
  refine ⟨key _ ?_, key _ ?_, key _ ?_, key _ ?_, key _ ?_, key _ ?_, key _ ?_, key _ ?_, key _ ?_,
    key _ ?_, ?_⟩
  all_goals first | (unfold NameChar; decide) | skip
  cases hw : isWs c
  · rfl
  · simp only [isWs, Bool.or_eq_true, beq_iff_eq] at hw
    rcases hw with ((hw | hw) | hw) | hw
    · exact absurd hw (key _ (by unfold NameChar; decide))
    · exact absurd hw (key _ (by unfold NameChar; decide))
    · exact absurd hw (key _ (by unfold NameChar; decide))
    · exact absurd hw (key _ (by unfold NameChar; decide))

theorem escapeName_name (n : Str) (h : ∀ c ∈ n, NameChar c) : escapeName n = n := by
  induction n with
  | nil => rfl
  | cons c n ih =>
    obtain ⟨h1, h2, h3, h4, h5, h6, h7, h8, _⟩ := nameChar_ne c (h c List.mem_cons_self)
    rw [escapeName, ih (fun x hx => h x (List.mem_cons_of_mem _ hx)), if_neg h8]
    unfold escapeChar
    rw [if_neg h5, if_neg h6, if_neg h7, if_neg h1, if_neg h2]
    rfl

/-! ## The tokeniser -/

theorem tokFrom_append (a b : Str) : ∀ st, tokFrom st (a ++ b) =
    match tokFrom st a with
    | none => none
    | some (st1, t1) =>
      match tokFrom st1 b with
      | none => none
      | some (st2, t2) => some (st2, t1 ++ t2) := by
  induction a with
  | nil =>
    intro st
    show tokFrom st b = match tokFrom st b with | none => none | some (st2, t2) => some (st2, [] ++ t2)
    cases tokFrom st b with
    | none => rfl
    | some x => rfl
  | cons c a ih =>
    intro st
    have e : ∀ z, tokFrom st (c :: z) = match step st c with
      | none => none
      | some (st', ts) =>
        match tokFrom st' z with
        | none => none
        | some (st'', ts') => some (st'', ts ++ ts') := fun z => rfl
    rw [List.cons_append, e, e]
    cases hs : step st c with
    | none => rfl
    | some x =>
      obtain ⟨st', ts⟩ := x
      simp only
      rw [ih st']
      cases h1 : tokFrom st' a with
      | none => rfl
      | some y =>
        obtain ⟨st1, t1⟩ := y
        simp only
        cases h2 : tokFrom st1 b with
        | none => rfl
        | some z =>
          obtain ⟨st2, t2⟩ := z
          simp only
          rw [List.append_assoc]

/-- Continue after a piece that was read. -/
theorem tokFrom_seq {st st1 : St} {a : Str} {t1 : List Tok} (h : tokFrom st a = some (st1, t1))
    (b : Str) {st2 : St} {t2 : List Tok} (h2 : tokFrom st1 b = some (st2, t2)) :
    tokFrom st (a ++ b) = some (st2, t1 ++ t2) := by
  rw [tokFrom_append, h]
  simp only
  rw [h2]

theorem tokFrom_cons {st st1 : St} {c : Char} {t1 : List Tok} (h : step st c = some (st1, t1))
    (b : Str) {st2 : St} {t2 : List Tok} (h2 : tokFrom st1 b = some (st2, t2)) :
    tokFrom st (c :: b) = some (st2, t1 ++ t2) := by
  unfold tokFrom
  rw [h]
  simp only
  rw [h2]

theorem tok_name (n : Str) (h : ∀ c ∈ n, NameChar c) :
    ∀ acc, tokFrom (.name acc) n = some (.name (acc ++ n), []) := by
  induction n with
  | nil => intro acc; simp [tokFrom]
  | cons c n ih =>
    intro acc
    obtain ⟨h1, h2, h3, h4, h5, h6, h7, h8, h9, h10, h11⟩ := nameChar_ne c (h c List.mem_cons_self)
    have hs : step (.name acc) c = some (.name (acc ++ [c]), []) := by
      unfold step
      simp only
      rw [if_neg h2, if_neg h3, h11]
      rfl
    have := tokFrom_cons hs n (ih (fun x hx => h x (List.mem_cons_of_mem _ hx)) (acc ++ [c]))
    simpa using this

theorem tok_endName (n : Str) (h : ∀ c ∈ n, NameChar c) :
    ∀ acc, tokFrom (.endName acc) n = some (.endName (acc ++ n), []) := by
  induction n with
  | nil => intro acc; simp [tokFrom]
  | cons c n ih =>
    intro acc
    obtain ⟨h1, h2, h3, h4, h5, h6, h7, h8, h9, h10, h11⟩ := nameChar_ne c (h c List.mem_cons_self)
    have hs : step (.endName acc) c = some (.endName (acc ++ [c]), []) := by
      unfold step
      simp only
      rw [if_neg h2, h11]
      rfl
    have := tokFrom_cons hs n (ih (fun x hx => h x (List.mem_cons_of_mem _ hx)) (acc ++ [c]))
    simpa using this

theorem tok_key (m : Str) (as : List (Str × Str)) (n : Str) (h : ∀ c ∈ n, NameChar c) :
    ∀ acc, tokFrom (.key m as acc) n = some (.key m as (acc ++ n), []) := by
  induction n with
  | nil => intro acc; simp [tokFrom]
  | cons c n ih =>
    intro acc
    obtain ⟨h1, h2, h3, h4, h5, h6, h7, h8, h9, h10, h11⟩ := nameChar_ne c (h c List.mem_cons_self)
    have hs : step (.key m as acc) c = some (.key m as (acc ++ [c]), []) := by
      unfold step
      simp only
      rw [if_neg h4, h11, if_neg (by simp), if_neg (by simp [h2, h3])]
    have := tokFrom_cons hs n (ih (fun x hx => h x (List.mem_cons_of_mem _ hx)) (acc ++ [c]))
    simpa using this

theorem tok_val (m : Str) (as : List (Str × Str)) (k v : Str) (h : ∀ c ∈ v, c ≠ '"') :
    ∀ acc, tokFrom (.val m as k acc) v = some (.val m as k (acc ++ v), []) := by
  induction v with
  | nil => intro acc; simp [tokFrom]
  | cons c n ih =>
    intro acc
    have hs : step (.val m as k acc) c = some (.val m as k (acc ++ [c]), []) := by
      unfold step
      simp only
      rw [if_neg (h c List.mem_cons_self)]
    have := tokFrom_cons hs n (ih (fun x hx => h x (List.mem_cons_of_mem _ hx)) (acc ++ [c]))
    simpa using this

theorem tokFrom_one {st st1 : St} {c : Char} {t1 : List Tok} (h : step st c = some (st1, t1)) :
    tokFrom st [c] = some (st1, t1) := by
  have := tokFrom_cons h [] (st2 := st1) (t2 := []) rfl
  simpa using this

/-- A start tag up to its name. -/
theorem tok_open (n : Str) (h : Name n) : tokFrom .text ('<' :: n) = some (.name n, []) := by
  obtain ⟨hne, hall⟩ := h
  cases n with
  | nil => exact absurd rfl hne
  | cons c n =>
    obtain ⟨h1, h2, h3, h4, h5, h6, h7, h8, h9, h10, h11⟩ := nameChar_ne c (hall c List.mem_cons_self)
    have hlt : step .text '<' = some (.lt, []) := by decide
    have hs : step .lt c = some (.name [c], []) := by
      unfold step
      simp only
      rw [if_neg h3, if_neg h10, if_neg h9, if_neg (by simp [h1, h2, h11])]
    have := tokFrom_cons hlt (c :: n) (tokFrom_cons hs n
      (tok_name n (fun x hx => hall x (List.mem_cons_of_mem _ hx)) [c]))
    simpa using this

/-- An end tag. -/
theorem tok_end (n : Str) (h : Name n) :
    tokFrom .text ('<' :: '/' :: n ++ ['>']) = some (.text, [.end n]) := by
  have hlt : step .text '<' = some (.lt, []) := by decide
  have hsl : step .lt '/' = some (.endName [], []) := by decide
  have hgt : step (.endName n) '>' = some (.text, [.end n]) := by
    unfold step; simp
  have h1 := tok_endName n h.2 []
  have h2 := tokFrom_seq h1 ['>'] (tokFrom_one hgt)
  have := tokFrom_cons hlt _ (tokFrom_cons hsl _ h2)
  simpa using this

/-- The state in a start tag after its name and some attributes. -/
def InTag (n : Str) (as : List (Str × Str)) (st : St) : Prop :=
  (st = .name n ∧ as = []) ∨ st = .attrs n as

/-- One attribute. -/
theorem tok_attr (n : Str) (as : List (Str × Str)) (st : St) (hst : InTag n as st) (k raw : Str)
    (hk : Name k) (hraw : ∀ c ∈ raw, c ≠ '"') :
    tokFrom st (' ' :: k ++ '=' :: '"' :: raw ++ ['"']) = some (.attrs n (as ++ [(k, raw)]), []) := by
  have hsp : step st ' ' = some (.attrs n as, []) := by
    rcases hst with ⟨h, h'⟩ | h
    · subst h; subst h'; unfold step; simp [isWs]
    · subst h; unfold step; simp [isWs]
  obtain ⟨hne, hall⟩ := hk
  cases k with
  | nil => exact absurd rfl hne
  | cons c k =>
    obtain ⟨h1, h2, h3, h4, h5, h6, h7, h8, h9, h10, h11⟩ := nameChar_ne c (hall c List.mem_cons_self)
    have hc : step (.attrs n as) c = some (.key n as [c], []) := by
      unfold step
      simp only
      rw [if_neg h2, if_neg h3, h11]
      rfl
    have hkey := tok_key n as k (fun x hx => hall x (List.mem_cons_of_mem _ hx)) [c]
    have heq : step (.key n as ([c] ++ k)) '=' = some (.eq n as ([c] ++ k), []) := by
      unfold step; simp
    have hq : step (.eq n as ([c] ++ k)) '"' = some (.val n as ([c] ++ k) [], []) := by
      unfold step; simp
    have hval := tok_val n as ([c] ++ k) raw hraw []
    have hend : step (.val n as ([c] ++ k) ([] ++ raw)) '"'
        = some (.attrs n (as ++ [([c] ++ k, raw)]), []) := by
      unfold step
      simp only [if_true, List.nil_append]
    have := tokFrom_cons hsp _ (tokFrom_cons hc _ (tokFrom_seq hkey _ (tokFrom_cons heq _
      (tokFrom_cons hq _ (tokFrom_seq hval _ (tokFrom_one hend))))))
    simpa using this

/-! ### Texts -/

/-- The token of an escaped character. -/
def escTok (c : Char) : Tok :=
  if c = '"' then .ref ['q', 'u', 'o', 't']
  else if c = '\'' then .ref ['a', 'p', 'o', 's']
  else if c = '&' then .ref ['a', 'm', 'p']
  else if c = '<' then .ref ['l', 't']
  else if c = '>' then .ref ['g', 't']
  else .chr c

theorem tok_escapeChar (c : Char) : tokFrom .text (escapeChar c) = some (.text, [escTok c]) := by
  rcases escapeChar_cases c with ⟨h, e⟩ | ⟨h, e⟩ | ⟨h, e⟩ | ⟨h, e⟩ | ⟨h, e⟩ | ⟨hm, e⟩
  · rw [e, h]; decide
  · rw [e, h]; decide
  · rw [e, h]; decide
  · rw [e, h]; decide
  · rw [e, h]; decide
  · rw [e]
    have n1 : c ≠ '"' := fun h => hm (.inr (.inr (.inr (.inl h))))
    have n2 : c ≠ '\'' := fun h => hm (.inr (.inr (.inr (.inr h))))
    have n3 : c ≠ '&' := fun h => hm (.inr (.inr (.inl h)))
    have n4 : c ≠ '<' := fun h => hm (.inl h)
    have n5 : c ≠ '>' := fun h => hm (.inr (.inl h))
    apply tokFrom_one
    unfold step escTok
    simp only
    rw [if_neg n4, if_neg n3, if_neg n1, if_neg n2, if_neg n3, if_neg n4, if_neg n5]

theorem tok_escape (s : Str) : tokFrom .text (escape s) = some (.text, s.map escTok) := by
  induction s with
  | nil => rfl
  | cons c s ih =>
    rw [escape]
    have := tokFrom_seq (tok_escapeChar c) _ ih
    simpa using this

theorem tok_plain (s : Str) (h : ∀ c ∈ s, c ≠ '<' ∧ c ≠ '&') :
    tokFrom .text s = some (.text, s.map Tok.chr) := by
  induction s with
  | nil => rfl
  | cons c s ih =>
    have hs : step .text c = some (.text, [.chr c]) := by
      unfold step
      simp only
      rw [if_neg (h c List.mem_cons_self).1, if_neg (h c List.mem_cons_self).2]
    have := tokFrom_cons hs _ (ih (fun x hx => h x (List.mem_cons_of_mem _ hx)))
    simpa using this

theorem meaning_append (a b : List Tok) : meaning (a ++ b) = meaning a ++ meaning b := by
  induction a with
  | nil => rfl
  | cons t a ih => cases t <;> simp [meaning, ih]

theorem meaning_escTok (c : Char) (ts : List Tok) : meaning (escTok c :: ts) = .chr c :: meaning ts := by
  unfold escTok
  split
  · rename_i h; subst h; rfl
  split
  · rename_i h; subst h; rfl
  split
  · rename_i h; subst h; rfl
  split
  · rename_i h; subst h; rfl
  split
  · rename_i h; subst h; rfl
  · rfl

theorem meaning_escape (s : Str) : meaning (s.map escTok) = s.map Ev.chr := by
  induction s with
  | nil => rfl
  | cons c s ih => rw [List.map_cons, meaning_escTok, ih]; rfl

theorem meaning_chr (s : Str) : meaning (s.map Tok.chr) = s.map Ev.chr := by
  induction s with
  | nil => rfl
  | cons c s ih => rw [List.map_cons, List.map_cons, meaning, ih]

/-! ## The writer -/

/-- The end of an open tag. -/
def closer (lb : Bool) : Open → Str
  | .none => []
  | .elem => ['>']
  | .empty => '/' :: '>' :: (if lb then ['\n'] else [])

/-- All that was written, with an open tag finished. -/
def Writer.full (w : Writer) : Str := w.written ++ w.buf ++ closer w.lineBreak w.open

theorem full_closeElem (w : Writer) : w.closeElem.written = w.full ∧ w.closeElem.buf = []
    ∧ w.closeElem.open = .none ∧ w.closeElem.lineBreak = w.lineBreak := by
  unfold Writer.closeElem Writer.full closer
  cases ho : w.open with
  | none => simp [Writer.writeBuf]
  | elem => simp [Writer.writeBuf, Writer.push]
  | empty =>
    cases hl : w.lineBreak <;> simp [Writer.writeBuf, Writer.push, Writer.newline, hl]

/-- A line break in the output. -/
def nl (lb : Bool) : Str := if lb then ['\n'] else []

theorem newline_eq (w : Writer) : w.newline = w.push (nl w.lineBreak) := by
  obtain ⟨a, b, c, d⟩ := w
  cases d <;> simp [Writer.newline, nl, Writer.push]

/-- The text of an attribute. -/
def attrText : Bool × Str × Str → Str
  | (true, n, v) => ' ' :: escapeName n ++ '=' :: '"' :: escape v ++ ['"']
  | (false, n, v) => ' ' :: n ++ '=' :: '"' :: v ++ ['"']

/-- The text of an item. -/
def itemText (lb : Bool) : Item → Str
  | .start _ n as => '<' :: n ++ as.flatMap attrText ++ ['>']
  | .empty _ n as => '<' :: n ++ as.flatMap attrText ++ '/' :: '>' :: nl lb
  | .text true s => escape s
  | .text false s => s
  | .elemText true n s => ('<' :: n ++ ['>']) ++ escape s ++ ('<' :: '/' :: n ++ ['>']) ++ nl lb
  | .elemText false n s => ('<' :: n ++ ['>']) ++ s ++ ('<' :: '/' :: n ++ ['>']) ++ nl lb
  | .end _ n => ('<' :: '/' :: n ++ ['>']) ++ nl lb
  | .noEnd _ => []

/-- Which kind of tag an item leaves open. -/
def itemOpen : Item → Open
  | .start _ _ _ => .elem
  | .empty _ _ _ => .empty
  | _ => .none

theorem run_attrs (as : List (Bool × Str × Str)) : ∀ w : Writer,
    (as.map attrCall).foldl Call.run w = w.push (as.flatMap attrText) := by
  induction as with
  | nil => intro w; simp [Writer.push]
  | cons a as ih =>
    intro w
    obtain ⟨b, n, v⟩ := a
    rw [List.map_cons, List.foldl_cons, ih]
    cases b <;> simp [attrCall, Call.run, Writer.attr, Writer.attrEsc, Writer.push, attrText]

theorem run_item (i : Item) (w : Writer) :
    (i.calls.foldl Call.run w).full = w.full ++ itemText w.lineBreak i
      ∧ (i.calls.foldl Call.run w).lineBreak = w.lineBreak
      ∧ (i.calls.foldl Call.run w).open = itemOpen i := by
  obtain ⟨h1, h2, h3, h4⟩ := full_closeElem w
  cases i with
  | start b n as =>
    cases b <;>
    · simp only [Item.calls, List.foldl_cons, run_attrs, Call.run, Writer.elem, Writer.elemIf]
      simp [Writer.push, Writer.full, itemText, closer, h1, h2, h4, itemOpen]
  | empty b n as =>
    cases b <;>
    · simp only [Item.calls, List.foldl_cons, run_attrs, Call.run, Writer.empty, Writer.elemIf]
      simp [Writer.push, Writer.full, itemText, closer, h1, h2, h4, itemOpen, nl]
  | text b s =>
    cases b <;>
    · simp only [Item.calls, List.foldl_cons, List.foldl_nil, Call.run, Writer.text, Writer.textEsc]
      simp [Writer.push, Writer.full, itemText, closer, h1, h2, h3, h4, itemOpen]
  | elemText b n s =>
    cases b <;>
    · simp only [Item.calls, List.foldl_cons, List.foldl_nil, Call.run, Writer.elemText,
        Writer.elemTextEsc, newline_eq]
      simp [Writer.push, Writer.full, itemText, closer, h1, h2, h3, h4, itemOpen]
  | «end» b n =>
    cases b <;>
    · simp only [Item.calls, List.foldl_cons, List.foldl_nil, Call.run, Writer.endElem,
        Writer.endElemIf, newline_eq, if_true]
      simp [Writer.push, Writer.full, itemText, closer, h1, h2, h3, h4, itemOpen]
  | noEnd n =>
    simp only [Item.calls, List.foldl_cons, List.foldl_nil, Call.run, Writer.endElemIf]
    simp [Writer.full, itemText, closer, h1, h2, h3, h4, itemOpen]

theorem runItems (items : List Item) : ∀ w : Writer,
    ((items.flatMap Item.calls).foldl Call.run w).full
        = w.full ++ items.flatMap (itemText w.lineBreak)
      ∧ ((items.flatMap Item.calls).foldl Call.run w).open
        = (items.getLast?.map itemOpen).getD w.open := by
  induction items with
  | nil => intro w; simp
  | cons i items ih =>
    intro w
    obtain ⟨h1, h2, h3⟩ := run_item i w
    rw [List.flatMap_cons, List.foldl_append]
    obtain ⟨g1, g2⟩ := ih (i.calls.foldl Call.run w)
    refine ⟨?_, ?_⟩
    · rw [g1, h1, h2, List.flatMap_cons, List.append_assoc]
    · rw [g2, h3]
      cases items with
      | nil => rfl
      | cons j items => simp [List.getLast?_cons_cons, List.getLast?_cons]

/-- The declaration. -/
def dtdText (lb : Bool) (e : Str) : Str :=
  "<?xml version=\"1.0\" encoding=\"".toList ++ e ++ "\" ?>\n".toList ++ nl lb

theorem output_doc (lb : Bool) (e : Str) (items : List Item)
    (hlast : ∀ i ∈ items.getLast?, ¬ i.Opens) :
    output lb (.dtd e :: items.flatMap Item.calls)
      = dtdText lb e ++ items.flatMap (itemText lb) := by
  unfold output runCalls
  rw [List.foldl_cons]
  obtain ⟨h1, h2⟩ := runItems items (Call.run { lineBreak := lb } (.dtd e))
  generalize (items.flatMap Item.calls).foldl Call.run (Call.run { lineBreak := lb } (.dtd e)) = w
    at h1 h2
  have ho : w.open = .none := by
    rw [h2]
    cases hl : items.getLast? with
    | none =>
      show (Writer.dtd _ e).open = .none
      unfold Writer.dtd
      rw [newline_eq]; rfl
    | some i =>
      have := hlast i hl
      cases i <;> first | rfl | exact absurd trivial this
  have hf : w.close = w.full := by
    simp [Writer.close, Writer.writeBuf, Writer.full, ho, closer]
  rw [hf, h1]
  have hlb : (Call.run { lineBreak := lb } (.dtd e)).lineBreak = lb := by
    show (Writer.dtd _ e).lineBreak = lb
    unfold Writer.dtd
    rw [newline_eq]; rfl
  rw [hlb]
  congr 1
  show (Writer.dtd _ e).full = _
  unfold Writer.dtd dtdText
  rw [newline_eq]
  simp [Writer.push, Writer.full, closer]

/-! ## Reading what was written -/

/-- The text of the value of an attribute. -/
def rawVal : Bool × Str × Str → Str
  | (true, _, v) => escape v
  | (false, _, v) => v

/-- Attributes as the tokeniser returns them. -/
def rawAttrs (as : List (Bool × Str × Str)) : List (Str × Str) := as.map fun a => (a.2.1, rawVal a)

theorem unescape_plain (v : Str) (hp : Plain v) : unescape v = some v := by
  have := unescapeFrom_plain v [] (fun c hc he => hp c hc (.inr (.inr (.inl he))))
  simpa [unescape, unescapeFrom] using this

theorem unescape_rawVal (a : Bool × Str × Str) (h : a.1 = false → Plain a.2.2) :
    unescape (rawVal a) = some a.2.2 := by
  obtain ⟨b, k, v⟩ := a
  cases b with
  | true => exact unescape_escape v
  | false => exact unescape_plain v (h rfl)

theorem rawAttrs_mean (as : List (Bool × Str × Str)) (h : AttrsOk as) :
    attrsMean (rawAttrs as) = attrsSay (as.map (·.2)) := by
  unfold attrsMean rawAttrs attrsSay
  rw [List.map_map, List.map_map]
  apply List.map_congr_left
  intro a ha
  simp only [Function.comp]
  rw [unescape_rawVal a (h a ha).2]

theorem rawAttrs_unescape (as : List (Bool × Str × Str)) (h : AttrsOk as) :
    unescapeAttrs (rawAttrs as) = some (as.map (·.2)) := by
  induction as with
  | nil => rfl
  | cons a as ih =>
    show unescapeAttrs ((a.2.1, rawVal a) :: rawAttrs as) = _
    rw [unescapeAttrs, unescape_rawVal a (h a List.mem_cons_self).2,
      ih (fun x hx => h x (List.mem_cons_of_mem _ hx))]
    rfl

theorem tok_attrs (n : Str) (as : List (Bool × Str × Str)) : ∀ (pre : List (Str × Str)) (st : St),
    InTag n pre st →
    (∀ a ∈ as, Name a.2.1 ∧ (a.1 = false → Plain a.2.2)) →
    ∃ st', tokFrom st (as.flatMap attrText) = some (st', []) ∧ InTag n (pre ++ rawAttrs as) st' := by
  induction as with
  | nil => intro pre st hst _; exact ⟨st, rfl, by simpa [rawAttrs] using hst⟩
  | cons a as ih =>
    intro pre st hst hok
    obtain ⟨b, k, v⟩ := a
    obtain ⟨hk, hv⟩ := hok _ List.mem_cons_self
    have h1 : tokFrom st (attrText (b, k, v)) = some (.attrs n (pre ++ [(k, rawVal (b, k, v))]), []) := by
      cases b with
      | true =>
        have := tok_attr n pre st hst k (escape v) hk
          (fun c hc => (escape_no_markup v c hc).2.2.1)
        simpa [attrText, rawVal, escapeName_name k hk.2] using this
      | false =>
        have hp : Plain v := hv rfl
        have := tok_attr n pre st hst k v hk
          (fun c hc he => hp c hc (.inr (.inr (.inr (.inl he)))))
        simpa [attrText, rawVal] using this
    obtain ⟨st', h2, h3⟩ := ih (pre ++ [(k, rawVal (b, k, v))]) _ (.inr rfl)
      (fun a ha => hok a (List.mem_cons_of_mem _ ha))
    refine ⟨st', ?_, by simpa [rawAttrs] using h3⟩
    rw [List.flatMap_cons]
    have := tokFrom_seq h1 _ h2
    simpa using this

theorem tok_nl (lb : Bool) : tokFrom .text (nl lb) = some (.text, (nl lb).map Tok.chr) := by
  cases lb <;> decide

theorem inTag_gt {n : Str} {as : List (Str × Str)} {st : St} (h : InTag n as st) :
    tokFrom st ['>'] = some (.text, [.start n as]) := by
  apply tokFrom_one
  rcases h with ⟨rfl, rfl⟩ | rfl <;> (unfold step; simp)

theorem inTag_slash {n : Str} {as : List (Str × Str)} {st : St} (h : InTag n as st) :
    tokFrom st ['/', '>'] = some (.text, [.empty n as]) := by
  have h1 : step st '/' = some (.slash n as, []) := by
    rcases h with ⟨rfl, rfl⟩ | rfl <;> (unfold step; simp)
  have h2 : step (.slash n as) '>' = some (.text, [.empty n as]) := by unfold step; simp
  exact tokFrom_cons h1 _ (tokFrom_one h2)

/-- The tokens of an item. -/
def itemToks (lb : Bool) : Item → List Tok
  | .start _ n as => [.start n (rawAttrs as)]
  | .empty _ n as => .empty n (rawAttrs as) :: (nl lb).map Tok.chr
  | .text true s => s.map escTok
  | .text false s => s.map Tok.chr
  | .elemText true n s => .start n [] :: s.map escTok ++ .end n :: (nl lb).map Tok.chr
  | .elemText false n s => .start n [] :: s.map Tok.chr ++ .end n :: (nl lb).map Tok.chr
  | .end _ n => .end n :: (nl lb).map Tok.chr
  | .noEnd _ => []

theorem tok_item (lb : Bool) (i : Item) (h : i.Valid) :
    tokFrom .text (itemText lb i) = some (.text, itemToks lb i) := by
  cases i with
  | start b n as =>
    obtain ⟨hn, ha⟩ := h
    obtain ⟨st', h2, h3⟩ := tok_attrs n as [] (.name n) (.inl ⟨rfl, rfl⟩) ha
    have := tokFrom_seq (tokFrom_seq (tok_open n hn) _ h2) _ (inTag_gt h3)
    simpa [itemText, itemToks] using this
  | empty b n as =>
    obtain ⟨hn, ha⟩ := h
    obtain ⟨st', h2, h3⟩ := tok_attrs n as [] (.name n) (.inl ⟨rfl, rfl⟩) ha
    have := tokFrom_seq (tokFrom_seq (tokFrom_seq (tok_open n hn) _ h2) _ (inTag_slash h3)) _ (tok_nl lb)
    simpa [itemText, itemToks] using this
  | text b s =>
    cases b with
    | true => exact tok_escape s
    | false =>
      have hp := h rfl
      exact tok_plain s (fun c hc => ⟨fun he => hp c hc (.inl he), fun he => hp c hc (.inr (.inr (.inl he)))⟩)
  | elemText b n s =>
    obtain ⟨hn, hs⟩ := h
    have h1 := tokFrom_seq (tok_open n hn) _ (inTag_gt (st := .name n) (as := []) (.inl ⟨rfl, rfl⟩))
    cases b with
    | true =>
      have := tokFrom_seq (tokFrom_seq (tokFrom_seq h1 _ (tok_escape s)) _ (tok_end n hn)) _ (tok_nl lb)
      simpa [itemText, itemToks] using this
    | false =>
      have hp := hs rfl
      have h2 := tok_plain s (fun c hc => ⟨fun he => hp c hc (.inl he), fun he => hp c hc (.inr (.inr (.inl he)))⟩)
      have := tokFrom_seq (tokFrom_seq (tokFrom_seq h1 _ h2) _ (tok_end n hn)) _ (tok_nl lb)
      simpa [itemText, itemToks] using this
  | «end» b n =>
    have := tokFrom_seq (tok_end n h) _ (tok_nl lb)
    simpa [itemText, itemToks] using this
  | noEnd n => rfl

theorem meaning_nl (lb : Bool) : meaning ((nl lb).map Tok.chr) = br lb := by cases lb <;> rfl

theorem meaning_item (lb : Bool) (i : Item) (hv : i.Valid) : meaning (itemToks lb i) = i.says lb := by
  cases i with
  | start b n as => simp [itemToks, Item.says, meaning, rawAttrs_mean as hv.2]
  | empty b n as => simp [itemToks, Item.says, meaning, rawAttrs_mean as hv.2, ← meaning_nl lb]
  | text b s => cases b <;> simp [itemToks, Item.says, meaning_escape, meaning_chr]
  | elemText b n s =>
    cases b <;>
      simp [itemToks, Item.says, meaning, attrsMean, attrsSay, meaning_append, ← meaning_nl lb, meaning_escape, meaning_chr s]
  | «end» b n => simp [itemToks, Item.says, meaning, ← meaning_nl lb]
  | noEnd n => rfl

theorem tok_items (lb : Bool) (items : List Item) (h : ∀ i ∈ items, i.Valid) :
    tokFrom .text (items.flatMap (itemText lb)) = some (.text, items.flatMap (itemToks lb)) := by
  induction items with
  | nil => rfl
  | cons i items ih =>
    exact tokFrom_seq (tok_item lb i (h i List.mem_cons_self)) _
      (ih (fun j hj => h j (List.mem_cons_of_mem _ hj)))

theorem meaning_items (lb : Bool) (items : List Item) (hv : ∀ i ∈ items, i.Valid) :
    meaning (items.flatMap (itemToks lb)) = items.flatMap (Item.says lb) := by
  induction items with
  | nil => rfl
  | cons i items ih =>
    rw [List.flatMap_cons, meaning_append, meaning_item lb i (hv i List.mem_cons_self),
      ih (fun j hj => hv j (List.mem_cons_of_mem _ hj))]
    rfl

theorem tok_decl (s : Str) (h : '>' ∉ s) : tokFrom .decl s = some (.decl, []) := by
  induction s with
  | nil => rfl
  | cons c s ih =>
    have hc : c ≠ '>' := fun e => h (e ▸ List.mem_cons_self)
    have hs : step .decl c = some (.decl, []) := by unfold step; simp [hc]
    exact tokFrom_cons hs _ (ih (fun hm => h (List.mem_cons_of_mem _ hm)))

theorem tok_dtd (lb : Bool) (e : Str) (h : '>' ∉ e) :
    tokFrom .text (dtdText lb e) = some (.text, .chr '\n' :: (nl lb).map Tok.chr) := by
  have hx : "<?xml version=\"1.0\" encoding=\"".toList
      = '<' :: '?' :: "xml version=\"1.0\" encoding=\"".toList := by decide
  have h1 : tokFrom .text "<?xml version=\"1.0\" encoding=\"".toList = some (.decl, []) := by
    rw [hx]
    exact tokFrom_cons (st1 := .lt) (t1 := []) (by decide) _
      (tokFrom_cons (st1 := .decl) (t1 := []) (by decide) _ (tok_decl _ (by decide)))
  have h2 := tok_decl e h
  have hy : "\" ?>\n".toList = ['"', ' ', '?'] ++ ['>', '\n'] := by decide
  have h3 : tokFrom .decl "\" ?>\n".toList = some (.text, [.chr '\n']) := by
    rw [hy]
    exact tokFrom_seq (tok_decl _ (by decide)) _ (by rfl)
  have := tokFrom_seq (tokFrom_seq (tokFrom_seq h1 _ h2) _ h3) _ (tok_nl lb)
  unfold dtdText
  rw [this]
  rfl

end Verif.Xml
