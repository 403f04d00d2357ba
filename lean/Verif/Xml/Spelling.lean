import Verif.Xml.CharRef
import Verif.Xml.TreeLemmas

/-!
# Texts of documents of other programs

An element can be written in many ways: with white space within its tags, with either kind of quotes, with comments.
Here is which texts are texts of an element, and that the parser reports the same for all of them.
-/

set_option autoImplicit false

namespace Verif.Codec

open Xml Xml.Spec

/-! ## Specification -/

/-- White space. -/
def Blank (w : Str) : Prop := ∀ c ∈ w, c = ' ' ∨ c = '\t' ∨ c = '\r' ∨ c = '\n'

/-- The texts of attributes, behind the name of the element. -/
inductive SpellsAttrs : List (Str × Str) → Str → Prop
  | nil (w : Str) : Blank w → SpellsAttrs [] w
  | cons (w k w1 w2 : Str) (q : Char) (raw : Str) (as : List (Str × Str)) (t : Str) : Blank w → w ≠ [] → Name k →
    Blank w1 → Blank w2 → (q = '"' ∨ q = '\'') → q ∉ raw → SpellsAttrs as t →
    SpellsAttrs ((k, raw) :: as) (w ++ (k ++ (w1 ++ '=' :: (w2 ++ q :: (raw ++ q :: t)))))

/-- The text goes on with a tag or with a reference, or it ends. -/
def AtMarkup (t : Str) : Prop := ∀ c t', t = c :: t' → c = '<' ∨ c = '&'

/-- The text of a comment: XML forbids two dashes in it, and a dash at its end. -/
def CommentText (s : Str) : Prop := ∀ a b, s ++ ['-'] ≠ a ++ '-' :: '-' :: b

/-- The texts of the content of an element. -/
inductive Spells : List El → Str → Prop
  | nil : Spells [] []
  | text (s : Str) (c : List El) (t : Str) : s ≠ [] → (∀ x ∈ s, x ≠ '<' ∧ x ≠ '&') → AtMarkup t → Spells c t →
    Spells (.text s :: c) (s ++ t)
  | ref (n : Str) (c : List El) (t : Str) : (∀ x ∈ n, x ≠ ';' ∧ x ≠ '<' ∧ x ≠ '&') → charRef n ≠ some none → Spells c t →
    Spells (.ref n :: c) ('&' :: (n ++ ';' :: t))
  | comment (s : Str) (c : List El) (t : Str) : CommentText s → Spells c t →
    Spells c ('<' :: '!' :: '-' :: '-' :: (s ++ '-' :: '-' :: '>' :: t))
  | void (n : Str) (as : List (Str × Str)) (a : Str) (c : List El) (t : Str) : Name n → SpellsAttrs as a → Spells c t →
    Spells (.void n as :: c) ('<' :: (n ++ (a ++ '/' :: '>' :: t)))
  | elem (n : Str) (as : List (Str × Str)) (a : Str) (b : List El) (tb w : Str) (c : List El) (t : Str) : Name n →
    SpellsAttrs as a → Spells b tb → Blank w → Spells c t →
    Spells (.elem n as b :: c) ('<' :: (n ++ (a ++ '>' :: (tb ++ '<' :: '/' :: (n ++ (w ++ '>' :: t))))))

/-! ## The tokeniser -/

theorem blank_ws {w : Str} (h : Blank w) : ∀ c ∈ w, isWs c = true := by
  intro c hc
  rcases h c hc with rfl | rfl | rfl | rfl <;> rfl

theorem ws_ne {c : Char} (h : isWs c = true) : c ≠ '>' ∧ c ≠ '/' ∧ c ≠ '=' ∧ c ≠ '"' ∧ c ≠ '\'' := by
  refine ⟨?_, ?_, ?_, ?_, ?_⟩ <;> (intro he; subst he; cases h)

/-- A state that stays the same in white space. -/
theorem tok_stay (st : St) (h : ∀ c, isWs c = true → step st c = some (st, [])) (w : Str) (hw : Blank w) :
    tokFrom st w = some (st, []) := by
  induction w with
  | nil => rfl
  | cons c w ih =>
    exact tokFrom_cons (h c (blank_ws hw c List.mem_cons_self)) w (ih fun x hx => hw x (List.mem_cons_of_mem _ hx))

/-- Entering another state with white space. -/
theorem tok_blank (st st' : St) (h : ∀ c, isWs c = true → step st c = some (st', []))
    (h' : ∀ c, isWs c = true → step st' c = some (st', [])) (w : Str) (hw : Blank w) :
    tokFrom st w = some (if w = [] then st else st', []) := by
  cases w with
  | nil => rfl
  | cons c w =>
    exact tokFrom_cons (h c (blank_ws hw c List.mem_cons_self)) w
      (tok_stay st' h' w fun x hx => hw x (List.mem_cons_of_mem _ hx))

theorem attrs_stay (n : Str) (as : List (Str × Str)) (c : Char) (hc : isWs c = true) :
    step (.attrs n as) c = some (.attrs n as, []) := by
  obtain ⟨h1, h2, _⟩ := ws_ne hc
  unfold step
  simp only
  rw [if_neg h1, if_neg h2, if_pos hc]

theorem inTag_ws {n : Str} {as : List (Str × Str)} {st : St} (h : InTag n as st) (c : Char) (hc : isWs c = true) :
    step st c = some (.attrs n as, []) := by
  obtain ⟨h1, h2, _⟩ := ws_ne hc
  rcases h with ⟨rfl, rfl⟩ | rfl
  · unfold step
    simp only
    rw [if_neg h1, if_neg h2, if_pos hc]
  · exact attrs_stay n as c hc

theorem inTag_blank {n : Str} {as : List (Str × Str)} {st : St} (h : InTag n as st) (w : Str) (hw : Blank w) :
    ∃ st', tokFrom st w = some (st', []) ∧ InTag n as st' ∧ (w ≠ [] → st' = .attrs n as) := by
  refine ⟨_, tok_blank st (.attrs n as) (inTag_ws h) (attrs_stay n as) w hw, ?_, ?_⟩
  · split
    · exact h
    · exact .inr rfl
  · intro hne; rw [if_neg hne]

theorem tok_val1 (m : Str) (as : List (Str × Str)) (k v : Str) (h : ∀ c ∈ v, c ≠ '\'') :
    ∀ acc, tokFrom (.val1 m as k acc) v = some (.val1 m as k (acc ++ v), []) := by
  induction v with
  | nil => intro acc; simp [tokFrom]
  | cons c n ih =>
    intro acc
    have hs : step (.val1 m as k acc) c = some (.val1 m as k (acc ++ [c]), []) := by
      unfold step
      simp only
      rw [if_neg (h c List.mem_cons_self)]
    have := tokFrom_cons hs n (ih (fun x hx => h x (List.mem_cons_of_mem _ hx)) (acc ++ [c]))
    simpa using this

/-- The value of an attribute. -/
theorem tok_quoted (n : Str) (as : List (Str × Str)) (k : Str) (q : Char) (hq : q = '"' ∨ q = '\'') (raw : Str)
    (hr : q ∉ raw) : tokFrom (.eq n as k) (q :: (raw ++ [q])) = some (.attrs n (as ++ [(k, raw)]), []) := by
  rcases hq with rfl | rfl
  · have h1 : step (.eq n as k) '"' = some (.val n as k [], []) := by unfold step; simp
    have h2 := tok_val n as k raw (fun c hc he => hr (by rw [← he]; exact hc)) []
    have h3 : step (.val n as k ([] ++ raw)) '"' = some (.attrs n (as ++ [(k, raw)]), []) := by unfold step; simp
    exact tokFrom_cons h1 _ (tokFrom_seq h2 _ (tokFrom_one h3))
  · have h1 : step (.eq n as k) '\'' = some (.val1 n as k [], []) := by unfold step; simp
    have h2 := tok_val1 n as k raw (fun c hc he => hr (by rw [← he]; exact hc)) []
    have h3 : step (.val1 n as k ([] ++ raw)) '\'' = some (.attrs n (as ++ [(k, raw)]), []) := by unfold step; simp
    exact tokFrom_cons h1 _ (tokFrom_seq h2 _ (tokFrom_one h3))

/-- The name of an attribute, with the equals sign. -/
theorem tok_keyEq (n : Str) (as : List (Str × Str)) (k w1 w2 : Str) (hk : Name k) (h1 : Blank w1) (h2 : Blank w2) :
    tokFrom (.attrs n as) (k ++ (w1 ++ '=' :: w2)) = some (.eq n as k, []) := by
  obtain ⟨hne, hall⟩ := hk
  cases k with
  | nil => exact absurd rfl hne
  | cons c k =>
    obtain ⟨g1, g2, g3, g4, g5, g6, g7, g8, g9, g10, g11⟩ := nameChar_ne c (hall c List.mem_cons_self)
    have hc : step (.attrs n as) c = some (.key n as [c], []) := by
      unfold step
      simp only
      rw [if_neg g2, if_neg g3, g11]
      rfl
    have hk := tok_key n as k (fun x hx => hall x (List.mem_cons_of_mem _ hx)) [c]
    have hw : tokFrom (.key n as ([c] ++ k)) w1
        = some (if w1 = [] then .key n as ([c] ++ k) else .keyWs n as ([c] ++ k), []) := by
      refine tok_blank _ (.keyWs n as ([c] ++ k)) ?_ ?_ w1 h1
      · intro d hd
        obtain ⟨e1, e2, e3, _⟩ := ws_ne hd
        unfold step
        simp only
        rw [if_neg e3, if_pos hd]
      · intro d hd
        obtain ⟨e1, e2, e3, _⟩ := ws_ne hd
        unfold step
        simp only
        rw [if_neg e3, if_pos hd]
    have he : step (if w1 = [] then .key n as ([c] ++ k) else .keyWs n as ([c] ++ k)) '='
        = some (.eq n as ([c] ++ k), []) := by
      split <;> (unfold step; simp)
    have h3 := tok_stay (.eq n as ([c] ++ k)) (by
      intro d hd
      obtain ⟨e1, e2, e3, e4, e5⟩ := ws_ne hd
      unfold step
      simp only
      rw [if_neg e4, if_neg e5, if_pos hd]) w2 h2
    exact tokFrom_cons hc _ (tokFrom_seq hk _ (tokFrom_seq hw _ (tokFrom_cons he _ h3)))

/-- All attributes. -/
theorem tok_spelled {as : List (Str × Str)} {t : Str} (h : SpellsAttrs as t) : ∀ (n : Str) (pre : List (Str × Str)) (st : St),
    InTag n pre st → ∃ st', tokFrom st t = some (st', []) ∧ InTag n (pre ++ as) st' := by
  induction h with
  | nil w hw =>
    intro n pre st hst
    obtain ⟨st', h1, h2, _⟩ := inTag_blank hst w hw
    exact ⟨st', h1, by rw [List.append_nil]; exact h2⟩
  | cons w k w1 w2 q raw as t hw hne hk h1 h2 hq hr _ ih =>
    intro n pre st hst
    obtain ⟨st1, g1, _, g2⟩ := inTag_blank hst w hw
    have g2 := g2 hne
    subst g2
    have g3 := tok_keyEq n pre k w1 w2 hk h1 h2
    have g4 := tok_quoted n pre k q hq raw hr
    obtain ⟨st2, g5, g6⟩ := ih n (pre ++ [(k, raw)]) (.attrs n (pre ++ [(k, raw)])) (.inr rfl)
    refine ⟨st2, ?_, by rw [List.append_assoc] at g6; exact g6⟩
    have := tokFrom_seq g1 _ (tokFrom_seq g3 _ (tokFrom_seq g4 _ g5))
    simpa using this

theorem tok_ref (n : Str) (h : ∀ x ∈ n, x ≠ ';' ∧ x ≠ '<' ∧ x ≠ '&') (hn : charRef n ≠ some none) :
    tokFrom .text ('&' :: (n ++ [';'])) = some (.text, [.ref n]) := by
  have h1 : step .text '&' = some (.ref [], []) := by decide
  have h2 : ∀ acc, tokFrom (.ref acc) n = some (.ref (acc ++ n), []) := by
    clear hn
    induction n with
    | nil => intro acc; simp [tokFrom]
    | cons c n ih =>
      intro acc
      obtain ⟨g1, g2, g3⟩ := h c List.mem_cons_self
      have hs : step (.ref acc) c = some (.ref (acc ++ [c]), []) := by
        unfold step
        simp only
        rw [if_neg g1, if_neg (by simp [g2, g3])]
      have := tokFrom_cons hs n (ih (fun x hx => h x (List.mem_cons_of_mem _ hx)) (acc ++ [c]))
      simpa using this
  have h3 : step (.ref ([] ++ n)) ';' = some (.text, [.ref n]) := by
    unfold step
    simp only [List.nil_append, if_true]
    rw [if_neg hn]
  exact tokFrom_cons h1 _ (tokFrom_seq (h2 []) _ (tokFrom_one h3))

/-- The end of an element. -/
theorem tok_endBlank (n w : Str) (hn : Name n) (hw : Blank w) :
    tokFrom .text ('<' :: '/' :: (n ++ (w ++ ['>']))) = some (.text, [.end n]) := by
  have hlt : step .text '<' = some (.lt, []) := by decide
  have hsl : step .lt '/' = some (.endName [], []) := by decide
  have h1 := tok_endName n hn.2 []
  have h2 : tokFrom (.endName ([] ++ n)) w = some (if w = [] then .endName ([] ++ n) else .endWs ([] ++ n), []) := by
    refine tok_blank _ (.endWs ([] ++ n)) ?_ ?_ w hw
    · intro d hd
      obtain ⟨e1, _⟩ := ws_ne hd
      unfold step
      simp only
      rw [if_neg e1, if_pos hd]
    · intro d hd
      obtain ⟨e1, _⟩ := ws_ne hd
      unfold step
      simp only
      rw [if_neg e1, if_pos hd]
  have h3 : step (if w = [] then .endName ([] ++ n) else .endWs ([] ++ n)) '>' = some (.text, [.end n]) := by
    split <;> (unfold step; simp)
  exact tokFrom_cons hlt _ (tokFrom_cons hsl _ (tokFrom_seq h1 _ (tokFrom_seq h2 _ (tokFrom_one h3))))

theorem comment_step_dash (d : Nat) : step (.comment d) '-' = some (.comment (min 2 (d + 1)), []) := by
  unfold step
  simp only
  rw [if_neg (by simp)]
  rfl

theorem comment_step_other (c : Char) (hc : c ≠ '-') (d : Nat) (hd : d < 2) :
    step (.comment d) c = some (.comment 0, []) := by
  unfold step
  simp only
  rw [if_neg (by omega), if_neg hc]

/-- The text of a comment and the two dashes behind it; `true` if there is a dash in front of it. -/
theorem tok_comment (s : Str) : ∀ b : Bool, CommentText ((if b then ['-'] else []) ++ s) →
    tokFrom (.comment (if b then 1 else 0)) (s ++ ['-', '-']) = some (.comment 2, []) := by
  induction s with
  | nil =>
    intro b h
    cases b with
    | true => exact absurd rfl (h [] [])
    | false => exact tokFrom_cons (comment_step_dash 0) _ (tokFrom_one (comment_step_dash 1))
  | cons c s ih =>
    intro b h
    by_cases hc : c = '-'
    · subst hc
      cases b with
      | true => exact absurd rfl (h [] (s ++ ['-']))
      | false =>
        exact tokFrom_cons (comment_step_dash 0) _ (ih true h)
    · have hs : CommentText s := by
        intro x y hxy
        refine h ((if b then ['-'] else []) ++ (c :: x)) y ?_
        simp [hxy]
      exact tokFrom_cons (comment_step_other c hc _ (by cases b <;> decide)) _ (ih false hs)

theorem tok_note (s : Str) (h : CommentText s) :
    tokFrom .text ('<' :: '!' :: '-' :: '-' :: (s ++ ['-', '-', '>'])) = some (.text, [.skip []]) := by
  have h1 := tok_comment s false h
  have h2 : step (.comment 2) '>' = some (.text, [.skip []]) := by decide
  have h3 : tokFrom .text ['<', '!', '-', '-'] = some (.comment 0, []) := by decide
  have := tokFrom_seq h3 _ (tokFrom_seq h1 _ (tokFrom_one h2))
  simpa using this

/-- Characters in front of something else. -/
theorem events_run (s : Str) (hs : s ≠ []) (ts : List Tok) (h : ∀ c ts', ts ≠ .chr c :: ts') :
    events (s.map Tok.chr ++ ts) = .text s :: events ts := by
  induction s with
  | nil => exact absurd rfl hs
  | cons c s ih =>
    cases s with
    | nil =>
      cases ts with
      | nil => rfl
      | cons t ts =>
        cases t with
        | chr d => exact absurd rfl (h d ts)
        | skip x =>
          show events (.chr c :: .skip x :: ts) = _
          rw [events]
          cases events (Tok.skip x :: ts) <;> rfl
        | _ => rfl
    | cons d s =>
      have := ih (by simp)
      show events (.chr c :: ((d :: s).map Tok.chr ++ ts)) = _
      rw [events_chr _ _ rfl, this]

theorem tok_spells {c : List El} {t : Str} (h : Spells c t) :
    ∃ ts, tokFrom .text t = some (.text, ts) ∧ events ts = evsOf c
      ∧ (AtMarkup t → ∀ d ts', ts ≠ .chr d :: ts') := by
  induction h with
  | nil => exact ⟨[], rfl, rfl, fun _ => nofun⟩
  | text s c t hs hp hm _ ih =>
    obtain ⟨ts, h1, h2, h3⟩ := ih
    refine ⟨s.map Tok.chr ++ ts, tokFrom_seq (tok_plain s hp) _ h1, ?_, ?_⟩
    · rw [events_run s hs ts (h3 hm), h2]; rfl
    · intro ha
      cases s with
      | nil => exact absurd rfl hs
      | cons x s =>
        have := hp x List.mem_cons_self
        rcases ha x _ rfl with he | he
        · exact absurd he this.1
        · exact absurd he this.2
  | ref n c t hn hr _ ih =>
    obtain ⟨ts, h1, h2, _⟩ := ih
    refine ⟨.ref n :: ts, ?_, by rw [events, h2]; rfl, fun _ => nofun⟩
    have := tokFrom_seq (tok_ref n hn hr) _ h1
    simpa using this
  | comment s c t hs _ ih =>
    obtain ⟨ts, h1, h2, _⟩ := ih
    refine ⟨.skip [] :: ts, ?_, by rw [events, h2], fun _ => nofun⟩
    have := tokFrom_seq (tok_note s hs) _ h1
    simpa using this
  | void n as a c t hn ha _ ih =>
    obtain ⟨ts, h1, h2, _⟩ := ih
    obtain ⟨st, h3, h4⟩ := tok_spelled ha n [] (.name n) (.inl ⟨rfl, rfl⟩)
    refine ⟨.empty n as :: ts, ?_, by rw [events, h2]; rfl, fun _ => nofun⟩
    have := tokFrom_seq (tok_open n hn) _ (tokFrom_seq h3 _ (tokFrom_seq (inTag_slash h4) _ h1))
    simpa using this
  | elem n as a b tb w c t hn ha _ hw _ ihb ih =>
    obtain ⟨tsb, b1, b2, _⟩ := ihb
    obtain ⟨ts, h1, h2, _⟩ := ih
    obtain ⟨st, h3, h4⟩ := tok_spelled ha n [] (.name n) (.inl ⟨rfl, rfl⟩)
    refine ⟨.start n as :: (tsb ++ .end n :: ts), ?_, ?_, fun _ => nofun⟩
    · have := tokFrom_seq (tok_open n hn) _ (tokFrom_seq h3 _ (tokFrom_seq (inTag_gt h4) _
        (tokFrom_seq b1 _ (tokFrom_seq (tok_endBlank n w hn hw) _ h1))))
      simpa using this
    · rw [events, events_append _ _ (noChr_cons _ _ (by intro c; simp)), b2, events, h2, evsOf, El.events]
      simp

/-- Every text of a content is read as this content. -/
theorem spells_events {c : List El} {t : Str} (h : Spells c t) :
    ∃ ts, tokenize t = some ts ∧ events ts = evsOf c := by
  obtain ⟨ts, h1, h2, _⟩ := tok_spells h
  exact ⟨ts, by unfold tokenize; rw [h1], h2⟩

/-! ## A text for every content -/

/-- Attributes as they are usually written. -/
def spellAttrs : List (Str × Str) → Str
  | [] => []
  | (k, v) :: as => ' ' :: (k ++ '=' :: '"' :: (v ++ '"' :: spellAttrs as))

def writableAttrs (as : List (Str × Str)) : Bool :=
  as.all fun a => decide (a.1 ≠ []) && a.1.all (fun c => decide (NameChar c)) && !a.2.contains '"'

/-- No text. -/
def notText : List El → Bool
  | .text _ :: _ => false
  | _ => true

mutual

/-- An element as it is usually written. -/
def El.spell : El → Str
  | .text s => s
  | .ref n => '&' :: (n ++ [';'])
  | .void n as => '<' :: (n ++ (spellAttrs as ++ ['/', '>']))
  | .elem n as c => '<' :: (n ++ (spellAttrs as ++ '>' :: (spellIn c ++ '<' :: '/' :: (n ++ ['>']))))

def spellIn : List El → Str
  | [] => []
  | e :: c => e.spell ++ spellIn c

end

mutual

/-- The element can be written. -/
def El.writable : El → Bool
  | .text s => !s.isEmpty && s.all fun c => c != '<' && c != '&'
  | .ref n => n.all (fun c => c != ';' && c != '<' && c != '&') && decide (charRef n ≠ some none)
  | .void n as => !n.isEmpty && n.all (fun c => decide (NameChar c)) && writableAttrs as
  | .elem n as c => !n.isEmpty && n.all (fun c => decide (NameChar c)) && writableAttrs as && writableIn c

/-- Several, with no two texts behind each other. -/
def writableIn : List El → Bool
  | [] => true
  | .text s :: c => El.writable (.text s) && notText c && writableIn c
  | e :: c => e.writable && writableIn c

end

theorem spellAttrs_ok (as : List (Str × Str)) (h : writableAttrs as = true) : SpellsAttrs as (spellAttrs as) := by
  induction as with
  | nil => exact .nil [] (by intro c hc; cases hc)
  | cons a as ih =>
    obtain ⟨k, v⟩ := a
    unfold writableAttrs at h ih
    rw [List.all_cons, Bool.and_eq_true, Bool.and_eq_true, Bool.and_eq_true] at h
    obtain ⟨⟨⟨h1, h2⟩, h3⟩, h4⟩ := h
    refine .cons [' '] k [] [] '"' v as _ ?_ (by simp) ⟨of_decide_eq_true h1, ?_⟩ (by intro c hc; cases hc)
      (by intro c hc; cases hc) (.inl rfl) (by simpa using h3) (ih h4)
    · intro c hc
      rw [List.mem_singleton] at hc
      exact .inl hc
    · intro c hc
      exact of_decide_eq_true (List.all_eq_true.1 h2 c hc)

theorem spell_start (c : List El) (h : notText c = true) : AtMarkup (spellIn c) := by
  intro x t' he
  cases c with
  | nil => cases he
  | cons e c =>
    cases e with
    | text s => cases h
    | ref n =>
      rw [spellIn, El.spell] at he
      exact .inr (List.cons.inj he).1.symm
    | void n as =>
      rw [spellIn, El.spell] at he
      exact .inl (List.cons.inj he).1.symm
    | elem n as d =>
      rw [spellIn, El.spell] at he
      exact .inl (List.cons.inj he).1.symm

theorem name_of {n : Str} (h1 : (!n.isEmpty) = true) (h2 : n.all (fun c => decide (NameChar c)) = true) : Name n :=
  ⟨by simpa using h1, fun c hc => of_decide_eq_true (List.all_eq_true.1 h2 c hc)⟩

theorem spell_ok : ∀ (c : List El), writableIn c = true → Spells c (spellIn c)
  | [], _ => .nil
  | .text s :: c, h => by
    rw [writableIn, Bool.and_eq_true, Bool.and_eq_true, El.writable, Bool.and_eq_true] at h
    obtain ⟨⟨⟨h1, h2⟩, h3⟩, h4⟩ := h
    refine .text s c _ (by simpa using h1) ?_ (spell_start c h3) (spell_ok c h4)
    intro x hx
    have := List.all_eq_true.1 h2 x hx
    simpa using this
  | .ref n :: c, h => by
    rw [writableIn, Bool.and_eq_true, El.writable, Bool.and_eq_true] at h
    · obtain ⟨⟨h1, h2⟩, h3⟩ := h
      rw [spellIn, El.spell, List.cons_append, List.append_assoc]
      refine .ref n c _ ?_ (of_decide_eq_true h2) (spell_ok c h3)
      intro x hx
      have := List.all_eq_true.1 h1 x hx
      simpa [and_assoc] using this
    · nofun
  | .void n as :: c, h => by
    rw [writableIn, Bool.and_eq_true, El.writable, Bool.and_eq_true, Bool.and_eq_true] at h
    · obtain ⟨⟨⟨h1, h2⟩, h3⟩, h4⟩ := h
      have := Spells.void n as _ c _ (name_of h1 h2) (spellAttrs_ok as h3) (spell_ok c h4)
      rw [spellIn, El.spell]
      simpa using this
    · nofun
  | .elem n as d :: c, h => by
    rw [writableIn, Bool.and_eq_true, El.writable, Bool.and_eq_true, Bool.and_eq_true, Bool.and_eq_true] at h
    · obtain ⟨⟨⟨⟨h1, h2⟩, h3⟩, h5⟩, h4⟩ := h
      have := Spells.elem n as _ d _ [] c _ (name_of h1 h2) (spellAttrs_ok as h3) (spell_ok d h5)
        (by intro c hc; cases hc) (spell_ok c h4)
      rw [spellIn, El.spell]
      simpa using this
    · nofun

end Verif.Codec
