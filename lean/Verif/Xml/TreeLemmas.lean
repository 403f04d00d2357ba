import Verif.Xml.Lemmas
import Verif.Xml.TreeSpec

/-!
# Lemmas about XML trees
-/

set_option autoImplicit false

namespace Verif.Xml

open Spec

/-- The characters with a meaning. -/
def isMarkup (c : Char) : Bool := c == '<' || c == '>' || c == '&' || c == '"' || c == '\''

theorem isMarkup_iff (c : Char) : isMarkup c = true ↔ Markup c := by
  unfold isMarkup Markup
  simp only [Bool.or_eq_true, beq_iff_eq, or_assoc]

/-- The content with a character in front, as the reader sees it: text runs end at markup
characters. -/
def addChar (c : Char) (g : List Node) : List Node :=
  if isMarkup c then .text [c] :: g
  else
    match g with
    | .text (d :: s) :: g' => if isMarkup d then .text [c] :: g else .text (c :: d :: s) :: g'
    | .text [] :: g' => .text [c] :: g'
    | _ => .text [c] :: g

/-- The content with a text in front. -/
def addText : Str → List Node → List Node
  | [], g => g
  | c :: s, g => addChar c (addText s g)

mutual

/-- A tree as it is read back. -/
def norm : Node → Node
  | .text s => .text s
  | .tag n as c => .tag n as (norms c)

/-- Content as it is read back. -/
def norms : List Node → List Node
  | [] => []
  | .text s :: c => addText s (norms c)
  | .tag n as c' :: c => norm (.tag n as c') :: norms c

end

/-! ## Writing -/

/-- The attributes, as written. -/
def escAttrs (as : List (Str × Str)) : List (Bool × Str × Str) := as.map (fun a => (true, a.1, a.2))

mutual

/-- The items of a tree. -/
def nodeItems : Node → List Item
  | .text s => [.text true s]
  | .tag n as [] => [.empty true n (escAttrs as), .noEnd n]
  | .tag n as (x :: c) =>
    .start true n (escAttrs as) :: (nodeItems x ++ nodesItems c ++ [.end true n])

/-- The items of a list of trees. -/
def nodesItems : List Node → List Item
  | [] => []
  | x :: c => nodeItems x ++ nodesItems c

end

theorem escAttrs_calls (as : List (Str × Str)) :
    (escAttrs as).map attrCall = as.map (fun a => Call.attrEsc a.1 a.2) := by
  simp [escAttrs, attrCall]

mutual

theorem nodeItems_calls : ∀ x : Node, (nodeItems x).flatMap Item.calls = writeNode x
  | .text s => rfl
  | .tag n as [] => by
    simp [nodeItems, writeNode, writeNodes, Item.calls, escAttrs_calls]
  | .tag n as (x :: c) => by
    have h1 := nodeItems_calls x
    have h2 := nodesItems_calls c
    simp [nodeItems, writeNode, writeNodes, Item.calls, escAttrs_calls, h1, h2]

theorem nodesItems_calls : ∀ c : List Node, (nodesItems c).flatMap Item.calls = writeNodes c
  | [] => rfl
  | x :: c => by
    have h1 := nodeItems_calls x
    have h2 := nodesItems_calls c
    simp [nodesItems, writeNodes, h1, h2]

end

theorem escAttrs_ok (as : List (Str × Str)) (h : ∀ a ∈ as, Name a.1) : AttrsOk (escAttrs as) := by
  intro a ha
  simp only [escAttrs, List.mem_map] at ha
  obtain ⟨b, hb, rfl⟩ := ha
  exact ⟨h b hb, by intro h; cases h⟩

mutual

theorem nodeItems_valid : ∀ x : Node, NamesOk x → ∀ i ∈ nodeItems x, i.Valid
  | .text s, _, i, hi => by
    simp only [nodeItems, List.mem_cons, List.not_mem_nil, or_false] at hi
    subst hi
    intro h; cases h
  | .tag n as [], h, i, hi => by
    simp only [NamesOk] at h
    simp only [nodeItems, List.mem_cons, List.not_mem_nil, or_false] at hi
    rcases hi with rfl | rfl
    · exact ⟨h.1, escAttrs_ok as h.2.1⟩
    · trivial
  | .tag n as (x :: c), h, i, hi => by
    simp only [NamesOk, AllNamesOk] at h
    simp only [nodeItems, List.mem_cons, List.mem_append, List.not_mem_nil, or_false] at hi
    rcases hi with rfl | (hi | hi) | rfl
    · exact ⟨h.1, escAttrs_ok as h.2.1⟩
    · exact nodeItems_valid x h.2.2.1 i hi
    · exact nodesItems_valid c h.2.2.2 i hi
    · exact h.1

theorem nodesItems_valid : ∀ c : List Node, AllNamesOk c → ∀ i ∈ nodesItems c, i.Valid
  | [], _, i, hi => by simp [nodesItems] at hi
  | x :: c, h, i, hi => by
    simp only [AllNamesOk] at h
    simp only [nodesItems, List.mem_append] at hi
    rcases hi with hi | hi
    · exact nodeItems_valid x h.1 i hi
    · exact nodesItems_valid c h.2 i hi

end

/-! ## Events -/

/-- Events that are read as some content. -/
inductive Reads : List Event → List Node → Prop
  | nil : Reads [] []
  | text (s : Str) {es : List Event} {g : List Node} (hs : ∀ d s', s = d :: s' → isMarkup d = false) :
    Reads es g → Reads (.text s :: es) (.text s :: g)
  | ref (n : Str) (d : Char) {es : List Event} {g : List Node} (he : entity n = [d])
    (hd : isMarkup d = true) : Reads es g → Reads (.ref n :: es) (.text [d] :: g)
  | empty (n : Str) (raw as : List (Str × Str)) {es : List Event} {g : List Node}
    (hu : unescapeAttrs raw = some as) : Reads es g → Reads (.empty n raw :: es) (.tag n as [] :: g)
  | elem (n : Str) (raw as : List (Str × Str)) {es1 es : List Event} {g1 g : List Node}
    (hu : unescapeAttrs raw = some as) :
    Reads es1 g1 → Reads es g → Reads (.start n raw :: (es1 ++ .end n :: es)) (.tag n as g1 :: g)

/-- Tokens that do not begin with a character, nor with something that is passed over. -/
def NoChr (ts : List Tok) : Prop := (∀ c ts', ts ≠ .chr c :: ts') ∧ ∀ s ts', ts ≠ .skip s :: ts'

theorem events_noChr (ts : List Tok) (h : NoChr ts) : ∀ s es, events ts ≠ .text s :: es := by
  intro s es
  cases ts with
  | nil => simp [events]
  | cons t ts =>
    cases t with
    | chr c => exact absurd rfl (h.1 c ts)
    | skip s => exact absurd rfl (h.2 s ts)
    | start n as => simp [events]
    | empty n as => simp [events]
    | «end» n => simp [events]
    | ref n => simp [events]

/-- The tokens `ts` in front of a tag give the events `es`. -/
def Gives (ts : List Tok) (es : List Event) : Prop :=
  ∀ r, NoChr r → events (ts ++ r) = es ++ events r

theorem events_chr (c : Char) (ts : List Tok) (h : goesOn ts = true) : events (.chr c :: ts) =
    match events ts with
    | .text s :: es => .text (c :: s) :: es
    | es => .text [c] :: es := by
  rw [events, h]
  cases events ts with
  | nil => rfl
  | cons e es => cases e <;> rfl

theorem goesOn_noChr {ts : List Tok} (h : NoChr ts) : goesOn ts = true := by
  cases ts with
  | nil => rfl
  | cons t ts =>
    cases t with
    | skip s => exact absurd rfl (h.2 s ts)
    | _ => rfl

/-- A character begins a text, or belongs to the text behind it. -/
theorem events_chr_cases (c : Char) (ts : List Tok) : events (.chr c :: ts) = .text [c] :: events ts
    ∨ ∃ s es, events ts = .text s :: es ∧ events (.chr c :: ts) = .text (c :: s) :: es := by
  rw [events]
  cases goesOn ts with
  | false => exact .inl (by cases events ts <;> rfl)
  | true =>
    cases events ts with
    | nil => exact .inl rfl
    | cons e es =>
      cases e with
      | text s => exact .inr ⟨s, es, rfl, rfl⟩
      | _ => exact .inl rfl

theorem events_chr_noText (c : Char) (ts : List Tok) (h : ∀ s es, events ts ≠ .text s :: es) :
    events (.chr c :: ts) = .text [c] :: events ts := by
  rcases events_chr_cases c ts with h1 | ⟨s, es, h1, _⟩
  · exact h1
  · exact absurd h1 (h s es)

theorem escTok_markup (c : Char) (h : isMarkup c = true) :
    ∃ n, escTok c = .ref n ∧ entity n = [c] := by
  have h := (isMarkup_iff c).1 h
  rcases h with rfl | rfl | rfl | rfl | rfl
  · exact ⟨['l', 't'], by decide, by decide⟩
  · exact ⟨['g', 't'], by decide, by decide⟩
  · exact ⟨['a', 'm', 'p'], by decide, by decide⟩
  · exact ⟨['q', 'u', 'o', 't'], by decide, by decide⟩
  · exact ⟨['a', 'p', 'o', 's'], by decide, by decide⟩

theorem escTok_plain (c : Char) (h : isMarkup c = false) : escTok c = .chr c := by
  have hm : ¬ Markup c := fun hm => by rw [(isMarkup_iff c).2 hm] at h; cases h
  unfold escTok
  rw [if_neg (fun h => hm (.inr (.inr (.inr (.inl h))))),
    if_neg (fun h => hm (.inr (.inr (.inr (.inr h))))),
    if_neg (fun h => hm (.inr (.inr (.inl h)))), if_neg (fun h => hm (.inl h)),
    if_neg (fun h => hm (.inr (.inl h)))]

theorem goesOn_append (ts r : List Tok) (h : goesOn ts = true) (hr : NoChr r) : goesOn (ts ++ r) = true := by
  cases ts with
  | nil => exact goesOn_noChr hr
  | cons t ts => cases t <;> first | rfl | exact h

theorem goesOn_esc (s : Str) (ts : List Tok) (h : goesOn ts = true) : goesOn (s.map escTok ++ ts) = true := by
  cases s with
  | nil => exact h
  | cons c s =>
    rw [List.map_cons, List.cons_append]
    unfold escTok
    repeat' split
    all_goals rfl

theorem goesOn_chars (s : Str) (ts : List Tok) (h : goesOn ts = true) : goesOn (s.map Tok.chr ++ ts) = true := by
  cases s with
  | nil => exact h
  | cons c s => rfl

/-- What is written has nothing that is passed over. -/
theorem goesOn_items (lb : Bool) (items : List Item) (r : List Tok) (h : goesOn r = true) :
    goesOn (items.flatMap (itemToks lb) ++ r) = true := by
  induction items with
  | nil => exact h
  | cons i items ih =>
    rw [List.flatMap_cons, List.append_assoc]
    cases i with
    | text e s =>
      cases e with
      | true => exact goesOn_esc s _ ih
      | false => exact goesOn_chars s _ ih
    | elemText e n s => cases e <;> rfl
    | noEnd n => exact ih
    | _ => rfl

theorem gives_addChar (c : Char) (ts : List Tok) (es : List Event) (g : List Node) (hgo : goesOn ts = true)
    (hg : Gives ts es) (hr : Reads es g) :
    ∃ es', Gives (escTok c :: ts) es' ∧ Reads es' (addChar c g) := by
  cases hm : isMarkup c with
  | true =>
    obtain ⟨n, h1, h2⟩ := escTok_markup c hm
    refine ⟨.ref n :: es, ?_, ?_⟩
    · intro r hnc
      rw [h1]
      show Event.ref n :: events (ts ++ r) = _
      rw [hg r hnc]; rfl
    · unfold addChar; rw [hm, if_pos rfl]; exact Reads.ref n c h2 hm hr
  | false =>
    rw [escTok_plain c hm]
    have single : (∀ s es', es ≠ .text s :: es') → Gives (.chr c :: ts) (.text [c] :: es) := by
      intro hne r hnc
      rw [List.cons_append, events_chr_noText]
      · rw [hg r hnc]; rfl
      · rw [hg r hnc]
        cases es with
        | nil => exact events_noChr r hnc
        | cons e es =>
          intro s es' he
          rw [List.cons_append] at he
          exact hne s es (by rw [(List.cons.inj he).1])
    have hone : ∀ d s', [c] = d :: s' → isMarkup d = false := by
      intro d s' h
      rw [← (List.cons.inj h).1]; exact hm
    cases hr with
    | nil =>
      refine ⟨[.text [c]], single (by simp), ?_⟩
      simp only [addChar, hm, Bool.false_eq_true, if_false]
      exact Reads.text [c] hone Reads.nil
    | text s hs hr =>
      rename_i es g
      refine ⟨.text (c :: s) :: es, ?_, ?_⟩
      · intro r hnc
        rw [List.cons_append, events_chr _ _ (goesOn_append _ _ hgo hnc), hg r hnc]; rfl
      · have hc : ∀ d s', c :: s = d :: s' → isMarkup d = false := by
          intro d s' h
          rw [← (List.cons.inj h).1]; exact hm
        cases s with
        | nil =>
          simp only [addChar, hm, Bool.false_eq_true, if_false]
          exact Reads.text [c] hone hr
        | cons d s =>
          simp only [addChar, hm, hs d s rfl, Bool.false_eq_true, if_false]
          exact Reads.text (c :: d :: s) hc hr
    | ref n d he hd hr =>
      rename_i es g
      refine ⟨_, single (by simp), ?_⟩
      simp only [addChar, hm, hd, Bool.false_eq_true, if_false, if_true]
      exact Reads.text [c] hone (Reads.ref n d he hd hr)
    | empty n raw as hu hr =>
      refine ⟨_, single (by simp), ?_⟩
      simp only [addChar, hm, Bool.false_eq_true, if_false]
      exact Reads.text [c] hone (Reads.empty n raw as hu hr)
    | elem n raw as hu h1 hr =>
      refine ⟨_, single (by simp), ?_⟩
      simp only [addChar, hm, Bool.false_eq_true, if_false]
      exact Reads.text [c] hone (Reads.elem n raw as hu h1 hr)

theorem gives_addText (s : Str) (ts : List Tok) (es : List Event) (g : List Node) (hgo : goesOn ts = true)
    (hg : Gives ts es) (hr : Reads es g) :
    ∃ es', Gives (s.map escTok ++ ts) es' ∧ Reads es' (addText s g) := by
  induction s with
  | nil => exact ⟨es, hg, hr⟩
  | cons c s ih =>
    obtain ⟨es1, h1, h2⟩ := ih
    exact gives_addChar c _ es1 _ (goesOn_esc s ts hgo) h1 h2

/-- The tokens of a list of items, without line breaks. -/
def toks (items : List Item) : List Tok := items.flatMap (itemToks false)

/-- Attributes as the tokeniser returns them. -/
def raws (as : List (Str × Str)) : List (Str × Str) := as.map fun a => (a.1, escape a.2)

theorem escAttrs_raw (as : List (Str × Str)) : rawAttrs (escAttrs as) = raws as := by
  simp [escAttrs, rawAttrs, rawVal, raws]

theorem raws_unescape (as : List (Str × Str)) : unescapeAttrs (raws as) = some as := by
  induction as with
  | nil => rfl
  | cons a as ih =>
    show unescapeAttrs ((a.1, escape a.2) :: raws as) = _
    rw [unescapeAttrs, unescape_escape, ih]

theorem toks_append (a b : List Item) : toks (a ++ b) = toks a ++ toks b := by
  simp [toks]

theorem gives_nil : Gives [] [] := fun _ _ => rfl

theorem noChr_cons (t : Tok) (ts : List Tok) (h : ∀ c, t ≠ .chr c) (h' : ∀ s, t ≠ .skip s := by intro s; simp) :
    NoChr (t :: ts) :=
  ⟨fun c _ he => h c (List.cons.inj he).1, fun s _ he => h' s (List.cons.inj he).1⟩

/-- A tag in front. -/
theorem gives_tag (n : Str) (as : List (Str × Str)) (tc ts : List Tok) (ec es : List Event)
    (hc : Gives tc ec) (hs : Gives ts es) :
    Gives (.start n as :: (tc ++ .end n :: ts)) (.start n as :: (ec ++ .end n :: es)) := by
  intro r hr
  show events (.start n as :: ((tc ++ .end n :: ts) ++ r)) = _
  rw [events, List.append_assoc, List.cons_append,
    hc (.end n :: (ts ++ r)) (noChr_cons _ _ (by intro c; simp))]
  rw [events, hs r hr]
  simp

/-- The tokens of one element, and those behind it. -/
theorem gives_content : ∀ (k : Nat) (c : List Node), sizeOf c ≤ k →
    ∃ es, Gives (toks (nodesItems c)) es ∧ Reads es (norms c) := by
  intro k
  induction k with
  | zero =>
    intro c hk
    cases c with
    | nil => exact ⟨[], gives_nil, by rw [norms]; exact Reads.nil⟩
    | cons x c => simp at hk
  | succ k ih =>
    intro c hk
    cases c with
    | nil => exact ⟨[], gives_nil, by rw [norms]; exact Reads.nil⟩
    | cons x c =>
      have hsz : sizeOf c ≤ k := by simp at hk; omega
      obtain ⟨es, h1, h2⟩ := ih c hsz
      cases x with
      | text s =>
        obtain ⟨es', h3, h4⟩ := gives_addText s _ es _ (by have := goesOn_items false (nodesItems c) [] rfl; rwa [List.append_nil] at this) h1 h2
        refine ⟨es', ?_, by rw [norms]; exact h4⟩
        rw [nodesItems, nodeItems, toks_append]
        simpa [toks, itemToks] using h3
      | tag n as c' =>
        have hsz' : sizeOf c' ≤ k := by simp at hk; omega
        obtain ⟨es', h3, h4⟩ := ih c' hsz'
        rw [norms, norm, nodesItems, toks_append]
        cases c' with
        | nil =>
          refine ⟨.empty n (raws as) :: es, ?_, ?_⟩
          · intro r hr
            have : toks (nodeItems (.tag n as [])) = [.empty n (raws as)] := by
              simp [nodeItems, toks, itemToks, escAttrs_raw, nl]
            rw [this]
            show Event.empty n (raws as) :: events (toks (nodesItems c) ++ r) = _
            rw [h1 r hr]; rfl
          · rw [norms]; exact Reads.empty n _ as (raws_unescape as) h2
        | cons y c'' =>
          refine ⟨_, ?_, Reads.elem n _ as (raws_unescape as) h4 h2⟩
          have : toks (nodeItems (.tag n as (y :: c'')))
              = .start n (raws as) :: (toks (nodesItems (y :: c'')) ++ [.end n]) := by
            simp [nodeItems, nodesItems, toks, itemToks, escAttrs_raw, nl]
          rw [this]
          have := gives_tag n (raws as) _ _ es' es h3 h1
          simpa using this

/-! ## Reading -/

/-- The content with more nodes. -/
def Frame.adds (f : Frame) (g : List Node) : Frame := { f with content := f.content ++ g }

theorem adds_nil (f : Frame) : f.adds [] = f := by cases f; simp [Frame.adds]

theorem add_adds (f : Frame) (x : Node) (g : List Node) : (f.add x).adds g = f.adds (x :: g) := by
  cases f; simp [Frame.adds, Frame.add]

theorem read_content (root : Str) {es : List Event} {g : List Node} (h : Reads es g) :
    ∀ (f : Frame) (st : List Frame) (rest : List Event), AllWithout root g →
    readXmlLoop root (f :: st) (es ++ rest) = readXmlLoop root (f.adds g :: st) rest := by
  induction h with
  | nil => intro f st rest _; rw [adds_nil]; rfl
  | text s hs hr ih =>
    intro f st rest hw
    simp only [AllWithout] at hw
    rw [List.cons_append, readXmlLoop, ih _ _ _ hw.2, add_adds]
  | ref n d he hd hr ih =>
    intro f st rest hw
    simp only [AllWithout] at hw
    rw [List.cons_append, readXmlLoop, ih _ _ _ hw.2, add_adds, he]
  | empty n raw as hu hr ih =>
    intro f st rest hw
    simp only [AllWithout] at hw
    rw [List.cons_append, readXmlLoop, hu]
    simp only
    rw [ih _ _ _ hw.2, add_adds]
  | elem n raw as hu h1 hr ih1 ih =>
    rename_i es1 es2 g1 g2
    intro f st rest hw
    simp only [AllWithout, Without] at hw
    rw [List.cons_append, readXmlLoop, hu]
    simp only
    rw [List.append_assoc, ih1 _ _ _ hw.1.2, List.cons_append, readXmlLoop]
    rw [if_neg (by simp [Frame.adds]), if_neg hw.1.1]
    rw [ih _ _ _ hw.2, add_adds]
    rfl

/-! ## The tree that is read -/

theorem addChar_without (m : Str) (c : Char) (g : List Node) (h : AllWithout m g) :
    AllWithout m (addChar c g) := by
  unfold addChar
  split
  · exact ⟨trivial, h⟩
  · split
    · split
      · exact ⟨trivial, h⟩
      · exact ⟨trivial, h.2⟩
    · exact ⟨trivial, h.2⟩
    · exact ⟨trivial, h⟩

theorem addText_without (m : Str) (s : Str) (g : List Node) (h : AllWithout m g) :
    AllWithout m (addText s g) := by
  induction s with
  | nil => exact h
  | cons c s ih => exact addChar_without m c _ ih

theorem norms_without (m : Str) : ∀ (k : Nat) (c : List Node), sizeOf c ≤ k → AllWithout m c →
    AllWithout m (norms c) := by
  intro k
  induction k with
  | zero =>
    intro c hk _
    cases c with
    | nil => rw [norms]; trivial
    | cons x c => simp at hk
  | succ k ih =>
    intro c hk h
    cases c with
    | nil => rw [norms]; trivial
    | cons x c =>
      simp only [AllWithout] at h
      have hsz : sizeOf c ≤ k := by simp at hk; omega
      cases x with
      | text s => rw [norms]; exact addText_without m s _ (ih c hsz h.2)
      | tag n as c' =>
        have hsz' : sizeOf c' ≤ k := by simp at hk; omega
        rw [norms, norm]
        have h1 := h.1
        simp only [Without] at h1
        exact ⟨⟨h1.1, ih c' hsz' h1.2⟩, ih c hsz h.2⟩

theorem addChar_says (c : Char) (g : List Node) : treesSay (addChar c g) = .chr c :: treesSay g := by
  unfold addChar
  split
  · simp [treesSay, treeSays]
  · split
    · split <;> simp [treesSay, treeSays]
    · simp [treesSay, treeSays]
    · simp [treesSay, treeSays]

theorem addText_says (s : Str) (g : List Node) :
    treesSay (addText s g) = s.map Ev.chr ++ treesSay g := by
  induction s with
  | nil => rfl
  | cons c s ih => rw [addText, addChar_says, ih]; rfl

theorem norms_says : ∀ (k : Nat) (c : List Node), sizeOf c ≤ k → treesSay (norms c) = treesSay c := by
  intro k
  induction k with
  | zero =>
    intro c hk
    cases c with
    | nil => rw [norms]
    | cons x c => simp at hk
  | succ k ih =>
    intro c hk
    cases c with
    | nil => rw [norms]
    | cons x c =>
      have hsz : sizeOf c ≤ k := by simp at hk; omega
      cases x with
      | text s => rw [norms, addText_says, ih c hsz]; simp [treesSay, treeSays]
      | tag n as c' =>
        have hsz' : sizeOf c' ≤ k := by simp at hk; omega
        rw [norms, norm]
        simp only [treesSay, treeSays]
        rw [ih c' hsz', ih c hsz]

theorem addText_plain (s : Str) (hs : Plain s) (hne : s ≠ []) (g : List Node)
    (hg : ∀ t g', g ≠ .text t :: g') : addText s g = .text s :: g := by
  induction s with
  | nil => exact absurd rfl hne
  | cons c s ih =>
    have hc : isMarkup c = false := by
      cases h : isMarkup c
      · rfl
      · exact absurd ((isMarkup_iff c).1 h) (hs c List.mem_cons_self)
    cases s with
    | nil =>
      rw [addText, addText]
      unfold addChar
      rw [if_neg (by simp [hc])]
      cases g with
      | nil => rfl
      | cons x g =>
        cases x with
        | text t => exact absurd rfl (hg t g)
        | tag n as c => rfl
    | cons d s =>
      have hd : isMarkup d = false := by
        cases h : isMarkup d
        · rfl
        · exact absurd ((isMarkup_iff d).1 h) (hs d (by simp))
      rw [addText, ih (fun x hx => hs x (List.mem_cons_of_mem _ hx)) (by simp)]
      simp [addChar, hc, hd]

theorem norms_apart : ∀ (k : Nat) (c : List Node), sizeOf c ≤ k → TextsApart c → AllTextsApartIn c →
    norms c = c := by
  intro k
  induction k with
  | zero =>
    intro c hk _ _
    cases c with
    | nil => rw [norms]
    | cons x c => simp at hk
  | succ k ih =>
    intro c hk ha hin
    cases c with
    | nil => rw [norms]
    | cons x c =>
      have hsz : sizeOf c ≤ k := by simp at hk; omega
      simp only [AllTextsApartIn] at hin
      cases x with
      | text s =>
        simp only [TextsApart] at ha
        obtain ⟨h1, h2, h3, h4⟩ := ha
        rw [norms, ih c hsz h4 hin.2, addText_plain s h2 h1 c h3]
      | tag n as c' =>
        have hsz' : sizeOf c' ≤ k := by simp at hk; omega
        simp only [TextsApart] at ha
        have h1 := hin.1
        simp only [TextsApartIn] at h1
        rw [norms, norm, ih c' hsz' h1.1 h1.2, ih c hsz ha hin.2]

/-- The tokens of an element. -/
theorem element_reads (n : Str) (as : List (Str × Str)) (c : List Node) (hw : AllWithout n c)
    (rest : List Tok) :
    ∃ es, events (toks (nodeItems (.tag n as c)) ++ rest) = es
      ∧ readNext es = .ok (norm (.tag n as c), events rest) := by
  refine ⟨_, rfl, ?_⟩
  cases c with
  | nil =>
    have : toks (nodeItems (.tag n as [])) = [.empty n (raws as)] := by
      simp [nodeItems, toks, itemToks, escAttrs_raw, nl]
    rw [this]
    show readNext (.empty n (raws as) :: events rest) = _
    simp [readNext, readXml, raws_unescape, norm, norms]
  | cons y c =>
    have : toks (nodeItems (.tag n as (y :: c)))
        = .start n (raws as) :: (toks (nodesItems (y :: c)) ++ [.end n]) := by
      simp [nodeItems, nodesItems, toks, itemToks, escAttrs_raw, nl]
    rw [this]
    obtain ⟨es, h1, h2⟩ := gives_content _ (y :: c) (Nat.le_refl _)
    have he : events (Tok.start n (raws as) :: (toks (nodesItems (y :: c)) ++ [.end n]) ++ rest)
        = .start n (raws as) :: (es ++ .end n :: events rest) := by
      show Event.start n (raws as) :: events ((toks (nodesItems (y :: c)) ++ [.end n]) ++ rest) = _
      rw [List.append_assoc, List.cons_append,
        h1 (.end n :: ([] ++ rest)) (noChr_cons _ _ (by intro c; simp))]
      rfl
    rw [he, readNext, readXml, raws_unescape]
    simp only
    rw [if_neg (by simp), read_content n h2 _ _ _
      (norms_without n _ _ (Nat.le_refl _) hw), readXmlLoop]
    rw [if_neg (by simp [Frame.adds]), if_pos rfl, norm]
    simp [Frame.node, Frame.adds]

/-- Events of tokens in front of a tag. -/
theorem events_append : ∀ (ts r : List Tok), NoChr r → events (ts ++ r) = events ts ++ events r
  | [], r, _ => rfl
  | t :: ts, r, h => by
    have ih := events_append ts r h
    cases t with
    | start n as => rw [List.cons_append, events, ih, events]; rfl
    | empty n as => rw [List.cons_append, events, ih, events]; rfl
    | «end» n => rw [List.cons_append, events, ih, events]; rfl
    | ref n => rw [List.cons_append, events, ih, events]; rfl
    | skip s => rw [List.cons_append, events, ih, events]
    | chr c =>
      rw [List.cons_append]
      cases ts with
      | nil => exact events_chr_noText c r (events_noChr r h)
      | cons t ts =>
        have hg : goesOn (t :: ts ++ r) = goesOn (t :: ts) := by cases t <;> rfl
        rw [events, ih, hg, events]
        cases he : events (t :: ts) with
        | nil =>
          have hno := events_noChr r h
          cases goesOn (t :: ts) with
          | false => cases events r <;> rfl
          | true =>
            cases hr : events r with
            | nil => rfl
            | cons e es =>
              cases e with
              | text s => exact absurd hr (hno s es)
              | _ => rfl
        | cons e es => cases goesOn (t :: ts) <;> cases e <;> rfl

theorem noChr_element (n : Str) (as : List (Str × Str)) (c : List Node) (rest : List Tok) :
    NoChr (toks (nodeItems (.tag n as c)) ++ rest) := by
  cases c with
  | nil =>
    have : toks (nodeItems (.tag n as [])) = [.empty n (raws as)] := by
      simp [nodeItems, toks, itemToks, escAttrs_raw, nl]
    rw [this]
    exact noChr_cons _ _ (by intro c; simp)
  | cons y c =>
    have : toks (nodeItems (.tag n as (y :: c)))
        = .start n (raws as) :: (toks (nodesItems (y :: c)) ++ [.end n]) := by
      simp [nodeItems, nodesItems, toks, itemToks, escAttrs_raw, nl]
    rw [this]
    exact noChr_cons _ _ (by intro c; simp)

end Verif.Xml
