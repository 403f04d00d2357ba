import Verif.Xml.Lemmas

/-!
# C30, C31: escaping, and the XML writer
-/

set_option autoImplicit false

namespace Verif.Xml

open Spec

/-- **C30**: unescaping gives the string back. -/
theorem C30_unescape_escape (s : Str) : unescape (escape s) = some s := unescape_escape s

/-- C30: the tokeniser reads the escaped text as the characters of the string, and nothing else: no
tag begins or ends in it. -/
theorem C30_text_reads_back (s : Str) :
    ∃ ts, tokenize (escape s) = some ts ∧ meaning ts = s.map Ev.chr :=
  ⟨s.map escTok, by unfold tokenize; rw [tok_escape], meaning_escape s⟩

/-- C30: no markup character is left, except for the `&` of the references. -/
theorem C30_no_markup (s : Str) : ∀ c ∈ escape s, ¬ Markup c ∨ c = '&' := by
  intro c hc
  obtain ⟨h1, h2, h3, h4⟩ := escape_no_markup s c hc
  by_cases h : c = '&'
  · exact .inr h
  · refine .inl ?_
    rintro (h' | h' | h' | h' | h') <;> contradiction

/-- C30: different strings have different escapes. -/
theorem C30_injective (s t : Str) (h : escape s = escape t) : s = t := by
  have h1 := unescape_escape s
  rw [h, unescape_escape t] at h1
  exact (Option.some.inj h1).symm

/-- C30: a string without markup characters is not changed. -/
theorem C30_plain_unchanged (s : Str) (h : Plain s) : escape s = s := by
  induction s with
  | nil => rfl
  | cons c s ih =>
    rw [escape, ih (fun x hx => h x (List.mem_cons_of_mem _ hx))]
    have hm := h c List.mem_cons_self
    rcases escapeChar_cases c with ⟨e, _⟩ | ⟨e, _⟩ | ⟨e, _⟩ | ⟨e, _⟩ | ⟨e, _⟩ | ⟨_, e⟩
    · exact absurd (.inr (.inr (.inr (.inl e)))) hm
    · exact absurd (.inr (.inr (.inr (.inr e)))) hm
    · exact absurd (.inr (.inr (.inl e))) hm
    · exact absurd (.inl e) hm
    · exact absurd (.inr (.inl e)) hm
    · rw [e]; rfl

/-- Concrete case. -/
example : escape "a<b & \"c\"".toList = "a&lt;b &amp; &quot;c&quot;".toList := by decide

/-- **C31**: a document that begins with the XML declaration and goes on with any items whose names
are XML names, and whose last item leaves no tag open, is read as exactly these items in their
order, each with its attributes and its text. -/
theorem C31_tokenizes_back (lb : Bool) (encoding : Str) (items : List Item) (he : '>' ∉ encoding)
    (hv : ∀ i ∈ items, i.Valid) (hlast : ∀ i ∈ items.getLast?, ¬ i.Opens) :
    ∃ ts, tokenize (output lb (.dtd encoding :: items.flatMap Item.calls)) = some ts
      ∧ meaning ts = .chr '\n' :: br lb ++ items.flatMap (Item.says lb) := by
  refine ⟨.chr '\n' :: (nl lb).map Tok.chr ++ items.flatMap (itemToks lb), ?_, ?_⟩
  · rw [output_doc lb encoding items hlast]
    unfold tokenize
    rw [tokFrom_seq (tok_dtd lb encoding he) _ (tok_items lb items hv)]
  · rw [meaning_append, meaning_items lb items hv]
    show _ :: meaning ((nl lb).map Tok.chr) ++ _ = _
    rw [meaning_nl]

/-- C31: two documents with the same text say the same. -/
theorem C31_injective (lb : Bool) (e : Str) (he : '>' ∉ e) (a b : List Item)
    (ha : ∀ i ∈ a, i.Valid) (hb : ∀ i ∈ b, i.Valid)
    (hla : ∀ i ∈ a.getLast?, ¬ i.Opens) (hlb : ∀ i ∈ b.getLast?, ¬ i.Opens)
    (h : output lb (.dtd e :: a.flatMap Item.calls) = output lb (.dtd e :: b.flatMap Item.calls)) :
    a.flatMap (Item.says lb) = b.flatMap (Item.says lb) := by
  obtain ⟨ta, h1, h2⟩ := C31_tokenizes_back lb e a he ha hla
  obtain ⟨tb, h3, h4⟩ := C31_tokenizes_back lb e b he hb hlb
  rw [h, h3] at h1
  cases h1
  rw [h2] at h4
  exact List.append_cancel_left h4

/-- The document of the concrete case. -/
def demo : List Item :=
  [.start false "a".toList [(true, "k".toList, "<1>".toList)], .text true "x&y".toList,
   .empty true "b".toList [(false, "n".toList, "2".toList)], .noEnd "b".toList,
   .elemText true "c".toList "'".toList, .end true "a".toList]

/-- Concrete case: the hypotheses hold, and the text is the expected one. -/
example : (∀ i ∈ demo, i.Valid) ∧ (∀ i ∈ demo.getLast?, ¬ i.Opens)
    ∧ output false (demo.flatMap Item.calls)
      = "<a k=\"&lt;1&gt;\">x&amp;y<b n=\"2\"/><c>&apos;</c></a>".toList := by
  refine ⟨?_, ?_, by decide⟩
  · intro i hi
    simp only [demo, List.mem_cons, List.not_mem_nil, or_false] at hi
    rcases hi with rfl | rfl | rfl | rfl | rfl | rfl
    · exact ⟨by decide, by unfold AttrsOk; decide⟩
    · intro h; cases h
    · exact ⟨by decide, by unfold AttrsOk; decide⟩
    · trivial
    · exact ⟨by decide, by intro h; cases h⟩
    · show Name _; decide
  · intro i hi h
    have : i = .end true "a".toList := (Option.some.inj hi).symm
    subst this
    exact h

/-- C31, what the last hypothesis is for: `close` does not finish an open start tag. -/
theorem C31_close_counterexample :
    tokenize (output false [.elem "a".toList]) = none := by decide

/-- C31, what the hypothesis on raw attributes is for: an attribute written without escaping may end
the value early. -/
theorem C31_raw_attr_counterexample :
    tokenize (output false [.empty "a".toList, .attr "k".toList "x\" j=\"y".toList, .text []])
      = some [.empty "a".toList [("k".toList, "x".toList), ("j".toList, "y".toList)]] := by decide

end Verif.Xml
