import Verif.Xml.Props
import Verif.Xml.TreeLemmas

/-!
# C32: XML trees the crate does not interpret

The full property: every XML tree comes back from a written file.  It is false of the code, for two
reasons.  An element that contains an element of its own name (a section in a section, a list in a
list) is cut at the first end tag of that name.  And in a flat file the writer puts a line break
after each end tag, which becomes text of the tree.  Proved is the property for trees in which the
root's name does not occur again, in a package file.
-/

set_option autoImplicit false

namespace Verif.Xml

open Spec

/-- The document: things in front, the tree, things behind. -/
def document (lb : Bool) (encoding : Str) (before : List Item) (t : Node) (after : List Item) : Str :=
  output lb (.dtd encoding :: (before.flatMap Item.calls ++ writeNode t ++ after.flatMap Item.calls))

/-- **C32** (part): a tree is written in the middle of a document without line breaks.  Its names are
XML names, and the name of the root does not occur again in it.  Then the document has the events of
what is in front, the reader that is called at the next event returns a tree which says the same —
the same elements, attributes and characters in the same order — and it stops at the events of what
is behind. -/
theorem C32_round_trip_partial (encoding : Str) (before after : List Item) (n : Str)
    (as : List (Str × Str)) (c : List Node) (he : '>' ∉ encoding) (hb : ∀ i ∈ before, i.Valid)
    (ha : ∀ i ∈ after, i.Valid) (hlast : ∀ i ∈ after.getLast?, ¬ i.Opens)
    (hn : NamesOk (.tag n as c)) (hw : AllWithout n c) :
    ∃ ts pre post t', tokenize (document false encoding before (.tag n as c) after) = some ts
      ∧ meaning pre = .chr '\n' :: before.flatMap (Item.says false)
      ∧ meaning post = after.flatMap (Item.says false)
      ∧ (∃ es, events ts = events pre ++ es ∧ readNext es = .ok (t', events post))
      ∧ treeSays t' = treeSays (.tag n as c) := by
  refine ⟨(.chr '\n' :: toks before) ++ (toks (nodeItems (.tag n as c)) ++ toks after),
    .chr '\n' :: toks before, toks after, norm (.tag n as c), ?_, ?_, meaning_items false after ha,
    ?_, ?_⟩
  · have hcalls : before.flatMap Item.calls ++ writeNode (.tag n as c) ++ after.flatMap Item.calls
        = (before ++ nodeItems (.tag n as c) ++ after).flatMap Item.calls := by
      rw [List.flatMap_append, List.flatMap_append, nodeItems_calls]
    unfold document
    rw [hcalls, output_doc false encoding _ ?_]
    · unfold tokenize
      rw [tokFrom_seq (tok_dtd false encoding he) _ (tok_items false _ ?_)]
      · simp [toks, nl]
      · intro i hi
        simp only [List.mem_append] at hi
        rcases hi with (hi | hi) | hi
        · exact hb i hi
        · exact nodeItems_valid _ hn i hi
        · exact ha i hi
    · intro i hi
      cases after with
      | cons j after =>
        rw [List.getLast?_append, List.getLast?_cons] at hi
        simp only [Option.some_or, Option.mem_def, Option.some.injEq] at hi
        apply hlast i
        rw [List.getLast?_cons]
        simp [hi]
      | nil =>
        cases c with
        | nil =>
          have : i = .noEnd n := by
            rw [List.append_nil, nodeItems] at hi
            simpa [List.getLast?_append, List.getLast?_cons] using hi.symm
          subst this
          exact id
        | cons y c =>
          have : i = .end true n := by
            rw [List.append_nil, nodeItems] at hi
            simpa [List.getLast?_append, List.getLast?_cons] using hi.symm
          subst this
          exact id
  · show _ :: meaning (toks before) = _
    rw [toks, meaning_items false before hb]
  · refine ⟨_, events_append _ _ (noChr_element n as c _), ?_⟩
    obtain ⟨es, h1, h2⟩ := element_reads n as c hw (toks after)
    rw [h1]; exact h2
  · rw [norm]
    simp only [treeSays]
    rw [norms_says _ c (Nat.le_refl _)]

/-- The tree that is read from a fragment. -/
def carried (lb : Bool) (t : Node) : Except Fault Node :=
  match tokenize (output lb (writeNode t)) with
  | none => .error .malformed
  | some ts =>
    match readNext (events ts) with
    | .ok (t', _) => .ok t'
    | .error e => .error e

theorem runItems_fragment (t : Node) (n : Str) (as : List (Str × Str)) (c : List Node)
    (ht : t = .tag n as c) (hn : NamesOk t) :
    tokenize (output false (writeNode t)) = some (toks (nodeItems t)) := by
  subst ht
  have hrun := runItems (nodeItems (.tag n as c)) { lineBreak := false }
  have ho : ((nodeItems (.tag n as c)).getLast?.map itemOpen).getD .none = .none := by
    cases c with
    | nil => simp [nodeItems, itemOpen]
    | cons y c => rw [nodeItems]; simp [List.getLast?_cons, List.getLast?_append, itemOpen]
  have hout : output false (writeNode (.tag n as c))
      = (nodeItems (.tag n as c)).flatMap (itemText false) := by
    unfold output runCalls
    rw [← nodeItems_calls]
    have h1 := hrun.1
    have h2 := hrun.2
    generalize (List.foldl Call.run { lineBreak := false }
      ((nodeItems (.tag n as c)).flatMap Item.calls)) = w at h1 h2
    rw [ho] at h2
    have hf : w.close = w.full := by
      simp [Writer.close, Writer.writeBuf, Writer.full, h2, closer]
    rw [hf, h1]
    rfl
  rw [hout]
  unfold tokenize
  rw [tok_items false _ (nodeItems_valid _ hn)]
  rfl

/-- C32: the tree itself is the same if its texts are not empty, not next to each other, and without
markup characters. -/
theorem C32_same_tree_partial (n : Str) (as : List (Str × Str)) (c : List Node)
    (hn : NamesOk (.tag n as c)) (hw : AllWithout n c) (ht : TextsApartIn (.tag n as c)) :
    carried false (.tag n as c) = .ok (.tag n as c) := by
  unfold carried
  rw [runItems_fragment _ n as c rfl hn]
  obtain ⟨es, h1, h2⟩ := element_reads n as c hw []
  rw [List.append_nil] at h1
  simp only
  rw [h1, h2]
  simp only [TextsApartIn] at ht
  rw [norm, norms_apart _ c (Nat.le_refl _) ht.1 ht.2]

/-- Concrete case for both theorems: a drawing frame with an image and a text. -/
def frame : Node :=
  .tag "draw:frame".toList [("draw:name".toList, "a<b".toList)]
    [.tag "draw:image".toList [] [], .text "x y".toList,
     .tag "svg:desc".toList [] [.text "d".toList, .tag "b".toList [] []]]

theorem frame_ok : NamesOk frame ∧ AllWithout "draw:frame".toList
    [.tag "draw:image".toList [] [], .text "x y".toList,
     .tag "svg:desc".toList [] [.text "d".toList, .tag "b".toList [] []]] ∧ TextsApartIn frame := by
  refine ⟨?_, ?_, ?_⟩
  · simp only [frame, NamesOk, AllNamesOk]
    refine ⟨by decide, by decide, ⟨by decide, by decide, trivial⟩, trivial,
      ⟨by decide, by decide, trivial, ⟨by decide, by decide, trivial⟩, trivial⟩, trivial⟩
  · simp only [AllWithout, Without]
    exact ⟨⟨by decide, trivial⟩, trivial, ⟨by decide, trivial, ⟨by decide, trivial⟩, trivial⟩, trivial⟩
  · simp only [frame, TextsApartIn, TextsApart, AllTextsApartIn]
    refine ⟨⟨by decide, by decide, (by intro t c h; cases h), trivial⟩, ⟨trivial, trivial⟩, trivial,
      ⟨⟨by decide, by decide, (by intro t c h; cases h), trivial⟩, trivial, ⟨trivial, trivial⟩, trivial⟩,
      trivial⟩

example : carried false frame = .ok frame :=
  C32_same_tree_partial _ _ _ frame_ok.1 frame_ok.2.1 frame_ok.2.2

/-- C32 fails for an element in an element of the same name: what is around the inner element is
lost. -/
theorem C32_nested_counterexample :
    carried false (.tag "g".toList [("k".toList, "1".toList)]
      [.text "a".toList, .tag "g".toList [] [.text "b".toList], .text "c".toList])
      = .ok (.tag "g".toList [] [.text "b".toList]) := by decide

/-- C32 fails in a flat file: the line breaks of the writer become text. -/
theorem C32_flat_counterexample :
    carried true (.tag "a".toList [] [.tag "b".toList [] [], .text "c".toList])
      = .ok (.tag "a".toList [] [.tag "b".toList [] [], .text "\nc".toList]) := by decide

/-- C32, why only what the tree says is the same: texts are split at markup characters. -/
theorem C32_split_counterexample :
    carried false (.tag "a".toList [] [.text "1<2".toList])
      = .ok (.tag "a".toList [] [.text "1".toList, .text "<".toList, .text "2".toList]) := by decide

end Verif.Xml
