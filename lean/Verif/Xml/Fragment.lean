import Verif.Xml.TreeLemmas

/-!
# Fragments of documents
-/

set_option autoImplicit false

namespace Verif.Xml

open Spec

/-- The tokens of a list of items that leaves no tag open, if each item is read as its tokens. -/
theorem tok_pieces (lb : Bool) (items : List Item)
    (hv : ∀ i ∈ items, tokFrom .text (itemText lb i) = some (.text, itemToks lb i))
    (hlast : ∀ i ∈ items.getLast?, ¬ i.Opens) :
    tokenize (output lb (items.flatMap Item.calls)) = some (items.flatMap (itemToks lb)) := by
  have hrun := runItems items { lineBreak := lb }
  have ho : (items.getLast?.map itemOpen).getD .none = .none := by
    cases h : items.getLast? with
    | none => rfl
    | some i =>
      have := hlast i (by rw [h]; rfl)
      cases i <;> simp_all [Item.Opens, itemOpen]
  have hout : output lb (items.flatMap Item.calls) = items.flatMap (itemText lb) := by
    unfold output runCalls
    have h1 := hrun.1
    have h2 := hrun.2
    generalize (List.foldl Call.run { lineBreak := lb } (items.flatMap Item.calls)) = w at h1 h2
    rw [ho] at h2
    have hf : w.close = w.full := by
      simp [Writer.close, Writer.writeBuf, Writer.full, h2, closer]
    rw [hf, h1]
    rfl
  rw [hout]
  unfold tokenize
  have : tokFrom .text (items.flatMap (itemText lb)) = some (.text, items.flatMap (itemToks lb)) := by
    clear hrun ho hout hlast
    induction items with
    | nil => rfl
    | cons i items ih =>
      exact tokFrom_seq (hv i List.mem_cons_self) _ (ih (fun j hj => hv j (List.mem_cons_of_mem _ hj)))
  rw [this]

/-- The tokens of a list of items that leaves no tag open. -/
theorem tok_fragment (lb : Bool) (items : List Item) (hv : ∀ i ∈ items, i.Valid)
    (hlast : ∀ i ∈ items.getLast?, ¬ i.Opens) :
    tokenize (output lb (items.flatMap Item.calls)) = some (items.flatMap (itemToks lb)) :=
  tok_pieces lb items (fun i hi => tok_item lb i (hv i hi)) hlast

/-- The same behind a declaration. -/
theorem tok_document (lb : Bool) (encoding : Str) (he : '>' ∉ encoding) (items : List Item)
    (hv : ∀ i ∈ items, tokFrom .text (itemText lb i) = some (.text, itemToks lb i))
    (hlast : ∀ i ∈ items.getLast?, ¬ i.Opens) :
    tokenize (output lb (.dtd encoding :: items.flatMap Item.calls))
      = some (.chr '\n' :: (nl lb).map Tok.chr ++ items.flatMap (itemToks lb)) := by
  rw [output_doc lb encoding _ hlast]
  unfold tokenize
  have : tokFrom .text (items.flatMap (itemText lb)) = some (.text, items.flatMap (itemToks lb)) := by
    clear hlast
    induction items with
    | nil => rfl
    | cons i items ih =>
      exact tokFrom_seq (hv i List.mem_cons_self) _ (ih (fun j hj => hv j (List.mem_cons_of_mem _ hj)))
  rw [tokFrom_seq (tok_dtd lb encoding he) _ this]

/-- Characters in front of a tag are one text event. -/
theorem events_chars (s : Str) (hs : s ≠ []) (r : List Tok) (hr : NoChr r) :
    events (s.map Tok.chr ++ r) = .text s :: events r := by
  induction s with
  | nil => exact absurd rfl hs
  | cons c s ih =>
    cases s with
    | nil => exact events_chr_noText c r (events_noChr r hr)
    | cons d s =>
      have := ih (by simp)
      show events (.chr c :: ((d :: s).map Tok.chr ++ r)) = _
      rw [events_chr _ _ rfl, this]

end Verif.Xml
