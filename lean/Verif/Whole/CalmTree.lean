import Verif.Whole.CalmProps

/-!
# C117 for files that are complete: the traps as seen in the tree of elements

In a file in which every start tag has its end tag, no table is unfinished.  What remains of the traps is said here
about the elements and not about the order of the tags.
-/

set_option autoImplicit false

namespace Verif.Whole

open Xml Codec Xml.Spec
open TableXml (tTable tRow tColumn tRowGroup tColGroup tHeaderRows tHeaderCols)

/-! ## The specification -/

mutual

/-- The values in an element are no traps: see `AttrSafe`; in addition no empty tags for scripts. -/
def Harmless : El → Prop
  | .text s => DurationFits s
  | .ref _ => True
  | .void n as => (∀ a ∈ as, AttrSafe a.1 a.2) ∧ n ≠ "office:script".toList
  | .elem n as c => (∀ a ∈ as, AttrSafe a.1 a.2)
      ∧ (n = "meta:editing-duration".toList → DurationFits (textUpTo n (evsOf c ++ [.end n]))) ∧ HarmlessIn c

/-- The values in several elements. -/
def HarmlessIn : List El → Prop
  | [] => True
  | x :: c => Harmless x ∧ HarmlessIn c

end

/-- Whether the last element, if there is one, is one of rows: a row with an end tag, header rows or a group. -/
def endsRows (b : Bool) : El → Bool
  | .text _ => b
  | .ref _ => b
  | .void _ _ => false
  | .elem n _ _ => decide (n = tRow ∨ n = tHeaderRows ∨ n = tRowGroup)

/-- The same for columns: an empty tag for a column, header columns or a group. -/
def endsCols (b : Bool) : El → Bool
  | .text _ => b
  | .ref _ => b
  | .void n _ => decide (n = tColumn)
  | .elem n _ _ => decide (n = tHeaderCols ∨ n = tColGroup)

mutual

/-- Header rows and groups of rows, at any depth, have a row as their last element, and so on for columns. -/
def Tidy : El → Prop
  | .elem n _ c => TidyIn c ∧ (n = tHeaderRows ∨ n = tRowGroup → c.foldl endsRows false = true)
      ∧ (n = tHeaderCols ∨ n = tColGroup → c.foldl endsCols false = true)
  | _ => True

/-- The same for several elements. -/
def TidyIn : List El → Prop
  | [] => True
  | x :: c => Tidy x ∧ TidyIn c

end

/-! ## Proofs -/

mutual

theorem excess_events (x : El) (r : List Event) : excess (x.events ++ r) = excess r := by
  cases x with
  | text s => rfl
  | ref s => rfl
  | void n as => rfl
  | elem n as c =>
    have h := excess_evsOf c (.end n :: r)
    simp only [El.events, List.cons_append, List.append_assoc, List.nil_append, excess]
    rw [h]
    simp only [excess]
    omega

theorem excess_evsOf (c : List El) (r : List Event) : excess (evsOf c ++ r) = excess r := by
  cases c with
  | nil => rfl
  | cons x c =>
    have h1 := excess_events x (evsOf c ++ r)
    have h2 := excess_evsOf c r
    simp only [evsOf, List.append_assoc]
    rw [h1, h2]

end

theorem textUpTo_end (n : Str) (xs r : List Event) :
    textUpTo n (xs ++ .end n :: r) = textUpTo n (xs ++ [.end n]) := by
  induction xs with
  | nil => simp only [List.nil_append, textUpTo, if_true]
  | cons ev xs ih =>
    cases ev with
    | «end» m =>
      simp only [List.cons_append, textUpTo]
      split
      · rfl
      · exact ih
    | _ => simp only [List.cons_append, textUpTo, ih]

mutual

theorem safe_events (x : El) (h : Harmless x) (r : List Event) (hx : 0 ≤ excess r) (hr : EventsSafe r) :
    EventsSafe (x.events ++ r) := by
  cases x with
  | text s => exact ⟨h, hr⟩
  | ref s => exact ⟨trivial, hr⟩
  | void n as => exact ⟨h, hr⟩
  | elem n as c =>
    obtain ⟨h1, h2, h3⟩ := h
    have hs := safe_evsOf c h3 (.end n :: r) (by simp only [excess]; omega) ⟨trivial, hr⟩
    simp only [El.events, List.cons_append, List.append_assoc, List.nil_append]
    refine ⟨⟨h1, ?_, ?_⟩, hs⟩
    · intro e
      rw [textUpTo_end]
      exact h2 e
    · intro _
      rw [excess_evsOf]
      simp only [excess]
      omega

theorem safe_evsOf (c : List El) (h : HarmlessIn c) (r : List Event) (hx : 0 ≤ excess r) (hr : EventsSafe r) :
    EventsSafe (evsOf c ++ r) := by
  cases c with
  | nil => exact hr
  | cons x c =>
    have h2 := safe_evsOf c h.2 r hx hr
    have h1 := safe_events x h.1 (evsOf c ++ r) (by rw [excess_evsOf]; exact hx) h2
    simp only [evsOf, List.append_assoc]
    exact h1

end

mutual

theorem closed_events (x : El) (h : Tidy x) (a b : Bool) (r : List Event) (hr : Closed (endsRows a x) (endsCols b x) r) :
    Closed a b (x.events ++ r) := by
  cases x with
  | text s => exact hr
  | ref s => exact hr
  | void n as => exact hr
  | elem n as c =>
    obtain ⟨h1, h2, h3⟩ := h
    have hd : tRow ≠ tHeaderCols ∧ tRow ≠ tColGroup := by decide +kernel
    have hd2 : tHeaderRows ≠ tHeaderCols ∧ tHeaderRows ≠ tColGroup ∧ tRowGroup ≠ tHeaderCols ∧ tRowGroup ≠ tColGroup := by
      decide +kernel
    simp only [El.events, List.cons_append, List.append_assoc, List.nil_append]
    refine closed_evsOf c h1 false false (.end n :: r) ?_
    simp only [endsRows, endsCols] at hr
    rw [Closed]
    by_cases e1 : n = tRow
    · rw [if_pos e1]
      rw [decide_eq_true (.inl e1), decide_eq_false (by rw [e1]; exact fun g => g.elim hd.1 hd.2)] at hr
      exact hr
    · rw [if_neg e1]
      by_cases e2 : n = tHeaderRows ∨ n = tRowGroup
      · rw [if_pos e2]
        rw [decide_eq_true (.inr e2), decide_eq_false (by
          rcases e2 with e | e <;> rw [e]
          · exact fun g => g.elim hd2.1 hd2.2.1
          · exact fun g => g.elim hd2.2.2.1 hd2.2.2.2)] at hr
        exact ⟨h2 e2, hr⟩
      · rw [if_neg e2]
        rw [decide_eq_false (fun g => g.elim e1 e2)] at hr
        by_cases e3 : n = tHeaderCols ∨ n = tColGroup
        · rw [if_pos e3]
          rw [decide_eq_true e3] at hr
          exact ⟨h3 e3, hr⟩
        · rw [if_neg e3]
          rw [decide_eq_false e3] at hr
          exact hr

theorem closed_evsOf (c : List El) (h : TidyIn c) (a b : Bool) (r : List Event)
    (hr : Closed (c.foldl endsRows a) (c.foldl endsCols b) r) : Closed a b (evsOf c ++ r) := by
  cases c with
  | nil => exact hr
  | cons x c =>
    have h2 := closed_evsOf c h.2 (endsRows a x) (endsCols b x) r hr
    have h1 := closed_events x h.1 a b (evsOf c ++ r) h2
    simp only [evsOf, List.append_assoc]
    exact h1

end

theorem smooth_tree (c : List El) (h1 : HarmlessIn c) (h2 : TidyIn c) : Smooth (evsOf c) := by
  have g1 := safe_evsOf c h1 [] (by simp only [excess]; omega) trivial
  have g2 := closed_evsOf c h2 false false [] trivial
  rw [List.append_nil] at g1 g2
  exact ⟨g1, false, false, g2⟩

/-! ## The theorem -/

/-- A flat file that consists of complete elements, whatever they are: the reader returns, unless a value is a trap or
header rows, header columns or a group are without rows or columns at their end.  A table that is not finished cannot
occur.  Missing: as for `C117_flat_partial`. -/
theorem C117_complete_partial (contentOnly : Bool) (e : Env) (hw : e.ints.wrap = true) (text : Str) (c : List El)
    (hc : (tokenize text).map events = some (evsOf c)) (h1 : HarmlessIn c) (h2 : TidyIn c)
    (hn : (evsOf c).length + 1 < 4294967296) :
    (∃ t, read_fods contentOnly e text = .ok t)
      ∨ ∃ f, read_fods contentOnly e text = .error f ∧ f ≠ .panic ∧ f ≠ .endless := by
  have he : eventsOf text = evsOf c := by
    unfold eventsOf
    cases ht : tokenize text with
    | none => rw [ht] at hc; cases hc
    | some ts => rw [ht] at hc; exact Option.some.inj hc
  exact C117_flat_partial contentOnly e hw text (by rw [he]; exact smooth_tree c h1 h2) (by rw [he]; exact hn)

/-- A table with header rows that have a row, and a space behind it. -/
def tidyTree : List El :=
  [.elem tTable [("table:name".toList, "a".toList)]
    [.elem tHeaderRows [] [.elem tRow [] [.void "table:table-cell".toList []], .text " ".toList]]]

/-- The table meets the hypotheses; without the row it does not. -/
theorem C117_complete_meets :
    (tokenize ("<table:table table:name=\"a\"><table:table-header-rows><table:table-row><table:table-cell/>"
      ++ "</table:table-row> </table:table-header-rows></table:table>").toList).map events = some (evsOf tidyTree)
    ∧ HarmlessIn tidyTree ∧ TidyIn tidyTree ∧ ¬ TidyIn [.elem tTable [] [.elem tHeaderRows [] []]] := by
  have a1 : AttrSafe "table:name".toList "a".toList := by decide +kernel
  have a2 : DurationFits " ".toList := by decide +kernel
  refine ⟨by decide +kernel, ⟨⟨?_, ?_, ⟨⟨?_, ?_, ⟨⟨?_, ?_, ⟨⟨?_, ?_⟩, trivial⟩⟩, a2, trivial⟩⟩, trivial⟩⟩, trivial⟩, ?_, ?_⟩
  · intro a ha
    cases List.mem_singleton.1 ha
    exact a1
  · intro g; exact absurd g (by decide +kernel)
  · intro a ha; cases ha
  · intro g; exact absurd g (by decide +kernel)
  · intro a ha; cases ha
  · intro g; exact absurd g (by decide +kernel)
  · intro a ha; cases ha
  · decide +kernel
  · refine ⟨⟨⟨⟨⟨⟨⟨trivial, trivial⟩, ?_, ?_⟩, trivial, trivial⟩, ?_, ?_⟩, trivial⟩, ?_, ?_⟩, trivial⟩
    · intro g; exact absurd g (by decide +kernel)
    · intro g; exact absurd g (by decide +kernel)
    · intro _; decide +kernel
    · intro g; exact absurd g (by decide +kernel)
    · intro g; exact absurd g (by decide +kernel)
    · intro g; exact absurd g (by decide +kernel)
  · intro h
    have g := h.1.1.1.2.1 (.inl rfl)
    exact absurd g (by decide)

end Verif.Whole
