import Verif.Fmt.Props

/-!
# C118: the older functions for the parts of a format (`push_number`, `push_day`, ..)
-/

set_option autoImplicit false

namespace Verif.Fmt

open Codec Book Style Spec
open Book.AttrMap (specSet specClear lookup_set lookup_clear)

/-! ## Model -/

/-- `FormatNumberStyle`, src/format/mod.rs:301-304. -/
inductive NumStyle where
  | short
  | long
  deriving DecidableEq

/-- `Display for FormatNumberStyle`, src/format/mod.rs:306-313. -/
def NumStyle.text : NumStyle → Str
  | .short => "short".toList
  | .long => "long".toList

/-- `FormatCalendarStyle`, src/format/mod.rs:318-326. -/
inductive Calendar where
  | gregorian
  | gengou
  | roc
  | hanja
  | hijri
  | jewish
  | buddhist
  deriving DecidableEq

/-- `Display for FormatCalendarStyle`, src/format/mod.rs:328-340. -/
def Calendar.text : Calendar → Str
  | .gregorian => "gregorian".toList
  | .gengou => "gengou".toList
  | .roc => "ROC".toList
  | .hanja => "hanja".toList
  | .hijri => "hijri".toList
  | .jewish => "jewish".toList
  | .buddhist => "buddhist".toList

/-- `if_then(test, |p| p.op())`, src/format/builder.rs:32-41; the same in every builder. -/
def ifThen (test : Bool) (op : PartOp) : List PartOp := if test then [op] else []

/-- The calls of the functions `push_*` with their arguments. -/
inductive Push where
  | number (decimals : Nat) (grouping : Bool)
  | numberFix (decimals : Nat) (grouping : Bool)
  | fraction (denominator : Int) (minDenominator minInteger minNumerator : Nat) (grouping : Bool)
  | scientific (decimals : Nat)
  | currencySymbol (l : Locale) (symbol : Str)
  | day (style : NumStyle)
  | month (style : NumStyle) (textual : Bool)
  | year (style : NumStyle)
  | era (style : NumStyle) (calendar : Calendar)
  | dayOfWeek (style : NumStyle) (calendar : Calendar)
  | weekOfYear (calendar : Calendar)
  | quarter (style : NumStyle) (calendar : Calendar)
  | hours (style : NumStyle)
  | minutes (style : NumStyle)
  | seconds (style : NumStyle) (decimals : Nat)
  | amPm
  | boolean
  | text (s : Str)
  | textContent

/-- The functions `push_*`, as the builders that they call. -/
def push (f : Format) : Push → Option Format
  | .number d g => -- src/macro_format.rs:547-554
    build f .number ([.decimalPlaces d] ++ ifThen g .grouping ++ [.minDecimalPlaces 0, .minIntegerDigits 1])
  | .numberFix d g => -- src/macro_format.rs:562-568
    build f .number ([.fixedDecimalPlaces d] ++ ifThen g .grouping ++ [.minIntegerDigits 1])
  | .fraction d md mi mn g => -- src/macro_format.rs:576-591
    build f .fraction ([.denominator d, .minDenominatorDigits md, .minIntegerDigits mi, .minNumeratorDigits mn]
      ++ ifThen g .grouping)
  | .scientific d => build f .scientificNumber [.decimalPlaces d] -- src/macro_format.rs:599-603
  | .currencySymbol l s => build f .currencySymbol [.locale l, .symbol s] -- src/macro_format.rs:611-616
  | .day s => build f .day [.style s.text] -- src/macro_format.rs:624-626
  | .month s t => build f .month ([.style s.text] ++ ifThen t .textual) -- src/macro_format.rs:634-639
  | .year s => build f .year [.style s.text] -- src/macro_format.rs:647-649
  | .era s c => build f .era [.style s.text, .calendar c.text] -- src/macro_format.rs:657-659
  | .dayOfWeek s c => build f .dayOfWeek [.style s.text, .calendar c.text] -- src/macro_format.rs:667-676
  | .weekOfYear c => build f .weekOfYear [.calendar c.text] -- src/macro_format.rs:684-686
  | .quarter s c => build f .quarter [.style s.text, .calendar c.text] -- src/macro_format.rs:694-696
  | .hours s => build f .hours [.style s.text] -- src/macro_format.rs:704-706
  | .minutes s => build f .minutes [.style s.text] -- src/macro_format.rs:714-716
  | .seconds s d => build f .seconds [.style s.text, .decimalPlaces d] -- src/macro_format.rs:724-729
  | .amPm => build f .amPm [] -- src/macro_format.rs:737-739
  | .boolean => build f .boolean [] -- src/macro_format.rs:747-749
  | .text s => build f .text [.text s] -- src/macro_format.rs:757-759, with `part_text`, 521-523
  | .textContent => build f .textContent [] -- src/macro_format.rs:767-769

/-- A sequence of calls on one format. -/
def pushes : List Push → Format → Option Format
  | [], f => some f
  | p :: ps, f => (push f p).bind (pushes ps)

/-! ## Specification -/

namespace Spec

/-- What one call asks for: the element, its attributes and its text. -/
structure Wish where
  type : PartType
  attrs : List (String × Str) := []
  content : Option Str := none

def styleText : NumStyle → Str
  | .short => "short".toList
  | .long => "long".toList

/-- The calendars of OpenDocument, 19.342 number:calendar. -/
def calendarText : Calendar → Str
  | .gregorian => "gregorian".toList
  | .gengou => "gengou".toList
  | .roc => "ROC".toList
  | .hanja => "hanja".toList
  | .hijri => "hijri".toList
  | .jewish => "jewish".toList
  | .buddhist => "buddhist".toList

def flag (name : String) (b : Bool) : List (String × Str) := if b then [(name, "true".toList)] else []

def some? (name : String) : Option Str → List (String × Str)
  | some v => [(name, v)]
  | none => []

def wish : Push → Wish
  | .number d g =>
    { type := .number
      attrs := [("number:min-integer-digits", "1".toList), ("number:min-decimal-places", "0".toList)]
        ++ flag "number:grouping" g ++ [("number:decimal-places", decNat d)] }
  | .numberFix d g =>
    { type := .number
      attrs := [("number:min-integer-digits", "1".toList)] ++ flag "number:grouping" g
        ++ [("number:min-decimal-places", decNat d), ("number:decimal-places", decNat d)] }
  | .fraction d md mi mn g =>
    { type := .fraction
      attrs := flag "number:grouping" g ++ [("number:min-numerator-digits", decNat mn),
        ("number:min-integer-digits", decNat mi), ("number:min-denominator-digits", decNat md),
        ("number:denominator-value", decInt d)] }
  | .scientific d => { type := .scientificNumber, attrs := [("number:decimal-places", decNat d)] }
  | .currencySymbol l s =>
    { type := .currencySymbol
      attrs := some? "number:script" l.script ++ some? "number:country" l.region ++ [("number:language", l.language)]
      content := some s }
  | .day s => { type := .day, attrs := [("number:style", styleText s)] }
  | .month s t => { type := .month, attrs := flag "number:textual" t ++ [("number:style", styleText s)] }
  | .year s => { type := .year, attrs := [("number:style", styleText s)] }
  | .era s c => { type := .era, attrs := [("number:calendar", calendarText c), ("number:style", styleText s)] }
  | .dayOfWeek s c =>
    { type := .dayOfWeek, attrs := [("number:calendar", calendarText c), ("number:style", styleText s)] }
  | .weekOfYear c => { type := .weekOfYear, attrs := [("number:calendar", calendarText c)] }
  | .quarter s c => { type := .quarter, attrs := [("number:calendar", calendarText c), ("number:style", styleText s)] }
  | .hours s => { type := .hours, attrs := [("number:style", styleText s)] }
  | .minutes s => { type := .minutes, attrs := [("number:style", styleText s)] }
  | .seconds s d =>
    { type := .seconds, attrs := [("number:decimal-places", decNat d), ("number:style", styleText s)] }
  | .amPm => { type := .amPm }
  | .boolean => { type := .boolean }
  | .text s => { type := .text, content := some s }
  | .textContent => { type := .textContent }

/-- The value that a wish has for an attribute. -/
def Wish.get (w : Wish) (k : Str) : Option Str := (w.attrs.find? fun a => a.1.toList = k).map (·.2)

/-- The part is what was wished for, but for the attributes in `but`. -/
structure Grants (but : List String) (w : Wish) (p : Part) : Prop where
  type : p.type = w.type
  attr : ∀ k, (∀ b ∈ but, k ≠ b.toList) → p.attr.lookup k = w.get k
  content : p.content = w.content
  position : p.position = none

/-- The attribute that the code loses. -/
def lost : Push → List String
  | .fraction .. => ["number:min-integer-digits"]
  | _ => []

/-- One part for each wish, in order. -/
inductive AllGranted : List Push → List Part → Prop where
  | nil : AllGranted [] []
  | cons {c : Push} {cs : List Push} {p : Part} {ps : List Part} :
      Grants (lost c) (wish c) p → AllGranted cs ps → AllGranted (c :: cs) (p :: ps)

end Spec

/-! ## Proofs -/

theorem decNat0 : decNat 0 = "0".toList := by decide +kernel

theorem decNat1 : decNat 1 = "1".toList := by decide +kernel

theorem style_text (s : NumStyle) : s.text = styleText s := by cases s <;> rfl

theorem calendar_text (c : Calendar) : c.text = calendarText c := by cases c <;> rfl

theorem get_nil (t : PartType) (c : Option Str) (k : Str) : (Wish.mk t [] c).get k = none := rfl

theorem get_cons (t : PartType) (n : String) (v : Str) (as : List (String × Str)) (c : Option Str) (k : Str) :
    (Wish.mk t ((n, v) :: as) c).get k = (one n v k).or ((Wish.mk t as c).get k) := by
  unfold Wish.get one
  rw [List.find?_cons]
  by_cases h : n.toList = k
  · simp only [h, decide_true, if_true, Option.map_some, Option.some_or]
  · simp only [h, decide_false, if_false, Option.none_or]

/-- A builder that was told what is wished for. -/
theorem granted (f : Format) (c : Push) (t : PartType) (ops : List PartOp) (hc : push f c = build f t ops)
    (hx : ∃ p, partOps t ops ⟨t, [], none, none⟩ = some p) (hn : t ≠ .fraction) (h1 : (wish c).type = t)
    (h2 : ∀ k, lastSaid (fun op => says op k) ops = (wish c).get k)
    (h3 : lastSaid saysText ops = (wish c).content) (h4 : lastSaid saysPos ops = none) :
    ∃ p, push f c = some { f with parts := f.parts ++ [p] } ∧ Grants (lost c) (wish c) p := by
  obtain ⟨p, hp⟩ := hx
  have hb : build f t ops = some { f with parts := f.parts ++ [p] } := by
    unfold build
    rw [hp]
    rfl
  obtain ⟨q, hq, ha⟩ := C83_builders_partial f _ t ops hb (fun h => absurd h hn)
  have he : p = q := by
    have := congrArg Format.parts hq
    simp only [List.append_cancel_left_eq, List.cons.injEq, and_true] at this
    exact this
  subst he
  exact ⟨p, hc.trans hb, ha.type.trans h1.symm, fun k _ => (ha.attr k).trans (h2 k), ha.content.trans h3,
    ha.position.trans h4⟩

theorem push_granted (f : Format) (c : Push) :
    ∃ p, push f c = some { f with parts := f.parts ++ [p] } ∧ Grants (lost c) (wish c) p := by
  cases c with
  | number d g =>
    cases g <;> exact granted f _ _ _ rfl ⟨_, rfl⟩ (by decide) rfl (fun k => by
      simp only [wish, flag, if_true, Bool.false_eq_true, if_false, List.cons_append, List.nil_append, List.append_nil,
        get_cons, get_nil, ifThen, lastSaid, says, decNat0, decNat1, Option.or_none, Option.none_or, Option.or_assoc]) rfl rfl
  | numberFix d g =>
    cases g <;> exact granted f _ _ _ rfl ⟨_, rfl⟩ (by decide) rfl (fun k => by
      simp only [wish, flag, if_true, Bool.false_eq_true, if_false, List.cons_append, List.nil_append, List.append_nil,
        get_cons, get_nil, ifThen, lastSaid, says, decNat0, decNat1, Option.or_none, Option.none_or, Option.or_assoc]) rfl rfl
  | fraction d md mi mn g =>
    have hw : ∀ k, ((wish (.fraction d md mi mn g)).get k) =
        ((if g then one "number:grouping" "true".toList k else none).or ((one "number:min-numerator-digits" (decNat mn) k).or
        ((one "number:min-integer-digits" (decNat mi) k).or ((one "number:min-denominator-digits" (decNat md) k).or
        (one "number:denominator-value" (decInt d) k))))) := by
      intro k
      cases g <;> simp only [wish, flag, if_true, Bool.false_eq_true, if_false, List.cons_append, List.nil_append,
        get_cons, get_nil, Option.or_none, Option.none_or]
    have hk : ∀ k, (∀ b ∈ ["number:min-integer-digits"], k ≠ b.toList) → ∀ x : Option Str,
        (one "number:min-integer-digits" (decNat mi) k).or x = x := by
      intro k h x
      unfold one
      rw [if_neg (Ne.symm (h _ List.mem_cons_self)), Option.none_or]
    have hm : ∀ k, ∀ x : Option Str, (one "number:min-numerator-digits" (decNat mn) k).or
        ((one "number:min-numerator-digits" (decNat mi) k).or x) = (one "number:min-numerator-digits" (decNat mn) k).or x := by
      intro k x
      unfold one
      split
      · rfl
      · simp only [Option.none_or]
    cases g
    · refine ⟨_, rfl, rfl, fun k h => ?_, rfl, rfl⟩
      rw [hw, hk k h, lookup_setPart, lookup_setPart, lookup_setPart, lookup_setPart]
      simp only [Bool.false_eq_true, if_false, Option.none_or]
      refine (hm k _).trans ?_
      simp only [List.lookup_nil, Option.or_none]
      rfl
    · refine ⟨_, rfl, rfl, fun k h => ?_, rfl, rfl⟩
      rw [hw, hk k h, lookup_setPart, lookup_setPart, lookup_setPart, lookup_setPart, lookup_setPart]
      simp only [if_true]
      refine congrArg (Option.or _) ((hm k _).trans ?_)
      simp only [List.lookup_nil, Option.or_none]
      rfl
  | currencySymbol l s =>
    obtain ⟨la, sc, re, rest⟩ := l
    cases sc <;> cases re <;> exact granted f _ _ _ rfl ⟨_, rfl⟩ (by decide) rfl (fun k => by
      simp only [wish, some?, List.cons_append, List.nil_append, get_cons, get_nil, lastSaid, says, Option.bind,
        Option.or_none, Option.none_or, Option.or_assoc]) rfl rfl
  | month s t =>
    cases t <;> exact granted f _ _ _ rfl ⟨_, rfl⟩ (by decide) rfl (fun k => by
      simp only [wish, flag, if_true, Bool.false_eq_true, if_false, List.cons_append, List.nil_append, List.append_nil,
        get_cons, get_nil, ifThen, lastSaid, says, style_text, Option.or_none, Option.none_or, Option.or_assoc]) rfl rfl
  | amPm => exact ⟨_, rfl, rfl, fun _ _ => rfl, rfl, rfl⟩
  | boolean => exact ⟨_, rfl, rfl, fun _ _ => rfl, rfl, rfl⟩
  | textContent => exact ⟨_, rfl, rfl, fun _ _ => rfl, rfl, rfl⟩
  | text s => exact ⟨_, rfl, rfl, fun _ _ => rfl, rfl, rfl⟩
  | _ =>
    exact granted f _ _ _ rfl ⟨_, rfl⟩ (by decide) rfl (fun k => by
      simp only [wish, get_cons, get_nil, lastSaid, says, style_text, calendar_text, Option.or_none, Option.none_or,
        Option.or_assoc]) rfl rfl

/-- Every sequence of the older functions gives one part for each call, in the order of the calls and after the parts
that were there; each part has the element, the attributes and the text that its call asks for and no other, and nothing
else of the format changes. Left out: `min_integer_digits` of `push_fraction`. -/
theorem C118_push_partial (cs : List Push) (f : Format) :
    ∃ ps, pushes cs f = some { f with parts := f.parts ++ ps } ∧ AllGranted cs ps := by
  induction cs generalizing f with
  | nil => exact ⟨[], by simp only [pushes, List.append_nil], .nil⟩
  | cons c cs ih =>
    obtain ⟨p, hp, hg⟩ := push_granted f c
    obtain ⟨ps, hps, ha⟩ := ih { f with parts := f.parts ++ [p] }
    refine ⟨p :: ps, ?_, .cons hg ha⟩
    unfold pushes
    rw [hp]
    refine hps.trans ?_
    simp only [List.append_assoc, List.cons_append, List.nil_append]

/-- Where no fraction is asked for, nothing is lost. -/
theorem C118_push_whole (cs : List Push) (hf : ∀ d md mi mn g, Push.fraction d md mi mn g ∉ cs) (f : Format) :
    ∃ ps, pushes cs f = some { f with parts := f.parts ++ ps } ∧ AllGranted cs ps ∧ ∀ c ∈ cs, lost c = [] := by
  obtain ⟨ps, h1, h2⟩ := C118_push_partial cs f
  refine ⟨ps, h1, h2, fun c hc => ?_⟩
  cases c with
  | fraction d md mi mn g => exact absurd hc (hf _ _ _ _ _)
  | _ => rfl

/-- `push_fraction` loses `min_integer_digits` for all arguments and all formats. -/
theorem C118_fraction_counterexample (f : Format) (d : Int) (md mi mn : Nat) (g : Bool) :
    ∃ p, push f (.fraction d md mi mn g) = some { f with parts := f.parts ++ [p] }
      ∧ p.attr.lookup "number:min-integer-digits".toList = none
      ∧ ¬ Grants [] (wish (.fraction d md mi mn g)) p := by
  have key : ∃ p, push f (.fraction d md mi mn g) = some { f with parts := f.parts ++ [p] }
      ∧ p.attr.lookup "number:min-integer-digits".toList = none := by
    cases g
    · refine ⟨_, rfl, ?_⟩
      rw [lookup_setPart, if_neg (by decide), lookup_setPart, if_neg (by decide), lookup_setPart, if_neg (by decide),
        lookup_setPart, if_neg (by decide)]
      rfl
    · refine ⟨_, rfl, ?_⟩
      rw [lookup_setPart, if_neg (by decide), lookup_setPart, if_neg (by decide), lookup_setPart, if_neg (by decide),
        lookup_setPart, if_neg (by decide), lookup_setPart, if_neg (by decide)]
      rfl
  obtain ⟨p, h1, h2⟩ := key
  refine ⟨p, h1, h2, fun h => ?_⟩
  have := h.attr "number:min-integer-digits".toList (fun _ hb => nomatch hb)
  rw [h2] at this
  have hw : (wish (.fraction d md mi mn g)).get "number:min-integer-digits".toList = some (decNat mi) := by
    cases g
    · simp only [wish, flag, Bool.false_eq_true, if_false, List.nil_append]
      rw [get_cons, get_cons]
      have h1 : one "number:min-numerator-digits" (decNat mn) "number:min-integer-digits".toList = none :=
        if_neg (by decide)
      have h2 : one "number:min-integer-digits" (decNat mi) "number:min-integer-digits".toList = some (decNat mi) :=
        if_pos rfl
      rw [h1, h2]
      rfl
    · simp only [wish, flag, if_true, List.cons_append, List.nil_append]
      rw [get_cons, get_cons, get_cons]
      have h1 : one "number:min-numerator-digits" (decNat mn) "number:min-integer-digits".toList = none :=
        if_neg (by decide)
      have h2 : one "number:min-integer-digits" (decNat mi) "number:min-integer-digits".toList = some (decNat mi) :=
        if_pos rfl
      have h3 : one "number:grouping" "true".toList "number:min-integer-digits".toList = none := if_neg (by decide)
      rw [h1, h2, h3]
      rfl
  rw [hw] at this
  cases this

/-- A case that meets the hypotheses: a date with a week day, on a format that has a part. -/
theorem C118_meets :
    (∀ d md mi mn g, Push.fraction d md mi mn g
      ∉ [Push.dayOfWeek .long .gregorian, .text ", ".toList, .day .short, .month .long true, .year .long])
    ∧ (pushes [.dayOfWeek .long .gregorian, .text ", ".toList, .day .short, .month .long true, .year .long]
        { parts := [⟨.text, [], none, some "on ".toList⟩] }).map
        (fun f => f.parts.map fun p => (p.attr.lookup aStyle, p.attr.lookup aTextual, p.content))
      = some [(none, none, some "on ".toList), (some "long".toList, none, none), (none, none, some ", ".toList),
          (some "short".toList, none, none), (some "long".toList, some "true".toList, none),
          (some "long".toList, none, none)]
    ∧ (pushes [.dayOfWeek .long .gregorian, .text ", ".toList, .day .short, .month .long true, .year .long]
        { parts := [⟨.text, [], none, some "on ".toList⟩] }).map (fun f => f.parts.map Part.type)
      = some [.text, .dayOfWeek, .text, .day, .month, .year] :=
  ⟨by intro d md mi mn g h; simp only [List.mem_cons, reduceCtorEq, List.not_mem_nil, or_self] at h,
    by decide +kernel, rfl⟩

end Verif.Fmt
