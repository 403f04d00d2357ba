import Verif.Enum.Params
import Verif.Valid.Model
import Verif.Config.ViewProps
import Verif.Xml.Doc

/-!
# C50: enumerated attributes survive write and read
-/

set_option autoImplicit false

namespace Verif.Enum

open Xml Xml.Spec Codec Width

namespace Spec

/-- The text of each value is read as that value. -/
def Back {α : Type} (text : α → Str) (parse : Str → Option α) : Prop := ∀ a, parse (text a) = some a

/-- Different values have different texts, and no text has characters with a meaning in XML. -/
def Distinct {α : Type} (text : α → Str) : Prop := (∀ a b, text a = text b → a = b) ∧ ∀ a, Plain (text a)

end Spec

open Spec

/-- **Enumerations the reader parses**: the value comes back. -/
theorem C50_parsed_partial :
    Back visibilityText parseVisibility
    ∧ Back LinkShow.text LinkShow.parse
    ∧ Back LinkType.text LinkType.parse
    ∧ Back FormatSource.text FormatSource.parse
    ∧ Back TransliterationStyle.text TransliterationStyle.parse
    ∧ Back MasterPageUsage.text MasterPageUsage.parse
    ∧ Back Valid.MessageType.text Valid.MessageType.parse
    ∧ (∀ m : Config.SplitMode, Config.SplitMode.ofCode m.code = .ok m)
    ∧ (∀ b : Bool, parseBool (fmtBool b) = some b)
    ∧ (∀ d : Valid.Display, d ≠ .noDisplay → Valid.Display.parse d.text = some d) := by
  refine ⟨?_, ?_, ?_, ?_, ?_, ?_, ?_, Config.ofCode_code, ?_, ?_⟩
  · intro a; cases a <;> decide
  · intro a; cases a <;> decide
  · intro a; cases a <;> decide
  · intro a; cases a <;> decide
  · intro a; cases a <;> decide
  · intro a; cases a <;> decide
  · intro a; cases a <;> decide
  · intro a; cases a <;> decide
  · intro a; cases a <;> decide

/-- The text of no actuate value is one that is read: reading such a value is an error. -/
theorem C50_actuate_counterexample : ∀ a : Actuate, Actuate.parse a.text = none := by
  intro a; cases a <;> decide

/-- A validation list that is not displayed is written with a text that is not read. -/
theorem C50_display_counterexample : Valid.Display.parse (Valid.Display.text .noDisplay) = none := by decide

/-- **Within a file**: an element with the text of a value as an attribute, written with or without escaping, is read as
an element with one attribute of that name, whose value is the text. -/
theorem C50_file {α : Type} (text : α → Str) (hp : ∀ a, Plain (text a)) (lb esc : Bool) (n k : Str) (hn : Name n)
    (hk : Name k) (a : α) : ∃ ts v, tokenize (output lb (docCalls (.elem false n [(esc, k, text a)] []))) = some ts
      ∧ events ts = .start n [(k, v)] :: .end n :: nlEv lb ∧ unescape v = some (text a) := by
  have hok : DocOk (.elem false n [(esc, k, text a)] []) := by
    refine ⟨hn, ?_, trivial⟩
    intro x hx
    obtain rfl := List.mem_singleton.1 hx
    exact ⟨hk, fun _ => hp a⟩
  obtain ⟨ts, h1, h2⟩ := read_element lb false n [(esc, k, text a)] [] hok
  refine ⟨ts, rawVal (esc, k, text a), h1, h2, ?_⟩
  cases esc with
  | true => exact unescape_escape _
  | false => exact unescape_plain _ (hp a)

/-! ## Enumerations the reader keeps as texts

The attribute that is read has the text that was written (C51), and the text says which value it was. -/

theorem distinct_FormatSource : Distinct FormatSource.text := by
  constructor
  · intro a b; cases a <;> cases b <;> decide
  · intro a; cases a <;> decide

theorem distinct_TransliterationStyle : Distinct TransliterationStyle.text := by
  constructor
  · intro a b; cases a <;> cases b <;> decide
  · intro a; cases a <;> decide

theorem distinct_FontFamilyGeneric : Distinct FontFamilyGeneric.text := by
  constructor
  · intro a b; cases a <;> cases b <;> decide
  · intro a; cases a <;> decide

theorem distinct_FontPitch : Distinct FontPitch.text := by
  constructor
  · intro a b; cases a <;> cases b <;> decide
  · intro a; cases a <;> decide

theorem distinct_MasterPageUsage : Distinct MasterPageUsage.text := by
  constructor
  · intro a b; cases a <;> cases b <;> decide
  · intro a; cases a <;> decide

theorem distinct_TabStopType : Distinct TabStopType.text := by
  constructor
  · intro a b; cases a <;> cases b <;> decide
  · intro a; cases a <;> decide

theorem distinct_FontStretch : Distinct FontStretch.text := by
  constructor
  · intro a b; cases a <;> cases b <;> decide
  · intro a; cases a <;> decide

theorem distinct_Border : Distinct Border.text := by
  constructor
  · intro a b; cases a <;> cases b <;> decide
  · intro a; cases a <;> decide

theorem distinct_PageBreak : Distinct PageBreak.text := by
  constructor
  · intro a b; cases a <;> cases b <;> decide
  · intro a; cases a <;> decide

theorem distinct_FontStyle : Distinct FontStyle.text := by
  constructor
  · intro a b; cases a <;> cases b <;> decide
  · intro a; cases a <;> decide

theorem distinct_FontVariant : Distinct FontVariant.text := by
  constructor
  · intro a b; cases a <;> cases b <;> decide
  · intro a; cases a <;> decide

theorem distinct_FontWeight : Distinct FontWeight.text := by
  constructor
  · intro a b; cases a <;> cases b <;> decide
  · intro a; cases a <;> decide

theorem distinct_Hyphenation : Distinct Hyphenation.text := by
  constructor
  · intro a b; cases a <;> cases b <;> decide
  · intro a; cases a <;> decide

theorem distinct_TextKeep : Distinct TextKeep.text := by
  constructor
  · intro a b; cases a <;> cases b <;> decide
  · intro a; cases a <;> decide

theorem distinct_TextAlign : Distinct TextAlign.text := by
  constructor
  · intro a b; cases a <;> cases b <;> decide
  · intro a; cases a <;> decide

theorem distinct_TextAlignLast : Distinct TextAlignLast.text := by
  constructor
  · intro a b; cases a <;> cases b <;> decide
  · intro a; cases a <;> decide

theorem distinct_TextTransform : Distinct TextTransform.text := by
  constructor
  · intro a b; cases a <;> cases b <;> decide
  · intro a; cases a <;> decide

theorem distinct_WrapOption : Distinct WrapOption.text := by
  constructor
  · intro a b; cases a <;> cases b <;> decide
  · intro a; cases a <;> decide

theorem distinct_CellProtect : Distinct CellProtect.text := by
  constructor
  · intro a b; cases a <;> cases b <;> decide
  · intro a; cases a <;> decide

theorem distinct_WritingDirection : Distinct WritingDirection.text := by
  constructor
  · intro a b; cases a <;> cases b <;> decide
  · intro a; cases a <;> decide

theorem distinct_TextRelief : Distinct TextRelief.text := by
  constructor
  · intro a b; cases a <;> cases b <;> decide
  · intro a; cases a <;> decide

theorem distinct_LineBreak : Distinct LineBreak.text := by
  constructor
  · intro a b; cases a <;> cases b <;> decide
  · intro a; cases a <;> decide

theorem distinct_PrintContent : Distinct PrintContent.text := by
  constructor
  · intro a b; cases a <;> cases b <;> decide
  · intro a; cases a <;> decide

theorem distinct_PrintOrder : Distinct PrintOrder.text := by
  constructor
  · intro a b; cases a <;> cases b <;> decide
  · intro a; cases a <;> decide

theorem distinct_PrintOrientation : Distinct PrintOrientation.text := by
  constructor
  · intro a b; cases a <;> cases b <;> decide
  · intro a; cases a <;> decide

theorem distinct_PunctuationWrap : Distinct PunctuationWrap.text := by
  constructor
  · intro a b; cases a <;> cases b <;> decide
  · intro a; cases a <;> decide

theorem distinct_RotationAlign : Distinct RotationAlign.text := by
  constructor
  · intro a b; cases a <;> cases b <;> decide
  · intro a; cases a <;> decide

theorem distinct_PrintCentering : Distinct PrintCentering.text := by
  constructor
  · intro a b; cases a <;> cases b <;> decide
  · intro a; cases a <;> decide

theorem distinct_TextAlignSource : Distinct TextAlignSource.text := by
  constructor
  · intro a b; cases a <;> cases b <;> decide
  · intro a; cases a <;> decide

theorem distinct_TextAutoSpace : Distinct TextAutoSpace.text := by
  constructor
  · intro a b; cases a <;> cases b <;> decide
  · intro a; cases a <;> decide

theorem distinct_TextCombine : Distinct TextCombine.text := by
  constructor
  · intro a b; cases a <;> cases b <;> decide
  · intro a; cases a <;> decide

theorem distinct_TextEmphasize : Distinct TextEmphasize.text := by
  constructor
  · intro a b; cases a <;> cases b <;> decide
  · intro a; cases a <;> decide

theorem distinct_TextEmphasizePosition : Distinct TextEmphasizePosition.text := by
  constructor
  · intro a b; cases a <;> cases b <;> decide
  · intro a; cases a <;> decide

theorem distinct_LineMode : Distinct LineMode.text := by
  constructor
  · intro a b; cases a <;> cases b <;> decide
  · intro a; cases a <;> decide

theorem distinct_LineStyle : Distinct LineStyle.text := by
  constructor
  · intro a b; cases a <;> cases b <;> decide
  · intro a; cases a <;> decide

theorem distinct_LineType : Distinct LineType.text := by
  constructor
  · intro a b; cases a <;> cases b <;> decide
  · intro a; cases a <;> decide

theorem distinct_RotationScale : Distinct RotationScale.text := by
  constructor
  · intro a b; cases a <;> cases b <;> decide
  · intro a; cases a <;> decide

theorem distinct_ParaAlignVertical : Distinct ParaAlignVertical.text := by
  constructor
  · intro a b; cases a <;> cases b <;> decide
  · intro a; cases a <;> decide

theorem distinct_CellAlignVertical : Distinct CellAlignVertical.text := by
  constructor
  · intro a b; cases a <;> cases b <;> decide
  · intro a; cases a <;> decide

theorem distinct_WritingMode : Distinct WritingMode.text := by
  constructor
  · intro a b; cases a <;> cases b <;> decide
  · intro a; cases a <;> decide

theorem distinct_TableAlign : Distinct TableAlign.text := by
  constructor
  · intro a b; cases a <;> cases b <;> decide
  · intro a; cases a <;> decide

theorem distinct_TableBorderModel : Distinct TableBorderModel.text := by
  constructor
  · intro a b; cases a <;> cases b <;> decide
  · intro a; cases a <;> decide

theorem distinct_TextCondition : Distinct TextCondition.text := by
  constructor
  · intro a b; cases a <;> cases b <;> decide
  · intro a; cases a <;> decide

theorem distinct_TextDisplay : Distinct TextDisplay.text := by
  constructor
  · intro a b; cases a <;> cases b <;> decide
  · intro a; cases a <;> decide

theorem distinct_FormatNumberStyle : Distinct FormatNumberStyle.text := by
  constructor
  · intro a b; cases a <;> cases b <;> decide
  · intro a; cases a <;> decide

theorem distinct_FormatCalendarStyle : Distinct FormatCalendarStyle.text := by
  constructor
  · intro a b; cases a <;> cases b <;> decide
  · intro a; cases a <;> decide

theorem distinct_Actuate : Distinct Actuate.text := by
  constructor
  · intro a b; cases a <;> cases b <;> decide
  · intro a; cases a <;> decide

theorem distinct_LinkShow : Distinct LinkShow.text := by
  constructor
  · intro a b; cases a <;> cases b <;> decide
  · intro a; cases a <;> decide

theorem distinct_LinkType : Distinct LinkType.text := by
  constructor
  · intro a b; cases a <;> cases b <;> decide
  · intro a; cases a <;> decide

theorem distinct_Visibility : Distinct visibilityText := by
  constructor
  · intro a b; cases a <;> cases b <;> decide
  · intro a; cases a <;> decide

theorem distinct_Message : Distinct Valid.MessageType.text := by
  constructor
  · intro a b; cases a <;> cases b <;> decide
  · intro a; cases a <;> decide

theorem distinct_Display : Distinct Valid.Display.text := by
  constructor
  · intro a b; cases a <;> cases b <;> decide
  · intro a; cases a <;> decide

/-- **The text of an enumerated value determines the value**, and needs no escaping. -/
theorem C50_distinct :
    Distinct FormatSource.text
    ∧ Distinct TransliterationStyle.text
    ∧ Distinct FontFamilyGeneric.text
    ∧ Distinct FontPitch.text
    ∧ Distinct MasterPageUsage.text
    ∧ Distinct TabStopType.text
    ∧ Distinct FontStretch.text
    ∧ Distinct Border.text
    ∧ Distinct PageBreak.text
    ∧ Distinct FontStyle.text
    ∧ Distinct FontVariant.text
    ∧ Distinct FontWeight.text
    ∧ Distinct Hyphenation.text
    ∧ Distinct TextKeep.text
    ∧ Distinct TextAlign.text
    ∧ Distinct TextAlignLast.text
    ∧ Distinct TextTransform.text
    ∧ Distinct WrapOption.text
    ∧ Distinct CellProtect.text
    ∧ Distinct WritingDirection.text
    ∧ Distinct TextRelief.text
    ∧ Distinct LineBreak.text
    ∧ Distinct PrintContent.text
    ∧ Distinct PrintOrder.text
    ∧ Distinct PrintOrientation.text
    ∧ Distinct PunctuationWrap.text
    ∧ Distinct RotationAlign.text
    ∧ Distinct PrintCentering.text
    ∧ Distinct TextAlignSource.text
    ∧ Distinct TextAutoSpace.text
    ∧ Distinct TextCombine.text
    ∧ Distinct TextEmphasize.text
    ∧ Distinct TextEmphasizePosition.text
    ∧ Distinct LineMode.text
    ∧ Distinct LineStyle.text
    ∧ Distinct LineType.text
    ∧ Distinct RotationScale.text
    ∧ Distinct ParaAlignVertical.text
    ∧ Distinct CellAlignVertical.text
    ∧ Distinct WritingMode.text
    ∧ Distinct TableAlign.text
    ∧ Distinct TableBorderModel.text
    ∧ Distinct TextCondition.text
    ∧ Distinct TextDisplay.text
    ∧ Distinct FormatNumberStyle.text
    ∧ Distinct FormatCalendarStyle.text
    ∧ Distinct Actuate.text
    ∧ Distinct LinkShow.text
    ∧ Distinct LinkType.text
    ∧ Distinct visibilityText
    ∧ Distinct Valid.MessageType.text
    ∧ Distinct Valid.Display.text :=
  ⟨distinct_FormatSource, distinct_TransliterationStyle, distinct_FontFamilyGeneric, distinct_FontPitch,
    distinct_MasterPageUsage, distinct_TabStopType, distinct_FontStretch, distinct_Border, distinct_PageBreak,
    distinct_FontStyle, distinct_FontVariant, distinct_FontWeight, distinct_Hyphenation, distinct_TextKeep,
    distinct_TextAlign, distinct_TextAlignLast, distinct_TextTransform, distinct_WrapOption,
    distinct_CellProtect, distinct_WritingDirection, distinct_TextRelief, distinct_LineBreak,
    distinct_PrintContent, distinct_PrintOrder, distinct_PrintOrientation, distinct_PunctuationWrap,
    distinct_RotationAlign, distinct_PrintCentering, distinct_TextAlignSource, distinct_TextAutoSpace,
    distinct_TextCombine, distinct_TextEmphasize, distinct_TextEmphasizePosition, distinct_LineMode,
    distinct_LineStyle, distinct_LineType, distinct_RotationScale, distinct_ParaAlignVertical,
    distinct_CellAlignVertical, distinct_WritingMode, distinct_TableAlign, distinct_TableBorderModel,
    distinct_TextCondition, distinct_TextDisplay, distinct_FormatNumberStyle, distinct_FormatCalendarStyle,
    distinct_Actuate, distinct_LinkShow, distinct_LinkType, distinct_Visibility, distinct_Message,
    distinct_Display⟩

/-! ## Values with arguments -/

namespace Spec

/-- The characters of a number. -/
def NumChar (c : Char) : Prop := Refs.isDigit c = true ∨ c = '.' ∨ c = '-'

instance (c : Char) : Decidable (NumChar c) := by unfold NumChar; infer_instance

/-- The text of a finite `f64`: digits, the point and the sign, and it is read as that number. -/
def Finite (f : Floats) (v : F64) : Prop :=
  f.fmt v ≠ [] ∧ (∀ c ∈ f.fmt v, NumChar c) ∧ f.parse (f.fmt v) = some v

/-- The numbers in a value. -/
def Length.number : Length → List F64
  | .default => []
  | .cm v | .mm v | .inch v | .pt v | .pc v | .em v => [v]

def Angle.number : Angle → List F64
  | .deg v | .grad v | .rad v => [v]

def Percent.number : Percent → List F64
  | .percent v => [v]

def LengthPercent.number : LengthPercent → List F64
  | .length l => Length.number l
  | .percent p => Percent.number p

def LetterSpacing.number : LetterSpacing → List F64
  | .normal => []
  | .length l => Length.number l

def LineHeight.number : LineHeight → List F64
  | .normal => []
  | .length l => Length.number l
  | .percent p => Percent.number p

def GlyphOrientation.number : GlyphOrientation → List F64
  | .angle a => Angle.number a
  | _ => []

def RelativeScale.number : RelativeScale → List F64
  | .percent p => Percent.number p
  | _ => []

def LineWidth.number : LineWidth → List F64
  | .percent p => Percent.number p
  | .length l => Length.number l
  | _ => []

def TextPosition.number : TextPosition → List F64
  | .percent p => Percent.number p
  | _ => []

/-- Different values with finite numbers have different texts. -/
def DistinctFor {α : Type} (f : Floats) (numbers : α → List F64) (text : α → Str) : Prop :=
  ∀ a b, (∀ v ∈ numbers a, Finite f v) → (∀ v ∈ numbers b, Finite f v) → text a = text b → a = b

end Spec

/-- What a text is made of. -/
inductive Part where
  | word (s : Str) | num (v : F64) (unit : Str) | int (n : Nat)

/-- The text. -/
def Part.text (f : Floats) : Part → Str
  | .word s => s
  | .num v u => f.fmt v ++ u
  | .int n => decNat n

/-- The number in front and the rest. -/
def Part.split (f : Floats) : Part → Str × Str
  | .word s => ([], s)
  | .num v u => (f.fmt v, u)
  | .int n => (decNat n, [])

/-- Does not start as a number does. -/
def NoNum (s : Str) : Prop := ∀ c t, s = c :: t → ¬ NumChar c

/-- A part whose number can be told from the rest. -/
def Part.Ok (f : Floats) : Part → Prop
  | .word s => NoNum s
  | .num v u => Finite f v ∧ NoNum u ∧ u ≠ []
  | .int _ => True

theorem split_unique (a b s t : Str) (ha : ∀ c ∈ a, NumChar c) (hb : ∀ c ∈ b, NumChar c) (hs : NoNum s) (ht : NoNum t)
    (h : a ++ s = b ++ t) : a = b ∧ s = t := by
  induction a generalizing b with
  | nil =>
    cases b with
    | nil => exact ⟨rfl, h⟩
    | cons d b => exact absurd (hb d List.mem_cons_self) (hs d (b ++ t) h)
  | cons c a ih =>
    cases b with
    | nil => exact absurd (ha c List.mem_cons_self) (ht c (a ++ s) h.symm)
    | cons d b =>
      injection h with h1 h2
      obtain ⟨h3, h4⟩ := ih b (fun c hc => ha c (List.mem_cons_of_mem _ hc)) (fun c hc => hb c (List.mem_cons_of_mem _ hc)) h2
      exact ⟨by rw [h1, h3], h4⟩

theorem split_text (f : Floats) (p : Part) : p.text f = (p.split f).1 ++ (p.split f).2 := by
  cases p <;> simp [Part.text, Part.split]

theorem split_num (f : Floats) (p : Part) (h : p.Ok f) : (∀ c ∈ (p.split f).1, NumChar c) ∧ NoNum (p.split f).2 := by
  cases p with
  | word s => exact ⟨(by intro c hc; cases hc), h⟩
  | num v u => exact ⟨h.1.2.1, h.2.1⟩
  | int n => exact ⟨fun c hc => .inl (decNat_digits n c hc), by intro c t h; cases h⟩

theorem part_inj (f : Floats) (p q : Part) (hp : p.Ok f) (hq : q.Ok f) (h : p.text f = q.text f) : p = q := by
  rw [split_text, split_text] at h
  obtain ⟨h1, h2⟩ := split_unique _ _ _ _ (split_num f p hp).1 (split_num f q hq).1 (split_num f p hp).2 (split_num f q hq).2 h
  cases p with
  | word s =>
    cases q with
    | word t => exact congrArg Part.word h2
    | num v u => exact absurd h1.symm hq.1.1
    | int n => exact absurd h1.symm (decNat_ne n)
  | num v u =>
    cases q with
    | word t => exact absurd h1 hp.1.1
    | num w t =>
      have hv : f.parse (f.fmt v) = some v := hp.1.2.2
      have h1 : f.fmt v = f.fmt w := h1
      have h2 : u = t := h2
      rw [h1, hq.1.2.2] at hv
      injection hv with hv
      rw [hv, h2]
    | int n => exact absurd h2 hp.2.2
  | int n =>
    cases q with
    | word t => exact absurd h1 (decNat_ne n)
    | num w t => exact absurd h2.symm hq.2.2
    | int m => exact congrArg Part.int (decNat_inj h1)

instance (s : Str) : Decidable (NoNum s) :=
  match s with
  | [] => .isTrue (by intro c t h; cases h)
  | c :: t => if h : NumChar c then .isFalse (fun hn => hn c t rfl h)
    else .isTrue (by intro d u hd; injection hd with h1 _; rw [← h1]; exact h)

def lengthPart : Length → Part
  | .default => .word []
  | .cm v => .num v "cm".toList
  | .mm v => .num v "mm".toList
  | .inch v => .num v "in".toList
  | .pt v => .num v "pt".toList
  | .pc v => .num v "pc".toList
  | .em v => .num v "em".toList

def anglePart : Angle → Part
  | .deg v => .num v "deg".toList
  | .grad v => .num v "grad".toList
  | .rad v => .num v "rad".toList

def percentPart : Percent → Part
  | .percent v => .num v "%".toList

theorem lengthPart_text (f : Floats) (l : Length) : (lengthPart l).text f = fmtLength f l := by cases l <;> rfl

theorem anglePart_text (f : Floats) (l : Angle) : (anglePart l).text f = l.text f := by cases l <;> rfl

theorem percentPart_text (f : Floats) (l : Percent) : (percentPart l).text f = l.text f := by cases l; rfl

theorem lengthPart_ok (f : Floats) (l : Length) (h : ∀ v ∈ Spec.Length.number l, Finite f v) : (lengthPart l).Ok f := by
  cases l with
  | default => show NoNum []; decide
  | _ v => exact ⟨h v (List.mem_singleton_self v), by decide, by decide⟩

theorem anglePart_ok (f : Floats) (l : Angle) (h : ∀ v ∈ Spec.Angle.number l, Finite f v) : (anglePart l).Ok f := by
  cases l with
  | _ v => exact ⟨h v (List.mem_singleton_self v), by decide, by decide⟩

theorem percentPart_ok (f : Floats) (l : Percent) (h : ∀ v ∈ Spec.Percent.number l, Finite f v) : (percentPart l).Ok f := by
  cases l with
  | _ v => exact ⟨h v (List.mem_singleton_self v), by decide, by decide⟩

theorem lengthPart_inj (a b : Length) (h : lengthPart a = lengthPart b) : a = b := by
  cases a <;> cases b <;> simp [lengthPart] at h ⊢ <;> exact h

theorem anglePart_inj (a b : Angle) (h : anglePart a = anglePart b) : a = b := by
  cases a <;> cases b <;> simp [anglePart] at h ⊢ <;> exact h

theorem percentPart_inj (a b : Percent) (h : percentPart a = percentPart b) : a = b := by
  cases a; cases b; simp [percentPart] at h ⊢; exact h

theorem length_percent (a : Length) (b : Percent) : lengthPart a ≠ percentPart b := by
  cases a <;> cases b <;> simp [lengthPart, percentPart]

theorem length_word (a : Length) (s : Str) (hs : s ≠ []) : lengthPart a ≠ .word s := by
  cases a with
  | default => intro h; injection h with h; exact hs h.symm
  | _ v => intro h; cases h

/-- A kind of values through its parts. -/
theorem distinct_parts {α : Type} (f : Floats) (numbers : α → List F64) (text : α → Str) (part : α → Part)
    (ht : ∀ a, (part a).text f = text a) (hok : ∀ a, (∀ v ∈ numbers a, Finite f v) → (part a).Ok f)
    (hinj : ∀ a b, part a = part b → a = b) : DistinctFor f numbers text := by
  intro a b ha hb h
  rw [← ht a, ← ht b] at h
  exact hinj a b (part_inj f _ _ (hok a ha) (hok b hb) h)

def lengthPercentPart : LengthPercent → Part
  | .length l => lengthPart l
  | .percent p => percentPart p

def letterPart : LetterSpacing → Part
  | .normal => .word "normal".toList
  | .length l => lengthPart l

def linePart : LineHeight → Part
  | .normal => .word "normal".toList
  | .length l => lengthPart l
  | .percent p => percentPart p

def glyphPart : GlyphOrientation → Part
  | .auto => .word "auto".toList
  | .zero => .int 0
  | .angle a => anglePart a

def scalePart : RelativeScale → Part
  | .scale => .word "scale".toList
  | .scaleMin => .word "scale-min".toList
  | .percent p => percentPart p

def positionPart : TextPosition → Part
  | .sub => .word "sub".toList
  | .super => .word "super".toList
  | .percent p => percentPart p

def widthPart : LineWidth → Part
  | .auto => .word "auto".toList
  | .bold => .word "bold".toList
  | .percent p => percentPart p
  | .int n => .int n
  | .length l => lengthPart l
  | .normal => .word "normal".toList
  | .dash => .word "dash".toList
  | .thin => .word "thin".toList
  | .medium => .word "medium".toList
  | .thick => .word "thick".toList

/-- The width with these parts. -/
def widthOf : Part → Option LineWidth
  | .word s =>
    if s = "auto".toList then some .auto else if s = "bold".toList then some .bold
    else if s = "normal".toList then some .normal else if s = "dash".toList then some .dash
    else if s = "thin".toList then some .thin else if s = "medium".toList then some .medium
    else if s = "thick".toList then some .thick else some (.length .default)
  | .num v u =>
    if u = "%".toList then some (.percent (.percent v)) else if u = "cm".toList then some (.length (.cm v))
    else if u = "mm".toList then some (.length (.mm v)) else if u = "in".toList then some (.length (.inch v))
    else if u = "pt".toList then some (.length (.pt v)) else if u = "pc".toList then some (.length (.pc v))
    else some (.length (.em v))
  | .int n => some (.int n)

theorem widthOf_part (a : LineWidth) : widthOf (widthPart a) = some a := by
  cases a with
  | percent p => cases p; rfl
  | length l => cases l <;> rfl
  | _ => rfl

def ladderPart : HyphenationLadderCount → Part
  | .noLimit => .word "no_limit".toList
  | .count n => .int n

def pagePart : PageNumber → Part
  | .auto => .word "auto".toList
  | .number n => .int n

/-- **The text of a value with finite numbers determines the value**, for all the kinds of values of styles. -/
theorem C50_arguments (f : Floats) :
    DistinctFor f Spec.Length.number (fmtLength f)
    ∧ DistinctFor f Spec.Angle.number (Angle.text f)
    ∧ DistinctFor f Spec.Percent.number (Percent.text f)
    ∧ DistinctFor f Spec.LengthPercent.number (LengthPercent.text f)
    ∧ DistinctFor f Spec.LetterSpacing.number (LetterSpacing.text f)
    ∧ DistinctFor f Spec.LineHeight.number (LineHeight.text f)
    ∧ DistinctFor f Spec.GlyphOrientation.number (GlyphOrientation.text f)
    ∧ DistinctFor f Spec.RelativeScale.number (RelativeScale.text f)
    ∧ DistinctFor f Spec.LineWidth.number (LineWidth.text f)
    ∧ DistinctFor f Spec.TextPosition.number (TextPosition.text f)
    ∧ (∀ a b : HyphenationLadderCount, a.text = b.text → a = b)
    ∧ (∀ a b : PageNumber, a.text = b.text → a = b) := by
  refine ⟨?_, ?_, ?_, ?_, ?_, ?_, ?_, ?_, ?_, ?_, ?_, ?_⟩
  · exact distinct_parts f _ _ lengthPart (lengthPart_text f) (lengthPart_ok f) lengthPart_inj
  · exact distinct_parts f _ _ anglePart (anglePart_text f) (anglePart_ok f) anglePart_inj
  · exact distinct_parts f _ _ percentPart (percentPart_text f) (percentPart_ok f) percentPart_inj
  · refine distinct_parts f _ _ lengthPercentPart ?_ ?_ ?_
    · intro a; cases a with
      | length l => exact lengthPart_text f l
      | percent p => exact percentPart_text f p
    · intro a h; cases a with
      | length l => exact lengthPart_ok f l h
      | percent p => exact percentPart_ok f p h
    · intro a b h
      cases a <;> cases b
      · exact congrArg _ (lengthPart_inj _ _ h)
      · exact absurd h (length_percent _ _)
      · exact absurd h.symm (length_percent _ _)
      · exact congrArg _ (percentPart_inj _ _ h)
  · refine distinct_parts f _ _ letterPart ?_ ?_ ?_
    · intro a; cases a with
      | normal => rfl
      | length l => exact lengthPart_text f l
    · intro a h; cases a with
      | normal => show NoNum _; decide
      | length l => exact lengthPart_ok f l h
    · intro a b h
      cases a <;> cases b
      · rfl
      · exact absurd h.symm (length_word _ _ (by decide))
      · exact absurd h (length_word _ _ (by decide))
      · exact congrArg _ (lengthPart_inj _ _ h)
  · refine distinct_parts f _ _ linePart ?_ ?_ ?_
    · intro a; cases a with
      | normal => rfl
      | length l => exact lengthPart_text f l
      | percent p => exact percentPart_text f p
    · intro a h; cases a with
      | normal => show NoNum _; decide
      | length l => exact lengthPart_ok f l h
      | percent p => exact percentPart_ok f p h
    · intro a b h
      cases a <;> cases b
      · rfl
      · exact absurd h.symm (length_word _ _ (by decide))
      · rename_i p; cases p; cases h
      · exact absurd h (length_word _ _ (by decide))
      · exact congrArg _ (lengthPart_inj _ _ h)
      · exact absurd h (length_percent _ _)
      · rename_i p; cases p; cases h
      · exact absurd h.symm (length_percent _ _)
      · exact congrArg _ (percentPart_inj _ _ h)
  · refine distinct_parts f _ _ glyphPart ?_ ?_ ?_
    · intro a; cases a with
      | auto => rfl
      | zero => rfl
      | angle a => exact anglePart_text f a
    · intro a h; cases a with
      | auto => show NoNum _; decide
      | zero => trivial
      | angle a => exact anglePart_ok f a h
    · intro a b h
      cases a <;> cases b
      · rfl
      · cases h
      · rename_i p; cases p <;> cases h
      · cases h
      · rfl
      · rename_i p; cases p <;> cases h
      · rename_i p; cases p <;> cases h
      · rename_i p; cases p <;> cases h
      · exact congrArg _ (anglePart_inj _ _ h)
  · refine distinct_parts f _ _ scalePart ?_ ?_ ?_
    · intro a; cases a with
      | percent p => exact percentPart_text f p
      | _ => rfl
    · intro a h; cases a with
      | percent p => exact percentPart_ok f p h
      | _ => show NoNum _; decide
    · intro a b h
      cases a <;> cases b <;> first
        | rfl
        | exact congrArg _ (percentPart_inj _ _ h)
        | (rename_i p; cases p; cases h)
        | (exfalso; injection h with h; revert h; decide)
  · refine distinct_parts f _ _ widthPart ?_ ?_ ?_
    · intro a; cases a with
      | percent p => exact percentPart_text f p
      | length l => exact lengthPart_text f l
      | _ => rfl
    · intro a h; cases a with
      | percent p => exact percentPart_ok f p h
      | length l => exact lengthPart_ok f l h
      | int n => trivial
      | _ => show NoNum _; decide
    · intro a b h
      have hb := widthOf_part b
      rw [← h, widthOf_part a] at hb
      exact Option.some.inj hb
  · refine distinct_parts f _ _ positionPart ?_ ?_ ?_
    · intro a; cases a with
      | percent p => exact percentPart_text f p
      | _ => rfl
    · intro a h; cases a with
      | percent p => exact percentPart_ok f p h
      | _ => show NoNum _; decide
    · intro a b h
      cases a <;> cases b <;> first
        | rfl
        | exact congrArg _ (percentPart_inj _ _ h)
        | (rename_i p; cases p; cases h)
        | (exfalso; injection h with h; revert h; decide)
  · intro a b h
    refine distinct_parts f (fun _ => []) HyphenationLadderCount.text ladderPart ?_ ?_ ?_ a b (by simp) (by simp) h
    · intro a; cases a <;> rfl
    · intro a _; cases a with
      | noLimit => show NoNum _; decide
      | count n => trivial
    · intro a b h
      cases a <;> cases b <;> first | rfl | cases h | skip
      rfl
  · intro a b h
    refine distinct_parts f (fun _ => []) PageNumber.text pagePart ?_ ?_ ?_ a b (by simp) (by simp) h
    · intro a; cases a <;> rfl
    · intro a _; cases a with
      | auto => show NoNum _; decide
      | number n => trivial
    · intro a b h
      cases a <;> cases b <;> first | rfl | cases h | skip
      rfl

/-- A page number format given as a text can have the same text as one of the others. -/
theorem C50_number_format_counterexample :
    StyleNumFormat.fmt (.text "1".toList) = StyleNumFormat.fmt .number ∧ StyleNumFormat.text "1".toList ≠ .number :=
  ⟨rfl, by intro h; cases h⟩

/-- Without a text the formats are told apart. -/
theorem C50_number_format (a b : StyleNumFormat) (ha : ∀ s, a ≠ .text s) (hb : ∀ s, b ≠ .text s) (h : a.fmt = b.fmt) :
    a = b := by
  cases a <;> cases b <;> first
    | rfl
    | exact absurd rfl (ha _)
    | exact absurd rfl (hb _)
    | (exfalso; revert h; decide)

/-- Doubles as their bits: their texts are numbers that are read again. -/
def asBits : Floats := ⟨fun v => decNat v.bits.toNat, fun s => some ⟨BitVec.ofNat 64 (Refs.decVal s)⟩⟩

/-- There are finite numbers, so that the values of `C50_arguments` exist. -/
theorem C50_arguments_meets (v : F64) : Finite asBits v := by
  refine ⟨decNat_ne _, fun c hc => .inl (decNat_digits _ c hc), ?_⟩
  show some (⟨BitVec.ofNat 64 (Refs.decVal (decNat v.bits.toNat))⟩ : F64) = some v
  rw [decVal_decNat, BitVec.ofNat_toNat, BitVec.setWidth_eq]

end Verif.Enum
