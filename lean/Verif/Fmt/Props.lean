import Verif.Fmt.Build
import Verif.Style.FormatProps

/-!
# C82: the locale of a format, C83: the builders of parts, C84: ready-made formats
-/

set_option autoImplicit false

namespace Verif.Fmt

open Codec Book Style
open Book.AttrMap (specSet specClear lookup_set lookup_clear)

theorem lookup_setOpt (m : Attrs) (k j : Str) (o : Option Str) :
    (setOpt m k o).lookup j = if k = j then o else m.lookup j := by
  cases o with
  | some v => exact lookup_set m k v j
  | none => exact lookup_clear m k j

/-! ## C82 -/

namespace Spec

/-- A locale whose subtags the library accepts as they are. -/
def Valid (sub : Subtags) (l : Locale) : Prop :=
  sub.language l.language = some l.language ∧ (∀ s, l.script = some s → sub.script s = some s)
    ∧ ∀ r, l.region = some r → sub.region r = some r

/-- What icu_locale_core does: two or three letters in lower case, four letters in title case, two letters in upper
case or three digits. -/
def icu : Subtags where
  language s := if (s.length = 2 ∨ s.length = 3) ∧ s.all Char.isAlpha then some (s.map Char.toLower) else none
  script s :=
    match s with
    | c :: t => if t.length = 3 ∧ s.all Char.isAlpha then some (c.toUpper :: t.map Char.toLower) else none
    | [] => none
  region s :=
    if s.length = 2 ∧ s.all Char.isAlpha then some (s.map Char.toUpper)
    else if s.length = 3 ∧ s.all Char.isDigit then some s else none

end Spec

open Spec

theorem bind_valid (o : Option Str) (f : Str → Option Str) (h : ∀ s, o = some s → f s = some s) : o.bind f = o := by
  cases o with
  | none => rfl
  | some s => exact h s rfl

theorem locale_set (sub : Subtags) (m : Attrs) (l : Locale) (hl : l ≠ .unknown) (hv : Valid sub l) :
    locale sub (setLocale m l) = some { l with rest := [] } := by
  have e1 : (setLocale m l).lookup aLanguage = some l.language := by
    unfold setLocale
    rw [if_pos hl, lookup_setOpt, if_neg (by decide), lookup_setOpt, if_neg (by decide), lookup_set, if_pos rfl]
  have e2 : (setLocale m l).lookup aCountry = l.region := by
    unfold setLocale
    rw [if_pos hl, lookup_setOpt, if_neg (by decide), lookup_setOpt, if_pos rfl]
  have e3 : (setLocale m l).lookup aScript = l.script := by
    unfold setLocale
    rw [if_pos hl, lookup_setOpt, if_pos rfl]
  unfold locale
  rw [e1]
  simp only
  rw [hv.1, e2, e3, bind_valid _ _ hv.2.1, bind_valid _ _ hv.2.2]

/-- The locale that was set is the one that is read, whatever was there before. -/
theorem C82_roundtrip_partial (sub : Subtags) (m : Attrs) (l : Locale) (hl : l ≠ .unknown) (hr : l.rest = [])
    (hv : Valid sub l) : locale sub (setLocale m l) = some l := by
  rw [locale_set sub m l hl hv, ← hr]

/-- The unknown locale takes the attributes away. -/
theorem C82_unknown (sub : Subtags) (m : Attrs) : locale sub (setLocale m .unknown) = none := by
  have : (setLocale m .unknown).lookup aLanguage = none := by
    unfold setLocale
    rw [if_neg (by simp), lookup_clear, if_neg (by decide), lookup_clear, if_neg (by decide), lookup_clear, if_pos rfl]
  unfold locale
  rw [this]

/-- Nothing else changes. -/
theorem C82_frame (m : Attrs) (l : Locale) (k : Str) (h1 : k ≠ "number:language".toList)
    (h2 : k ≠ "number:country".toList) (h3 : k ≠ "number:script".toList) :
    (setLocale m l).lookup k = m.lookup k := by
  change k ≠ aLanguage at h1
  change k ≠ aCountry at h2
  change k ≠ aScript at h3
  unfold setLocale
  split
  · rw [lookup_setOpt, if_neg (Ne.symm h3), lookup_setOpt, if_neg (Ne.symm h2), lookup_set, if_neg (Ne.symm h1)]
  · rw [lookup_clear, if_neg (Ne.symm h3), lookup_clear, if_neg (Ne.symm h2), lookup_clear, if_neg (Ne.symm h1)]

/-- Variants and extensions of a locale are lost. -/
theorem C82_rest_counterexample (sub : Subtags) (m : Attrs) (l : Locale) (hl : l ≠ .unknown) (hr : l.rest ≠ [])
    (hv : Valid sub l) : locale sub (setLocale m l) ≠ some l := by
  rw [locale_set sub m l hl hv]
  intro h
  exact hr (congrArg Locale.rest (Option.some.inj h)).symm

/-- The locale for the transliteration is stored but never read: what is read is the language and country of the
format, whichever locale was set. -/
theorem C82_transliteration_counterexample (sub : Subtags) (m : Attrs) (l : Locale) :
    transliteration sub (setTransliteration m l) = transliteration sub m
      ∧ transliteration sub (setTransliteration [] l) = none
      ∧ (l ≠ .unknown → (setTransliteration m l).lookup "number:transliteration-language".toList = some l.language
          ∧ (setTransliteration m l).lookup "number:transliteration-country".toList = l.region) := by
  have e : ∀ (m : Attrs) k, k ≠ aTLanguage → k ≠ aTCountry → (setTransliteration m l).lookup k = m.lookup k := by
    intro m k h1 h2
    unfold setTransliteration
    split
    · rw [lookup_setOpt, if_neg (Ne.symm h2), lookup_set, if_neg (Ne.symm h1)]
    · rw [lookup_clear, if_neg (Ne.symm h2), lookup_clear, if_neg (Ne.symm h1)]
  have key : ∀ m, transliteration sub (setTransliteration m l) = transliteration sub m := by
    intro m
    unfold transliteration
    rw [e m aLanguage (by decide) (by decide), e m aCountry (by decide) (by decide)]
  refine ⟨key m, by rw [key]; rfl, fun hl => ?_⟩
  unfold setTransliteration
  rw [if_pos hl]
  exact ⟨by rw [lookup_setOpt, if_neg (by decide), lookup_set, if_pos (by rfl)],
    by rw [lookup_setOpt, if_pos (by rfl)]⟩

/-- A case that meets the hypotheses: Serbian in Cyrillic letters, over another locale. -/
theorem C82_meets : Valid icu ⟨"sr".toList, some "Cyrl".toList, some "RS".toList, []⟩
    ∧ locale icu (setLocale (setLocale [] ⟨"de".toList, none, some "AT".toList, []⟩)
        ⟨"sr".toList, some "Cyrl".toList, some "RS".toList, []⟩)
      = some ⟨"sr".toList, some "Cyrl".toList, some "RS".toList, []⟩ := by
  refine ⟨⟨by decide +kernel, ?_, ?_⟩, by decide +kernel⟩
  · intro s h
    cases h
    decide +kernel
  · intro s h
    cases h
    decide +kernel

/-! ## C83 -/

namespace Spec

/-- One attribute. -/
def one (name : String) (v : Str) (k : Str) : Option Str := if name.toList = k then some v else none

/-- The value that a call announces for an attribute, as documented at the methods. -/
def says : PartOp → Str → Option Str
  | .decimalPlaces n, k => one "number:decimal-places" (decNat n) k
  | .fixedDecimalPlaces n, k =>
    (one "number:min-decimal-places" (decNat n) k).or (one "number:decimal-places" (decNat n) k)
  | .grouping, k => one "number:grouping" "true".toList k
  | .minDecimalPlaces n, k => one "number:min-decimal-places" (decNat n) k
  | .minIntegerDigits n, k => one "number:min-integer-digits" (decNat n) k
  | .displayFactor s, k => one "number:display-factor" s k
  | .decimalReplacement c, k => one "number:decimal-replacement" [c] k
  | .exponentInterval n, k => one "number:exponent-interval" (decNat n) k
  | .forcedExponentSign b, k => one "number:forced-exponent-sign" (if b then "true".toList else "false".toList) k
  | .minExponentDigits n, k => one "number:min-exponent-digits" (decNat n) k
  | .denominator n, k => one "number:denominator-value" (decInt n) k
  | .maxDenominator n, k => one "number:max-denominator-value" (decInt n) k
  | .minDenominatorDigits n, k => one "number:min-denominator-digits" (decNat n) k
  | .minNumeratorDigits n, k => one "number:min-numerator-digits" (decNat n) k
  | .locale l, k =>
    ((l.script.bind fun s => one "number:script" s k).or (l.region.bind fun s => one "number:country" s k)).or
      (one "number:language" l.language k)
  | .longStyle, k => one "number:style" "long".toList k
  | .shortStyle, k => one "number:style" "short".toList k
  | .style s, k => one "number:style" s k
  | .calendar s, k => one "number:calendar" s k
  | .textual, k => one "number:textual" "true".toList k
  | .possessiveForm, k => one "number:possessive-form" "true".toList k
  | _, _ => none

/-- The text that a call announces. -/
def saysText : PartOp → Option Str
  | .embeddedText s _ => some s
  | .fillChar c => some [c]
  | .symbol s => some s
  | .text s => some s
  | _ => none

/-- The position that a call announces. -/
def saysPos : PartOp → Option Int
  | .embeddedText _ pos => some pos
  | _ => none

/-- What the last call says that says anything. -/
def lastSaid {α : Type} (f : PartOp → Option α) : List PartOp → Option α
  | [] => none
  | op :: ops => (lastSaid f ops).or (f op)

/-- A part that is what its builder was told. -/
structure AsTold (t : PartType) (ops : List PartOp) (p : Part) : Prop where
  type : p.type = t
  attr : ∀ k, p.attr.lookup k = lastSaid (fun op => says op k) ops
  content : p.content = lastSaid saysText ops
  position : p.position = lastSaid saysPos ops

end Spec

/-- One call. -/
def StepOk (op : PartOp) (p q : Part) : Prop :=
  q.type = p.type ∧ (∀ k, q.attr.lookup k = (says op k).or (p.attr.lookup k))
    ∧ q.content = (saysText op).or p.content ∧ q.position = (saysPos op).or p.position

theorem lookup_setPart (p : Part) (k v j : Str) :
    (setPart p k v).attr.lookup j = (if k = j then some v else none).or (p.attr.lookup j) := by
  unfold setPart
  rw [lookup_set]
  split <;> rfl

theorem step_set (op : PartOp) (p : Part) (name : String) (v : Str) (h : ∀ k, says op k = one name v k)
    (h1 : saysText op = none) (h2 : saysPos op = none) : StepOk op p (setPart p name.toList v) := by
  refine ⟨rfl, fun k => ?_, by rw [h1]; rfl, by rw [h2]; rfl⟩
  rw [h, lookup_setPart]
  rfl

theorem date_step (op : PartOp) (p q : Part) (h : dateOp op p = some q) : StepOk op p q := by
  cases op <;> simp only [dateOp, Option.some.injEq, reduceCtorEq] at h <;> subst h <;>
    exact step_set _ p _ _ (fun _ => rfl) rfl rfl

theorem time_step (op : PartOp) (p q : Part) (h : timeOp op p = some q) : StepOk op p q := by
  cases op <;> simp only [timeOp, Option.some.injEq, reduceCtorEq] at h <;> subst h <;>
    exact step_set _ p _ _ (fun _ => rfl) rfl rfl

theorem number_step (op : PartOp) (p q : Part) (h : numberOp op p = some q) : StepOk op p q := by
  by_cases hf : ∃ n, op = .fixedDecimalPlaces n
  · obtain ⟨n, rfl⟩ := hf
    simp only [numberOp, Option.some.injEq] at h
    subst h
    refine ⟨rfl, fun k => ?_, rfl, rfl⟩
    rw [lookup_setPart, lookup_setPart, ← Option.or_assoc]
    rfl
  · cases op <;> simp only [numberOp, Option.some.injEq, reduceCtorEq] at h <;> subst h <;>
      first
      | exact step_set _ p _ _ (fun _ => rfl) rfl rfl
      | exact absurd ⟨_, rfl⟩ hf
      | exact ⟨rfl, fun k => by simp [says], rfl, rfl⟩

theorem scientific_step (op : PartOp) (p q : Part) (h : scientificOp op p = some q) : StepOk op p q := by
  cases op <;> simp only [scientificOp, Option.some.injEq, reduceCtorEq] at h <;> subst h <;>
    exact step_set _ p _ _ (fun _ => rfl) rfl rfl

theorem fraction_step (op : PartOp) (p q : Part) (hn : ∀ n, op ≠ .minIntegerDigits n)
    (h : fractionOp op p = some q) : StepOk op p q := by
  cases op <;> simp only [fractionOp, Option.some.injEq, reduceCtorEq] at h <;>
    first
    | exact absurd rfl (hn _)
    | (subst h; exact step_set _ p _ _ (fun _ => rfl) rfl rfl)

theorem locale_step (l : Locale) (p : Part) : StepOk (.locale l) p (partLocale p l) := by
  obtain ⟨la, sc, re, rest⟩ := l
  cases sc <;> cases re <;>
    refine ⟨rfl, fun k => ?_, rfl, rfl⟩ <;>
    simp only [partLocale, setSome, lookup_setPart, says, one, Option.bind, Option.or_assoc, Option.none_or] <;> rfl

theorem part_step (t : PartType) (op : PartOp) (p q : Part)
    (hn : t = .fraction → ∀ n, op ≠ .minIntegerDigits n) (h : partOp t op p = some q) : StepOk op p q := by
  cases t with
  | number => exact number_step op p q h
  | fillCharacter =>
    cases op <;> simp only [partOp, Option.some.injEq, reduceCtorEq] at h
    subst h
    exact ⟨rfl, fun k => by simp [says], rfl, rfl⟩
  | scientificNumber => exact scientific_step op p q h
  | fraction => exact fraction_step op p q (hn rfl) h
  | currencySymbol =>
    cases op <;> simp only [partOp, Option.some.injEq, reduceCtorEq] at h <;> subst h
    · exact locale_step _ p
    · exact ⟨rfl, fun k => by simp [says], rfl, rfl⟩
  | month =>
    cases op <;> first
      | exact date_step _ p q h
      | (simp only [partOp, Option.some.injEq] at h; subst h; exact step_set _ p _ _ (fun _ => rfl) rfl rfl)
  | weekOfYear =>
    cases op <;> simp only [partOp, Option.some.injEq, reduceCtorEq] at h
    subst h
    exact step_set _ p _ _ (fun _ => rfl) rfl rfl
  | seconds =>
    cases op <;> first
      | exact time_step _ p q h
      | (simp only [partOp, Option.some.injEq] at h; subst h; exact step_set _ p _ _ (fun _ => rfl) rfl rfl)
  | text =>
    cases op <;> simp only [partOp, Option.some.injEq, reduceCtorEq] at h
    subst h
    exact ⟨rfl, fun k => by simp [says], rfl, rfl⟩
  | day => exact date_step op p q h
  | year => exact date_step op p q h
  | era => exact date_step op p q h
  | dayOfWeek => exact date_step op p q h
  | quarter => exact date_step op p q h
  | hours => exact time_step op p q h
  | minutes => exact time_step op p q h
  | amPm => cases h
  | boolean => cases h
  | textContent => cases h

theorem parts_steps (t : PartType) (ops : List PartOp) :
    ∀ p q, (t = .fraction → ∀ n, PartOp.minIntegerDigits n ∉ ops) → partOps t ops p = some q →
      q.type = p.type ∧ (∀ k, q.attr.lookup k = (lastSaid (fun op => says op k) ops).or (p.attr.lookup k))
        ∧ q.content = (lastSaid saysText ops).or p.content ∧ q.position = (lastSaid saysPos ops).or p.position := by
  induction ops with
  | nil =>
    intro p q _ h
    cases h
    exact ⟨rfl, fun _ => rfl, rfl, rfl⟩
  | cons op ops ih =>
    intro p q hn h
    cases h1 : partOp t op p with
    | none => rw [partOps, h1] at h; cases h
    | some r =>
      rw [partOps, h1] at h
      obtain ⟨a1, a2, a3, a4⟩ := part_step t op p r
        (fun ht n he => hn ht n (by rw [he]; exact List.mem_cons_self)) h1
      obtain ⟨b1, b2, b3, b4⟩ := ih r q (fun ht n hm => hn ht n (List.mem_cons_of_mem _ hm)) h
      refine ⟨b1.trans a1, fun k => ?_, ?_, ?_⟩
      · rw [b2, a2, lastSaid, Option.or_assoc]
      · rw [b3, a3, lastSaid, Option.or_assoc]
      · rw [b4, a4, lastSaid, Option.or_assoc]

/-- Every builder does what it is told: the part comes last, the other parts stay, and each attribute, the text and the
position of the part have the value that was last asked for, or are absent. Left out: `min_integer_digits` of a
fraction. -/
theorem C83_builders_partial (f g : Format) (t : PartType) (ops : List PartOp) (h : build f t ops = some g)
    (hn : t = .fraction → ∀ n, PartOp.minIntegerDigits n ∉ ops) :
    ∃ p, g = { f with parts := f.parts ++ [p] } ∧ AsTold t ops p := by
  unfold build at h
  cases hp : partOps t ops ⟨t, [], none, none⟩ with
  | none => rw [hp] at h; cases h
  | some p =>
    rw [hp] at h
    cases h
    obtain ⟨h1, h2, h3, h4⟩ := parts_steps t ops _ p hn hp
    refine ⟨p, rfl, h1, fun k => ?_, ?_, ?_⟩
    · rw [h2]; exact Option.or_none
    · rw [h3]; exact Option.or_none
    · rw [h4]; exact Option.or_none

/-- `min_integer_digits` of a fraction does something else: no fraction ever has the attribute for its integer digits,
and the call overwrites the digits of the numerator. -/
theorem C83_fraction_counterexample :
    (∀ ops p, partOps .fraction ops ⟨.fraction, [], none, none⟩ = some p →
      p.attr.lookup "number:min-integer-digits".toList = none)
    ∧ ∀ f n m g, build f .fraction [.minNumeratorDigits n, .minIntegerDigits m] = some g →
        ∃ p, g = { f with parts := f.parts ++ [p] }
          ∧ p.attr.lookup "number:min-numerator-digits".toList = some (decNat m) := by
  refine ⟨?_, ?_⟩
  · have key : ∀ ops (p q : Part), p.attr.lookup "number:min-integer-digits".toList = none →
        partOps .fraction ops p = some q → q.attr.lookup "number:min-integer-digits".toList = none := by
      intro ops
      induction ops with
      | nil => intro p q h hq; cases hq; exact h
      | cons op ops ih =>
        intro p q h hq
        cases h1 : partOp .fraction op p with
        | none => rw [partOps, h1] at hq; cases hq
        | some r =>
          rw [partOps, h1] at hq
          refine ih r q ?_ hq
          cases op <;> simp only [partOp, fractionOp, Option.some.injEq, reduceCtorEq] at h1 <;> subst h1 <;>
            rw [lookup_setPart, h, if_neg (by decide)] <;> rfl
    intro ops p h
    exact key ops _ p rfl h
  · intro f n m g h
    simp only [build, partOps, partOp, fractionOp, Option.bind, Option.map, Option.some.injEq] at h
    subst h
    exact ⟨_, rfl, by rw [lookup_setPart, if_pos (by decide)]; rfl⟩

/-- A case that meets the hypotheses. -/
theorem C83_meets : ∃ g, build {} .number [.decimalPlaces 1, .grouping, .fixedDecimalPlaces 3, .embeddedText "-".toList 2]
      = some g
    ∧ g.parts.map (fun p => (p.attr.lookup aDecimal, p.content, p.position))
      = [(some "3".toList, some "-".toList, some 2)] := ⟨_, rfl, by decide +kernel⟩

end Verif.Fmt
