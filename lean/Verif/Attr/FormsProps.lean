import Verif.Attr.Forms
import Verif.Attr.OdfProps

/-!
# C89: values have the form that ODF gives them

`Odf.forms` (in `Attr/Forms.lean`) lists the forms, `Odf.Regular` says which arguments have one at all.
-/

set_option autoImplicit false

namespace Verif.Attr

open Xml Codec Book Width Enum Fmt
open Style (Attrs)

/-! ## Single values -/

theorem digits_of (s : Str) (h0 : s ≠ []) (h : ∀ c ∈ s, Refs.isDigit c = true) : Odf.Digits s := by
  refine ⟨h0, fun c hc => ?_⟩
  have := h c hc
  rw [Refs.isDigit, Bool.and_eq_true, decide_eq_true_eq, decide_eq_true_eq] at this
  exact this

theorem dec_ok (n : Nat) : Odf.Digits (decNat n) := digits_of _ (decNat_ne n) (decNat_digits n)

theorem bool_ok (b : Bool) : Odf.Form.bool.accepts (fmtBool b) := by
  cases b
  · exact .inr rfl
  · exact .inl rfl

theorem hex_ok (n : Nat) (h : n < 16) : Odf.HexDigit (Spec.digit n) := by
  have : ∀ i : Fin 16, Odf.HexDigit (Spec.digit i.val) := by unfold Odf.HexDigit; decide +kernel
  exact this ⟨n, h⟩

theorem color_ok (c : Rgb) : Odf.Form.color.accepts (Spec.color c) := by
  have hb : ∀ x : BitVec 8, x.toNat / 16 < 16 ∧ x.toNat % 16 < 16 := fun x => by have := x.isLt; omega
  refine ⟨_, _, _, _, _, _, rfl, fun x hx => ?_⟩
  simp only [List.mem_cons, List.not_mem_nil, or_false] at hx
  rcases hx with rfl | rfl | rfl | rfl | rfl | rfl
  · exact hex_ok _ (hb _).1
  · exact hex_ok _ (hb _).2
  · exact hex_ok _ (hb _).1
  · exact hex_ok _ (hb _).2
  · exact hex_ok _ (hb _).1
  · exact hex_ok _ (hb _).2

theorem signed_ok {fl : Floats} (h : Odf.Prints fl) (v : F64) (hv : Odf.Finite v) : Odf.Signed (fl.fmt v) := by
  obtain ⟨m, hm, h1, h2⟩ := h v hv
  by_cases hs : Odf.NoSign v
  · exact .inl (h1 hs ▸ hm)
  · exact .inr ⟨m, h2 hs, hm⟩

theorem unsigned_ok {fl : Floats} (h : Odf.Prints fl) (v : F64) (hv : Odf.Finite v) (hs : Odf.NoSign v) :
    Odf.Unsigned (fl.fmt v) := by
  obtain ⟨m, hm, h1, -⟩ := h v hv
  exact h1 hs ▸ hm

theorem len_ok {fl : Floats} (h : Odf.Prints fl) (v : Length) (hv : Odf.Len v) : Odf.Form.length.accepts (fmtLength fl v) := by
  cases v with
  | default => exact hv.elim
  | em v => exact hv.elim
  | cm v => exact ⟨_, "cm", rfl, signed_ok h v hv, by simp [Odf.units]⟩
  | mm v => exact ⟨_, "mm", rfl, signed_ok h v hv, by simp [Odf.units]⟩
  | inch v => exact ⟨_, "in", rfl, signed_ok h v hv, by simp [Odf.units]⟩
  | pt v => exact ⟨_, "pt", rfl, signed_ok h v hv, by simp [Odf.units]⟩
  | pc v => exact ⟨_, "pc", rfl, signed_ok h v hv, by simp [Odf.units]⟩

theorem size_ok {fl : Floats} (h : Odf.Prints fl) (v : Length) (hv : Odf.Size v) : Odf.Form.size.accepts (fmtLength fl v) := by
  cases v with
  | default => exact hv.elim
  | em v => exact hv.elim
  | cm v => exact ⟨_, "cm", rfl, unsigned_ok h v hv.1 hv.2, by simp [Odf.units]⟩
  | mm v => exact ⟨_, "mm", rfl, unsigned_ok h v hv.1 hv.2, by simp [Odf.units]⟩
  | inch v => exact ⟨_, "in", rfl, unsigned_ok h v hv.1 hv.2, by simp [Odf.units]⟩
  | pt v => exact ⟨_, "pt", rfl, unsigned_ok h v hv.1 hv.2, by simp [Odf.units]⟩
  | pc v => exact ⟨_, "pc", rfl, unsigned_ok h v hv.1 hv.2, by simp [Odf.units]⟩

theorem pct_ok {fl : Floats} (h : Odf.Prints fl) (v : Percent) (hv : Odf.Pct v) : Odf.Form.percent.accepts (v.text fl) := by
  cases v with
  | percent v => exact ⟨_, rfl, signed_ok h v hv⟩

theorem lenPct_ok {fl : Floats} (h : Odf.Prints fl) (v : LengthPercent) (hv : Odf.LenPct v) :
    (Odf.Form.alt .length .percent).accepts (v.text fl) := by
  cases v with
  | length v => exact .inl (len_ok h v hv)
  | percent v => exact .inr (pct_ok h v hv)

theorem sizePct_ok {fl : Floats} (h : Odf.Prints fl) (v : LengthPercent) (hv : Odf.SizePct v) :
    (Odf.Form.alt .size .percent).accepts (v.text fl) := by
  cases v with
  | length v => exact .inl (size_ok h v hv)
  | percent v => exact .inr (pct_ok h v hv)

theorem borderStyle_ok (b : Border) : Odf.borderStyles.accepts b.text := by
  cases b <;> exact ⟨_, by simp, rfl⟩

theorem border_ok {fl : Floats} (h : Odf.Prints fl) (w : Length) (b : Border) (c : Rgb) (hw : Odf.Size w) :
    (Odf.Form.two .size (.two Odf.borderStyles .color)).accepts (Spec.words [fmtLength fl w, b.text, Spec.color c]) :=
  ⟨_, _, rfl, size_ok h w hw, _, _, rfl, borderStyle_ok b, color_ok c⟩

theorem widths_ok {fl : Floats} (h : Odf.Prints fl) (a b c : Length) (hw : Odf.Size a ∧ Odf.Size b ∧ Odf.Size c) :
    (Odf.Form.two .size (.two .size .size)).accepts (Spec.words [fmtLength fl a, fmtLength fl b, fmtLength fl c]) :=
  ⟨_, _, rfl, size_ok h a hw.1, _, _, rfl, size_ok h b hw.2.1, size_ok h c hw.2.2⟩

theorem shadow_ok {fl : Floats} (h : Odf.Prints fl) (x y : Length) (b : Option Length) (c : Rgb)
    (hw : Odf.Len x ∧ Odf.Len y ∧ ∀ z, b = some z → Odf.Size z) :
    (Odf.Form.two .color (.two .length (.alt .length (.two .length .size)))).accepts
      (Spec.words (Spec.color c :: fmtLength fl x :: fmtLength fl y :: b.toList.map (fmtLength fl))) := by
  cases b with
  | none => exact ⟨_, _, rfl, color_ok c, _, _, rfl, len_ok h x hw.1, .inl (len_ok h y hw.2.1)⟩
  | some b =>
    exact ⟨_, _, rfl, color_ok c, _, _, rfl, len_ok h x hw.1, .inr ⟨_, _, rfl, len_ok h y hw.2.1, size_ok h b (hw.2.2 b rfl)⟩⟩

theorem lineHeight_ok {fl : Floats} (h : Odf.Prints fl) (x : LineHeight)
    (hv : match x with | .normal => True | .length v => Odf.Size v | .percent v => Odf.Pct v) :
    (Odf.Form.alt (.oneOf ["normal"]) (.alt .size .percent)).accepts (x.text fl) := by
  cases x with
  | normal => exact .inl ⟨_, by simp, rfl⟩
  | length v => exact .inr (.inl (size_ok h v hv))
  | percent v => exact .inr (.inr (pct_ok h v hv))

theorem spacing_ok {fl : Floats} (h : Odf.Prints fl) (x : LetterSpacing)
    (hv : match x with | .normal => True | .length v => Odf.Len v) :
    (Odf.Form.alt (.oneOf ["normal"]) .length).accepts (x.text fl) := by
  cases x with
  | normal => exact .inl ⟨_, by simp, rfl⟩
  | length v => exact .inr (len_ok h v hv)

theorem lineWidth_ok {fl : Floats} (h : Odf.Prints fl) (x : LineWidth)
    (hv : match x with | .dash => False | .percent v => Odf.Pct v | .length v => Odf.Size v | _ => True) :
    Odf.lineWidths.accepts (x.text fl) := by
  cases x with
  | dash => exact hv.elim
  | percent v => exact .inr (.inr (.inl (pct_ok h v hv)))
  | length v => exact .inr (.inr (.inr (size_ok h v hv)))
  | int n => exact .inr (.inl (dec_ok n))
  | _ => exact .inl ⟨_, by simp, rfl⟩

theorem relSize_ok {fl : Floats} (h : Odf.Prints fl) (x : LengthPercent)
    (hv : match x with | .length v => Odf.Len v | .percent _ => False) : Odf.Form.length.accepts (x.text fl) := by
  cases x with
  | length v => exact len_ok h v hv
  | percent v => exact hv.elim

theorem scale_ok {fl : Floats} (h : Odf.Prints fl) (x : RelativeScale)
    (hv : match x with | .percent v => Odf.Pct v | _ => True) :
    (Odf.Form.alt (.oneOf ["scale", "scale-min"]) .percent).accepts (x.text fl) := by
  cases x with
  | percent v => exact .inr (pct_ok h v hv)
  | _ => exact .inl ⟨_, by simp, rfl⟩

theorem ladder_ok (x : HyphenationLadderCount) (h : x ≠ .noLimit) :
    (Odf.Form.alt (.oneOf ["no-limit"]) .nat).accepts x.text := by
  cases x with
  | noLimit => exact absurd rfl h
  | count n => exact .inr (dec_ok n)

theorem pageNumber_ok (x : PageNumber) : (Odf.Form.alt (.oneOf ["auto"]) .nat).accepts x.text := by
  cases x with
  | auto => exact .inl ⟨_, by simp, rfl⟩
  | number n => exact .inr (dec_ok n)

theorem glyph_ok (fl : Floats) (x : GlyphOrientation) (h : match x with | .angle _ => False | _ => True) :
    (Odf.Form.oneOf ["auto", "0", "0deg", "0rad", "0grad"]).accepts (x.text fl) := by
  cases x with
  | angle a => exact h.elim
  | _ => exact ⟨_, by simp, rfl⟩

theorem angle_ok {fl : Floats} (h : Odf.Prints fl) (x : Angle)
    (hv : match x with | .deg v | .grad v | .rad v => Odf.Finite v) : Odf.Form.angle.accepts (x.text fl) := by
  cases x with
  | deg v => exact .inr ⟨_, "deg", rfl, signed_ok h v hv, by simp⟩
  | grad v => exact .inr ⟨_, "grad", rfl, signed_ok h v hv, by simp⟩
  | rad v => exact .inr ⟨_, "rad", rfl, signed_ok h v hv, by simp⟩

theorem pos_ok {fl : Floats} (h : Odf.Prints fl) (x : TextPosition)
    (hv : match x with | .percent v => Odf.Pct v | _ => True) : Odf.position.accepts (x.text fl) := by
  cases x with
  | percent v => exact .inr (pct_ok h v hv)
  | _ => exact .inl ⟨_, by simp, rfl⟩

theorem position_ok {fl : Floats} (h : Odf.Prints fl) (x : TextPosition) (s : Option Percent)
    (hv : (match x with | .percent v => Odf.Pct v | _ => True) ∧ ∀ z, s = some z → Odf.Pct z) :
    (Odf.Form.alt Odf.position (.two Odf.position .percent)).accepts (Spec.words (x.text fl :: s.toList.map (Percent.text fl))) := by
  cases s with
  | none => exact .inl (pos_ok h x hv.1)
  | some s => exact .inr ⟨_, _, rfl, pos_ok h x hv.1, pct_ok h s (hv.2 s rfl)⟩

theorem textAlign_ok (x : TextAlign) (h : x ≠ .inside ∧ x ≠ .outside) :
    (Odf.Form.oneOf ["start", "end", "left", "right", "center", "justify"]).accepts x.text := by
  cases x with
  | inside => exact absurd rfl h.1
  | outside => exact absurd rfl h.2
  | _ => exact ⟨_, by simp, rfl⟩

theorem protect_ok (x : CellProtect) :
    (Odf.Form.alt (.oneOf ["none", "hidden-and-protected"]) (.list ["protected", "formula-hidden"])).accepts x.text := by
  cases x with
  | none => exact .inl ⟨_, by simp, rfl⟩
  | hiddenAndProtected => exact .inl ⟨_, by simp, rfl⟩
  | formulaHidden => exact .inr (.last "formula-hidden" (by simp))
  | «protected» => exact .inr (.last "protected" (by simp))
  | protectedFormulaHidden =>
    exact .inr (Odf.Listed.more "protected" (by simp) _ (.last "formula-hidden" (by simp)))

theorem print_ok (l : List PrintContent) :
    (Odf.Form.list ["headers", "grid", "annotations", "objects", "charts", "drawings", "formulas", "zero-values"]).accepts
      (Spec.eachSpaced (l.map PrintContent.text)) := by
  induction l with
  | nil => exact .none
  | cons x l ih => cases x <;> exact .more _ (by simp) _ ih

theorem emphasize_ok (x : TextEmphasize) (y : TextEmphasizePosition) :
    (Odf.Form.alt (.oneOf ["none"]) (.two (.oneOf ["none", "accent", "dot", "circle", "disc"]) (.oneOf ["above", "below"]))).accepts
      (Spec.words [x.text, y.text]) :=
  .inr ⟨_, _, rfl, by cases x <;> exact ⟨_, by simp, rfl⟩, by cases y <;> exact ⟨_, by simp, rfl⟩⟩

/-! ## Calls -/

/-- All values that a call asks for have a form of the standard. -/
def Has (fl : Floats) (k : Kind) (p : Part) (c : Call) : Prop :=
  ∀ a v, (a, some v) ∈ Spec.asks fl c → ∃ f, Odf.HasForm k p a f ∧ f.accepts v

abbrev HasL (k : Kind) (p : Part) (l : List (String × Option Str)) : Prop :=
  ∀ a v, (a, some v) ∈ l → ∃ f, Odf.HasForm k p a f ∧ f.accepts v

theorem one_form {k : Kind} {p : Part} {key : String} {w : Str} {f : Odf.Form} (i : Nat)
    (hi : Odf.forms[i]? = some (key, f)) (h : f.accepts w) : HasL k p [(key, some w)] := by
  intro a v hm
  have he := List.mem_singleton.1 hm
  injection he with h1 h2
  injection h2 with h2
  subst h1 h2
  exact ⟨f, .inl (List.mem_of_getElem? hi), h⟩

theorem none_form {k : Kind} {p : Part} {key : String} : HasL k p [(key, none)] := by
  intro a v hm
  have he := List.mem_singleton.1 hm
  injection he with h1 h2
  cases h2

theorem cons_form {k : Kind} {p : Part} {x : String × Option Str} {l : List (String × Option Str)} (h1 : HasL k p [x])
    (h2 : HasL k p l) : HasL k p (x :: l) := by
  intro a v hm
  rcases List.mem_cons.1 hm with he | hm
  · exact h1 a v (he ▸ List.mem_singleton.2 rfl)
  · exact h2 a v hm

theorem opt_form {k : Kind} {p : Part} {key : String} (i : Nat) (hi : Odf.forms[i]? = some (key, .any)) (w : Option Str) :
    HasL k p [(key, w)] := by
  cases w with
  | none => exact none_form
  | some w => exact one_form i hi trivial

theorem tags_form {k : Kind} {p : Part} {x y z : String} (i j n : Nat) (hi : Odf.forms[i]? = some (x, .any))
    (hj : Odf.forms[j]? = some (y, .any)) (hn : Odf.forms[n]? = some (z, .any)) (l : Locale) :
    HasL k p (Spec.tags x y z l) := by
  unfold Spec.tags
  split
  · exact cons_form none_form (cons_form none_form none_form)
  · exact cons_form (opt_form i hi _) (cons_form (opt_form j hj _) (opt_form n hn _))

theorem font_form {k : Kind} {p : Part} {x y z : String} {w : Str} {f : Odf.Form} (i j n : Nat)
    (hi : Odf.forms[i]? = some (x, f)) (hj : Odf.forms[j]? = some (y, Odf.fontWeights))
    (hn : Odf.forms[n]? = some (z, Odf.fontStyles)) (h : f.accepts w) (b it : Bool) :
    HasL k p ((x, some w) :: (Spec.boldIf y b ++ Spec.italicIf z it)) := by
  have hb : HasL k p [(y, some "bold".toList)] := one_form j hj ⟨_, by simp, rfl⟩
  have hs : HasL k p [(z, some "italic".toList)] := one_form n hn ⟨_, by simp, rfl⟩
  have hw : HasL k p [(x, some w)] := one_form i hi h
  cases b <;> cases it
  · exact hw
  · exact cons_form hw hs
  · exact cons_form hw hb
  · exact cons_form hw (cons_form hb hs)

theorem special_form {k : Kind} {p : Part} {key : String} {w : Str} {f : Odf.Form} (i : Nat)
    (hi : Odf.special[i]? = some (k, p, key, f)) (h : f.accepts w) : HasL k p [(key, some w)] := by
  intro a v hm
  have he := List.mem_singleton.1 hm
  injection he with h1 h2
  injection h2 with h2
  subst h1 h2
  exact ⟨f, .inr (List.mem_of_getElem? hi), h⟩

theorem vertical_cell (fl : Floats) (k : Kind) (p : Part) (x : CellAlignVertical) (hp : k.part (.vertical_align x) = some p) :
    Has fl k p (.vertical_align x) := by
  have hx : (Odf.Form.oneOf ["top", "middle", "bottom", "automatic"]).accepts x.text := by
    cases x <;> exact ⟨_, by simp, rfl⟩
  have hp : k.macros.lookup .style_vertical_align = some p := hp
  have hk : k = .cell ∧ p = .own := by revert hp; cases k <;> cases p <;> decide +kernel
  obtain ⟨rfl, rfl⟩ := hk
  exact special_form 0 rfl hx

theorem vertical_para (fl : Floats) (k : Kind) (p : Part) (x : ParaAlignVertical)
    (hp : k.part (.vertical_align_para x) = some p) : Has fl k p (.vertical_align_para x) := by
  have hx : (Odf.Form.oneOf ["top", "middle", "bottom", "auto", "baseline"]).accepts x.text := by
    cases x <;> exact ⟨_, by simp, rfl⟩
  have hp : k.macros.lookup .style_vertical_align_para = some p := hp
  have hk : (k = .cell ∨ k = .paragraph ∨ k = .graphic) ∧ p = .paragraph := by
    revert hp; cases k <;> cases p <;> decide +kernel
  obtain ⟨rfl | rfl | rfl, rfl⟩ := hk
  · exact special_form 1 rfl hx
  · exact special_form 2 rfl hx
  · exact special_form 3 rfl hx

theorem rel_width_form {fl : Floats} (h : Odf.Prints fl) (k : Kind) (p : Part) (x : RelativeScale)
    (hr : match x with | .percent v => Odf.Pct v | _ => k = .frame) (hp : k.part (.rel_width x) = some p) :
    Has fl k p (.rel_width x) := by
  have hp : k.macros.lookup .style_rel_width = some p := hp
  have hk : (k = .table ∧ p = .own) ∨ k = .frame ∧ p = .attr := by revert hp; cases k <;> cases p <;> decide +kernel
  rcases hk with ⟨rfl, rfl⟩ | ⟨rfl, rfl⟩
  · cases x with
    | percent v => exact special_form 4 rfl (pct_ok h v hr)
    | scale => cases hr
    | scaleMin => cases hr
  · exact special_form 5 rfl (scale_ok h x (by cases x <;> first | exact hr | trivial))

theorem col_form {fl : Floats} (h : Odf.Prints fl) {k : Kind} {p : Part} (x : Length) (hr : x = .default ∨ Odf.Size x) :
    Has fl k p (.col_width x) := by
  change HasL k p [("style:column-width", if x = .default then none else some (fmtLength fl x))]
  by_cases hx : x = .default
  · rw [if_pos hx]; exact none_form
  · rw [if_neg hx]
    exact one_form 72 rfl (size_ok h x (hr.resolve_left hx))

theorem enum_WrapOption (x : WrapOption) : (.oneOf ["wrap", "no-wrap"] : Odf.Form).accepts x.text := by
  cases x <;> exact ⟨_, by simp, rfl⟩

theorem enum_PageBreak (x : PageBreak) : (.oneOf ["auto", "column", "page"] : Odf.Form).accepts x.text := by
  cases x <;> exact ⟨_, by simp, rfl⟩

theorem enum_Hyphenation (x : Hyphenation) : (.oneOf ["auto", "page"] : Odf.Form).accepts x.text := by
  cases x <;> exact ⟨_, by simp, rfl⟩

theorem enum_TextKeep (x : TextKeep) : (.oneOf ["auto", "always"] : Odf.Form).accepts x.text := by
  cases x <;> exact ⟨_, by simp, rfl⟩

theorem enum_TextAlignLast (x : TextAlignLast) : (.oneOf ["start", "center", "justify"] : Odf.Form).accepts x.text := by
  cases x <;> exact ⟨_, by simp, rfl⟩

theorem enum_FontStyle (x : FontStyle) : (Odf.fontStyles : Odf.Form).accepts x.text := by
  cases x <;> exact ⟨_, by simp, rfl⟩

theorem enum_FontWeight (x : FontWeight) : (Odf.fontWeights : Odf.Form).accepts x.text := by
  cases x <;> exact ⟨_, by simp, rfl⟩

theorem enum_FontVariant (x : FontVariant) : (.oneOf ["normal", "small-caps"] : Odf.Form).accepts x.text := by
  cases x <;> exact ⟨_, by simp, rfl⟩

theorem enum_TextTransform (x : TextTransform) : (.oneOf ["none", "lowercase", "uppercase", "capitalize"] : Odf.Form).accepts x.text := by
  cases x <;> exact ⟨_, by simp, rfl⟩

theorem enum_WritingDirection (x : WritingDirection) : (.oneOf ["ltr", "ttb"] : Odf.Form).accepts x.text := by
  cases x <;> exact ⟨_, by simp, rfl⟩

theorem enum_RotationAlign (x : RotationAlign) : (.oneOf ["none", "bottom", "top", "center"] : Odf.Form).accepts x.text := by
  cases x <;> exact ⟨_, by simp, rfl⟩

theorem enum_RotationScale (x : RotationScale) : (.oneOf ["fixed", "line-height"] : Odf.Form).accepts x.text := by
  cases x <;> exact ⟨_, by simp, rfl⟩

theorem enum_TextAlignSource (x : TextAlignSource) : (.oneOf ["fix", "value-type"] : Odf.Form).accepts x.text := by
  cases x <;> exact ⟨_, by simp, rfl⟩

theorem enum_LineBreak (x : LineBreak) : (.oneOf ["normal", "strict"] : Odf.Form).accepts x.text := by
  cases x <;> exact ⟨_, by simp, rfl⟩

theorem enum_PunctuationWrap (x : PunctuationWrap) : (.oneOf ["simple", "hanging"] : Odf.Form).accepts x.text := by
  cases x <;> exact ⟨_, by simp, rfl⟩

theorem enum_TextAutoSpace (x : TextAutoSpace) : (.oneOf ["none", "ideograph-alpha"] : Odf.Form).accepts x.text := by
  cases x <;> exact ⟨_, by simp, rfl⟩

theorem enum_WritingMode (x : WritingMode) : (.oneOf ["lr-tb", "rl-tb", "tb-rl", "tb-lr", "lr", "rl", "tb", "page"] : Odf.Form).accepts x.text := by
  cases x <;> exact ⟨_, by simp, rfl⟩

theorem enum_TextRelief (x : TextRelief) : (.oneOf ["none", "embossed", "engraved"] : Odf.Form).accepts x.text := by
  cases x <;> exact ⟨_, by simp, rfl⟩

theorem enum_TextCombine (x : TextCombine) : (.oneOf ["none", "letters", "lines"] : Odf.Form).accepts x.text := by
  cases x <;> exact ⟨_, by simp, rfl⟩

theorem enum_LineMode (x : LineMode) : (.oneOf ["continuous", "skip-white-space"] : Odf.Form).accepts x.text := by
  cases x <;> exact ⟨_, by simp, rfl⟩

theorem enum_LineStyle (x : LineStyle) : (Odf.lineStyles : Odf.Form).accepts x.text := by
  cases x <;> exact ⟨_, by simp, rfl⟩

theorem enum_LineType (x : LineType) : (.oneOf ["none", "single", "double"] : Odf.Form).accepts x.text := by
  cases x <;> exact ⟨_, by simp, rfl⟩

theorem enum_FontFamilyGeneric (x : FontFamilyGeneric) : (.oneOf ["roman", "swiss", "modern", "decorative", "script", "system"] : Odf.Form).accepts x.text := by
  cases x <;> exact ⟨_, by simp, rfl⟩

theorem enum_FontPitch (x : FontPitch) : (.oneOf ["fixed", "variable"] : Odf.Form).accepts x.text := by
  cases x <;> exact ⟨_, by simp, rfl⟩

theorem enum_PrintOrientation (x : PrintOrientation) : (.oneOf ["landscape", "portrait"] : Odf.Form).accepts x.text := by
  cases x <;> exact ⟨_, by simp, rfl⟩

theorem enum_PrintOrder (x : PrintOrder) : (.oneOf ["ltr", "ttb"] : Odf.Form).accepts x.text := by
  cases x <;> exact ⟨_, by simp, rfl⟩

theorem enum_PrintCentering (x : PrintCentering) : (.oneOf ["none", "horizontal", "vertical", "both"] : Odf.Form).accepts x.text := by
  cases x <;> exact ⟨_, by simp, rfl⟩

theorem enum_TabStopType (x : TabStopType) : (.oneOf ["left", "center", "right", "char"] : Odf.Form).accepts x.text := by
  cases x <;> exact ⟨_, by simp, rfl⟩

theorem enum_FontStretch (x : FontStretch) : (.oneOf ["normal", "ultra-condensed", "extra-condensed", "condensed", "semi-condensed", "semi-expanded", "expanded", "extra-expanded", "ultra-expanded"] : Odf.Form).accepts x.text := by
  cases x <;> exact ⟨_, by simp, rfl⟩

theorem enum_TableAlign (x : TableAlign) : (.oneOf ["left", "center", "right", "margins"] : Odf.Form).accepts x.text := by
  cases x <;> exact ⟨_, by simp, rfl⟩

theorem enum_TableBorderModel (x : TableBorderModel) : (.oneOf ["collapsing", "separating"] : Odf.Form).accepts x.text := by
  cases x <;> exact ⟨_, by simp, rfl⟩

theorem enum_TextCondition (x : TextCondition) : (.oneOf ["none"] : Odf.Form).accepts x.text := by
  cases x <;> exact ⟨_, by simp, rfl⟩

theorem enum_TextDisplay (x : TextDisplay) : (.oneOf ["true", "none", "condition"] : Odf.Form).accepts x.text := by
  cases x <;> exact ⟨_, by simp, rfl⟩

theorem asks_form {fl : Floats} (hfl : Odf.Prints fl) (k : Kind) (c : Call) (p : Part) (hp : k.part c = some p)
    (hr : Odf.Regular fl k c) : Has fl k p c := by
  cases c with
  | draw_caption_id x0 => exact one_form 0 rfl trivial
  | draw_name x0 => exact one_form 10 rfl trivial
  | draw_class_names x0 => exact one_form 3 rfl trivial
  | draw_corner_radius x0 => exact hr.elim
  | draw_id x0 => exact one_form 7 rfl trivial
  | draw_layer x0 => exact one_form 8 rfl trivial
  | draw_style_name x0 => exact one_form 11 rfl trivial
  | draw_text_style_name x0 => exact one_form 12 rfl trivial
  | draw_transform x0 => exact one_form 13 rfl trivial
  | draw_z_index x0 => exact one_form 14 rfl (dec_ok _)
  | draw_caption_point_x x0 => exact one_form 1 rfl (len_ok hfl _ hr)
  | draw_caption_point_y x0 => exact one_form 2 rfl (len_ok hfl _ hr)
  | draw_copy_of x0 => exact one_form 4 rfl trivial
  | draw_filter_name x0 => exact one_form 6 rfl trivial
  | draw_mime_type x0 => exact one_form 9 rfl trivial
  | background_color x0 => exact one_form 15 rfl (.inr (color_ok _))
  | border x0 x1 x2 => exact one_form 16 rfl (border_ok hfl _ _ _ hr)
  | border_bottom x0 x1 x2 => exact one_form 17 rfl (border_ok hfl _ _ _ hr)
  | border_left x0 x1 x2 => exact one_form 18 rfl (border_ok hfl _ _ _ hr)
  | border_right x0 x1 x2 => exact one_form 19 rfl (border_ok hfl _ _ _ hr)
  | border_top x0 x1 x2 => exact one_form 20 rfl (border_ok hfl _ _ _ hr)
  | padding x0 => exact one_form 46 rfl (size_ok hfl _ hr)
  | padding_bottom x0 => exact one_form 47 rfl (size_ok hfl _ hr)
  | padding_left x0 => exact one_form 48 rfl (size_ok hfl _ hr)
  | padding_right x0 => exact one_form 49 rfl (size_ok hfl _ hr)
  | padding_top x0 => exact one_form 50 rfl (size_ok hfl _ hr)
  | wrap_option x0 => exact one_form 60 rfl (enum_WrapOption _)
  | border_line_width x0 x1 x2 => exact one_form 64 rfl (widths_ok hfl _ _ _ hr)
  | border_line_width_bottom x0 x1 x2 => exact one_form 65 rfl (widths_ok hfl _ _ _ hr)
  | border_line_width_left x0 x1 x2 => exact one_form 66 rfl (widths_ok hfl _ _ _ hr)
  | border_line_width_right x0 x1 x2 => exact one_form 67 rfl (widths_ok hfl _ _ _ hr)
  | border_line_width_top x0 x1 x2 => exact one_form 68 rfl (widths_ok hfl _ _ _ hr)
  | break_before x0 => exact one_form 22 rfl (enum_PageBreak _)
  | break_after x0 => exact one_form 21 rfl (enum_PageBreak _)
  | hyphenation_keep x0 => exact one_form 30 rfl (enum_Hyphenation _)
  | hyphenation_ladder_count x0 => exact one_form 31 rfl (ladder_ok _ hr)
  | keep_together x0 => exact one_form 34 rfl (enum_TextKeep _)
  | keep_with_next x0 => exact one_form 35 rfl (enum_TextKeep _)
  | line_height x0 => exact one_form 38 rfl (lineHeight_ok hfl _ hr)
  | margin x0 => exact one_form 39 rfl (sizePct_ok hfl _ hr)
  | margin_bottom x0 => exact one_form 40 rfl (sizePct_ok hfl _ hr)
  | margin_left x0 => exact one_form 41 rfl (lenPct_ok hfl _ hr)
  | margin_right x0 => exact one_form 42 rfl (lenPct_ok hfl _ hr)
  | margin_top x0 => exact one_form 43 rfl (sizePct_ok hfl _ hr)
  | orphans x0 => exact one_form 45 rfl (dec_ok _)
  | text_align x0 => exact one_form 54 rfl (textAlign_ok _ hr)
  | text_align_last x0 => exact one_form 55 rfl (enum_TextAlignLast _)
  | text_indent x0 => exact one_form 56 rfl (lenPct_ok hfl _ hr)
  | widows x0 => exact one_form 59 rfl (dec_ok _)
  | color x0 => exact one_form 23 rfl (color_ok _)
  | locale x0 => exact tags_form 36 24 53 rfl rfl rfl x0
  | font_size x0 => exact one_form 25 rfl (sizePct_ok hfl _ hr)
  | font_size_rel x0 => exact hr.elim
  | font_style x0 => exact one_form 26 rfl (enum_FontStyle _)
  | font_italic => exact one_form 26 rfl ⟨_, by simp, rfl⟩
  | font_weight x0 => exact one_form 28 rfl (enum_FontWeight _)
  | font_bold => exact one_form 28 rfl ⟨_, by simp, rfl⟩
  | font_variant x0 => exact one_form 27 rfl (enum_FontVariant _)
  | font_attr x0 x1 x2 => exact font_form 25 28 26 rfl rfl rfl (sizePct_ok hfl x0 hr) x1 x2
  | hyphenate x0 => exact one_form 29 rfl (bool_ok _)
  | hyphenation_push_char_count x0 => exact one_form 32 rfl (dec_ok _)
  | hyphenation_remain_char_count x0 => exact one_form 33 rfl (dec_ok _)
  | letter_spacing x0 => exact one_form 37 rfl (spacing_ok hfl _ hr)
  | text_shadow x0 x1 x2 x3 => exact one_form 57 rfl (shadow_ok hfl _ _ _ _ hr)
  | text_transform x0 => exact one_form 58 rfl (enum_TextTransform _)
  | min_height x0 => exact one_form 44 rfl (lenPct_ok hfl _ hr)
  | page_height x0 => exact one_form 51 rfl (len_ok hfl _ hr)
  | page_width x0 => exact one_form 52 rfl (len_ok hfl _ hr)
  | default_outline_level x0 => exact one_form 77 rfl (dec_ok _)
  | master_page x0 => exact one_form 118 rfl trivial
  | next_style x0 => exact one_form 121 rfl trivial
  | cell_protect x0 => exact one_form 69 rfl (protect_ok _)
  | decimal_places x0 => exact one_form 76 rfl (dec_ok _)
  | diagonal_bl_tr x0 x1 x2 => exact one_form 78 rfl (border_ok hfl _ _ _ hr)
  | diagonal_bl_tr_widths x0 x1 x2 => exact one_form 79 rfl (widths_ok hfl _ _ _ hr)
  | diagonal_tl_br x0 x1 x2 => exact one_form 80 rfl (border_ok hfl _ _ _ hr)
  | diagonal_tl_br_widths x0 x1 x2 => exact one_form 81 rfl (widths_ok hfl _ _ _ hr)
  | direction x0 => exact one_form 82 rfl (enum_WritingDirection _)
  | glyph_orientation_vertical x0 => exact one_form 103 rfl (glyph_ok fl _ hr)
  | print_content x0 => exact one_form 131 rfl (bool_ok _)
  | repeat_content x0 => exact one_form 138 rfl (bool_ok _)
  | rotation_align x0 => exact one_form 139 rfl (enum_RotationAlign _)
  | rotation_scale x0 => exact one_form 171 rfl (enum_RotationScale _)
  | rotation_angle x0 => exact one_form 140 rfl (angle_ok hfl _ hr)
  | shadow x0 x1 x2 x3 => exact one_form 146 rfl (shadow_ok hfl _ _ _ _ hr)
  | shrink_to_fit x0 => exact one_form 147 rfl (bool_ok _)
  | text_align_source x0 => exact one_form 151 rfl (enum_TextAlignSource _)
  | vertical_align x0 => exact vertical_cell fl k p x0 hp
  | auto_text_indent x0 => exact one_form 61 rfl (bool_ok _)
  | background_transpareny x0 => exact one_form 63 rfl (pct_ok hfl _ hr)
  | contextual_spacing x0 => exact one_form 73 rfl (bool_ok _)
  | font_independent_line_spacing x0 => exact one_form 87 rfl (bool_ok _)
  | join_border x0 => exact one_form 104 rfl (bool_ok _)
  | justify_single_word x0 => exact one_form 105 rfl (bool_ok _)
  | line_break x0 => exact one_form 115 rfl (enum_LineBreak _)
  | line_height_at_least x0 => exact one_form 116 rfl (size_ok hfl _ hr)
  | line_spacing x0 => exact one_form 117 rfl (len_ok hfl _ hr)
  | page_number x0 => exact one_form 126 rfl (pageNumber_ok _)
  | punctuation_wrap x0 => exact one_form 134 rfl (enum_PunctuationWrap _)
  | register_true x0 => exact one_form 135 rfl (bool_ok _)
  | snap_to_layout_grid x0 => exact one_form 148 rfl (bool_ok _)
  | tab_stop_distance x0 => exact one_form 149 rfl (size_ok hfl _ hr)
  | text_autospace x0 => exact one_form 152 rfl (enum_TextAutoSpace _)
  | vertical_align_para x0 => exact vertical_para fl k p x0 hp
  | writing_mode x0 => exact one_form 183 rfl (enum_WritingMode _)
  | writing_mode_automatic x0 => exact one_form 184 rfl (bool_ok _)
  | line_number x0 => exact one_form 204 rfl (dec_ok _)
  | number_lines x0 => exact one_form 205 rfl (bool_ok _)
  | font_name x0 => exact one_form 88 rfl trivial
  | locale_asian x0 => exact tags_form 106 74 144 rfl rfl rfl x0
  | font_name_asian x0 => exact one_form 89 rfl trivial
  | font_size_asian x0 => exact one_form 93 rfl (sizePct_ok hfl _ hr)
  | font_size_rel_asian x0 => exact one_form 96 rfl (relSize_ok hfl _ hr)
  | font_style_asian x0 => exact one_form 98 rfl (enum_FontStyle _)
  | font_italic_asian => exact one_form 98 rfl ⟨_, by simp, rfl⟩
  | font_weight_asian x0 => exact one_form 100 rfl (enum_FontWeight _)
  | font_bold_asian => exact one_form 100 rfl ⟨_, by simp, rfl⟩
  | font_attr_asian x0 x1 x2 => exact font_form 93 100 98 rfl rfl rfl (sizePct_ok hfl x0 hr) x1 x2
  | locale_complex x0 => exact tags_form 107 75 145 rfl rfl rfl x0
  | font_name_complex x0 => exact one_form 90 rfl trivial
  | font_size_complex x0 => exact one_form 94 rfl (sizePct_ok hfl _ hr)
  | font_size_rel_complex x0 => exact one_form 97 rfl (relSize_ok hfl _ hr)
  | font_style_complex x0 => exact one_form 99 rfl (enum_FontStyle _)
  | font_italic_complex => exact one_form 99 rfl ⟨_, by simp, rfl⟩
  | font_weight_complex x0 => exact one_form 101 rfl (enum_FontWeight _)
  | font_bold_complex => exact one_form 101 rfl ⟨_, by simp, rfl⟩
  | font_attr_complex x0 x1 x2 => exact font_form 94 101 99 rfl rfl rfl (sizePct_ok hfl x0 hr) x1 x2
  | font_relief x0 => exact one_form 92 rfl (enum_TextRelief _)
  | text_position x0 x1 => exact one_form 170 rfl (position_ok hfl _ _ hr)
  | letter_kerning x0 => exact one_form 114 rfl (bool_ok _)
  | text_combine x0 => exact one_form 153 rfl (enum_TextCombine _)
  | text_combine_start_char x0 => exact one_form 155 rfl ⟨_, rfl⟩
  | text_combine_end_char x0 => exact one_form 154 rfl ⟨_, rfl⟩
  | text_emphasize x0 x1 => exact one_form 156 rfl (emphasize_ok _ _)
  | text_line_through_color x0 => exact one_form 157 rfl (.inr (color_ok _))
  | text_line_through_mode x0 => exact one_form 158 rfl (enum_LineMode _)
  | text_line_through_style x0 => exact one_form 159 rfl (enum_LineStyle _)
  | text_line_through_text x0 => exact one_form 160 rfl trivial
  | text_line_through_text_style x0 => exact one_form 161 rfl trivial
  | text_line_through_type x0 => exact one_form 162 rfl (enum_LineType _)
  | text_line_through_width x0 => exact one_form 163 rfl (lineWidth_ok hfl _ hr)
  | font_text_outline x0 => exact one_form 164 rfl (bool_ok _)
  | text_overline_color x0 => exact one_form 165 rfl (.inr (color_ok _))
  | text_overline_mode x0 => exact one_form 166 rfl (enum_LineMode _)
  | text_overline_style x0 => exact one_form 167 rfl (enum_LineStyle _)
  | text_overline_type x0 => exact one_form 168 rfl (enum_LineType _)
  | text_overline_width x0 => exact one_form 169 rfl (lineWidth_ok hfl _ hr)
  | text_underline_color x0 => exact one_form 172 rfl (.inr (color_ok _))
  | text_underline_mode x0 => exact one_form 173 rfl (enum_LineMode _)
  | text_underline_style x0 => exact one_form 174 rfl (enum_LineStyle _)
  | text_underline_type x0 => exact one_form 175 rfl (enum_LineType _)
  | text_underline_width x0 => exact one_form 176 rfl (lineWidth_ok hfl _ hr)
  | use_window_font_color x0 => exact one_form 180 rfl (bool_ok _)
  | dynamic_spacing x0 => exact one_form 84 rfl (bool_ok _)
  | col_width x0 => exact col_form hfl x0 hr
  | rel_col_width x0 => exact one_form 136 rfl ⟨_, rfl, hr⟩
  | use_optimal_col_width x0 => exact one_form 178 rfl (bool_ok _)
  | font_family_generic x0 => exact one_form 86 rfl (enum_FontFamilyGeneric _)
  | font_pitch x0 => exact one_form 91 rfl (enum_FontPitch _)
  | first_page_number x0 => exact one_form 85 rfl (.inr (dec_ok _))
  | footnote_max_height x0 => exact one_form 102 rfl (len_ok hfl _ hr)
  | num_format x0 => exact one_form 122 rfl trivial
  | num_letter_sync x0 => exact one_form 123 rfl (bool_ok _)
  | num_prefix x0 => exact one_form 124 rfl trivial
  | num_suffix x0 => exact one_form 125 rfl trivial
  | paper_tray_name x0 => exact one_form 127 rfl trivial
  | print x0 => exact one_form 130 rfl (print_ok _)
  | print_orientation x0 => exact one_form 132 rfl (enum_PrintOrientation _)
  | print_page_order x0 => exact one_form 133 rfl (enum_PrintOrder _)
  | scale_to x0 => exact one_form 142 rfl (pct_ok hfl _ hr)
  | scale_to_pages x0 => exact one_form 143 rfl (dec_ok _)
  | table_centering x0 => exact one_form 150 rfl (enum_PrintCentering _)
  | min_row_height x0 => exact one_form 120 rfl (size_ok hfl _ hr)
  | row_height x0 => exact one_form 141 rfl (size_ok hfl _ hr)
  | use_optimal_row_height x0 => exact one_form 179 rfl (bool_ok _)
  | may_break_between_rows x0 => exact one_form 119 rfl (bool_ok _)
  | rel_width x0 => exact rel_width_form hfl k p x0 hr hp
  | rel_height x0 => exact one_form 137 rfl (scale_ok hfl _ hr)
  | width x0 => exact one_form 182 rfl (size_ok hfl _ hr)
  | char x0 => exact one_form 70 rfl ⟨_, rfl⟩
  | leader_color x0 => exact one_form 108 rfl (.inr (color_ok _))
  | leader_style x0 => exact one_form 109 rfl (enum_LineStyle _)
  | leader_text x0 => exact one_form 110 rfl ⟨_, rfl⟩
  | leader_text_style x0 => exact one_form 111 rfl trivial
  | leader_type x0 => exact one_form 112 rfl (enum_LineType _)
  | leader_width x0 => exact one_form 113 rfl (lineWidth_ok hfl _ hr)
  | position x0 => exact one_form 129 rfl (len_ok hfl _ hr)
  | type x0 => exact one_form 177 rfl (enum_TabStopType _)
  | volatile x0 => exact one_form 181 rfl (bool_ok _)
  | display_name x0 => exact one_form 83 rfl trivial
  | auto_update x0 => exact one_form 62 rfl (bool_ok _)
  | «class» x0 => exact one_form 71 rfl trivial
  | parent_style x0 => exact one_form 128 rfl trivial
  | font_family x0 => exact one_form 185 rfl trivial
  | font_stretch x0 => exact one_form 186 rfl (enum_FontStretch _)
  | svg_font_style x0 => exact one_form 187 rfl (enum_FontStyle _)
  | svg_font_variant x0 => exact one_form 188 rfl (enum_FontVariant _)
  | svg_font_weight x0 => exact one_form 189 rfl (enum_FontWeight _)
  | height x0 => exact one_form 190 rfl (len_ok hfl _ hr)
  | svg_width x0 => exact one_form 191 rfl (len_ok hfl _ hr)
  | svg_x x0 => exact one_form 192 rfl (len_ok hfl _ hr)
  | svg_y x0 => exact one_form 193 rfl (len_ok hfl _ hr)
  | align x0 => exact one_form 194 rfl (enum_TableAlign _)
  | border_model x0 => exact one_form 195 rfl (enum_TableBorderModel _)
  | display x0 => exact one_form 196 rfl (bool_ok _)
  | tab_color x0 => exact one_form 200 rfl (color_ok _)
  | table_end_cell_address x0 => exact one_form 197 rfl trivial
  | table_end_x x0 => exact one_form 198 rfl (len_ok hfl _ hr)
  | table_end_y x0 => exact one_form 199 rfl (len_ok hfl _ hr)
  | table_table_background x0 => exact one_form 201 rfl (bool_ok _)
  | text_condition x0 => exact one_form 202 rfl (enum_TextCondition _)
  | text_display x0 => exact one_form 203 rfl (enum_TextDisplay _)
  | xlink_actuate x0 => exact hr.elim
  | xlink_href x0 => exact one_form 207 rfl trivial
  | xlink_show x0 => exact hr.elim
  | xlink_type x0 => exact one_form 209 rfl (by subst hr; exact ⟨_, List.mem_singleton.2 rfl, rfl⟩)
  | xml_id x0 => exact hr.elim

/-! ## C89 -/

/-- All values in the maps of a style have a form of the standard. -/
def Forms (k : Kind) (m : Maps) : Prop :=
  ∀ p a v, (m p).lookup a = some v → ∃ (s : String) (f : Odf.Form), s.toList = a ∧ Odf.HasForm k p s f ∧ f.accepts v

theorem after_value (k : Str) (as : List (String × Option Str)) (r : Option Str) (v : Str) (h : after k r as = some v) :
    r = some v ∨ ∃ a, (a, some v) ∈ as ∧ a.toList = k := by
  induction as generalizing r with
  | nil => exact .inl h
  | cons x as ih =>
    obtain ⟨a, w⟩ := x
    rw [after] at h
    rcases ih _ h with h | ⟨b, hb, he⟩
    · by_cases hk : a.toList = k
      · rw [if_pos hk] at h
        exact .inr ⟨a, h ▸ List.mem_cons_self .., hk⟩
      · rw [if_neg hk] at h
        exact .inl h
    · exact .inr ⟨b, List.mem_cons_of_mem _ hb, he⟩

/-- **C89**: after any history of calls with arguments that mean something in the standard, all values have the form that
the standard gives to their attribute.  Partial because `Odf.Regular` leaves out arguments that can be passed, for which
this is false, see the counterexamples. -/
theorem C89_values_partial (fl : Floats) (hfl : Odf.Prints fl) (k : Kind) (cs : List Call)
    (hr : ∀ c ∈ cs, Odf.Regular fl k c) (m m' : Maps) (hm : Forms k m) (h : run fl k cs m = some m') : Forms k m' := by
  induction cs generalizing m with
  | nil => injection h with h; exact h ▸ hm
  | cons c cs ih =>
    rw [run] at h
    cases hs : step fl k c m with
    | none => rw [hs] at h; cases h
    | some m1 =>
      rw [hs] at h
      refine ih (fun c hc => hr c (List.mem_cons_of_mem _ hc)) m1 ?_ h
      obtain ⟨q, hq, h1, h2⟩ := step_some fl k c m m1 hs
      intro p a v hv
      by_cases hpq : p = q
      · subst hpq
        rw [h1, lookup_after] at hv
        rcases after_value a _ _ v hv with hv | ⟨b, hb, he⟩
        · exact hm p a v hv
        · obtain ⟨f, hf, hv⟩ := asks_form hfl k c p hq (hr c (List.mem_cons_self ..)) b v hb
          exact ⟨b, f, he, hf, hv⟩
      · exact hm p a v (h2 p hpq ▸ hv)

/-- The forms of an attribute. -/
def formsOf (k : Kind) (p : Part) (a : String) : List Odf.Form :=
  (Odf.forms.filter fun x => x.1 == a).map (·.2)
    ++ (Odf.special.filter fun x => x.1 == k && x.2.1 == p && x.2.2.1 == a).map (·.2.2.2)

theorem formsOf_mem (k : Kind) (p : Part) (a : String) (f : Odf.Form) (h : Odf.HasForm k p a f) : f ∈ formsOf k p a := by
  rcases h with h | h
  · exact List.mem_append_left _ (List.mem_map.2 ⟨(a, f), List.mem_filter.2 ⟨h, beq_self_eq_true a⟩, rfl⟩)
  · exact List.mem_append_right _ (List.mem_map.2 ⟨(k, p, a, f), List.mem_filter.2 ⟨h, by simp⟩, rfl⟩)

/-- The value a call leaves does not have the form of the standard. -/
def Malformed (fl : Floats) (k : Kind) (c : Call) : Prop :=
  ∃ p a v m', run fl k [c] (fun _ => []) = some m' ∧ (m' p).lookup a.toList = some v ∧ (∃ f, Odf.HasForm k p a f)
    ∧ ∀ f, Odf.HasForm k p a f → ¬ f.accepts v

theorem malformed {fl : Floats} {k : Kind} {c : Call} {p : Part} {a : String} {v : Str} {g : Odf.Form}
    (hp : k.part c = some p) (hs : (c.ops fl).isSome = true) (ha : (a, some v) ∈ Spec.asks fl c)
    (hf : formsOf k p a = [g]) (hg : Odf.HasForm k p a g) (hv : ¬ g.accepts v) : Malformed fl k c := by
  obtain ⟨os, ho⟩ := Option.isSome_iff_exists.1 hs
  obtain ⟨m', hm⟩ : ∃ m', run fl k [c] (fun _ => []) = some m' := by
    simp only [run, step, hp, ho]
    exact ⟨_, rfl⟩
  obtain ⟨q, hq, hl⟩ := C87_last_partial fl k [] [] c (fun _ => []) m' hm (fun d hd => by cases hd)
  rw [hp] at hq
  injection hq with hq
  subst hq
  refine ⟨p, a, v, m', hm, hl a _ ha, ⟨g, hg⟩, fun f hf' hv' => hv ?_⟩
  have := formsOf_mem k p a f hf'
  rw [hf, List.mem_singleton] at this
  exact this ▸ hv'

theorem last_ne {x y s t : Str} {a b : Char} (h : s ++ a :: x = t ++ b :: y) (hl : x.length = y.length) : a = b ∧ x = y :=
  List.cons.inj (List.append_inj' h (by simp [hl])).2

theorem not_unit {s x n : Str} {u : String} {a : Char} (hx : x.length = 1) (ha : ∀ w ∈ Odf.units, w.toList ≠ a :: x)
    (hu : u ∈ Odf.units) : s ++ a :: x ≠ n ++ u.toList := by
  intro h
  have h2 : ∀ w ∈ Odf.units, w.toList.length = 2 := by decide +kernel
  have := (List.append_inj' h (by rw [h2 u hu]; simp [hx])).2
  exact ha u hu this.symm

/-- The last character is not that of a unit. -/
theorem not_unit_last {s n : Str} {u : String} {a : Char} (ha : ∀ w ∈ Odf.units, w.toList.getLast? ≠ some a)
    (hu : u ∈ Odf.units) : s ++ [a] ≠ n ++ u.toList := by
  intro h
  have h2 : ∀ w ∈ Odf.units, w.toList ≠ [] := by decide +kernel
  have := congrArg List.getLast? h
  rw [List.getLast?_append, List.getLast?_append] at this
  cases hl : u.toList.getLast? with
  | none => exact h2 u hu (List.getLast?_eq_none_iff.1 hl)
  | some b =>
    rw [hl] at this
    simp at this
    exact ha u hu (by rw [hl, this])

/-- **C89** is false of the code: `HyphenationLadderCount::NoLimit` is spelled wrong. -/
theorem C89_no_limit_counterexample (fl : Floats) : Malformed fl .paragraph (.hyphenation_ladder_count .noLimit) := by
  refine malformed (p := .paragraph) (a := "fo:hyphenation-ladder-count") (v := "no_limit".toList)
    (g := .alt (.oneOf ["no-limit"]) .nat) (by decide +kernel) rfl (List.mem_singleton.2 rfl) (by decide +kernel)
    (.inl (by decide +kernel)) ?_
  rintro (⟨w, hw, h⟩ | h)
  · rw [List.mem_singleton.1 hw] at h
    exact absurd h (by decide +kernel)
  · exact absurd (h.2 'n' (by decide +kernel)) (by decide)

/-- **C89** is false of the code: two alignments of text are not in the standard. -/
theorem C89_text_align_counterexample (fl : Floats) :
    Malformed fl .paragraph (.text_align .inside) ∧ Malformed fl .paragraph (.text_align .outside) := by
  constructor <;>
  · refine malformed (p := .paragraph) (a := "fo:text-align")
      (g := .oneOf ["start", "end", "left", "right", "center", "justify"]) (by decide +kernel) rfl
      (List.mem_singleton.2 rfl) (by decide +kernel) (.inl (by decide +kernel)) ?_
    rintro ⟨w, hw, h⟩
    revert w
    decide +kernel

/-- **C89** is false of the code: a width of lines, "dash", is not in the standard. -/
theorem C89_dash_counterexample (fl : Floats) : Malformed fl .text (.text_underline_width .dash) := by
  refine malformed (p := .text) (a := "style:text-underline-width") (v := "dash".toList) (g := Odf.lineWidths)
    (by decide +kernel) rfl (List.mem_singleton.2 rfl) (by decide +kernel) (.inl (by decide +kernel)) ?_
  rintro (⟨w, hw, h⟩ | h | ⟨n, h, -⟩ | ⟨n, u, h, -, hu⟩)
  · revert w; decide +kernel
  · exact absurd (h.2 'd' (by decide +kernel)) (by decide)
  · exact absurd (last_ne (s := ['d', 'a', 's']) (a := 'h') (x := []) h rfl).1 (by decide)
  · exact not_unit (s := ['d', 'a']) (a := 's') (x := ['h']) rfl (by decide +kernel) hu h

/-- **C89** is false of the code: a relative font size has to be a length, and a percentage can be asked for. -/
theorem C89_font_size_rel_counterexample (fl : Floats) (v : Percent) : Malformed fl .cell (.font_size_rel_asian (.percent v)) := by
  obtain ⟨x⟩ := v
  refine malformed (p := .text) (a := "style:font-size-rel-asian") (v := fl.fmt x ++ ['%']) (g := .length)
    rfl rfl (List.mem_singleton.2 rfl) (by decide +kernel) (.inl (by decide +kernel)) ?_
  rintro ⟨n, u, h, -, hu⟩
  exact not_unit_last (by decide +kernel) hu h

/-- **C89** is false of the code: the unit `em` can be chosen for a height, which no length of the standard has. -/
theorem C89_em_counterexample (fl : Floats) (v : F64) : Malformed fl .row (.row_height (.em v)) := by
  refine malformed (p := .own) (a := "style:row-height") (v := fl.fmt v ++ ['e', 'm']) (g := .size)
    rfl rfl (List.mem_singleton.2 rfl) (by decide +kernel) (.inl (by decide +kernel)) ?_
  rintro ⟨n, u, h, -, hu⟩
  exact not_unit (s := fl.fmt v) (a := 'e') (x := ['m']) rfl (by decide +kernel) hu h

/-- **C89** is false of the code: the default height is written as an empty text. -/
theorem C89_default_counterexample (fl : Floats) : Malformed fl .row (.row_height .default) := by
  refine malformed (p := .own) (a := "style:row-height") (v := []) (g := .size)
    rfl rfl (List.mem_singleton.2 rfl) (by decide +kernel) (.inl (by decide +kernel)) ?_
  rintro ⟨n, u, h, -, hu⟩
  have h2 : ∀ w ∈ Odf.units, w.toList ≠ [] := by decide +kernel
  exact h2 u hu (List.append_eq_nil_iff.1 h.symm).2

/-- **C89** is false of the code: a negative height is taken and written. -/
theorem C89_negative_counterexample (fl : Floats) (hfl : Odf.Prints fl) (v : F64) (h1 : Odf.Finite v) (h2 : ¬ Odf.NoSign v) :
    Malformed fl .row (.row_height (.cm v)) := by
  obtain ⟨m, hm, -, hv⟩ := hfl v h1
  refine malformed (p := .own) (a := "style:row-height") (v := fl.fmt v ++ "cm".toList) (g := .size)
    rfl rfl (List.mem_singleton.2 rfl) (by decide +kernel) (.inl (by decide +kernel)) ?_
  rintro ⟨n, u, h, hn, hu⟩
  have h2' : ∀ w ∈ Odf.units, w.toList.length = 2 := by decide +kernel
  have he := (List.append_inj' h (by rw [h2' u hu]; rfl)).1
  rw [hv h2] at he
  have hd : '-' ∈ n := he ▸ List.mem_cons_self ..
  rcases hn with hn | ⟨i, f, rfl, hi, hf⟩
  · exact absurd (hn.2 _ hd) (by decide)
  · cases i with
    | nil => exact hi.1 rfl
    | cons c i =>
      have : c = '-' := (List.cons.inj he).1.symm
      exact absurd (hi.2 c (List.mem_cons_self ..)) (by rw [this]; decide)

/-- **C89** is false of the code: the radius of corners is written without a unit. -/
theorem C89_radius_counterexample (fl : Floats) (n : Nat) : Malformed fl .annotation (.draw_corner_radius n) := by
  refine malformed (p := .attr) (a := "draw:corner-radius") (v := decNat n) (g := .size)
    rfl rfl (List.mem_singleton.2 rfl) (by decide +kernel) (.inl (by decide +kernel)) ?_
  rintro ⟨m, u, h, -, hu⟩
  have h2 : ∀ w ∈ Odf.units, ∃ c ∈ w.toList, ¬ ('0' ≤ c ∧ c ≤ '9') := by decide +kernel
  obtain ⟨c, hc, hn⟩ := h2 u hu
  exact hn ((dec_ok n).2 c (h ▸ List.mem_append_right _ hc))

/-- **C89** is false of the code: a relative width of a column that is printed with a point is not one of the standard. -/
theorem C89_relative_counterexample (fl : Floats) (v : F64) (h : '.' ∈ fl.fmt v) : Malformed fl .col (.rel_col_width v) := by
  refine malformed (p := .own) (a := "style:rel-column-width") (v := fl.fmt v ++ ['*']) (g := .relative)
    rfl rfl (List.mem_singleton.2 rfl) (by decide +kernel) (.inl (by decide +kernel)) ?_
  rintro ⟨n, hn, hd⟩
  have he := (List.append_inj' hn rfl).1
  exact absurd (hd.2 '.' (he ▸ h)) (by decide)

/-- **C89** is false of the code: angles are taken where the standard knows only zero. -/
theorem C89_glyph_counterexample (fl : Floats) (v : F64) (h : fl.fmt v ≠ ['0']) :
    Malformed fl .cell (.glyph_orientation_vertical (.angle (.deg v))) := by
  refine malformed (p := .own) (a := "style:glyph-orientation-vertical") (v := fl.fmt v ++ ['d', 'e', 'g'])
    (g := .oneOf ["auto", "0", "0deg", "0rad", "0grad"])
    rfl rfl (List.mem_singleton.2 rfl) (by decide +kernel) (.inl (by decide +kernel)) ?_
  rintro ⟨w, hw, he⟩
  have hl : fl.fmt v = w.toList.take (w.toList.length - 3) := by rw [← he]; simp
  have hd : w.toList.drop (w.toList.length - 3) = ['d', 'e', 'g'] := by rw [← he]; simp
  have key : ∀ w ∈ ["auto", "0", "0deg", "0rad", "0grad"], w.toList.drop (w.toList.length - 3) = ['d', 'e', 'g'] →
      w.toList.take (w.toList.length - 3) = ['0'] := by decide +kernel
  exact h (hl.trans (key w hw hd))

/-- **C89** is false of the code: whatever is chosen for the links of an image, the standard does not have it, but for the
type "simple". -/
theorem C89_link_counterexample (fl : Floats) (x : Actuate) (y : LinkShow) (z : LinkType) (hz : z ≠ .simple) :
    Malformed fl .image (.xlink_actuate x) ∧ Malformed fl .image (.xlink_show y) ∧ Malformed fl .image (.xlink_type z) := by
  refine ⟨?_, ?_, ?_⟩
  · refine malformed (p := .attr) (a := "xlink:actuate") (g := .oneOf ["onLoad"])
      rfl rfl (List.mem_singleton.2 rfl) (by decide +kernel) (.inl (by decide +kernel)) ?_
    rintro ⟨w, hw, h⟩
    rw [List.mem_singleton.1 hw] at h
    revert h
    cases x <;> decide +kernel
  · refine malformed (p := .attr) (a := "xlink:show") (g := .oneOf ["embed"])
      rfl rfl (List.mem_singleton.2 rfl) (by decide +kernel) (.inl (by decide +kernel)) ?_
    rintro ⟨w, hw, h⟩
    rw [List.mem_singleton.1 hw] at h
    revert h
    cases y <;> decide +kernel
  · refine malformed (p := .attr) (a := "xlink:type") (g := .oneOf ["simple"])
      rfl rfl (List.mem_singleton.2 rfl) (by decide +kernel) (.inl (by decide +kernel)) ?_
    rintro ⟨w, hw, h⟩
    rw [List.mem_singleton.1 hw] at h
    revert h hz
    cases z <;> decide +kernel

/-- **C89** is false of the code: the relative width of a table has to be a percentage. -/
theorem C89_rel_width_counterexample (fl : Floats) : Malformed fl .table (.rel_width .scale) := by
  refine malformed (p := .own) (a := "style:rel-width") (v := "scale".toList) (g := .percent)
    rfl rfl (List.mem_singleton.2 rfl) (by decide +kernel) (.inr (by decide +kernel)) ?_
  rintro ⟨n, h, -⟩
  exact absurd (last_ne (s := ['s', 'c', 'a', 'l']) (a := 'e') (x := []) h rfl).1 (by decide)

/-- A printer for the examples: all numbers are `1.5`, with their sign. -/
def flat : Floats := ⟨fun v => if v.bits.toNat < 2 ^ 63 then "1.5".toList else "-1.5".toList, fun _ => none⟩

/-- The hypotheses are met: by this printer, by an empty style and by a history of calls. -/
theorem C89_meets : Odf.Prints flat ∧ Forms .cell (fun _ => []) ∧ (∀ c ∈ demo, Odf.Regular flat .cell c)
    ∧ (run flat .cell demo fun _ => []).isSome = true := by
  refine ⟨fun v _ => ⟨"1.5".toList, .inr ⟨['1'], ['5'], by decide +kernel, ⟨by simp, by decide⟩, ⟨by simp, by decide⟩⟩, ?_, ?_⟩,
    fun p a v h => (by cases h), ?_, by decide +kernel⟩
  · intro h
    exact if_pos h
  · intro h
    exact (if_neg h).trans (by decide +kernel)
  · intro c hc
    simp only [demo, List.mem_cons, List.not_mem_nil, or_false] at hc
    rcases hc with rfl | rfl | rfl | rfl | rfl | rfl | rfl | rfl
    · exact ⟨by unfold Odf.Finite; decide, by unfold Odf.NoSign; decide⟩
    · trivial
    · exact (by unfold Odf.Finite; decide : Odf.Finite ⟨5⟩)
    · trivial
    · exact ⟨by unfold Odf.Finite; decide, by unfold Odf.NoSign; decide⟩
    · trivial
    · exact ⟨by unfold Odf.Finite; decide, by unfold Odf.NoSign; decide⟩
    · trivial

end Verif.Attr
