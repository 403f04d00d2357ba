import Verif.Meta.Other

/-!
# C63: what the file says about the template, the automatic reload, the behaviour of hyperlinks and the statistics

The library does not read these elements of its own files, because they are empty tags.  They are in the file nevertheless,
for other programs.
-/

set_option autoImplicit false

namespace Verif.Meta

open Xml Codec Enum

/-- The value of an attribute among those that are written. -/
def valueOf (k : Str) (as : List (Bool × Str × Str)) : Option Str := (as.find? fun a => decide (a.2.1 = k)).map fun a => a.2.2

theorem valueOf_nil (k : Str) : valueOf k [] = none := rfl

theorem valueOf_opt (k : Str) (esc : Bool) (x : Option Str) (r : List (Bool × Str × Str)) :
    valueOf k (optAttr esc k x ++ r) = x.or (valueOf k r) := by
  cases x with
  | none => rfl
  | some v => simp [valueOf, optAttr]

theorem valueOf_skip (k j : Str) (h : j ≠ k) (esc : Bool) (x : Option Str) (r : List (Bool × Str × Str)) :
    valueOf k (optAttr esc j x ++ r) = valueOf k r := by
  cases x with
  | none => rfl
  | some v => simp [valueOf, optAttr, h]

theorem valueOf_last (k : Str) (esc : Bool) (x : Option Str) : valueOf k (optAttr esc k x) = x := by
  cases x with
  | none => rfl
  | some v => simp [valueOf, optAttr]

theorem valueOf_other (k j : Str) (h : j ≠ k) (esc : Bool) (x : Option Str) : valueOf k (optAttr esc j x) = none := by
  cases x with
  | none => rfl
  | some v => simp [valueOf, optAttr, h]

theorem or_none' (x : Option Str) : x.or none = x := by cases x <;> rfl

/-- The template of any metadata is in the file, with all that is known of it. -/
theorem C63_template_written (f : Floats) (m : Metadata) (h : m.template ≠ {}) :
    ∃ as, Doc.void false "meta:template".toList as none false ∈ metaDocs f m
      ∧ valueOf "meta:date".toList as = m.template.date.map fmtDateTime
      ∧ valueOf "xlink:actuate".toList as = m.template.actuate.map Actuate.text
      ∧ valueOf "xlink:href".toList as = m.template.href
      ∧ valueOf "xlink:title".toList as = m.template.title
      ∧ valueOf "xlink:type".toList as = m.template.linkType.map LinkType.text := by
  refine ⟨optAttr false "meta:date".toList (m.template.date.map fmtDateTime)
        ++ optAttr false "xlink:actuate".toList (m.template.actuate.map Actuate.text)
        ++ optAttr true "xlink:href".toList m.template.href
        ++ optAttr true "xlink:title".toList m.template.title
        ++ optAttr false "xlink:type".toList (m.template.linkType.map LinkType.text), ?_, ?_⟩
  · unfold metaDocs templateDoc
    rw [if_neg h]
    simp only [List.mem_append]
    exact .inl (.inl (.inl (.inl (.inr (List.mem_singleton.2 rfl)))))
  · simp only [List.append_assoc]
    refine ⟨?_, ?_, ?_, ?_, ?_⟩
    · rw [valueOf_opt, valueOf_skip _ _ (by decide +kernel), valueOf_skip _ _ (by decide +kernel),
        valueOf_skip _ _ (by decide +kernel), valueOf_other _ _ (by decide +kernel), or_none']
    · rw [valueOf_skip _ _ (by decide +kernel), valueOf_opt, valueOf_skip _ _ (by decide +kernel),
        valueOf_skip _ _ (by decide +kernel), valueOf_other _ _ (by decide +kernel), or_none']
    · rw [valueOf_skip _ _ (by decide +kernel), valueOf_skip _ _ (by decide +kernel), valueOf_opt,
        valueOf_skip _ _ (by decide +kernel), valueOf_other _ _ (by decide +kernel), or_none']
    · rw [valueOf_skip _ _ (by decide +kernel), valueOf_skip _ _ (by decide +kernel),
        valueOf_skip _ _ (by decide +kernel), valueOf_opt, valueOf_other _ _ (by decide +kernel), or_none']
    · rw [valueOf_skip _ _ (by decide +kernel), valueOf_skip _ _ (by decide +kernel),
        valueOf_skip _ _ (by decide +kernel), valueOf_skip _ _ (by decide +kernel), valueOf_last]

/-- The automatic reload of any metadata is in the file. -/
theorem C63_reload_written (f : Floats) (m : Metadata) (h : m.autoReload ≠ {}) :
    ∃ as, Doc.void false "meta:auto_reload".toList as none false ∈ metaDocs f m
      ∧ valueOf "meta:delay".toList as = m.autoReload.delay.map fmtDuration
      ∧ valueOf "xlink:actuate".toList as = m.autoReload.actuate.map Actuate.text
      ∧ valueOf "xlink:href".toList as = m.autoReload.href
      ∧ valueOf "xlink:show".toList as = m.autoReload.show.map LinkShow.text
      ∧ valueOf "xlink:type".toList as = m.autoReload.linkType.map LinkType.text := by
  refine ⟨optAttr false "meta:delay".toList (m.autoReload.delay.map fmtDuration)
        ++ optAttr false "xlink:actuate".toList (m.autoReload.actuate.map Actuate.text)
        ++ optAttr true "xlink:href".toList m.autoReload.href
        ++ optAttr false "xlink:show".toList (m.autoReload.show.map LinkShow.text)
        ++ optAttr false "xlink:type".toList (m.autoReload.linkType.map LinkType.text), ?_, ?_⟩
  · unfold metaDocs reloadDoc
    rw [if_neg h]
    simp only [List.mem_append]
    exact .inl (.inl (.inl (.inr (List.mem_singleton.2 rfl))))
  · simp only [List.append_assoc]
    refine ⟨?_, ?_, ?_, ?_, ?_⟩
    · rw [valueOf_opt, valueOf_skip _ _ (by decide +kernel), valueOf_skip _ _ (by decide +kernel),
        valueOf_skip _ _ (by decide +kernel), valueOf_other _ _ (by decide +kernel), or_none']
    · rw [valueOf_skip _ _ (by decide +kernel), valueOf_opt, valueOf_skip _ _ (by decide +kernel),
        valueOf_skip _ _ (by decide +kernel), valueOf_other _ _ (by decide +kernel), or_none']
    · rw [valueOf_skip _ _ (by decide +kernel), valueOf_skip _ _ (by decide +kernel), valueOf_opt,
        valueOf_skip _ _ (by decide +kernel), valueOf_other _ _ (by decide +kernel), or_none']
    · rw [valueOf_skip _ _ (by decide +kernel), valueOf_skip _ _ (by decide +kernel),
        valueOf_skip _ _ (by decide +kernel), valueOf_opt, valueOf_other _ _ (by decide +kernel), or_none']
    · rw [valueOf_skip _ _ (by decide +kernel), valueOf_skip _ _ (by decide +kernel),
        valueOf_skip _ _ (by decide +kernel), valueOf_skip _ _ (by decide +kernel), valueOf_last]

/-- The behaviour of hyperlinks of any metadata is in the file. -/
theorem C63_hyperlink_written (f : Floats) (m : Metadata) (h : m.hyperlink ≠ {}) :
    ∃ as, Doc.void false "meta:hyperlink-behaviour".toList as none false ∈ metaDocs f m
      ∧ valueOf "office:target-frame-name".toList as = m.hyperlink.target
      ∧ valueOf "xlink:show".toList as = m.hyperlink.show.map LinkShow.text := by
  refine ⟨optAttr true "office:target-frame-name".toList m.hyperlink.target
        ++ optAttr false "xlink:show".toList (m.hyperlink.show.map LinkShow.text), ?_, ?_⟩
  · unfold metaDocs hyperlinkDoc
    rw [if_neg h]
    simp only [List.mem_append]
    exact .inl (.inl (.inr (List.mem_singleton.2 rfl)))
  · refine ⟨?_, ?_⟩
    · rw [valueOf_opt, valueOf_other _ _ (by decide +kernel), or_none']
    · rw [valueOf_skip _ _ (by decide +kernel), valueOf_last]

/-- Metadata with a template and a behaviour. -/
theorem C63_written_meets :
    ({ template := { title := some "t".toList, href := some "h".toList } } : Metadata).template ≠ {}
      ∧ ({ hyperlink := { target := some "_blank".toList } } : Metadata).hyperlink ≠ {} :=
  ⟨by decide +kernel, by decide +kernel⟩

end Verif.Meta
