import Verif.Attr.Odf
import Verif.Attr.Props

/-!
# C88: styles have the attributes that ODF has

`Odf.attributes` (in `Attr/Odf.lean`) lists what the standard allows.
-/

set_option autoImplicit false

namespace Verif.Attr

open Xml Codec Book Width Enum Fmt
open Style (Attrs)
open Book.AttrMap (Op specRun lookup_run)

/-! ## Where each attribute is in the lists of the standard -/

/-- An attribute in the table of setters, by its place. -/
def keyAt (t : Nat × Nat × Nat) : String :=
  match entries[t.1]? with
  | none => ""
  | some e => e.2.2[t.2.1]?.getD ""

/-- An attribute in a list, by its place. -/
def nameAt (l : List String) (t : Nat × Nat × Nat) : String := l[t.2.2]?.getD ""

def at_cellProps : List (Nat × Nat × Nat) :=
  [(15, 0, 0), (16, 0, 1), (17, 0, 2), (18, 0, 3), (19, 0, 4), (20, 0, 5), (21, 0, 6), (22, 0, 7), (23, 0, 8),
   (24, 0, 9), (25, 0, 10), (26, 0, 11), (27, 0, 12), (28, 0, 13), (29, 0, 14), (30, 0, 15), (31, 0, 16),
   (71, 0, 17), (72, 0, 18), (73, 0, 19), (74, 0, 20), (75, 0, 21), (76, 0, 22), (77, 0, 23), (78, 0, 24),
   (79, 0, 25), (80, 0, 26), (81, 0, 27), (83, 0, 28), (84, 0, 29), (85, 0, 30), (86, 0, 31), (87, 0, 32),
   (104, 0, 33)]

set_option maxRecDepth 4000 in
theorem eq_cellProps : at_cellProps.map (keyAt ·) = at_cellProps.map (nameAt Odf.cellProps ·) := rfl

def at_columnProps : List (Nat × Nat × Nat) :=
  [(32, 0, 1), (33, 0, 0), (154, 0, 2), (155, 0, 3), (156, 0, 4)]

set_option maxRecDepth 4000 in
theorem eq_columnProps : at_columnProps.map (keyAt ·) = at_columnProps.map (nameAt Odf.columnProps ·) := rfl

def at_rowProps : List (Nat × Nat × Nat) :=
  [(15, 0, 0), (32, 0, 2), (33, 0, 1), (36, 0, 3), (172, 0, 4), (173, 0, 5), (174, 0, 6)]

set_option maxRecDepth 4000 in
theorem eq_rowProps : at_rowProps.map (keyAt ·) = at_rowProps.map (nameAt Odf.rowProps ·) := rfl

def at_tableProps : List (Nat × Nat × Nat) :=
  [(15, 0, 0), (32, 0, 2), (33, 0, 1), (37, 0, 3), (39, 0, 4), (40, 0, 5), (41, 0, 6), (42, 0, 7), (43, 0, 8),
   (84, 0, 12), (97, 0, 10), (104, 0, 14), (175, 0, 9), (176, 0, 11), (178, 0, 13), (202, 0, 15), (203, 0, 16),
   (204, 0, 17), (205, 0, 18)]

set_option maxRecDepth 4000 in
theorem eq_tableProps : at_tableProps.map (keyAt ·) = at_tableProps.map (nameAt Odf.tableProps ·) := rfl

def at_paragraphProps : List (Nat × Nat × Nat) :=
  [(15, 0, 0), (16, 0, 1), (17, 0, 2), (18, 0, 3), (19, 0, 4), (20, 0, 5), (21, 0, 19), (22, 0, 20), (23, 0, 21),
   (24, 0, 22), (25, 0, 23), (27, 0, 30), (28, 0, 31), (29, 0, 32), (30, 0, 33), (31, 0, 34), (32, 0, 7),
   (33, 0, 6), (34, 0, 8), (35, 0, 9), (36, 0, 10), (37, 0, 11), (38, 0, 12), (39, 0, 13), (40, 0, 14),
   (41, 0, 15), (42, 0, 16), (43, 0, 17), (44, 0, 18), (45, 0, 24), (46, 0, 25), (47, 0, 26), (48, 0, 27),
   (84, 0, 45), (88, 0, 28), (89, 0, 29), (90, 0, 35), (91, 0, 36), (92, 0, 37), (93, 0, 38), (94, 0, 39),
   (95, 0, 40), (96, 0, 41), (97, 0, 42), (98, 0, 43), (99, 0, 44), (100, 0, 46), (101, 0, 47), (102, 0, 48),
   (103, 0, 49), (104, 0, 50), (105, 0, 51), (106, 0, 52), (107, 0, 53)]

set_option maxRecDepth 4000 in
theorem eq_paragraphProps : at_paragraphProps.map (keyAt ·) = at_paragraphProps.map (nameAt Odf.paragraphProps ·) := rfl

def at_textProps : List (Nat × Nat × Nat) :=
  [(15, 0, 0), (49, 0, 1), (50, 0, 11), (50, 1, 2), (50, 2, 13), (51, 0, 4), (53, 0, 5), (54, 0, 5), (55, 0, 7),
   (56, 0, 7), (57, 0, 6), (58, 0, 4), (58, 1, 7), (58, 2, 5), (59, 0, 8), (60, 0, 9), (61, 0, 10), (62, 0, 12),
   (63, 0, 14), (64, 0, 15), (82, 0, 64), (108, 0, 24), (109, 0, 47), (109, 1, 16), (109, 2, 49), (110, 0, 25),
   (111, 0, 41), (112, 0, 31), (113, 0, 43), (114, 0, 43), (115, 0, 45), (116, 0, 45), (117, 0, 41), (117, 1, 45),
   (117, 2, 43), (118, 0, 48), (118, 1, 17), (118, 2, 50), (119, 0, 26), (120, 0, 42), (121, 0, 32), (122, 0, 44),
   (123, 0, 44), (124, 0, 46), (125, 0, 46), (126, 0, 42), (126, 1, 46), (126, 2, 44), (127, 0, 51), (128, 0, 62),
   (129, 0, 52), (130, 0, 55), (131, 0, 57), (132, 0, 56), (133, 0, 58), (134, 0, 67), (135, 0, 68), (136, 0, 69),
   (137, 0, 59), (138, 0, 60), (139, 0, 70), (140, 0, 71), (141, 0, 61), (142, 0, 72), (143, 0, 73), (144, 0, 74),
   (145, 0, 75), (146, 0, 76), (147, 0, 77), (148, 0, 78), (149, 0, 79), (150, 0, 80), (151, 0, 81), (152, 0, 66),
   (210, 0, 82), (211, 0, 83)]

set_option maxRecDepth 4000 in
theorem eq_textProps : at_textProps.map (keyAt ·) = at_textProps.map (nameAt Odf.textProps ·) := rfl

def at_styleAttrs : List (Nat × Nat × Nat) :=
  [(68, 0, 3), (69, 0, 8), (70, 0, 10), (189, 0, 4), (190, 0, 0), (191, 0, 1), (192, 0, 11)]

set_option maxRecDepth 4000 in
theorem eq_styleAttrs : at_styleAttrs.map (keyAt ·) = at_styleAttrs.map (nameAt Odf.styleAttrs ·) := rfl

def at_pageProps : List (Nat × Nat × Nat) :=
  [(15, 0, 0), (16, 0, 1), (17, 0, 2), (18, 0, 3), (19, 0, 4), (20, 0, 5), (21, 0, 11), (22, 0, 12), (23, 0, 13),
   (24, 0, 14), (25, 0, 15), (27, 0, 18), (28, 0, 19), (29, 0, 20), (30, 0, 21), (31, 0, 22), (39, 0, 6),
   (40, 0, 7), (41, 0, 8), (42, 0, 9), (43, 0, 10), (66, 0, 16), (67, 0, 17), (84, 0, 49), (104, 0, 51),
   (159, 0, 23), (160, 0, 24), (161, 0, 36), (162, 0, 37), (163, 0, 38), (164, 0, 39), (165, 0, 40), (166, 0, 41),
   (167, 0, 42), (168, 0, 43), (169, 0, 45), (170, 0, 48), (171, 0, 50)]

set_option maxRecDepth 4000 in
theorem eq_pageProps : at_pageProps.map (keyAt ·) = at_pageProps.map (nameAt Odf.pageProps ·) := rfl

def at_headerFooterProps : List (Nat × Nat × Nat) :=
  [(15, 0, 0), (16, 0, 1), (17, 0, 2), (18, 0, 3), (19, 0, 4), (20, 0, 5), (21, 0, 12), (22, 0, 13), (23, 0, 14),
   (24, 0, 15), (25, 0, 16), (27, 0, 17), (28, 0, 18), (29, 0, 19), (30, 0, 20), (31, 0, 21), (39, 0, 6),
   (40, 0, 7), (41, 0, 8), (42, 0, 9), (43, 0, 10), (65, 0, 11), (84, 0, 23), (153, 0, 22), (198, 0, 24)]

set_option maxRecDepth 4000 in
theorem eq_headerFooterProps : at_headerFooterProps.map (keyAt ·) = at_headerFooterProps.map (nameAt Odf.headerFooterProps ·) := rfl

def at_fontFaceAttrs : List (Nat × Nat × Nat) :=
  [(157, 0, 2), (158, 0, 3), (193, 0, 11), (194, 0, 13), (195, 0, 14), (196, 0, 15), (197, 0, 16)]

set_option maxRecDepth 4000 in
theorem eq_fontFaceAttrs : at_fontFaceAttrs.map (keyAt ·) = at_fontFaceAttrs.map (nameAt Odf.fontFaceAttrs ·) := rfl

def at_tabStopAttrs : List (Nat × Nat × Nat) :=
  [(179, 0, 0), (180, 0, 1), (181, 0, 2), (182, 0, 3), (183, 0, 4), (184, 0, 5), (185, 0, 6), (186, 0, 7),
   (187, 0, 8)]

set_option maxRecDepth 4000 in
theorem eq_tabStopAttrs : at_tabStopAttrs.map (keyAt ·) = at_tabStopAttrs.map (nameAt Odf.tabStopAttrs ·) := rfl

def at_annotationAttrs : List (Nat × Nat × Nat) :=
  [(2, 0, 6), (3, 0, 2), (4, 0, 7), (5, 0, 8), (6, 0, 9), (7, 0, 10), (8, 0, 11), (9, 0, 12), (10, 0, 0),
   (11, 0, 1), (198, 0, 15), (199, 0, 16), (200, 0, 17), (201, 0, 18), (206, 0, 19), (207, 0, 20), (208, 0, 21),
   (209, 0, 22)]

set_option maxRecDepth 4000 in
theorem eq_annotationAttrs : at_annotationAttrs.map (keyAt ·) = at_annotationAttrs.map (nameAt Odf.annotationAttrs ·) := rfl

def at_frameAttrs : List (Nat × Nat × Nat) :=
  [(0, 0, 0), (1, 0, 2), (2, 0, 8), (4, 0, 9), (5, 0, 10), (6, 0, 11), (7, 0, 12), (8, 0, 13), (9, 0, 14),
   (12, 0, 1), (176, 0, 7), (177, 0, 6), (198, 0, 17), (199, 0, 18), (200, 0, 19), (201, 0, 20), (206, 0, 21),
   (207, 0, 22), (208, 0, 23), (209, 0, 24)]

set_option maxRecDepth 4000 in
theorem eq_frameAttrs : at_frameAttrs.map (keyAt ·) = at_frameAttrs.map (nameAt Odf.frameAttrs ·) := rfl

def at_imageAttrs : List (Nat × Nat × Nat) :=
  [(13, 0, 0), (14, 0, 1), (212, 0, 2), (213, 0, 3), (214, 0, 4), (215, 0, 5)]

set_option maxRecDepth 4000 in
theorem eq_imageAttrs : at_imageAttrs.map (keyAt ·) = at_imageAttrs.map (nameAt Odf.imageAttrs ·) := rfl

def at_ : Kind → Part → List (Nat × Nat × Nat)
  | .cell, .own => at_cellProps
  | .col, .own => at_columnProps
  | .row, .own => at_rowProps
  | .table, .own => at_tableProps
  | .page, .own => at_pageProps
  | .headerFooter, .own => at_headerFooterProps
  | .fontFace, .attr => at_fontFaceAttrs
  | .tabStop, .attr => at_tabStopAttrs
  | .annotation, .attr => at_annotationAttrs
  | .frame, .attr => at_frameAttrs
  | .image, .attr => at_imageAttrs
  | .cell, .attr => at_styleAttrs
  | .col, .attr => at_styleAttrs
  | .row, .attr => at_styleAttrs
  | .table, .attr => at_styleAttrs
  | .paragraph, .attr => at_styleAttrs
  | .text, .attr => at_styleAttrs
  | .graphic, .attr => at_styleAttrs
  | .ruby, .attr => at_styleAttrs
  | .cell, .paragraph => at_paragraphProps
  | .paragraph, .paragraph => at_paragraphProps
  | .graphic, .paragraph => at_paragraphProps
  | .cell, .text => at_textProps
  | .paragraph, .text => at_textProps
  | .graphic, .text => at_textProps
  | .text, .text => at_textProps
  | _, _ => []

theorem at_eq (k : Kind) (p : Part) : (at_ k p).map (keyAt ·) = (at_ k p).map (nameAt (Odf.attributes k p) ·) := by
  cases k <;> cases p <;> first
    | rfl
    | exact eq_cellProps
    | exact eq_columnProps
    | exact eq_rowProps
    | exact eq_tableProps
    | exact eq_paragraphProps
    | exact eq_textProps
    | exact eq_styleAttrs
    | exact eq_pageProps
    | exact eq_headerFooterProps
    | exact eq_fontFaceAttrs
    | exact eq_tabStopAttrs
    | exact eq_annotationAttrs
    | exact eq_frameAttrs
    | exact eq_imageAttrs

theorem at_bound (k : Kind) (p : Part) : ((at_ k p).all fun t => t.2.2 < (Odf.attributes k p).length) = true := by
  cases k <;> cases p <;> decide +kernel

/-- The setters whose attribute does not belong where it is put. -/
def strays : List (Kind × Nat) :=
  [(.cell, 52), (.paragraph, 52), (.text, 52), (.text, 83), (.graphic, 52), (.page, 153), (.annotation, 216), (.frame, 3),
   (.frame, 216), (.image, 216)]

def coveredAt (k : Kind) (p : Part) (i n : Nat) : Bool :=
  strays.contains (k, i) || (List.range n).all fun j => (at_ k p).any fun t => t.1.beq i && t.2.1.beq j

def covered (k : Kind) : Bool :=
  entries.zipIdx.all fun e =>
    match k.macros.lookup e.1.1 with
    | none => true
    | some p => coveredAt k p e.2 e.1.2.2.length

theorem covered_all (k : Kind) : covered k = true := by
  cases k <;> decide +kernel

/-- The attributes that are put where the standard does not have them. -/
def misplaced : List (Kind × String) :=
  [(.cell, "fo:font-size-rel"), (.paragraph, "fo:font-size-rel"), (.text, "fo:font-size-rel"),
   (.graphic, "fo:font-size-rel"), (.text, "style:rotation-angle"), (.page, "style:dynamic-spacing"),
   (.frame, "draw:corner-radius"), (.annotation, "xml_id"), (.frame, "xml_id"), (.image, "xml_id")]

theorem entry_index (fl : Floats) (c : Call) : ∃ e, entries[c.ctorIdx]? = some e ∧ e.1 = c.macroName
    ∧ ∀ a ∈ Spec.asks fl c, a.1 ∈ e.2.2 := by
  obtain ⟨e, h1, h2, -, h4⟩ := entry_at fl c
  exact ⟨e, h1, h2, h4⟩

theorem stray_key : ∀ x ∈ strays, ∀ e, entries[x.2]? = some e → ∀ a ∈ e.2.2, (x.1, a) ∈ misplaced := by
  have : (strays.all fun x => (entries[x.2]?.map fun e => e.2.2.all fun a => misplaced.contains (x.1, a)) == some true) = true := by
    decide +kernel
  intro x hx e he a ha
  have := List.all_eq_true.1 this x hx
  rw [he] at this
  simp only [Option.map_some, beq_iff_eq, Option.some.injEq, List.all_eq_true, List.contains_eq_mem, decide_eq_true_eq] at this
  exact this a ha

theorem asks_allowed (fl : Floats) (k : Kind) (c : Call) (p : Part) (hp : k.part c = some p) (a : String) (v : Option Str)
    (h : (a, v) ∈ Spec.asks fl c) : a ∈ Odf.attributes k p ∨ (k, a) ∈ misplaced := by
  obtain ⟨e, h1, h2, h3⟩ := entry_index fl c
  have hm : (e, c.ctorIdx) ∈ entries.zipIdx := List.mem_zipIdx_iff_getElem?.2 h1
  have hc := List.all_eq_true.1 (covered_all k) _ hm
  unfold Kind.part at hp
  simp only [h2, hp] at hc
  have ha := h3 _ h
  unfold coveredAt at hc
  rcases Bool.or_eq_true .. ▸ hc with hc | hc
  · rw [List.contains_eq_mem, decide_eq_true_eq] at hc
    exact .inr (stray_key _ hc e h1 a ha)
  · refine .inl ?_
    obtain ⟨j, hj, hja⟩ := List.getElem_of_mem ha
    obtain ⟨t, ht, hb⟩ := List.any_eq_true.1 (List.all_eq_true.1 hc j (List.mem_range.2 hj))
    rw [Bool.and_eq_true, Nat.beq_eq, Nat.beq_eq] at hb
    obtain ⟨n, hn, hnt⟩ := List.getElem_of_mem ht
    have hq := congrArg (·[n]?) (at_eq k p)
    simp only [List.getElem?_map, List.getElem?_eq_getElem hn, hnt, Option.map_some, Option.some.injEq] at hq
    have hl := of_decide_eq_true (List.all_eq_true.1 (at_bound k p) t ht)
    have hk : keyAt t = a := by
      simp only [keyAt, hb.1, hb.2, h1, List.getElem?_eq_getElem hj, Option.getD_some]
      exact hja
    rw [hk] at hq
    rw [hq, nameAt, List.getElem?_eq_getElem hl, Option.getD_some]
    exact List.getElem_mem hl

/-! ## C88 -/

/-- The attributes a map has are among those of the standard, or misplaced in the way of the list. -/
def Fits (k : Kind) (m : Maps) : Prop :=
  ∀ p a v, (m p).lookup a = some v → ∃ s : String, s.toList = a ∧ (s ∈ Odf.attributes k p ∨ (k, s) ∈ misplaced)

theorem after_cases (k : Str) (as : List (String × Option Str)) (r : Option Str) :
    after k r as = r ∨ ∃ a v, (a, v) ∈ as ∧ a.toList = k := by
  by_cases h : ∀ a ∈ as, a.1.toList ≠ k
  · exact .inl (after_none k as r h)
  · exact .inr (Classical.byContradiction fun hc => h fun a ha he => hc ⟨a.1, a.2, ha, he⟩)

/-- **C88**: after any history of calls on a style without attributes, or one whose attributes fit, all attributes are
among those that the standard has for the element they are written to.  Partial because of the attributes in `misplaced`. -/
theorem C88_attributes_partial (fl : Floats) (k : Kind) (cs : List Call) (m m' : Maps) (hm : Fits k m)
    (h : run fl k cs m = some m') : Fits k m' := by
  induction cs generalizing m with
  | nil => injection h with h; exact h ▸ hm
  | cons c cs ih =>
    rw [run] at h
    cases hs : step fl k c m with
    | none => rw [hs] at h; cases h
    | some m1 =>
      rw [hs] at h
      refine ih m1 ?_ h
      obtain ⟨q, hq, h1, h2⟩ := step_some fl k c m m1 hs
      intro p a v hv
      by_cases hpq : p = q
      · subst hpq
        rw [h1, lookup_after] at hv
        rcases after_cases a (Spec.asks fl c) ((m p).lookup a) with he | ⟨b, w, hb, he⟩
        · exact hm p a v (he ▸ hv)
        · exact ⟨b, he, asks_allowed fl k c p hq b w hb⟩
      · exact hm p a v (h2 p hpq ▸ hv)

/-- A setter that puts each misplaced attribute. -/
def misplacing : List (Kind × Part × Call × String) :=
  [(.cell, .text, .font_size_rel (.percent ⟨⟨0⟩⟩), "fo:font-size-rel"), (.paragraph, .text, .font_size_rel (.percent ⟨⟨0⟩⟩), "fo:font-size-rel"),
   (.text, .text, .font_size_rel (.percent ⟨⟨0⟩⟩), "fo:font-size-rel"), (.graphic, .text, .font_size_rel (.percent ⟨⟨0⟩⟩), "fo:font-size-rel"),
   (.text, .text, .rotation_angle (.deg ⟨0⟩), "style:rotation-angle"), (.page, .own, .dynamic_spacing true, "style:dynamic-spacing"),
   (.frame, .attr, .draw_corner_radius 1, "draw:corner-radius"), (.annotation, .attr, .xml_id ['a'], "xml_id"),
   (.frame, .attr, .xml_id ['a'], "xml_id"), (.image, .attr, .xml_id ['a'], "xml_id")]

theorem misplacing_step (fl : Floats) : ∀ x ∈ misplacing,
    x.1.part x.2.2.1 = some x.2.1 ∧ (x.2.2.1.ops fl).isSome = true ∧ ∃ v, (x.2.2.2, some v) ∈ Spec.asks fl x.2.2.1 := by
  intro x hx
  simp only [misplacing, List.mem_cons, List.not_mem_nil, or_false] at hx
  rcases hx with rfl | rfl | rfl | rfl | rfl | rfl | rfl | rfl | rfl | rfl <;>
    exact ⟨by decide +kernel, rfl, _, List.mem_singleton.2 rfl⟩

/-- **C88** is false of the code: each of the misplaced attributes can be set, and the standard does not have it there. -/
theorem C88_misplaced_counterexample (fl : Floats) (k : Kind) (a : String) (h : (k, a) ∈ misplaced) :
    ∃ c p m' v, run fl k [c] (fun _ => []) = some m' ∧ (m' p).lookup a.toList = some v ∧ a ∉ Odf.attributes k p := by
  have hd : ∀ x ∈ misplacing, x.2.2.2 ∉ Odf.attributes x.1 x.2.1 := by decide +kernel
  have hx : ∃ x ∈ misplacing, x.1 = k ∧ x.2.2.2 = a := by
    simp only [misplaced, List.mem_cons, List.not_mem_nil, or_false, Prod.mk.injEq] at h
    rcases h with ⟨rfl, rfl⟩ | ⟨rfl, rfl⟩ | ⟨rfl, rfl⟩ | ⟨rfl, rfl⟩ | ⟨rfl, rfl⟩ | ⟨rfl, rfl⟩ | ⟨rfl, rfl⟩ | ⟨rfl, rfl⟩
      | ⟨rfl, rfl⟩ | ⟨rfl, rfl⟩ <;> simp [misplacing]
  obtain ⟨x, hx, rfl, rfl⟩ := hx
  obtain ⟨h1, h2, v, h3⟩ := misplacing_step fl x hx
  obtain ⟨os, ho⟩ := Option.isSome_iff_exists.1 h2
  have hs : ∃ m', run fl x.1 [x.2.2.1] (fun _ => []) = some m' := by
    simp only [run, step, h1, ho]
    exact ⟨_, rfl⟩
  obtain ⟨m', hm⟩ := hs
  obtain ⟨p, hp, hl⟩ := C87_last_partial fl x.1 [] [] x.2.2.1 (fun _ => []) m' hm (fun d hd => by cases hd)
  rw [h1] at hp
  injection hp with hp
  subst hp
  exact ⟨_, _, m', v, hm, hl _ _ h3, hd x hx⟩

/-- Names of setters, for the check below. -/
def namedB (setter a : String) : Bool :=
  Odf.localName a == Odf.spelled setter || (a.toList.map fun c => if c = ':' then '-' else c) == Odf.spelled setter
    || Odf.otherNames.any fun l => l.1 == setter && l.2.contains a

theorem named_of (s a : String) (h : namedB s a = true) : Odf.Named s a := by
  unfold namedB at h
  simp only [Bool.or_eq_true, beq_iff_eq, List.any_eq_true, Bool.and_eq_true, List.contains_eq_mem, decide_eq_true_eq] at h
  rcases h with (h | h) | h
  · exact .inl h
  · exact .inr (.inl h)
  · exact .inr (.inr h)

theorem named_all : (entries.all fun e => e.2.2.all fun a => namedB e.2.1 a) = true := by
  decide +kernel

/-- **C88**: a setter sets the attribute it is named after, or those in a list of 26 exceptions. -/
theorem C88_named (fl : Floats) (c : Call) (a : String) (v : Option Str) (h : (a, v) ∈ Spec.asks fl c) :
    Odf.Named c.name a := by
  obtain ⟨e, he, -, h2, h3⟩ := entry_of fl c
  exact h2 ▸ named_of _ _ (List.all_eq_true.1 (List.all_eq_true.1 named_all e he) a (h3 _ h))

/-- The hypotheses are met: an empty style fits, and this history puts many attributes into it. -/
theorem C88_meets : Fits .cell (fun _ => [])
    ∧ ((run bits .cell demo fun _ => []).map fun m => ((m .own).length, (m .text).length)) = some (3, 5) :=
  ⟨fun p a v h => (by cases h), by decide +kernel⟩

end Verif.Attr
