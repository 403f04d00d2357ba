import Verif.Codec.CellProps
import Verif.Codec.Base64

/-!
# C66, C67, C68: annotations and images of a cell after writing and reading
-/

set_option autoImplicit false

namespace Verif.Codec

open Xml Xml.Spec

/-! ## Specification -/

/-- Two lists of the same length, whose elements correspond one to one and in order. -/
def Each {α : Type} (R : α → α → Prop) : List α → List α → Prop
  | [], [] => True
  | a :: l, b :: m => R a b ∧ Each R l m
  | _, _ => False

/-- The same annotation; its text has the same tags, attributes and characters in the same order. -/
structure SameNote (a b : Annotation) : Prop where
  name : b.name = a.name
  display : b.display = a.display
  creator : b.creator = a.creator
  date : b.date = a.date
  attrs : b.attrs = a.attrs
  text : Each (fun x y => treeSays y = treeSays x) a.text b.text

/-- The same image. -/
structure SameImage (i j : DrawImage) : Prop where
  attrs : j.attrs = i.attrs
  binary : j.binary = i.binary
  text : Each (fun x y => treeSays y = treeSays x) i.text j.text

/-- The same frame. -/
structure SameFrame (f g : DrawFrame) : Prop where
  attrs : g.attrs = f.attrs
  title : g.title = f.title
  desc : g.desc = f.desc
  images : Each SameImage f.images g.images

/-! ## Lemmas -/

theorem each_map {α : Type} (R : α → α → Prop) (f : α → α) (l : List α) (h : ∀ x ∈ l, R x (f x)) :
    Each R l (l.map f) := by
  induction l with
  | nil => trivial
  | cons a l ih => exact ⟨h a List.mem_cons_self, ih fun x hx => h x (List.mem_cons_of_mem _ hx)⟩

theorem norm_says (x : Node) : treeSays (norm x) = treeSays x := by
  cases x with
  | text s => rw [norm]
  | tag n as c =>
    rw [norm, treeSays, treeSays, norms_says _ c (Nat.le_refl _)]

theorem ann_same (a : Annotation) : SameNote a (annBack a) :=
  ⟨rfl, rfl, rfl, rfl, rfl, each_map _ _ _ fun x _ => norm_says x⟩

theorem image_same (i : DrawImage) : SameImage i (imageBack i) :=
  ⟨rfl, rfl, each_map _ _ _ fun x _ => norm_says x⟩

theorem frame_same (f : DrawFrame) : SameFrame f (frameBack f) :=
  ⟨rfl, rfl, rfl, each_map _ _ _ fun i _ => image_same i⟩

theorem noSpan : SpanOk {} := by unfold SpanOk; decide

/-! ## C66 -/

/-- C66 and C67: the annotation and the frames of a cell come back, the annotation and the images with texts that
say the same. -/
theorem C66_notes_partial (fl : Floats) (defStyle : ValueType → Option String) (c : CellData) (hidden : Bool)
    (rep : Nat) (lb ie : Bool) (cs : Option String) (hn : NotesOk lb c)
    (hs : SpanOk (c.extra.getD {}).span) (hm : SpanOk (c.extra.getD {}).matrixSpan) (h1 : 1 ≤ rep)
    (h2 : rep ≤ 4294967295) (hv : ValueKept fl lb c.value)
    (hb : (c.extra.getD {}).annotation ≠ none ∨ (c.extra.getD {}).drawFrames ≠ []) :
    ∃ x, readBack fl ie cs (cellXml fl defStyle c hidden rep lb) = some (rep, some x) ∧ x.value = c.value
      ∧ ((c.extra.getD {}).annotation = none → x.annotation = none)
      ∧ (∀ a, (c.extra.getD {}).annotation = some a → ∃ b, x.annotation = some b ∧ SameNote a b)
      ∧ Each SameFrame (c.extra.getD {}).drawFrames x.drawFrames := by
  obtain ⟨x, hx⟩ : ∃ x, x = ({ headContent defStyle c with value := c.value, «repeat» := rep } : CellContent) := ⟨_, rfl⟩
  have hxa : x.annotation = (c.extra.getD {}).annotation.map annBack := by rw [hx]; rfl
  have hxf : x.drawFrames = (c.extra.getD {}).drawFrames.map frameBack := by rw [hx]; rfl
  refine ⟨x, (cell_back_notes fl defStyle c hidden rep lb ie cs c.value hn hs hm h1 h2 (back_kept fl lb c.value hv)
    x hx).2 ?_, by rw [hx], ?_, ?_, ?_⟩
  · rintro ⟨_, _, _, h3, h4, _⟩
    rcases hb with hb | hb
    · rw [hxa] at h3
      exact hb (Option.map_eq_none_iff.1 h3)
    · rw [hxf] at h4
      exact hb (List.map_eq_nil_iff.1 h4)
  · intro h; rw [hxa, h]; rfl
  · intro a h
    exact ⟨annBack a, by rw [hxa, h]; rfl, ann_same a⟩
  · rw [hxf]
    exact each_map _ _ _ fun f _ => frame_same f

/-- **C66** (part): the annotation of a cell comes back with its name, display flag, creator, date and attributes
and a text that says the same; in a package file.  Missing: dates after the year 9999
(`C66_year_counterexample`), texts in other elements than `text:p` and `text:list`
(`C66_heading_counterexample`), lists in lists (`C66_list_counterexample`), texts in flat files
(`C66_flat_counterexample`). -/
theorem C66_annotation_partial (fl : Floats) (defStyle : ValueType → Option String) (c : CellData) (hidden ie : Bool)
    (cs : Option String) (a : Annotation) (hc : c.extra = some { annotation := some a }) (ha : AnnotationOk false a)
    (hv : ValueKept fl false c.value) :
    ∃ x b, readBack fl ie cs (cellXml fl defStyle c hidden 1 false) = some (1, some x) ∧ x.value = c.value
      ∧ x.annotation = some b ∧ SameNote a b := by
  have he : c.extra.getD {} = { annotation := some a } := by rw [hc]; rfl
  have hn : NotesOk false c := by
    unfold NotesOk
    rw [he]
    refine ⟨?_, ?_⟩
    · rintro b ⟨⟩; exact ha
    · intro f hf; cases hf
  obtain ⟨x, h1, h2, _, h4, _⟩ := C66_notes_partial fl defStyle c hidden 1 false ie cs hn
    (by rw [he]; exact noSpan) (by rw [he]; exact noSpan) (by decide) (by decide) hv
    (.inl (by rw [he]; simp))
  obtain ⟨b, h5, h6⟩ := h4 a (by rw [he])
  exact ⟨x, b, h1, h2, h5, h6⟩

/-- C66: if the texts have no empty or adjacent pieces and no markup characters the annotation is the same. -/
theorem C66_same (a : Annotation) (h : ∀ x ∈ a.text, TextsApartIn x) : annBack a = a := by
  unfold annBack
  rw [map_same norm a.text fun x hx => norm_apart x (h x hx)]

/-- Concrete case: an annotation with a text with markup characters, creator, date and an attribute. -/
def demoNote : Annotation :=
  { name := "n<1>".toList, display := true, creator := some "A & B".toList, date := some ⟨2024, 2, 29, 12, 30, 15, 0⟩
    text := [.tag tPara [] [.text "1 < 2".toList]], attrs := [("svg:width".toList, "2cm".toList)] }

theorem demoNote_ok : AnnotationOk false demoNote := by
  refine ⟨?_, ?_, ?_, .inl rfl⟩
  · intro x hx
    have : x = _ := List.mem_singleton.1 hx
    subst this
    decide
  · rintro d ⟨⟩
    unfold ValidDateTime
    decide
  · intro x hx
    have : x = _ := List.mem_singleton.1 hx
    subst this
    exact ⟨tPara, [], _, rfl, .inr rfl, ⟨by decide, (by intro a h; cases h), trivial, trivial⟩, ⟨trivial, trivial⟩⟩

example (fl : Floats) : ∃ x b, readBack fl false none (cellXml fl (fun _ => none)
    { value := .boolean true, extra := some { annotation := some demoNote } } false 1 false) = some (1, some x)
    ∧ x.value = .boolean true ∧ x.annotation = some b ∧ SameNote demoNote b :=
  C66_annotation_partial fl _ _ false false none demoNote rfl demoNote_ok trivial

/-- The annotation that is read back for a cell with nothing but this annotation; `none` if the cell cannot be
read. -/
def noteBack (lb : Bool) (a : Annotation) : Option (Option Annotation) :=
  (readBack bitFloats false none (cellXml bitFloats (fun _ => none) { extra := some { annotation := some a } } false 1 lb)).map
    fun r => r.2.bind CellContent.annotation

/-- C66 fails for a heading: the text is lost. -/
theorem C66_heading_counterexample :
    noteBack false { text := [.tag "text:h".toList [] [.text "a".toList]] } = some (some {}) := by
  decide +kernel

/-- An annotation with a list in a list. -/
def nestedNote : Annotation :=
  { text := [.tag tList [] [.tag "text:list-item".toList []
      [.tag tPara [] [.text "a".toList], .tag tList [] [.tag "text:list-item".toList [] [.text "b".toList]]]]] }

/-- C66 fails for a list in a list: it does not come back (the reader of the list stops at the end of the inner
list, see `C32_nested_counterexample`). -/
theorem C66_list_counterexample : noteBack false nestedNote ≠ some (some nestedNote) := by
  decide +kernel

/-- C66 fails in a flat file: the line breaks of the writer become text. -/
theorem C66_flat_counterexample :
    noteBack true { text := [.tag tPara [] [.tag "text:s".toList [] [], .text "a".toList]] }
      = some (some { text := [.tag tPara [] [.tag "text:s".toList [] [], .text "\na".toList]] }) := by
  decide +kernel

/-- C66 fails for a date after the year 9999: the cell, and so the file, cannot be read. -/
theorem C66_year_counterexample : noteBack false { date := some ⟨10000, 1, 1, 0, 0, 0, 0⟩ } = none := by
  decide +kernel

/-! ## C67 -/

/-- **C67** (part): the frames of a cell come back in their order, each with its title, description and
attributes and its images in their order, each with its attributes and binary data and a text that says the same;
in a package file.  Missing: as for C66, and binary data with markup characters
(`C67_binary_counterexample`). -/
theorem C67_frames_partial (fl : Floats) (defStyle : ValueType → Option String) (c : CellData) (hidden ie : Bool)
    (cs : Option String) (l : List DrawFrame) (hc : c.extra = some { drawFrames := l }) (hl : l ≠ [])
    (hf : ∀ f ∈ l, FrameOk false f) (hv : ValueKept fl false c.value) :
    ∃ x, readBack fl ie cs (cellXml fl defStyle c hidden 1 false) = some (1, some x) ∧ x.value = c.value
      ∧ Each SameFrame l x.drawFrames := by
  have he : c.extra.getD {} = { drawFrames := l } := by rw [hc]; rfl
  have hn : NotesOk false c := by
    unfold NotesOk
    rw [he]
    exact ⟨(by rintro b ⟨⟩), hf⟩
  obtain ⟨x, h1, h2, _, _, h5⟩ := C66_notes_partial fl defStyle c hidden 1 false ie cs hn
    (by rw [he]; exact noSpan) (by rw [he]; exact noSpan) (by decide) (by decide) hv
    (.inr (by rw [he]; exact hl))
  rw [he] at h5
  exact ⟨x, h1, h2, h5⟩

/-- Concrete case: a linked and an embedded image. -/
def demoFrame : DrawFrame :=
  { attrs := [("draw:z-index".toList, "0".toList)], title := some "t<".toList, desc := some []
    images := [{ attrs := [("xlink:href".toList, "Pictures/a&b.png".toList)] },
               { binary := some (encode64 [104, 101, 108, 108, 111]), text := [.tag tPara [] [.text "p & q".toList]] }] }

theorem demoFrame_ok : FrameOk false demoFrame := by
  refine ⟨?_, ?_⟩
  · intro x hx
    have : x = _ := List.mem_singleton.1 hx
    subst this
    decide
  · intro i hi
    simp only [demoFrame, List.mem_cons, List.not_mem_nil, or_false] at hi
    rcases hi with rfl | rfl
    · refine ⟨?_, (by intro b h; cases h), (by intro x h; cases h), .inl rfl⟩
      intro x hx
      have : x = _ := List.mem_singleton.1 hx
      subst this
      decide
    · refine ⟨(by intro x h; cases h), ?_, ?_, .inl rfl⟩
      · rintro b ⟨⟩
        exact encode64_plain _
      · intro x hx
        have : x = _ := List.mem_singleton.1 hx
        subst this
        exact ⟨tPara, [], _, rfl, .inr rfl, ⟨by decide, (by intro a h; cases h), trivial, trivial⟩, ⟨trivial, trivial⟩⟩

example (fl : Floats) : ∃ x, readBack fl false none (cellXml fl (fun _ => none)
    { extra := some { drawFrames := [demoFrame, demoFrame] } } false 1 false) = some (1, some x)
    ∧ x.value = .empty ∧ Each SameFrame [demoFrame, demoFrame] x.drawFrames :=
  C67_frames_partial fl _ _ false false none _ rfl (by simp) (by
    intro f hf
    simp only [List.mem_cons, List.not_mem_nil, or_false, or_self] at hf
    rw [hf]; exact demoFrame_ok) trivial

/-- The frames that are read back for a cell with nothing but this image. -/
def imageIn (i : DrawImage) : Option (List DrawFrame) :=
  (readBack bitFloats false none (cellXml bitFloats (fun _ => none)
    { extra := some { drawFrames := [{ images := [i] }] } } false 1 false)).map
    fun r => (r.2.map CellContent.drawFrames).getD []

/-- C67 fails for binary data with markup characters, which `set_binary_base64` accepts: it is not escaped, and
the file cannot be read. -/
theorem C67_binary_counterexample :
    imageIn { binary := some "a<b".toList } = none ∧ imageIn { binary := some "a&b".toList } = none := by
  decide +kernel

/-! ## C68 -/

/-- **C68**: the bytes given to `set_binary` are returned by `get_binary`, before and after writing and
reading, for all bytes. -/
theorem C68_binary (bs : List Nat) (h : Bytes bs) :
    getBinary (some (encode64 bs)) = some bs ∧ Plain (encode64 bs) :=
  ⟨decode_encode bs h, encode64_plain bs⟩

/-- C68, in a file: a cell with a frame with this image. -/
theorem C68_file (fl : Floats) (bs : List Nat) (h : Bytes bs) :
    ∃ x g j, readBack fl false none (cellXml fl (fun _ => none)
        { extra := some { drawFrames := [{ images := [{ binary := some (encode64 bs) }] }] } } false 1 false)
        = some (1, some x)
      ∧ x.drawFrames = [g] ∧ g.images = [j] ∧ getBinary j.binary = some bs := by
  obtain ⟨x, h1, _, h3⟩ := C67_frames_partial fl (fun _ => none)
    { extra := some { drawFrames := [{ images := [{ binary := some (encode64 bs) }] }] } } false false none _ rfl
    (by simp) (by
      intro f hf
      have : f = _ := List.mem_singleton.1 hf
      subst this
      refine ⟨(by intro a ha; cases ha), ?_⟩
      intro i hi
      have : i = _ := List.mem_singleton.1 hi
      subst this
      refine ⟨(by intro a ha; cases ha), ?_, (by intro a ha; cases ha), .inl rfl⟩
      rintro b ⟨⟩
      exact encode64_plain bs) trivial
  cases hd : x.drawFrames with
  | nil => rw [hd] at h3; exact absurd h3 id
  | cons g l =>
    rw [hd] at h3
    obtain ⟨h4, h5⟩ := h3
    cases l with
    | cons _ _ => exact absurd h5 id
    | nil =>
      have h6 := h4.images
      cases hi : g.images with
      | nil => rw [hi] at h6; exact absurd h6 id
      | cons j m =>
        rw [hi] at h6
        obtain ⟨h7, h8⟩ := h6
        cases m with
        | cons _ _ => exact absurd h8 id
        | nil => exact ⟨x, g, j, h1, hd, hi, by rw [h7.binary]; exact decode_encode bs h⟩

/-- C68, exactly: `get_binary` accepts the texts `set_binary` makes and no other. -/
theorem C68_accepts (s : Str) (bs : List Nat) : decode64 s = some bs ↔ Bytes bs ∧ s = encode64 bs := by
  constructor
  · intro h
    obtain ⟨h1, h2⟩ := encode_decode s bs h
    exact ⟨h1, h2.symm⟩
  · rintro ⟨h1, rfl⟩
    exact decode_encode bs h1

/-- Concrete case. -/
example : Bytes [0, 255, 16] ∧ encode64 [104, 101, 108, 108, 111] = "aGVsbG8".toList := by
  refine ⟨?_, by decide⟩
  unfold Bytes
  decide

/-- What other programs write, with padding or line breaks as the standard allows, is refused by `get_binary`. -/
theorem C68_padding_counterexample :
    decode64 "aGVsbG8=".toList = none ∧ decode64 "aGVs\nbG8".toList = none := by
  decide +kernel

end Verif.Codec
