import Verif.TableXml.Body

/-!
# C65: all sheets in the file

The body of the document is written as a text and read back.
-/

set_option autoImplicit false

namespace Verif.TableXml

open Xml Xml.Spec Codec

/-! ## Specification -/

/-- The text that is written for the body. -/
def bodyText (fl : Floats) (defStyle : ValueType → Option String) (lb : Bool) (extra : List Node)
    (vs : List Valid.Validation) (sheets : List (Head × TSheet)) : Except WErr Str :=
  (writeSheets sheets).map fun tables => output lb (bodyCalls fl defStyle extra vs tables)

/-- Reading such a text. -/
def readBodyText (fl : Floats) (m : Refs.Ints) (o : Opts) (text : Str) : Except Fault BookBody :=
  match tokenize text with
  | none => .error .malformed
  | some ts =>
    match events ts with
    | .start n _ :: es => if n = tBody then (readBody fl m o es).map Prod.fst else .error .malformed
    | _ => .error .malformed

/-- Foreign elements of the workbook that have a place, with texts that can be kept apart.  In a flat file there
are none, and no validations. -/
structure BookOk (lb : Bool) (extra : List Node) (vs : List Valid.Validation) : Prop where
  flat : lb = false ∨ (extra = [] ∧ vs = [])
  extra : ∀ t ∈ extra, ∃ n as c, t = .tag n as c ∧ (n ∈ bookPrelude ∨ n ∈ bookEpilogue) ∧ NamesOk t ∧ AllWithout n c
    ∧ TextsApartIn t
  valid : ∀ v ∈ vs, Valid.Ok v
  names : (vs.map (·.name)).Nodup
  count : 2 * vs.length < 4294967296

/-- Sheets that come back one by one in their order. -/
inductive SameSheets (ignoreEmpty : Bool) (defStyle : ValueType → Option String) : List (Head × TSheet) → List (Head × TSheet) → Prop where
  | nil : SameSheets ignoreEmpty defStyle [] []
  | cons {h : Head} {s s' : TSheet} {l l' : List (Head × TSheet)} : SameSheet ignoreEmpty defStyle s s' →
    SameSheets ignoreEmpty defStyle l l' → SameSheets ignoreEmpty defStyle ((h, s) :: l) ((h, s') :: l')

/-! ## Proofs -/

theorem BookOk.extras {lb : Bool} {extra : List Node} {vs : List Valid.Validation} (h : BookOk lb extra vs) :
    ExtrasOk lb extra := by
  refine ⟨?_, fun t ht => ?_⟩
  · rcases h.flat with h | h
    · exact .inl h
    · exact .inr h.1
  · obtain ⟨n, as, c, e, _, h1, h2, _⟩ := h.extra t ht
    exact ⟨n, as, c, e, h1, h2⟩

theorem tables_epilogue {lb : Bool} {sheets : List (Head × TSheet)} (hh : ∀ p ∈ sheets, HeadOk lb p.1) :
    ∀ tables, writeSheets sheets = .ok tables → (tables.flatMap fun p => epilogue p.1.extra) = [] := by
  induction sheets with
  | nil => intro tables h; cases h; rfl
  | cons p sheets ih =>
    obtain ⟨h, s⟩ := p
    intro tables ht
    rw [writeSheets] at ht
    cases hw : writeSheet s with
    | error e => rw [hw] at ht; cases ht
    | ok evs =>
      rw [hw] at ht
      simp only at ht
      cases hl : writeSheets sheets with
      | error e => rw [hl] at ht; cases ht
      | ok l =>
        rw [hl] at ht
        cases ht
        rw [List.flatMap_cons, ih (fun p hp => hh p (List.mem_cons_of_mem _ hp)) l hl]
        have := epilogue_none (hh (h, s) List.mem_cons_self)
        simp only at this ⊢
        rw [this]
        rfl

theorem extras_back {lb : Bool} {extra : List Node} {vs : List Valid.Validation} (h : BookOk lb extra vs)
    (tables : List (Head × List TEv)) (ht : (tables.flatMap fun p => epilogue p.1.extra) = []) :
    extraBack extra tables = (extra.filter fun t => decide (nodeName t ∈ bookPrelude))
      ++ (extra.filter fun t => decide (nodeName t ∈ bookEpilogue)) := by
  have hid : ∀ t ∈ extra, norm t = t := by
    intro t ht
    obtain ⟨n, as, c, rfl, _, _, _, h2⟩ := h.extra t ht
    simp only [TextsApartIn] at h2
    rw [norm, norms_apart _ c (Nat.le_refl _) h2.1 h2.2]
  unfold extraBack
  rw [ht, List.append_nil]
  rw [List.map_congr_left (g := id), List.map_id]
  intro t ht
  rcases List.mem_append.mp ht with ht | ht <;> exact hid t (List.mem_filter.mp ht).1

/-- A sheet in its place. -/
theorem sheetlike (fl : Floats) (m : Refs.Ints) (hm : m.max = Refs.Spec.maxU32) (o : Opts)
    (defStyle : ValueType → Option String) (lb : Bool) (h : Head) (hh : HeadOk lb h) (s : TSheet)
    (hs : SheetOk fl lb s) (hw : s.colHeader.WF) (evs : List TEv) (he : writeSheet s = .ok evs) (s' : TSheet)
    (hr : readTable (absOpts id defStyle o) evs = some s') :
    Sheetlike fl m o id defStyle lb (h, evs) (h, s') where
  fits := fun e hm => fits_of_within fl lb s hs e (within_sheet _ s hs.small hs.cells.rows hw evs he e hm)
  extra := hh.extras
  ranges := by
    intro l hl
    simp only at hl ⊢
    rw [hl]
    exact Refs.C37_roundtrip_partial m hm l (hh.ranges l hl).1 (hh.ranges l hl).2
  noRanges := fun e => e
  head := hh.back.symm
  body := hr

/-- Each sheet is what the reader of tables makes of the tags that were written for it. -/
inductive Rounds (o : ReadOpts) : List (Head × TSheet) → List (Head × TSheet) → Prop where
  | nil : Rounds o [] []
  | cons {h : Head} {s s' : TSheet} {evs : List TEv} {l l' : List (Head × TSheet)} : writeSheet s = .ok evs →
    readTable o evs = some s' → Rounds o l l' → Rounds o ((h, s) :: l) ((h, s') :: l')

theorem sheetlikes (fl : Floats) (m : Refs.Ints) (hm : m.max = Refs.Spec.maxU32) (ignoreEmpty : Bool)
    (defStyle : ValueType → Option String) (lb : Bool) (sheets : List (Head × TSheet))
    (h : ∀ p ∈ sheets, HeadOk lb p.1 ∧ SheetOk fl lb p.2 ∧ SheetFits p.2) :
    ∃ tables back, writeSheets sheets = .ok tables
      ∧ Sheetlikes fl m ⟨ignoreEmpty, false⟩ id defStyle lb tables back ∧ SameSheets ignoreEmpty defStyle sheets back
      ∧ Rounds (absOpts id defStyle ⟨ignoreEmpty, false⟩) sheets back := by
  induction sheets with
  | nil => exact ⟨[], [], rfl, .nil, .nil, .nil⟩
  | cons p sheets ih =>
    obtain ⟨hd, s⟩ := p
    obtain ⟨tables, back, i1, i2, i3, i4⟩ := ih (fun p hp => h p (List.mem_cons_of_mem _ hp))
    obtain ⟨h1, h2, h3⟩ := h (hd, s) List.mem_cons_self
    obtain ⟨evs, s', a1, a2, a3⟩ := same_sheet fl defStyle lb s h2 h3 ignoreEmpty
    refine ⟨(hd, evs) :: tables, (hd, s') :: back, ?_, .cons ?_ i2, .cons a3 i3, .cons a1 a2 i4⟩
    · rw [writeSheets, a1]
      simp only [i1]
      rfl
    · exact sheetlike fl m hm _ defStyle lb hd h1 s h2 h3.cols.wf evs a1 s' a2

theorem body_text_reads {fl : Floats} {m : Refs.Ints} (hm : m.max = Refs.Spec.maxU32) {o : Opts} {bv : Value → Value}
    {defStyle : ValueType → Option String} {lb : Bool} (extra : List Node) (hx : ExtrasOk lb extra)
    (vs : List Valid.Validation) (hv : ∀ v ∈ vs, Valid.Ok v) (hl : lb = false ∨ vs = [])
    (b : Book.Stores Valid.Body) (hb : Valid.stored vs {} = .ok b) {tables : List (Head × List TEv)}
    {back : List (Head × TSheet)} (h : Sheetlikes fl m o bv defStyle lb tables back) :
    readBodyText fl m o (output lb (bodyCalls fl defStyle extra vs tables))
      = .ok { extra := extraBack extra tables, valid := b, sheets := back } := by
  unfold readBodyText
  rw [← bodyItems_calls extra vs h, tok_fragment lb _ (bodyItems_valid extra hx vs hv h) (by
    intro i hi
    unfold bodyItems at hi
    have hi : i = .end false tBody := by
      simp only [List.getLast?_cons, List.getLast?_append, Option.getD_some, Option.some_or] at hi
      simpa using hi.symm
    subst hi
    exact id)]
  obtain ⟨es, h1, h2⟩ := body_reads hm extra hx vs hv hl b hb h []
  rw [List.append_nil] at h1
  simp only [h1, if_true, h2]
  rfl

/-- **C65 (partial).** A workbook is written, and reading gives its sheets, all of them and in their order, each as
in C64, its validations as in C49, and its foreign elements, those that stand in front of the sheets first.

Missing (`_partial`): the limits of C64 and C49, foreign elements and validations in flat files. -/
theorem C65_sheets_partial (fl : Floats) (m : Refs.Ints) (hm : m.max = Refs.Spec.maxU32) (ignoreEmpty : Bool)
    (defStyle : ValueType → Option String) (lb : Bool) (extra : List Node) (vs : List Valid.Validation)
    (sheets : List (Head × TSheet)) (hb : BookOk lb extra vs)
    (h : ∀ p ∈ sheets, HeadOk lb p.1 ∧ SheetOk fl lb p.2 ∧ SheetFits p.2) :
    ∃ text b, bodyText fl defStyle lb extra vs sheets = .ok text
      ∧ readBodyText fl m ⟨ignoreEmpty, false⟩ text = .ok b
      ∧ SameSheets ignoreEmpty defStyle sheets b.sheets
      ∧ b.extra = (extra.filter fun t => decide (nodeName t ∈ bookPrelude))
          ++ (extra.filter fun t => decide (nodeName t ∈ bookEpilogue))
      ∧ ∀ v ∈ vs, ∃ w, b.valid.get? .validation v.name = some w ∧ w.name = v.name ∧ w.body.rule = v.body.rule := by
  obtain ⟨tables, back, h1, h2, h3, _⟩ := sheetlikes fl m hm ignoreEmpty defStyle lb sheets h
  obtain ⟨b, rs, g1, _⟩ := Book.C41_map (Valid.ops vs) (by rw [Valid.ops_length]; exact hb.count)
  have hst := Valid.stored_run vs {} b rs g1
  refine ⟨_, { extra := extraBack extra tables, valid := b, sheets := back }, by unfold bodyText; rw [h1]; rfl,
    body_text_reads hm extra hb.extras vs hb.valid (hb.flat.imp id And.right) b hst h2, h3,
    extras_back hb tables (tables_epilogue (fun p hp => (h p hp).1) tables h1), fun v hv => ⟨Valid.named v, ?_, rfl, rfl⟩⟩
  exact (Valid.stored_get vs {} b hst (fun w hw => (hb.valid w hw).name) hb.names).1 v hv

theorem same_names {ignoreEmpty : Bool} {defStyle : ValueType → Option String} {l l' : List (Head × TSheet)}
    (h : SameSheets ignoreEmpty defStyle l l') : l'.map (·.1.name) = l.map (·.1.name) := by
  induction h with
  | nil => rfl
  | cons _ _ ih => rw [List.map_cons, List.map_cons, ih]

/-- **C65**: the names of the sheets come back in their order. -/
theorem C65_names (fl : Floats) (m : Refs.Ints) (hm : m.max = Refs.Spec.maxU32) (ignoreEmpty : Bool)
    (defStyle : ValueType → Option String) (lb : Bool) (extra : List Node) (vs : List Valid.Validation)
    (sheets : List (Head × TSheet)) (hb : BookOk lb extra vs)
    (h : ∀ p ∈ sheets, HeadOk lb p.1 ∧ SheetOk fl lb p.2 ∧ SheetFits p.2) :
    ∃ text b, bodyText fl defStyle lb extra vs sheets = .ok text
      ∧ readBodyText fl m ⟨ignoreEmpty, false⟩ text = .ok b
      ∧ b.sheets.map (·.1.name) = sheets.map (·.1.name) := by
  obtain ⟨text, b, h1, h2, h3, _⟩ := C65_sheets_partial fl m hm ignoreEmpty defStyle lb extra vs sheets hb h
  refine ⟨text, b, h1, h2, ?_⟩
  exact same_names h3

/-- The foreign elements are the same up to their order. -/
theorem C65_extra_perm {lb : Bool} {extra : List Node} {vs : List Valid.Validation} (hb : BookOk lb extra vs) :
    ((extra.filter fun t => decide (nodeName t ∈ bookPrelude))
      ++ (extra.filter fun t => decide (nodeName t ∈ bookEpilogue))).Perm extra := by
  have hd : ∀ n ∈ bookPrelude, n ∉ bookEpilogue := by decide +kernel
  have : (extra.filter fun t => decide (nodeName t ∈ bookEpilogue))
      = extra.filter fun t => !decide (nodeName t ∈ bookPrelude) := by
    apply List.filter_congr
    intro t ht
    obtain ⟨n, as, c, rfl, h1, _⟩ := hb.extra t ht
    show decide (n ∈ bookEpilogue) = !decide (n ∈ bookPrelude)
    by_cases hp : n ∈ bookPrelude
    · rw [decide_eq_true hp, decide_eq_false (hd n hp)]; rfl
    · rw [decide_eq_false hp, decide_eq_true (h1.resolve_left hp)]; rfl
  rw [this]
  exact List.filter_append_perm _ _

/-! ## Examples -/

/-- Two sheets, a validation and two foreign elements. -/
def demoExtra : List Node :=
  [.tag "table:database-ranges".toList [] [.tag "table:database-range".toList [("table:name".toList, "a<b".toList)] []],
   .tag "table:calculation-settings".toList [("table:case-sensitive".toList, "false".toList)] []]

theorem demo_book_ok : BookOk false demoExtra [Valid.demo] where
  flat := .inl rfl
  extra := by
    intro t ht
    simp only [demoExtra, List.mem_cons, List.not_mem_nil, or_false] at ht
    rcases ht with rfl | rfl
    · refine ⟨_, _, _, rfl, by decide, ?_, ?_, ?_⟩
      · exact ⟨by decide, by simp, ⟨by decide, by decide, trivial⟩, trivial⟩
      · exact ⟨⟨by decide, trivial⟩, trivial⟩
      · exact ⟨by simp [TextsApart], ⟨by simp [TextsApart], trivial⟩, trivial⟩
    · refine ⟨_, _, _, rfl, by decide, ?_, trivial, ?_⟩
      · exact ⟨by decide, by decide, trivial⟩
      · exact ⟨by simp [TextsApart], trivial⟩
  valid := by
    intro v hv
    cases hv with
    | head => exact Valid.demo_ok
    | tail _ h => cases h
  names := by decide
  count := by decide

/-- The hypotheses are met by two sheets. -/
theorem C65_meets (fl : Floats) : ∃ text b,
    bodyText fl (fun _ => none) false demoExtra [Valid.demo] [(fullHead, fullSheet), ({ name := "b".toList }, fullSheet)] = .ok text
    ∧ readBodyText fl Refs.checked {} text = .ok b ∧ b.sheets.map (·.1.name) = ["A & <B>".toList, "b".toList] := by
  refine C65_names fl Refs.checked rfl false (fun _ => none) false demoExtra [Valid.demo]
    [(fullHead, fullSheet), ({ name := "b".toList }, fullSheet)] demo_book_ok ?_
  intro p hp
  simp only [List.mem_cons, List.not_mem_nil, or_false] at hp
  rcases hp with rfl | rfl
  · exact ⟨fullHead_ok, fullSheet_ok fl false, fullSheet_fits⟩
  · exact ⟨⟨(by intro l hl; cases hl), .inl rfl, (by intro t ht; cases ht)⟩, fullSheet_ok fl false, fullSheet_fits⟩

/-! ## Where it fails -/

/-- The named expressions of a sheet are written behind the end of its table, and are found among those of the
workbook. -/
theorem C65_moved_counterexample :
    (match bodyText bitFloats (fun _ => none) false [] []
        [({ name := "a".toList, extra := [.tag "table:named-expressions".toList [] []] }, {})] with
      | .error _ => none
      | .ok text =>
        match readBodyText bitFloats Refs.checked {} text with
        | .error _ => none
        | .ok b => some (b.extra, b.sheets.map (fun p => (p.1.name, p.1.extra))))
      = some ([.tag "table:named-expressions".toList [] []], [("a".toList, [])]) := by
  decide +kernel

end Verif.TableXml
