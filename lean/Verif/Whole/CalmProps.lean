import Verif.Whole.CalmFile

/-!
# C117: Reading anything comes to an end, with a workbook or an error

The full statement: whatever is in the files, `read_ods` and `read_fods` return, with a workbook or with an error; they
do not panic and do not wait forever.  It is false of the code, and `Smooth`, `Verif/Whole/CalmTable.lean`, is what has
to be left out:

* durations whose sum is too long (`DurationFits`), rows or columns repeated zero times, validation conditions that are
  too short, empty tags of scripts (`AttrSafe`, `EvSafe`),
* tables that are not finished (`excess`, the number of end tags that is more than that of start tags),
* ends of header rows and groups that have no row in front of them (`Closed`).

For each kind there is a file below, which makes the reader panic or wait.
-/

set_option autoImplicit false

namespace Verif.Whole

open Xml Codec Xml.Spec
open TableXml (tTable tRow tColumn tRowGroup tColGroup tHeaderRows tHeaderCols)

/-! ## The theorems -/

/-- The text of a flat file, any text that has no trap in it: the reader returns.  It does not panic and does not wait
forever, with and without `content_only`.  Missing: the traps; a build with overflow checks, for which see C39; the
number of rows and columns, which the code counts with 32 bits. -/
theorem C117_flat_partial (contentOnly : Bool) (e : Env) (hw : e.ints.wrap = true) (text : Str)
    (hs : Smooth (eventsOf text)) (hn : (eventsOf text).length + 1 < 4294967296) :
    (∃ t, read_fods contentOnly e text = .ok t)
      ∨ ∃ f, read_fods contentOnly e text = .error f ∧ f ≠ .panic ∧ f ≠ .endless := by
  have h : Calm (read_fods contentOnly e text) := by
    unfold read_fods
    split
    · exact readFodsContent_calm e hw text hs (by omega)
    · exact (readFile_calm e hw .flat 0 {} text hs (room_new _ (by omega))).1
  cases hr : read_fods contentOnly e text with
  | ok t => exact .inl ⟨t, rfl⟩
  | error f =>
    rw [hr] at h
    exact .inr ⟨f, rfl, fun e => h.1 (by rw [e]), fun e => h.2 (by rw [e])⟩

/-- The number of events in a file that may be missing, and one for its end. -/
def sizeOfFile (z : Option Str) : Nat := z.elim 0 fun s => (eventsOf s).length + 1

/-- The files of a package, any texts that have no traps in them, and any of them missing: the reader returns. -/
theorem C117_package_partial (contentOnly : Bool) (e : Env) (hw : e.ints.wrap = true) (z : Files)
    (hs : ∀ text ∈ [z.metaXml, z.settingsXml, z.stylesXml, z.contentXml].filterMap id, Smooth (eventsOf text))
    (hn : sizeOfFile z.metaXml + sizeOfFile z.settingsXml + sizeOfFile z.stylesXml + sizeOfFile z.contentXml
      < 4294967296) :
    (∃ t, read_ods contentOnly e z = .ok t)
      ∨ ∃ f, read_ods contentOnly e z = .error f ∧ f ≠ .panic ∧ f ≠ .endless := by
  obtain ⟨zm, zs, zy, zc⟩ := z
  have pIf : ∀ (p : Ns.Part) (b : Target) (z : Option Str) (more : Nat), (∀ t, z = some t → Smooth (eventsOf t)) →
      Room b (sizeOfFile z + more) →
      Calm (readIf e p b z) ∧ ∀ b', readIf e p b z = .ok b' → Room b' more := by
    intro p b z more hs hb
    cases z with
    | none => exact ⟨calm_ok _, by intro b' h; cases h; exact hb.less (by simp [sizeOfFile])⟩
    | some t => exact readFile_calm e hw p more b t (hs t rfl) (hb.less (by simp [sizeOfFile]; omega))
  have pC : ∀ (b : Target), Room b (sizeOfFile zc) → Calm (readContent e b zc) := by
    intro b hb
    cases zc with
    | none => exact calm_error (by decide) (by decide)
    | some t => exact (readFile_calm e hw .content 0 b t (hs t (by simp [List.mem_filterMap])) (hb.less (by simp [sizeOfFile]))).1
  have h : Calm (read_ods contentOnly e ⟨zm, zs, zy, zc⟩) := by
    unfold read_ods
    split
    · exact pC {} (room_new _ (by simp only at hn; omega))
    · unfold readOds
      simp only at hn ⊢
      obtain ⟨h1, k1⟩ := pIf .metadata {} zm (sizeOfFile zs + sizeOfFile zy + sizeOfFile zc)
        (by intro t ht; exact hs t (by simp [List.mem_filterMap, ht])) (room_new _ (by omega))
      split
      · rename_i hr; exact h1.of hr
      · rename_i b hr
        obtain ⟨h2, k2⟩ := pIf .settings b zs (sizeOfFile zy + sizeOfFile zc)
          (by intro t ht; exact hs t (by simp [List.mem_filterMap, ht])) ((k1 b hr).less (by omega))
        split
        · rename_i hr; exact h2.of hr
        · rename_i b hr
          obtain ⟨h3, k3⟩ := pIf .styles b zy (sizeOfFile zc)
            (by intro t ht; exact hs t (by simp [List.mem_filterMap, ht])) (k2 b hr)
          split
          · rename_i hr; exact h3.of hr
          · rename_i b hr
            exact pC b (k3 b hr)
  cases hr : read_ods contentOnly e ⟨zm, zs, zy, zc⟩ with
  | ok t => exact .inl ⟨t, rfl⟩
  | error f =>
    rw [hr] at h
    exact .inr ⟨f, rfl, fun e => h.1 (by rw [e]), fun e => h.2 (by rw [e])⟩

/-! ## Files that meet the hypotheses -/

instance (s : Str) : Decidable (DurationFits s) :=
  match h : parseDuration s with
  | .ok _ => .isTrue (by unfold DurationFits; rw [h]; intro e; cases e)
  | .error .err => .isTrue (by unfold DurationFits; rw [h]; intro e; cases e)
  | .error .panic => .isFalse (by unfold DurationFits; rw [h]; exact fun k => k rfl)

instance (v : Str) (P : Str → Prop) [DecidablePred P] : Decidable (∀ s, unescape v = some s → P s) :=
  match h : unescape v with
  | none => .isTrue (by intro s e; cases e)
  | some s => if hp : P s then .isTrue (by intro s' e; cases e; exact hp) else .isFalse fun k => hp (k s rfl)

instance (k v : Str) : Decidable (AttrSafe k v) :=
  decidable_of_iff
    (DurationFits v ∧ (∀ s, unescape v = some s → DurationFits s)
      ∧ (k = "table:number-rows-repeated".toList → parseU32 v ≠ some 0)
      ∧ (k = "table:number-columns-repeated".toList → parseU32 v ≠ some 0)
      ∧ (k = "table:condition".toList → ∀ s, unescape v = some s → Valid.splitBytes s 3 ≠ none))
    ⟨fun ⟨a, b, c, d, e⟩ => ⟨a, b, c, d, e⟩, fun ⟨a, b, c, d, e⟩ => ⟨a, b, c, d, e⟩⟩

instance (ev : Event) (es : List Event) : Decidable (EvSafe ev es) := by
  cases ev <;> unfold EvSafe <;> infer_instance

instance decSafe : (es : List Event) → Decidable (EventsSafe es)
  | [] => .isTrue trivial
  | ev :: es => by unfold EventsSafe; exact @instDecidableAnd _ _ _ (decSafe es)

instance decClosed : (r c : Bool) → (es : List Event) → Decidable (Closed r c es)
  | _, _, [] => .isTrue trivial
  | r, c, .text _ :: es => decClosed r c es
  | r, c, .ref _ :: es => decClosed r c es
  | _, _, .start _ _ :: es => decClosed false false es
  | _, _, .empty n _ :: es => decClosed false (decide (n = tColumn)) es
  | r, c, .end n :: es =>
    if h1 : n = tRow then
      @decidable_of_decidable_of_iff _ _ (decClosed true false es) (by rw [Closed, if_pos h1])
    else if h2 : n = tHeaderRows ∨ n = tRowGroup then
      if hr : r = true then
        @decidable_of_decidable_of_iff _ _ (decClosed true false es) (by rw [Closed, if_neg h1, if_pos h2]; simp [hr])
      else .isFalse (by rw [Closed, if_neg h1, if_pos h2]; exact fun g => hr g.1)
    else if h3 : n = tHeaderCols ∨ n = tColGroup then
      if hc : c = true then
        @decidable_of_decidable_of_iff _ _ (decClosed false true es)
          (by rw [Closed, if_neg h1, if_neg h2, if_pos h3]; simp [hc])
      else .isFalse (by rw [Closed, if_neg h1, if_neg h2, if_pos h3]; exact fun g => hc g.1)
    else @decidable_of_decidable_of_iff _ _ (decClosed false false es)
      (by rw [Closed, if_neg h1, if_neg h2, if_neg h3])

/-- What a calculation in a build without overflow checks does. -/
def wrapping : Refs.Ints := ⟨4294967295, true⟩

/-- A file with metadata, and a table with header rows, a number, a group and a repeated row. -/
def smoothText : Str :=
  ("<office:document><office:meta><meta:editing-duration>PT1H2M</meta:editing-duration></office:meta>"
    ++ "<office:body><office:spreadsheet><table:table table:name=\"a\"><table:table-column/><table:table-header-rows>"
    ++ "<table:table-row><table:table-cell office:value-type=\"float\" office:value=\"1\"/></table:table-row>"
    ++ "</table:table-header-rows><table:table-row-group><table:table-row table:number-rows-repeated=\"3\">"
    ++ "</table:table-row></table:table-row-group></table:table></office:spreadsheet></office:body>"
    ++ "</office:document>").toList

/-- What is in the file. -/
def smoothEvents : List Event :=
  [.start "office:document".toList [],
   .start "office:meta".toList [], .start "meta:editing-duration".toList [], .text "PT1H2M".toList,
   .end "meta:editing-duration".toList, .end "office:meta".toList,
   .start "office:body".toList [], .start "office:spreadsheet".toList [],
   .start "table:table".toList [("table:name".toList, "a".toList)], .empty "table:table-column".toList [],
   .start "table:table-header-rows".toList [], .start "table:table-row".toList [],
   .empty "table:table-cell".toList [("office:value-type".toList, "float".toList), ("office:value".toList, "1".toList)],
   .end "table:table-row".toList, .end "table:table-header-rows".toList,
   .start "table:table-row-group".toList [],
   .start "table:table-row".toList [("table:number-rows-repeated".toList, "3".toList)],
   .end "table:table-row".toList, .end "table:table-row-group".toList,
   .end "table:table".toList, .end "office:spreadsheet".toList, .end "office:body".toList,
   .end "office:document".toList]

theorem smoothText_read : (tokenize smoothText).map events = some smoothEvents := by decide +kernel

theorem smoothText_events : eventsOf smoothText = smoothEvents := by
  have h := smoothText_read
  unfold eventsOf
  cases ht : tokenize smoothText with
  | none => rw [ht] at h; cases h
  | some ts =>
    rw [ht] at h
    exact Option.some.inj h

theorem smoothText_smooth : Smooth (eventsOf smoothText) := by
  rw [smoothText_events]
  exact ⟨by decide +kernel, false, false, by decide +kernel⟩

/-- The file meets the hypotheses, and is read. -/
theorem C117_meets : Smooth (eventsOf smoothText) ∧ (eventsOf smoothText).length = 23
    ∧ ((read_fods false ⟨bitFloats, wrapping, {}⟩ smoothText).toOption.map fun t =>
        (t.body.sheets.length, t.metadata.editingDuration)) = some (1, 3720000000000) :=
  ⟨smoothText_smooth, by rw [smoothText_events]; rfl, by
    have h := smoothText_read
    rw [read_fods_all, readFlat, readFile]
    cases ht : tokenize smoothText with
    | none => rw [ht] at h; cases h
    | some ts =>
      rw [ht] at h
      have h := Option.some.inj h
      simp only
      rw [h]
      decide +kernel⟩

/-- A file with an end tag too many, and one that stops within a style: errors or what is there, but an end. -/
theorem C117_broken_meets : Smooth (eventsOf "<office:document></office:meta></a>".toList)
    ∧ Smooth (eventsOf "<office:document><office:automatic-styles><style:style style:name=\"x\">".toList) :=
  ⟨⟨by decide +kernel, false, false, by decide +kernel⟩, ⟨by decide +kernel, false, false, by decide +kernel⟩⟩

/-! ## The traps -/

instance {α : Type} (r : Except Fault α) (f : Fault) : Decidable (r = .error f) :=
  match r with
  | .ok _ => .isFalse (by intro h; cases h)
  | .error g => decidable_of_iff (g = f) ⟨fun h => by rw [h], fun h => by cases h; rfl⟩

/-- The head of a flat file up to its first table. -/
def upToTable (rest : String) : Str :=
  ("<office:document><office:body><office:spreadsheet>" ++ rest).toList

/-- A file that stops within a table: the reader waits for the rest forever. -/
theorem C117_truncated_counterexample :
    read_fods false ⟨bitFloats, wrapping, {}⟩
      (upToTable "<table:table table:name=\"a\"><table:table-row></table:table-row>") = .error .endless := by
  decide +kernel

/-- Header rows without a row: the reader subtracts one from the number of rows, zero. -/
theorem C117_header_counterexample :
    read_fods false ⟨bitFloats, wrapping, {}⟩
      (upToTable "<table:table table:name=\"a\"><table:table-header-rows></table:table-header-rows></table:table>")
      = .error .panic := by
  decide +kernel

/-- A row with a cell that is repeated zero times. -/
theorem C117_repeat_counterexample :
    read_fods false ⟨bitFloats, wrapping, {}⟩
      (upToTable "<table:table table:name=\"a\"><table:table-row table:number-rows-repeated=\"0\"><table:table-cell office:value-type=\"float\" office:value=\"1\"/></table:table-row></table:table>")
      = .error .panic := by
  decide +kernel

/-- A validation with a short condition. -/
theorem C117_condition_counterexample :
    read_fods false ⟨bitFloats, wrapping, {}⟩
      (upToTable "<table:content-validations><table:content-validation table:name=\"v\" table:condition=\"of\"></table:content-validation></table:content-validations>")
      = .error .panic := by
  decide +kernel

/-- A duration that is too long as a whole. -/
theorem C117_duration_counterexample :
    read_fods false ⟨bitFloats, wrapping, {}⟩
      "<office:document><office:meta><meta:editing-duration>P106751991167DT99999999999H</meta:editing-duration></office:meta></office:document>".toList
      = .error .panic := by
  decide +kernel

/-- An empty tag of a script, as the last one of the scripts. -/
theorem C117_script_counterexample :
    read_fods false ⟨bitFloats, wrapping, {}⟩
      "<office:document><office:scripts><office:script script:language=\"ooo:Basic\"/></office:scripts></office:document>".toList
      = .error .panic := by
  decide +kernel

end Verif.Whole
