import Verif.Width.Props

/-!
# What the widths become exactly, where C57 fails, and workbooks that meet its hypotheses
-/

set_option autoImplicit false

namespace Verif.Width

open Xml Xml.Spec Codec Refs Book Style Style.Spec OMap Refs.Spec Spec

namespace Spec

/-- The widths of the columns with the style, in the order of sheets and columns. -/
def widthsOf (ss : List TSheet) (n : String) : List Length :=
  ss.flatMap fun s => s.colHeader.filterMap fun p => if p.2.style = some n then some p.2.width else none

/-- The width of all columns with a style after reading, given the style before and the widths before. -/
def common (f : Floats) (t : Style Body) (ws : List Length) : Option Length :=
  if .default ∈ ws then some .default
  else match flagOr (val "style:use-optimal-column-width".toList t.body.main), ws.getLast? with
    | none, _ => none
    | some true, _ => some .default
    | some false, none => lengthOr f (val "style:column-width".toList t.body.main)
    | some false, some w => some w

end Spec

theorem users_eq (ss : List TSheet) (n : String) :
    users n.toList (ss.flatMap fun s => pairs s.colHeader) = widthsOf ss n := by
  unfold users widthsOf pairs
  rw [List.filterMap_flatMap]
  refine congrArg List.flatten (List.map_congr_left fun s _ => ?_)
  rw [List.filterMap_map]
  have : ((fun p : Option String × Length => if p.1.map String.toList = some n.toList then some p.2 else none) ∘
      fun p : Nat × ColHeader => (p.2.style, p.2.width)) = fun p => if p.2.style = some n then some p.2.width else none := by
    funext p
    simp only [Function.comp]
    have : (p.2.style.map String.toList = some n.toList) ↔ p.2.style = some n := by
      cases p.2.style with
      | none => simp
      | some x => simp [String.toList_inj]
    by_cases h : p.2.style = some n
    · rw [if_pos (this.2 h), if_pos h]
    · rw [if_neg fun h' => h (this.1 h'), if_neg h]
  rw [this]

/-- **C57, exactly**: a workbook is saved as a package and read again. All columns with one style that is kept in the file
have one width then: the default if one of them had the default or the style says that the width is computed, the width of
the last of them otherwise. -/
theorem C57_exact (ints : Refs.Ints) (hm : ints.max = maxU32) (as as' : List (Bool × Str × Str))
    (has : AttrsOk as) (has' : AttrsOk as') (f : Floats) (b : SBook) (hb : BookOk b) (ss ss' : List TSheet)
    (hf : ∀ h, IsHeader ss h → LengthOk f h.width)
    (hstored : ∀ h n, IsHeader ss h → h.style = some n → b.styles.get? .col n.toList ≠ none)
    (st : Stores Body) (hcalc : calcSheets f b.styles ss = .ok (st, ss'))
    (hcount : b.count + (ss.map fun s => s.colHeader.length).sum < 4294967296) :
    ∃ bk, readPackage ints (output false (writeStylesFile as { b with styles := st }))
        (output false (writeContentFile as' { b with styles := st })) = .ok bk
      ∧ ∀ n t w, b.styles.get? .col n.toList = some t → Kept t →
          derived colDim f bk.styles (some n) w = common f t (widthsOf ss n) := by
  obtain ⟨ns, hrun, hlen, hlen', hsheets⟩ := calcSheets_run f ss b.styles st ss' hcalc
  have hpre : ∀ p ∈ ss.flatMap fun s => pairs s.colHeader, ∀ n, p.1 = some n → b.styles.get? colDim.kind n.toList ≠ none := by
    intro p hp n hn
    obtain ⟨s, hs, hp⟩ := List.mem_flatMap.1 hp
    obtain ⟨q, hq, rfl⟩ := List.mem_map.1 hp
    exact hstored q.2 n ⟨s, hs, q.1, hq⟩ hn
  obtain ⟨_, _, hold, _⟩ := run_spec colDim f _ b.styles st ns hrun hpre
  obtain ⟨hok, htot⟩ := run_ok colDim colDim_ok (.inl rfl) f _ b.styles st ns hrun ⟨hb.styleKey, hb.style, hb.stylesMap⟩
  have hcount' : ({ b with styles := st } : SBook).count < 4294967296 := by
    rw [headers_length] at htot
    have h1 : ({ b with styles := st } : SBook).count = total st := rfl
    have h2 : b.count = total b.styles := rfl
    omega
  obtain ⟨bk, hread, hfound, _⟩ := C51_package_partial ints hm as as' has has' { b with styles := st } (book_ok b hb st hok)
    hcount'
  refine ⟨bk, hread, ?_⟩
  intro n t w ht hk
  obtain ⟨t2, hg, hsame⟩ := hfound .col n.toList _ (hold n.toList t ht) hk.1 hk.2
  rw [says_derived colDim f bk.styles n t2 w hg, hsame.main, users_eq]
  refine says_all colDim colDim_ok f (widthsOf ss n) ?_ t.body.main
  intro w hw
  obtain ⟨s, hs, hw⟩ := List.mem_flatMap.1 hw
  obtain ⟨q, hq, hw⟩ := List.mem_filterMap.1 hw
  split at hw
  · injection hw with hw
    rw [← hw]
    exact hf q.2 ⟨s, hs, q.1, hq⟩
  · cases hw

/-! ## Where C57 fails -/

/-- Doubles as their bits. -/
def bits : Floats := ⟨fun v => decNat v.bits.toNat, fun s => some ⟨BitVec.ofNat 64 (decVal s)⟩⟩

theorem bits_ok (l : Length) : LengthOk bits l := by
  intro v _
  show some (⟨BitVec.ofNat 64 (decVal (decNat v.bits.toNat))⟩ : F64) = some v
  rw [decVal_decNat, BitVec.ofNat_toNat, BitVec.setWidth_eq]

/-- A number. -/
abbrev num (n : Nat) : F64 := ⟨BitVec.ofNat 64 n⟩

theorem co1_get : demo.styles.get? .col "co1".toList = some demoCol := by rfl

theorem co1_kept : Kept demoCol := ⟨by decide, .inr rfl⟩

/-- Two columns with one style. -/
def sharedSheet (w w' : Length) : TSheet :=
  { data := [((0, 1), { value := .boolean true })]
    colHeader := [(0, { style := some "co1", width := w }), (1, { style := some "co1", cellstyle := some "x", width := w' })] }

/-- What a sheet and the workbook `demo` are after saving as a package and reading. -/
def Cycle (b : SBook) (s : TSheet) (cols : ColHeaders) : Prop :=
  ∃ st s1 evs bk s2, calcSheets bits b.styles [s] = .ok (st, [s1]) ∧ writeSheet s1 = .ok evs
    ∧ readPackage ⟨maxU32, true⟩ (output false (writeStylesFile [] { b with styles := st }))
        (output false (writeContentFile [] { b with styles := st })) = .ok bk
    ∧ readTable {} evs = some s2 ∧ deriveCols bits bk.styles s2.colHeader = some cols


theorem calc_of (b : Stores Body) (s s1 : TSheet) (h : (calcSheets bits b [s]).toOption.map Prod.snd = some [s1]) :
    ∃ st, calcSheets bits b [s] = .ok (st, [s1]) := by
  cases hc : calcSheets bits b [s] with
  | error e => rw [hc] at h; cases h
  | ok r =>
    obtain ⟨st, l⟩ := r
    rw [hc] at h
    cases h
    exact ⟨st, rfl⟩


/-- The events of a sheet. -/
def evsOf (s : TSheet) : List TEv := match writeSheet s with
  | .ok e => e
  | .error _ => []

/-- What becomes of the two columns, for any style `co1`. -/
theorem shared_cycle (b : SBook) (hb : BookOk b) (t : Style Body) (ht : b.styles.get? .col "co1".toList = some t) (hk : Kept t)
    (hc : b.count + 2 < 4294967296) (w w' : Length) (x : Length) (hx : common bits t [w, w'] = some x)
    (h1 : (calcSheets bits b.styles [sharedSheet w w']).toOption.map Prod.snd = some [sharedSheet w w'])
    (h2 : writeSheet (sharedSheet w w') = .ok (evsOf (sharedSheet w w')))
    (h3 : (readTable {} (evsOf (sharedSheet w w'))).map TSheet.colHeader = some (sharedSheet .default .default).colHeader) :
    Cycle b (sharedSheet w w') (sharedSheet x x).colHeader := by
  obtain ⟨st, hst⟩ := calc_of _ _ _ h1
  obtain ⟨bk, hbk, hw⟩ := C57_exact ⟨maxU32, true⟩ rfl [] [] (by intro a h; cases h) (by intro a h; cases h) bits b hb
    [sharedSheet w w'] [sharedSheet w w'] (fun h _ => bits_ok h.width) (by
      rintro h n ⟨s, hs, c, hc⟩ hn
      obtain rfl := List.mem_singleton.1 hs
      have : n = "co1" := by
        rcases List.mem_cons.1 hc with hc | hc
        · injection hc with _ hc; rw [hc] at hn; injection hn with hn; exact hn.symm
        · rcases List.mem_cons.1 hc with hc | hc
          · injection hc with _ hc; rw [hc] at hn; injection hn with hn; exact hn.symm
          · cases hc
      rw [this, ht]
      simp) st hst (by exact hc)
  obtain ⟨s2, hs2, hcol⟩ := Option.map_eq_some_iff.1 h3
  refine ⟨st, _, _, bk, s2, hst, h2, hbk, hs2, ?_⟩
  have hd : ∀ v, derived colDim bits bk.styles (some "co1") v = some x := by
    intro v
    rw [hw "co1" t v ht hk]
    exact hx
  rw [hcol]
  simp only [sharedSheet, deriveCols, hd, Option.map_some]

/-- **C57 fails if columns share a style**: columns with the style `co1` and the widths 1 cm and 3 cm. After saving and
reading both are 3 cm wide. -/
theorem C57_shared_counterexample :
    Cycle demo (sharedSheet (.cm (num 1)) (.cm (num 3))) (sharedSheet (.cm (num 3)) (.cm (num 3))).colHeader
    ∧ (sharedSheet (.cm (num 1)) (.cm (num 3))).colHeader.colWidth 0 ≠ (sharedSheet (.cm (num 3)) (.cm (num 3))).colHeader.colWidth 0 :=
  ⟨shared_cycle demo demo_ok demoCol co1_get co1_kept (by decide +kernel) _ _ _ (by decide +kernel) (by decide +kernel)
    (by decide +kernel) (by decide +kernel), by decide⟩

/-- **C57 fails if a column without width shares the style**: the other column loses its width. -/
theorem C57_default_counterexample :
    Cycle demo (sharedSheet (.cm (num 1)) .default) (sharedSheet .default .default).colHeader
    ∧ (sharedSheet (.cm (num 1)) .default).colHeader.colWidth 0 ≠ (sharedSheet .default .default).colHeader.colWidth 0 :=
  ⟨shared_cycle demo demo_ok demoCol co1_get co1_kept (by decide +kernel) _ _ _ (by decide +kernel) (by decide +kernel)
    (by decide +kernel) (by decide +kernel), by decide⟩

/-- The style `co1` that says that the width is computed. Saving a column without width makes such a style. -/
def optimalCol : Style Body := toBody colDim bits .default demoCol

/-- `demo` with this style. -/
def optimalBook : SBook := { demo with styles := demo.styles.modify .col "co1".toList (toBody colDim bits .default) }

theorem optimalBook_ok : BookOk optimalBook :=
  book_ok demo demo_ok _ (modify_ok colDim colDim_ok (.inl rfl) bits demo.styles
    ⟨demo_ok.styleKey, demo_ok.style, demo_ok.stylesMap⟩ "co1".toList .default).1

/-- **C57 fails if the style says that the width is computed**: `set_col_width` does not change this, and the width is lost.
Every style of a column that was saved without width says so. -/
theorem C57_optimal_counterexample :
    Cycle optimalBook (sharedSheet (.cm (num 1)) (.cm (num 1))) (sharedSheet .default .default).colHeader
    ∧ (sharedSheet (.cm (num 1)) (.cm (num 1))).colHeader.colWidth 0 ≠ (sharedSheet .default .default).colHeader.colWidth 0
    ∧ ∃ s s' st, calcSheets bits demo.styles [s] = .ok (st, s') ∧ st.get? .col "co1".toList = some optimalCol := by
  refine ⟨shared_cycle optimalBook optimalBook_ok optimalCol ?_ ⟨by decide, .inr rfl⟩ (by decide +kernel) _ _ _
    (by decide +kernel) (by decide +kernel) (by decide +kernel) (by decide +kernel), by decide,
    { colHeader := [(0, { style := some "co1" })] }, _, _, rfl, ?_⟩
  · show (demo.styles.modify .col _ _).get? _ _ = _
    rw [get_modify, if_pos ⟨rfl, rfl⟩, co1_get]
    rfl
  · show (demo.styles.modify colDim.kind _ _).get? _ _ = _
    rw [get_modify, if_pos ⟨rfl, rfl⟩, co1_get]
    rfl

/-- A column with a style that is not there. -/
def nopeSheet (w : Length) : TSheet :=
  { data := [((0, 0), { value := .boolean true })], colHeader := [(0, { style := some "nope", width := w })] }

/-- **C57 fails if there is no such style**: two workbooks that differ in the width of a column only. They are saved as the
same stores and the same table. -/
theorem C57_missing_counterexample :
    ∃ s s' : TSheet, s.colHeader.colWidth 0 ≠ s'.colHeader.colWidth 0
      ∧ ∃ st s1 s1', calcSheets bits demo.styles [s] = .ok (st, [s1]) ∧ calcSheets bits demo.styles [s'] = .ok (st, [s1'])
        ∧ writeSheet s1 = writeSheet s1' ∧ ∃ evs, writeSheet s1 = .ok evs := by
  have same : ∀ w, demo.styles.modify .col "nope".toList (toBody colDim bits w) = demo.styles := by
    intro w
    unfold Stores.modify Stores.setStore
    have : (demo.styles.store .col).modify "nope".toList (toBody colDim bits w) = demo.styles.store .col := by
      show [_] = [_]
      rfl
    rw [this]
    generalize demo.styles = st
    obtain ⟨a, g⟩ := st
    have : (fun k' => if k' = Kind.col then g Kind.col else g k') = g := by
      funext k
      split
      · rename_i h; rw [h]
      · rfl
    exact congrArg (Stores.mk a) this
  have hcalc : ∀ w, calcSheets bits demo.styles [nopeSheet w] = .ok (demo.styles, [nopeSheet w]) := by
    intro w
    have : calcSheets bits demo.styles [nopeSheet w]
        = .ok (demo.styles.modify .col "nope".toList (toBody colDim bits w), [nopeSheet w]) := by
      simp only [nopeSheet, calcSheets, calcCols, sizeStep, reduceCtorEq, and_false, if_false]
      rfl
    rw [this, same]
  exact ⟨nopeSheet (.cm (num 1)), nopeSheet (.cm (num 2)), by decide, demo.styles, _, _, hcalc _, hcalc _, by decide +kernel,
    evsOf (nopeSheet (.cm (num 1))), by decide +kernel⟩

/-! ## The hypotheses are met -/

/-- Three columns: two with the style `co1` and its width, one with a width and no style. -/
def fitSheet : TSheet :=
  { data := [((0, 2), { value := .boolean true })]
    colHeader := [(0, { style := some "co1", width := .cm (num 2) }), (1, { width := .mm (num 5) }),
      (2, { style := some "co1", cellstyle := some "x", width := .cm (num 2) })] }

/-- **The hypotheses of C57 are met** by a workbook with styles that are shared and styles that are made when saving. -/
theorem C57_widths_meets : WidthsFit demo.styles [fitSheet] ∧ (∃ st ss, calcSheets bits demo.styles [fitSheet] = .ok (st, ss))
    ∧ (∀ h, IsHeader [fitSheet] h → LengthOk bits h.width) ∧ fitSheet.CellsOK ∧ fitSheet.colHeader.WF
    ∧ fitSheet.colHeader.NoGap ∧ fitSheet.colHeader.NoHole ∧ (∀ k, k ≤ 2 → Reached fitSheet k) ∧ demo.count + 3 < 4294967296 := by
  have hh : ∀ h, IsHeader [fitSheet] h → (h.style = some "co1" ∧ h.width = .cm (num 2)) ∨ h.style = none := by
    rintro h ⟨s, hs, c, hc⟩
    obtain rfl := List.mem_singleton.1 hs
    rcases List.mem_cons.1 hc with hc | hc
    · injection hc with _ hc; rw [hc]; exact .inl ⟨rfl, rfl⟩
    · rcases List.mem_cons.1 hc with hc | hc
      · injection hc with _ hc; rw [hc]; exact .inr rfl
      · rcases List.mem_cons.1 hc with hc | hc
        · injection hc with _ hc; rw [hc]; exact .inl ⟨rfl, rfl⟩
        · cases hc
  refine ⟨⟨?_, ?_⟩, ⟨_, _, rfl⟩, fun h _ => bits_ok h.width, ?_, ?_, ?_, ?_, ?_, by decide +kernel⟩
  · intro h n h1 h2
    rcases hh h h1 with ⟨h3, _⟩ | h3
    · rw [h3] at h2
      injection h2 with h2
      rw [← h2]
      exact ⟨demoCol, co1_get, co1_kept, fun _ => by decide +kernel⟩
    · rw [h3] at h2; cases h2
  · intro h h' n h1 h1' h2 h2'
    rcases hh h h1 with ⟨_, h3⟩ | h3
    · rcases hh h' h1' with ⟨_, h3'⟩ | h3'
      · rw [h3, h3']
      · rw [h3'] at h2'; cases h2'
    · rw [h3] at h2; cases h2
  · exact ⟨by unfold Sorted; decide, by unfold RowOK; decide, by decide, by unfold CellData.SpansOK; decide⟩
  · exact ⟨by unfold Sorted; decide, by decide, by decide⟩
  · exact ⟨by decide, by decide, trivial⟩
  · intro i k h1 h2 h3 h4
    have out : ∀ x, 3 ≤ x → fitSheet.colHeader.attrs x = {} := by
      intro x hx
      have : fitSheet.colHeader.valid x = none := by
        cases hv : fitSheet.colHeader.valid x with
        | none => rfl
        | some y =>
          exfalso
          obtain ⟨a, ha, hb, hc⟩ := (ColHeaders.WF.valid_some ⟨by unfold Sorted; decide, by decide, by decide⟩).1 hv
          have : ∀ p ∈ fitSheet.colHeader, p.1 + p.2.span ≤ 3 := by decide
          have := this _ (mem_of_get?_eq_some ha)
          simp only at this
          omega
      simp [ColHeaders.attrs, ColHeaders.colstyle, ColHeaders.colCellstyle, ColHeaders.colVisible, this]
    have hk : k < 3 := Decidable.byContradiction fun h => h3 (h2.trans (out k (by omega)))
    have hi : i = 0 := by omega
    have hk : k = 2 := by omega
    subst hi; subst hk
    exact absurd h2 (by decide)
  · intro k hk
    exact .inl ⟨0, 2, by decide, hk⟩

end Verif.Width
