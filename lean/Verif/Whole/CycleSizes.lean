import Verif.Whole.Cycle
import Verif.Whole.History
import Verif.Width.RowProps

/-!
# Saving and loading a workbook: the columns and rows of one sheet

What `calculations` makes of a sheet, and that it can be written if the sheet could.
-/

set_option autoImplicit false

namespace Verif.Whole

open Xml Codec OMap
open Verif.Book (Stores)
open Verif.Style (Body)
open Verif.Width Verif.Width.Spec
open Verif.TableXml (Head HeadOk SheetOk SheetFits SameSheet SameSheets)

/-- The columns and rows of a sheet with new styles. -/
structure NewStyles (old : Str → Prop) (s s2 : TSheet) (ns nc : List (Option String)) : Prop where
  rowLength : ns.length = s.rowHeader.length
  colLength : nc.length = s.colHeader.length
  eq : s2 = { s with rowHeader := restyleRows s.rowHeader ns, colHeader := restyle s.colHeader nc }
  rows : ∀ p ∈ (rowPairs s.rowHeader).zip ns, (∃ n, p.1.1 = some n ∧ p.2 = some n)
    ∨ (p.1.1 = none ∧ p.1.2 = .default ∧ p.2 = none) ∨ (p.1.1 = none ∧ p.1.2 ≠ .default ∧ p.2 ≠ none)
  cols : ∀ q ∈ s.colHeader.zip nc, Done old q
  apart : (s.colHeader.zip nc).Pairwise fun p q => Apart p q ∧ Apart q p

/-- What `calculations` makes of the sheets. -/
theorem calc_styles (f : Floats) (b st1 st2 : Stores Body) (ss ss1 ss2 : List TSheet)
    (hfit : WidthsFit b ss) (hfitr : HeightsFit b ss)
    (hrows : calcRowSheets f b ss = .ok (st1, ss1)) (hcols : calcSheets f st1 ss1 = .ok (st2, ss2)) :
    ss2.length = ss.length ∧ (∀ k n, k ≠ .row → k ≠ .col → st2.get? k n = b.get? k n)
    ∧ ∀ (i : Nat) (s : TSheet), ss[i]? = some s → ∃ s2 ns nc, ss2[i]? = some s2
      ∧ NewStyles (fun n => st1.get? .col n ≠ none) s s2 ns nc := by
  obtain ⟨ns, hrun, hlen, hlen1, hsheets⟩ := calcRowSheets_run f ss b st1 ss1 hrows
  have hstored : ∀ p ∈ ss.flatMap fun s => rowPairs s.rowHeader, ∃ h, IsRowHeader ss h ∧ p = (h.style, h.height) := by
    intro p hp
    obtain ⟨s, hs, hp⟩ := List.mem_flatMap.1 hp
    obtain ⟨q, hq, rfl⟩ := List.mem_map.1 hp
    exact ⟨q.2, ⟨s, hs, q.1, hq⟩, rfl⟩
  have hpre : ∀ p ∈ ss.flatMap fun s => rowPairs s.rowHeader, ∀ n, p.1 = some n → b.get? rowDim.kind n.toList ≠ none := by
    intro p hp n hn hx
    obtain ⟨h, hh, rfl⟩ := hstored p hp
    obtain ⟨t, ht, _⟩ := hfitr.stored h n hh hn
    rw [show rowDim.kind = .row from rfl, ht] at hx
    cases hx
  obtain ⟨_, hdone, _, _, hother, _⟩ := run_spec rowDim f _ b st1 ns hrun hpre
  have hsame : ∀ (i : Nat) (s1 : TSheet), ss1[i]? = some s1 → ∃ s ns', ss[i]? = some s ∧ ns'.length = s.rowHeader.length
      ∧ s1 = Width.styled s ns' ∧ ((rowPairs s.rowHeader).zip ns').Sublist ((ss.flatMap fun s => rowPairs s.rowHeader).zip ns) := by
    intro i s1 h1
    have hi : i < ss.length := by
      have := (List.getElem?_eq_some_iff.1 h1).1
      omega
    obtain ⟨ns', a1, a2, a3⟩ := hsheets (ss[i], s1) (mem_zip_of ss ss1 i _ _ (List.getElem?_eq_getElem hi) h1)
    exact ⟨ss[i], ns', List.getElem?_eq_getElem hi, a1, a2, a3⟩
  have hhead : ∀ h, IsHeader ss1 h → IsHeader ss h := by
    rintro h ⟨s1, hs1, c, hc⟩
    obtain ⟨i, hi⟩ := List.getElem?_of_mem hs1
    obtain ⟨s, ns', g1, _, g2, _⟩ := hsame i s1 hi
    exact ⟨s, List.mem_of_getElem? g1, c, by rw [g2] at hc; exact hc⟩
  have hfit1 : WidthsFit st1 ss1 := by
    refine ⟨?_, fun h h' n a b => hfit.shared h h' n (hhead h a) (hhead h' b)⟩
    intro h n hh hn
    obtain ⟨t, ht, hk⟩ := hfit.stored h n (hhead h hh) hn
    exact ⟨t, by rw [hother .col _ (by decide)]; exact ht, hk⟩
  obtain ⟨nsc, hrunc, hlenc, hlen2, _⟩ := calcSheets_run f ss1 st1 st2 ss2 hcols
  have hprec : ∀ p ∈ ss1.flatMap fun s => pairs s.colHeader, ∀ n, p.1 = some n → st1.get? colDim.kind n.toList ≠ none := by
    intro p hp n hn hx
    obtain ⟨s, hs, hp⟩ := List.mem_flatMap.1 hp
    obtain ⟨q, hq, rfl⟩ := List.mem_map.1 hp
    obtain ⟨t, ht, _⟩ := hfit1.stored q.2 n ⟨s, hs, q.1, hq⟩ hn
    rw [show colDim.kind = .col from rfl, ht] at hx
    cases hx
  obtain ⟨_, _, _, _, hotherc, _⟩ := run_spec colDim f _ st1 st2 nsc hrunc hprec
  refine ⟨by omega, fun k n h1 h2 => by rw [hotherc k n h2, hother k n h1], ?_⟩
  intro i s hs
  have hi := (List.getElem?_eq_some_iff.1 hs).1
  have hi1 : i < ss1.length := by omega
  have hi2 : i < ss2.length := by omega
  obtain ⟨s0, ns', g1, hl, g2, hsub⟩ := hsame i ss1[i] (List.getElem?_eq_getElem hi1)
  rw [hs] at g1
  injection g1 with g1
  subst g1
  obtain ⟨nc, c1, c2, c3, c4⟩ := calcSheets_done f st1 st2 ss1 ss2 hfit1 hcols (ss1[i], ss2[i])
    (mem_zip_of ss1 ss2 i _ _ (List.getElem?_eq_getElem hi1) (List.getElem?_eq_getElem hi2))
  simp only [g2] at c1 c2 c3 c4
  refine ⟨ss2[i], ns', nc, List.getElem?_eq_getElem hi2, hl, c1, c2, ?_, c3, c4⟩
  intro p hp
  rcases hdone p (hsub.subset hp) with h | h | ⟨h1, h2, n, h3, _⟩
  · exact .inl h
  · exact .inr (.inl h)
  · exact .inr (.inr ⟨h1, h2, by rw [h3]; simp⟩)

section One

variable {old : Str → Prop} {s s2 : TSheet} {ns nc : List (Option String)} (h : NewStyles old s s2 ns nc)

include h

theorem NewStyles.repeatOf (r : Nat) : s2.repeatOf r = s.repeatOf r := by
  rw [h.eq]
  exact styled_repeatOf s ns h.rowLength r

theorem NewStyles.cells (hc : s.CellsOK) : s2.CellsOK := by
  have := styled_cells s ns h.rowLength hc
  rw [h.eq]
  exact ⟨this.sorted, this.rows, this.rep, this.spans⟩

/-- A column before and after. -/
theorem NewStyles.col (hw : s.colHeader.WF) (k : Nat) : (s.colHeader.valid k = none ∧ s2.colHeader.valid k = none)
    ∨ ∃ p st, (p, st) ∈ s.colHeader.zip nc ∧ p.1 ≤ k ∧ k < p.1 + p.2.span ∧ s.colHeader.valid k = some p.2
        ∧ s2.colHeader.valid k = some { p.2 with style := st } := by
  rw [h.eq]
  exact restyle_valid s.colHeader nc h.colLength hw k

theorem NewStyles.restyled (hw : s.colHeader.WF) : Restyled s s2 := by
  refine ⟨by rw [h.eq], by rw [h.eq], by rw [h.eq], by rw [h.eq], by rw [h.eq], h.repeatOf, fun c => ?_⟩
  unfold ColHeaders.colCellstyle
  rcases h.col hw c with ⟨h1, h2⟩ | ⟨p, st, _, _, _, h1, h2⟩
  · rw [h1, h2]
  · rw [h1, h2]

/-- The attributes of a column: only a column with a width gets a style. -/
theorem NewStyles.colAttrs (hw : s.colHeader.WF) (k : Nat) :
    s2.colHeader.colCellstyle k = s.colHeader.colCellstyle k ∧ s2.colHeader.colVisible k = s.colHeader.colVisible k
    ∧ (s.colHeader.colstyle k ≠ none ∨ s.colHeader.colWidth k = .default →
        s2.colHeader.colstyle k = s.colHeader.colstyle k) := by
  unfold ColHeaders.colCellstyle ColHeaders.colVisible ColHeaders.colstyle ColHeaders.colWidth
  rcases h.col hw k with ⟨h1, h2⟩ | ⟨p, st, hm, _, _, h1, h2⟩
  · rw [h1, h2]; exact ⟨rfl, rfl, fun _ => rfl⟩
  · rw [h1, h2]
    refine ⟨rfl, rfl, fun ha => ?_⟩
    rcases h.cols _ hm with ⟨n, a1, a2, _⟩ | ⟨a1, _, a2⟩ | ⟨a1, a2, _⟩
    · simp only at a1 a2 ⊢; rw [a1, a2]
    · simp only at a1 a2 ⊢; rw [a1, a2]
    · simp only at ha a1 a2
      exact absurd a1 (ha.resolve_right a2)

/-- The attributes of a row. -/
theorem NewStyles.rowAttrs (r : Nat) :
    s2.rowHeader.rowCellstyle r = s.rowHeader.rowCellstyle r ∧ s2.rowHeader.rowVisible r = s.rowHeader.rowVisible r
    ∧ (s.rowHeader.rowstyle r ≠ none ∨ s.rowHeader.rowHeight r = .default →
        s2.rowHeader.rowstyle r = s.rowHeader.rowstyle r) := by
  rw [h.eq]
  unfold RowHeaders.rowCellstyle RowHeaders.rowVisible RowHeaders.rowstyle RowHeaders.rowHeight
  rcases restyleRows_valid s.rowHeader ns h.rowLength r with ⟨h1, h2⟩ | ⟨p, st, hm, h1, h2⟩
  · rw [h1]; simp only; rw [h2]; exact ⟨rfl, rfl, fun _ => rfl⟩
  · rw [h1]; simp only; rw [h2]
    refine ⟨rfl, rfl, fun ha => ?_⟩
    rcases h.rows _ (mem_rowPairs hm) with ⟨n, a1, a2⟩ | ⟨a1, _, a2⟩ | ⟨a1, a2, _⟩
    · simp only at a1 a2 ⊢; rw [a1, a2]
    · simp only at a1 a2 ⊢; rw [a1, a2]
    · simp only at ha a1 a2
      exact absurd a1 (ha.resolve_right a2)

theorem NewStyles.marked (r : Nat) : s2.rowHeader.attrs r ≠ {} ↔ Marked s r := by
  rw [h.eq]
  exact styled_marked s ns h.rowLength h.rows r

theorem NewStyles.inTable (r : Nat) : s2.InTable r ↔ s.InTable r := by
  rw [h.eq]
  exact styled_in s ns h.rowLength r

theorem NewStyles.copyOf (r r0 : Nat) : s2.CopyOf r r0 ↔ s.CopyOf r r0 := by
  rw [h.eq]
  exact styled_copy s ns h.rowLength r r0

theorem NewStyles.emptyRow (r : Nat) : s2.EmptyRow r ↔ s.EmptyRow r := by
  rw [h.eq]
  exact styled_empty s ns h.rowLength r

/-- The sheet can be written. -/
theorem NewStyles.ok {fl : Floats} {lb : Bool} (hok : SheetOk fl lb s) : SheetOk fl lb s2 := by
  refine ⟨h.cells hok.cells, ?_, by rw [h.eq]; exact hok.kept⟩
  have hs := hok.small
  rw [h.eq]
  refine ⟨hs.pos, hs.rows, hs.cols, hs.rep, ?_, ?_⟩
  · intro q hq
    obtain ⟨p, hp, rfl⟩ := List.mem_map.1 hq
    exact hs.rowRep p.1 (List.of_mem_zip (a := p.1) (b := p.2) hp).1
  · intro q hq
    obtain ⟨p, hp, rfl⟩ := List.mem_map.1 hq
    exact hs.spans p.1 (List.of_mem_zip (a := p.1) (b := p.2) hp).1

theorem NewStyles.wf (hw : s.colHeader.WF) : s2.colHeader.WF := by
  rw [h.eq]; exact restyle_wf s.colHeader nc h.colLength hw

/-- Neighbours that differed before differ afterwards. -/
theorem NewStyles.differ (hw : s.colHeader.WF) (a b : Nat) (hb : s.colHeader.valid b ≠ none)
    (hne : s.colHeader.observe a ≠ s.colHeader.observe b) : s2.colHeader.observe a ≠ s2.colHeader.observe b := by
  intro he
  refine hne ?_
  rw [ColHeaders.observe_eq, ColHeaders.observe_eq] at he ⊢
  rcases h.col hw b with ⟨h1, _⟩ | ⟨q, st', hq, _, _, b1, b2⟩
  · exact absurd h1 hb
  rcases h.col hw a with ⟨h1, h2⟩ | ⟨p, st, hp, _, _, a1, a2⟩
  · rw [h1, b1]
    rw [h2, b2] at he
    have e1 := congrArg ColObs.style he
    have e2 := congrArg ColObs.width he
    have e3 := congrArg ColObs.cellstyle he
    have e4 := congrArg ColObs.visible he
    rcases h.cols _ hq with ⟨n, c1, c2, _⟩ | ⟨c1, _, c2⟩ | ⟨c1, c2, _⟩
    · simp only at c2
      subst c2
      cases e1
    · simp only at c1 c2
      subst c2
      rw [he]
      simp [ColHeader.obs, c1]
    · simp only at c2
      exact absurd e2.symm c2
  · rw [a1, b1]
    rw [a2, b2] at he
    have e1 : st = st' := congrArg ColObs.style he
    have e2 : p.2.width = q.2.width := congrArg ColObs.width he
    have e3 : p.2.cellstyle = q.2.cellstyle := congrArg ColObs.cellstyle he
    have e4 : p.2.visible = q.2.visible := congrArg ColObs.visible he
    have e0 : p.2.style = q.2.style := by
      rcases mem_pairwise Apart _ h.apart _ _ hp hq with e | ⟨r1, r2⟩
      · have := congrArg Prod.fst e
        simp only at this
        rw [this]
      · exact same_before old _ _ (h.cols _ hp) (h.cols _ hq) r1 r2 e1
    show p.2.obs = q.2.obs
    simp only [ColHeader.obs, e0, e2, e3, e4]

theorem NewStyles.fits (hf : SheetFits s) : SheetFits s2 := by
  have hw := hf.cols.wf
  have hrep := h.repeatOf
  have hd : s2.data = s.data := by rw [h.eq]
  have hg : s2.groupRows = s.groupRows := by rw [h.eq]
  have hgc : s2.groupCols = s.groupCols := by rw [h.eq]
  have hh : s2.headerRows = s.headerRows := by rw [h.eq]
  have hhc : s2.headerCols = s.headerCols := by rw [h.eq]
  have hc := hf.cols
  have hr := hf.rows
  refine ⟨⟨h.wf hw, ?_, by rw [hgc]; exact hc.groups, ?_, by rw [hhc]; exact hc.hle⟩,
    ⟨by rw [hg]; exact hr.groups, ?_, ?_, by rw [hh]; exact hr.hle, ?_, ?_, ?_⟩, ?_, ?_, ?_, ?_⟩
  · rw [h.eq]; exact restyle_noGap old s.colHeader nc h.colLength h.cols h.apart hc.nogap
  · rw [hgc]
    intro g hg
    rcases hc.cut g hg with e | e | e
    · exact .inl e
    · refine .inr (.inl ?_)
      rcases h.col hw g.to with ⟨_, h2⟩ | ⟨p, st, _, _, _, h1, _⟩
      · exact h2
      · rw [e] at h1; cases h1
    · cases hv : s.colHeader.valid g.to with
      | none =>
        refine .inr (.inl ?_)
        rcases h.col hw g.to with ⟨_, h2⟩ | ⟨p, st, _, _, _, h1, _⟩
        · exact h2
        · rw [hv] at h1; cases h1
      | some x => exact .inr (.inr (h.differ hw _ _ (by rw [hv]; simp) e))
  · simp only [hrep, hd, hg]; exact hr.frm
  · simp only [hrep, hd, hg]; exact hr.to
  · simp only [hrep, hd, hh]; exact hr.hrows
  · simp only [hrep, hd, hh]; exact hr.hfrm
  · simp only [hrep, hd, hh]; exact hr.hto
  · unfold TSheet.CellClash
    simp only [hd]
    exact hf.cellClash
  · unfold TSheet.RowClash
    simp only [hd, hrep]
    exact hf.rowClash
  · simp only [hd, hrep]; exact hf.big
  · rw [h.eq]; exact restyle_noHole old s.colHeader nc h.colLength hw h.cols h.apart hf.hole

end One

/-! ## After reading -/

/-- The attributes of the columns stay as they were read. -/
theorem derived_cols (f : Floats) (b : Stores Body) : ∀ (m m' : ColHeaders), deriveCols f b m = some m' → m.WF →
    ∀ k, m'.attrs k = m.attrs k := by
  have key : ∀ (m m' : ColHeaders), deriveCols f b m = some m' →
      m' = m.map fun p => (p.1, { p.2 with width := (derived colDim f b p.2.style p.2.width).getD .default }) := by
    intro m
    induction m with
    | nil => intro m' h; cases h; rfl
    | cons p m ih =>
      obtain ⟨c, x⟩ := p
      intro m' h
      rw [deriveCols] at h
      cases hd : derived colDim f b x.style x.width with
      | none => rw [hd] at h; cases h
      | some w =>
        rw [hd] at h
        obtain ⟨m1, h1, rfl⟩ := Option.map_eq_some_iff.1 h
        rw [ih m1 h1]
        simp only [List.map_cons, hd, Option.getD_some]
  intro m m' h hw k
  have hv := valid_map m hw (fun x => { x with width := (derived colDim f b x.style x.width).getD .default }) (fun _ => rfl) k
  rw [← key m m' h] at hv
  unfold ColHeaders.attrs ColHeaders.colstyle ColHeaders.colCellstyle ColHeaders.colVisible
  rw [hv]
  cases m.valid k <;> rfl

/-- The attributes of the rows stay as they were read. -/
theorem derived_rows (f : Floats) (b : Stores Body) (m m' : RowHeaders) (h : deriveRows f b m = some m') (r : Nat) :
    m'.attrs r = m.attrs r := by
  have key : ∀ (m m' : RowHeaders), deriveRows f b m = some m' →
      m' = m.map fun p => (p.1, { p.2 with height := (derived rowDim f b p.2.style p.2.height).getD .default }) := by
    intro m
    induction m with
    | nil => intro m' h; cases h; rfl
    | cons p m ih =>
      obtain ⟨c, x⟩ := p
      intro m' h
      rw [deriveRows] at h
      cases hd : derived rowDim f b x.style x.height with
      | none => rw [hd] at h; cases h
      | some w =>
        rw [hd] at h
        obtain ⟨m1, h1, rfl⟩ := Option.map_eq_some_iff.1 h
        rw [ih m1 h1]
        simp only [List.map_cons, hd, Option.getD_some]
  have hv := rowValid_map m (fun x => { x with height := (derived rowDim f b x.style x.height).getD .default }) (fun _ => rfl) r
  rw [← key m m' h] at hv
  unfold RowHeaders.attrs RowHeaders.rowstyle RowHeaders.rowCellstyle RowHeaders.rowVisible
  rw [hv]
  cases m.valid r <;> rfl

end Verif.Whole
