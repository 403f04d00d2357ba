import Verif.Width.Rows

/-!
# Widths and heights over write and read (C57)
-/

set_option autoImplicit false

namespace Verif.Width

open Xml Xml.Spec Codec Refs Book Style Style.Spec OMap Refs.Spec Spec

namespace Spec

/-- A header of a row of the workbook. -/
def IsRowHeader (ss : List TSheet) (h : RowHeader) : Prop := ∃ s ∈ ss, ∃ r, (r, h) ∈ s.rowHeader

/-- The styles of the rows can carry the heights: they are stored and kept in the file, rows that share a style share the
height, and a style for a height does not say that the height is computed from the content. -/
structure HeightsFit (b : Stores Body) (ss : List TSheet) : Prop where
  stored : ∀ h n, IsRowHeader ss h → h.style = some n → ∃ t, b.get? .row n.toList = some t ∧ Kept t
    ∧ (h.height ≠ .default → flagOr (val "style:use-optimal-row-height".toList t.body.main) = some false)
  shared : ∀ h h' n, IsRowHeader ss h → IsRowHeader ss h' → h.style = some n → h'.style = some n → h.height = h'.height

/-- The row has a style, a default style for cells, is hidden or has a height. -/
def Marked (s : TSheet) (r : Nat) : Prop := s.rowHeader.attrs r ≠ {} ∨ s.rowHeader.rowHeight r ≠ .default

/-- No row stands for more than 1000 rows. -/
structure RowsFit (s : TSheet) : Prop where
  big : ∀ r, s.DataRow r → s.repeatOf r ≤ 1000

/-- What the rows without cells need, see C20: neighbours look the same, unless there are groups or header rows, no
marked row is above one that is not marked and has no content, and no marked row begins more than 1000 rows without
cells. -/
structure EmptyRowsFit (s : TSheet) (o : ReadOpts) : Prop where
  uniform : s.groupRows = [] → s.headerRows = none → ∀ r, s.EmptyRow r → s.EmptyRow (r + 1) → s.InTable (r + 1) →
    s.rowHeader.attrs (r + 1) = s.rowHeader.attrs r
    ∧ (s.rowHeader.rowstyle r = none → s.rowHeader.rowHeight r = .default ∧ s.rowHeader.rowHeight (r + 1) = .default)
  leak : ∀ r, s.DataRow r → Marked s r → s.InTable (r + s.repeatOf r) → ¬ Marked s (r + s.repeatOf r) →
    s.HasContent o (r + s.repeatOf r)
  long : ∀ r, Marked s r → s.InTable (r + 1000) → ∃ i, i ≤ 1000 ∧ ¬ s.EmptyRow (r + i)

end Spec

/-! ## The sheet with new styles of rows -/

section Sheet

variable (s : TSheet) (ns : List (Option String)) (hl : ns.length = s.rowHeader.length)
  (hdone : ∀ p ∈ (rowPairs s.rowHeader).zip ns, (∃ n, p.1.1 = some n ∧ p.2 = some n)
    ∨ (p.1.1 = none ∧ p.1.2 = .default ∧ p.2 = none) ∨ (p.1.1 = none ∧ p.1.2 ≠ .default ∧ p.2 ≠ none))

/-- The sheet with new styles. -/
abbrev styled : TSheet := { s with rowHeader := restyleRows s.rowHeader ns }

include hl

theorem styled_rep (r : Nat) : (styled s ns).rowHeader.rowRepeat r = s.rowHeader.rowRepeat r := by
  unfold RowHeaders.rowRepeat
  rcases restyleRows_valid s.rowHeader ns hl r with ⟨h1, h2⟩ | ⟨p, st, _, h2, h3⟩
  · rw [h1, h2]
  · rw [h2, h3]

theorem styled_repeatOf (r : Nat) : (styled s ns).repeatOf r = s.repeatOf r := by
  unfold TSheet.repeatOf
  rw [styled_rep s ns hl r]

theorem styled_cells (h : s.CellsOK) : (styled s ns).CellsOK := by
  refine ⟨h.sorted, ?_, h.rep, h.spans⟩
  intro q hq
  have h1 := h.rows q hq
  unfold RowOK at h1 ⊢
  rw [styled_rep s ns hl, ← h1]
  unfold rowRepeatOf
  have h2 := restyleRows_get q.1.1 s.rowHeader ns hl
  show (match get? (restyleRows s.rowHeader ns) q.1.1 with | some h => h.repeat | none => 1)
    = (match get? s.rowHeader q.1.1 with | some h => h.repeat | none => 1)
  cases ha : get? (restyleRows s.rowHeader ns) q.1.1 with
  | none =>
    rw [ha] at h2
    cases hb : get? s.rowHeader q.1.1 with
    | none => rfl
    | some y => rw [hb] at h2; cases h2
  | some x =>
    rw [ha] at h2
    cases hb : get? s.rowHeader q.1.1 with
    | none => rw [hb] at h2; cases h2
    | some y => rw [hb] at h2; injection h2

theorem styled_copy (r r0 : Nat) : (styled s ns).CopyOf r r0 ↔ s.CopyOf r r0 := by
  unfold TSheet.CopyOf
  rw [styled_repeatOf s ns hl]
  exact Iff.rfl

theorem styled_empty (r : Nat) : (styled s ns).EmptyRow r ↔ s.EmptyRow r :=
  ⟨fun h r0 h0 => h r0 ((styled_copy s ns hl r r0).2 h0), fun h r0 h0 => h r0 ((styled_copy s ns hl r r0).1 h0)⟩

theorem styled_in (r : Nat) : (styled s ns).InTable r ↔ s.InTable r := by
  unfold TSheet.InTable
  constructor
  · rintro ⟨r1, h1, h2⟩; rw [styled_repeatOf s ns hl] at h2; exact ⟨r1, h1, h2⟩
  · rintro ⟨r1, h1, h2⟩; exact ⟨r1, h1, by rw [styled_repeatOf s ns hl]; exact h2⟩

include hdone

/-- The attributes of a row before and after. -/
theorem styled_attrs (r : Nat) :
    ((styled s ns).rowHeader.attrs r = s.rowHeader.attrs r ∧ (s.rowHeader.rowstyle r = none → s.rowHeader.rowHeight r = .default))
    ∨ (s.rowHeader.rowHeight r ≠ .default ∧ s.rowHeader.rowstyle r = none ∧ (styled s ns).rowHeader.attrs r ≠ {}) := by
  unfold RowHeaders.attrs RowHeaders.rowstyle RowHeaders.rowCellstyle RowHeaders.rowVisible RowHeaders.rowHeight
  rcases restyleRows_valid s.rowHeader ns hl r with ⟨h1, h2⟩ | ⟨p, st, h1, h2, h3⟩
  · rw [h1, h2]; exact .inl ⟨rfl, fun _ => rfl⟩
  · rw [h2, h3]
    rcases hdone _ (mem_rowPairs h1) with ⟨n, a1, a2⟩ | ⟨a1, a2, a3⟩ | ⟨a1, a2, a3⟩
    · simp only at a1 a2
      refine .inl ⟨?_, fun hn => ?_⟩
      · simp only [a1, a2]
      · simp only at hn; rw [a1] at hn; cases hn
    · simp only at a1 a2 a3
      exact .inl ⟨by simp only [a1, a3], fun _ => a2⟩
    · simp only at a1 a2 a3
      exact .inr ⟨a2, a1, fun he => a3 (congrArg RowAttrs.style he)⟩

theorem styled_marked (r : Nat) : (styled s ns).rowHeader.attrs r ≠ {} ↔ Marked s r := by
  unfold Marked
  rcases styled_attrs s ns hl hdone r with ⟨h1, h2⟩ | ⟨h1, _, h3⟩
  · rw [h1]
    refine ⟨.inl, fun h => h.elim id fun hh he => hh (h2 (congrArg RowAttrs.style he))⟩
  · exact ⟨fun _ => .inr h1, fun _ => h3⟩

end Sheet

/-! ## C57 -/

theorem rowHeight_of_valid (m : RowHeaders) (k : Nat) : m.rowHeight k = ((m.valid k).map RowHeader.height).getD .default := by
  unfold RowHeaders.rowHeight
  cases m.valid k <;> rfl

theorem rowHeaders_length (ss : List TSheet) :
    (ss.flatMap fun s => rowPairs s.rowHeader).length = (ss.map fun s => s.rowHeader.length).sum := by
  rw [List.length_flatMap]
  congr 1
  refine List.map_congr_left fun s _ => ?_
  unfold rowPairs
  rw [List.length_map]

theorem mem_zip_of {α β : Type} (l : List α) (l' : List β) (i : Nat) (a : α) (b : β) (h : l[i]? = some a) (h' : l'[i]? = some b) :
    (a, b) ∈ l.zip l' := by
  refine List.mem_of_getElem? (i := i) ?_
  rw [List.getElem?_zip_eq_some]
  exact ⟨h, h'⟩

/-- The workbook with the new styles can be written. -/
theorem sizes_ok (f : Floats) (b : SBook) (hb : BookOk b) (ss ss1 ss2 : List TSheet) (st1 st2 : Stores Body)
    (hrows : calcRowSheets f b.styles ss = .ok (st1, ss1)) (hcols : calcSheets f st1 ss1 = .ok (st2, ss2))
    (hcount : b.count + (ss.map fun s => s.rowHeader.length).sum + (ss.map fun s => s.colHeader.length).sum < 4294967296) :
    BookOk { b with styles := st2 } ∧ ({ b with styles := st2 } : SBook).count < 4294967296 := by
  obtain ⟨ns, hrun, hlen, hlen1, hsheets⟩ := calcRowSheets_run f ss b.styles st1 ss1 hrows
  obtain ⟨hok1, htot1⟩ := run_ok rowDim rowDim_ok (.inr rfl) f _ b.styles st1 ns hrun ⟨hb.styleKey, hb.style, hb.stylesMap⟩
  have hsame : ∀ (i : Nat) (s1 : TSheet), ss1[i]? = some s1 → ∃ s ns', ss[i]? = some s ∧ ns'.length = s.rowHeader.length
      ∧ s1 = styled s ns' ∧ ((rowPairs s.rowHeader).zip ns').Sublist ((ss.flatMap fun s => rowPairs s.rowHeader).zip ns) := by
    intro i s1 h1
    have hi : i < ss.length := by
      have := (List.getElem?_eq_some_iff.1 h1).1
      omega
    obtain ⟨ns', a1, a2, a3⟩ := hsheets (ss[i], s1) (mem_zip_of ss ss1 i _ _ (List.getElem?_eq_getElem hi) h1)
    exact ⟨ss[i], ns', List.getElem?_eq_getElem hi, a1, a2, a3⟩
  have hsum : (ss1.map fun s => s.colHeader.length) = ss.map fun s => s.colHeader.length := by
    refine List.ext_getElem? fun i => ?_
    rw [List.getElem?_map, List.getElem?_map]
    cases h1 : ss1[i]? with
    | none =>
      have : ss[i]? = none := by rw [List.getElem?_eq_none_iff] at h1 ⊢; omega
      rw [this]
    | some s1 =>
      obtain ⟨s, ns', g1, _, g2, _⟩ := hsame i s1 h1
      rw [g1, g2]
      rfl
  obtain ⟨nsc, hrunc, hlenc, hlen2, hsheets2⟩ := calcSheets_run f ss1 st1 st2 ss2 hcols
  obtain ⟨hok2, htot2⟩ := run_ok colDim colDim_ok (.inl rfl) f _ st1 st2 nsc hrunc hok1
  refine ⟨book_ok b hb st2 hok2, ?_⟩
  rw [headers_length, hsum] at htot2
  rw [rowHeaders_length] at htot1
  have h1 : b.count = total b.styles := rfl
  have h2 : ({ b with styles := st2 } : SBook).count = total st2 := rfl
  omega

/-- Widths and heights come back, if the styles do: `bk` are the styles that were read. -/
theorem sizes_core (f : Floats) (b st1 st2 bk : Stores Body) (ss ss1 ss2 : List TSheet)
    (hf : ∀ h, IsHeader ss h → LengthOk f h.width) (hfr : ∀ h, IsRowHeader ss h → LengthOk f h.height)
    (hfit : WidthsFit b ss) (hfitr : HeightsFit b ss)
    (hrows : calcRowSheets f b ss = .ok (st1, ss1)) (hcols : calcSheets f st1 ss1 = .ok (st2, ss2))
    (hfound : ∀ k n s, st2.get? k n = some s → s.body.use ≠ .default →
      (s.body.origin = .styles ∨ s.body.use = .automatic) → ∃ t, bk.get? k n = some t ∧ t.body.main = s.body.main) :
    ∀ (i : Nat) (s s2 : TSheet), ss[i]? = some s → ss2[i]? = some s2 → s.CellsOK → s.colHeader.WF →
        ∀ o evs s', writeSheet s2 = .ok evs → readTable o evs = some s' →
          (s.colHeader.NoGap → s.colHeader.NoHole → ∃ cols, deriveCols f bk s'.colHeader = some cols
            ∧ ∀ k, Reached s k → cols.colWidth k = s.colHeader.colWidth k)
          ∧ (o.useRepeat = false → RowsFit s → ∃ rows, deriveRows f bk s'.rowHeader = some rows
            ∧ (∀ r r0, s.CopyOf r r0 → s.HasContent o r0 → rows.rowHeight r = s.rowHeader.rowHeight r0)
            ∧ (EmptyRowsFit s o → (∀ r r0, s.CopyOf r r0 → rows.rowHeight r = s.rowHeader.rowHeight r0)
                ∧ ∀ r, s.EmptyRow r → s.InTable r → rows.rowHeight r = s.rowHeader.rowHeight r)) := by
  obtain ⟨ns, hrun, hlen, hlen1, hsheets⟩ := calcRowSheets_run f ss b st1 ss1 hrows
  have hstored : ∀ p ∈ ss.flatMap fun s => rowPairs s.rowHeader, ∃ h, IsRowHeader ss h ∧ p = (h.style, h.height) := by
    intro p hp
    obtain ⟨s, hs, hp⟩ := List.mem_flatMap.1 hp
    obtain ⟨q, hq, rfl⟩ := List.mem_map.1 hp
    exact ⟨q.2, ⟨s, hs, q.1, hq⟩, rfl⟩
  have hpre : ∀ p ∈ ss.flatMap fun s => rowPairs s.rowHeader, ∀ n, p.1 = some n → ∃ t, b.get? rowDim.kind n.toList = some t
      ∧ Kept t ∧ (p.2 ≠ .default → flagOr (val rowDim.optimal t.body.main) = some false) := by
    intro p hp n hn
    obtain ⟨h, hh, rfl⟩ := hstored p hp
    exact hfitr.stored h n hh hn
  have hpre' : ∀ p ∈ ss.flatMap fun s => rowPairs s.rowHeader, ∀ n, p.1 = some n → b.get? rowDim.kind n.toList ≠ none := by
    intro p hp n hn hx
    obtain ⟨t, ht, _⟩ := hpre p hp n hn
    rw [ht] at hx
    cases hx
  obtain ⟨_, _, _, _, hother, _⟩ := run_spec rowDim f _ b st1 ns hrun hpre'
  -- the columns are those from before
  have hsame : ∀ (i : Nat) (s1 : TSheet), ss1[i]? = some s1 → ∃ s ns', ss[i]? = some s ∧ ns'.length = s.rowHeader.length
      ∧ s1 = styled s ns' ∧ ((rowPairs s.rowHeader).zip ns').Sublist ((ss.flatMap fun s => rowPairs s.rowHeader).zip ns) := by
    intro i s1 h1
    have hi : i < ss.length := by
      have := (List.getElem?_eq_some_iff.1 h1).1
      omega
    obtain ⟨ns', a1, a2, a3⟩ := hsheets (ss[i], s1) (mem_zip_of ss ss1 i _ _ (List.getElem?_eq_getElem hi) h1)
    exact ⟨ss[i], ns', List.getElem?_eq_getElem hi, a1, a2, a3⟩
  have hhead : ∀ h, IsHeader ss1 h → IsHeader ss h := by
    rintro h ⟨s1, hs1, c, hc⟩
    obtain ⟨i, hi⟩ := List.getElem?_of_mem hs1
    obtain ⟨s, ns', g1, _, g2, _⟩ := hsame i s1 hi
    exact ⟨s, List.mem_of_getElem? g1, c, by rw [g2] at hc; exact hc⟩
  have hfit1 : WidthsFit st1 ss1 := by
    refine ⟨?_, fun h h' n a b => hfit.shared h h' n (hhead h a) (hhead h' b)⟩
    intro h n hh hn
    obtain ⟨t, ht, hk⟩ := hfit.stored h n (hhead h hh) hn
    exact ⟨t, by rw [hother .col _ (by decide)]; exact ht, hk⟩
  have hwidths := widths_core f st1 st2 ss1 ss2 bk (fun h hh => hf h (hhead h hh)) hfit1 hcols (fun n => hfound .col n)
  -- the styles after reading
  obtain ⟨nsc, hrunc, hlenc, hlen2, hsheets2⟩ := calcSheets_run f ss1 st1 st2 ss2 hcols
  have hprec : ∀ p ∈ ss1.flatMap fun s => pairs s.colHeader, ∀ n, p.1 = some n → st1.get? colDim.kind n.toList ≠ none := by
    intro p hp n hn hx
    obtain ⟨s, hs, hp⟩ := List.mem_flatMap.1 hp
    obtain ⟨q, hq, rfl⟩ := List.mem_map.1 hp
    obtain ⟨t, ht, _⟩ := hfit1.stored q.2 n ⟨s, hs, q.1, hq⟩ hn
    rw [show colDim.kind = .col from rfl, ht] at hx
    cases hx
  obtain ⟨_, _, _, _, hotherc, _⟩ := run_spec colDim f _ st1 st2 nsc hrunc hprec
  obtain ⟨hdone, hback⟩ := size_back rowDim rowDim_ok f b st1 ns _ bk hrun
    (by
      intro p hp
      obtain ⟨h, hh, rfl⟩ := hstored p hp
      exact hfr h hh)
    hpre
    (by
      intro p hp q hq n h1 h2
      obtain ⟨h, hh, rfl⟩ := hstored p hp
      obtain ⟨h', hh', rfl⟩ := hstored q hq
      exact hfitr.shared h h' n hh hh' h1 h2)
    (by
      intro n s hs
      exact hfound .row n s (by
        show st2.get? .row n = some s
        rw [hotherc .row n (by decide)]
        exact hs))
  intro i s s2 hs hs2 hcells hwf o evs s' hwrite hrd
  have hi1 : i < ss1.length := by
    have := (List.getElem?_eq_some_iff.1 hs).1
    omega
  obtain ⟨s0, ns', g1, hl, g2, hsub⟩ := hsame i ss1[i] (List.getElem?_eq_getElem hi1)
  rw [hs] at g1
  injection g1 with g1
  subst g1
  have hz2 : (ss1[i], s2) ∈ ss1.zip ss2 := mem_zip_of ss1 ss2 i _ _ (List.getElem?_eq_getElem hi1) hs2
  have hcells1 := styled_cells s ns' hl hcells
  refine ⟨?_, ?_⟩
  · intro hgap hhole
    have := hwidths (ss1[i], s2) hz2 (by rw [g2]; exact hcells1) (by rw [g2]; exact hwf) (by rw [g2]; exact hgap)
      (by rw [g2]; exact hhole) o evs s' hwrite hrd
    rw [g2] at this
    exact this
  · intro ho hfitR
    obtain ⟨nsc', hlc, hp2, _⟩ := hsheets2 (ss1[i], s2) hz2
    simp only at hlc hp2
    rw [g2] at hlc hp2
    have hwf2 : s2.colHeader.WF := by rw [hp2]; exact restyle_wf s.colHeader nsc' hlc hwf
    have hcells2 : s2.CellsOK := by rw [hp2]; exact ⟨hcells1.sorted, hcells1.rows, hcells1.rep, hcells1.spans⟩
    have hrh : s2.rowHeader = restyleRows s.rowHeader ns' := by rw [hp2]
    have hdone' : ∀ p ∈ (rowPairs s.rowHeader).zip ns', (∃ n, p.1.1 = some n ∧ p.2 = some n)
      ∨ (p.1.1 = none ∧ p.1.2 = .default ∧ p.2 = none) ∨ (p.1.1 = none ∧ p.1.2 ≠ .default ∧ p.2 ≠ none) :=
      fun p hp => hdone p (hsub.subset hp)
    have hfrom := read_rows s2 s' o evs hcells2 hwf2 hwrite hrd
    -- the height of a header after reading
    let g : RowHeader → Length := fun x => match x.style with
      | none => .default
      | some n => (derived rowDim f bk (some n) .default).getD .default
    have hall : ∀ q ∈ s'.rowHeader, derived rowDim f bk q.2.style q.2.height = some (g q.2) := by
      intro q hq
      obtain ⟨hd, hst⟩ := hfrom q hq
      rw [hd]
      cases hs : q.2.style with
      | none => simp only [g, hs]; rfl
      | some n =>
        obtain ⟨c', y, hy, hyn⟩ := hst n hs
        rw [hrh] at hy
        obtain ⟨z, hz, hzy⟩ := List.mem_map.1 hy
        injection hzy with _ hzy
        have hz2 : z.2 = some n := by rw [← hyn, ← hzy]
        have := hback _ n .default (hsub.subset (mem_rowPairs (p := z.1) (by rw [← hz2]; exact hz)))
        simp only [g, hs, this, Option.getD_some]
    -- a row with the attributes of a row has its height
    have hkey : ∀ r r0, s'.rowHeader.attrs r = s2.rowHeader.attrs r0 →
        RowHeaders.rowHeight (s'.rowHeader.map fun p => (p.1, { p.2 with height := g p.2 })) r = s.rowHeader.rowHeight r0 := by
      intro r r0 ha
      have hstyle : s'.rowHeader.rowstyle r = s2.rowHeader.rowstyle r0 := congrArg RowAttrs.style ha
      rw [rowHeight_of_valid, rowValid_map s'.rowHeader (fun x => { x with height := g x }) (fun _ => rfl) r, Option.map_map]
      have hval : (Option.map (RowHeader.height ∘ fun x => { x with height := g x }) (s'.rowHeader.valid r)).getD .default
          = match s'.rowHeader.rowstyle r with
            | none => .default
            | some n => (derived rowDim f bk (some n) .default).getD .default := by
        unfold RowHeaders.rowstyle
        cases s'.rowHeader.valid r with
        | none => rfl
        | some x => rfl
      rw [hval, hstyle, hrh]
      unfold RowHeaders.rowstyle
      rw [rowHeight_of_valid]
      rcases restyleRows_valid s.rowHeader ns' hl r0 with ⟨h1, h2⟩ | ⟨q, sty, h1, h4, h5⟩
      · rw [h1, h2]; rfl
      · rw [h4, h5]
        simp only [Option.map_some, Option.getD_some]
        cases sty with
        | none =>
          rcases hdone' _ (mem_rowPairs h1) with ⟨n, _, a2⟩ | ⟨_, a2, _⟩ | ⟨_, _, a3⟩
          · cases a2
          · exact a2.symm
          · exact absurd rfl a3
        | some n =>
          have := hback _ n .default (hsub.subset (mem_rowPairs h1))
          simp only [this, Option.getD_some]
    have hbig2 : ∀ r, s2.DataRow r → s2.repeatOf r ≤ 1000 := by
      intro r hd
      rw [hp2] at hd ⊢
      have : (styled s ns').repeatOf r ≤ 1000 := by rw [styled_repeatOf s ns' hl]; exact hfitR.big r hd
      exact this
    refine ⟨_, deriveRows_map f bk g s'.rowHeader hall, ?_, ?_⟩
    · intro r r0 hcp hco
      refine hkey r r0 (C20_content_partial s2 s' o evs hcells2 hbig2 hwf2 ho hwrite hrd r r0 ?_ ?_)
      · rw [hp2]; exact (styled_copy s ns' hl r r0).2 hcp
      · rw [hp2]; exact hco
    · intro hgaps
      have hlong2 : ∀ r, s2.rowHeader.attrs r ≠ {} → s2.InTable (r + 1000) → ∃ i, i ≤ 1000 ∧ ¬ s2.EmptyRow (r + i) := by
        rw [hp2]
        intro r h1 h2
        obtain ⟨i, h3, h4⟩ := hgaps.long r ((styled_marked s ns' hl hdone' r).1 h1) ((styled_in s ns' hl _).1 h2)
        exact ⟨i, h3, fun h => h4 ((styled_empty s ns' hl _).1 h)⟩
      obtain ⟨k1, k2⟩ := C20_rows_partial s2 s' o evs hcells2 hbig2 hwf2 hlong2
        (by
          rw [hp2]
          intro e1 e2 r e3 e4 e5
          obtain ⟨u1, u2⟩ := hgaps.uniform e1 e2 r ((styled_empty s ns' hl _).1 e3) ((styled_empty s ns' hl _).1 e4)
            ((styled_in s ns' hl _).1 e5)
          have u3 : s.rowHeader.rowstyle (r + 1) = s.rowHeader.rowstyle r := congrArg RowAttrs.style u1
          have v1 : (styled s ns').rowHeader.attrs (r + 1) = s.rowHeader.attrs (r + 1) := by
            rcases styled_attrs s ns' hl hdone' (r + 1) with h | ⟨h1, h2, _⟩
            · exact h.1
            · exact absurd (u2 (by rw [← u3]; exact h2)).2 h1
          have v2 : (styled s ns').rowHeader.attrs r = s.rowHeader.attrs r := by
            rcases styled_attrs s ns' hl hdone' r with h | ⟨h1, h2, _⟩
            · exact h.1
            · exact absurd (u2 h2).1 h1
          exact v1.trans (u1.trans v2.symm))
        (by
          rw [hp2]
          intro r e1 e2 e3 e4
          have er : ({ styled s ns' with colHeader := restyle s.colHeader nsc' } : TSheet).repeatOf r = s.repeatOf r :=
            styled_repeatOf s ns' hl r
          rw [er] at e3 e4 ⊢
          exact hgaps.leak r e1 ((styled_marked s ns' hl hdone' r).1 e2) ((styled_in s ns' hl _).1 e3)
            (fun h => (styled_marked s ns' hl hdone' _).2 h e4))
        ho hwrite hrd
      refine ⟨?_, ?_⟩
      · intro r r0 hcp
        exact hkey r r0 (k1 r r0 (by rw [hp2]; exact (styled_copy s ns' hl r r0).2 hcp))
      · intro r he hi
        exact hkey r r (k2 r (by rw [hp2]; exact (styled_empty s ns' hl r).2 he) (by rw [hp2]; exact (styled_in s ns' hl r).2 hi))

/-- **C57**, partial: a workbook is saved as a package and read again. The widths of all covered columns and the heights of
all rows of all sheets are the same as before; a copy that the repeat count of a row stands for has the height of the row.

`calcRowSheets` moves the heights to the styles and `calcSheets` the widths, the styles are written to the two files and the
tables to the second one; all is read, and `deriveRows` and `deriveCols` take heights and widths from the styles that were
read.

Missing: rows and columns that share a style and do not share the size, styles that are missing, not written, or say that
the size is computed (`C57_shared_counterexample`, `C57_heights_counterexample`), and the rows and columns that C20 and C19
do not cover. -/
theorem C57_sizes_partial (ints : Refs.Ints) (hm : ints.max = maxU32) (as as' : List (Bool × Str × Str))
    (has : AttrsOk as) (has' : AttrsOk as') (f : Floats) (b : SBook) (hb : BookOk b) (ss ss1 ss2 : List TSheet)
    (hf : ∀ h, IsHeader ss h → LengthOk f h.width) (hfr : ∀ h, IsRowHeader ss h → LengthOk f h.height)
    (st1 st2 : Stores Body) (hfit : WidthsFit b.styles ss) (hfitr : HeightsFit b.styles ss)
    (hrows : calcRowSheets f b.styles ss = .ok (st1, ss1)) (hcols : calcSheets f st1 ss1 = .ok (st2, ss2))
    (hcount : b.count + (ss.map fun s => s.rowHeader.length).sum + (ss.map fun s => s.colHeader.length).sum < 4294967296) :
    ∃ bk, readPackage ints (output false (writeStylesFile as { b with styles := st2 }))
        (output false (writeContentFile as' { b with styles := st2 })) = .ok bk
      ∧ ∀ (i : Nat) (s s2 : TSheet), ss[i]? = some s → ss2[i]? = some s2 → s.CellsOK → s.colHeader.WF →
        ∀ o evs s', writeSheet s2 = .ok evs → readTable o evs = some s' →
          (s.colHeader.NoGap → s.colHeader.NoHole → ∃ cols, deriveCols f bk.styles s'.colHeader = some cols
            ∧ ∀ k, Reached s k → cols.colWidth k = s.colHeader.colWidth k)
          ∧ (o.useRepeat = false → RowsFit s → ∃ rows, deriveRows f bk.styles s'.rowHeader = some rows
            ∧ (∀ r r0, s.CopyOf r r0 → s.HasContent o r0 → rows.rowHeight r = s.rowHeader.rowHeight r0)
            ∧ (EmptyRowsFit s o → (∀ r r0, s.CopyOf r r0 → rows.rowHeight r = s.rowHeader.rowHeight r0)
                ∧ ∀ r, s.EmptyRow r → s.InTable r → rows.rowHeight r = s.rowHeader.rowHeight r)) := by
  obtain ⟨hok2, hcount2⟩ := sizes_ok f b hb ss ss1 ss2 st1 st2 hrows hcols hcount
  obtain ⟨bk, hread, hfound, _⟩ := C51_package_partial ints hm as as' has has' { b with styles := st2 } hok2 hcount2
  refine ⟨bk, hread, sizes_core f b.styles st1 st2 bk.styles ss ss1 ss2 hf hfr hfit hfitr hrows hcols ?_⟩
  intro k n s h1 h2 h3
  obtain ⟨t, h4, h5⟩ := hfound k n s h1 h2 h3
  exact ⟨t, h4, h5.main⟩

/-- **C57**, partial: the same for a flat file. -/
theorem C57_flat_partial (ints : Refs.Ints) (hm : ints.max = maxU32) (as : List (Bool × Str × Str))
    (has : AttrsOk as) (f : Floats) (b : SBook) (hb : BookOk b) (ss ss1 ss2 : List TSheet)
    (hf : ∀ h, IsHeader ss h → LengthOk f h.width) (hfr : ∀ h, IsRowHeader ss h → LengthOk f h.height)
    (st1 st2 : Stores Body) (hfit : WidthsFit b.styles ss) (hfitr : HeightsFit b.styles ss)
    (hrows : calcRowSheets f b.styles ss = .ok (st1, ss1)) (hcols : calcSheets f st1 ss1 = .ok (st2, ss2))
    (hcount : b.count + (ss.map fun s => s.rowHeader.length).sum + (ss.map fun s => s.colHeader.length).sum < 4294967296) :
    ∃ bk, readFlat ints (writeFlat as { b with styles := st2 }).1 = .ok bk
      ∧ ∀ (i : Nat) (s s2 : TSheet), ss[i]? = some s → ss2[i]? = some s2 → s.CellsOK → s.colHeader.WF →
        ∀ o evs s', writeSheet s2 = .ok evs → readTable o evs = some s' →
          (s.colHeader.NoGap → s.colHeader.NoHole → ∃ cols, deriveCols f bk.styles s'.colHeader = some cols
            ∧ ∀ k, Reached s k → cols.colWidth k = s.colHeader.colWidth k)
          ∧ (o.useRepeat = false → RowsFit s → ∃ rows, deriveRows f bk.styles s'.rowHeader = some rows
            ∧ (∀ r r0, s.CopyOf r r0 → s.HasContent o r0 → rows.rowHeight r = s.rowHeader.rowHeight r0)
            ∧ (EmptyRowsFit s o → (∀ r r0, s.CopyOf r r0 → rows.rowHeight r = s.rowHeader.rowHeight r0)
                ∧ ∀ r, s.EmptyRow r → s.InTable r → rows.rowHeight r = s.rowHeader.rowHeight r)) := by
  obtain ⟨hok2, hcount2⟩ := sizes_ok f b hb ss ss1 ss2 st1 st2 hrows hcols hcount
  obtain ⟨bk, hread, hfound, _⟩ := C51_flat_partial ints hm as has { b with styles := st2 } hok2 hcount2
  refine ⟨bk, hread, sizes_core f b.styles st1 st2 bk.styles ss ss1 ss2 hf hfr hfit hfitr hrows hcols ?_⟩
  intro k n s h1 h2 _
  obtain ⟨t, h4, h5⟩ := hfound k n s h1 h2
  exact ⟨t, h4, h5.main⟩

end Verif.Width
