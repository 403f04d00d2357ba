import Verif.Grid.Props

/-!
# Writing and reading row groups, header rows and the tags of the table body
-/

set_option autoImplicit false

namespace Verif

open OMap

/-! ### The header range -/

theorem headerUpTo_in {h : HeaderRange} {c n : Nat} (h1 : h.frm ≤ c) (h3 : c + n ≤ h.to + 1)
    (hn : 1 ≤ n) :
    endHeader (headerUpTo (some h) c) c (c + n) = some (headerUpTo (some h) (c + n)) := by
  unfold endHeader headerUpTo
  simp only
  rw [if_neg (by omega), if_neg (show ¬ c + n ≤ h.frm by omega)]
  by_cases a4 : c ≤ h.frm
  · have : c = h.frm := by omega
    simp only [if_pos a4]
    rw [this]
    have : min (h.frm + n) (h.to + 1) = h.frm + n := by omega
    rw [this]
  · simp only [if_neg a4]
    have : min (c + n) (h.to + 1) = c + n := by omega
    rw [this]

theorem headerUpTo_out {h : HeaderRange} {c n : Nat} (hle : h.frm ≤ h.to)
    (hout : ¬ (h.frm ≤ c ∧ c ≤ h.to)) (hfrm : c < h.frm → c + n ≤ h.frm) :
    headerUpTo (some h) c = headerUpTo (some h) (c + n) := by
  unfold headerUpTo
  simp only
  by_cases a1 : c < h.frm
  · rw [if_pos (by omega), if_pos (hfrm a1)]
  · rw [if_neg (by omega), if_neg (by omega)]
    have : min c (h.to + 1) = min (c + n) (h.to + 1) := by omega
    rw [this]

theorem headerUpTo_end {h : Option HeaderRange} {c : Nat} (hle : ∀ x, h = some x → x.frm ≤ x.to)
    (hc : ∀ x, h = some x → x.to < c) : headerUpTo h c = h := by
  unfold headerUpTo
  cases h with
  | none => rfl
  | some x =>
    have a1 := hle x rfl
    have a2 := hc x rfl
    simp only
    rw [if_neg (by omega)]
    have : min c (x.to + 1) - 1 = x.to := by omega
    rw [this]

/-! ### Reading tags -/

theorem read_open_rows (o : ReadOpts) (gs : List Grouped) : ∀ (st : RState),
    (∀ g ∈ gs, g.frm = st.row) →
    readEvents o st (gs.map groupStartOf)
      = some { st with rowGroup := (gs.map openGroup).reverse ++ st.rowGroup } := by
  induction gs with
  | nil => intro st _; rfl
  | cons g gs ih =>
    intro st h
    have hg := h g (by simp)
    simp only [List.map_cons, readEvents, groupStartOf, readStep]
    refine (ih _ ?_).trans ?_
    · intro x hx; exact h x (by simp [hx])
    have : (⟨st.row, 0, (if g.display then none else some false : Option Bool).getD true⟩ : Grouped)
        = openGroup g := by
      cases g with | mk f t d => cases d <;> simp_all [openGroup]
    simp only [this, List.reverse_cons, List.append_assoc, List.cons_append, List.nil_append]

theorem read_close_rows (o : ReadOpts) (k : Nat) : ∀ (st : RState), k ≤ st.rowGroup.length →
    0 < st.row →
    readEvents o st (List.replicate k .groupEnd)
      = some { st with rowGroup := st.rowGroup.drop k, sheet := { st.sheet with
          groupRows := st.sheet.groupRows
            ++ (st.rowGroup.take k).map (fun g => { g with to := st.row - 1 }) } } := by
  induction k with
  | zero => intro st _ _; simp [readEvents]
  | succ k ih =>
    intro st hk hc
    cases hg : st.rowGroup with
    | nil => rw [hg] at hk; simp at hk
    | cons g gs =>
      rw [hg] at hk
      simp only [List.replicate_succ, readEvents, readStep, hg, if_neg (show ¬ st.row = 0 by omega)]
      refine (ih { st with rowGroup := gs, sheet := { st.sheet with
        groupRows := st.sheet.groupRows ++ [{ g with to := st.row - 1 }] } } ?_ hc).trans ?_
      · simpa using hk
      · simp

theorem checkTags_open_rows (gs : List Grouped) (T : List TTag) (rest : List TEv) :
    checkTags T (gs.map groupStartOf ++ rest)
      = checkTags (List.replicate gs.length .group ++ T) rest := by
  induction gs generalizing T with
  | nil => rfl
  | cons g gs ih =>
    simp only [List.map_cons, List.cons_append, checkTags, groupStartOf, TEv.opens]
    rw [ih]
    congr 1
    rw [List.length_cons, List.replicate_succ', List.append_assoc]
    rfl

theorem checkTags_close_rows (k : Nat) (T : List TTag) (rest : List TEv) :
    checkTags (List.replicate k .group ++ T) (List.replicate k .groupEnd ++ rest)
      = checkTags T rest := by
  induction k with
  | zero => rfl
  | succ k ih =>
    simp only [List.replicate_succ, List.cons_append, checkTags, TEv.opens, TEv.closes, if_true]
    exact ih

/-- The event is a cell. -/
def TEv.isCell : TEv → Bool
  | .cell _ _ _ => true
  | _ => false

theorem read_cells (o : ReadOpts) (evs : List TEv) : ∀ (st : RState), (∀ e ∈ evs, e.isCell = true) →
    ∃ data col colData, readEvents o st evs
      = some { st with sheet := { st.sheet with data := data }, col := col, colData := colData } := by
  induction evs with
  | nil => intro st _; exact ⟨st.sheet.data, st.col, st.colData, rfl⟩
  | cons e evs ih =>
    intro st h
    cases e with
    | cell cov r body =>
      simp only [readEvents, readStep]
      obtain ⟨d, c, cd, h1⟩ := ih { st with
        sheet := { st.sheet with data :=
          (readCell o st.sheet.colHeader st.sheet.data st.row st.col (r.getD 1) body).1 }
        col := st.col + r.getD 1
        colData := st.colData
          || (readCell o st.sheet.colHeader st.sheet.data st.row st.col (r.getD 1) body).2 }
        (fun x hx => h x (by simp [hx]))
      exact ⟨d, c, cd, h1⟩
    | _ => exact absurd (h _ List.mem_cons_self) Bool.false_ne_true

theorem checkTags_cells (evs : List TEv) (h : ∀ e ∈ evs, e.isCell = true) (T : List TTag)
    (rest : List TEv) : checkTags T (evs ++ rest) = checkTags T rest := by
  induction evs with
  | nil => rfl
  | cons e evs ih =>
    cases e with
    | cell cov r body =>
      simp only [List.cons_append, checkTags, TEv.opens, TEv.closes]
      exact ih (fun x hx => h x (by simp [hx]))
    | _ => exact absurd (h _ List.mem_cons_self) Bool.false_ne_true

/-! ### Writing cells succeeds -/

theorem writeCells_isCell (mx : Nat × Nat) (row : Nat) (cs : List (Nat × CellData)) :
    ∀ (spans spans' : List CellRange) (evs : List TEv),
    writeCells mx row spans cs = .ok (evs, spans') → ∀ e ∈ evs, e.isCell = true := by
  induction cs with
  | nil =>
    intro spans spans' evs h
    simp only [writeCells, Except.ok.injEq, Prod.mk.injEq] at h
    rw [← h.1]; simp
  | cons p cs ih =>
    obtain ⟨c, d⟩ := p
    intro spans spans' evs h
    simp only [writeCells] at h
    split at h
    · simp at h
    split at h
    · simp at h
    rename_i e3 hfill
    split at h
    · simp at h
    rename_i e5 sp hrest
    simp only [Except.ok.injEq, Prod.mk.injEq] at h
    rw [← h.1]
    intro e he
    simp only [List.mem_append] at he
    rcases he with (he | he) | he
    · obtain ⟨x, _, rfl⟩ := List.mem_map.mp he; rfl
    · unfold writeFill at hfill
      have : e3 = [] ∨ ∃ l, e3 = writeEmptyCells l := by
        split at hfill
        · dsimp only at hfill
          split at hfill
          · simp only [Except.ok.injEq] at hfill; exact Or.inr ⟨_, hfill.symm⟩
          · simp only [Except.ok.injEq] at hfill; exact Or.inl hfill.symm
        · split at hfill
          · split at hfill
            · simp at hfill
            · dsimp only at hfill
              split at hfill
              · simp only [Except.ok.injEq] at hfill; exact Or.inr ⟨_, hfill.symm⟩
              · simp only [Except.ok.injEq] at hfill; exact Or.inl hfill.symm
          · simp only [Except.ok.injEq] at hfill; exact Or.inl hfill.symm
      rcases this with rfl | ⟨l, rfl⟩
      · simp at he
      · obtain ⟨x, _, rfl⟩ := List.mem_map.mp he; rfl
    · exact ih _ _ _ hrest e he

/-- The spans of a cell are those the API allows. -/
def CellData.SpansOK (d : CellData) : Prop :=
  ∀ x, d.extra = some x → 1 ≤ x.span.rowSpan ∧ 1 ≤ x.span.colSpan

theorem pushSpan_ok (spans : List CellRange) (row c : Nat) (d : CellData)
    (h : d.SpansOK) (hr : 1 ≤ d.repeat) :
    ∃ sp, pushSpan spans (splitHidden spans row c d.repeat) row c d = .ok sp := by
  unfold pushSpan
  cases he : d.extra with
  | none => exact ⟨_, rfl⟩
  | some x =>
    simp only
    have hx := h x he
    have hrun := splitHidden_run spans row c d.repeat hr
    cases hp : splitHidden spans row c d.repeat with
    | nil =>
      rw [hp] at hrun
      simp only [List.map_nil, RunOf] at hrun
      omega
    | cons p ps =>
      simp only
      split
      · unfold CellRange.originSpan
        rw [if_pos (by omega), if_pos (by omega)]
        exact ⟨_, rfl⟩
      · exact ⟨_, rfl⟩

theorem writeCells_ok (mx : Nat × Nat) (row : Nat) (cs : List (Nat × CellData)) :
    ∀ (spans : List CellRange), (∀ p ∈ cs, 1 ≤ p.2.repeat) → (∀ p ∈ cs, p.2.SpansOK) →
    cs.Pairwise (fun a b => a.1 < b.1) → NoOverlap cs →
    ∃ v, writeCells mx row spans cs = .ok v := by
  induction cs with
  | nil => intro spans _ _ _ _; exact ⟨_, rfl⟩
  | cons p cs ih =>
    obtain ⟨c, d⟩ := p
    intro spans h1 h2 h3 h4
    simp only [writeCells]
    obtain ⟨sp, hsp⟩ := pushSpan_ok (removeOutlived spans row c) row c d (h2 (c, d) (by simp))
      (h1 (c, d) (by simp))
    rw [hsp]
    simp only
    have hno : NoOverlap cs := by
      cases cs with
      | nil => exact trivial
      | cons q cs => exact h4.2
    obtain ⟨⟨e5, sp5⟩, hv⟩ := ih sp (fun p hp => h1 p (by simp [hp])) (fun p hp => h2 p (by simp [hp]))
      (List.pairwise_cons.mp h3).2 hno
    have hfill : ∃ e3, writeFill sp mx row c d.repeat (nextInRow row cs) = .ok e3 := by
      cases cs with
      | nil =>
        simp only [nextInRow]
        rw [writeFill_end _ _ _ _ _ _ (by simp)]
        split
        · exact ⟨_, rfl⟩
        · exact ⟨_, rfl⟩
      | cons q cs =>
        obtain ⟨c', d'⟩ := q
        have hlt : c < c' := (List.pairwise_cons.mp h3).1 (c', d') (by simp)
        have hov : c + d.repeat ≤ c' := h4.1
        simp only [nextInRow]
        rw [writeFill_mid _ _ _ _ _ _ hlt, if_neg (by omega)]
        split
        · exact ⟨_, rfl⟩
        · exact ⟨_, rfl⟩
    obtain ⟨e3, hf⟩ := hfill
    rw [hf, hv]
    exact ⟨_, rfl⟩

/-! ### The row walk -/

/-- Is the row in the header range? -/
def inHeaderRows (s : TSheet) (r : Nat) : Bool :=
  match s.headerRows with
  | some h => decide (h.frm ≤ r) && decide (r ≤ h.to)
  | none => false

/-- Was the header range entered before row `r` and does it go on there? -/
def headerGoesOn (s : TSheet) (r : Nat) : Bool :=
  match s.headerRows with
  | some h => decide (h.frm < r) && decide (r ≤ h.to)
  | none => false

/-- What the part of a sheet that starts at row `c` and has `n` rows must not do: have a group or the
header range start or end within it. -/
structure RowFits (s : TSheet) (c n : Nat) : Prop where
  pos : 1 ≤ n
  frm : ∀ g ∈ s.groupRows, c < g.frm → c + n ≤ g.frm
  to : ∀ g ∈ s.groupRows, c ≤ g.to → c + n - 1 ≤ g.to
  hfrm : ∀ h, s.headerRows = some h → c < h.frm → c + n ≤ h.frm
  hto : ∀ h, s.headerRows = some h → c ≤ h.to → c + n ≤ h.to + 1

/-- The state at the boundary before row `r`. -/
structure AtRow (s : TSheet) (r : Nat) (st : RState) (g : GState) : Prop where
  row : st.row = r
  rep : st.rowRepeat = 1
  groups : GInv s.groupRows r st.rowGroup st.sheet.groupRows
  header : st.sheet.headerRows = headerUpTo s.headerRows r
  count : g.count = st.rowGroup.length
  inHeader : g.inHeader = headerGoesOn s r

/-- The state within row `r`, which stands for `n` rows. -/
structure InRow (s : TSheet) (r n : Nat) (st : RState) (g : GState) : Prop where
  row : st.row = r
  rep : st.rowRepeat = n
  groups : ∃ stack, st.rowGroup
      = ((s.groupRows.filter (fun g => decide (g.frm = r))).map openGroup).reverse ++ stack
    ∧ GInv s.groupRows r stack st.sheet.groupRows
  header : st.sheet.headerRows = headerUpTo s.headerRows r
  from_ : g.inHeader = true → st.rowRangeFrom = r
  count : g.count = st.rowGroup.length
  inHeader : g.inHeader = inHeaderRows s r

/-- Tags open at a boundary. -/
def tagsAt (st : RState) : List TTag := List.replicate st.rowGroup.length .group

/-- Tags open within a row. -/
def tagsIn (st : RState) (g : GState) : List TTag :=
  .row :: ((if g.inHeader then [.header] else []) ++ List.replicate st.rowGroup.length .group)

theorem start_row (s : TSheet) (o : ReadOpts) (r n lead : Nat) (st : RState) (g : GState)
    (hle : ∀ h, s.headerRows = some h → h.frm ≤ h.to)
    (hf : RowFits s r n) (ht : (dataTag s r).repeated.getD 1 = n) (h : AtRow s r st g) :
    ∃ st', readEvents o st (writeStartRow s r n lead g).1 = some st'
      ∧ InRow s r n st' (writeStartRow s r n lead g).2
      ∧ ∀ rest, checkTags (tagsAt st) ((writeStartRow s r n lead g).1 ++ rest)
        = checkTags (tagsIn st' (writeStartRow s r n lead g).2) rest := by
  obtain ⟨h1, h2, h3, h4, h5, h6⟩ := h
  have hop : s.groupRows.filter (fun x =>
      decide (x.frm = r) || (decide (r < x.frm) && decide (x.frm < r + n)))
      = s.groupRows.filter (fun g => decide (g.frm = r)) := by
    apply List.filter_congr
    intro g hg
    have := hf.frm g hg
    rw [Bool.eq_iff_iff]
    simp only [Bool.or_eq_true, Bool.and_eq_true, decide_eq_true_eq]
    omega
  have hh : rowHeaderStarts s r n g.inHeader = inHeaderRows s r := by
    rw [h6]
    unfold rowHeaderStarts headerGoesOn inHeaderRows
    cases hhr : s.headerRows with
    | none => rfl
    | some x =>
      have a1 := hf.hfrm x hhr
      have a2 := hle x hhr
      have a3 := hf.pos
      simp only
      by_cases e : r ≤ x.frm ∧ x.frm < r + n
      · rw [if_pos e]
        have : decide (x.frm ≤ r) = true := decide_eq_true (by omega)
        rw [this, decide_eq_true (show r ≤ x.to by omega)]
        rfl
      · rw [if_neg e]
        have : decide (x.frm < r) = decide (x.frm ≤ r) := by
          rw [Bool.eq_iff_iff]; simp only [decide_eq_true_eq]; omega
        rw [this]
  unfold writeStartRow
  simp only [hop, hh]
  generalize hO : s.groupRows.filter (fun g => decide (g.frm = r)) = O at *
  have hOr : ∀ g ∈ O, g.frm = st.row := by
    intro g hg
    rw [← hO] at hg
    simp only [List.mem_filter, decide_eq_true_eq] at hg
    omega
  have hlead : ∀ e ∈ (if 0 < lead then [TEv.cell false (repAttr lead) none] else []),
      e.isCell = true := by
    intro e he; rw [mem_ite_single he]; rfl
  let st1 : RState := { st with
    rowGroup := (O.map openGroup).reverse ++ st.rowGroup, col := 0, rowRepeat := n
    rowRangeFrom := if inHeaderRows s r then r else st.rowRangeFrom
    sheet := { st.sheet with rowHeader := (readRowAttr st.sheet.rowHeader st.row (dataTag s r)).1 } }
  obtain ⟨data, col, cd, hcells⟩ := read_cells o _ st1 hlead
  have hrep2 : (readRowAttr st.sheet.rowHeader st.row (dataTag s r)).2 = n := by
    rw [← ht]; unfold readRowAttr; simp only; split <;> rfl
  refine ⟨{ st1 with sheet := { st1.sheet with data := data }, col := col, colData := cd }, ?_, ?_, ?_⟩
  · simp only [List.append_assoc]
    rw [readEvents_append, read_open_rows o O st hOr]
    simp only [Option.bind_some]
    cases hin : inHeaderRows s r with
    | true =>
      simp only [if_true, List.cons_append, List.nil_append, readEvents, readStep]
      rw [← hcells]
      simp only [st1, hin, if_true, hrep2]
      simp only [h1]
    | false =>
      simp only [Bool.false_eq_true, if_false, List.cons_append, List.nil_append, readEvents, readStep]
      rw [← hcells]
      simp only [st1, hin, Bool.false_eq_true, if_false, hrep2]
  · refine ⟨h1, rfl, ⟨st.rowGroup, by rw [hO], h3⟩, h4, ?_, ?_, rfl⟩
    · intro hin
      show (if inHeaderRows s r then r else st.rowRangeFrom) = r
      rw [if_pos hin]
    · show g.count + O.length = ((O.map openGroup).reverse ++ st.rowGroup).length
      simp only [List.length_append, List.length_reverse, List.length_map, h5]
      omega
  · intro rest
    simp only [List.append_assoc]
    rw [checkTags_open_rows]
    have hlen : List.replicate O.length TTag.group ++ tagsAt st
        = List.replicate ((O.map openGroup).reverse ++ st.rowGroup).length .group := by
      unfold tagsAt
      rw [List.replicate_append_replicate]
      congr 1
      simp
    rw [hlen]
    unfold tagsIn
    cases hin : inHeaderRows s r with
    | true =>
      simp only [if_true, List.cons_append, List.nil_append, checkTags, TEv.opens]
      exact checkTags_cells _ hlead _ _
    | false =>
      simp only [Bool.false_eq_true, if_false, List.cons_append, List.nil_append, checkTags, TEv.opens]
      exact checkTags_cells _ hlead _ _

theorem cells_row (s : TSheet) (o : ReadOpts) (r n : Nat) (st : RState) (g : GState)
    (evs : List TEv) (he : ∀ e ∈ evs, e.isCell = true) (h : InRow s r n st g) :
    ∃ st', readEvents o st evs = some st' ∧ InRow s r n st' g
      ∧ ∀ rest, checkTags (tagsIn st g) (evs ++ rest) = checkTags (tagsIn st' g) rest := by
  obtain ⟨d, c, cd, h1⟩ := read_cells o evs st he
  exact ⟨_, h1, ⟨h.row, h.rep, h.groups, h.header, h.from_, h.count, h.inHeader⟩,
    fun rest => checkTags_cells evs he _ _⟩

theorem end_row (s : TSheet) (hg : GroupsOK s.groupRows) (o : ReadOpts) (r n : Nat) (st : RState)
    (g : GState) (hle : ∀ h, s.headerRows = some h → h.frm ≤ h.to) (hf : RowFits s r n)
    (h : InRow s r n st g) :
    ∃ e g' st', writeEndRow s r n g = .ok (e, g') ∧ readEvents o st e = some st'
      ∧ AtRow s (r + n) st' g'
      ∧ (∀ rest, checkTags (tagsIn st g) (e ++ rest) = checkTags (tagsAt st') rest)
      ∧ ((∀ x ∈ s.groupRows, x.to < r + n) → e = writeEndLastRow g) := by
  obtain ⟨h1, h2, ⟨stack, h3, h4⟩, h5, h6, h7, h8⟩ := h
  obtain ⟨hk, hgi⟩ := h4.step hg hf.pos hf.frm hf.to
  rw [← h3] at hk hgi
  have hcl : s.groupRows.filter (fun x =>
      decide (x.to = r) || (decide (r < x.to) && decide (x.to < r + n)))
      = s.groupRows.filter (fun g => decide (g.to = r + n - 1)) := by
    apply List.filter_congr
    intro g hg
    have := hf.to g hg
    have := hf.pos
    rw [Bool.eq_iff_iff]
    simp only [Bool.or_eq_true, Bool.and_eq_true, decide_eq_true_eq]
    omega
  have hpos := hf.pos
  have hh : rowHeaderEnds s r n g.inHeader = headerGoesOn s (r + n) := by
    rw [h8]
    unfold rowHeaderEnds headerGoesOn inHeaderRows
    cases hhr : s.headerRows with
    | none => rfl
    | some x =>
      have a1 := hf.hfrm x hhr
      have a2 := hle x hhr
      have a4 := hf.hto x hhr
      simp only
      by_cases e : r ≤ x.to ∧ x.to < r + n
      · rw [if_pos e]
        have : decide (r + n ≤ x.to) = false := decide_eq_false (by omega)
        rw [this, Bool.and_false]
      · rw [if_neg e]
        rw [Bool.eq_iff_iff]; simp only [Bool.and_eq_true, decide_eq_true_eq]; omega
  generalize hE : s.groupRows.filter (fun g => decide (g.to = r + n - 1)) = E at *
  have hcount : E.length ≤ g.count := by rw [h7]; exact hk
  have hw : writeEndRow s r n g = .ok ([.rowEnd] ++ (if g.inHeader then [.headerEnd] else [])
      ++ List.replicate E.length .groupEnd, ⟨g.count - E.length, headerGoesOn s (r + n)⟩) := by
    unfold writeEndRow closeGroups
    simp only [hcl, hh, if_pos hcount]
  -- reading the end of the row
  obtain ⟨m, hm⟩ : ∃ m, (if st.colData then RowHeaders.step st.sheet.rowHeader
      (.setRepeat st.row st.rowRepeat) else some st.sheet.rowHeader) = some m := by
    split
    · exact setRepeat_some _ _ _ (by rw [h2]; exact hpos)
    · exact ⟨_, rfl⟩
  let hdr' := headerUpTo s.headerRows (r + n)
  let st1 : RState := { st with
    row := r + n, rowRepeat := 1, colData := false
    sheet := { st.sheet with rowHeader := m, headerRows := hdr' } }
  refine ⟨_, _, { st1 with
    rowGroup := st.rowGroup.drop E.length
    sheet := { st1.sheet with groupRows := st.sheet.groupRows
      ++ (st.rowGroup.take E.length).map (fun g => { g with to := r + n - 1 }) } }, hw, ?_, ?_, ?_, ?_⟩
  · simp only [List.append_assoc, List.cons_append, List.nil_append, readEvents, readStep]
    rw [hm]
    simp only [Option.map_some]
    have hclose := read_close_rows o E.length st1 hk (by show 0 < r + n; omega)
    cases hin : g.inHeader with
    | true =>
      simp only [if_true, List.cons_append, List.nil_append, readEvents, readStep]
      have hend : endHeader st.sheet.headerRows st.rowRangeFrom (st.row + st.rowRepeat) = some hdr' := by
        rw [h5, h6 hin, h1, h2]
        have hin' := hin
        rw [h8] at hin'
        unfold inHeaderRows at hin'
        cases hhr : s.headerRows with
        | none => rw [hhr] at hin'; simp at hin'
        | some x =>
          rw [hhr] at hin'
          simp only [Bool.and_eq_true, decide_eq_true_eq] at hin'
          simp only [hdr', hhr]
          exact headerUpTo_in hin'.1 (hf.hto x hhr hin'.2) hpos
      rw [hend]
      simp only [Option.map_some]
      rw [← hclose]
      simp only [st1, h1, h2]
    | false =>
      simp only [Bool.false_eq_true, if_false, List.nil_append]
      have hsame : st.sheet.headerRows = hdr' := by
        rw [h5]
        rw [h8] at hin
        unfold inHeaderRows at hin
        cases hhr : s.headerRows with
        | none => simp only [hdr', hhr]; rfl
        | some x =>
          rw [hhr] at hin
          simp only [Bool.and_eq_false_iff, decide_eq_false_iff_not] at hin
          simp only [hdr', hhr]
          exact headerUpTo_out (hle x hhr) (by omega) (hf.hfrm x hhr)
      rw [← hclose]
      simp only [st1, h1, h2, ← hsame]
  · refine ⟨rfl, rfl, hgi, rfl, ?_, rfl⟩
    show g.count - E.length = (st.rowGroup.drop E.length).length
    rw [List.length_drop, h7]
  · intro rest
    have hsplit : List.replicate st.rowGroup.length TTag.group
        = List.replicate E.length .group
          ++ List.replicate (st.rowGroup.drop E.length).length .group := by
      rw [List.replicate_append_replicate, List.length_drop]
      congr 1
      omega
    unfold tagsIn tagsAt
    rw [hsplit]
    cases hin : g.inHeader with
    | true =>
      simp only [if_true, List.append_assoc, List.cons_append, List.nil_append, checkTags, TEv.opens, TEv.closes]
      exact checkTags_close_rows _ _ _
    | false =>
      simp only [Bool.false_eq_true, if_false, List.append_assoc, List.cons_append, List.nil_append,
        checkTags, TEv.opens, TEv.closes, if_true]
      exact checkTags_close_rows _ _ _
  · intro hall
    unfold writeEndLastRow
    have hfin := (hgi.final hall).1
    have : E.length = g.count := by
      have := congrArg List.length hfin
      rw [List.length_drop] at this
      simp at this
      omega
    rw [this]

/-- A gap: no row with cells, no group ends in it, no header row in it. -/
structure GapFits (s : TSheet) (c n : Nat) : Prop where
  to : ∀ g ∈ s.groupRows, ¬ (c ≤ g.to ∧ g.to < c + n)
  hdr : ∀ h, s.headerRows = some h → h.to < c ∨ c + n ≤ h.frm

theorem read_empty_row (s : TSheet) (o : ReadOpts) (r n : Nat) (mx : Nat × Nat) (st : RState)
    (hn : 1 ≤ n) :
    ∃ st', readEvents o st (writeEmptyRow s r n mx) = some st' ∧ st'.row = st.row + n
      ∧ st'.rowRepeat = 1 ∧ st'.rowGroup = st.rowGroup
      ∧ st'.sheet.groupRows = st.sheet.groupRows ∧ st'.sheet.headerRows = st.sheet.headerRows
      ∧ ∀ T rest, checkTags T (writeEmptyRow s r n mx ++ rest) = checkTags T rest := by
  unfold writeEmptyRow
  have hrep : ∀ m k, (readRowAttr m k (rowTag (some n) (s.rowHeader.valid r))).2 = n := by
    intro m k
    unfold readRowAttr
    cases s.rowHeader.valid r <;> simp only [rowTag]
    · rfl
    · split <;> split <;> rfl
  simp only [readEvents, readStep]
  obtain ⟨m, hm⟩ : ∃ m, (if (st.colData || (readCell o st.sheet.colHeader st.sheet.data st.row 0
      ((some mx.2 : Option Nat).getD 1) none).2) then RowHeaders.step
        (readRowAttr st.sheet.rowHeader st.row (rowTag (some n) (s.rowHeader.valid r))).1
        (.setRepeat st.row (readRowAttr st.sheet.rowHeader st.row (rowTag (some n) (s.rowHeader.valid r))).2)
      else some (readRowAttr st.sheet.rowHeader st.row (rowTag (some n) (s.rowHeader.valid r))).1)
      = some m := by
    split
    · exact setRepeat_some _ _ _ (by rw [hrep]; exact hn)
    · exact ⟨_, rfl⟩
  rw [hm]
  refine ⟨_, rfl, ?_, rfl, rfl, rfl, rfl, ?_⟩
  · simp only [hrep]
  · intro T rest
    simp only [List.cons_append, List.nil_append, checkTags, TEv.opens, TEv.closes, if_true]

theorem gap_row (s : TSheet) (hg : GroupsOK s.groupRows) (o : ReadOpts) (mx : Nat × Nat) (r : Nat)
    (st : RState) (g : GState) (hle : ∀ h, s.headerRows = some h → h.frm ≤ h.to)
    (hf : GapFits s r 1) (h : AtRow s r st g) :
    ∃ e g' st', writeGapRow s mx g r = .ok (e, g') ∧ readEvents o st e = some st'
      ∧ AtRow s (r + 1) st' g'
      ∧ ∀ rest, checkTags (tagsAt st) (e ++ rest) = checkTags (tagsAt st') rest := by
  obtain ⟨h1, h2, h3, h4, h5, h6⟩ := h
  have hin : g.inHeader = false := by
    rw [h6]
    unfold headerGoesOn
    cases hhr : s.headerRows with
    | none => rfl
    | some x =>
      have := hf.hdr x hhr
      simp only [Bool.and_eq_false_iff, decide_eq_false_iff_not]
      omega
  have hh1 : gapHeaderEnds s r g.inHeader = false := by
    rw [hin]
    unfold gapHeaderEnds
    cases s.headerRows with
    | none => rfl
    | some x => simp
  have hh2 : gapHeaderStarts s r false = false := by
    unfold gapHeaderStarts
    cases hhr : s.headerRows with
    | none => rfl
    | some x =>
      have := hf.hdr x hhr
      have := hle x hhr
      simp only
      rw [if_neg (by omega)]
  have hcl : s.groupRows.filter (fun x => decide (x.to = r)) = [] := by
    rw [List.filter_eq_nil_iff]
    intro x hx
    have := hf.to x hx
    simp only [decide_eq_true_eq]
    omega
  obtain ⟨hk, hgi⟩ := h3.step hg (n := 1) (Nat.le_refl 1) (fun g _ _ => by omega)
    (fun g _ _ => by omega)
  have hcl' : s.groupRows.filter (fun x => decide (x.to = r + 1 - 1)) = [] := hcl
  rw [hcl'] at hgi
  simp only [List.length_nil, List.drop_zero, List.take_zero, List.map_nil, List.append_nil] at hgi
  generalize hO : s.groupRows.filter (fun g => decide (g.frm = r)) = O at *
  have hOr : ∀ g ∈ O, g.frm = st.row := by
    intro g hg
    rw [← hO] at hg
    simp only [List.mem_filter, decide_eq_true_eq] at hg
    omega
  have hw : writeGapRow s mx g r = .ok (O.map groupStartOf ++ writeEmptyRow s r 1 mx,
      ⟨g.count + O.length, false⟩) := by
    unfold writeGapRow closeGroups
    simp only [hcl, hO, List.length_nil, Nat.zero_le, if_true, List.replicate_zero, Nat.sub_zero, hh1]
    simp only [hh2, hin, Bool.false_eq_true, if_false, List.nil_append, List.append_nil]
  obtain ⟨st', e1, e2, e3, e4, e5, e6, e7⟩ := read_empty_row s o r 1 mx
    { st with rowGroup := (O.map openGroup).reverse ++ st.rowGroup } (Nat.le_refl 1)
  refine ⟨_, _, st', hw, ?_, ⟨?_, e3, ?_, ?_, ?_, ?_⟩, ?_⟩
  · rw [readEvents_append, read_open_rows o O st hOr]
    exact e1
  · rw [e2, h1]
  · rw [e4, e5]; exact hgi
  · rw [e6]
    show st.sheet.headerRows = _
    rw [h4]
    cases hhr : s.headerRows with
    | none => rfl
    | some x =>
      have := hf.hdr x hhr
      exact headerUpTo_out (hle x hhr) (by omega) (by omega)
  · rw [e4]
    show g.count + O.length = ((O.map openGroup).reverse ++ st.rowGroup).length
    simp only [List.length_append, List.length_reverse, List.length_map, h5]
    omega
  · show false = _
    unfold headerGoesOn
    cases hhr : s.headerRows with
    | none => rfl
    | some x =>
      have := hf.hdr x hhr
      simp only
      symm
      simp only [Bool.and_eq_false_iff, decide_eq_false_iff_not]
      omega
  · intro rest
    rw [List.append_assoc, checkTags_open_rows, e7]
    unfold tagsAt
    rw [e4, List.replicate_append_replicate]
    congr 2
    simp

theorem GapFits.tail {s : TSheet} {c n : Nat} (h : GapFits s c (n + 1)) :
    GapFits s c 1 ∧ GapFits s (c + 1) n := by
  refine ⟨⟨?_, ?_⟩, ⟨?_, ?_⟩⟩
  · intro g hg; have := h.to g hg; omega
  · intro x hx; have := h.hdr x hx; omega
  · intro g hg; have := h.to g hg; omega
  · intro x hx; have := h.hdr x hx; omega

theorem gap_rows (s : TSheet) (hg : GroupsOK s.groupRows) (o : ReadOpts) (mx : Nat × Nat)
    (hle : ∀ h, s.headerRows = some h → h.frm ≤ h.to) (n : Nat) :
    ∀ (r : Nat) (st : RState) (g : GState), GapFits s r n → AtRow s r st g →
    ∃ e g' st', writeGapRows s mx r n g = .ok (e, g') ∧ readEvents o st e = some st'
      ∧ AtRow s (r + n) st' g'
      ∧ ∀ rest, checkTags (tagsAt st) (e ++ rest) = checkTags (tagsAt st') rest := by
  induction n with
  | zero => intro r st g _ h; exact ⟨[], g, st, rfl, rfl, h, fun _ => rfl⟩
  | succ n ih =>
    intro r st g hf h
    obtain ⟨f1, f2⟩ := hf.tail
    obtain ⟨e1, g1, st1, a1, a2, a3, a4⟩ := gap_row s hg o mx r st g hle f1 h
    obtain ⟨e2, g2, st2, b1, b2, b3, b4⟩ := ih (r + 1) st1 g1 f2 a3
    refine ⟨e1 ++ e2, g2, st2, ?_, ?_, ?_, ?_⟩
    · simp only [writeGapRows, a1, b1]
    · rw [readEvents_append, a2]; exact b2
    · rw [show r + (n + 1) = r + 1 + n by omega]; exact b3
    · intro rest; rw [List.append_assoc, a4, b4]

theorem gap_fits (s : TSheet) (hg : GroupsOK s.groupRows) (o : ReadOpts) (mx : Nat × Nat)
    (hle : ∀ h, s.headerRows = some h → h.frm ≤ h.to) (n r : Nat) (hn : 1 ≤ n) (st : RState)
    (g : GState) (hf : GapFits s r n) (h : AtRow s r st g) :
    ∃ e g' st', writeEmptyRowsBefore s r n mx g = .ok (e, g') ∧ readEvents o st e = some st'
      ∧ AtRow s (r + n) st' g'
      ∧ ∀ rest, checkTags (tagsAt st) (e ++ rest) = checkTags (tagsAt st') rest := by
  unfold writeEmptyRowsBefore
  by_cases hc : (!s.groupRows.isEmpty || s.headerRows.isSome) = true
  · simp only [if_pos hc]
    exact gap_rows s hg o mx hle n r st g hf h
  · simp only [if_neg hc]
    have h0 : s.groupRows = [] ∧ s.headerRows = none := by
      simpa using hc
    obtain ⟨st', e1, e2, e3, e4, e5, e6, e7⟩ := read_empty_row s o r n mx st hn
    obtain ⟨h1, h2, h3, h4, h5, h6⟩ := h
    refine ⟨_, g, st', rfl, e1, ⟨by rw [e2, h1], e3, ?_, ?_, by rw [e4, h5], ?_⟩, ?_⟩
    · rw [e4, e5]
      rw [h0.1] at h3 ⊢
      obtain ⟨L, l1, l2, l3, l4⟩ := h3
      exact ⟨L, l1, l2, l3, l4⟩
    · rw [e6, h4, h0.2]; rfl
    · rw [h6]; unfold headerGoesOn; rw [h0.2]
    · intro rest
      rw [e7]; unfold tagsAt; rw [e4]

/-! ### All rows -/

/-- A row change, computed. -/
theorem rowChange_eq (s : TSheet) (mx : Nat × Nat) (st : WState) (row col : Nat)
    (hf : st.first = false) (h1 : st.prevRow + st.prevRowRepeat ≤ row) (h2 : 1 ≤ st.prevRowRepeat)
    (eEnd eGap : List TEv) (g1 g2 : GState)
    (he : writeEndRow s st.prevRow st.prevRowRepeat st.g = .ok (eEnd, g1))
    (hg0 : st.prevRow + st.prevRowRepeat = row → eGap = [] ∧ g2 = g1)
    (hg : st.prevRow + st.prevRowRepeat < row →
      writeEmptyRowsBefore s (st.prevRow + st.prevRowRepeat)
        (row - (st.prevRow + st.prevRowRepeat)) mx g1 = .ok (eGap, g2)) :
    writeRowChange s mx st row col
      = .ok (eEnd ++ eGap ++ (writeStartRow s row (rowRepeatOf s row) col g2).1,
        (writeStartRow s row (rowRepeatOf s row) col g2).2) := by
  have hb : 0 < row - st.prevRow := by omega
  unfold writeRowChange
  simp only [hb, hf, true_and, if_true, he, if_neg (show ¬ row - st.prevRow < st.prevRowRepeat by omega),
    Bool.false_eq_true, if_false, Nat.add_zero, true_or]
  by_cases hs : st.prevRow + st.prevRowRepeat = row
  · obtain ⟨rfl, rfl⟩ := hg0 hs
    rw [if_neg (by omega)]
  · have hlt : st.prevRow + st.prevRowRepeat < row := by omega
    rw [if_pos (by omega)]
    have e1 : row - (row - st.prevRow - st.prevRowRepeat) = st.prevRow + st.prevRowRepeat := by omega
    have e2 : row - st.prevRow - st.prevRowRepeat = row - (st.prevRow + st.prevRowRepeat) := by omega
    rw [e1, e2, hg hlt]

theorem rowChange_first (s : TSheet) (mx : Nat × Nat) (row col : Nat)
    (eGap : List TEv) (g2 : GState) (hg0 : 0 = row → eGap = [] ∧ g2 = {})
    (hg : 0 < row → writeEmptyRowsBefore s 0 row mx {} = .ok (eGap, g2)) :
    writeRowChange s mx {} row col
      = .ok (eGap ++ (writeStartRow s row (rowRepeatOf s row) col g2).1,
        (writeStartRow s row (rowRepeatOf s row) col g2).2) := by
  unfold writeRowChange
  by_cases hs : 0 = row
  · obtain ⟨rfl, rfl⟩ := hg0 hs
    subst hs
    simp
  · have hlt : 0 < row := by omega
    have := hg hlt
    simp only [Nat.sub_zero, hlt, if_true, Bool.true_eq_false, and_false, if_false,
      if_neg (show ¬ row < 1 by omega), true_or, List.nil_append]
    rw [if_pos (by omega)]
    have e1 : row - (row - 1 + 1) = 0 := by omega
    have e2 : row - 1 + 1 = row := by omega
    rw [e1, e2, this]

/-- The gaps before the rows and the end. -/
def GapsFit (s : TSheet) : Nat → List (Nat × List (Nat × CellData)) → Prop
  | start, [] => (∀ g ∈ s.groupRows, g.to < start) ∧ ∀ h, s.headerRows = some h → h.to < start
  | start, (r, _) :: rest => (start < r → GapFits s start (r - start)) ∧ GapsFit s (r + rowRepeatOf s r) rest

/-- What is known of each row. -/
structure RowGood (s : TSheet) (p : Nat × List (Nat × CellData)) : Prop where
  fits : RowFits s p.1 (rowRepeatOf s p.1)
  tag : (dataTag s p.1).repeated.getD 1 = rowRepeatOf s p.1
  rep : ∀ q ∈ p.2, 1 ≤ q.2.repeat
  spans : ∀ q ∈ p.2, q.2.SpansOK
  sorted : p.2.Pairwise (fun a b => a.1 < b.1)
  apart : NoOverlap p.2

/-- A gap, possibly empty. -/
theorem gap_any (s : TSheet) (hg : GroupsOK s.groupRows) (o : ReadOpts) (mx : Nat × Nat)
    (hle : ∀ h, s.headerRows = some h → h.frm ≤ h.to) (start row : Nat) (hlt : start ≤ row)
    (st : RState) (g : GState) (hf : start < row → GapFits s start (row - start)) (h : AtRow s start st g) :
    ∃ e g' st', (start = row → e = [] ∧ g' = g)
      ∧ (start < row → writeEmptyRowsBefore s start (row - start) mx g = .ok (e, g'))
      ∧ readEvents o st e = some st' ∧ AtRow s row st' g'
      ∧ ∀ rest, checkTags (tagsAt st) (e ++ rest) = checkTags (tagsAt st') rest := by
  by_cases he : start = row
  · subst he
    exact ⟨[], g, st, fun _ => ⟨rfl, rfl⟩, fun h => by omega, rfl, h, fun _ => rfl⟩
  · obtain ⟨e, g', st', a1, a2, a3, a4⟩ := gap_fits s hg o mx hle (row - start) start (by omega) st g (hf (by omega)) h
    rw [show start + (row - start) = row by omega] at a3
    exact ⟨e, g', st', fun h => absurd h he, fun _ => a1, a2, a3, a4⟩

/-- The start of a row and its cells. -/
theorem row_open (s : TSheet) (o : ReadOpts) (mx : Nat × Nat) (row : Nat)
    (cs : List (Nat × CellData)) (hle : ∀ h, s.headerRows = some h → h.frm ≤ h.to)
    (hgood : RowGood s (row, cs)) (spans : List CellRange) (st : RState) (g : GState)
    (h : AtRow s row st g) :
    ∃ e2 spans' st', writeCells mx row spans cs = .ok (e2, spans')
      ∧ readEvents o st ((writeStartRow s row (rowRepeatOf s row) (firstCol cs) g).1 ++ e2) = some st'
      ∧ InRow s row (rowRepeatOf s row) st' (writeStartRow s row (rowRepeatOf s row) (firstCol cs) g).2
      ∧ ∀ rest, checkTags (tagsAt st)
          ((writeStartRow s row (rowRepeatOf s row) (firstCol cs) g).1 ++ e2 ++ rest)
        = checkTags (tagsIn st' (writeStartRow s row (rowRepeatOf s row) (firstCol cs) g).2) rest := by
  obtain ⟨⟨e2, spans'⟩, hc⟩ := writeCells_ok mx row cs spans hgood.rep hgood.spans hgood.sorted hgood.apart
  obtain ⟨st1, a1, a2, a3⟩ := start_row s o row (rowRepeatOf s row) (firstCol cs) st g hle hgood.fits
    hgood.tag h
  obtain ⟨st2, b1, b2, b3⟩ := cells_row s o row (rowRepeatOf s row) st1 _ e2
    (writeCells_isCell mx row cs spans spans' e2 hc) a2
  refine ⟨e2, spans', st2, hc, ?_, b2, ?_⟩
  · rw [readEvents_append, a1]; exact b1
  · intro rest; rw [List.append_assoc, a3, b3]

theorem rows_walk (s : TSheet) (hg : GroupsOK s.groupRows)
    (hle : ∀ h, s.headerRows = some h → h.frm ≤ h.to) (o : ReadOpts) (mx : Nat × Nat)
    (rows : List (Nat × List (Nat × CellData))) :
    ∀ (st : WState) (rst : RState), st.first = false →
    RowFits s st.prevRow st.prevRowRepeat →
    InRow s st.prevRow st.prevRowRepeat rst st.g →
    (∀ p ∈ rows, RowGood s p) → RowsApart s (st.prevRow + st.prevRowRepeat) rows →
    GapsFit s (st.prevRow + st.prevRowRepeat) rows →
    ∃ evs rst' b g', writeRowList s mx st rows = .ok evs
      ∧ readEvents o rst ((if rows.isEmpty then writeEndLastRow st.g else []) ++ evs) = some rst'
      ∧ AtRow s b rst' g' ∧ (∀ g ∈ s.groupRows, g.to < b) ∧ (∀ h, s.headerRows = some h → h.to < b)
      ∧ ∀ rest, checkTags (tagsIn rst st.g)
          (((if rows.isEmpty then writeEndLastRow st.g else []) ++ evs) ++ rest)
        = checkTags [] rest := by
  induction rows with
  | nil =>
    intro st rst hf hfit hin _ _ hgap
    obtain ⟨e, g', st', a1, a2, a3, a4, a5⟩ := end_row s hg o _ _ rst st.g hle hfit hin
    have := a5 hgap.1
    subst this
    refine ⟨[], st', _, g', rfl, ?_, a3, hgap.1, hgap.2, ?_⟩
    · simp only [List.isEmpty_nil, if_true, List.append_nil]; exact a2
    · intro rest
      simp only [List.isEmpty_nil, if_true, List.append_nil]
      rw [a4]
      unfold tagsAt
      rw [(a3.groups.final hgap.1).1]
      rfl
  | cons p rest ih =>
    obtain ⟨row, cs⟩ := p
    intro st rst hf hfit hin hgood hap hgap
    obtain ⟨eE, g1, st1, a1, a2, a3, a4, _⟩ := end_row s hg o _ _ rst st.g hle hfit hin
    obtain ⟨eG, g2, st2, b0, b1, b2, b3, b4⟩ := gap_any s hg o mx hle _ row hap.1 st1 g1 hgap.1 a3
    obtain ⟨e2, spans', st3, c1, c2, c3, c4⟩ := row_open s o mx row cs hle (hgood _ (by simp))
      st.spans st2 g2 b3
    have hch := rowChange_eq s mx st row (firstCol cs) hf hap.1 hfit.pos eE eG g1 g2 a1 b0 b1
    obtain ⟨evs, rst', b, g', d1, d2, d3, d4, d5, d6⟩ := ih
      ⟨false, row, rowRepeatOf s row, 0, (writeStartRow s row (rowRepeatOf s row) (firstCol cs) g2).2, spans'⟩
      st3 rfl (hgood (row, cs) (by simp)).fits c3 (fun p hp => hgood p (by simp [hp])) hap.2 hgap.2
    refine ⟨eE ++ eG ++ (writeStartRow s row (rowRepeatOf s row) (firstCol cs) g2).1 ++ e2
        ++ (if rest.isEmpty then writeEndLastRow
            (writeStartRow s row (rowRepeatOf s row) (firstCol cs) g2).2 else []) ++ evs, rst', b, g',
      ?_, ?_, d3, d4, d5, ?_⟩
    · simp only [writeRowList, hch, c1, d1]
    · simp only [List.isEmpty_cons, Bool.false_eq_true, if_false, List.nil_append, List.append_assoc]
      rw [readEvents_append, a2]
      simp only [Option.bind_some]
      rw [readEvents_append, b2]
      simp only [Option.bind_some]
      rw [← List.append_assoc, readEvents_append, c2]
      exact d2
    · intro r
      simp only [List.isEmpty_cons, Bool.false_eq_true, if_false, List.nil_append, List.append_assoc]
      rw [a4, b4]
      rw [← List.append_assoc, c4, ← d6]
      simp only [List.append_assoc]

/-! ### From the sheet to the walk -/

/-- What the row groups and the header rows of a sheet have to satisfy to be written and read back
without loss: no group and no header range starts or ends within a repeated row, every group ends
with a row that has cells, and all header rows have cells. -/
structure RowsOK (s : TSheet) : Prop where
  groups : GroupsOK s.groupRows
  frm : ∀ g ∈ s.groupRows, ∀ q ∈ s.data, ¬ (q.1.1 < g.frm ∧ g.frm < q.1.1 + s.repeatOf q.1.1)
  to : ∀ g ∈ s.groupRows, ∃ q ∈ s.data, g.to + 1 = q.1.1 + s.repeatOf q.1.1
  hle : ∀ h, s.headerRows = some h → h.frm ≤ h.to
  hrows : ∀ h, s.headerRows = some h → ∀ r, h.frm ≤ r → r ≤ h.to →
    ∃ q ∈ s.data, q.1.1 ≤ r ∧ r < q.1.1 + s.repeatOf q.1.1
  hfrm : ∀ h, s.headerRows = some h → ∀ q ∈ s.data,
    ¬ (q.1.1 < h.frm ∧ h.frm < q.1.1 + s.repeatOf q.1.1)
  hto : ∀ h, s.headerRows = some h → ∀ q ∈ s.data,
    ¬ (q.1.1 ≤ h.to ∧ h.to + 1 < q.1.1 + s.repeatOf q.1.1)

theorem rowsApart_of (s : TSheet) (rows : List (Nat × List (Nat × CellData))) :
    ∀ start, RowsSorted rows → (∀ p ∈ rows, start ≤ p.1) →
    (∀ p ∈ rows, ∀ q ∈ rows, p.1 < q.1 → p.1 + rowRepeatOf s p.1 ≤ q.1) → RowsApart s start rows := by
  induction rows with
  | nil => intro _ _ _ _; exact trivial
  | cons p rest ih =>
    obtain ⟨r, cs⟩ := p
    intro start hs h1 h2
    refine ⟨h1 (r, cs) (by simp), ?_⟩
    refine ih _ ⟨(List.pairwise_cons.mp hs.1).2, fun p hp => hs.2 p (by simp [hp])⟩ ?_
      (fun p hp q hq => h2 p (by simp [hp]) q (by simp [hq]))
    intro p hp
    exact h2 (r, cs) (by simp) p (by simp [hp]) ((List.pairwise_cons.mp hs.1).1 p hp)

theorem gapsFit_of (s : TSheet) (hr : RowsOK s) (rows : List (Nat × List (Nat × CellData))) :
    ∀ start, RowsSorted rows → RowsApart s start rows → (∀ q ∈ s.data, 1 ≤ s.repeatOf q.1.1) →
    (∀ p ∈ rows, s.repeatOf p.1 = rowRepeatOf s p.1) →
    (∀ q ∈ s.data, q.1.1 + s.repeatOf q.1.1 ≤ start ∨ ∃ p ∈ rows, p.1 = q.1.1) →
    GapsFit s start rows := by
  induction rows with
  | nil =>
    intro start _ _ h1 _ hc
    refine ⟨?_, ?_⟩
    · intro g hg
      obtain ⟨q, hq, e⟩ := hr.to g hg
      rcases hc q hq with x | ⟨p, hp, _⟩
      · omega
      · simp at hp
    · intro h hh
      obtain ⟨q, hq, e1, e2⟩ := hr.hrows h hh h.to (hr.hle h hh) (Nat.le_refl _)
      rcases hc q hq with x | ⟨p, hp, _⟩
      · omega
      · simp at hp
  | cons p rest ih =>
    obtain ⟨r, cs⟩ := p
    intro start hs hap h1 heq hc
    have hge : ∀ p ∈ (r, cs) :: rest, r ≤ p.1 := by
      intro p hp
      rcases List.mem_cons.mp hp with e | e
      · rw [e]; exact Nat.le_refl _
      · have := (List.pairwise_cons.mp hs.1).1 p e
        simp only at this; omega
    refine ⟨fun hstart => ⟨?_, ?_⟩, ?_⟩
    · rintro g hg ⟨b1, b2⟩
      obtain ⟨q, hq, e⟩ := hr.to g hg
      have := h1 q hq
      have := hap.1
      rcases hc q hq with x | ⟨p, hp, hpe⟩
      · omega
      · have := hge p hp; omega
    · intro h hh
      have hle := hr.hle h hh
      have := hap.1
      by_cases hcon : h.to < start ∨ start + (r - start) ≤ h.frm
      · exact hcon
      · exfalso
        obtain ⟨q, hq, e1, e2⟩ := hr.hrows h hh (max h.frm start) (by omega) (by omega)
        rcases hc q hq with x | ⟨p, hp, hpe⟩
        · omega
        · have := hge p hp; omega
    · refine ih _ ⟨(List.pairwise_cons.mp hs.1).2, fun p hp => hs.2 p (by simp [hp])⟩ hap.2 h1
        (fun p hp => heq p (by simp [hp])) ?_
      intro q hq
      rcases hc q hq with x | ⟨p, hp, hpe⟩
      · left; have := hap.1; omega
      · rcases List.mem_cons.mp hp with e | e
        · left
          rw [e] at hpe
          simp only at hpe
          rw [← hpe, heq (r, cs) (by simp)]
          exact Nat.le_refl _
        · exact Or.inr ⟨p, e, hpe⟩

theorem mem_rowsOf_of_mem {cells : List ((Nat × Nat) × CellData)} {q : (Nat × Nat) × CellData}
    (h : q ∈ cells) : ∃ p ∈ rowsOf cells, p.1 = q.1.1 ∧ (q.1.2, q.2) ∈ p.2 := by
  rw [← rowsOf_flatten cells] at h
  obtain ⟨p, h1, h2⟩ := List.mem_flatMap.mp h
  obtain ⟨x, h3, h4⟩ := List.mem_map.mp h2
  exact ⟨p, h1, by rw [← h4], by rw [← h4]; exact h3⟩

theorem noOverlap_of (cs : List (Nat × CellData)) (hp : cs.Pairwise (fun a b => a.1 < b.1))
    (h : ∀ p ∈ cs, ∀ q ∈ cs, p.1 < q.1 → p.1 + p.2.repeat ≤ q.1) : NoOverlap cs := by
  induction cs with
  | nil => exact trivial
  | cons p cs ih =>
    have := ih (List.pairwise_cons.mp hp).2 (fun a ha b hb => h a (by simp [ha]) b (by simp [hb]))
    cases cs with
    | nil => exact trivial
    | cons q cs =>
      exact ⟨h p (by simp) q (by simp) ((List.pairwise_cons.mp hp).1 q (by simp)), this⟩

/-- Rows of a sheet without clashes and with fitting groups and header rows are written, are well
formed and are read back; groups and header rows are the same. -/
theorem rows_roundtrip (s : TSheet) (hd : Sorted s.data) (hok : ∀ q ∈ s.data, RowOK s q.1.1)
    (hrep : ∀ q ∈ s.data, 1 ≤ q.2.repeat) (hsp : ∀ q ∈ s.data, q.2.SpansOK) (hr : RowsOK s)
    (hc : ¬ s.CellClash) (hrc : ¬ s.RowClash) (o : ReadOpts) (st : RState) (h1 : st.row = 0)
    (h2 : st.rowRepeat = 1) (h3 : st.rowGroup = []) (h4 : st.sheet.groupRows = [])
    (h5 : st.sheet.headerRows = none) :
    ∃ evs st', writeRows s = .ok evs ∧ readEvents o st evs = some st'
      ∧ st'.sheet.groupRows.Perm s.groupRows ∧ st'.sheet.headerRows = s.headerRows
      ∧ ∀ rest, checkTags [] (evs ++ rest) = checkTags [] rest := by
  have hrs := rowsOf_sorted s.data hd
  have hw : writeRows s = writeRowList s (Cells.usedGridSize s.data) {} (rowsOf s.data) := by
    unfold writeRows
    refine (writeLoop_rows s _ s.data hd ?_).1 _ (fun _ _ => Or.inl rfl)
    intro p hp
    exact ((C07_used_grid_size s.data).1 p.1.1 p.1.2 (by
      have : s.data.get? p.1 = some p.2 := (get?_eq_some_iff hd).mpr hp
      simp [Cells.isEmpty, contains, this])).1
  have hmem : ∀ p ∈ rowsOf s.data, ∀ x ∈ p.2, ((p.1, x.1), x.2) ∈ s.data := by
    intro p hp x hx
    exact rowsOf_mem_key (r := p.1) (cs := p.2) hp hx
  have hne : ∀ p ∈ rowsOf s.data, ∃ q ∈ s.data, q.1.1 = p.1 := by
    intro p hp
    obtain ⟨x, hx⟩ := List.exists_mem_of_ne_nil _ (hrs.2 p hp).1
    exact ⟨_, hmem p hp x hx, rfl⟩
  have hrepEq : ∀ p ∈ rowsOf s.data, s.repeatOf p.1 = rowRepeatOf s p.1 := by
    intro p hp
    obtain ⟨q, hq, e⟩ := hne p hp
    rw [← e]; exact repeatOf_eq (hok q hq)
  have hdisj : ∀ q ∈ s.data, ∀ q' ∈ s.data, q.1.1 < q'.1.1 → q.1.1 + s.repeatOf q.1.1 ≤ q'.1.1 := by
    intro q hq q' hq' hlt
    apply Nat.le_of_not_lt
    intro hlt'
    exact hrc ⟨q.1.1, q'.1.1, q.1.2, q'.1.2, q.2, q'.2, (get?_eq_some_iff hd).mpr hq,
      (get?_eq_some_iff hd).mpr hq', hlt, hlt'⟩
  have hpos : ∀ r, 1 ≤ s.repeatOf r := by
    intro r; unfold TSheet.repeatOf; omega
  have hapart : RowsApart s 0 (rowsOf s.data) := by
    refine rowsApart_of s _ 0 hrs (fun _ _ => Nat.zero_le _) ?_
    intro p hp q hq hlt
    obtain ⟨x, hx, e⟩ := hne p hp
    obtain ⟨y, hy, e'⟩ := hne q hq
    have := hdisj x hx y hy (by omega)
    rw [e, e', hrepEq p hp] at this
    exact this
  have hgaps : GapsFit s 0 (rowsOf s.data) := by
    refine gapsFit_of s hr _ 0 hrs hapart (fun q _ => hpos _) hrepEq ?_
    intro q hq
    obtain ⟨p, hp, e, _⟩ := mem_rowsOf_of_mem hq
    exact Or.inr ⟨p, hp, e⟩
  have hgood : ∀ p ∈ rowsOf s.data, RowGood s p := by
    intro p hp
    obtain ⟨q, hq, e⟩ := hne p hp
    have hrok := hok q hq
    rw [e] at hrok
    have hrp := hrepEq p hp
    refine ⟨⟨?_, ?_, ?_, ?_, ?_⟩, (dataTag_ok s p.1 hrok).1, fun x hx => hrep _ (hmem p hp x hx),
      fun x hx => hsp _ (hmem p hp x hx), (hrs.2 p hp).2, ?_⟩
    · rw [← hrp]; exact hpos _
    · intro g hg hlt
      have := hr.frm g hg q hq
      rw [e, hrp] at this; omega
    · intro g hg hlt
      obtain ⟨x, hx, ex⟩ := hr.to g hg
      have p1 := hpos x.1.1
      rw [← hrp, ← e]
      rcases Nat.lt_trichotomy x.1.1 q.1.1 with l | l | l
      · have := hdisj x hx q hq l; omega
      · rw [l] at ex; omega
      · have := hdisj q hq x hx l; omega
    · intro h hh hlt
      have := hr.hfrm h hh q hq
      rw [e, hrp] at this; omega
    · intro h hh hlt
      have := hr.hto h hh q hq
      rw [e, hrp] at this; omega
    · refine noOverlap_of _ (hrs.2 p hp).2 ?_
      intro a ha b hb hlt
      apply Nat.le_of_not_lt
      intro hlt'
      exact hc ⟨p.1, a.1, b.1, a.2, b.2, (get?_eq_some_iff hd).mpr (hmem p hp a ha),
        (get?_eq_some_iff hd).mpr (hmem p hp b hb), hlt, hlt'⟩
  have hinit : AtRow s 0 st {} := by
    refine ⟨h1, h2, ?_, ?_, by rw [h3]; rfl, ?_⟩
    · rw [h3, h4]; exact ginv_zero _
    · rw [h5]
      unfold headerUpTo
      cases s.headerRows with
      | none => rfl
      | some h => simp
    · unfold headerGoesOn
      cases s.headerRows with
      | none => rfl
      | some h => simp
  have htags : tagsAt st = [] := by unfold tagsAt; rw [h3]; rfl
  have finish : ∀ (b : Nat) (st' : RState) (g' : GState), AtRow s b st' g' →
      (∀ g ∈ s.groupRows, g.to < b) → (∀ h, s.headerRows = some h → h.to < b) →
      st'.sheet.groupRows.Perm s.groupRows ∧ st'.sheet.headerRows = s.headerRows := by
    intro b st' g' ha hb hb'
    refine ⟨(ha.groups.final hb).2, ?_⟩
    rw [ha.header]
    exact headerUpTo_end hr.hle hb'
  rw [hw]
  cases hrows : rowsOf s.data with
  | nil =>
    rw [hrows] at hgaps
    obtain ⟨f1, f2⟩ := finish 0 st {} hinit hgaps.1 hgaps.2
    exact ⟨[], st, rfl, rfl, f1, f2, fun _ => rfl⟩
  | cons p rest =>
    obtain ⟨row, cs⟩ := p
    rw [hrows] at hgaps hgood hapart
    obtain ⟨eG, g2, st2, b0, b1, b2, b3, b4⟩ := gap_any s hr.groups o (Cells.usedGridSize s.data)
      hr.hle 0 row hapart.1 st {} hgaps.1 hinit
    obtain ⟨e2, spans', st3, c1, c2, c3, c4⟩ := row_open s o (Cells.usedGridSize s.data) row cs hr.hle
      (hgood _ (by simp)) [] st2 g2 b3
    have hch := rowChange_first s (Cells.usedGridSize s.data) row (firstCol cs) eG g2 b0 b1
    obtain ⟨evs, rst', b, g', d1, d2, d3, d4, d5, d6⟩ := rows_walk s hr.groups hr.hle o
      (Cells.usedGridSize s.data) rest
      ⟨false, row, rowRepeatOf s row, 0, (writeStartRow s row (rowRepeatOf s row) (firstCol cs) g2).2, spans'⟩
      st3 rfl (hgood (row, cs) (by simp)).fits c3 (fun p hp => hgood p (by simp [hp])) hapart.2 hgaps.2
    obtain ⟨f1, f2⟩ := finish b rst' g' d3 d4 d5
    refine ⟨eG ++ (writeStartRow s row (rowRepeatOf s row) (firstCol cs) g2).1 ++ e2
        ++ (if rest.isEmpty then writeEndLastRow
            (writeStartRow s row (rowRepeatOf s row) (firstCol cs) g2).2 else []) ++ evs, rst',
      ?_, ?_, f1, f2, ?_⟩
    · have c1' : writeCells (Cells.usedGridSize s.data) row ({} : WState).spans cs = .ok (e2, spans') := c1
      simp only [writeRowList, hch, c1', d1]
    · simp only [List.append_assoc]
      rw [readEvents_append, b2]
      simp only [Option.bind_some]
      rw [← List.append_assoc, readEvents_append, c2]
      exact d2
    · intro r
      rw [← htags]
      simp only [List.append_assoc]
      rw [b4]
      rw [← List.append_assoc, c4]
      rw [htags, ← d6]
      simp only [List.append_assoc]

end Verif
