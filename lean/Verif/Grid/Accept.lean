import Verif.Grid.Other

/-!
# C105: which tables of other programs are read

A group or a header that ends before the first row or column is the only thing that can be wrong with the
rows, columns and cells of a table.
-/

set_option autoImplicit false

namespace Verif

/-- The end tag of a group or header. -/
def TEv.isEnd : TEv → Bool
  | .groupEnd | .headerEnd | .colGroupEnd | .colHeaderEnd => true
  | _ => false

/-- A column element. -/
def TEv.isColumn : TEv → Bool
  | .column _ => true
  | _ => false

/-- The tags before the first row. -/
def FileTable.before (t : FileTable) : List TEv :=
  match t.rows with
  | [] => t.tail
  | r :: _ => r.marks

/-- No group or header ends before the first column, or before the first row. -/
structure FileTable.Opened (t : FileTable) : Prop where
  cols : ∀ e ∈ t.cols.takeWhile (fun e => !e.isColumn), e.isEnd = false
  rows : ∀ e ∈ t.before, e.isEnd = false

theorem modify_some (m : RowHeaders) (row : Nat) (f : RowHeader → RowHeader) : ∃ m', m.modify row f = some m' := by
  have h : ∃ x, OMap.get? (m.split row) row = some x := by
    unfold RowHeaders.split
    split
    · rename_i base h _
      split
      · split
        · exact ⟨_, by rw [OMap.get?_insert, if_neg (by omega), OMap.get?_insert, if_pos rfl]⟩
        · have : row = base := by omega
          exact ⟨_, by rw [OMap.get?_insert, if_neg (by omega), OMap.get?_insert, if_pos this]⟩
      · exact ⟨_, by rw [OMap.get?_insert, if_pos rfl]⟩
    · exact ⟨_, by rw [OMap.get?_insert, if_pos rfl]⟩
  obtain ⟨x, hx⟩ := h
  unfold RowHeaders.modify
  simp only
  rw [hx]
  exact ⟨_, rfl⟩

theorem endHeader_some (h : Option HeaderRange) (a n : Nat) (hn : 0 < n) : ∃ x, endHeader h a n = some x := by
  unfold endHeader
  rw [if_neg (by omega)]
  cases h <;> exact ⟨_, rfl⟩

theorem colGroupEnd_ok (o : ReadOpts) (st : RState) (h : 0 < st.col) :
    ∃ st1, readStep o st .colGroupEnd = some st1 ∧ st1.row = st.row ∧ st1.col = st.col := by
  unfold readStep
  simp only
  split
  · exact ⟨_, rfl, rfl, rfl⟩
  · rw [if_neg (by omega)]
    exact ⟨_, rfl, rfl, rfl⟩

theorem colHeaderEnd_ok (o : ReadOpts) (st : RState) (h : 0 < st.col) :
    ∃ st1, readStep o st .colHeaderEnd = some st1 ∧ st1.row = st.row ∧ st1.col = st.col := by
  unfold readStep
  obtain ⟨x, hx⟩ := endHeader_some st.sheet.headerCols st.colRangeFrom st.col h
  simp only
  rw [hx]
  exact ⟨_, rfl, rfl, rfl⟩

theorem groupEnd_ok (o : ReadOpts) (st : RState) (h : 0 < st.row) :
    ∃ st1, readStep o st .groupEnd = some st1 ∧ st1.row = st.row := by
  unfold readStep
  simp only
  split
  · exact ⟨_, rfl, rfl⟩
  · rw [if_neg (by omega)]
    exact ⟨_, rfl, rfl⟩

theorem headerEnd_ok (o : ReadOpts) (st : RState) (h : 0 < st.row) :
    ∃ st1, readStep o st .headerEnd = some st1 ∧ st1.row = st.row := by
  unfold readStep
  obtain ⟨x, hx⟩ := endHeader_some st.sheet.headerRows st.rowRangeFrom st.row h
  simp only
  rw [hx]
  exact ⟨_, rfl, rfl⟩

theorem column_ok (o : ReadOpts) (st : RState) (c : ColTag) :
    ∃ st1, readStep o st (.column c) = some st1 ∧ st1.row = st.row ∧ st1.col = st.col + c.repeated.getD 1 := by
  refine ⟨_, rfl, rfl, ?_⟩
  show st.col + (readColAttr st.sheet.colHeader st.col c).2 = _
  unfold readColAttr
  simp only
  split <;> rfl

theorem cols_accept (o : ReadOpts) (evs : List TEv) (he : ∀ e ∈ evs, e.isCol = true)
    (hr : ∀ c, TEv.column c ∈ evs → 1 ≤ c.repeated.getD 1) : ∀ st : RState,
    (0 < st.col ∨ ∀ e ∈ evs.takeWhile (fun e => !e.isColumn), e.isEnd = false) →
    ∃ st', readEvents o st evs = some st' ∧ st'.row = st.row := by
  induction evs with
  | nil => intro st _; exact ⟨st, rfl, rfl⟩
  | cons e evs ih =>
    intro st hst
    have ih := ih (fun x hx => he x (List.mem_cons_of_mem _ hx)) (fun c hc => hr c (List.mem_cons_of_mem _ hc))
    have hec := he e List.mem_cons_self
    have next : ∀ st1 : RState, readStep o st e = some st1 → st1.row = st.row →
        (0 < st1.col ∨ ∀ e ∈ evs.takeWhile (fun e => !e.isColumn), e.isEnd = false) →
        ∃ st', readEvents o st (e :: evs) = some st' ∧ st'.row = st.row := by
      intro st1 h1 h2 h3
      obtain ⟨st', g1, g2⟩ := ih st1 h3
      exact ⟨st', by rw [readEvents, h1]; exact g1, g2.trans h2⟩
    have keep : e.isColumn = false →
        (0 < st.col ∨ ∀ e ∈ evs.takeWhile (fun e => !e.isColumn), e.isEnd = false) := by
      intro hc
      rcases hst with h | h
      · exact .inl h
      · rw [List.takeWhile_cons, hc] at h
        exact .inr fun x hx => h x (List.mem_cons_of_mem _ hx)
    have pos : e.isColumn = false → e.isEnd = true → 0 < st.col := by
      intro hc hd
      rcases hst with h | h
      · exact h
      · rw [List.takeWhile_cons, hc] at h
        have := h e List.mem_cons_self
        rw [hd] at this
        cases this
    cases e with
    | colGroupStart d => exact next _ rfl rfl (keep rfl)
    | colGroupEnd =>
      obtain ⟨st1, h1, h2, h3⟩ := colGroupEnd_ok o st (pos rfl rfl)
      exact next st1 h1 h2 (by rw [h3]; exact keep rfl)
    | colHeaderStart => exact next _ rfl rfl (keep rfl)
    | colHeaderEnd =>
      obtain ⟨st1, h1, h2, h3⟩ := colHeaderEnd_ok o st (pos rfl rfl)
      exact next st1 h1 h2 (by rw [h3]; exact keep rfl)
    | column c =>
      obtain ⟨st1, h1, h2, h3⟩ := column_ok o st c
      have := hr c List.mem_cons_self
      exact next st1 h1 h2 (.inl (by omega))
    | groupStart d => cases hec
    | groupEnd => cases hec
    | headerStart => cases hec
    | headerEnd => cases hec
    | rowStart r => cases hec
    | rowEnd => cases hec
    | cell a b c => cases hec

theorem marks_accept (o : ReadOpts) (evs : List TEv) (he : ∀ e ∈ evs, e.isMark = true) : ∀ st : RState,
    (0 < st.row ∨ ∀ e ∈ evs, e.isEnd = false) →
    ∃ st', readEvents o st evs = some st' ∧ st'.row = st.row := by
  induction evs with
  | nil => intro st _; exact ⟨st, rfl, rfl⟩
  | cons e evs ih =>
    intro st hst
    have hec := he e List.mem_cons_self
    have next : ∀ st1 : RState, readStep o st e = some st1 → st1.row = st.row →
        ∃ st', readEvents o st (e :: evs) = some st' ∧ st'.row = st.row := by
      intro st1 h1 h2
      obtain ⟨st', g1, g2⟩ := ih (fun x hx => he x (List.mem_cons_of_mem _ hx)) st1 (by
        rcases hst with h | h
        · exact .inl (by omega)
        · exact .inr fun x hx => h x (List.mem_cons_of_mem _ hx))
      exact ⟨st', by rw [readEvents, h1]; exact g1, g2.trans h2⟩
    have pos : e.isEnd = true → 0 < st.row := by
      intro hd
      rcases hst with h | h
      · exact h
      · have := h e List.mem_cons_self
        rw [hd] at this
        cases this
    cases e with
    | groupStart d => exact next _ rfl rfl
    | groupEnd =>
      obtain ⟨st1, h1, h2⟩ := groupEnd_ok o st (pos rfl)
      exact next st1 h1 h2
    | headerStart => exact next _ rfl rfl
    | headerEnd =>
      obtain ⟨st1, h1, h2⟩ := headerEnd_ok o st (pos rfl)
      exact next st1 h1 h2
    | colGroupStart d => cases hec
    | colGroupEnd => cases hec
    | colHeaderStart => cases hec
    | colHeaderEnd => cases hec
    | rowStart r => cases hec
    | rowEnd => cases hec
    | cell a b c => cases hec
    | column c => cases hec

theorem cells_accept (o : ReadOpts) (cs : List FileCell) : ∀ st : RState,
    ∃ st', readEvents o st (cs.map FileCell.event) = some st' ∧ st'.row = st.row ∧ st'.rowRepeat = st.rowRepeat := by
  induction cs with
  | nil => intro st; exact ⟨st, rfl, rfl, rfl⟩
  | cons c cs ih =>
    intro st
    obtain ⟨st1, h1, h2, h3⟩ : ∃ st1, readStep o st c.event = some st1 ∧ st1.row = st.row
        ∧ st1.rowRepeat = st.rowRepeat := ⟨_, rfl, rfl, rfl⟩
    obtain ⟨st', g1, g2, g3⟩ := ih st1
    exact ⟨st', by rw [List.map_cons, readEvents, h1]; exact g1, g2.trans h2, g3.trans h3⟩

theorem row_accept (o : ReadOpts) (r : FileRow) (hm : ∀ e ∈ r.marks, e.isMark = true)
    (hr : 1 ≤ r.tag.repeated.getD 1) (st : RState) (hst : 0 < st.row ∨ ∀ e ∈ r.marks, e.isEnd = false) :
    ∃ st', readEvents o st r.events = some st' ∧ 0 < st'.row := by
  obtain ⟨st1, a1, a2⟩ := marks_accept o r.marks hm st hst
  obtain ⟨st2, b1, b2, b3⟩ : ∃ st2, readStep o st1 (.rowStart r.tag) = some st2 ∧ st2.row = st1.row
      ∧ st2.rowRepeat = r.tag.repeated.getD 1 := by
    refine ⟨_, rfl, rfl, ?_⟩
    show (readRowAttr st1.sheet.rowHeader st1.row r.tag).2 = _
    unfold readRowAttr
    simp only
    split <;> rfl
  obtain ⟨st3, c1, c2, c3⟩ := cells_accept o r.cells st2
  have hrep : 1 ≤ st3.rowRepeat := by rw [c3, b3]; exact hr
  obtain ⟨st4, d1, d2⟩ : ∃ st4, readStep o st3 .rowEnd = some st4 ∧ 0 < st4.row := by
    cases hd : st3.colData with
    | false =>
      refine ⟨_, by rw [readStep, hd]; rfl, ?_⟩
      show 0 < st3.row + st3.rowRepeat
      omega
    | true =>
      cases hs : RowHeaders.step st3.sheet.rowHeader (.setRepeat st3.row st3.rowRepeat) with
      | none =>
        unfold RowHeaders.step at hs
        simp only at hs
        rw [if_neg (by omega)] at hs
        obtain ⟨m, hm⟩ := modify_some st3.sheet.rowHeader st3.row (fun h => { h with «repeat» := st3.rowRepeat })
        rw [hm] at hs
        cases hs
      | some m =>
        refine ⟨_, by rw [readStep, hd, if_pos rfl, hs]; rfl, ?_⟩
        show 0 < st3.row + st3.rowRepeat
        omega
  refine ⟨st4, ?_, d2⟩
  unfold FileRow.events
  rw [readEvents_append, a1, Option.bind_some, readEvents, b1]
  simp only
  rw [readEvents_append, c1, Option.bind_some, readEvents, d1]
  rfl

theorem rows_accept (o : ReadOpts) (rows : List FileRow) (tail : List TEv)
    (hm : ∀ r ∈ rows, ∀ e ∈ r.marks, e.isMark = true) (hr : ∀ r ∈ rows, 1 ≤ r.tag.repeated.getD 1)
    (ht : ∀ e ∈ tail, e.isMark = true) : ∀ st : RState,
    (0 < st.row ∨ ∀ e ∈ FileTable.before { rows := rows, tail := tail }, e.isEnd = false) →
    ∃ st', readEvents o st (rows.flatMap FileRow.events ++ tail) = some st' := by
  induction rows with
  | nil =>
    intro st hst
    obtain ⟨st', h, _⟩ := marks_accept o tail ht st hst
    exact ⟨st', h⟩
  | cons r rows ih =>
    intro st hst
    obtain ⟨st1, h1, h2⟩ := row_accept o r (hm r List.mem_cons_self) (hr r List.mem_cons_self) st hst
    obtain ⟨st', h3⟩ := ih (fun r hx => hm r (List.mem_cons_of_mem _ hx)) (fun r hx => hr r (List.mem_cons_of_mem _ hx))
      st1 (.inl h2)
    refine ⟨st', ?_⟩
    rw [List.flatMap_cons, List.append_assoc, readEvents_append, h1]
    exact h3

/-- **C105**: a table of any file can be read if no group or header ends before the first row or column. -/
theorem C105_accepts (t : FileTable) (ht : t.OK) (hop : t.Opened) (hb : checkTags [] t.events = some [])
    (o : ReadOpts) : ∃ s, readTable o t.events = some s := by
  obtain ⟨st1, h1, h2⟩ := cols_accept o t.cols ht.cols ht.colReps {} (.inr hop.cols)
  obtain ⟨st2, h3⟩ := rows_accept o t.rows t.tail ht.marks ht.rowReps ht.tail st1 (.inr hop.rows)
  have hr : readEvents o {} t.events = some st2 := by
    unfold FileTable.events
    rw [readEvents_append, h1]
    exact h3
  unfold readTable
  rw [hb]
  simp only
  rw [hr]
  exact ⟨_, rfl⟩

end Verif
