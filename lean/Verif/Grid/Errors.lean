import Verif.Grid.Table

/-!
# When writing a sheet fails (C13)
-/

set_option autoImplicit false

namespace Verif

open OMap

theorem closeGroups_nil (p : Grouped → Bool) (n : Nat) : closeGroups [] p n = .ok ([], n) := rfl

theorem writeEndRow_nogroup (s : TSheet) (h : s.groupRows = []) (row rep : Nat) (g : GState) :
    ∃ v, writeEndRow s row rep g = .ok v := by
  unfold writeEndRow
  rw [h, closeGroups_nil]
  exact ⟨_, rfl⟩

theorem writeGapRows_nogroup (s : TSheet) (h : s.groupRows = []) (mx : Nat × Nat) (n : Nat) :
    ∀ (r : Nat) (g : GState), ∃ v, writeGapRows s mx r n g = .ok v := by
  induction n with
  | zero => intro r g; exact ⟨_, rfl⟩
  | succ n ih =>
    intro r g
    have : ∃ v, writeGapRow s mx g r = .ok v := by
      unfold writeGapRow
      rw [h, closeGroups_nil]
      exact ⟨_, rfl⟩
    obtain ⟨⟨e, g'⟩, hv⟩ := this
    obtain ⟨⟨e2, g2⟩, hv2⟩ := ih (r + 1) g'
    exact ⟨(e ++ e2, g2), by simp only [writeGapRows, hv, hv2]⟩

theorem writeEmptyRowsBefore_nogroup (s : TSheet) (h : s.groupRows = []) (mx : Nat × Nat)
    (row n : Nat) (g : GState) : ∃ v, writeEmptyRowsBefore s row n mx g = .ok v := by
  unfold writeEmptyRowsBefore
  split
  · exact writeGapRows_nogroup s h mx n row g
  · exact ⟨_, rfl⟩

theorem writeRowChange_nogroup (s : TSheet) (h : s.groupRows = []) (mx : Nat × Nat) (st : WState)
    (row col : Nat) : (∃ v, writeRowChange s mx st row col = .ok v)
      ∨ writeRowChange s mx st row col = .error .overlapRow := by
  unfold writeRowChange
  have h1 : ∃ v, (if 0 < row - st.prevRow ∧ st.first = false then
      writeEndRow s st.prevRow st.prevRowRepeat st.g else .ok ([], st.g)) = Except.ok v := by
    split
    · exact writeEndRow_nogroup s h _ _ _
    · exact ⟨_, rfl⟩
  obtain ⟨⟨e1, g1⟩, hv⟩ := h1
  simp only [hv]
  by_cases c1 : 0 < row - st.prevRow
  · rw [if_pos c1]
    by_cases c2 : row - st.prevRow < st.prevRowRepeat
    · rw [if_pos c2]; exact Or.inr rfl
    · rw [if_neg c2]
      left
      have h2 : ∃ v, (if 0 < row - st.prevRow - st.prevRowRepeat + (if st.first then 1 else 0) then
          writeEmptyRowsBefore s (row - (row - st.prevRow - st.prevRowRepeat + (if st.first then 1 else 0)))
            (row - st.prevRow - st.prevRowRepeat + (if st.first then 1 else 0)) mx g1
          else .ok ([], g1)) = Except.ok v := by
        generalize row - st.prevRow - st.prevRowRepeat + (if st.first then 1 else 0) = n
        split
        · exact writeEmptyRowsBefore_nogroup s h mx _ _ _
        · exact ⟨_, rfl⟩
      obtain ⟨⟨e2, g2⟩, hv2⟩ := h2
      rw [hv2]
      simp only
      split <;> exact ⟨_, rfl⟩
  · rw [if_neg c1]
    left
    simp only
    split <;> exact ⟨_, rfl⟩

theorem writeFill_err (spans : List CellRange) (mx : Nat × Nat) (row col rep : Nat) (next : Nat × Nat)
    (e : WErr) (h : writeFill spans mx row col rep next = .error e) : e = .overlapCol := by
  unfold writeFill at h
  split at h
  · dsimp only at h; split at h <;> simp at h
  · split at h
    · split at h
      · simp only [Except.error.injEq] at h; exact h.symm
      · dsimp only at h; split at h <;> simp at h
    · simp at h

theorem writeCells_err (mx : Nat × Nat) (row : Nat) (cs : List (Nat × CellData)) :
    ∀ (spans : List CellRange) (e : WErr), (∀ p ∈ cs, 1 ≤ p.2.repeat) → (∀ p ∈ cs, p.2.SpansOK) →
    writeCells mx row spans cs = .error e → e = .overlapCol := by
  induction cs with
  | nil => intro spans e _ _ h; simp [writeCells] at h
  | cons p cs ih =>
    obtain ⟨c, d⟩ := p
    intro spans e h1 h2 h
    simp only [writeCells] at h
    obtain ⟨sp, hsp⟩ := pushSpan_ok (removeOutlived spans row c) row c d (h2 (c, d) (by simp))
      (h1 (c, d) (by simp))
    rw [hsp] at h
    simp only at h
    split at h
    · rename_i e' hf
      simp only [Except.error.injEq] at h
      rw [← h]
      exact writeFill_err _ _ _ _ _ _ _ hf
    · split at h
      · rename_i e' hc
        simp only [Except.error.injEq] at h
        rw [← h]
        exact ih _ _ (fun p hp => h1 p (by simp [hp])) (fun p hp => h2 p (by simp [hp])) hc
      · simp at h

theorem writeRowList_err (s : TSheet) (hg : s.groupRows = []) (mx : Nat × Nat)
    (rows : List (Nat × List (Nat × CellData))) :
    ∀ (st : WState) (e : WErr), (∀ p ∈ rows, ∀ q ∈ p.2, 1 ≤ q.2.repeat) →
    (∀ p ∈ rows, ∀ q ∈ p.2, q.2.SpansOK) → writeRowList s mx st rows = .error e →
    e = .overlapRow ∨ e = .overlapCol := by
  induction rows with
  | nil => intro st e _ _ h; simp [writeRowList] at h
  | cons p rest ih =>
    obtain ⟨row, cs⟩ := p
    intro st e h1 h2 h
    simp only [writeRowList] at h
    rcases writeRowChange_nogroup s hg mx st row (firstCol cs) with ⟨⟨e1, g⟩, hv⟩ | hv
    · rw [hv] at h
      simp only at h
      split at h
      · rename_i e' hc
        simp only [Except.error.injEq] at h
        rw [← h]
        exact Or.inr (writeCells_err mx row cs _ _ (h1 (row, cs) (by simp)) (h2 (row, cs) (by simp)) hc)
      · split at h
        · rename_i e' hc
          simp only [Except.error.injEq] at h
          rw [← h]
          exact ih _ _ (fun p hp => h1 p (by simp [hp])) (fun p hp => h2 p (by simp [hp])) hc
        · simp at h
    · rw [hv] at h
      simp only [Except.error.injEq] at h
      exact Or.inl h.symm

theorem writeRowList_ok (s : TSheet) (hg : s.groupRows = []) (mx : Nat × Nat)
    (rows : List (Nat × List (Nat × CellData))) :
    ∀ (st : WState), st.first = false → 1 ≤ st.prevRowRepeat →
    (∀ p ∈ rows, 1 ≤ rowRepeatOf s p.1) →
    (∀ p ∈ rows, ∀ q ∈ p.2, 1 ≤ q.2.repeat) →
    (∀ p ∈ rows, ∀ q ∈ p.2, q.2.SpansOK) → (∀ p ∈ rows, p.2.Pairwise (fun a b => a.1 < b.1)) →
    (∀ p ∈ rows, NoOverlap p.2) → RowsApart s (st.prevRow + st.prevRowRepeat) rows →
    ∃ evs, writeRowList s mx st rows = .ok evs := by
  induction rows with
  | nil => intro st _ _ _ _ _ _ _ _; exact ⟨_, rfl⟩
  | cons p rest ih =>
    obtain ⟨row, cs⟩ := p
    intro st hf hp h0 h1 h2 h3 h4 h5
    obtain ⟨⟨eE, g1⟩, hE⟩ := writeEndRow_nogroup s hg st.prevRow st.prevRowRepeat st.g
    have hgap : ∃ eG g2, (st.prevRow + st.prevRowRepeat = row → eG = [] ∧ g2 = g1)
        ∧ (st.prevRow + st.prevRowRepeat < row →
          writeEmptyRowsBefore s (st.prevRow + st.prevRowRepeat)
            (row - (st.prevRow + st.prevRowRepeat)) mx g1 = .ok (eG, g2)) := by
      by_cases e : st.prevRow + st.prevRowRepeat = row
      · exact ⟨[], g1, fun _ => ⟨rfl, rfl⟩, fun h => by omega⟩
      · obtain ⟨⟨eG, g2⟩, hv⟩ := writeEmptyRowsBefore_nogroup s hg mx (st.prevRow + st.prevRowRepeat)
          (row - (st.prevRow + st.prevRowRepeat)) g1
        exact ⟨eG, g2, fun h => absurd h e, fun _ => hv⟩
    obtain ⟨eG, g2, b0, b1⟩ := hgap
    have hch := rowChange_eq s mx st row (firstCol cs) hf h5.1 hp eE eG g1 g2 hE b0 b1
    obtain ⟨⟨e2, sp⟩, hc⟩ := writeCells_ok mx row cs st.spans (h1 (row, cs) (by simp))
      (h2 (row, cs) (by simp)) (h3 (row, cs) (by simp)) (h4 (row, cs) (by simp))
    obtain ⟨evs, he⟩ := ih ⟨false, row, rowRepeatOf s row, 0,
      (writeStartRow s row (rowRepeatOf s row) (firstCol cs) g2).2, sp⟩ rfl (h0 (row, cs) (by simp))
      (fun p hp => h0 p (by simp [hp])) (fun p hp => h1 p (by simp [hp]))
      (fun p hp => h2 p (by simp [hp])) (fun p hp => h3 p (by simp [hp]))
      (fun p hp => h4 p (by simp [hp])) h5.2
    simp only [writeRowList, hch, hc, he]
    exact ⟨_, rfl⟩

theorem writeRowList_ok_first (s : TSheet) (hg : s.groupRows = []) (mx : Nat × Nat)
    (rows : List (Nat × List (Nat × CellData)))
    (h0 : ∀ p ∈ rows, 1 ≤ rowRepeatOf s p.1)
    (h1 : ∀ p ∈ rows, ∀ q ∈ p.2, 1 ≤ q.2.repeat)
    (h2 : ∀ p ∈ rows, ∀ q ∈ p.2, q.2.SpansOK) (h3 : ∀ p ∈ rows, p.2.Pairwise (fun a b => a.1 < b.1))
    (h4 : ∀ p ∈ rows, NoOverlap p.2) (h5 : RowsApart s 0 rows) :
    ∃ evs, writeRowList s mx {} rows = .ok evs := by
  cases rows with
  | nil => exact ⟨_, rfl⟩
  | cons p rest =>
    obtain ⟨row, cs⟩ := p
    have hgap : ∃ eG g2, (0 = row → eG = [] ∧ g2 = ({} : GState))
        ∧ (0 < row → writeEmptyRowsBefore s 0 row mx {} = .ok (eG, g2)) := by
      by_cases e : 0 = row
      · exact ⟨[], {}, fun _ => ⟨rfl, rfl⟩, fun h => by omega⟩
      · obtain ⟨⟨eG, g2⟩, hv⟩ := writeEmptyRowsBefore_nogroup s hg mx 0 row {}
        exact ⟨eG, g2, fun h => absurd h e, fun _ => hv⟩
    obtain ⟨eG, g2, b0, b1⟩ := hgap
    have hch := rowChange_first s mx row (firstCol cs) eG g2 b0 b1
    obtain ⟨⟨e2, sp⟩, hc⟩ := writeCells_ok mx row cs ({} : WState).spans (h1 (row, cs) (by simp))
      (h2 (row, cs) (by simp)) (h3 (row, cs) (by simp)) (h4 (row, cs) (by simp))
    obtain ⟨evs, he⟩ := writeRowList_ok s hg mx rest ⟨false, row, rowRepeatOf s row, 0,
      (writeStartRow s row (rowRepeatOf s row) (firstCol cs) g2).2, sp⟩ rfl (h0 (row, cs) (by simp))
      (fun p hp => h0 p (by simp [hp])) (fun p hp => h1 p (by simp [hp]))
      (fun p hp => h2 p (by simp [hp])) (fun p hp => h3 p (by simp [hp]))
      (fun p hp => h4 p (by simp [hp])) h5.2
    simp only [writeRowList, hch, hc, he]
    exact ⟨_, rfl⟩

theorem writeColLoop_ok (s : TSheet) (hw : s.colHeader.WF) (mx fuel : Nat) :
    ∀ c, mx ≤ c + fuel → ∃ evs, writeColLoop s mx fuel c = .ok evs := by
  have hpos : ∀ c, 1 ≤ (writeColStep s c).2 := by
    intro c
    unfold writeColStep
    simp only
    cases hc : OMap.get? s.colHeader c with
    | none => exact Nat.le_refl 1
    | some x => exact hw.pos hc
  induction fuel with
  | zero =>
    intro c h
    unfold writeColLoop
    rw [if_pos (by omega)]
    exact ⟨_, rfl⟩
  | succ fuel ih =>
    intro c h
    unfold writeColLoop
    by_cases hc : mx ≤ c
    · rw [if_pos hc]; exact ⟨_, rfl⟩
    · rw [if_neg hc]
      simp only
      have := hpos c
      rw [if_neg (by omega)]
      obtain ⟨evs, he⟩ := ih (c + (writeColStep s c).2) (by omega)
      rw [he]
      exact ⟨_, rfl⟩

theorem writeCols_ok (s : TSheet) (hw : s.colHeader.WF) : ∃ evs, writeCols s = .ok evs :=
  writeColLoop_ok s hw _ _ 0 (by omega)

/-- The rows of a sheet, as the loop over rows sees them. -/
theorem writeRows_list (s : TSheet) (hd : Sorted s.data) :
    writeRows s = writeRowList s (Cells.usedGridSize s.data) {} (rowsOf s.data) := by
  unfold writeRows
  refine (writeLoop_rows s _ s.data hd ?_).1 _ (fun _ _ => Or.inl rfl)
  intro p hp
  exact ((C07_used_grid_size s.data).1 p.1.1 p.1.2 (by
    have : s.data.get? p.1 = some p.2 := (get?_eq_some_iff hd).mpr hp
    simp [Cells.isEmpty, contains, this])).1

theorem noOverlap_mem {cs : List (Nat × CellData)} (hp : cs.Pairwise (fun a b => a.1 < b.1))
    (hr : ∀ p ∈ cs, 1 ≤ p.2.repeat) (h : NoOverlap cs) :
    ∀ p ∈ cs, ∀ q ∈ cs, p.1 < q.1 → p.1 + p.2.repeat ≤ q.1 := by
  induction cs with
  | nil => simp
  | cons a cs ih =>
    have hno : NoOverlap cs := by
      cases cs with
      | nil => exact trivial
      | cons q cs => exact h.2
    have i := ih (List.pairwise_cons.mp hp).2 (fun p hp => hr p (by simp [hp])) hno
    have ha := (List.pairwise_cons.mp hp).1
    intro p hpm q hqm hlt
    rcases List.mem_cons.mp hpm with e1 | e1 <;> rcases List.mem_cons.mp hqm with e2 | e2
    · rw [e1, e2] at hlt; omega
    · rw [e1]
      cases cs with
      | nil => simp at e2
      | cons b cs =>
        have h1 : a.1 + a.2.repeat ≤ b.1 := h.1
        rcases List.mem_cons.mp e2 with e3 | e3
        · rw [e3]; exact h1
        · have := i b (by simp) q e2 ((List.pairwise_cons.mp (List.pairwise_cons.mp hp).2).1 q e3)
          omega
    · have := ha p e1; rw [e2] at hlt; omega
    · exact i p e1 q e2 hlt

theorem rowsApart_mem (s : TSheet) (rows : List (Nat × List (Nat × CellData))) :
    ∀ start, RowsApart s start rows → (∀ p ∈ rows, start ≤ p.1)
      ∧ rows.Pairwise (fun p q => p.1 + rowRepeatOf s p.1 ≤ q.1) := by
  induction rows with
  | nil => intro _ _; exact ⟨by simp, List.Pairwise.nil⟩
  | cons p rest ih =>
    obtain ⟨r, cs⟩ := p
    intro start h
    obtain ⟨i1, i2⟩ := ih _ h.2
    have h1 : start ≤ r := h.1
    refine ⟨?_, List.pairwise_cons.mpr ⟨i1, i2⟩⟩
    intro q hq
    rcases List.mem_cons.mp hq with e | e
    · rw [e]; exact h1
    · have := i1 q e; omega

theorem rowsOf_nonempty {s : TSheet} (hd : Sorted s.data) {p : Nat × List (Nat × CellData)}
    (hp : p ∈ rowsOf s.data) : ∃ q ∈ s.data, q.1.1 = p.1 := by
  obtain ⟨x, hx⟩ := List.exists_mem_of_ne_nil _ ((rowsOf_sorted s.data hd).2 p hp).1
  exact ⟨_, rowsOf_mem_key (r := p.1) (cs := p.2) hp hx, rfl⟩

/-- Cells of a row without a clash. -/
theorem noOverlap_iff (s : TSheet) (hc : s.CellsOK) :
    (∀ p ∈ rowsOf s.data, NoOverlap p.2) ↔ ¬ s.CellClash := by
  have hrs := rowsOf_sorted s.data hc.sorted
  have hmem : ∀ p ∈ rowsOf s.data, ∀ x ∈ p.2, ((p.1, x.1), x.2) ∈ s.data := by
    intro p hp x hx
    exact rowsOf_mem_key (r := p.1) (cs := p.2) hp hx
  constructor
  · rintro h ⟨r, c, c', d, d', h1, h2, h3, h4⟩
    have m1 := (get?_eq_some_iff hc.sorted).mp h1
    have m2 := (get?_eq_some_iff hc.sorted).mp h2
    obtain ⟨p, p1, p2, p3⟩ := mem_rowsOf_of_mem m1
    obtain ⟨q, q1, q2, q3⟩ := mem_rowsOf_of_mem m2
    have hpq : p = q := by
      have hpw := hrs.1
      have : ∀ (l : List (Nat × List (Nat × CellData))), l.Pairwise (fun a b => a.1 < b.1) →
          p ∈ l → q ∈ l → p = q := by
        intro l
        induction l with
        | nil => intro _ h; simp at h
        | cons x l ih =>
          intro hl hp hq
          obtain ⟨l1, l2⟩ := List.pairwise_cons.mp hl
          simp only at p2 q2
          rcases List.mem_cons.mp hp with e1 | e1 <;> rcases List.mem_cons.mp hq with e2 | e2
          · rw [e1, e2]
          · have := l1 q e2; rw [← e1] at this; omega
          · have := l1 p e1; rw [← e2] at this; omega
          · exact ih l2 e1 e2
      exact this _ hpw p1 q1
    rw [← hpq] at q3
    have := noOverlap_mem (hrs.2 p p1).2 (fun x hx => hc.rep _ (hmem p p1 x hx)) (h p p1) (c, d) p3
      (c', d') q3 h3
    simp only at this
    omega
  · intro h p hp
    refine noOverlap_of _ (hrs.2 p hp).2 ?_
    intro a ha b hb hlt
    apply Nat.le_of_not_lt
    intro hlt'
    exact h ⟨p.1, a.1, b.1, a.2, b.2, (get?_eq_some_iff hc.sorted).mpr (hmem p hp a ha),
      (get?_eq_some_iff hc.sorted).mpr (hmem p hp b hb), hlt, hlt'⟩

/-- Rows without a clash. -/
theorem rowsApart_iff (s : TSheet) (hc : s.CellsOK) :
    RowsApart s 0 (rowsOf s.data) ↔ ¬ s.RowClash := by
  have hrs := rowsOf_sorted s.data hc.sorted
  constructor
  · rintro h ⟨r, r', c, c', d, d', h1, h2, h3, h4⟩
    have m1 := (get?_eq_some_iff hc.sorted).mp h1
    have m2 := (get?_eq_some_iff hc.sorted).mp h2
    obtain ⟨p, p1, p2, _⟩ := mem_rowsOf_of_mem m1
    obtain ⟨q, q1, q2, _⟩ := mem_rowsOf_of_mem m2
    have hap := (rowsApart_mem s _ 0 h).2
    have hok := hc.rows _ m1
    simp only at p2 q2 hok
    rw [repeatOf_eq hok] at h4
    have : ∀ (l : List (Nat × List (Nat × CellData))),
        l.Pairwise (fun p q => p.1 + rowRepeatOf s p.1 ≤ q.1) →
        l.Pairwise (fun p q => p.1 < q.1) →
        p ∈ l → q ∈ l → p.1 + rowRepeatOf s p.1 ≤ q.1 := by
      intro l
      induction l with
      | nil => intro _ _ h; simp at h
      | cons x l ih =>
        intro hl hl' hp hq
        obtain ⟨l1, l2⟩ := List.pairwise_cons.mp hl
        obtain ⟨l3, l4⟩ := List.pairwise_cons.mp hl'
        rcases List.mem_cons.mp hp with e1 | e1 <;> rcases List.mem_cons.mp hq with e2 | e2
        · rw [e1] at p2; rw [e2] at q2; omega
        · rw [e1]; exact l1 q e2
        · have := l3 p e1; rw [← e2] at this; omega
        · exact ih l2 l4 e1 e2
    have := this _ hap hrs.1 p1 q1
    rw [p2, q2] at this
    omega
  · intro h
    refine rowsApart_of s _ 0 hrs (fun _ _ => Nat.zero_le _) ?_
    intro p hp q hq hlt
    obtain ⟨x, hx, e⟩ := rowsOf_nonempty hc.sorted hp
    obtain ⟨y, hy, e'⟩ := rowsOf_nonempty hc.sorted hq
    apply Nat.le_of_not_lt
    intro hlt'
    refine h ⟨x.1.1, y.1.1, x.1.2, y.1.2, x.2, y.2, (get?_eq_some_iff hc.sorted).mpr hx,
      (get?_eq_some_iff hc.sorted).mpr hy, by omega, ?_⟩
    rw [repeatOf_eq (hc.rows x hx), e, e']
    exact hlt'

/-- **C13, rejection.** If the repeat of a cell runs into the next cell, or the repeat of a row into
the next row with cells, then the sheet is not written; a sheet without row groups is rejected by one
of the two overlap errors, not by a panic. -/
theorem C13_clash_rejected (s : TSheet) (hc : s.CellsOK) (hw : s.colHeader.WF)
    (h : s.CellClash ∨ s.RowClash) :
    (∀ evs, writeSheet s ≠ .ok evs)
    ∧ (s.groupRows = [] →
      writeSheet s = .error .overlapRow ∨ writeSheet s = .error .overlapCol) := by
  let t : TSheet := { s with colHeader := prepareCols s.groupCols s.headerCols s.colHeader }
  obtain ⟨e1, h1⟩ := writeCols_ok t (prepare_wf _ hw _ _)
  have hs : writeSheet s = (match writeRows t with | .error e => .error e | .ok e2 => .ok (e1 ++ e2)) := by
    show writeTable t = _
    unfold writeTable
    rw [h1]
    rfl
  have hne : ∀ e2, writeRows t ≠ .ok e2 := by
    intro e2 h2
    obtain ⟨g1, g2, _⟩ := core_sheet {} [] t hc.sorted hc.rows hc.rep e2 h2
      (RState.core {}) ⟨rfl, rfl, rfl⟩ rfl
    rcases h with h | h
    · exact (noOverlap_iff s hc).mp g2 h
    · exact (rowsApart_iff t ⟨hc.sorted, hc.rows, hc.rep, hc.spans⟩).mp g1 h
  rw [hs]
  cases hr : writeRows t with
  | ok e2 => exact absurd hr (hne e2)
  | error e =>
    refine ⟨fun evs => by simp, ?_⟩
    intro hg
    rw [writeRows_list t hc.sorted] at hr
    have hmem : ∀ p ∈ rowsOf s.data, ∀ x ∈ p.2, ((p.1, x.1), x.2) ∈ s.data := by
      intro p hp x hx
      exact rowsOf_mem_key (r := p.1) (cs := p.2) hp hx
    rcases writeRowList_err t hg _ _ _ _ (fun p hp x hx => hc.rep _ (hmem p hp x hx))
      (fun p hp x hx => hc.spans _ (hmem p hp x hx)) hr with e' | e'
    · exact Or.inl (by rw [e'])
    · exact Or.inr (by rw [e'])

/-- **C13, acceptance (partial).** A sheet without such a clash is written, if it has no row groups or
if its row groups and header rows fit its rows (`RowsOK`) and its column groups its columns
(`ColsFit`). Missing: row groups that end in rows without cells, where the code can panic, see
`C13_group_panic_counterexample`. -/
theorem C13_accepted_partial (s : TSheet) (hc : s.CellsOK) (hw : s.colHeader.WF)
    (h1 : ¬ s.CellClash) (h2 : ¬ s.RowClash) (hg : s.groupRows = [] ∨ (s.ColsFit ∧ RowsOK s)) :
    ∃ evs, writeSheet s = .ok evs := by
  rcases hg with hg | ⟨hcol, hrow⟩
  · let t : TSheet := { s with colHeader := prepareCols s.groupCols s.headerCols s.colHeader }
    obtain ⟨e1, a1⟩ := writeCols_ok t (prepare_wf _ hw _ _)
    have hrs := rowsOf_sorted s.data hc.sorted
    have hmem : ∀ p ∈ rowsOf s.data, ∀ x ∈ p.2, ((p.1, x.1), x.2) ∈ s.data := by
      intro p hp x hx
      exact rowsOf_mem_key (r := p.1) (cs := p.2) hp hx
    obtain ⟨e2, a2⟩ := writeRowList_ok_first t hg (Cells.usedGridSize s.data) (rowsOf s.data)
      (fun p hp => by
        obtain ⟨q, hq, e⟩ := rowsOf_nonempty hc.sorted hp
        have := (dataTag_ok t q.1.1 (hc.rows q hq)).2.1
        rw [← e]; exact this)
      (fun p hp x hx => hc.rep _ (hmem p hp x hx)) (fun p hp x hx => hc.spans _ (hmem p hp x hx))
      (fun p hp => (hrs.2 p hp).2) ((noOverlap_iff s hc).mpr h1)
      ((rowsApart_iff t ⟨hc.sorted, hc.rows, hc.rep, hc.spans⟩).mpr h2)
    refine ⟨e1 ++ e2, ?_⟩
    show writeTable t = _
    unfold writeTable
    rw [a1, writeRows_list t hc.sorted]
    simp only
    have a2' : writeRowList t (Cells.usedGridSize t.data) {} (rowsOf t.data) = .ok e2 := a2
    rw [a2']
  · obtain ⟨evs, _, h, _⟩ := table_roundtrip s hc hcol hrow h1 h2 {}
    exact ⟨evs, h⟩

end Verif
