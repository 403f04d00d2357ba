import Verif.Grid.Table
import Verif.Grid.ColProps

/-!
# What the events of a sheet contain

The numbers are bounded by the size of the sheet and the cells come from the sheet.
-/

set_option autoImplicit false

namespace Verif.TableXml

open OMap

/-- The numbers of the tag are at most `N` and the cell is one of `data`. -/
def Within (N : Nat) (data : Cells) : TEv → Prop
  | .rowStart t => ∀ n, t.repeated = some n → n ≤ N
  | .column t => ∀ n, t.repeated = some n → n ≤ N
  | .cell _ rep none => ∀ n, rep = some n → n ≤ N
  | .cell _ rep (some d) => (∃ q ∈ data, q.2 = d) ∧ 1 ≤ rep.getD 1 ∧ rep.getD 1 ≤ N
  | _ => True

/-- A list of events with `Within`. -/
def AllWithin (N : Nat) (data : Cells) (evs : List TEv) : Prop := ∀ e ∈ evs, Within N data e

theorem AllWithin.append {N : Nat} {data : Cells} {a b : List TEv} (h1 : AllWithin N data a)
    (h2 : AllWithin N data b) : AllWithin N data (a ++ b) := by
  intro e he
  rcases List.mem_append.mp he with h | h
  · exact h1 e h
  · exact h2 e h

theorem AllWithin.nil (N : Nat) (data : Cells) : AllWithin N data [] := by intro e he; cases he

theorem AllWithin.cons {N : Nat} {data : Cells} {e : TEv} {a : List TEv} (h1 : Within N data e)
    (h2 : AllWithin N data a) : AllWithin N data (e :: a) := by
  intro x hx
  cases hx with
  | head => exact h1
  | tail _ h => exact h2 x h

theorem AllWithin.ite {N : Nat} {data : Cells} {p : Prop} [Decidable p] {a b : List TEv} (h1 : AllWithin N data a)
    (h2 : AllWithin N data b) : AllWithin N data (if p then a else b) := by
  split
  · exact h1
  · exact h2

theorem repAttr_le (N n : Nat) (h : n ≤ N) : ∀ k, repAttr n = some k → k ≤ N := by
  intro k hk
  unfold repAttr at hk
  split at hk
  · cases hk; exact h
  · cases hk

theorem repAttr_getD (n : Nat) (h : 1 ≤ n) : (repAttr n).getD 1 = n := by
  unfold repAttr
  split
  · rfl
  · simp; omega

/-- A tag without numbers. -/
theorem within_tag {N : Nat} {data : Cells} (e : TEv) (h : e = .headerStart ∨ e = .headerEnd ∨ e = .rowEnd
    ∨ e = .colHeaderStart ∨ e = .colHeaderEnd) : AllWithin N data [e] := by
  intro x hx
  cases hx with
  | head => rcases h with h | h | h | h | h <;> subst h <;> trivial
  | tail _ h => cases h

theorem within_groups (N : Nat) (data : Cells) (gs : List Grouped) : AllWithin N data (gs.map groupStartOf) := by
  intro e he
  obtain ⟨g, _, rfl⟩ := List.mem_map.mp he
  trivial

theorem within_colGroups (N : Nat) (data : Cells) (gs : List Grouped) :
    AllWithin N data (gs.map colGroupStartOf) := by
  intro e he
  obtain ⟨g, _, rfl⟩ := List.mem_map.mp he
  trivial

theorem runOf_le : ∀ (l : List (Nat × Nat)) (c e : Nat), RunOf c l e →
    c ≤ e ∧ ∀ p ∈ l, 1 ≤ p.2 ∧ p.2 ≤ e - c := by
  intro l
  induction l with
  | nil => intro c e h; exact ⟨Nat.le_of_eq h, by intro p hp; cases hp⟩
  | cons p l ih =>
    intro c e h
    obtain ⟨h1, h2, h3⟩ := h
    obtain ⟨h4, h5⟩ := ih _ _ h3
    refine ⟨by omega, ?_⟩
    intro q hq
    cases hq with
    | head => exact ⟨h2, by omega⟩
    | tail _ h => have := h5 q h; omega

theorem pieces_le (ranges : List CellRange) (row c n : Nat) (h : 1 ≤ n) :
    ∀ p ∈ splitHidden ranges row c n, 1 ≤ p.repeat ∧ p.repeat ≤ n := by
  intro p hp
  have := (runOf_le _ _ _ (splitHidden_run ranges row c n h)).2 (p.col, p.repeat)
    (List.mem_map.mpr ⟨p, hp, rfl⟩)
  simp only at this
  omega

theorem within_empties (N : Nat) (data : Cells) (ranges : List CellRange) (row c n : Nat) (h : 1 ≤ n) (hn : n ≤ N) :
    AllWithin N data (writeEmptyCells (splitHidden ranges row c n)) := by
  intro e he
  obtain ⟨p, hp, rfl⟩ := List.mem_map.mp he
  have := pieces_le ranges row c n h p hp
  exact repAttr_le N _ (by omega)

theorem within_pieces (N : Nat) (data : Cells) (ranges : List CellRange) (row c : Nat) (d : CellData)
    (hd : ∃ q ∈ data, q.2 = d) (h : 1 ≤ d.repeat) (hn : d.repeat ≤ N) :
    AllWithin N data (writeCellPieces d (splitHidden ranges row c d.repeat)) := by
  intro e he
  obtain ⟨p, hp, rfl⟩ := List.mem_map.mp he
  have := pieces_le ranges row c d.repeat h p hp
  refine ⟨hd, ?_⟩
  rw [repAttr_getD _ this.1]
  omega

/-- The sheet fits into `N` rows and columns. -/
structure Small (N : Nat) (s : TSheet) : Prop where
  pos : 1 ≤ N
  rows : ∀ q ∈ s.data, q.1.1 ≤ N
  cols : ∀ q ∈ s.data, q.1.2 + q.2.repeat ≤ N
  rep : ∀ q ∈ s.data, 1 ≤ q.2.repeat
  rowRep : ∀ q ∈ s.rowHeader, q.2.repeat ≤ N
  spans : ∀ q ∈ s.colHeader, q.1 + q.2.span ≤ N

theorem used_le (N : Nat) (m : Cells) (h : ∀ q ∈ m, q.1.2 + 1 ≤ N) (h1 : 1 ≤ N) : (Cells.usedGridSize m).2 ≤ N := by
  have key : ∀ (l : List ((Nat × Nat) × CellData)) (a : Nat × Nat), a.2 + 1 ≤ N → (∀ q ∈ l, q.1.2 + 1 ≤ N) →
      (l.foldl (fun mx p => (Nat.max mx.1 p.1.1, Nat.max mx.2 p.1.2)) a).2 + 1 ≤ N := by
    intro l
    induction l with
    | nil => intro a ha _; exact ha
    | cons p l ih =>
      intro a ha hl
      refine ih _ ?_ (fun q hq => hl q (List.mem_cons_of_mem _ hq))
      have := hl p List.mem_cons_self
      show max a.2 p.1.2 + 1 ≤ N
      omega
  exact key m (0, 0) (by simpa using h1) h

theorem valid_mem (m : RowHeaders) (row : Nat) (x : RowHeader) (h : m.valid row = some x) :
    ∃ q ∈ m, q.2 = x := by
  unfold RowHeaders.valid at h
  split at h
  · rename_i p hp
    split at h
    · cases h
      exact ⟨_, (List.mem_filter.mp (List.mem_of_getLast? hp)).1, rfl⟩
    · cases h
  · cases h

theorem within_emptyRow (N : Nat) (data : Cells) (s : TSheet) (row rep : Nat) (mc : Nat × Nat) (h : rep ≤ N)
    (hm : mc.2 ≤ N) : AllWithin N data (writeEmptyRow s row rep mc) := by
  refine .cons ?_ (.cons ?_ (within_tag _ (by simp)))
  · intro n hn
    cases hv : s.rowHeader.valid row with
    | none => rw [hv] at hn; cases hn; exact h
    | some x => rw [hv] at hn; cases hn; exact h
  · intro n hn
    cases hn
    exact hm

theorem within_close (N : Nat) (data : Cells) (gs : List Grouped) (p : Grouped → Bool) (k k' : Nat) (evs : List TEv)
    (h : closeGroups gs p k = .ok (evs, k')) : AllWithin N data evs := by
  unfold closeGroups at h
  simp only at h
  split at h
  · cases h
    intro e he
    rw [List.eq_of_mem_replicate he]
    trivial
  · cases h

theorem within_gapRow (N : Nat) (data : Cells) (s : TSheet) (mc : Nat × Nat) (g g' : GState) (r : Nat) (evs : List TEv)
    (h : writeGapRow s mc g r = .ok (evs, g')) (h1 : 1 ≤ N) (hm : mc.2 ≤ N) : AllWithin N data evs := by
  unfold writeGapRow at h
  simp only at h
  split at h
  · cases h
  · rename_i e2 c hc
    cases h
    exact ((((AllWithin.ite (within_tag _ (by simp)) (.nil _ _)).append (within_close N data _ _ _ _ _ hc)).append
      (within_groups N data _)).append (.ite (within_tag _ (by simp)) (.nil _ _))).append
      (within_emptyRow N data s r 1 mc h1 hm)

theorem within_gapRows (N : Nat) (data : Cells) (s : TSheet) (mc : Nat × Nat) (h1 : 1 ≤ N) (hm : mc.2 ≤ N) (n : Nat) :
    ∀ (r : Nat) (g g' : GState) (evs : List TEv), writeGapRows s mc r n g = .ok (evs, g') → AllWithin N data evs := by
  induction n with
  | zero => intro r g g' evs h; cases h; exact .nil _ _
  | succ n ih =>
    intro r g g' evs h
    rw [writeGapRows] at h
    split at h
    · cases h
    · rename_i e1 g1 hg
      split at h
      · cases h
      · rename_i e2 g2 hr
        cases h
        exact (within_gapRow N data s mc _ _ r _ hg h1 hm).append (ih _ _ _ _ hr)

theorem within_before (N : Nat) (data : Cells) (s : TSheet) (row n : Nat) (mc : Nat × Nat) (g g' : GState)
    (evs : List TEv) (h : writeEmptyRowsBefore s row n mc g = .ok (evs, g')) (h1 : 1 ≤ N) (hm : mc.2 ≤ N) (hn : n ≤ N) :
    AllWithin N data evs := by
  unfold writeEmptyRowsBefore at h
  split at h
  · exact within_gapRows N data s mc h1 hm _ _ _ _ _ h
  · cases h
    exact within_emptyRow N data s row n mc hn hm

theorem within_startRow (N : Nat) (data : Cells) (s : TSheet) (row rep leading : Nat) (g : GState)
    (hr : ∀ q ∈ s.rowHeader, q.2.repeat ≤ N) (hl : leading ≤ N) :
    AllWithin N data (writeStartRow s row rep leading g).1 := by
  unfold writeStartRow
  refine ((((within_groups N data _).append (.ite (within_tag _ (by simp)) (.nil _ _))).append
    (.cons ?_ (.nil _ _))).append (.ite (.cons (repAttr_le N _ hl) (.nil _ _)) (.nil _ _)))
  intro n hn
  unfold dataTag at hn
  split at hn
  · rename_i x hx
    obtain ⟨q, hq, rfl⟩ := valid_mem _ _ _ hx
    exact repAttr_le N _ (hr q hq) n hn
  · cases hn

theorem within_endRow (N : Nat) (data : Cells) (s : TSheet) (row rep : Nat) (g g' : GState) (evs : List TEv)
    (h : writeEndRow s row rep g = .ok (evs, g')) : AllWithin N data evs := by
  unfold writeEndRow at h
  simp only at h
  split at h
  · cases h
  · rename_i e c hc
    cases h
    exact ((within_tag _ (by simp)).append (.ite (within_tag _ (by simp)) (.nil _ _))).append
      (within_close N data _ _ _ _ _ hc)

theorem within_rowChange (N : Nat) (data : Cells) (s : TSheet) (mc : Nat × Nat) (st : WState) (row col : Nat)
    (evs : List TEv) (g : GState) (h : writeRowChange s mc st row col = .ok (evs, g)) (h1 : 1 ≤ N) (hm : mc.2 ≤ N)
    (hrow : row ≤ N) (hp : 1 ≤ st.prevRowRepeat) (hcol : col ≤ N) (hr : ∀ q ∈ s.rowHeader, q.2.repeat ≤ N) : AllWithin N data evs := by
  unfold writeRowChange at h
  simp only at h
  split at h
  · cases h
  · rename_i e1 g1 he
    have he1 : AllWithin N data e1 := by
      split at he
      · exact within_endRow N data _ _ _ _ _ _ he
      · cases he; exact .nil _ _
    split at h
    · cases h
    · rename_i e2 g2 hg
      have he2 : AllWithin N data e2 := by
        split at hg
        · split at hg
          · cases hg
          · have hf : (if st.first = true then 1 else 0) ≤ 1 := by split <;> omega
            revert hg hf
            generalize (if st.first = true then 1 else 0) = f
            intro hg hf
            split at hg
            · exact within_before N data _ _ _ _ _ _ _ hg h1 hm (by omega)
            · cases hg; exact .nil _ _
        · cases hg; exact .nil _ _
      split at h
      · cases h
        refine (he1.append he2).append (within_startRow N data s row _ _ _ hr ?_)
        split <;> omega
      · cases h
        exact he1.append he2

theorem within_fill (N : Nat) (data : Cells) (spans : List CellRange) (mc : Nat × Nat) (row col rep : Nat)
    (next : Nat × Nat) (evs : List TEv) (h : writeFill spans mc row col rep next = .ok evs) (hm : mc.2 ≤ N)
    (hn : next.2 ≤ N) : AllWithin N data evs := by
  unfold writeFill at h
  simp only at h
  split at h
  · split at h
    · cases h
      exact within_empties N data _ _ _ _ (by omega) (by omega)
    · cases h; exact .nil _ _
  · split at h
    · split at h
      · cases h
      · split at h
        · cases h
          exact within_empties N data _ _ _ _ (by omega) (by omega)
        · cases h; exact .nil _ _
    · cases h; exact .nil _ _

theorem within_loop (N : Nat) (s : TSheet) (hs : Small N s) (hok : ∀ q ∈ s.data, RowOK s q.1.1) (mc : Nat × Nat)
    (hm : mc.2 ≤ N) (l : List ((Nat × Nat) × CellData)) : ∀ (st : WState) (evs : List TEv), 1 ≤ st.prevRowRepeat →
    (∀ q ∈ l, q ∈ s.data) → writeLoop s mc st l = .ok evs → AllWithin N s.data evs := by
  induction l with
  | nil => intro st evs _ _ h; cases h; exact .nil _ _
  | cons p l ih =>
    intro st evs hp hl h
    obtain ⟨⟨row, col⟩, d⟩ := p
    have hmem := hl _ List.mem_cons_self
    have hnext : (nextCell mc l).2 ≤ N := by
      cases l with
      | nil => exact hm
      | cons q l =>
        have hq := hl q (by simp)
        have := hs.cols q hq
        show q.1.2 ≤ N
        omega
    have hrep1 : 1 ≤ rowRepeatOf s row := (dataTag_ok s row (hok _ hmem)).2.1
    have hc := hs.cols _ hmem
    have hr1 := hs.rep _ hmem
    simp only at hc hr1
    rw [writeLoop] at h
    split at h
    · cases h
    · rename_i e1 g h1
      simp only at h
      split at h
      · cases h
      · rename_i spans h2
        split at h
        · cases h
        · rename_i e3 h3
          split at h
          · cases h
          · rename_i e5 h5
            cases h
            have w1 := within_rowChange N s.data s mc st row col e1 g h1 hs.pos hm (hs.rows _ hmem) hp (by omega)
              hs.rowRep
            have w2 := within_pieces N s.data (removeOutlived st.spans row col) row col d ⟨_, hmem, rfl⟩ hr1 (by omega)
            have w3 := within_fill N s.data _ _ _ _ _ _ _ h3 hm hnext
            have w5 := ih _ e5 hrep1 (fun q hq => hl q (List.mem_cons_of_mem _ hq)) h5
            refine (((w1.append w2).append w3).append ?_).append w5
            refine .ite ?_ (.nil _ _)
            unfold writeEndLastRow
            refine ((within_tag _ (by simp)).append (.ite (within_tag _ (by simp)) (.nil _ _))).append ?_
            intro e he
            rw [List.eq_of_mem_replicate he]
            trivial

theorem dedup_end (N : Nat) (m : ColHeaders) (hm : m.WF) (h : ∀ q ∈ m, q.1 + q.2.span ≤ N) :
    ∀ q ∈ m.dedup, q.1 + q.2.span ≤ N := by
  have key : ∀ (rest : List (Nat × ColHeader)) (cur : Nat × ColHeader), ColHeaders.WF (cur :: rest) →
      (∀ q ∈ cur :: rest, q.1 + q.2.span ≤ N) → ∀ q ∈ ColHeaders.dedupL cur rest, q.1 + q.2.span ≤ N := by
    intro rest
    induction rest with
    | nil => intro cur _ h; exact h
    | cons p rest ih =>
      intro cur hw h
      have hc := hw.head
      have hp := hw.tail.head
      have hcp := hc.2 p (by simp)
      have hb := h p (by simp)
      unfold ColHeaders.dedupL
      split
      · refine ih _ ?_ ?_
        · apply ColHeaders.WF.cons hw.tail.tail
          · simp only; omega
          · intro q hq; have := hp.2 q hq; simp only; omega
        · intro q hq
          cases hq with
          | head => simp only; omega
          | tail _ hq => exact h q (List.mem_cons_of_mem _ (List.mem_cons_of_mem _ hq))
      · intro q hq
        cases hq with
        | head => exact h cur (by simp)
        | tail _ hq => exact ih p hw.tail (fun x hx => h x (List.mem_cons_of_mem _ hx)) q hq
  cases m with
  | nil => intro q hq; cases hq
  | cons p m =>
    rw [ColHeaders.dedup_cons _ _ hm.1]
    exact key m p hm h

theorem prepare_end (N : Nat) (m : ColHeaders) (hm : m.WF) (h : ∀ q ∈ m, q.1 + q.2.span ≤ N) (gs : List Grouped)
    (hc : Option HeaderRange) : ∀ q ∈ prepareCols gs hc m, q.1 + q.2.span ≤ N := by
  unfold prepareCols
  have hd := ColHeaders.dedup_wf m hm
  rw [ColHeaders.splitAt_eq _ _ hd]
  intro q hq
  obtain ⟨p, hp, hq⟩ := List.mem_flatMap.mp hq
  have h1 := ((ColHeaders.piecesOf_spec (isBorder gs hc) p (hd.2.1 p hp)).1.mem).2 q hq
  have h2 := dedup_end N m hm h p hp
  omega

theorem within_cols (N : Nat) (data : Cells) (s : TSheet) (h : ∀ q ∈ s.colHeader, q.1 + q.2.span ≤ N) (maxCol : Nat)
    (fuel : Nat) : ∀ (c : Nat) (evs : List TEv), writeColLoop s maxCol fuel c = .ok evs → AllWithin N data evs := by
  induction fuel with
  | zero =>
    intro c evs he
    rw [writeColLoop] at he
    split at he
    · cases he; exact .nil _ _
    · cases he
  | succ fuel ih =>
    intro c evs he
    rw [writeColLoop] at he
    split at he
    · cases he; exact .nil _ _
    · split at he
      · cases he
      · split at he
        · cases he
        · rename_i e2 h2
          cases he
          refine AllWithin.append ?_ (ih _ _ h2)
          unfold writeColStep
          refine (((((within_colGroups N data _).append (.ite (within_tag _ (by simp)) (.nil _ _))).append
            (.cons ?_ (.nil _ _))).append (.ite (within_tag _ (by simp)) (.nil _ _))).append ?_)
          · intro n hn
            cases hg : s.colHeader.get? c with
            | none => simp only [hg] at hn; cases hn
            | some x =>
              simp only [hg] at hn
              have := h (c, x) (mem_of_get?_eq_some hg)
              exact repAttr_le N _ (by simp only at this; omega) n hn
          · intro e he
            obtain ⟨g, _, rfl⟩ := List.mem_map.mp he
            trivial

/-- All events of a sheet. -/
theorem within_sheet (N : Nat) (s : TSheet) (hs : Small N s) (hok : ∀ q ∈ s.data, RowOK s q.1.1)
    (hw : s.colHeader.WF) (evs : List TEv) (h : writeSheet s = .ok evs) : AllWithin N s.data evs := by
  unfold writeSheet writeTable at h
  split at h
  · cases h
  · rename_i e1 h1
    split at h
    · cases h
    · rename_i e2 h2
      cases h
      refine AllWithin.append (within_cols N s.data _ (prepare_end N s.colHeader hw hs.spans _ _) _ _ _ _ h1) ?_
      refine within_loop N { s with colHeader := prepareCols s.groupCols s.headerCols s.colHeader }
        ⟨hs.pos, hs.rows, hs.cols, hs.rep, hs.rowRep, prepare_end N s.colHeader hw hs.spans _ _⟩ hok _ ?_ s.data
        {} e2 (Nat.le_refl 1) (fun q hq => hq) h2
      refine used_le N s.data ?_ hs.pos
      intro q hq
      have := hs.cols q hq
      have := hs.rep q hq
      omega

end Verif.TableXml
