import Verif.Grid.Model
import Verif.Hidden.Props

/-!
# The write loop, row by row

`write_sheet` runs over the cells and looks at the previous and the next one to find out where rows
begin and end. Here the same events are produced row by row (`writeRowList`), and the two are shown
to be equal.
-/

set_option autoImplicit false

namespace Verif

/-- The cells grouped by row. -/
def rowsOf : List ((Nat × Nat) × CellData) → List (Nat × List (Nat × CellData))
  | [] => []
  | ((r, c), d) :: rest =>
    match rowsOf rest with
    | (r', cs) :: more =>
      if r = r' then (r, (c, d) :: cs) :: more else (r, [(c, d)]) :: (r', cs) :: more
    | [] => [(r, [(c, d)])]

/-- Position of the next cell of the row, or one in the next row. -/
def nextInRow (row : Nat) : List (Nat × CellData) → Nat × Nat
  | (c, _) :: _ => (row, c)
  | [] => (row + 1, 0)

/-- The cells of one row. -/
def writeCells (maxCell : Nat × Nat) (row : Nat) :
    List CellRange → List (Nat × CellData) → Except WErr (List TEv × List CellRange)
  | spans, [] => .ok ([], spans)
  | spans, (c, d) :: rest =>
    let spans := removeOutlived spans row c
    let pieces := splitHidden spans row c d.repeat
    match pushSpan spans pieces row c d with
    | .error e => .error e
    | .ok spans =>
      match writeFill spans maxCell row c d.repeat (nextInRow row rest) with
      | .error e => .error e
      | .ok e3 =>
        match writeCells maxCell row spans rest with
        | .error e => .error e
        | .ok (e5, spans) => .ok (writeCellPieces d pieces ++ e3 ++ e5, spans)

/-- First column of a row. -/
def firstCol (cs : List (Nat × CellData)) : Nat :=
  match cs with
  | (c, _) :: _ => c
  | [] => 0

/-- The loop over the rows. -/
def writeRowList (s : TSheet) (maxCell : Nat × Nat) :
    WState → List (Nat × List (Nat × CellData)) → Except WErr (List TEv)
  | _, [] => .ok []
  | st, (row, cs) :: rest =>
    match writeRowChange s maxCell st row (firstCol cs) with
    | .error e => .error e
    | .ok (e1, g) =>
      match writeCells maxCell row st.spans cs with
      | .error e => .error e
      | .ok (e2, spans) =>
        let e4 := if rest.isEmpty then writeEndLastRow g else []
        match writeRowList s maxCell ⟨false, row, rowRepeatOf s row, 0, g, spans⟩ rest with
        | .error e => .error e
        | .ok e5 => .ok (e1 ++ e2 ++ e4 ++ e5)

/-- What follows once the row is open. -/
def contRow (s : TSheet) (maxCell : Nat × Nat) (g : GState) (row : Nat) (spans : List CellRange)
    (cs : List (Nat × CellData)) (rest : List (Nat × List (Nat × CellData))) :
    Except WErr (List TEv) :=
  match writeCells maxCell row spans cs with
  | .error e => .error e
  | .ok (e2, spans) =>
    let e4 := if rest.isEmpty then writeEndLastRow g else []
    match writeRowList s maxCell ⟨false, row, rowRepeatOf s row, 0, g, spans⟩ rest with
    | .error e => .error e
    | .ok e5 => .ok (e2 ++ e4 ++ e5)

theorem rowsOf_isEmpty (cells : List ((Nat × Nat) × CellData)) :
    (rowsOf cells).isEmpty = cells.isEmpty := by
  cases cells with
  | nil => rfl
  | cons p rest =>
    obtain ⟨⟨r, c⟩, d⟩ := p
    simp only [rowsOf]
    split
    · split <;> rfl
    · rfl

theorem rowsOf_head (r c : Nat) (d : CellData) (rest : List ((Nat × Nat) × CellData)) :
    ∃ cs more, rowsOf (((r, c), d) :: rest) = (r, (c, d) :: cs) :: more := by
  simp only [rowsOf]
  split
  · split
    · exact ⟨_, _, rfl⟩
    · exact ⟨_, _, rfl⟩
  · exact ⟨_, _, rfl⟩

/-- The previous column only matters inside a row. -/
theorem writeRowChange_prevCol (s : TSheet) (mx : Nat × Nat) (row col : Nat) (f : Bool)
    (pr prr pc : Nat) (g : GState) (sp : List CellRange) (h : pr < row) :
    writeRowChange s mx ⟨f, pr, prr, pc, g, sp⟩ row col
      = writeRowChange s mx ⟨f, pr, prr, 0, g, []⟩ row col := by
  have hb : 0 < row - pr := by omega
  unfold writeRowChange
  simp only [hb, if_true]

theorem writeRowChange_spans (s : TSheet) (mx : Nat × Nat) (row col : Nat) (st : WState)
    (sp : List CellRange) :
    writeRowChange s mx { st with spans := sp } row col = writeRowChange s mx st row col := rfl

theorem writeRowChange_same (s : TSheet) (mx : Nat × Nat) (row col : Nat) (st : WState)
    (hf : st.first = false) (hr : st.prevRow = row) :
    writeRowChange s mx st row col = .ok ([], st.g) := by
  unfold writeRowChange
  simp [hf, hr]

/-- A fresh row list does not depend on the previous column. -/
theorem writeRowList_prevCol (s : TSheet) (mx : Nat × Nat)
    (rows : List (Nat × List (Nat × CellData))) (pr prr pc : Nat) (g : GState)
    (sp : List CellRange) (h : ∀ r cs more, rows = (r, cs) :: more → pr < r) :
    writeRowList s mx ⟨false, pr, prr, pc, g, sp⟩ rows
      = writeRowList s mx ⟨false, pr, prr, 0, g, sp⟩ rows := by
  cases rows with
  | nil => rfl
  | cons p rest =>
    obtain ⟨r, cs⟩ := p
    have := h r cs rest rfl
    simp only [writeRowList]
    rw [writeRowChange_prevCol s mx r _ false pr prr pc g sp this,
      writeRowChange_prevCol s mx r _ false pr prr 0 g sp this]

theorem writeFill_next (spans : List CellRange) (mx : Nat × Nat) (row col rep : Nat)
    (n n' : Nat × Nat) (h : row < n.1) (h' : row < n'.1) :
    writeFill spans mx row col rep n = writeFill spans mx row col rep n' := by
  have e : 0 < n.1 - row := by omega
  have e' : 0 < n'.1 - row := by omega
  unfold writeFill
  rw [if_pos e, if_pos e']

/-- The tail of the loop after one cell, in terms of the rows. -/
theorem writeLoop_rows (s : TSheet) (mx : Nat × Nat) :
    ∀ (cells : List ((Nat × Nat) × CellData)), OMap.Sorted cells → (∀ p ∈ cells, p.1.1 < mx.1) →
    (∀ st : WState, (∀ p ∈ cells, st.first = true ∨ st.prevRow < p.1.1) →
      writeLoop s mx st cells = writeRowList s mx st (rowsOf cells))
    ∧ (∀ (st : WState) (r : Nat) (cs : List (Nat × CellData))
        (more : List (Nat × List (Nat × CellData))),
      rowsOf cells = (r, cs) :: more → st.first = false → st.prevRow = r →
      writeLoop s mx st cells = contRow s mx st.g r st.spans cs more) := by
  intro cells
  induction cells with
  | nil =>
    intro _ _
    refine ⟨fun _ _ => rfl, ?_⟩
    intro st r cs more h
    simp [rowsOf] at h
  | cons p rest ih =>
    obtain ⟨⟨r, c⟩, d⟩ := p
    intro hs hmx
    obtain ⟨ihA, ihB⟩ := ih hs.tail (fun q hq => hmx q (by simp [hq]))
    have hr : r < mx.1 := hmx ((r, c), d) (by simp)
    -- the part after the row change
    have key : ∀ (g : GState) (spans : List CellRange) (cs : List (Nat × CellData))
        (more : List (Nat × List (Nat × CellData))),
        rowsOf (((r, c), d) :: rest) = (r, cs) :: more →
        ∀ e1 : List TEv,
        (match pushSpan (removeOutlived spans r c)
            (splitHidden (removeOutlived spans r c) r c d.repeat) r c d with
          | .error e => .error e
          | .ok spans' =>
            match writeFill spans' mx r c d.repeat (nextCell mx rest) with
            | .error e => .error e
            | .ok e3 =>
              match writeLoop s mx ⟨false, r, rowRepeatOf s r, c, g, spans'⟩ rest with
              | .error e => .error e
              | .ok e5 => .ok (e1 ++ writeCellPieces d
                  (splitHidden (removeOutlived spans r c) r c d.repeat) ++ e3
                  ++ (if rest.isEmpty then writeEndLastRow g else []) ++ e5) : Except WErr (List TEv))
        = (match contRow s mx g r spans cs more with
          | .error e => .error e
          | .ok e => .ok (e1 ++ e)) := by
      intro g spans cs more hrows e1
      have hcontc : ∀ (cs' : List (Nat × CellData)), cs = (c, d) :: cs' →
          contRow s mx g r spans cs more =
          (match pushSpan (removeOutlived spans r c)
            (splitHidden (removeOutlived spans r c) r c d.repeat) r c d with
          | .error e => .error e
          | .ok spans' =>
            match writeFill spans' mx r c d.repeat (nextInRow r cs') with
            | .error e => .error e
            | .ok e3 =>
              match contRow s mx g r spans' cs' more with
              | .error e => .error e
              | .ok e5 => .ok (writeCellPieces d
                  (splitHidden (removeOutlived spans r c) r c d.repeat) ++ e3 ++ e5)) := by
        intro cs' hcs
        subst hcs
        simp only [contRow, writeCells]
        cases pushSpan (removeOutlived spans r c)
            (splitHidden (removeOutlived spans r c) r c d.repeat) r c d with
        | error e => rfl
        | ok spans' =>
          simp only
          cases writeFill spans' mx r c d.repeat (nextInRow r cs') with
          | error e => rfl
          | ok e3 =>
            simp only
            cases writeCells mx r spans' cs' with
            | error e => rfl
            | ok v =>
              obtain ⟨e5, sp⟩ := v
              simp only
              cases writeRowList s mx ⟨false, r, rowRepeatOf s r, 0, g, sp⟩ more <;> simp
      cases hrest : rest with
      | nil =>
        subst hrest
        simp only [rowsOf, List.cons.injEq, Prod.mk.injEq, true_and] at hrows
        obtain ⟨h1, h2⟩ := hrows
        subst h2
        rw [hcontc [] h1.symm]
        cases pushSpan (removeOutlived spans r c)
            (splitHidden (removeOutlived spans r c) r c d.repeat) r c d with
        | error e => rfl
        | ok spans' =>
          simp only [nextCell, nextInRow]
          rw [writeFill_next spans' mx r c d.repeat mx (r + 1, 0) hr (by simp)]
          cases writeFill spans' mx r c d.repeat (r + 1, 0) with
          | error e => rfl
          | ok e3 => simp [contRow, writeCells, writeRowList, writeLoop]
      | cons q rest' =>
        obtain ⟨⟨r', c'⟩, d'⟩ := q
        obtain ⟨cs1, more1, hr1⟩ := rowsOf_head r' c' d' rest'
        have hlt : r < r' ∨ (r = r' ∧ c < c') := by
          have := hs.head_lt ((r', c'), d') (by simp [hrest])
          rwa [Key.lt_pair] at this
        rw [hrest, rowsOf, hr1] at hrows
        simp only at hrows
        by_cases he : r = r'
        · rw [if_pos he] at hrows
          simp only [List.cons.injEq, Prod.mk.injEq, true_and] at hrows
          obtain ⟨h1, h2⟩ := hrows
          rw [hcontc _ h1.symm]
          cases hps : pushSpan (removeOutlived spans r c)
            (splitHidden (removeOutlived spans r c) r c d.repeat) r c d with
          | error e => rfl
          | ok spans' =>
            simp only [he, nextCell, nextInRow]
            cases writeFill spans' mx r' c d.repeat (r', c') with
            | error e => rfl
            | ok e3 =>
              have hB := ihB ⟨false, r, rowRepeatOf s r, c, g, spans'⟩ r' ((c', d') :: cs1) more1
                (by rw [hrest]; exact hr1) rfl he
              rw [hrest] at hB
              simp only [he] at hB ⊢
              rw [hB, ← h2]
              cases contRow s mx g r' spans' ((c', d') :: cs1) more1 <;> simp
        · rw [if_neg he] at hrows
          simp only [List.cons.injEq, Prod.mk.injEq, true_and] at hrows
          obtain ⟨h1, h2⟩ := hrows
          have hlt' : r < r' := by omega
          rw [hcontc [] h1.symm]
          cases hps : pushSpan (removeOutlived spans r c)
            (splitHidden (removeOutlived spans r c) r c d.repeat) r c d with
          | error e => rfl
          | ok spans' =>
            simp only [nextCell, nextInRow]
            rw [writeFill_next spans' mx r c d.repeat (r', c') (r + 1, 0) hlt' (by simp)]
            cases writeFill spans' mx r c d.repeat (r + 1, 0) with
            | error e => rfl
            | ok e3 =>
              have hA := ihA ⟨false, r, rowRepeatOf s r, c, g, spans'⟩ (by
                intro q hq
                right
                rw [hrest] at hq
                rcases List.mem_cons.mp hq with e | e
                · rw [e]; exact hlt'
                · have h2 := (hrest ▸ hs.tail).head_lt q e
                  rw [Key.lt_pair] at h2
                  simp only at h2 ⊢
                  omega)
              rw [hrest, hr1] at hA
              rw [hA, writeRowList_prevCol s mx _ _ _ _ _ _ (by
                intro r2 cs2 m2 h2
                simp only [List.cons.injEq, Prod.mk.injEq] at h2
                omega)]
              subst h2
              simp only [contRow, writeCells]
              cases writeRowList s mx ⟨false, r, rowRepeatOf s r, 0, g, spans'⟩
                ((r', (c', d') :: cs1) :: more1) <;> simp
    refine ⟨?_, ?_⟩
    · intro st hst
      obtain ⟨cs, more, hrows⟩ := rowsOf_head r c d rest
      rw [hrows]
      simp only [writeLoop, writeRowList, firstCol]
      cases hch : writeRowChange s mx st r c with
      | error e => rfl
      | ok v =>
        obtain ⟨e1, g⟩ := v
        simp only
        refine (key g st.spans _ more hrows e1).trans ?_
        simp only [contRow]
        cases writeCells mx r st.spans ((c, d) :: cs) with
        | error e => rfl
        | ok v =>
          obtain ⟨e2, sp⟩ := v
          simp only
          cases writeRowList s mx ⟨false, r, rowRepeatOf s r, 0, g, sp⟩ more <;> simp
    · intro st r1 cs more hrows hf hr1
      obtain ⟨cs', more', hrows'⟩ := rowsOf_head r c d rest
      have : r1 = r := by
        rw [hrows'] at hrows
        simp only [List.cons.injEq, Prod.mk.injEq] at hrows
        exact hrows.1.1.symm
      subst this
      simp only [writeLoop]
      rw [writeRowChange_same s mx r1 c st hf hr1]
      simp only
      refine (key st.g st.spans cs more hrows []).trans ?_
      cases contRow s mx st.g r1 st.spans cs more <;> simp

end Verif
