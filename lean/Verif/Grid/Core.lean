import Verif.Grid.Rowwise
import Verif.Header.Rows

/-!
# What the reader makes of the written rows

The reader state that matters for cells and row headers (`Core`), and its value after the events of
a written row.
-/

set_option autoImplicit false

namespace Verif

theorem OMap.insert_gt {K V : Type} [DecidableEq K] [Key K] {m : OMap K V} {k : K} {v : V}
    (h : ∀ p ∈ m, Key.lt p.1 k = true) : OMap.insert m k v = m ++ [(k, v)] := by
  induction m with
  | nil => rfl
  | cons p m ih =>
    obtain ⟨p1, p2⟩ := p
    have h1 : Key.lt p1 k = true := h (p1, p2) (by simp)
    unfold OMap.insert
    rw [if_neg (fun e => Key.ne_of_lt h1 e.symm), Key.not_lt_of_lt h1]
    rw [ih (fun q hq => h q (by simp [hq]))]
    rfl

/-! ### Facts about the grouping by rows -/

theorem rowsOf_flatten (cells : List ((Nat × Nat) × CellData)) :
    (rowsOf cells).flatMap (fun p => p.2.map (fun q => ((p.1, q.1), q.2))) = cells := by
  induction cells with
  | nil => rfl
  | cons p rest ih =>
    obtain ⟨⟨r, c⟩, d⟩ := p
    simp only [rowsOf]
    cases hr : rowsOf rest with
    | nil => rw [hr] at ih; simp at ih; simp [ih]
    | cons q more =>
      obtain ⟨r', cs⟩ := q
      rw [hr] at ih
      simp only
      by_cases e : r = r'
      · subst e
        rw [if_pos rfl, ← ih]; simp
      · rw [if_neg e, ← ih]; simp

/-- Rows in increasing order, no row empty, columns in increasing order. -/
def RowsSorted (rows : List (Nat × List (Nat × CellData))) : Prop :=
  rows.Pairwise (fun a b => a.1 < b.1)
  ∧ ∀ p ∈ rows, p.2 ≠ [] ∧ p.2.Pairwise (fun a b => a.1 < b.1)

theorem rowsOf_mem_key {cells : List ((Nat × Nat) × CellData)} {r : Nat}
    {cs : List (Nat × CellData)} (h : (r, cs) ∈ rowsOf cells) {q : Nat × CellData} (hq : q ∈ cs) :
    ((r, q.1), q.2) ∈ cells := by
  rw [← rowsOf_flatten cells]
  refine List.mem_flatMap.mpr ⟨(r, cs), h, List.mem_map.mpr ⟨q, hq, rfl⟩⟩

theorem rowsOf_sorted (cells : List ((Nat × Nat) × CellData)) (hs : OMap.Sorted cells) :
    RowsSorted (rowsOf cells) := by
  induction cells with
  | nil => exact ⟨List.Pairwise.nil, by simp [rowsOf]⟩
  | cons p rest ih =>
    obtain ⟨⟨r, c⟩, d⟩ := p
    obtain ⟨i1, i2⟩ := ih hs.tail
    simp only [rowsOf]
    cases hr : rowsOf rest with
    | nil => exact ⟨by simp, by simp⟩
    | cons q more =>
      obtain ⟨r', cs⟩ := q
      rw [hr] at i1 i2
      have hcs := i2 (r', cs) (by simp)
      have hlt : ∀ q' ∈ cs, r < r' ∨ (r = r' ∧ c < q'.1) := by
        intro q' hq'
        have := hs.head_lt ((r', q'.1), q'.2) (rowsOf_mem_key (hr ▸ (by simp)) hq')
        rwa [Key.lt_pair] at this
      simp only
      by_cases e : r = r'
      · subst e
        rw [if_pos rfl]
        refine ⟨?_, ?_⟩
        · rw [List.pairwise_cons] at i1 ⊢
          exact i1
        · intro p hp
          rcases List.mem_cons.mp hp with h | h
          · subst h
            refine ⟨by simp, ?_⟩
            rw [List.pairwise_cons]
            refine ⟨?_, hcs.2⟩
            intro q' hq'
            have := hlt q' hq'
            simp only at this ⊢
            omega
          · exact i2 p (by simp [h])
      · rw [if_neg e]
        obtain ⟨q0, hq0⟩ := List.exists_mem_of_ne_nil _ hcs.1
        have hrr : r < r' := by have := hlt q0 hq0; omega
        refine ⟨?_, ?_⟩
        · rw [List.pairwise_cons]
          refine ⟨?_, i1⟩
          intro p hp
          rcases List.mem_cons.mp hp with h | h
          · rw [h]; exact hrr
          · have := (List.pairwise_cons.mp i1).1 p h
            simp only at this ⊢; omega
        · intro p hp
          rcases List.mem_cons.mp hp with h | h
          · subst h; exact ⟨by simp, by simp⟩
          · exact i2 p h

/-! ### Runs of columns -/

/-- Consecutive non-empty runs `(column, length)` from column `c` to column `e`. -/
def RunOf : Nat → List (Nat × Nat) → Nat → Prop
  | c, [], e => c = e
  | c, (c', n) :: l, e => c' = c ∧ 1 ≤ n ∧ RunOf (c + n) l e

theorem RunOf.append {c m e : Nat} {l l' : List (Nat × Nat)} (h : RunOf c l m) (h' : RunOf m l' e) :
    RunOf c (l ++ l') e := by
  induction l generalizing c with
  | nil => simp only [RunOf] at h; subst h; exact h'
  | cons p l ih =>
    obtain ⟨c', n⟩ := p
    exact ⟨h.1, h.2.1, ih h.2.2⟩

theorem RunOf.le {c e : Nat} {l : List (Nat × Nat)} (h : RunOf c l e) : c ≤ e := by
  induction l generalizing c with
  | nil => simp only [RunOf] at h; omega
  | cons p l ih => obtain ⟨c', n⟩ := p; have := ih h.2.2; omega

theorem RunOf.mem {c e : Nat} {l : List (Nat × Nat)} (h : RunOf c l e) {p : Nat × Nat} (hp : p ∈ l) :
    c ≤ p.1 ∧ 1 ≤ p.2 ∧ p.1 + p.2 ≤ e := by
  induction l generalizing c with
  | nil => simp at hp
  | cons q l ih =>
    obtain ⟨c', n⟩ := q
    rcases List.mem_cons.mp hp with x | x
    · subst x
      have := RunOf.le h.2.2
      have := h.1; have := h.2.1
      simp only at *
      omega
    · have := ih h.2.2 x
      have := h.1; have := h.2.1
      omega

/-- Every column of the area lies in exactly the runs' union. -/
theorem RunOf.cover {c e : Nat} {l : List (Nat × Nat)} (h : RunOf c l e) (x : Nat) (h1 : c ≤ x)
    (h2 : x < e) : ∃ p ∈ l, p.1 ≤ x ∧ x < p.1 + p.2 := by
  induction l generalizing c with
  | nil => simp only [RunOf] at h; omega
  | cons q l ih =>
    obtain ⟨c', n⟩ := q
    by_cases hx : x < c + n
    · exact ⟨(c', n), by simp, by have := h.1; simp only; omega⟩
    · obtain ⟨p, hp, h'⟩ := ih h.2.2 (by omega)
      exact ⟨p, by simp [hp], h'⟩

theorem expand_run (l : List SplitCols) (c n : Nat) (f : Nat → Bool)
    (hp : ∀ p ∈ l, p.col ≤ p.colTo)
    (h : expand l = (List.range' c n).map (fun x => (x, f x))) :
    RunOf c (l.map (fun p => (p.col, p.repeat))) (c + n) := by
  induction l generalizing c n with
  | nil =>
    cases n with
    | zero => rfl
    | succ n => simp [expand, List.range'_succ] at h
  | cons p l ih =>
    have e1 : expand (p :: l)
        = (List.range' p.col p.repeat).map (fun c => (c, p.hidden)) ++ expand l := by
      simp [expand]
    rw [e1] at h
    have hle : p.repeat ≤ n := by
      have := congrArg List.length h
      simp at this; omega
    have hn : n = p.repeat + (n - p.repeat) := by omega
    rw [hn, ← List.range'_append_1, List.map_append] at h
    obtain ⟨h1, h2⟩ := List.append_inj h (by simp)
    have hrep : 1 ≤ p.repeat := by simp [SplitCols.repeat]
    have hc : p.col = c := by
      have : p.repeat = (p.repeat - 1) + 1 := by omega
      rw [this, List.range'_succ, List.range'_succ] at h1
      simp only [List.map_cons, List.cons.injEq, Prod.mk.injEq] at h1
      exact h1.1.1
    refine ⟨hc, hrep, ?_⟩
    have := ih (c + p.repeat) (n - p.repeat) (fun q hq => hp q (by simp [hq])) h2
    rwa [show c + p.repeat + (n - p.repeat) = c + n by omega] at this

theorem splitHidden_run (ranges : List CellRange) (row c n : Nat) (h : 1 ≤ n) :
    RunOf c ((splitHidden ranges row c n).map (fun p => (p.col, p.repeat))) (c + n) := by
  obtain ⟨h1, h2, _, _⟩ := C22_exact_partition ranges row c n h
  exact expand_run _ c n _ h2 h1

/-! ### The core of the reader -/

/-- The part of the reader state that cells and row headers depend on. -/
structure Core where
  row : Nat := 0
  col : Nat := 0
  rowRepeat : Nat := 1
  colData : Bool := false
  data : Cells := []
  rowHeader : RowHeaders := []

def RState.core (st : RState) : Core :=
  { row := st.row, col := st.col, rowRepeat := st.rowRepeat, colData := st.colData
    data := st.sheet.data, rowHeader := st.sheet.rowHeader }

def coreStep (o : ReadOpts) (cols : ColHeaders) (k : Core) : TEv → Option Core
  | .rowStart t =>
    let (m, rep) := readRowAttr k.rowHeader k.row t
    some { k with col := 0, rowRepeat := rep, rowHeader := m }
  | .rowEnd =>
    let m := if k.colData then RowHeaders.step k.rowHeader (.setRepeat k.row k.rowRepeat)
      else some k.rowHeader
    m.map (fun m => { k with rowHeader := m, row := k.row + k.rowRepeat, rowRepeat := 1
                             colData := false })
  | .cell _ r body =>
    let rep := r.getD 1
    let (data, have_) := readCell o cols k.data k.row k.col rep body
    some { k with data := data, col := k.col + rep, colData := k.colData || have_ }
  | _ => some k

def coreEvents (o : ReadOpts) (cols : ColHeaders) : Core → List TEv → Option Core
  | k, [] => some k
  | k, e :: evs => match coreStep o cols k e with
    | some k' => coreEvents o cols k' evs
    | none => none

theorem coreEvents_append (o : ReadOpts) (cols : ColHeaders) (k : Core) (a b : List TEv) :
    coreEvents o cols k (a ++ b) = (coreEvents o cols k a).bind (fun k' => coreEvents o cols k' b) := by
  induction a generalizing k with
  | nil => rfl
  | cons e a ih =>
    simp only [List.cons_append, coreEvents]
    cases coreStep o cols k e with
    | none => rfl
    | some k' => exact ih k'

/-- Events of the column section. -/
def TEv.isCol : TEv → Bool
  | .colGroupStart _ | .colGroupEnd | .colHeaderStart | .colHeaderEnd | .column _ => true
  | _ => false

theorem readStep_core (o : ReadOpts) (st st' : RState) (e : TEv) (he : e.isCol = false)
    (h : readStep o st e = some st') :
    coreStep o st.sheet.colHeader st.core e = some st'.core
    ∧ st'.sheet.colHeader = st.sheet.colHeader ∧ st'.sheet.groupCols = st.sheet.groupCols
    ∧ st'.sheet.headerCols = st.sheet.headerCols := by
  cases e with
  | colGroupStart d => simp [TEv.isCol] at he
  | colGroupEnd => simp [TEv.isCol] at he
  | colHeaderStart => simp [TEv.isCol] at he
  | colHeaderEnd => simp [TEv.isCol] at he
  | column t => simp [TEv.isCol] at he
  | groupStart d =>
    simp only [readStep, Option.some.injEq] at h
    subst h
    exact ⟨rfl, rfl, rfl, rfl⟩
  | groupEnd =>
    simp only [readStep] at h
    split at h
    · simp only [Option.some.injEq] at h; subst h; exact ⟨rfl, rfl, rfl, rfl⟩
    · split at h
      · simp at h
      · simp only [Option.some.injEq] at h
        subst h
        exact ⟨rfl, rfl, rfl, rfl⟩
  | headerStart =>
    simp only [readStep, Option.some.injEq] at h
    subst h
    exact ⟨rfl, rfl, rfl, rfl⟩
  | headerEnd =>
    simp only [readStep, Option.map_eq_some_iff] at h
    obtain ⟨hr, _, h⟩ := h
    subst h
    exact ⟨rfl, rfl, rfl, rfl⟩
  | rowStart t =>
    simp only [readStep, Option.some.injEq] at h
    subst h
    exact ⟨rfl, rfl, rfl, rfl⟩
  | rowEnd =>
    simp only [readStep, Option.map_eq_some_iff] at h
    obtain ⟨m, hm, h⟩ := h
    subst h
    refine ⟨?_, rfl, rfl, rfl⟩
    exact congrArg (Option.map (fun m => ({ st.core with
      rowHeader := m, row := st.row + st.rowRepeat, rowRepeat := 1, colData := false } : Core))) hm
  | cell cov r body =>
    simp only [readStep, Option.some.injEq] at h
    subst h
    exact ⟨rfl, rfl, rfl, rfl⟩

theorem readEvents_core (o : ReadOpts) (evs : List TEv) (he : ∀ e ∈ evs, e.isCol = false) :
    ∀ (st st' : RState), readEvents o st evs = some st' →
    coreEvents o st.sheet.colHeader st.core evs = some st'.core
    ∧ st'.sheet.colHeader = st.sheet.colHeader ∧ st'.sheet.groupCols = st.sheet.groupCols
    ∧ st'.sheet.headerCols = st.sheet.headerCols := by
  induction evs with
  | nil =>
    intro st st' h
    simp only [readEvents, Option.some.injEq] at h
    subst h
    exact ⟨rfl, rfl, rfl, rfl⟩
  | cons e evs ih =>
    intro st st' h
    simp only [readEvents] at h
    split at h
    · rename_i st1 h1
      obtain ⟨c1, c2, c3, c4⟩ := readStep_core o st st1 e (he e (by simp)) h1
      obtain ⟨d1, d2, d3, d4⟩ := ih (fun x hx => he x (by simp [hx])) st1 st' h
      refine ⟨?_, by rw [d2, c2], by rw [d3, c3], by rw [d4, c4]⟩
      simp only [coreEvents, c1]
      rw [← c2]
      exact d1
    · simp at h

theorem readEvents_append (o : ReadOpts) (st : RState) (a b : List TEv) :
    readEvents o st (a ++ b) = (readEvents o st a).bind (fun st' => readEvents o st' b) := by
  induction a generalizing st with
  | nil => rfl
  | cons e a ih =>
    simp only [List.cons_append, readEvents]
    cases readStep o st e with
    | none => rfl
    | some k' => exact ih k'

/-! ### Cells of a row -/

/-- What one run of a cell leaves in the store: nothing if it has nothing to say. -/
def rawRun (o : ReadOpts) (cols : ColHeaders) (row : Nat) (d : CellData) (p : Nat × Nat) :
    Option ((Nat × Nat) × CellData) :=
  match o.dec d with
  | none => none
  | some x =>
    if ignoreCell o (cols.colCellstyle p.1) x then none
    else some ((row, p.1), { x with «repeat» := p.2 })

theorem repAttr_getD (n : Nat) (h : 1 ≤ n) : (repAttr n).getD 1 = n := by
  unfold repAttr
  split
  · rfl
  · simp; omega

theorem core_cell (o : ReadOpts) (cols : ColHeaders) (k : Core) (cov : Bool) (c n : Nat)
    (d : CellData) (hc : k.col = c) (hn : 1 ≤ n)
    (hlt : ∀ q ∈ k.data, q.1.1 < k.row ∨ (q.1.1 = k.row ∧ q.1.2 < c)) :
    coreStep o cols k (.cell cov (repAttr n) (some d))
      = some { k with col := c + n
                      data := k.data ++ (rawRun o cols k.row d (c, n)).toList
                      colData := k.colData || (rawRun o cols k.row d (c, n)).isSome } := by
  subst hc
  simp only [coreStep, readCell, repAttr_getD n hn, Option.bind_some, rawRun]
  cases o.dec d with
  | none => simp
  | some x =>
    simp only
    cases hi : ignoreCell o (cols.colCellstyle k.col) x with
    | true => simp
    | false =>
      simp only [Bool.false_eq_true, if_false, Option.toList_some, Option.isSome_some]
      rw [OMap.insert_gt]
      intro p hp
      rw [Key.lt_pair]
      exact hlt p hp

theorem core_empty (o : ReadOpts) (cols : ColHeaders) (k : Core) (cov : Bool) (n : Nat) (hn : 1 ≤ n) :
    coreStep o cols k (.cell cov (repAttr n) none) = some { k with col := k.col + n } := by
  simp [coreStep, readCell, repAttr_getD n hn]

theorem core_empty' (o : ReadOpts) (cols : ColHeaders) (k : Core) (cov : Bool) (n : Nat) :
    coreStep o cols k (.cell cov (some n) none) = some { k with col := k.col + n } := by
  simp [coreStep, readCell]

theorem rawRun_key {o : ReadOpts} {cols : ColHeaders} {row : Nat} {d : CellData} {p : Nat × Nat}
    {q : (Nat × Nat) × CellData} (h : rawRun o cols row d p = some q) : q.1 = (row, p.1) := by
  unfold rawRun at h
  split at h
  · simp at h
  · split at h
    · simp at h
    · simp only [Option.some.injEq] at h; rw [← h]

/-- The pieces of one cell. -/
theorem core_pieces (o : ReadOpts) (cols : ColHeaders) (d : CellData) (ps : List SplitCols) :
    ∀ (k : Core) (c e : Nat), RunOf c (ps.map (fun p => (p.col, p.repeat))) e → k.col = c →
    (∀ q ∈ k.data, q.1.1 < k.row ∨ (q.1.1 = k.row ∧ q.1.2 < c)) →
    coreEvents o cols k (writeCellPieces d ps)
      = some { k with
          col := e
          data := k.data ++ (ps.map (fun p => (p.col, p.repeat))).filterMap (rawRun o cols k.row d)
          colData := k.colData
            || !((ps.map (fun p => (p.col, p.repeat))).filterMap (rawRun o cols k.row d)).isEmpty } := by
  induction ps with
  | nil =>
    intro k c e h hc _
    simp only [RunOf, List.map_nil] at h
    subst h; subst hc
    simp [writeCellPieces, coreEvents]
  | cons p ps ih =>
    intro k c e h hc hlt
    simp only [List.map_cons, RunOf] at h
    obtain ⟨h1, h2, h3⟩ := h
    rw [show writeCellPieces d (p :: ps)
      = .cell p.hidden (repAttr p.repeat) (some d) :: writeCellPieces d ps from rfl]
    simp only [coreEvents]
    rw [core_cell o cols k p.hidden c p.repeat d hc h2 hlt]
    simp only
    rw [ih _ (c + p.repeat) e h3 rfl (by
      intro q hq
      simp only at hq ⊢
      rcases List.mem_append.mp hq with x | x
      · have := hlt q x; omega
      · rw [Option.mem_toList] at x
        have := rawRun_key x
        rw [this]
        exact Or.inr ⟨rfl, by show c < c + p.repeat; omega⟩)]
    simp only [List.map_cons, h1, List.filterMap_cons]
    cases hr : rawRun o cols k.row d (c, p.repeat) with
    | none => simp
    | some q => simp

theorem core_fill (o : ReadOpts) (cols : ColHeaders) (ps : List SplitCols) :
    ∀ (k : Core) (c e : Nat), RunOf c (ps.map (fun p => (p.col, p.repeat))) e → k.col = c →
    coreEvents o cols k (writeEmptyCells ps) = some { k with col := e } := by
  induction ps with
  | nil =>
    intro k c e h hc
    simp only [RunOf, List.map_nil] at h
    subst h; subst hc
    simp [writeEmptyCells, coreEvents]
  | cons p ps ih =>
    intro k c e h hc
    simp only [List.map_cons, RunOf] at h
    obtain ⟨h1, h2, h3⟩ := h
    rw [show writeEmptyCells (p :: ps)
      = .cell p.hidden (repAttr p.repeat) none :: writeEmptyCells ps from rfl]
    simp only [coreEvents]
    rw [core_empty o cols k p.hidden p.repeat h2]
    simp only
    rw [ih _ (c + p.repeat) e h3 (by simp [hc])]

/-- `plan` describes how the cells of a row are cut into runs. -/
def PlanOf (cs : List (Nat × CellData)) (plan : List ((Nat × CellData) × List (Nat × Nat))) : Prop :=
  plan.map (·.1) = cs ∧ ∀ p ∈ plan, RunOf p.1.1 p.2 (p.1.1 + p.1.2.repeat)

/-- The cells stored for a row. -/
def rawRow (o : ReadOpts) (cols : ColHeaders) (row : Nat)
    (plan : List ((Nat × CellData) × List (Nat × Nat))) : List ((Nat × Nat) × CellData) :=
  plan.flatMap (fun p => p.2.filterMap (rawRun o cols row p.1.2))

/-- No cell of the row runs into the next one. -/
def NoOverlap : List (Nat × CellData) → Prop
  | p :: q :: l => p.1 + p.2.repeat ≤ q.1 ∧ NoOverlap (q :: l)
  | _ => True

theorem writeFill_end (spans : List CellRange) (mx : Nat × Nat) (row col rep : Nat) (n : Nat × Nat)
    (h : row < n.1) : writeFill spans mx row col rep n
      = if 0 < mx.2 - col - rep then
          .ok (writeEmptyCells (splitHidden spans row (col + rep) (mx.2 - col - rep)))
        else .ok [] := by
  unfold writeFill
  rw [if_pos (show 0 < n.1 - row by omega)]

theorem writeFill_mid (spans : List CellRange) (mx : Nat × Nat) (row col rep c' : Nat)
    (hc : col < c') : writeFill spans mx row col rep (row, c')
      = if c' - col < rep then .error .overlapCol
        else if 0 < c' - col - rep then
          .ok (writeEmptyCells (splitHidden spans row (col + rep) (c' - col - rep)))
        else .ok [] := by
  unfold writeFill
  simp only [Nat.sub_self, Nat.lt_irrefl, if_false]
  rw [if_pos (show 0 < c' - col by omega)]

/-- Reading back the cells of one row. -/
theorem core_cells (o : ReadOpts) (cols : ColHeaders) (mx : Nat × Nat) (row : Nat)
    (cs : List (Nat × CellData)) :
    ∀ (spans spans' : List CellRange) (evs : List TEv),
    (∀ p ∈ cs, 1 ≤ p.2.repeat) → cs.Pairwise (fun a b => a.1 < b.1) →
    writeCells mx row spans cs = .ok (evs, spans') →
    NoOverlap cs ∧
    ∃ plan, PlanOf cs plan ∧ ∀ (k : Core), k.row = row → (cs ≠ [] → k.col = firstCol cs) →
      (cs ≠ [] → ∀ q ∈ k.data, q.1.1 < row ∨ (q.1.1 = row ∧ q.1.2 < firstCol cs)) →
      ∃ col, coreEvents o cols k evs
        = some { k with col := col, data := k.data ++ rawRow o cols row plan
                        colData := k.colData || !(rawRow o cols row plan).isEmpty } := by
  induction cs with
  | nil =>
    intro spans spans' evs _ _ h
    simp only [writeCells, Except.ok.injEq, Prod.mk.injEq] at h
    obtain ⟨h1, h2⟩ := h
    subst h1
    refine ⟨trivial, [], ⟨rfl, by simp⟩, ?_⟩
    intro k _ _ _
    exact ⟨k.col, by simp [coreEvents, rawRow]⟩
  | cons p rest ih =>
    obtain ⟨c, d⟩ := p
    intro spans spans' evs hrep hpw h
    have hd : 1 ≤ d.repeat := hrep (c, d) (by simp)
    simp only [writeCells] at h
    split at h
    · simp at h
    rename_i sp hps
    split at h
    · simp at h
    rename_i e3 hfill
    split at h
    · simp at h
    rename_i e5 sp5 hrest
    simp only [Except.ok.injEq, Prod.mk.injEq] at h
    obtain ⟨h1, h2⟩ := h
    obtain ⟨hno, plan, hplan, hk⟩ := ih sp sp5 e5 (fun q hq => hrep q (by simp [hq]))
      (List.pairwise_cons.mp hpw).2 hrest
    have hrun := splitHidden_run (removeOutlived spans row c) row c d.repeat hd
    -- the fill
    have hfill' : ∃ e, (rest ≠ [] → e = firstCol rest ∧ c + d.repeat ≤ firstCol rest) ∧
        ∀ k : Core, k.col = c + d.repeat → coreEvents o cols k e3 = some { k with col := e } := by
      cases hrest' : rest with
      | nil =>
        subst hrest'
        rw [writeFill_end _ _ _ _ _ _ (by simp [nextInRow])] at hfill
        split at hfill
        · rename_i hs
          simp only [Except.ok.injEq] at hfill
          refine ⟨c + d.repeat + (mx.2 - c - d.repeat), by simp, ?_⟩
          intro k hk
          rw [← hfill]
          exact core_fill o cols _ k _ _ (splitHidden_run sp row (c + d.repeat) _ hs) hk
        · simp only [Except.ok.injEq] at hfill
          refine ⟨c + d.repeat, by simp, ?_⟩
          intro k hk
          rw [← hfill, ← hk]
          rfl
      | cons q rest' =>
        obtain ⟨c', d'⟩ := q
        have hcc : c < c' := (List.pairwise_cons.mp hpw).1 (c', d') (by simp [hrest'])
        subst hrest'
        rw [show nextInRow row ((c', d') :: rest') = (row, c') from rfl,
          writeFill_mid sp mx row c d.repeat c' hcc] at hfill
        split at hfill
        · simp at hfill
        rename_i hov
        refine ⟨c', fun _ => ⟨rfl, by simp only [firstCol]; omega⟩, ?_⟩
        intro k hk
        split at hfill
        · rename_i hs
          simp only [Except.ok.injEq] at hfill
          rw [← hfill]
          have := core_fill o cols _ k _ _ (splitHidden_run sp row (c + d.repeat) _ hs) hk
          rw [this]
          congr 2
          omega
        · simp only [Except.ok.injEq] at hfill
          have : c' = c + d.repeat := by omega
          rw [← hfill, this, ← hk]
          rfl
    obtain ⟨ec, hec, hfe⟩ := hfill'
    refine ⟨?_, ((c, d), (splitHidden (removeOutlived spans row c) row c d.repeat).map
      (fun p => (p.col, p.repeat))) :: plan, ⟨?_, ?_⟩, ?_⟩
    · cases rest with
      | nil => trivial
      | cons q rest' => exact ⟨(hec (by simp)).2, hno⟩
    · simp [hplan.1]
    · intro p hp
      rcases List.mem_cons.mp hp with x | x
      · rw [x]; exact hrun
      · exact hplan.2 p x
    · intro k hkr hkc hklt
      have hkc' : k.col = c := hkc (by simp)
      rw [← h1, List.append_assoc, coreEvents_append]
      rw [core_pieces o cols d _ k c _ hrun hkc' (by rw [hkr]; exact hklt (by simp))]
      simp only [Option.bind_some]
      rw [coreEvents_append, hfe _ rfl]
      simp only [Option.bind_some]
      obtain ⟨col, hcol⟩ := hk { k with
          col := ec
          data := k.data ++ ((splitHidden (removeOutlived spans row c) row c d.repeat).map
            (fun p => (p.col, p.repeat))).filterMap (rawRun o cols k.row d)
          colData := k.colData
            || !(((splitHidden (removeOutlived spans row c) row c d.repeat).map
              (fun p => (p.col, p.repeat))).filterMap (rawRun o cols k.row d)).isEmpty }
          hkr (fun hne => (hec hne).1) (by
        intro hne q hq
        simp only at hq
        have h2 := (hec hne).2
        rcases List.mem_append.mp hq with x | x
        · have := hklt (by simp) q x
          simp only [firstCol] at this
          omega
        · obtain ⟨y, hy, hy'⟩ := List.mem_filterMap.mp x
          have h3 := rawRun_key hy'
          have h4 := hrun.mem hy
          rw [h3, hkr]
          exact Or.inr ⟨rfl, by show y.1 < _; omega⟩)
      refine ⟨col, ?_⟩
      rw [hcol]
      simp only [rawRow, List.flatMap_cons, hkr, List.append_assoc]
      congr 2
      cases ((splitHidden (removeOutlived spans row c) row c d.repeat).map
              (fun p => (p.col, p.repeat))).filterMap (rawRun o cols row d) <;> simp

end Verif
