import Verif.Grid.Again

/-!
# C103: tables of other programs

Which cells a sheet has after the table of any file was read, in terms of the rows and cells that the
file has, whoever wrote it.
-/

set_option autoImplicit false

namespace Verif

open OMap

/-! ### Specification -/

/-- How many columns a cell element stands for. -/
def FileCell.count (c : FileCell) : Nat := c.repeated.getD 1

/-- How many rows a row element stands for. -/
def FileRow.count (r : FileRow) : Nat := r.tag.repeated.getD 1

/-- The element that stands for position `n` of a list in which each element stands for several. -/
def coverOf {α : Type} (count : α → Nat) : List α → Nat → Option α
  | [], _ => none
  | x :: xs, n => if n < count x then some x else coverOf count xs (n - count x)

/-- How many columns a column element stands for. -/
def ColTag.count (t : ColTag) : Nat := t.repeated.getD 1

/-- The column elements among the tags. -/
def columnsOf (evs : List TEv) : List ColTag := evs.filterMap fun | .column t => some t | _ => none

/-- The default style that the file has for the cells of a column. -/
def FileTable.columnStyle (t : FileTable) (c : Nat) : Option String :=
  (coverOf ColTag.count (columnsOf t.cols) c).bind (·.cellstyle)

/-- What the file says about the cell in a row and column. -/
def FileTable.cellAt (t : FileTable) (r c : Nat) : Option CellData :=
  (coverOf FileRow.count t.rows r).bind fun row => (coverOf FileCell.count row.cells c).bind (·.body)

/-! ### Positions -/

/-- The elements with their first positions. -/
def starts {α : Type} (count : α → Nat) : Nat → List α → List (Nat × α)
  | _, [] => []
  | n, x :: xs => (n, x) :: starts count (n + count x) xs

theorem starts_ge {α : Type} (count : α → Nat) (l : List α) : ∀ n m x, (m, x) ∈ starts count n l → n ≤ m ∧ x ∈ l := by
  induction l with
  | nil => intro n m x h; cases h
  | cons y l ih =>
    intro n m x h
    rcases List.mem_cons.1 h with h | h
    · injection h with h1 h2
      subst h1; subst h2
      exact ⟨Nat.le_refl _, List.mem_cons_self⟩
    · obtain ⟨h1, h2⟩ := ih _ m x h
      exact ⟨by omega, List.mem_cons_of_mem _ h2⟩

/-- Elements do not overlap. -/
theorem starts_apart {α : Type} (count : α → Nat) (l : List α) : ∀ n m x m' x', (m, x) ∈ starts count n l →
    (m', x') ∈ starts count n l → (m < m' → m + count x ≤ m') := by
  induction l with
  | nil => intro n m x m' x' h; cases h
  | cons y l ih =>
    intro n m x m' x' h h' hlt
    rcases List.mem_cons.1 h with h | h
    · injection h with h1 h2
      subst h1; subst h2
      rcases List.mem_cons.1 h' with h' | h'
      · injection h' with h1 h2; omega
      · exact (starts_ge count l _ _ _ h').1
    · have hg := (starts_ge count l _ _ _ h).1
      rcases List.mem_cons.1 h' with h' | h'
      · injection h' with h1 h2; omega
      · exact ih _ _ _ _ _ h h' hlt

theorem starts_same {α : Type} (count : α → Nat) (l : List α) (hc : ∀ x ∈ l, 1 ≤ count x) : ∀ n m x x',
    (m, x) ∈ starts count n l → (m, x') ∈ starts count n l → x = x' := by
  induction l with
  | nil => intro n m x x' h; cases h
  | cons y l ih =>
    intro n m x x' h h'
    have hy := hc y List.mem_cons_self
    rcases List.mem_cons.1 h with h | h
    · injection h with h1 h2
      subst h1; subst h2
      rcases List.mem_cons.1 h' with h' | h'
      · injection h' with h1 h2; exact h2.symm
      · have := (starts_ge count l _ _ _ h').1; omega
    · rcases List.mem_cons.1 h' with h' | h'
      · injection h' with h1 h2
        have := (starts_ge count l _ _ _ h).1; omega
      · exact ih (fun x hx => hc x (List.mem_cons_of_mem _ hx)) _ _ _ _ h h'

/-- The element at a position. -/
theorem coverOf_iff {α : Type} (count : α → Nat) (l : List α) : ∀ (n p : Nat) (x : α),
    coverOf count l p = some x ↔ ∃ m, (m, x) ∈ starts count n l ∧ m ≤ n + p ∧ n + p < m + count x := by
  induction l with
  | nil => intro n p x; simp [coverOf, starts]
  | cons y l ih =>
    intro n p x
    rw [coverOf]
    split
    · rename_i hlt
      constructor
      · intro h
        injection h with h
        subst h
        exact ⟨n, List.mem_cons_self, by omega, by omega⟩
      · rintro ⟨m, hm, h1, h2⟩
        rcases List.mem_cons.1 hm with hm | hm
        · injection hm with _ e; rw [e]
        · have := (starts_ge count l _ _ _ hm).1; omega
    · rename_i hge
      rw [ih (n + count y) (p - count y) x]
      constructor
      · rintro ⟨m, hm, h1, h2⟩
        exact ⟨m, List.mem_cons_of_mem _ hm, by omega, by omega⟩
      · rintro ⟨m, hm, h1, h2⟩
        rcases List.mem_cons.1 hm with hm | hm
        · injection hm with e1 e2
          subst e1; subst e2
          omega
        · exact ⟨m, hm, by omega, by omega⟩

/-! ### Cells of a row -/

/-- What the element of a cell leaves in the store. -/
def Leaves (o : ReadOpts) (cols : ColHeaders) (cells : List FileCell) (n c : Nat) (v : CellData) : Prop :=
  ∃ cell x, (c, cell) ∈ starts FileCell.count n cells ∧ cell.body.bind o.dec = some x
    ∧ ignoreCell o (cols.colCellstyle c) x = false ∧ v = { x with «repeat» := cell.count }

theorem leaves_cons (o : ReadOpts) (cols : ColHeaders) (x : FileCell) (cs : List FileCell) (n c : Nat) (v : CellData) :
    Leaves o cols (x :: cs) n c v ↔ (c = n ∧ ∃ y, x.body.bind o.dec = some y
      ∧ ignoreCell o (cols.colCellstyle n) y = false ∧ v = { y with «repeat» := x.count })
      ∨ Leaves o cols cs (n + x.count) c v := by
  constructor
  · rintro ⟨cell, y, h1, h2, h3, h4⟩
    rcases List.mem_cons.1 h1 with h1 | h1
    · injection h1 with e1 e2
      subst e1; subst e2
      exact .inl ⟨rfl, y, h2, h3, h4⟩
    · exact .inr ⟨cell, y, h1, h2, h3, h4⟩
  · rintro (⟨rfl, y, h2, h3, h4⟩ | ⟨cell, y, h1, h2, h3, h4⟩)
    · exact ⟨x, y, List.mem_cons_self, h2, h3, h4⟩
    · exact ⟨cell, y, List.mem_cons_of_mem _ h1, h2, h3, h4⟩

theorem leaves_ge {o : ReadOpts} {cols : ColHeaders} {cs : List FileCell} {n c : Nat} {v : CellData}
    (h : Leaves o cols cs n c v) : n ≤ c := by
  obtain ⟨cell, y, h1, _⟩ := h
  exact (starts_ge _ _ _ _ _ h1).1

theorem cells_get (o : ReadOpts) (cols : ColHeaders) (cs : List FileCell) (hc : ∀ c ∈ cs, 1 ≤ c.count) :
    ∀ (k k' : Core), Sorted k.data → (∀ q ∈ k.data, q.1.1 < k.row ∨ (q.1.1 = k.row ∧ q.1.2 < k.col)) →
    coreEvents o cols k (cs.map FileCell.event) = some k' →
    Sorted k'.data ∧ (∀ r c v, get? k'.data (r, c) = some v ↔ get? k.data (r, c) = some v
        ∨ (r = k.row ∧ Leaves o cols cs k.col c v))
      ∧ (k'.colData = true ↔ k.colData = true ∨ ∃ c v, Leaves o cols cs k.col c v)
      ∧ k'.row = k.row ∧ k'.rowRepeat = k.rowRepeat ∧ k'.rowHeader = k.rowHeader := by
  induction cs with
  | nil =>
    intro k k' hs hlt h
    simp only [List.map_nil, coreEvents, Option.some.injEq] at h
    subst h
    have hn : ∀ c v, ¬ Leaves o cols [] k.col c v := by
      rintro c v ⟨cell, x, h, _⟩; cases h
    refine ⟨hs, fun r c v => ⟨Or.inl, ?_⟩, ⟨Or.inl, ?_⟩, rfl, rfl, rfl⟩
    · rintro (h | ⟨_, h⟩)
      · exact h
      · exact absurd h (hn c v)
    · rintro (h | ⟨c, v, h⟩)
      · exact h
      · exact absurd h (hn c v)
  | cons x cs ih =>
    intro k k' hs hlt h
    have hx := hc x List.mem_cons_self
    rw [List.map_cons, coreEvents] at h
    simp only [FileCell.event, coreStep] at h
    have hcnt : x.repeated.getD 1 = x.count := rfl
    rw [hcnt] at h
    cases hb : x.body.bind o.dec with
    | none =>
      have e : readCell o cols k.data k.row k.col x.count x.body = (k.data, false) := by
        unfold readCell; rw [hb]
      rw [e] at h
      simp only [Bool.or_false] at h
      obtain ⟨i1, i2, i3, i4⟩ := ih (fun y hy => hc y (List.mem_cons_of_mem _ hy))
        { k with col := k.col + x.count } k' hs (fun q hq => by
          rcases hlt q hq with g | g
          · exact .inl g
          · exact .inr ⟨g.1, by show _ < k.col + _; omega⟩) h
      have hl : ∀ c v, Leaves o cols (x :: cs) k.col c v ↔ Leaves o cols cs (k.col + x.count) c v := by
        intro c v
        rw [leaves_cons, hb]
        exact ⟨fun h => h.elim (fun ⟨_, y, h, _⟩ => by cases h) id, .inr⟩
      exact ⟨i1, fun r c v => by rw [i2, hl], by rw [i3]; simp only [hl], i4⟩
    | some y =>
      cases hi : ignoreCell o (cols.colCellstyle k.col) y with
      | true =>
        have e : readCell o cols k.data k.row k.col x.count x.body = (k.data, false) := by
          unfold readCell; rw [hb]; simp only; rw [hi]; rfl
        rw [e] at h
        simp only [Bool.or_false] at h
        obtain ⟨i1, i2, i3, i4⟩ := ih (fun y hy => hc y (List.mem_cons_of_mem _ hy))
          { k with col := k.col + x.count } k' hs (fun q hq => by
            rcases hlt q hq with g | g
            · exact .inl g
            · exact .inr ⟨g.1, by show _ < k.col + _; omega⟩) h
        have hl : ∀ c v, Leaves o cols (x :: cs) k.col c v ↔ Leaves o cols cs (k.col + x.count) c v := by
          intro c v
          rw [leaves_cons, hb]
          refine ⟨fun h => h.elim (fun ⟨_, z, h1, h2, _⟩ => ?_) id, .inr⟩
          rw [Option.some.inj h1] at hi
          rw [hi] at h2; cases h2
        exact ⟨i1, fun r c v => by rw [i2, hl], by rw [i3]; simp only [hl], i4⟩
      | false =>
        have e : readCell o cols k.data k.row k.col x.count x.body
            = (OMap.insert k.data (k.row, k.col) { y with «repeat» := x.count }, true) := by
          unfold readCell; rw [hb]; simp only; rw [hi]; rfl
        rw [e] at h
        simp only [Bool.or_true] at h
        obtain ⟨i1, i2, i3, i4⟩ := ih (fun y hy => hc y (List.mem_cons_of_mem _ hy))
          { k with data := OMap.insert k.data (k.row, k.col) { y with «repeat» := x.count }
                   col := k.col + x.count, colData := true } k' (hs.insert _ _) (fun q hq => by
            have hg := (get?_eq_some_iff (hs.insert (k.row, k.col) _)).mpr hq
            rw [get?_insert] at hg
            split at hg
            · rename_i e
              rw [e]
              exact .inr ⟨rfl, by show _ < k.col + _; omega⟩
            · rcases hlt q (mem_of_get?_eq_some hg) with g | g
              · exact .inl g
              · exact .inr ⟨g.1, by show _ < k.col + _; omega⟩) h
        have hnew : ∀ v, get? k.data (k.row, k.col) ≠ some v := by
          intro v hv
          rcases hlt _ (mem_of_get?_eq_some hv) with g | g
          · exact absurd g (Nat.lt_irrefl _)
          · exact absurd g.2 (Nat.lt_irrefl _)
        refine ⟨i1, ?_, ⟨fun _ => ?_, fun _ => i3.2 (.inl rfl)⟩, i4⟩
        · intro r c v
          rw [i2, leaves_cons, hb]
          simp only [get?_insert]
          constructor
          · rintro (g | ⟨g1, g2⟩)
            · split at g
              · rename_i e
                injection e with e1 e2
                exact .inr ⟨e1, .inl ⟨e2, y, rfl, hi, (Option.some.inj g).symm⟩⟩
              · exact .inl g
            · exact .inr ⟨g1, .inr g2⟩
          · rintro (g | ⟨g1, ⟨g2, z, g3, g4, g5⟩ | g2⟩)
            · left
              split
              · rename_i e
                rw [e] at g
                exact absurd g (hnew v)
              · exact g
            · left
              rw [if_pos (by rw [g1, g2]), ← Option.some.inj g3] at *
              rw [g5]
            · exact .inr ⟨g1, g2⟩
        · exact .inr ⟨k.col, _, (leaves_cons _ _ _ _ _ _ _).2 (.inl ⟨rfl, y, hb, hi, rfl⟩)⟩

/-! ### Rows -/

/-- The cells and headers after the rows `rows`, which begin at row `n` and end before `k.row`. -/
structure RowsRead (o : ReadOpts) (cols : ColHeaders) (n : Nat) (rows : List FileRow) (k0 k : Core) : Prop where
  hdr : HInv k.rowHeader k.row
  flag : k.colData = false
  data : Sorted k.data
  ge : n ≤ k.row
  mem : ∀ m row, (m, row) ∈ starts FileRow.count n rows → m + row.count ≤ k.row
  get : ∀ r c v, get? k.data (r, c) = some v ↔ get? k0.data (r, c) = some v
    ∨ ∃ row, (r, row) ∈ starts FileRow.count n rows ∧ Leaves o cols row.cells 0 c v
  old : ∀ m, m < n → (get? k.rowHeader m).map (·.repeat) = (get? k0.rowHeader m).map (·.repeat)
  reps : ∀ m row c v, (m, row) ∈ starts FileRow.count n rows → Leaves o cols row.cells 0 c v →
    (get? k.rowHeader m).map (·.repeat) = some row.count

theorem row_get (o : ReadOpts) (cols : ColHeaders) (r : FileRow) (hm : ∀ e ∈ r.marks, e.isMark = true)
    (hr : 1 ≤ r.count) (hc : ∀ c ∈ r.cells, 1 ≤ c.count)
    (k k' : Core) (hh : HInv k.rowHeader k.row) (hf : k.colData = false) (hd : Sorted k.data)
    (hlt : ∀ q ∈ k.data, q.1.1 < k.row)
    (h : coreEvents o cols k r.events = some k') :
    HInv k'.rowHeader k'.row ∧ k'.colData = false ∧ Sorted k'.data ∧ k'.row = k.row + r.count
      ∧ (∀ x c v, get? k'.data (x, c) = some v ↔ get? k.data (x, c) = some v
          ∨ (x = k.row ∧ Leaves o cols r.cells 0 c v))
      ∧ (∀ m, m < k.row → get? k'.rowHeader m = get? k.rowHeader m)
      ∧ (∀ c v, Leaves o cols r.cells 0 c v → (get? k'.rowHeader k.row).map (·.repeat) = some r.count) := by
  unfold FileRow.events at h
  rw [coreEvents_append, coreMarks o cols _ hm, Option.bind_some, coreEvents] at h
  simp only [coreStep] at h
  rw [coreEvents_append] at h
  cases h1 : coreEvents o cols { k with col := 0, rowRepeat := (readRowAttr k.rowHeader k.row r.tag).2
                                        rowHeader := (readRowAttr k.rowHeader k.row r.tag).1 }
      (r.cells.map FileCell.event) with
  | none => rw [h1] at h; cases h
  | some k1 =>
    rw [h1, Option.bind_some] at h
    obtain ⟨i1, i2, i3, i4, i5, i6⟩ := cells_get o cols r.cells hc
      { k with col := 0, rowRepeat := (readRowAttr k.rowHeader k.row r.tag).2
               rowHeader := (readRowAttr k.rowHeader k.row r.tag).1 } k1 hd (fun q hq => .inl (hlt q hq)) h1
    simp only at i2 i3 i4 i5 i6
    have hrr : (readRowAttr k.rowHeader k.row r.tag).2 = r.count := by
      unfold readRowAttr FileRow.count
      simp only
      split <;> rfl
    rw [hrr] at i5
    rw [hf] at i3
    simp only [coreEvents, coreStep] at h
    have htile : ∃ t : Tile, t.row = k.row ∧ t.rep = r.count ∧ t.tag = r.tag ∧ t.has o cols = k1.colData := by
      cases hk : k1.colData with
      | false => exact ⟨{ row := k.row, rep := _, tag := r.tag, plan := [] }, rfl, rfl, rfl, rfl⟩
      | true =>
        rcases i3.1 hk with g | ⟨c, v, cell, x, g1, g2, g3, g4⟩
        · cases g
        · rw [Option.bind_eq_some_iff] at g2
          obtain ⟨d, g2, g5⟩ := g2
          refine ⟨{ row := k.row, rep := _, tag := r.tag, plan := [((c, d), [(c, 1)])] }, rfl, rfl, rfl, ?_⟩
          simp [Tile.has, rawRow, rawRun, g5, g3]
    obtain ⟨t, t1, t2, t3, t4⟩ := htile
    cases h2 : hdrTile o cols k.rowHeader t with
    | none =>
      exfalso
      unfold hdrTile at h2
      rw [t4, t1, t2, t3] at h2
      simp only at h2
      rw [i4, i5, i6] at h
      cases hk : k1.colData with
      | false => rw [hk] at h2; cases h2
      | true =>
        rw [hk] at h h2
        simp only [if_true] at h h2
        rw [h2] at h
        cases h
    | some m' =>
      have hh2 := h2
      unfold hdrTile at hh2
      rw [t4, t1, t2, t3] at hh2
      simp only at hh2
      rw [i4, i5, i6, hh2] at h
      simp only [Option.map_some, Option.some.injEq] at h
      obtain ⟨g1, g2⟩ := hdrTile_spec o cols k.rowHeader m' t (by rw [t1]; exact hh)
        (by rw [t2, t3]; rfl) (by omega) h2
      rw [t4] at g2
      rw [t1, t2] at g1
      subst h
      refine ⟨g1, rfl, i1, rfl, i2, ?_, ?_⟩
      · intro m hm'
        simp only
        rw [g2]
        unfold hdrAfter
        rw [t1, if_neg (by omega), if_neg (by omega)]
      · intro c v hl
        simp only
        rw [g2]
        unfold hdrAfter
        rw [t1, if_pos rfl, if_pos (i3.2 (.inr ⟨c, v, hl⟩)), t2]
        rfl

theorem rows_get (o : ReadOpts) (cols : ColHeaders) (rows : List FileRow)
    (hm : ∀ r ∈ rows, ∀ e ∈ r.marks, e.isMark = true)
    (hr : ∀ r ∈ rows, 1 ≤ r.count) (hc : ∀ r ∈ rows, ∀ c ∈ r.cells, 1 ≤ c.count) :
    ∀ (k k' : Core), HInv k.rowHeader k.row → k.colData = false → Sorted k.data →
      (∀ q ∈ k.data, q.1.1 < k.row) → coreEvents o cols k (rows.flatMap FileRow.events) = some k' →
      RowsRead o cols k.row rows k k' := by
  induction rows with
  | nil =>
    intro k k' hh hf hd hlt h
    simp only [List.flatMap_nil, coreEvents, Option.some.injEq] at h
    subst h
    refine ⟨hh, hf, hd, Nat.le_refl _, fun m row h => (by cases h), fun r c v => ⟨Or.inl, ?_⟩, fun _ _ => rfl,
      fun m row c v h => (by cases h)⟩
    rintro (h | ⟨_, h, _⟩)
    · exact h
    · cases h
  | cons r rows ih =>
    intro k k' hh hf hd hlt h
    rw [List.flatMap_cons, coreEvents_append] at h
    cases h1 : coreEvents o cols k r.events with
    | none => rw [h1] at h; cases h
    | some k1 =>
      rw [h1, Option.bind_some] at h
      have hr1 := hr r List.mem_cons_self
      obtain ⟨a1, a2, a3, a4, a5, a6, a7⟩ := row_get o cols r (hm r List.mem_cons_self) hr1
        (hc r List.mem_cons_self) k k1 hh hf hd hlt h1
      have hlt1 : ∀ q ∈ k1.data, q.1.1 < k1.row := by
        intro q hq
        have hg := (get?_eq_some_iff a3).mpr hq
        rcases (a5 q.1.1 q.1.2 q.2).1 hg with g | g
        · have := hlt _ (mem_of_get?_eq_some g); simp only at this; omega
        · omega
      obtain ⟨b1, b2, b3, b4, b5, b6, b7, b8⟩ := ih (fun x hx => hm x (List.mem_cons_of_mem _ hx))
        (fun x hx => hr x (List.mem_cons_of_mem _ hx)) (fun x hx => hc x (List.mem_cons_of_mem _ hx))
        k1 k' a1 a2 a3 hlt1 h
      rw [a4] at b4 b5 b6 b7 b8
      refine ⟨b1, b2, b3, by omega, ?_, ?_, ?_, ?_⟩
      · intro m row hmem
        rcases List.mem_cons.1 hmem with e | e
        · injection e with e1 e2
          subst e1; subst e2
          omega
        · exact b5 m row e
      · intro x c v
        rw [b6, a5]
        constructor
        · rintro ((g | ⟨g1, g2⟩) | ⟨row, g1, g2⟩)
          · exact .inl g
          · exact .inr ⟨r, by rw [g1]; exact List.mem_cons_self, g2⟩
          · exact .inr ⟨row, List.mem_cons_of_mem _ g1, g2⟩
        · rintro (g | ⟨row, g1, g2⟩)
          · exact .inl (.inl g)
          · rcases List.mem_cons.1 g1 with e | e
            · injection e with e1 e2
              subst e1; subst e2
              exact .inl (.inr ⟨rfl, g2⟩)
            · exact .inr ⟨row, e, g2⟩
      · intro m hm'
        rw [b7 m (by omega), a6 m hm']
      · intro m row c v hmem hl
        rcases List.mem_cons.1 hmem with e | e
        · injection e with e1 e2
          subst e1; subst e2
          rw [b7 k.row (by omega)]
          exact a7 c v hl
        · exact b8 m row c v e hl

/-! ### Columns -/

/-- The header made of a column element. -/
def ColTag.header (t : ColTag) : ColHeader :=
  { style := t.style, cellstyle := t.cellstyle, visible := t.visibility.getD .visible, span := t.count }

def ColTag.hasAttr (t : ColTag) : Bool := t.style.isSome || t.cellstyle.isSome || t.visibility.isSome

theorem cols_get (o : ReadOpts) (evs : List TEv) (he : ∀ e ∈ evs, e.isCol = true)
    (hr : ∀ c, TEv.column c ∈ evs → 1 ≤ c.count) : ∀ (st st' : RState), (∀ b x, get? st.sheet.colHeader b = some x → b < st.col) →
    readEvents o st evs = some st' → ∀ b x, get? st'.sheet.colHeader b = some x ↔ get? st.sheet.colHeader b = some x
      ∨ ∃ t, (b, t) ∈ starts ColTag.count st.col (columnsOf evs) ∧ t.hasAttr = true ∧ x = t.header := by
  induction evs with
  | nil =>
    intro st st' hlt h b x
    simp only [readEvents, Option.some.injEq] at h
    subst h
    refine ⟨Or.inl, ?_⟩
    rintro (h | ⟨t, h, _⟩)
    · exact h
    · cases h
  | cons e evs ih =>
    intro st st' hlt h b x
    simp only [readEvents] at h
    cases h1 : readStep o st e with
    | none => rw [h1] at h; cases h
    | some st1 =>
      rw [h1] at h
      simp only at h
      have hE : ∀ e' ∈ evs, e'.isCol = true := fun e' h' => he e' (List.mem_cons_of_mem _ h')
      have hR : ∀ c, TEv.column c ∈ evs → 1 ≤ c.count := fun c h' => hr c (List.mem_cons_of_mem _ h')
      have hkeep : st1.sheet.colHeader = st.sheet.colHeader → st1.col = st.col → columnsOf (e :: evs) = columnsOf evs →
          (get? st'.sheet.colHeader b = some x ↔ get? st.sheet.colHeader b = some x
            ∨ ∃ t, (b, t) ∈ starts ColTag.count st.col (columnsOf (e :: evs)) ∧ t.hasAttr = true ∧ x = t.header) := by
        intro k1 k2 k3
        rw [ih hE hR st1 st' (by rw [k1, k2]; exact hlt) h b x, k1, k2, k3]
      cases e with
      | colGroupStart d =>
        simp only [readStep, Option.some.injEq] at h1
        subst h1; exact hkeep rfl rfl rfl
      | colGroupEnd =>
        simp only [readStep] at h1
        split at h1
        · simp only [Option.some.injEq] at h1
          subst h1; exact hkeep rfl rfl rfl
        · split at h1
          · cases h1
          · simp only [Option.some.injEq] at h1
            subst h1; exact hkeep rfl rfl rfl
      | colHeaderStart =>
        simp only [readStep, Option.some.injEq] at h1
        subst h1; exact hkeep rfl rfl rfl
      | colHeaderEnd =>
        simp only [readStep, Option.map_eq_some_iff] at h1
        obtain ⟨_, _, h1⟩ := h1
        subst h1; exact hkeep rfl rfl rfl
      | column t =>
        have hpos := hr t List.mem_cons_self
        simp only [readStep, Option.some.injEq] at h1
        have e1 : (readColAttr st.sheet.colHeader st.col t).2 = t.count := by
          unfold readColAttr ColTag.count
          simp only
          split <;> rfl
        have e2 : (readColAttr st.sheet.colHeader st.col t).1
            = if t.hasAttr then OMap.insert st.sheet.colHeader st.col t.header else st.sheet.colHeader := by
          unfold readColAttr ColTag.hasAttr
          simp only
          split <;> rfl
        rw [e1, e2] at h1
        have k1 : st1.sheet.colHeader
            = if t.hasAttr then OMap.insert st.sheet.colHeader st.col t.header else st.sheet.colHeader := by rw [← h1]
        have k2 : st1.col = st.col + t.count := by rw [← h1]
        have hs : starts ColTag.count st.col (columnsOf (.column t :: evs))
            = (st.col, t) :: starts ColTag.count (st.col + t.count) (columnsOf evs) := rfl
        rw [hs]
        cases ha : t.hasAttr with
        | false =>
          rw [ha] at k1
          simp only [Bool.false_eq_true, if_false] at k1
          rw [ih hE hR st1 st' (by rw [k1, k2]; intro b x g; have := hlt b x g; omega) h b x, k1, k2]
          refine or_congr_right ⟨fun ⟨t', g1, g2⟩ => ⟨t', List.mem_cons_of_mem _ g1, g2⟩, ?_⟩
          rintro ⟨t', g1, g2, g3⟩
          rcases List.mem_cons.1 g1 with g | g
          · injection g with _ g; subst g; rw [ha] at g2; cases g2
          · exact ⟨t', g, g2, g3⟩
        | true =>
          rw [ha] at k1
          simp only [if_true] at k1
          rw [ih hE hR st1 st' (by
            rw [k1, k2]
            intro b x g
            rw [get?_insert] at g
            split at g
            · omega
            · have := hlt b x g; omega) h b x, k1, k2, get?_insert]
          constructor
          · rintro (g | ⟨t', g1, g2⟩)
            · split at g
              · rename_i e
                exact .inr ⟨t, by rw [e]; exact List.mem_cons_self, ha, (Option.some.inj g).symm⟩
              · exact .inl g
            · exact .inr ⟨t', List.mem_cons_of_mem _ g1, g2⟩
          · rintro (g | ⟨t', g1, g2, g3⟩)
            · have := hlt b x g
              rw [if_neg (by omega)]
              exact .inl g
            · rcases List.mem_cons.1 g1 with g | g
              · injection g with g g'
                subst g; subst g'
                rw [if_pos rfl, g3]
                exact .inl rfl
              · exact .inr ⟨t', g, g2, g3⟩
      | _ => exact absurd (he _ List.mem_cons_self) (by simp [TEv.isCol])

/-- The default style of the cells of a column, before the headers are merged. -/
theorem cols_style (o : ReadOpts) (evs : List TEv) (he : ∀ e ∈ evs, e.isCol = true)
    (hr : ∀ c, TEv.column c ∈ evs → 1 ≤ c.repeated.getD 1) (st : RState) (h : readEvents o {} evs = some st) (c : Nat) :
    st.sheet.colHeader.colCellstyle c = (coverOf ColTag.count (columnsOf evs) c).bind (·.cellstyle) := by
  have hg := cols_get o evs he hr {} st (by intro b x h; cases h) h
  have hI := readCols_inv o evs he hr {} st (cinv_nil 0) h
  have hg : ∀ b x, get? st.sheet.colHeader b = some x ↔
      ∃ t, (b, t) ∈ starts ColTag.count 0 (columnsOf evs) ∧ t.hasAttr = true ∧ x = t.header := by
    intro b x
    rw [hg]
    exact ⟨fun h => h.elim (fun h => by cases h) id, .inr⟩
  unfold ColHeaders.colCellstyle
  cases hv : st.sheet.colHeader.valid c with
  | some x =>
    obtain ⟨b, b1, b2, b3⟩ := hI.wf.valid_some.1 hv
    obtain ⟨t, g1, _, g3⟩ := (hg b x).1 b1
    subst g3
    rw [(coverOf_iff ColTag.count (columnsOf evs) 0 c t).2 ⟨b, g1, by omega, by rw [Nat.zero_add]; exact b3⟩]
    rfl
  | none =>
    cases hc : coverOf ColTag.count (columnsOf evs) c with
    | none => rfl
    | some t =>
      obtain ⟨b, g1, g2, g3⟩ := (coverOf_iff ColTag.count (columnsOf evs) 0 c t).1 hc
      rw [Option.bind_some]
      cases hcs : t.cellstyle with
      | none => rfl
      | some z =>
        exfalso
        have := (hg b t.header).2 ⟨t, g1, by simp [ColTag.hasAttr, hcs], rfl⟩
        have := hI.wf.valid_some.2 ⟨b, this, by omega, (show c < b + t.count by omega)⟩
        rw [hv] at this
        cases this

/-! ### The whole table -/

/-- The row repeats that survive: those over 1000 in the last five headers do not. -/
theorem clamp_rep (m : RowHeaders) (hm : Sorted m) (k n : Nat) (h : (get? m k).map (·.repeat) = some n) :
    hdrRep (clampLast m) k = n ∨ (1000 < n ∧ hdrRep (clampLast m) k = 1) := by
  cases hg : get? m k with
  | none => rw [hg] at h; cases h
  | some x =>
    rw [hg] at h
    have hx : x.repeat = n := Option.some.inj h
    by_cases hle : n ≤ 1000
    · left
      have := clampLast_get? m hm k x hg (by omega)
      unfold hdrRep
      rw [this]
      exact hx
    · obtain ⟨y, hy⟩ := mem_clampLast m k x (mem_of_get?_eq_some hg)
      have hgy := (get?_eq_some_iff (clampLast_sorted m hm)).mpr hy
      obtain ⟨z, z1, z2, z3⟩ := clampLast_mem m k y hy
      have : z = x := by
        have := (get?_eq_some_iff hm).mpr z1
        rw [hg] at this
        exact (Option.some.inj this).symm
      subst this
      unfold hdrRep
      rw [hgy]
      rcases z3 with z3 | z3
      · left; show y.repeat = n; omega
      · right; exact ⟨by omega, z3⟩

/-- The cells of the sheet: `cut` says whether the repeats of a row were ignored. -/
theorem other_get (t : FileTable) (ht : t.OK) (o : ReadOpts) (ho : o.useRepeat = false) (s : TSheet)
    (h : readTable o t.events = some s) :
    ∃ (cols : ColHeaders) (cut : Nat → Prop), (∀ m row, (m, row) ∈ starts FileRow.count 0 t.rows → cut m → 1000 < row.count)
      ∧ cols.dedup = s.colHeader ∧ (∀ c, cols.colCellstyle c = t.columnStyle c)
      ∧ ∀ r c v, s.data.get? (r, c) = some v ↔ ∃ m row n cell x,
        (m, row) ∈ starts FileRow.count 0 t.rows ∧ m ≤ r ∧ r < m + row.count ∧ (cut m → r = m)
        ∧ (n, cell) ∈ starts FileCell.count 0 row.cells ∧ n ≤ c ∧ c < n + cell.count
        ∧ cell.body.bind o.dec = some x ∧ ignoreCell o (cols.colCellstyle n) x = false
        ∧ v = { x with «repeat» := 1 }
        ∧ ¬ (1 < cell.count ∧ x.isEmpty = true ∧ ∀ c' v', Leaves o cols row.cells 0 c' v' → c' ≤ n) := by
  unfold readTable at h
  split at h
  case h_2 => cases h
  split at h
  case h_2 => cases h
  rename_i st hst
  rw [ho] at h
  simp only [Bool.false_eq_true, if_false, Option.some.injEq] at h
  unfold FileTable.events at hst
  rw [readEvents_append] at hst
  cases h1 : readEvents o {} t.cols with
  | none => rw [h1] at hst; cases hst
  | some st1 =>
    rw [h1, Option.bind_some] at hst
    obtain ⟨c1, c2, c3, c4, c5, _⟩ := readEvents_cols o t.cols ht.cols {} st1 h1
    have hnc : ∀ e ∈ t.rows.flatMap FileRow.events ++ t.tail, e.isCol = false := by
      intro e he
      have hmk : ∀ e : TEv, e.isMark = true → e.isCol = false := by
        intro e he; cases e <;> first | rfl | cases he
      rcases List.mem_append.1 he with he | he
      · obtain ⟨r, hr, he⟩ := List.mem_flatMap.1 he
        unfold FileRow.events at he
        rcases List.mem_append.1 he with he | he
        · exact hmk e (ht.marks r hr e he)
        · rcases List.mem_cons.1 he with rfl | he
          · rfl
          · rcases List.mem_append.1 he with he | he
            · obtain ⟨c, _, rfl⟩ := List.mem_map.1 he
              rfl
            · rw [List.mem_singleton] at he; subst he; rfl
      · exact hmk e (ht.tail e he)
    obtain ⟨d1, d2, _⟩ := readEvents_core o _ hnc st1 st hst
    rw [coreEvents_append] at d1
    cases h2 : coreEvents o st1.sheet.colHeader st1.core (t.rows.flatMap FileRow.events) with
    | none => rw [h2] at d1; cases d1
    | some k =>
      rw [h2, Option.bind_some, coreMarks o _ t.tail ht.tail k] at d1
      have hk := Option.some.inj d1
      have e0 : st1.core.row = 0 := c1
      have e1 : st1.core.data = [] := c4
      have e2 : st1.core.rowHeader = [] := c5
      have hR := rows_get o st1.sheet.colHeader t.rows ht.marks ht.rowReps ht.cellReps st1.core k
        (by rw [e2]; exact hinv_nil _) (show st1.colData = false from c3) (by rw [e1]; exact sorted_nil)
        (by rw [e1]; intro q hq; cases hq) h2
      rw [e0] at hR
      obtain ⟨r1, r2, r3, _, r5, r6, r7, r8⟩ := hR
      rw [e1] at r6
      have hdat : st.sheet.data = k.data := by rw [hk]; rfl
      have hhdr : st.sheet.rowHeader = k.rowHeader := by rw [hk]; rfl
      generalize hcols : st1.sheet.colHeader = cols at *
      have r6 : ∀ r c v, get? k.data (r, c) = some v ↔ ∃ row, (r, row) ∈ starts FileRow.count 0 t.rows
          ∧ Leaves o cols row.cells 0 c v := by
        intro r c v
        rw [r6]
        exact ⟨fun g => g.elim (fun g => by cases g) id, .inr⟩
      have hcl := clampLast_sorted k.rowHeader r1.sorted
      have hrep : ∀ m row c v, (m, row) ∈ starts FileRow.count 0 t.rows → Leaves o cols row.cells 0 c v →
          hdrRep (clampLast k.rowHeader) m = row.count
            ∨ (1000 < row.count ∧ hdrRep (clampLast k.rowHeader) m = 1) :=
        fun m row c v g1 g2 => clamp_rep _ r1.sorted m _ (r8 m row c v g1 g2)
      have hrd : RepDisj (clampLast k.rowHeader) k.data := by
        rintro ⟨⟨a, b⟩, d⟩ hp ⟨⟨a', b'⟩, d'⟩ hq hlt
        simp only at hlt ⊢
        obtain ⟨row, g1, g2⟩ := (r6 _ _ _).1 ((get?_eq_some_iff r3).mpr hp)
        obtain ⟨row', g3, g4⟩ := (r6 _ _ _).1 ((get?_eq_some_iff r3).mpr hq)
        have := starts_apart FileRow.count t.rows 0 _ _ _ _ g1 g3 hlt
        rcases hrep _ _ _ _ g1 g2 with e | e <;> omega
      -- after the rows have been copied
      have hD1 : ∀ r c v, get? (insertAll k.data (rowClones (clampLast k.rowHeader) k.data)) (r, c) = some v
          ↔ ∃ m row, (m, row) ∈ starts FileRow.count 0 t.rows ∧ m ≤ r ∧ r < m + row.count
            ∧ ((1000 < row.count ∧ hdrRep (clampLast k.rowHeader) m = 1) → r = m) ∧ Leaves o cols row.cells 0 c v := by
        intro r c v
        rw [rowClones_get? _ hcl _ r3 hrd]
        constructor
        · rintro ⟨m, g1, g2, g3⟩
          obtain ⟨row, g4, g5⟩ := (r6 _ _ _).1 g1
          have hpos := ht.rowReps row (starts_ge _ _ _ _ _ g4).2
          have hpos : 1 ≤ row.count := hpos
          refine ⟨m, row, g4, g2, ?_, ?_, g5⟩
          · rcases hrep _ _ _ _ g4 g5 with e | e <;> omega
          · intro hcut
            rw [hcut.2] at g3
            omega
        · rintro ⟨m, row, g1, g2, g3, g4, g5⟩
          refine ⟨m, (r6 _ _ _).2 ⟨row, g1, g5⟩, g2, ?_⟩
          rcases hrep _ _ _ _ g1 g5 with e | e
          · right; omega
          · left; exact g4 e
      have hD1s : Sorted (insertAll k.data (rowClones (clampLast k.rowHeader) k.data)) := insertAll_sorted _ _ r3
      have hsame : ∀ r m row m' row', (m, row) ∈ starts FileRow.count 0 t.rows → (m', row') ∈ starts FileRow.count 0 t.rows →
          m ≤ r → r < m + row.count → m' ≤ r → r < m' + row'.count → m = m' ∧ row = row' := by
        intro r m row m' row' g1 g2 g3 g4 g5 g6
        have e : m = m' := by
          rcases Nat.lt_trichotomy m m' with x | x | x
          · have := starts_apart _ _ _ _ _ _ _ g1 g2 x; omega
          · exact x
          · have := starts_apart _ _ _ _ _ _ _ g2 g1 x; omega
        subst e
        exact ⟨rfl, starts_same _ _ ht.rowReps _ _ _ _ g1 g2⟩
      have hcd : CellDisj (insertAll k.data (rowClones (clampLast k.rowHeader) k.data)) := by
        rintro ⟨⟨a, b⟩, d⟩ hp ⟨⟨a', b'⟩, d'⟩ hq e hlt
        simp only at e hlt ⊢
        subst e
        obtain ⟨m, row, g1, g2, g3, _, cell, x, g5, g6, g7, g8⟩ := (hD1 _ _ _).1 ((get?_eq_some_iff hD1s).mpr hp)
        obtain ⟨m', row', k1, k2, k3, _, cell', x', k5, k6, k7, k8⟩ :=
          (hD1 _ _ _).1 ((get?_eq_some_iff hD1s).mpr hq)
        obtain ⟨e1, e2⟩ := hsame a m row m' row' g1 k1 g2 g3 k2 k3
        subst e1; subst e2
        have := starts_apart _ _ _ _ _ _ _ g5 k5 hlt
        rw [g8]
        exact this
      have hr1 : ∀ q ∈ insertAll k.data (rowClones (clampLast k.rowHeader) k.data), 1 ≤ q.2.repeat := by
        rintro ⟨⟨a, b⟩, d⟩ hp
        obtain ⟨m, row, g1, g2, g3, _, cell, x, g5, g6, g7, g8⟩ := (hD1 _ _ _).1 ((get?_eq_some_iff hD1s).mpr hp)
        rw [g8]
        exact ht.cellReps row (starts_ge _ _ _ _ _ g1).2 cell (starts_ge _ _ _ _ _ g5).2
      refine ⟨cols, fun m => ∃ row, (m, row) ∈ starts FileRow.count 0 t.rows ∧ 1000 < row.count
        ∧ hdrRep (clampLast k.rowHeader) m = 1, ?_, ?_, ?_, ?_⟩
      · rintro m row g1 ⟨row', g2, g3, _⟩
        rw [starts_same _ _ ht.rowReps _ _ _ _ g1 g2]
        exact g3
      · rw [← h]
        show _ = (st.sheet.colHeader.dedup)
        rw [d2]
      · intro c
        rw [← hcols]
        exact cols_style o t.cols ht.cols ht.colReps st1 h1 c
      · intro r c v
        rw [← h]
        unfold calcCloned
        simp only
        rw [hdat, hhdr, cellClones_get? _ hD1s hcd hr1]
        constructor
        · rintro ⟨n, d, g1, g2, g3, g4, g5⟩
          obtain ⟨m, row, k1, k2, k3, k4, cell, x, k5, k6, k7, k8⟩ := (hD1 _ _ _).1 g1
          subst k8
          refine ⟨m, row, n, cell, x, k1, k2, k3, ?_, k5, g2, g3, k6, k7, g5, ?_⟩
          · rintro ⟨row', q1, q2, q3⟩
            exact k4 ⟨by rw [starts_same _ _ ht.rowReps _ _ _ _ k1 q1]; exact q2, q3⟩
          · rintro ⟨q1, q2, q3⟩
            refine g4 ⟨q1, q2, ?_⟩
            rintro ⟨⟨a, b⟩, d⟩ hq e
            simp only at e ⊢
            subst e
            obtain ⟨m', row', u1, u2, u3, _, u5⟩ := (hD1 _ _ _).1 ((get?_eq_some_iff hD1s).mpr hq)
            obtain ⟨e1, e2⟩ := hsame a m row m' row' k1 u1 k2 k3 u2 u3
            subst e1; subst e2
            exact q3 b d u5
        · rintro ⟨m, row, n, cell, x, k1, k2, k3, k4, k5, g2, g3, k6, k7, g5, g6⟩
          refine ⟨n, { x with «repeat» := cell.count }, (hD1 _ _ _).2 ⟨m, row, k1, k2, k3,
            fun hcut => k4 ⟨row, k1, hcut⟩, cell, x, k5, k6, k7, rfl⟩, g2, g3, ?_, g5⟩
          rintro ⟨q1, q2, q3⟩
          refine g6 ⟨q1, q2, ?_⟩
          intro c' v' hl
          exact q3 ((r, c'), v') (mem_of_get?_eq_some ((hD1 _ _ _).2 ⟨m, row, k1, k2, k3,
            fun hcut => k4 ⟨row, k1, hcut⟩, hl⟩)) rfl

/-- **C103**: each cell of a sheet is in the file, at its place. -/
theorem C103_only (t : FileTable) (ht : t.OK) (o : ReadOpts) (ho : o.useRepeat = false) (s : TSheet)
    (h : readTable o t.events = some s) (r c : Nat) (v : CellData) (hv : s.data.get? (r, c) = some v) :
    ∃ x, (t.cellAt r c).bind o.dec = some x ∧ v = { x with «repeat» := 1 } := by
  obtain ⟨cols, cut, _, _, _, hg⟩ := other_get t ht o ho s h
  obtain ⟨m, row, n, cell, x, k1, k2, k3, _, k5, g2, g3, k6, _, g5, _⟩ := (hg r c v).1 hv
  refine ⟨x, ?_, g5⟩
  unfold FileTable.cellAt
  rw [(coverOf_iff FileRow.count t.rows 0 r row).2 ⟨m, k1, by omega, by omega⟩, Option.bind_some,
    (coverOf_iff FileCell.count row.cells 0 c cell).2 ⟨n, k5, by omega, by omega⟩, Option.bind_some]
  exact k6

/-- **C103 (partial)**: each cell of the file with a content is in the sheet, at its place.  Missing: the
copies of rows that are repeated more than 1000 times (`C103_thousand_counterexample`). -/
theorem C103_cells_partial (t : FileTable) (ht : t.OK) (o : ReadOpts) (ho : o.useRepeat = false)
    (hbig : ∀ r ∈ t.rows, r.tag.repeated.getD 1 ≤ 1000) (s : TSheet)
    (h : readTable o t.events = some s) (r c : Nat) (x : CellData) (hx : (t.cellAt r c).bind o.dec = some x)
    (hne : x.isEmpty = false) : s.data.get? (r, c) = some { x with «repeat» := 1 } := by
  obtain ⟨cols, cut, hcut, _, _, hg⟩ := other_get t ht o ho s h
  unfold FileTable.cellAt at hx
  cases h1 : coverOf FileRow.count t.rows r with
  | none => rw [h1] at hx; cases hx
  | some row =>
    rw [h1, Option.bind_some] at hx
    cases h2 : coverOf FileCell.count row.cells c with
    | none => rw [h2] at hx; cases hx
    | some cell =>
      rw [h2, Option.bind_some] at hx
      obtain ⟨m, k1, k2, k3⟩ := (coverOf_iff FileRow.count t.rows 0 r row).1 h1
      obtain ⟨n, g1, g2, g3⟩ := (coverOf_iff FileCell.count row.cells 0 c cell).1 h2
      refine (hg r c _).2 ⟨m, row, n, cell, x, k1, by omega, by omega, ?_, g1, by omega, by omega, hx,
        ignoreCell_of_content hne _, rfl, ?_⟩
      · intro hc
        have h3 := hcut m row k1 hc
        have h4 := hbig row (starts_ge _ _ _ _ _ k1).2
        unfold FileRow.count at h3
        omega
      · rintro ⟨_, q, _⟩
        rw [hne] at q
        cases q

/-- **C103 (partial)**, cells without content: a cell that is not repeated and has another style than its
column is kept, if empty cells are kept at all. -/
theorem C103_styled_partial (t : FileTable) (ht : t.OK) (o : ReadOpts) (ho : o.useRepeat = false)
    (hi : o.ignoreEmpty = false) (hbig : ∀ r ∈ t.rows, r.tag.repeated.getD 1 ≤ 1000) (s : TSheet)
    (h : readTable o t.events = some s) (r c : Nat) (row : FileRow) (cell : FileCell) (x : CellData)
    (hrow : coverOf FileRow.count t.rows r = some row) (hcell : coverOf FileCell.count row.cells c = some cell)
    (hone : cell.count = 1) (hx : cell.body.bind o.dec = some x) (hs : x.isVoid (t.columnStyle c) = false) :
    s.data.get? (r, c) = some { x with «repeat» := 1 } := by
  obtain ⟨cols, cut, hcut, _, hcs, hg⟩ := other_get t ht o ho s h
  obtain ⟨m, k1, k2, k3⟩ := (coverOf_iff FileRow.count t.rows 0 r row).1 hrow
  obtain ⟨n, g1, g2, g3⟩ := (coverOf_iff FileCell.count row.cells 0 c cell).1 hcell
  have hn : n = c := by omega
  subst hn
  refine (hg r n _).2 ⟨m, row, n, cell, x, k1, by omega, by omega, ?_, g1, by omega, by omega, hx, ?_, rfl, ?_⟩
  · intro hc
    have h3 := hcut m row k1 hc
    have h4 := hbig row (starts_ge _ _ _ _ _ k1).2
    unfold FileRow.count at h3
    omega
  · unfold ignoreCell
    rw [hcs, hs, hi]
    rfl
  · rintro ⟨q, _⟩
    omega

/-- C103 fails for rows that are repeated more than 1000 times at the end of a sheet: only the first of
them has its cells. -/
theorem C103_thousand_counterexample (n : Nat) (hn : 1000 < n) (d : CellData) (hd : d.isEmpty = false) :
    ∃ s, readTable {} (FileTable.events { rows := [{ tag := { repeated := some n }, cells := [{ body := some d }] }] }) = some s
      ∧ s.data.get? (0, 0) = some { d with «repeat» := 1 } ∧ s.data.get? (1, 0) = none := by
  have hig : ignoreCell {} none d = false := ignoreCell_of_content hd none
  refine ⟨{ data := [((0, 0), { d with «repeat» := 1 })], rowHeader := [(0, {})] }, ?_, rfl, rfl⟩
  have hev : FileTable.events { rows := [{ tag := { repeated := some n }, cells := [{ body := some d }] }] }
      = [.rowStart { repeated := some n }, .cell false none (some d), .rowEnd] := rfl
  have hcell : readCell {} [] [] 0 0 1 (some d) = ([((0, 0), { d with «repeat» := 1 })], true) := by
    unfold readCell
    show (if ignoreCell {} none d = true then _ else _) = _
    rw [if_neg (by rw [hig]; decide)]
    rfl
  have hrep : RowHeaders.step [] (.setRepeat 0 n) = some [(0, { «repeat» := n })] := by
    unfold RowHeaders.step
    simp only
    rw [if_neg (by omega)]
    rfl
  rw [hev]
  unfold readTable
  have hread : readEvents {} {} [.rowStart { repeated := some n }, .cell false none (some d), .rowEnd]
      = some { row := n, col := 1, sheet := { data := [((0, 0), { d with «repeat» := 1 })], rowHeader := [(0, { «repeat» := n })] } } := by
    simp only [readEvents, readStep, readRowAttr, Option.isSome, Bool.or_false, Bool.false_eq_true, if_false,
      Option.getD, hcell, hrep, Bool.or_true, if_true, Option.map]
    rw [show 0 + n = n by omega]
  rw [show checkTags [] [.rowStart { repeated := some n }, .cell false none (some d), .rowEnd] = some [] from rfl]
  simp only
  rw [hread]
  simp only [Bool.false_eq_true, if_false, Option.some.injEq]
  unfold calcCloned
  have hcl : clampLast [(0, { «repeat» := n })] = [(0, ({} : RowHeader))] := by
    show [if 1000 < n then (0, ({ «repeat» := 1 } : RowHeader)) else _] = _
    rw [if_pos hn]
  simp only [hcl]
  rfl

/-- `someTable` with its rows repeated and styled meets the hypotheses, and the cells are where they belong. -/
example (s : TSheet) (h : readTable {} someTable.events = some s) :
    s.data.get? (2, 2) = some { value := .boolean true }
      ∧ s.data.get? (6, 0) = some { value := .boolean true } ∧ s.data.get? (6, 1) = some { style := some "x" } := by
  refine ⟨C103_cells_partial someTable someTable_ok {} rfl (by decide) s h 2 2 { value := .boolean true } (by decide) rfl,
    C103_cells_partial someTable someTable_ok {} rfl (by decide) s h 6 0 { value := .boolean true } (by decide) rfl,
    C103_styled_partial someTable someTable_ok {} rfl rfl (by decide) s h 6 1
      { cells := [{ body := some { value := .boolean true } }, { body := some { style := some "x" } }] }
      { body := some { style := some "x" } } { style := some "x" } rfl rfl rfl rfl (by decide)⟩

example : (readTable {} someTable.events).isSome = true := by decide +kernel

end Verif
