import Verif.Grid.Core

/-!
# The written rows as a sequence of tiles

A tile is one `table:table-row` element: the row it starts at, the number of rows it stands for, its
attributes and its cells (none for a gap). The tiles of a written sheet cover the rows from 0 on
without gap or overlap, and reading the events is reading the tiles.
-/

set_option autoImplicit false

namespace Verif

/-- One `table:table-row` element. -/
structure Tile where
  row : Nat
  rep : Nat
  tag : RowTag
  plan : List ((Nat × CellData) × List (Nat × Nat))

/-- The tiles cover the rows from `a` up to `b`. -/
def TileChain : Nat → List Tile → Nat → Prop
  | a, [], b => a = b
  | a, t :: l, b => t.row = a ∧ 1 ≤ t.rep ∧ TileChain (a + t.rep) l b

theorem TileChain.append {a m b : Nat} {l l' : List Tile} (h : TileChain a l m)
    (h' : TileChain m l' b) : TileChain a (l ++ l') b := by
  induction l generalizing a with
  | nil => simp only [TileChain] at h; subst h; exact h'
  | cons p l ih => exact ⟨h.1, h.2.1, ih h.2.2⟩

theorem TileChain.le {a b : Nat} {l : List Tile} (h : TileChain a l b) : a ≤ b := by
  induction l generalizing a with
  | nil => simp only [TileChain] at h; omega
  | cons p l ih => have := ih h.2.2; omega

theorem TileChain.mem {a b : Nat} {l : List Tile} (h : TileChain a l b) {t : Tile} (ht : t ∈ l) :
    a ≤ t.row ∧ t.row + t.rep ≤ b := by
  induction l generalizing a with
  | nil => simp at ht
  | cons q l ih =>
    rcases List.mem_cons.mp ht with x | x
    · subst x
      have := TileChain.le h.2.2
      have := h.1; have := h.2.1
      omega
    · have := ih h.2.2 x
      omega

/-- The attributes of a tile are those of the row header valid for its first row, a tile with
cells has the repeat count of its row, and without cells it is a single row if there are row groups or header rows. -/
def Tile.OK (s : TSheet) (t : Tile) : Prop :=
  t.tag.repeated.getD 1 = t.rep
  ∧ t.tag = rowTag t.tag.repeated (s.rowHeader.valid t.row)
  ∧ (t.plan ≠ [] → t.rep = rowRepeatOf s t.row)
  ∧ (∀ p ∈ t.plan, RunOf p.1.1 p.2 (p.1.1 + p.1.2.repeat))
  ∧ (t.plan = [] → (!s.groupRows.isEmpty || s.headerRows.isSome) = true → t.rep = 1)

/-- Is anything stored for the tile? -/
def Tile.has (o : ReadOpts) (cols : ColHeaders) (t : Tile) : Bool :=
  !(rawRow o cols t.row t.plan).isEmpty

/-- The row headers after a tile. -/
def hdrTile (o : ReadOpts) (cols : ColHeaders) (m : RowHeaders) (t : Tile) : Option RowHeaders :=
  let m := (readRowAttr m t.row t.tag).1
  if t.has o cols then RowHeaders.step m (.setRepeat t.row t.rep) else some m

/-- The row headers after a list of tiles. -/
def hdrTiles (o : ReadOpts) (cols : ColHeaders) : RowHeaders → List Tile → Option RowHeaders
  | m, [] => some m
  | m, t :: l => match hdrTile o cols m t with
    | some m' => hdrTiles o cols m' l
    | none => none

/-- The cells of a list of tiles. -/
def rawTiles (o : ReadOpts) (cols : ColHeaders) (l : List Tile) : List ((Nat × Nat) × CellData) :=
  l.flatMap (fun t => rawRow o cols t.row t.plan)

theorem hdrTiles_append (o : ReadOpts) (cols : ColHeaders) (m : RowHeaders) (a b : List Tile) :
    hdrTiles o cols m (a ++ b) = (hdrTiles o cols m a).bind (fun m' => hdrTiles o cols m' b) := by
  induction a generalizing m with
  | nil => rfl
  | cons t a ih =>
    simp only [List.cons_append, hdrTiles]
    cases hdrTile o cols m t with
    | none => rfl
    | some k' => exact ih k'

/-- Setting the repeat count never fails for a count that is not zero. -/
theorem setRepeat_some (m : RowHeaders) (row rep : Nat) (h : 1 ≤ rep) :
    ∃ m', RowHeaders.step m (.setRepeat row rep) = some m' := by
  simp only [RowHeaders.step, if_neg (show ¬ rep = 0 by omega), RowHeaders.modify]
  have : ∃ h, OMap.get? (RowHeaders.split m row) row = some h := by
    unfold RowHeaders.split
    split
    · split
      · split
        · simp only [OMap.get?_insert]
          rw [if_neg (by omega)]
          exact ⟨_, if_pos trivial⟩
        · rename_i hb _ hb2
          simp only [OMap.get?_insert]
          rw [if_neg (by omega), if_pos (by omega)]
          exact ⟨_, rfl⟩
      · simp only [OMap.get?_insert]; exact ⟨_, if_pos trivial⟩
    · simp only [OMap.get?_insert]; exact ⟨_, if_pos trivial⟩
  obtain ⟨x, hx⟩ := this
  rw [hx]
  exact ⟨_, rfl⟩

theorem hdrTile_some (o : ReadOpts) (cols : ColHeaders) (m : RowHeaders) (t : Tile)
    (h : 1 ≤ t.rep) : ∃ m', hdrTile o cols m t = some m' := by
  unfold hdrTile
  simp only
  split
  · exact setRepeat_some _ _ _ h
  · exact ⟨_, rfl⟩

/-! ### Tags that do not matter for the core -/

theorem mem_ite_single {α : Type} {p : Prop} [Decidable p] {e x : α}
    (h : e ∈ (if p then [x] else [])) : e = x := by
  split at h
  · simpa using h
  · simp at h

/-- Group and header tags. -/
def TEv.isTag : TEv → Bool
  | .groupStart _ | .groupEnd | .headerStart | .headerEnd => true
  | _ => false

theorem core_tags (o : ReadOpts) (cols : ColHeaders) (evs : List TEv)
    (h : ∀ e ∈ evs, e.isTag = true) (k : Core) : coreEvents o cols k evs = some k := by
  induction evs with
  | nil => rfl
  | cons e evs ih =>
    have he := h e (by simp)
    have : coreStep o cols k e = some k := by
      cases e <;> first | rfl | simp [TEv.isTag] at he
    simp only [coreEvents, this]
    exact ih (fun x hx => h x (by simp [hx]))

theorem core_empty_row (o : ReadOpts) (cols : ColHeaders) (s : TSheet) (mx : Nat × Nat)
    (row n : Nat) (k : Core) (hc : k.colData = false) (hr : k.rowRepeat = 1) :
    coreEvents o cols k (writeEmptyRow s row n mx)
      = some { k with col := mx.2, row := k.row + n
                      rowHeader := (readRowAttr k.rowHeader k.row
                        (rowTag (some n) (s.rowHeader.valid row))).1 } := by
  have hrep : (rowTag (some n) (s.rowHeader.valid row)).repeated = some n := by
    unfold rowTag; split <;> rfl
  have hrep2 : (readRowAttr k.rowHeader k.row (rowTag (some n) (s.rowHeader.valid row))).2 = n := by
    unfold readRowAttr
    simp only [hrep]
    split <;> rfl
  simp [writeEmptyRow, coreEvents, coreStep, readCell, hrep2, hc, hr]

/-- A gap tile. -/
def gapTile (s : TSheet) (row n : Nat) : Tile :=
  ⟨row, n, rowTag (some n) (s.rowHeader.valid row), []⟩

theorem gapTile_ok (s : TSheet) (row n : Nat)
    (hn : (!s.groupRows.isEmpty || s.headerRows.isSome) = true → n = 1) : (gapTile s row n).OK s := by
  have h : (rowTag (some n) (s.rowHeader.valid row)).repeated = some n := by
    unfold rowTag; split <;> rfl
  refine ⟨by simp [gapTile, h], by simp [gapTile, h], by simp [gapTile], by simp [gapTile], fun _ h => hn h⟩

/-- Core state at a row boundary. -/
def Core.atRow (k : Core) (row : Nat) : Prop :=
  k.row = row ∧ k.colData = false ∧ k.rowRepeat = 1

theorem core_gap_rows (o : ReadOpts) (cols : ColHeaders) (s : TSheet) (mx : Nat × Nat) (n : Nat) :
    ∀ (row : Nat) (g g' : GState) (evs : List TEv) (k : Core),
    writeGapRows s mx row n g = .ok (evs, g') → k.atRow row →
    ∃ (tiles : List Tile) (k' : Core) (m : RowHeaders), coreEvents o cols k evs = some k'
      ∧ k'.atRow (row + n)
      ∧ TileChain row tiles (row + n) ∧ (∀ t ∈ tiles, t.OK s ∧ t.plan = [])
      ∧ hdrTiles o cols k.rowHeader tiles = some m ∧ k'.rowHeader = m ∧ k'.data = k.data := by
  induction n with
  | zero =>
    intro row g g' evs k h hk
    simp only [writeGapRows, Except.ok.injEq, Prod.mk.injEq] at h
    obtain ⟨h, _⟩ := h
    subst h
    exact ⟨[], k, k.rowHeader, rfl, hk, rfl, by simp, rfl, rfl, rfl⟩
  | succ n ih =>
    intro row g g' evs k h hk
    simp only [writeGapRows] at h
    split at h
    · simp at h
    rename_i e1 g1 h1
    split at h
    · simp at h
    rename_i e2 g2 h2
    simp only [Except.ok.injEq, Prod.mk.injEq] at h
    obtain ⟨h, _⟩ := h
    subst h
    -- the events of one gap row
    have hev : ∃ pre, e1 = pre ++ writeEmptyRow s row 1 mx ∧ ∀ e ∈ pre, e.isTag = true := by
      unfold writeGapRow closeGroups at h1
      simp only at h1
      split at h1
      · simp at h1
      rename_i e2' count hcl
      simp only [Except.ok.injEq, Prod.mk.injEq] at h1
      refine ⟨_, h1.1.symm, ?_⟩
      split at hcl
      · simp only [Except.ok.injEq, Prod.mk.injEq] at hcl
        rw [← hcl.1]
        intro e he
        simp only [List.mem_append] at he
        rcases he with ((he | he) | he) | he
        · rw [mem_ite_single he]; rfl
        · rw [List.eq_of_mem_replicate he]; rfl
        · obtain ⟨x, _, hx⟩ := List.mem_map.mp he
          rw [← hx]; rfl
        · rw [mem_ite_single he]; rfl
      · simp at hcl
    obtain ⟨pre, hpre, htag⟩ := hev
    have hk1 : coreEvents o cols k e1 = some { k with
        col := mx.2, row := k.row + 1
        rowHeader := (readRowAttr k.rowHeader k.row (rowTag (some 1) (s.rowHeader.valid row))).1 } := by
      rw [hpre, coreEvents_append, core_tags o cols pre htag k]
      simp only [Option.bind_some]
      exact core_empty_row o cols s mx row 1 k hk.2.1 hk.2.2
    obtain ⟨tiles, k', m, i1, i2, i3, i4, i5, i6, i7⟩ := ih (row + 1) g1 g2 e2 _ h2
      (show Core.atRow { k with
        col := mx.2, row := k.row + 1
        rowHeader := (readRowAttr k.rowHeader k.row (rowTag (some 1) (s.rowHeader.valid row))).1 }
        (row + 1) from ⟨by show k.row + 1 = row + 1; rw [hk.1], hk.2.1, hk.2.2⟩)
    refine ⟨gapTile s row 1 :: tiles, k', m, ?_, ?_, ⟨rfl, Nat.le_refl 1, ?_⟩, ?_, ?_, i6, i7⟩
    · rw [coreEvents_append, hk1]
      exact i1
    · rw [show row + (n + 1) = row + 1 + n by omega]; exact i2
    · rw [show row + (n + 1) = row + 1 + n by omega]; exact i3
    · intro t ht
      rcases List.mem_cons.mp ht with x | x
      · subst x; exact ⟨gapTile_ok s row 1 (fun _ => rfl), rfl⟩
      · exact i4 t x
    · simp only [hdrTiles, hdrTile, gapTile, Tile.has, rawRow, List.flatMap_nil, List.isEmpty_nil,
        Bool.not_true, Bool.false_eq_true, if_false]
      simp only [hk.1] at i5
      exact i5

theorem core_gap (o : ReadOpts) (cols : ColHeaders) (s : TSheet) (mx : Nat × Nat) (row n : Nat)
    (hn : 1 ≤ n) (g g' : GState) (evs : List TEv) (k : Core)
    (h : writeEmptyRowsBefore s row n mx g = .ok (evs, g')) (hk : k.atRow row) :
    ∃ (tiles : List Tile) (k' : Core) (m : RowHeaders), coreEvents o cols k evs = some k'
      ∧ k'.atRow (row + n)
      ∧ TileChain row tiles (row + n) ∧ (∀ t ∈ tiles, t.OK s ∧ t.plan = [])
      ∧ hdrTiles o cols k.rowHeader tiles = some m ∧ k'.rowHeader = m ∧ k'.data = k.data := by
  unfold writeEmptyRowsBefore at h
  split at h
  · exact core_gap_rows o cols s mx n row g g' evs k h hk
  · rename_i hgr
    simp only [Except.ok.injEq, Prod.mk.injEq] at h
    obtain ⟨h, _⟩ := h
    subst h
    refine ⟨[gapTile s row n], _, _, core_empty_row o cols s mx row n k hk.2.1 hk.2.2, ?_,
      ⟨rfl, hn, rfl⟩, ?_, ?_, rfl, rfl⟩
    · exact ⟨by show k.row + n = row + n; rw [hk.1], hk.2.1, hk.2.2⟩
    · intro t ht
      simp only [List.mem_singleton] at ht
      subst ht
      exact ⟨gapTile_ok s row n (fun x => absurd x hgr), rfl⟩
    · simp only [hdrTiles, hdrTile, gapTile, Tile.has, rawRow, List.flatMap_nil, List.isEmpty_nil,
        Bool.not_true, Bool.false_eq_true, if_false, hk.1]

/-! ### The change of the row -/

/-- The pieces of `writeRowChange`: end tags, gap, start tags. -/
theorem rowChange_ok (s : TSheet) (mx : Nat × Nat) (st : WState) (row col : Nat) (e : List TEv)
    (g : GState) (hst : st.first = true ∨ st.prevRow < row)
    (hf : st.first = true → st.prevRow = 0 ∧ st.prevRowRepeat = 1 ∧ st.prevCol = 0)
    (h : writeRowChange s mx st row col = .ok (e, g)) :
    ∃ (eEnd eGap : List TEv) (g1 g2 : GState) (start : Nat),
      e = eEnd ++ eGap ++ (writeStartRow s row (rowRepeatOf s row) col g2).1
      ∧ g = (writeStartRow s row (rowRepeatOf s row) col g2).2
      ∧ (st.first = true → eEnd = [] ∧ g1 = st.g ∧ start = 0)
      ∧ (st.first = false → writeEndRow s st.prevRow st.prevRowRepeat st.g = .ok (eEnd, g1)
          ∧ start = st.prevRow + st.prevRowRepeat)
      ∧ start ≤ row
      ∧ (start = row → eGap = [] ∧ g2 = g1)
      ∧ (start < row → writeEmptyRowsBefore s start (row - start) mx g1 = .ok (eGap, g2)) := by
  cases hfirst : st.first with
  | true =>
    obtain ⟨h1, h2, h3⟩ := hf hfirst
    by_cases hr : 0 < row
    · unfold writeRowChange at h
      simp only [hfirst, h1, h2, h3, Nat.sub_zero, hr, if_true] at h
      simp only [Bool.true_eq_false, and_false, if_false] at h
      rw [if_neg (show ¬ row < 1 by omega)] at h
      rw [show row - 1 + 1 = row by omega] at h
      simp only [hr, if_true, true_or] at h
      split at h
      · simp at h
      rename_i e2 g2 hg
      simp only [Except.ok.injEq, Prod.mk.injEq] at h
      refine ⟨[], e2, st.g, g2, 0, by rw [← h.1], h.2.symm, fun _ => ⟨rfl, rfl, rfl⟩, by simp,
        by omega, by omega, ?_⟩
      intro _
      rwa [Nat.sub_self] at hg
    · have hr0 : row = 0 := by omega
      subst hr0
      unfold writeRowChange at h
      simp only [hfirst, h1, h3, Nat.sub_zero, Nat.lt_irrefl, if_false, false_and, or_true, if_true,
        List.nil_append] at h
      simp only [Except.ok.injEq, Prod.mk.injEq] at h
      exact ⟨[], [], st.g, st.g, 0, by rw [← h.1]; rfl, h.2.symm, fun _ => ⟨rfl, rfl, rfl⟩, by simp,
        by omega, fun _ => ⟨rfl, rfl⟩, by omega⟩
  | false =>
    have hlt : st.prevRow < row := by
      rcases hst with x | x
      · rw [hfirst] at x; simp at x
      · exact x
    have hb : 0 < row - st.prevRow := by omega
    unfold writeRowChange at h
    simp only [hfirst, hb, if_true, true_and, Bool.false_eq_true, if_false, or_false, Nat.add_zero] at h
    split at h
    · simp at h
    rename_i e1 g1 hend
    split at h
    · simp at h
    rename_i e2 g2 hgap
    simp only [Except.ok.injEq, Prod.mk.injEq] at h
    by_cases hov : row - st.prevRow < st.prevRowRepeat
    · rw [if_pos hov] at hgap; simp at hgap
    rw [if_neg hov] at hgap
    refine ⟨e1, e2, g1, g2, st.prevRow + st.prevRowRepeat, h.1.symm, h.2.symm, by simp,
      fun _ => ⟨hend, rfl⟩, by omega, ?_, ?_⟩
    · intro he
      rw [if_neg (by omega)] at hgap
      simp only [Except.ok.injEq, Prod.mk.injEq] at hgap
      exact ⟨hgap.1.symm, hgap.2.symm⟩
    · intro hl
      rw [if_pos (by omega)] at hgap
      rw [show row - (row - st.prevRow - st.prevRowRepeat) = st.prevRow + st.prevRowRepeat by omega,
        show row - st.prevRow - st.prevRowRepeat = row - (st.prevRow + st.prevRowRepeat) by omega]
        at hgap
      exact hgap

/-- The repeat count the writer uses for the positions is the one `row_repeat` reports (no header
counts as one). -/
def RowOK (s : TSheet) (row : Nat) : Prop :=
  rowRepeatOf s row = max 1 (s.rowHeader.rowRepeat row)

theorem dataTag_ok (s : TSheet) (row : Nat) (h : RowOK s row) :
    (dataTag s row).repeated.getD 1 = rowRepeatOf s row ∧ 1 ≤ rowRepeatOf s row
    ∧ dataTag s row = rowTag (dataTag s row).repeated (s.rowHeader.valid row) := by
  rw [h]
  unfold dataTag RowHeaders.rowRepeat
  cases hv : s.rowHeader.valid row with
  | none => exact ⟨rfl, Nat.le_refl 1, rfl⟩
  | some x =>
    refine ⟨?_, by omega, rfl⟩
    show (repAttr x.repeat).getD 1 = max 1 x.repeat
    unfold repAttr
    split
    · simp only [Option.getD_some]; omega
    · simp only [Option.getD_none]; omega

theorem core_start (o : ReadOpts) (cols : ColHeaders) (s : TSheet) (row col : Nat) (g : GState)
    (k : Core) : coreEvents o cols k (writeStartRow s row (rowRepeatOf s row) col g).1
      = some { k with col := col, rowRepeat := (dataTag s row).repeated.getD 1
                      rowHeader := (readRowAttr k.rowHeader k.row (dataTag s row)).1 } := by
  have hrep2 : ∀ t, (readRowAttr k.rowHeader k.row t).2 = t.repeated.getD 1 := by
    intro t
    unfold readRowAttr
    simp only
    split <;> rfl
  have htag : ∀ (t : RowTag), coreEvents o cols k ([TEv.rowStart t]
      ++ (if 0 < col then [.cell false (repAttr col) none] else []))
      = some { k with col := col, rowRepeat := t.repeated.getD 1
                      rowHeader := (readRowAttr k.rowHeader k.row t).1 } := by
    intro t
    by_cases hc : 0 < col
    · rw [if_pos hc]
      simp only [List.cons_append, List.nil_append, coreEvents]
      rw [show coreStep o cols k (.rowStart t) = some { k with
        col := 0, rowRepeat := (readRowAttr k.rowHeader k.row t).2
        rowHeader := (readRowAttr k.rowHeader k.row t).1 } from rfl]
      simp only
      rw [core_empty o cols _ false col hc, hrep2]
      simp
    · rw [if_neg hc]
      have : col = 0 := by omega
      subst this
      simp [coreEvents, coreStep, hrep2]
  unfold writeStartRow
  simp only
  rw [List.append_assoc, coreEvents_append, core_tags o cols]
  · simp only [Option.bind_some]
    exact htag (dataTag s row)
  · intro e he
    rcases List.mem_append.mp he with he | he
    · obtain ⟨x, _, hx⟩ := List.mem_map.mp he
      rw [← hx]; rfl
    · rw [mem_ite_single he]; rfl

theorem core_tags_after (o : ReadOpts) (cols : ColHeaders) (k : Core) (tags : List TEv)
    (h : ∀ e ∈ tags, e.isTag = true) :
    coreEvents o cols k (.rowEnd :: tags) = coreStep o cols k .rowEnd := by
  simp only [coreEvents]
  split
  · rename_i k' hk'
    rw [hk', core_tags o cols tags h]
  · rename_i hk'
    exact hk'.symm

theorem endRow_events (s : TSheet) (row rep : Nat) (g g' : GState) (e : List TEv)
    (h : writeEndRow s row rep g = .ok (e, g')) :
    ∃ tags, e = .rowEnd :: tags ∧ ∀ x ∈ tags, x.isTag = true := by
  unfold writeEndRow closeGroups at h
  simp only at h
  split at h
  · simp at h
  rename_i e2 count hcl
  simp only [Except.ok.injEq, Prod.mk.injEq] at h
  refine ⟨_, h.1.symm, ?_⟩
  split at hcl
  · simp only [Except.ok.injEq, Prod.mk.injEq] at hcl
    rw [← hcl.1]
    intro x hx
    rcases List.mem_append.mp hx with hx | hx
    · simp only [List.append_eq, List.nil_append] at hx
      split at hx
      · simp only [List.mem_singleton] at hx; rw [hx]; rfl
      · simp at hx
    · rw [List.eq_of_mem_replicate hx]; rfl
  · simp at hcl

theorem endLastRow_events (g : GState) :
    ∃ tags, writeEndLastRow g = .rowEnd :: tags ∧ ∀ x ∈ tags, x.isTag = true := by
  refine ⟨_, rfl, ?_⟩
  intro x hx
  rcases List.mem_append.mp hx with hx | hx
  · simp only [List.append_eq, List.nil_append] at hx
    split at hx
    · simp only [List.mem_singleton] at hx; rw [hx]; rfl
    · simp at hx
  · rw [List.eq_of_mem_replicate hx]; rfl

/-- Core state inside a row: the tile `t` has been read up to its end tag. -/
def Core.inTile (o : ReadOpts) (cols : ColHeaders) (k : Core) (m : RowHeaders) (t : Tile) : Prop :=
  k.row = t.row ∧ k.rowRepeat = t.rep ∧ k.colData = t.has o cols
  ∧ k.rowHeader = (readRowAttr m t.row t.tag).1

theorem core_end (o : ReadOpts) (cols : ColHeaders) (k : Core) (m : RowHeaders) (t : Tile)
    (hk : k.inTile o cols m t) (ht : 1 ≤ t.rep) :
    ∃ k' m', coreStep o cols k .rowEnd = some k' ∧ k'.atRow (t.row + t.rep)
      ∧ hdrTile o cols m t = some m' ∧ k'.rowHeader = m' ∧ k'.data = k.data := by
  obtain ⟨h1, h2, h3, h4⟩ := hk
  obtain ⟨m', hm'⟩ := hdrTile_some o cols m t ht
  have hm2 := hm'
  unfold hdrTile at hm2
  simp only at hm2
  rw [← h4, ← h3, ← h1, ← h2] at hm2
  refine ⟨{ k with rowHeader := m', row := k.row + k.rowRepeat, rowRepeat := 1, colData := false },
    m', ?_, ⟨by show k.row + k.rowRepeat = _; rw [h1, h2], rfl, rfl⟩, hm', rfl, rfl⟩
  exact congrArg (Option.map (fun m => ({ k with
    rowHeader := m, row := k.row + k.rowRepeat, rowRepeat := 1, colData := false } : Core))) hm2

/-- The rows of the tiles with cells. -/
def tileRows (l : List Tile) : List (Nat × List (Nat × CellData)) :=
  (l.filter (fun t => !t.plan.isEmpty)).map (fun t => (t.row, t.plan.map (·.1)))

theorem tileRows_append (a b : List Tile) : tileRows (a ++ b) = tileRows a ++ tileRows b := by
  simp [tileRows]

theorem rawTiles_append (o : ReadOpts) (cols : ColHeaders) (a b : List Tile) :
    rawTiles o cols (a ++ b) = rawTiles o cols a ++ rawTiles o cols b := by
  simp [rawTiles]

theorem gap_tileRows {s : TSheet} {l : List Tile} (h : ∀ t ∈ l, t.OK s ∧ t.plan = []) :
    tileRows l = [] := by
  unfold tileRows
  rw [List.filter_eq_nil_iff.mpr]
  · rfl
  · intro t ht
    rw [(h t ht).2]; simp

theorem gap_rawTiles {s : TSheet} (o : ReadOpts) (cols : ColHeaders) {l : List Tile}
    (h : ∀ t ∈ l, t.OK s ∧ t.plan = []) : rawTiles o cols l = [] := by
  unfold rawTiles
  rw [List.flatMap_eq_nil_iff]
  intro t ht
  rw [(h t ht).2]; rfl

/-- No row runs into the next one. -/
def RowsApart (s : TSheet) : Nat → List (Nat × List (Nat × CellData)) → Prop
  | _, [] => True
  | start, (r, _) :: rest => start ≤ r ∧ RowsApart s (r + rowRepeatOf s r) rest

/-- One row: from the boundary `start` (gap tiles included) to the point before its end tag. -/
theorem core_one_row (o : ReadOpts) (cols : ColHeaders) (s : TSheet) (mx : Nat × Nat)
    (row start : Nat) (cs : List (Nat × CellData))
    (g1 g2 : GState) (eGap ev2 : List TEv) (spans spans' : List CellRange) (k : Core)
    (hk : k.atRow start) (hle : start ≤ row)
    (hgap0 : start = row → eGap = [] ∧ g2 = g1)
    (hgap : start < row → writeEmptyRowsBefore s start (row - start) mx g1 = .ok (eGap, g2))
    (hcells : writeCells mx row spans cs = .ok (ev2, spans'))
    (hne : cs ≠ []) (hpw : cs.Pairwise (fun a b => a.1 < b.1)) (hrep : ∀ p ∈ cs, 1 ≤ p.2.repeat)
    (hok : RowOK s row)
    (hdata : ∀ q ∈ k.data, q.1.1 < row) :
    NoOverlap cs ∧
    ∃ (gaps : List Tile) (t : Tile) (m : RowHeaders) (k' : Core),
      TileChain start gaps row ∧ (∀ x ∈ gaps, x.OK s ∧ x.plan = []) ∧ t.OK s
      ∧ t.row = row ∧ t.rep = rowRepeatOf s row ∧ t.plan.map (·.1) = cs
      ∧ hdrTiles o cols k.rowHeader gaps = some m
      ∧ coreEvents o cols k
          (eGap ++ (writeStartRow s row (rowRepeatOf s row) (firstCol cs) g2).1 ++ ev2) = some k'
      ∧ k'.inTile o cols m t ∧ k'.data = k.data ++ rawRow o cols row t.plan := by
  obtain ⟨hno, plan, hplan, hread⟩ := core_cells o cols mx row cs spans spans' ev2 hrep hpw hcells
  refine ⟨hno, ?_⟩
  obtain ⟨ht1, ht2, ht3⟩ := dataTag_ok s row hok
  have hgapc : ∃ (gaps : List Tile) (k1 : Core) (m : RowHeaders),
      coreEvents o cols k eGap = some k1 ∧ k1.atRow row ∧ TileChain start gaps row
      ∧ (∀ t ∈ gaps, t.OK s ∧ t.plan = [])
      ∧ hdrTiles o cols k.rowHeader gaps = some m ∧ k1.rowHeader = m ∧ k1.data = k.data := by
    by_cases he : start = row
    · obtain ⟨e1, _⟩ := hgap0 he
      subst e1
      exact ⟨[], k, k.rowHeader, rfl, he ▸ hk, he, by simp, rfl, rfl, rfl⟩
    · have := core_gap o cols s mx start (row - start) (by omega) g1 g2 eGap k (hgap (by omega)) hk
      rwa [show start + (row - start) = row by omega] at this
  obtain ⟨gaps, k1, m, c1, c2, c3, c4, c5, c6, c7⟩ := hgapc
  obtain ⟨col, hcol⟩ := hread { k1 with
      col := firstCol cs, rowRepeat := (dataTag s row).repeated.getD 1
      rowHeader := (readRowAttr k1.rowHeader k1.row (dataTag s row)).1 } c2.1 (fun _ => rfl) (by
    intro _ q hq
    simp only [c7] at hq
    exact Or.inl (hdata q hq))
  have hpne : plan ≠ [] := by
    intro e
    apply hne
    rw [← hplan.1, e]
    rfl
  refine ⟨gaps, ⟨row, rowRepeatOf s row, dataTag s row, plan⟩, m, ⟨k1.row, col,
    (dataTag s row).repeated.getD 1, k1.colData || !(rawRow o cols row plan).isEmpty,
    k1.data ++ rawRow o cols row plan, (readRowAttr k1.rowHeader k1.row (dataTag s row)).1⟩, c3, c4,
    ⟨ht1, ht3, fun _ => rfl, hplan.2, fun e => absurd e hpne⟩, rfl, rfl, hplan.1, c5, ?_, ?_, ?_⟩
  · rw [List.append_assoc, coreEvents_append, c1]
    simp only [Option.bind_some]
    rw [coreEvents_append, core_start]
    simp only [Option.bind_some]
    exact hcol
  · refine ⟨c2.1, ht1, ?_, ?_⟩
    · show (k1.colData || _) = _
      rw [c2.2.1, Bool.false_or]
      rfl
    · show (readRowAttr k1.rowHeader k1.row (dataTag s row)).1 = _
      rw [c6, c2.1]
  · show k1.data ++ _ = _
    rw [c7]

/-- The rest of the rows, once a row is open. -/
theorem core_rest (o : ReadOpts) (cols : ColHeaders) (s : TSheet) (mx : Nat × Nat)
    (rows : List (Nat × List (Nat × CellData))) :
    ∀ (st : WState) (t : Tile) (m : RowHeaders) (k : Core) (evs : List TEv),
    RowsSorted rows → (∀ p ∈ rows, st.prevRow < p.1) →
    (∀ p ∈ rows, ∀ q ∈ p.2, 1 ≤ q.2.repeat) →
    (∀ p ∈ rows, RowOK s p.1) →
    st.first = false → st.prevRow = t.row → st.prevRowRepeat = t.rep → 1 ≤ t.rep →
    k.inTile o cols m t → (∀ q ∈ k.data, q.1.1 ≤ t.row) →
    writeRowList s mx st rows = .ok evs →
    RowsApart s (t.row + t.rep) rows ∧ (∀ p ∈ rows, NoOverlap p.2) ∧
    ∃ (tiles : List Tile) (b : Nat) (m' : RowHeaders) (k' : Core),
      TileChain (t.row + t.rep) tiles b ∧ (∀ x ∈ tiles, x.OK s) ∧ tileRows tiles = rows
      ∧ hdrTiles o cols m (t :: tiles) = some m'
      ∧ coreEvents o cols k ((if rows.isEmpty then writeEndLastRow st.g else []) ++ evs) = some k'
      ∧ k'.atRow b ∧ k'.rowHeader = m' ∧ k'.data = k.data ++ rawTiles o cols tiles
      ∧ ∀ x ∈ tiles, ∃ p ∈ rows, x.row ≤ p.1 := by
  induction rows with
  | nil =>
    intro st t m k evs _ _ _ _ hf hpr hprr ht hk hd h
    simp only [writeRowList, Except.ok.injEq] at h
    subst h
    refine ⟨trivial, by simp, ?_⟩
    obtain ⟨k', m', e1, e2, e3, e4, e5⟩ := core_end o cols k m t hk ht
    refine ⟨[], t.row + t.rep, m', k', rfl, by simp, rfl, ?_, ?_, e2, e4, by rw [e5]; simp [rawTiles], by simp⟩
    · simp only [hdrTiles, e3]
    · obtain ⟨tags, ht1, ht2⟩ := endLastRow_events st.g
      simp only [List.isEmpty_nil, if_true, List.append_nil]
      rw [ht1, core_tags_after o cols k tags ht2, e1]
  | cons p rest ih =>
    obtain ⟨row, cs⟩ := p
    intro st t m k evs hrs hprev hrep hok hf hpr hprr ht hk hd h
    have hlt : st.prevRow < row := hprev (row, cs) (by simp)
    simp only [writeRowList] at h
    split at h
    · simp at h
    rename_i e1 g hch
    split at h
    · simp at h
    rename_i ev2 spans' hcells
    split at h
    · simp at h
    rename_i e5 hrest
    simp only [Except.ok.injEq] at h
    obtain ⟨eEnd, eGap, g1, g2, start, r1, r2, _, r4, r5, r6, r7⟩ := rowChange_ok s mx st row
      (firstCol cs) e1 g (Or.inr hlt) (by rw [hf]; simp) hch
    obtain ⟨r4a, r4b⟩ := r4 hf
    obtain ⟨k1, m1, f1, f2, f3, f4, f5⟩ := core_end o cols k m t hk ht
    have hstart : start = t.row + t.rep := by rw [r4b, hpr, hprr]
    obtain ⟨tags, ht1, ht2⟩ := endRow_events s _ _ _ _ _ r4a
    have hcs := hrs.2 (row, cs) (by simp)
    obtain ⟨hno, gaps, t', m2, k2, q1, q2, q3, q4, q5, q6, q7, q8, q9, q10⟩ :=
      core_one_row o cols s mx row start cs g1 g2 eGap ev2 st.spans spans' k1
        (by rw [hstart]; exact f2) r5 r6 r7 hcells hcs.1 hcs.2 (hrep (row, cs) (by simp))
        (hok (row, cs) (by simp))
        (by
          intro q hq
          rw [f5] at hq
          have := hd q hq
          omega)
    have hrs' : RowsSorted rest :=
      ⟨(List.pairwise_cons.mp hrs.1).2, fun p hp => hrs.2 p (by simp [hp])⟩
    obtain ⟨z0, z1, tiles, b, m', k', z2, z3, z4, z5, z6, z7, z8, z9, z10⟩ := ih
      ⟨false, row, rowRepeatOf s row, 0, g, spans'⟩ t' m2 k2 e5 hrs'
      (fun p hp => (List.pairwise_cons.mp hrs.1).1 p hp)
      (fun p hp => hrep p (by simp [hp])) (fun p hp => hok p (by simp [hp])) rfl q4.symm q5.symm
      (by rw [q5]; exact (dataTag_ok s row (hok (row, cs) (by simp))).2.1) q9
      (by
        intro q hq
        rw [q10, f5] at hq
        rcases List.mem_append.mp hq with x | x
        · have := hd q x; rw [q4]; omega
        · unfold rawRow at x
          obtain ⟨y, _, hy⟩ := List.mem_flatMap.mp x
          obtain ⟨z, _, hz⟩ := List.mem_filterMap.mp hy
          rw [rawRun_key hz, q4]
          exact Nat.le_refl row)
      hrest
    refine ⟨⟨by rw [← hstart]; exact r5, by rw [q4, q5] at z0; exact z0⟩, ?_, gaps ++ t' :: tiles, b,
      m', k', ?_, ?_, ?_, ?_, ?_, z7, z8, ?_, ?_⟩
    · intro p hp
      rcases List.mem_cons.mp hp with x | x
      · rw [x]; exact hno
      · exact z1 p x
    · rw [← hstart]
      exact q1.append ⟨q4, by rw [q5]; exact (dataTag_ok s row (hok (row, cs) (by simp))).2.1,
        by rw [← q4]; exact z2⟩
    · intro x hx
      rcases List.mem_append.mp hx with y | y
      · exact (q2 x y).1
      · rcases List.mem_cons.mp y with w | w
        · rw [w]; exact q3
        · exact z3 x w
    · rw [tileRows_append, gap_tileRows q2]
      have hpne : t'.plan ≠ [] := by
        intro e
        apply hcs.1
        rw [← q6, e]
        rfl
      have : tileRows (t' :: tiles) = (t'.row, t'.plan.map (·.1)) :: tileRows tiles := by
        unfold tileRows
        rw [List.filter_cons_of_pos (by simpa using hpne)]
        rfl
      rw [this, z4, q4, q6]
      rfl
    · simp only [hdrTiles, f3]
      rw [hdrTiles_append, ← f4, q7]
      exact z5
    · rw [← h, r1, ht1]
      simp only [List.isEmpty_cons, Bool.false_eq_true, if_false, List.nil_append]
      rw [show TEv.rowEnd :: tags ++ eGap
            ++ (writeStartRow s row (rowRepeatOf s row) (firstCol cs) g2).1 ++ ev2
            ++ (if rest.isEmpty = true then writeEndLastRow g else []) ++ e5
          = (TEv.rowEnd :: tags) ++ ((eGap
            ++ (writeStartRow s row (rowRepeatOf s row) (firstCol cs) g2).1 ++ ev2)
            ++ ((if rest.isEmpty = true then writeEndLastRow g else []) ++ e5)) by
        simp [List.append_assoc]]
      rw [coreEvents_append, core_tags_after o cols k tags ht2, f1]
      simp only [Option.bind_some]
      rw [coreEvents_append, q8]
      simp only [Option.bind_some]
      exact z6
    · rw [z9, q10, f5, rawTiles_append, gap_rawTiles o cols q2]
      simp [rawTiles, q4, List.append_assoc]
    · intro x hx
      rcases List.mem_append.mp hx with y | y
      · have := TileChain.mem q1 y
        exact ⟨(row, cs), by simp, by simp only; omega⟩
      · rcases List.mem_cons.mp y with w | w
        · exact ⟨(row, cs), by simp, by rw [w, q4]; exact Nat.le_refl _⟩
        · obtain ⟨p, p1, p2⟩ := z10 x w
          exact ⟨p, by simp [p1], p2⟩

/-- Reading the rows of a written sheet is reading its tiles. -/
theorem core_sheet (o : ReadOpts) (cols : ColHeaders) (s : TSheet) (hd : OMap.Sorted s.data)
    (hok : ∀ q ∈ s.data, RowOK s q.1.1) (hrep : ∀ q ∈ s.data, 1 ≤ q.2.repeat)
    (evs : List TEv) (h : writeRows s = .ok evs) (k0 : Core) (hk0 : k0.atRow 0)
    (hk1 : k0.data = []) :
    RowsApart s 0 (rowsOf s.data) ∧ (∀ p ∈ rowsOf s.data, NoOverlap p.2) ∧
    ∃ (tiles : List Tile) (b : Nat) (m' : RowHeaders) (k' : Core),
      TileChain 0 tiles b ∧ (∀ x ∈ tiles, x.OK s) ∧ tileRows tiles = rowsOf s.data
      ∧ hdrTiles o cols k0.rowHeader tiles = some m'
      ∧ coreEvents o cols k0 evs = some k'
      ∧ k'.atRow b ∧ k'.rowHeader = m' ∧ k'.data = rawTiles o cols tiles
      ∧ ∀ x ∈ tiles, ∃ p ∈ rowsOf s.data, x.row ≤ p.1 := by
  have hmx : ∀ p ∈ s.data, p.1.1 < (Cells.usedGridSize s.data).1 := by
    intro p hp
    have : ∀ (l : List ((Nat × Nat) × CellData)) (a : Nat × Nat), (p ∈ l ∨ p.1.1 ≤ a.1) →
        p.1.1 ≤ (l.foldl (fun (mx : Nat × Nat) q => (max mx.1 q.1.1, max mx.2 q.1.2)) a).1 := by
      intro l
      induction l with
      | nil => intro a h; simpa using h
      | cons q l ih =>
        intro a h
        apply ih
        rcases h with h | h
        · rcases List.mem_cons.mp h with e | e
          · subst e; right; simp only; omega
          · left; exact e
        · right; simp only; omega
    have h2 := this s.data (0, 0) (Or.inl hp)
    exact Nat.lt_succ_of_le h2
  unfold writeRows at h
  rw [((writeLoop_rows s _ s.data hd hmx).1 {} (fun _ _ => Or.inl rfl))] at h
  have hrs := rowsOf_sorted s.data hd
  have hrows : ∀ p ∈ rowsOf s.data, ∀ q ∈ p.2, ((p.1, q.1), q.2) ∈ s.data := by
    intro p hp q hq
    exact rowsOf_mem_key (r := p.1) (cs := p.2) hp hq
  cases hr : rowsOf s.data with
  | nil =>
    rw [hr] at h
    simp only [writeRowList, Except.ok.injEq] at h
    subst h
    refine ⟨trivial, by simp, [], 0, k0.rowHeader, k0, rfl, by simp, rfl, rfl, rfl, hk0, rfl, hk1, by simp⟩
  | cons p rest =>
    obtain ⟨row, cs⟩ := p
    rw [hr] at h hrs hrows
    simp only [writeRowList] at h
    split at h
    · simp at h
    rename_i e1 g hch
    split at h
    · simp at h
    rename_i ev2 spans' hcells
    split at h
    · simp at h
    rename_i e5 hrest
    simp only [Except.ok.injEq] at h
    obtain ⟨eEnd, eGap, g1, g2, start, r1, r2, r3, _, r5, r6, r7⟩ := rowChange_ok s _ {} row
      (firstCol cs) e1 g (Or.inl rfl) (fun _ => ⟨rfl, rfl, rfl⟩) hch
    obtain ⟨r3a, r3b, r3c⟩ := r3 rfl
    subst r3a
    subst r3c
    have hcs := hrs.2 (row, cs) (by simp)
    have hokr : ∀ p ∈ (row, cs) :: rest, RowOK s p.1 := by
      intro p hp
      obtain ⟨q, hq⟩ := List.exists_mem_of_ne_nil _ (hrs.2 p hp).1
      exact hok ((p.1, q.1), q.2) (hrows p hp q hq)
    have hrepr : ∀ p ∈ (row, cs) :: rest, ∀ q ∈ p.2, 1 ≤ q.2.repeat :=
      fun p hp q hq => hrep _ (hrows p hp q hq)
    obtain ⟨hno, gaps, t', m2, k2, q1, q2, q3, q4, q5, q6, q7, q8, q9, q10⟩ :=
      core_one_row o cols s _ row 0 cs g1 g2 eGap ev2 [] spans' k0
        hk0 r5 r6 r7 hcells hcs.1 hcs.2 (hrepr (row, cs) (by simp))
        (hokr (row, cs) (by simp)) (by rw [hk1]; simp)
    have hrs' : RowsSorted rest :=
      ⟨(List.pairwise_cons.mp hrs.1).2, fun p hp => hrs.2 p (by simp [hp])⟩
    obtain ⟨z0, z1, tiles, b, m', k', z2, z3, z4, z5, z6, z7, z8, z9, z10⟩ := core_rest o cols s _ rest
      ⟨false, row, rowRepeatOf s row, 0, g, spans'⟩ t' m2 k2 e5 hrs'
      (fun p hp => (List.pairwise_cons.mp hrs.1).1 p hp)
      (fun p hp => hrepr p (by simp [hp])) (fun p hp => hokr p (by simp [hp])) rfl q4.symm q5.symm
      (by rw [q5]; exact (dataTag_ok s row (hokr (row, cs) (by simp))).2.1) q9
      (by
        intro q hq
        rw [q10, hk1] at hq
        simp only [List.nil_append] at hq
        unfold rawRow at hq
        obtain ⟨y, _, hy⟩ := List.mem_flatMap.mp hq
        obtain ⟨z, _, hz⟩ := List.mem_filterMap.mp hy
        rw [rawRun_key hz, q4]
        exact Nat.le_refl row)
      hrest
    refine ⟨⟨by omega, by rw [q4, q5] at z0; exact z0⟩, ?_, gaps ++ t' :: tiles, b,
      m', k', ?_, ?_, ?_, ?_, ?_, z7, z8, ?_, ?_⟩
    · intro p hp
      rcases List.mem_cons.mp hp with x | x
      · rw [x]; exact hno
      · exact z1 p x
    · exact q1.append ⟨q4, by rw [q5]; exact (dataTag_ok s row (hokr (row, cs) (by simp))).2.1,
        by rw [← q4]; exact z2⟩
    · intro x hx
      rcases List.mem_append.mp hx with y | y
      · exact (q2 x y).1
      · rcases List.mem_cons.mp y with w | w
        · rw [w]; exact q3
        · exact z3 x w
    · rw [tileRows_append, gap_tileRows q2]
      have hpne : t'.plan ≠ [] := by
        intro e
        apply hcs.1
        rw [← q6, e]
        rfl
      have : tileRows (t' :: tiles) = (t'.row, t'.plan.map (·.1)) :: tileRows tiles := by
        unfold tileRows
        rw [List.filter_cons_of_pos (by simpa using hpne)]
        rfl
      rw [this, z4, q4, q6]
      rfl
    · rw [hdrTiles_append, q7]
      exact z5
    · rw [← h, r1]
      rw [show [] ++ eGap
            ++ (writeStartRow s row (rowRepeatOf s row) (firstCol cs) g2).1 ++ ev2
            ++ (if rest.isEmpty = true then writeEndLastRow g else []) ++ e5
          = ((eGap
            ++ (writeStartRow s row (rowRepeatOf s row) (firstCol cs) g2).1 ++ ev2)
            ++ ((if rest.isEmpty = true then writeEndLastRow g else []) ++ e5)) by
        simp [List.append_assoc]]
      rw [coreEvents_append, q8]
      simp only [Option.bind_some]
      exact z6
    · rw [z9, q10, hk1, rawTiles_append, gap_rawTiles o cols q2]
      simp [rawTiles, q4]
    · intro x hx
      rcases List.mem_append.mp hx with y | y
      · have := TileChain.mem q1 y
        exact ⟨(row, cs), by simp, by simp only; omega⟩
      · rcases List.mem_cons.mp y with w | w
        · exact ⟨(row, cs), by simp, by rw [w, q4]; exact Nat.le_refl _⟩
        · obtain ⟨p, p1, p2⟩ := z10 x w
          exact ⟨p, by simp [p1], p2⟩

end Verif
