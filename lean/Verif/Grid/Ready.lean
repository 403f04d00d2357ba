import Verif.Grid.RowProps
import Verif.TableXml.Edit

/-!
# Which rows of a sheet that was read can be filled

`Ready` is what `C96_package_partial` asks of a row before a cell of it is changed. Here it is shown for which rows of a
sheet that was read it holds, and what becomes of the sheet where it does not.
-/

set_option autoImplicit false

namespace Verif

open OMap

/-- A header without span is left behind by a row with cells and attributes, at the row below it, and stays only if that
row has no cells. -/
theorem hdr_zero (o : ReadOpts) (cols : ColHeaders) (l : List Tile) :
    ∀ (m m' : RowHeaders) (a b : Nat), HInv m a → TileChain a l b → (∀ t ∈ l, t.tag.repeated.getD 1 = t.rep) →
    hdrTiles o cols m l = some m' →
    ∀ k x, get? m' k = some x → x.span = 0 →
      (get? m k = some x ∨ ∃ t ∈ l, t.has o cols = true ∧ t.tag.styled = true ∧ k = t.row + 1) := by
  induction l with
  | nil =>
    intro m m' a b _ _ _ h k x hk _
    simp only [hdrTiles, Option.some.injEq] at h
    subst h; exact Or.inl hk
  | cons t l ih =>
    intro m m' a b hI hc htag h k x hk hx
    simp only [hdrTiles] at h
    split at h
    · rename_i m1 h1
      obtain ⟨c1, c2, c3⟩ := hc
      subst c1
      obtain ⟨g1, g2⟩ := hdrTile_spec o cols m m1 t hI (htag t (by simp)) c2 h1
      rcases ih m1 m' _ b g1 c3 (fun y hy => htag y (by simp [hy])) h k x hk hx with hk | ⟨t', h1, h2⟩
      · rw [g2] at hk
        unfold hdrAfter at hk
        split at hk
        · split at hk
          · simp only [Option.some.injEq] at hk
            rw [← hk] at hx
            split at hx
            · cases hx
            · cases hx
          · split at hk
            · simp only [Option.some.injEq] at hk
              rw [← hk] at hx
              cases hx
            · exact Or.inl hk
        · split at hk
          · rename_i e
            exact Or.inr ⟨t, by simp, e.2.1, e.2.2, e.1⟩
          · exact Or.inl hk
      · exact Or.inr ⟨t', by simp [h1], h2⟩
    · cases h

/-- That header, if the row below has neither cells nor attributes. -/
theorem hdr_left (o : ReadOpts) (cols : ColHeaders) (l : List Tile) :
    ∀ (m m' : RowHeaders) (a b : Nat), HInv m a → TileChain a l b → (∀ t ∈ l, t.tag.repeated.getD 1 = t.rep) →
    hdrTiles o cols m l = some m' → ∀ k x, get? m k = some x → x.span = 0 →
    (∀ t ∈ l, t.row ≤ k → k ≤ t.row + 1 → k = t.row ∧ t.has o cols = false ∧ t.tag.styled = false) →
    get? m' k = some x := by
  induction l with
  | nil =>
    intro m m' a b _ _ _ h k x hk _ _
    simp only [hdrTiles, Option.some.injEq] at h
    subst h; exact hk
  | cons t l ih =>
    intro m m' a b hI hc htag h k x hk hx hl
    simp only [hdrTiles] at h
    split at h
    · rename_i m1 h1
      obtain ⟨c1, c2, c3⟩ := hc
      subst c1
      obtain ⟨g1, g2⟩ := hdrTile_spec o cols m m1 t hI (htag t (by simp)) c2 h1
      refine ih m1 m' _ b g1 c3 (fun y hy => htag y (by simp [hy])) h k x ?_ hx (fun y hy => hl y (by simp [hy]))
      rw [g2]
      unfold hdrAfter
      by_cases e : k = t.row
      · obtain ⟨_, e1, e2⟩ := hl t (by simp) (by omega) (by omega)
        rw [if_pos e, e1, e2]
        simpa using hk
      · rw [if_neg e]
        by_cases e' : k = t.row + 1
        · have := hl t (by simp) (by omega) (by omega)
          omega
        · rw [if_neg (fun y => e' y.1)]
          exact hk
    · cases h

/-- The header a row with cells and attributes leaves behind. -/
theorem hdr_next (o : ReadOpts) (cols : ColHeaders) (l : List Tile) :
    ∀ (m m' : RowHeaders) (a b : Nat), HInv m a → TileChain a l b → (∀ t ∈ l, t.tag.repeated.getD 1 = t.rep) →
    hdrTiles o cols m l = some m' → ∀ t ∈ l, t.has o cols = true → t.tag.styled = true → t.rep = 1 →
    (∀ t' ∈ l, t'.row = t.row + 1 → t'.has o cols = false ∧ t'.tag.styled = false) →
    get? m' (t.row + 1) = some { t.tag.hdr with span := 0 } := by
  induction l with
  | nil => intro m m' a b _ _ _ _ t ht; cases ht
  | cons t l ih =>
    intro m m' a b hI hc htag h q hq hhas hst hrep hl
    simp only [hdrTiles] at h
    split at h
    · rename_i m1 h1
      obtain ⟨c1, c2, c3⟩ := hc
      subst c1
      obtain ⟨g1, g2⟩ := hdrTile_spec o cols m m1 t hI (htag t (by simp)) c2 h1
      rcases List.mem_cons.mp hq with e | e
      · subst e
        refine hdr_left o cols l m1 m' _ b g1 c3 (fun y hy => htag y (by simp [hy])) h (q.row + 1)
          { q.tag.hdr with span := 0 } ?_ rfl ?_
        · rw [g2]
          unfold hdrAfter
          rw [if_neg (by omega), if_pos ⟨rfl, hhas, hst⟩]
        · intro y hy y1 y2
          have := (c3.mem hy).1
          have e : y.row = q.row + 1 := by omega
          exact ⟨e.symm, hl y (by simp [hy]) e⟩
      · exact ih m1 m' _ b g1 c3 (fun y hy => htag y (by simp [hy])) h q e hhas hst hrep
          (fun y hy => hl y (by simp [hy]))
    · cases h

/-- **C96, which rows can be filled.** After a sheet is written and read, a cell of row `r` may be changed unless the row
above had cells and attributes (a style, a default cell style or being hidden) and row `r` itself nothing to show. -/
theorem C96_ready_partial (s s' : TSheet) (o : ReadOpts) (evs : List TEv) (hc : s.CellsOK)
    (hcw : s.colHeader.WF) (one : ∀ r, s.DataRow r → s.repeatOf r = 1)
    (ho : o.useRepeat = false) (hw : writeSheet s = .ok evs) (hr : readTable o evs = some s') (r : Nat)
    (hok : s.HasContent o r ∨ ∀ r0, r = r0 + 1 → s.DataRow r0 → s.rowHeader.attrs r0 = {}) : TableXml.Ready s' r := by
  have hwf : (prepareCols s.groupCols s.headerCols s.colHeader).WF :=
    ColHeaders.splitAt_wf _ _ (ColHeaders.dedup_wf _ hcw)
  obtain ⟨cols, tiles, b, m, h1, h2, hdata, hrow, _, hhas, hplan, h4, hrh, _⟩ := row_tiles0
    { s with colHeader := prepareCols s.groupCols s.headerCols s.colHeader } s' o evs
    ⟨hc.sorted, hc.rows, hc.rep, hc.spans⟩ hwf ho hw hr
  have h2 : ∀ t ∈ tiles, t.OK s := h2
  have hdata : ∀ t ∈ tiles, t.plan ≠ [] → s.DataRow t.row ∧ t.rep = s.repeatOf t.row := hdata
  have hrow : ∀ r, s.DataRow r → ∃ t ∈ tiles, t.row = r ∧ t.plan ≠ [] := hrow
  have hhas : ∀ t ∈ tiles, ∀ c d x, s.data.get? (t.row, c) = some d → o.dec d = some x → x.isEmpty = false →
      t.has o cols = true := hhas
  have htags : ∀ t ∈ tiles, t.tag.repeated.getD 1 = t.rep := fun t ht => (h2 t ht).1
  obtain ⟨i1, _, i3⟩ := hdrTiles_spec o cols tiles [] m 0 b (hinv_nil 0) h1 htags h4
  intro h hh
  rw [hrh, swapAll_get?] at hh
  cases hx : get? (clampLast m) r with
  | none => rw [hx] at hh; cases hh
  | some x =>
    rw [hx] at hh
    simp only [Option.map_some, Option.some.injEq] at hh
    subst hh
    show x.span = 1
    obtain ⟨y, y1, y2, _⟩ := clampLast_mem _ _ _ (mem_of_get?_eq_some hx)
    have hy := (get?_eq_some_iff i1.sorted).mpr y1
    have hle := i1.span hy
    rcases Nat.eq_zero_or_pos y.span with hz | hz
    · exfalso
      have hno : ¬ s.HasContent o r := by
        rintro ⟨c, d, w, w1, w2, w3⟩
        obtain ⟨t, ht, e, _⟩ := hrow r ⟨c, d, w1⟩
        have := i3 t ht (hhas t ht c d w (by rw [e]; exact w1) w2 w3)
        rw [e, hy] at this
        simp only [Option.some.injEq] at this
        rw [this] at hz
        split at hz
        · cases hz
        · cases hz
      rcases hok with hok | hok
      · exact hno hok
      · rcases hdr_zero o cols tiles [] m 0 b (hinv_nil 0) h1 htags h4 r y hy hz with e | ⟨t, t1, t2, t3, t4⟩
        · cases e
        · obtain ⟨d1, d2⟩ := hdata t t1 (hplan t t1 t2)
          exact (tag_styled s t (h2 t t1)).mp t3 (hok t.row t4 d1)
    · omega

/-- **C96, where rows cannot be filled.** The exception in `C96_ready_partial` is real: below a row with content and
attributes an empty row without attributes is never ready after reading. -/
theorem C96_unready (s s' : TSheet) (o : ReadOpts) (evs : List TEv) (hc : s.CellsOK)
    (hcw : s.colHeader.WF) (one : ∀ r, s.DataRow r → s.repeatOf r = 1)
    (ho : o.useRepeat = false) (hw : writeSheet s = .ok evs) (hr : readTable o evs = some s') (r : Nat)
    (hs : s.HasContent o r) (ha : s.rowHeader.attrs r ≠ {}) (he : ¬ s.DataRow (r + 1))
    (hn : s.rowHeader.attrs (r + 1) = {}) : ∃ h, s'.rowHeader.get? (r + 1) = some h ∧ h.repeat = 0 := by
  have hwf : (prepareCols s.groupCols s.headerCols s.colHeader).WF :=
    ColHeaders.splitAt_wf _ _ (ColHeaders.dedup_wf _ hcw)
  obtain ⟨cols, tiles, b, m, h1, h2, hdata, hrow, _, hhas, hplan, h4, hrh, _⟩ := row_tiles0
    { s with colHeader := prepareCols s.groupCols s.headerCols s.colHeader } s' o evs
    ⟨hc.sorted, hc.rows, hc.rep, hc.spans⟩ hwf ho hw hr
  have h2 : ∀ t ∈ tiles, t.OK s := h2
  have hdata : ∀ t ∈ tiles, t.plan ≠ [] → s.DataRow t.row ∧ t.rep = s.repeatOf t.row := hdata
  have hrow : ∀ r, s.DataRow r → ∃ t ∈ tiles, t.row = r ∧ t.plan ≠ [] := hrow
  have hhas : ∀ t ∈ tiles, ∀ c d x, s.data.get? (t.row, c) = some d → o.dec d = some x → x.isEmpty = false →
      t.has o cols = true := hhas
  have htags : ∀ t ∈ tiles, t.tag.repeated.getD 1 = t.rep := fun t ht => (h2 t ht).1
  obtain ⟨i1, _, _⟩ := hdrTiles_spec o cols tiles [] m 0 b (hinv_nil 0) h1 htags h4
  obtain ⟨c, d, w, w1, w2, w3⟩ := hs
  obtain ⟨t, ht, e, hp⟩ := hrow r ⟨c, d, w1⟩
  have hth := hhas t ht c d w (by rw [e]; exact w1) w2 w3
  have hrep : t.rep = 1 := by rw [(hdata t ht hp).2, e]; exact one r ⟨c, d, w1⟩
  have hst := (tag_styled s t (h2 t ht)).mpr (by rw [e]; exact ha)
  have hget := hdr_next o cols tiles [] m 0 b (hinv_nil 0) h1 htags h4 t ht hth hst hrep (by
    intro t' ht' e'
    rw [e] at e'
    refine ⟨?_, ?_⟩
    · cases hh : t'.has o cols with
      | false => rfl
      | true => exact absurd (by rw [← e']; exact (hdata t' ht' (hplan t' ht' hh)).1) he
    · cases hh : t'.tag.styled with
      | false => rfl
      | true => exact absurd (by rw [e']; exact hn) ((tag_styled s t' (h2 t' ht')).mp hh))
  rw [e] at hget
  have hthr : t.tag.hdr.repeat ≤ 1000 := by
    show t.tag.repeated.getD 1 ≤ 1000
    rw [htags t ht, hrep]
    omega
  have := clampLast_get? m i1.sorted (r + 1) _ hget hthr
  refine ⟨swapHdr { t.tag.hdr with span := 0 }, ?_, rfl⟩
  have e1 : s'.rowHeader.get? (r + 1) = OMap.get? (swapAll (clampLast m)) (r + 1) := by rw [hrh]
  rw [e1, swapAll_get?, this]
  rfl

end Verif
