import Verif.Grid.Hdr
import Verif.Grid.Spec

/-!
# The cells after writing and reading
-/

set_option autoImplicit false

namespace Verif

open OMap

/-! ### Kinds of events -/

theorem rowChange_notCol (s : TSheet) (mx : Nat × Nat) (st : WState) (row col : Nat) (e : List TEv)
    (g : GState) (h : writeRowChange s mx st row col = .ok (e, g)) : ∀ x ∈ e, x.isCol = false := by
  have tags : ∀ l : List TEv, (∀ x ∈ l, x.isTag = true) → ∀ x ∈ l, x.isCol = false := by
    intro l hl x hx
    have := hl x hx
    cases x <;> first | rfl | simp [TEv.isTag] at this
  have hend : ∀ (row rep : Nat) (g g' : GState) (e : List TEv),
      writeEndRow s row rep g = .ok (e, g') → ∀ x ∈ e, x.isCol = false := by
    intro row rep g g' e h x hx
    obtain ⟨t, e1, e2⟩ := endRow_events s row rep g g' e h
    rw [e1] at hx
    rcases List.mem_cons.mp hx with y | y
    · rw [y]; rfl
    · exact tags t e2 x y
  have hempty : ∀ (row n : Nat), ∀ x ∈ writeEmptyRow s row n mx, x.isCol = false := by
    intro row n x hx
    simp only [writeEmptyRow, List.mem_cons, List.not_mem_nil, or_false] at hx
    rcases hx with rfl | rfl | rfl <;> rfl
  have hrow : ∀ (g g' : GState) (r : Nat) (e : List TEv),
      writeGapRow s mx g r = .ok (e, g') → ∀ x ∈ e, x.isCol = false := by
    intro g g' r e h x hx
    unfold writeGapRow closeGroups at h
    simp only at h
    split at h
    · simp at h
    rename_i e2' count hcl
    simp only [Except.ok.injEq, Prod.mk.injEq] at h
    split at hcl
    · simp only [Except.ok.injEq, Prod.mk.injEq] at hcl
      rw [← h.1, ← hcl.1] at hx
      simp only [List.mem_append] at hx
      rcases hx with (((hx | hx) | hx) | hx) | hx
      · rw [mem_ite_single hx]; rfl
      · rw [List.eq_of_mem_replicate hx]; rfl
      · obtain ⟨x, _, hx⟩ := List.mem_map.mp hx
        rw [← hx]; rfl
      · rw [mem_ite_single hx]; rfl
      · exact hempty _ _ x hx
    · simp at hcl
  have hrows : ∀ (n r : Nat) (g g' : GState) (e : List TEv),
      writeGapRows s mx r n g = .ok (e, g') → ∀ x ∈ e, x.isCol = false := by
    intro n
    induction n with
    | zero =>
      intro r g g' e h x hx
      simp only [writeGapRows, Except.ok.injEq, Prod.mk.injEq] at h
      rw [← h.1] at hx; simp at hx
    | succ n ih =>
      intro r g g' e h x hx
      simp only [writeGapRows] at h
      split at h
      · simp at h
      rename_i h1
      split at h
      · simp at h
      rename_i h2
      simp only [Except.ok.injEq, Prod.mk.injEq] at h
      rw [← h.1] at hx
      rcases List.mem_append.mp hx with y | y
      · exact hrow _ _ _ _ h1 x y
      · exact ih _ _ _ _ h2 x y
  have hgap : ∀ (n r : Nat) (g g' : GState) (e : List TEv),
      writeEmptyRowsBefore s r n mx g = .ok (e, g') → ∀ x ∈ e, x.isCol = false := by
    intro n r g g' e h
    unfold writeEmptyRowsBefore at h
    split at h
    · exact hrows n r g g' e h
    · simp only [Except.ok.injEq, Prod.mk.injEq] at h
      rw [← h.1]
      exact hempty _ _
  have hstart : ∀ (row rep col : Nat) (g : GState),
      ∀ x ∈ (writeStartRow s row rep col g).1, x.isCol = false := by
    intro row rep col g x hx
    unfold writeStartRow at hx
    simp only [List.mem_append] at hx
    rcases hx with ((hx | hx) | hx) | hx
    · obtain ⟨x, _, hx⟩ := List.mem_map.mp hx
      rw [← hx]; rfl
    · rw [mem_ite_single hx]; rfl
    · simp only [List.mem_singleton] at hx; rw [hx]; rfl
    · rw [mem_ite_single hx]; rfl
  unfold writeRowChange at h
  simp only at h
  split at h
  · simp at h
  rename_i e1 g1 hen
  split at h
  · simp at h
  rename_i e2 g2 hga
  have p1 : ∀ x ∈ e1, x.isCol = false := by
    split at hen
    · exact hend _ _ _ _ _ hen
    · simp only [Except.ok.injEq, Prod.mk.injEq] at hen
      rw [← hen.1]; simp
  have p2 : ∀ x ∈ e2, x.isCol = false := by
    repeat' (split at hga)
    all_goals first
      | (simp at hga; done)
      | exact hgap _ _ _ _ _ hga
      | (simp only [Except.ok.injEq, Prod.mk.injEq] at hga; rw [← hga.1]; simp)
  split at h
  · simp only [Except.ok.injEq, Prod.mk.injEq] at h
    intro x hx
    rw [← h.1] at hx
    simp only [List.mem_append] at hx
    rcases hx with (hx | hx) | hx
    · exact p1 x hx
    · exact p2 x hx
    · exact hstart _ _ _ _ x hx
  · simp only [Except.ok.injEq, Prod.mk.injEq] at h
    intro x hx
    rw [← h.1] at hx
    rcases List.mem_append.mp hx with hx | hx
    · exact p1 x hx
    · exact p2 x hx

theorem writeFill_notCol (spans : List CellRange) (mx : Nat × Nat) (row col rep : Nat)
    (n : Nat × Nat) (e : List TEv) (h : writeFill spans mx row col rep n = .ok e) :
    ∀ x ∈ e, x.isCol = false := by
  have hw : ∀ ps : List SplitCols, ∀ x ∈ writeEmptyCells ps, x.isCol = false := by
    intro ps x hx
    obtain ⟨p, _, hx⟩ := List.mem_map.mp hx
    rw [← hx]; rfl
  unfold writeFill at h
  dsimp only at h
  repeat' (split at h)
  all_goals first
    | (simp at h; done)
    | (simp only [Except.ok.injEq] at h; rw [← h]; first | exact hw _ | simp)

theorem writeLoop_notCol (s : TSheet) (mx : Nat × Nat) (cells : List ((Nat × Nat) × CellData)) :
    ∀ (st : WState) (evs : List TEv), writeLoop s mx st cells = .ok evs →
    ∀ x ∈ evs, x.isCol = false := by
  induction cells with
  | nil =>
    intro st evs h
    simp only [writeLoop, Except.ok.injEq] at h
    rw [← h]; simp
  | cons p rest ih =>
    obtain ⟨⟨row, col⟩, d⟩ := p
    intro st evs h
    simp only [writeLoop] at h
    split at h
    · simp at h
    rename_i h1
    split at h
    · simp at h
    rename_i h2
    split at h
    · simp at h
    rename_i h3
    split at h
    · simp at h
    rename_i h4
    simp only [Except.ok.injEq] at h
    intro x hx
    rw [← h] at hx
    simp only [List.mem_append] at hx
    rcases hx with (((hx | hx) | hx) | hx) | hx
    · exact rowChange_notCol _ _ _ _ _ _ _ h1 x hx
    · obtain ⟨p, _, hx⟩ := List.mem_map.mp hx
      rw [← hx]; rfl
    · exact writeFill_notCol _ _ _ _ _ _ _ h3 x hx
    · split at hx
      · obtain ⟨t, t1, t2⟩ := endLastRow_events _
        rw [t1] at hx
        rcases List.mem_cons.mp hx with y | y
        · rw [y]; rfl
        · have := t2 x y
          cases x <;> first | rfl | simp [TEv.isTag] at this
      · simp at hx
    · exact ih _ _ h4 x hx

theorem writeCols_isCol (s : TSheet) (mx : Nat) (fuel : Nat) :
    ∀ (c : Nat) (evs : List TEv), writeColLoop s mx fuel c = .ok evs → ∀ x ∈ evs, x.isCol = true := by
  have hstep : ∀ c, ∀ x ∈ (writeColStep s c).1, x.isCol = true := by
    intro c x hx
    unfold writeColStep at hx
    simp only [List.mem_append] at hx
    rcases hx with (((hx | hx) | hx) | hx) | hx
    · obtain ⟨p, _, hx⟩ := List.mem_map.mp hx
      rw [← hx]; rfl
    · rw [mem_ite_single hx]; rfl
    · simp only [List.mem_singleton] at hx; rw [hx]; rfl
    · rw [mem_ite_single hx]; rfl
    · obtain ⟨p, _, hx⟩ := List.mem_map.mp hx
      rw [← hx]; rfl
  induction fuel with
  | zero =>
    intro c evs h
    unfold writeColLoop at h
    split at h
    · simp only [Except.ok.injEq] at h; rw [← h]; simp
    · simp at h
  | succ fuel ih =>
    intro c evs h
    unfold writeColLoop at h
    split at h
    · simp only [Except.ok.injEq] at h; rw [← h]; simp
    · simp only at h
      split at h
      · simp at h
      split at h
      · simp at h
      rename_i e2 h2
      simp only [Except.ok.injEq] at h
      intro x hx
      rw [← h] at hx
      rcases List.mem_append.mp hx with y | y
      · exact hstep c x y
      · exact ih _ _ h2 x y

/-- Column events leave the rows alone. -/
theorem readEvents_cols (o : ReadOpts) (evs : List TEv) (he : ∀ e ∈ evs, e.isCol = true) :
    ∀ (st st' : RState), readEvents o st evs = some st' →
    st'.row = st.row ∧ st'.rowRepeat = st.rowRepeat ∧ st'.colData = st.colData
    ∧ st'.sheet.data = st.sheet.data ∧ st'.sheet.rowHeader = st.sheet.rowHeader
    ∧ st'.sheet.groupRows = st.sheet.groupRows ∧ st'.sheet.headerRows = st.sheet.headerRows
    ∧ st'.rowGroup = st.rowGroup ∧ st'.rowRangeFrom = st.rowRangeFrom := by
  induction evs with
  | nil =>
    intro st st' h
    simp only [readEvents, Option.some.injEq] at h
    subst h
    exact ⟨rfl, rfl, rfl, rfl, rfl, rfl, rfl, rfl, rfl⟩
  | cons e evs ih =>
    intro st st' h
    simp only [readEvents] at h
    split at h
    · rename_i st1 h1
      obtain ⟨i1, i2, i3, i4, i5, i6, i7, i8, i9⟩ := ih (fun x hx => he x (by simp [hx])) st1 st' h
      have h2 : st1.row = st.row ∧ st1.rowRepeat = st.rowRepeat ∧ st1.colData = st.colData
          ∧ st1.sheet.data = st.sheet.data ∧ st1.sheet.rowHeader = st.sheet.rowHeader
          ∧ st1.sheet.groupRows = st.sheet.groupRows ∧ st1.sheet.headerRows = st.sheet.headerRows
          ∧ st1.rowGroup = st.rowGroup ∧ st1.rowRangeFrom = st.rowRangeFrom := by
        have hec := he e (by simp)
        cases e with
        | colGroupStart d =>
          simp only [readStep, Option.some.injEq] at h1
          subst h1; exact ⟨rfl, rfl, rfl, rfl, rfl, rfl, rfl, rfl, rfl⟩
        | colGroupEnd =>
          simp only [readStep] at h1
          split at h1
          · simp only [Option.some.injEq] at h1
            subst h1; exact ⟨rfl, rfl, rfl, rfl, rfl, rfl, rfl, rfl, rfl⟩
          · split at h1
            · simp at h1
            · simp only [Option.some.injEq] at h1
              subst h1; exact ⟨rfl, rfl, rfl, rfl, rfl, rfl, rfl, rfl, rfl⟩
        | colHeaderStart =>
          simp only [readStep, Option.some.injEq] at h1
          subst h1; exact ⟨rfl, rfl, rfl, rfl, rfl, rfl, rfl, rfl, rfl⟩
        | colHeaderEnd =>
          simp only [readStep, Option.map_eq_some_iff] at h1
          obtain ⟨_, _, h1⟩ := h1
          subst h1; exact ⟨rfl, rfl, rfl, rfl, rfl, rfl, rfl, rfl, rfl⟩
        | column t =>
          simp only [readStep, Option.some.injEq] at h1
          subst h1; exact ⟨rfl, rfl, rfl, rfl, rfl, rfl, rfl, rfl, rfl⟩
        | _ => simp [TEv.isCol] at hec
      obtain ⟨j1, j2, j3, j4, j5, j6, j7, j8, j9⟩ := h2
      exact ⟨by rw [i1, j1], by rw [i2, j2], by rw [i3, j3], by rw [i4, j4], by rw [i5, j5],
        by rw [i6, j6], by rw [i7, j7], by rw [i8, j8], by rw [i9, j9]⟩
    · simp at h

theorem coreEvents_sorted (o : ReadOpts) (cols : ColHeaders) (evs : List TEv) :
    ∀ (k k' : Core), Sorted k.data → coreEvents o cols k evs = some k' → Sorted k'.data := by
  induction evs with
  | nil =>
    intro k k' hk h
    simp only [coreEvents, Option.some.injEq] at h
    rw [← h]; exact hk
  | cons e evs ih =>
    intro k k' hk h
    simp only [coreEvents] at h
    split at h
    · rename_i k1 h1
      refine ih k1 k' ?_ h
      cases e with
      | rowEnd =>
        simp only [coreStep, Option.map_eq_some_iff] at h1
        obtain ⟨m, _, h1⟩ := h1
        rw [← h1]; exact hk
      | cell cov r body =>
        simp only [coreStep, Option.some.injEq] at h1
        rw [← h1]
        simp only
        unfold readCell
        split
        · exact hk
        · split
          · exact hk
          · exact hk.insert _ _
      | _ =>
        simp only [coreStep, Option.some.injEq] at h1
        rw [← h1]; exact hk
    · simp at h

/-! ### Clamping -/

theorem clampLast_sorted (m : RowHeaders) (hm : Sorted m) : Sorted (clampLast m) := by
  have hk : (clampLast m).map (·.1) = m.map (·.1) := by
    unfold clampLast
    rw [List.map_append, List.map_map]
    have : ((fun x : Nat × RowHeader => x.1) ∘ fun p : Nat × RowHeader =>
        if 1000 < p.2.repeat then (p.1, { p.2 with «repeat» := 1 }) else p) = (·.1) := by
      funext p
      simp only [Function.comp]
      split <;> rfl
    rw [this, ← List.map_append, List.take_append_drop]
  unfold Sorted at *
  have h1 : (m.map (·.1)).Pairwise (fun a b => Key.lt a b = true) := by
    rw [List.pairwise_map]; exact hm
  rw [← hk, List.pairwise_map] at h1
  exact h1

theorem clampLast_get? (m : RowHeaders) (hm : Sorted m) (k : Nat) (h : RowHeader)
    (hg : get? m k = some h) (hr : h.repeat ≤ 1000) : get? (clampLast m) k = some h := by
  rw [get?_eq_some_iff (clampLast_sorted m hm)]
  have hmem := mem_of_get?_eq_some hg
  unfold clampLast
  rw [List.mem_append]
  rw [← List.take_append_drop (m.length - 5) m] at hmem
  rcases List.mem_append.mp hmem with x | x
  · exact Or.inl x
  · right
    rw [List.mem_map]
    exact ⟨(k, h), x, by rw [if_neg (by simp only; omega)]⟩

/-! ### Runs of a row do not overlap -/

theorem RunOf.disj {c e : Nat} {l : List (Nat × Nat)} (h : RunOf c l e) :
    ∀ p ∈ l, ∀ q ∈ l, p.1 < q.1 → p.1 + p.2 ≤ q.1 := by
  induction l generalizing c with
  | nil => simp
  | cons x l ih =>
    obtain ⟨c', n⟩ := x
    obtain ⟨h1, h2, h3⟩ := h
    intro p hp q hq hlt
    rcases List.mem_cons.mp hp with e1 | e1 <;> rcases List.mem_cons.mp hq with e2 | e2
    · subst e1; subst e2; omega
    · subst e1
      have := RunOf.mem h3 e2
      simp only; omega
    · subst e2
      have := RunOf.mem h3 e1
      simp only at hlt; omega
    · exact ih h3 p e1 q e2 hlt

theorem NoOverlap.tail_ge {cs : List (Nat × CellData)} : ∀ {p : Nat × CellData},
    NoOverlap (p :: cs) → (∀ q ∈ p :: cs, 1 ≤ q.2.repeat) →
    ∀ q ∈ cs, p.1 + p.2.repeat ≤ q.1 := by
  induction cs with
  | nil => simp
  | cons a cs ih =>
    intro p h hr q hq
    obtain ⟨h1, h2⟩ := h
    rcases List.mem_cons.mp hq with e | e
    · rw [e]; exact h1
    · have := ih h2 (fun x hx => hr x (by simp [List.mem_cons.mp hx])) q e
      omega

theorem plan_disj (plan : List ((Nat × CellData) × List (Nat × Nat)))
    (hno : NoOverlap (plan.map (·.1))) (hrep : ∀ p ∈ plan, 1 ≤ p.1.2.repeat)
    (hrun : ∀ p ∈ plan, RunOf p.1.1 p.2 (p.1.1 + p.1.2.repeat)) :
    ∀ p ∈ plan, ∀ q ∈ plan, ∀ a ∈ p.2, ∀ b ∈ q.2, a.1 < b.1 → a.1 + a.2 ≤ b.1 := by
  induction plan with
  | nil => simp
  | cons x plan ih =>
    have hno2 : NoOverlap (plan.map (·.1)) := by
      cases plan with
      | nil => trivial
      | cons y plan => exact And.right (show _ ∧ _ from hno)
    rw [List.map_cons] at hno
    have hge := NoOverlap.tail_ge hno (by
      intro q hq
      rcases List.mem_cons.mp hq with e | e
      · rw [e]; exact hrep x (by simp)
      · obtain ⟨y, hy, e⟩ := List.mem_map.mp e
        rw [← e]; exact hrep y (by simp [hy]))
    have hi := ih hno2 (fun p hp => hrep p (by simp [hp])) (fun p hp => hrun p (by simp [hp]))
    intro p hp q hq a ha b hb hlt
    rcases List.mem_cons.mp hp with e1 | e1 <;> rcases List.mem_cons.mp hq with e2 | e2
    · subst e1; subst e2
      exact (hrun _ (by simp)).disj a ha b hb hlt
    · have h1 := (hrun p hp).mem ha
      have h2 := (hrun q hq).mem hb
      have h3 := hge q.1 (List.mem_map.mpr ⟨q, e2, rfl⟩)
      subst e1
      omega
    · have h1 := (hrun p hp).mem ha
      have h2 := (hrun q hq).mem hb
      have h3 := hge p.1 (List.mem_map.mpr ⟨p, e1, rfl⟩)
      subst e2
      omega
    · exact hi p e1 q e2 a ha b hb hlt

theorem TileChain.row_inj {a b : Nat} {l : List Tile} (h : TileChain a l b) :
    ∀ t ∈ l, ∀ t' ∈ l, (t.row < t'.row → t.row + t.rep ≤ t'.row) ∧ (t.row = t'.row → t = t') := by
  induction l generalizing a with
  | nil => simp
  | cons x l ih =>
    obtain ⟨h1, h2, h3⟩ := h
    intro t ht t' ht'
    rcases List.mem_cons.mp ht with e1 | e1 <;> rcases List.mem_cons.mp ht' with e2 | e2
    · subst e1; subst e2; exact ⟨by omega, fun _ => rfl⟩
    · subst e1
      have := TileChain.mem h3 e2
      exact ⟨by omega, by omega⟩
    · subst e2
      have := TileChain.mem h3 e1
      exact ⟨by omega, by omega⟩
    · exact ih h3 t e1 t' e2

theorem mem_rawTiles {o : ReadOpts} {cols : ColHeaders} {tiles : List Tile} {r c : Nat}
    {v : CellData} : ((r, c), v) ∈ rawTiles o cols tiles
      ↔ ∃ t ∈ tiles, ∃ p ∈ t.plan, ∃ n, (c, n) ∈ p.2 ∧ t.row = r
        ∧ ∃ x, o.dec p.1.2 = some x ∧ ignoreCell o (cols.colCellstyle c) x = false
          ∧ v = { x with «repeat» := n } := by
  unfold rawTiles rawRow
  simp only [List.mem_flatMap, List.mem_filterMap]
  constructor
  · rintro ⟨t, ht, p, hp, ⟨a, n⟩, ha, hq⟩
    have hk := rawRun_key hq
    simp only [Prod.mk.injEq] at hk
    unfold rawRun at hq
    split at hq
    · simp at hq
    rename_i x hx
    split at hq
    · simp at hq
    rename_i hi
    simp only [Option.some.injEq, Prod.mk.injEq] at hq
    obtain ⟨⟨q1, q2⟩, q3⟩ := hq
    subst q2
    exact ⟨t, ht, p, hp, n, ha, q1, x, hx, by simpa using hi, q3.symm⟩
  · rintro ⟨t, ht, p, hp, n, ha, hr, x, hx, hi, hv⟩
    refine ⟨t, ht, p, hp, (c, n), ha, ?_⟩
    unfold rawRun
    rw [hx]
    simp only [hi]
    rw [hr, hv]
    rfl

/-- Everything about the cells that come back, in terms of the written tiles. -/
theorem cloned_get? (s : TSheet) (o : ReadOpts) (cols : ColHeaders)
    (hok : ∀ q ∈ s.data, RowOK s q.1.1) (hrep : ∀ q ∈ s.data, 1 ≤ q.2.repeat)
    (hbig : ∀ q ∈ s.data, rowRepeatOf s q.1.1 ≤ 1000)
    (tiles : List Tile) (b : Nat) (m : RowHeaders) (s' : TSheet)
    (h1 : TileChain 0 tiles b) (h2 : ∀ t ∈ tiles, t.OK s) (h3 : tileRows tiles = rowsOf s.data)
    (h4 : hdrTiles o cols [] tiles = some m) (h5 : s'.rowHeader = m)
    (h6 : s'.data = rawTiles o cols tiles) (h7 : Sorted s'.data)
    (hno : ∀ p ∈ rowsOf s.data, NoOverlap p.2) (r c : Nat) (v : CellData) :
    get? (calcCloned s').data (r, c) = some v
      ↔ ∃ t ∈ tiles, ∃ p ∈ t.plan, ∃ a ∈ p.2, ∃ x, t.row ≤ r ∧ r < t.row + t.rep
        ∧ a.1 ≤ c ∧ c < a.1 + a.2 ∧ o.dec p.1.2 = some x
        ∧ ignoreCell o (cols.colCellstyle a.1) x = false ∧ v = { x with «repeat» := 1 }
        ∧ ¬ (1 < a.2 ∧ x.isEmpty = true
          ∧ ∀ p' ∈ t.plan, ∀ a' ∈ p'.2, ∀ x', o.dec p'.1.2 = some x' →
            ignoreCell o (cols.colCellstyle a'.1) x' = false → a'.1 ≤ a.1) := by
  obtain ⟨i1, i2, i3⟩ := hdrTiles_spec o cols tiles [] m 0 b (hinv_nil 0) h1
    (fun t ht => (h2 t ht).1) h4
  have hrow : ∀ t ∈ tiles, t.plan ≠ [] → (t.row, t.plan.map (·.1)) ∈ rowsOf s.data := by
    intro t ht hp
    rw [← h3]
    unfold tileRows
    exact List.mem_map.mpr ⟨t, List.mem_filter.mpr ⟨ht, by simpa using hp⟩, rfl⟩
  have hstored : ∀ t ∈ tiles, ∀ p ∈ t.plan, ((t.row, p.1.1), p.1.2) ∈ s.data := by
    intro t ht p hp
    have hne : t.plan ≠ [] := by intro e; rw [e] at hp; simp at hp
    exact rowsOf_mem_key (hrow t ht hne) (List.mem_map.mpr ⟨p, hp, rfl⟩)
  have hhdr : ∀ q ∈ s'.data, ∃ t ∈ tiles, t.row = q.1.1 ∧ hdrRep (clampLast s'.rowHeader) t.row = t.rep := by
    rintro ⟨⟨qr, qc⟩, qd⟩ hq
    have hq' := hq
    rw [h6, mem_rawTiles] at hq'
    obtain ⟨t, ht, p, hp, n, ha, hr', x, hx, hi, hv⟩ := hq'
    refine ⟨t, ht, hr', ?_⟩
    have hne : t.plan ≠ [] := by intro e; rw [e] at hp; simp at hp
    have hhas : t.has o cols = true := by
      unfold Tile.has
      have : ((t.row, qc), qd) ∈ rawTiles o cols [t] := by
        rw [mem_rawTiles]
        exact ⟨t, by simp, p, hp, n, ha, rfl, x, hx, hi, hv⟩
      simp only [rawTiles, List.flatMap_cons, List.flatMap_nil, List.append_nil] at this
      cases hrr : rawRow o cols t.row t.plan with
      | nil => rw [hrr] at this; simp at this
      | cons a l => rfl
    have hg := i3 t ht hhas
    have hle : t.rep ≤ 1000 := by
      rw [(h2 t ht).2.2.1 hne]
      exact hbig _ (hstored t ht p hp)
    have := clampLast_get? m i1.sorted t.row _ hg hle
    unfold hdrRep
    rw [h5, this]
  have hcs : Sorted (clampLast s'.rowHeader) := by
    rw [h5]; exact clampLast_sorted m i1.sorted
  have hrd : RepDisj (clampLast s'.rowHeader) s'.data := by
    intro p hp q hq hlt
    obtain ⟨t, ht, e1, e2⟩ := hhdr p hp
    obtain ⟨t', ht', e3, _⟩ := hhdr q hq
    have := (h1.row_inj t ht t' ht').1 (by omega)
    rw [← e1, e2, ← e3]
    exact this
  -- the cells after the rows have been cloned
  have hD1 : ∀ r c v, get? (insertAll s'.data (rowClones (clampLast s'.rowHeader) s'.data)) (r, c)
      = some v ↔ ∃ t ∈ tiles, ∃ p ∈ t.plan, ∃ a ∈ p.2, ∃ x, t.row ≤ r ∧ r < t.row + t.rep
        ∧ a.1 = c ∧ o.dec p.1.2 = some x
        ∧ ignoreCell o (cols.colCellstyle a.1) x = false ∧ v = { x with «repeat» := a.2 } := by
    intro r c v
    rw [rowClones_get? _ hcs _ h7 hrd]
    constructor
    · rintro ⟨r0, g1, g2, g3⟩
      have hm := mem_of_get?_eq_some g1
      obtain ⟨t0, ht0, e1, e2⟩ := hhdr _ hm
      rw [h6, mem_rawTiles] at hm
      obtain ⟨t, ht, p, hp, n, ha, hr', x, hx, hi, hv⟩ := hm
      simp only at e1
      have : t0 = t := (h1.row_inj t0 ht0 t ht).2 (by omega)
      subst this
      have hb := (TileChain.mem h1 ht)
      have hrep1 : 1 ≤ t0.rep := by
        have hne : t0.plan ≠ [] := by intro e; rw [e] at hp; simp at hp
        rw [(h2 t0 ht).2.2.1 hne]
        rw [hok _ (hstored t0 ht p hp)]
        omega
      refine ⟨t0, ht, p, hp, (c, n), ha, x, by omega, ?_, rfl, hx, hi, hv⟩
      rw [e1] at e2
      rcases g3 with g3 | g3 <;> omega
    · rintro ⟨t, ht, p, hp, a, ha, x, g1, g2, g3, hx, hi, hv⟩
      subst g3
      have hm : ((t.row, a.1), v) ∈ s'.data := by
        rw [h6, mem_rawTiles]
        exact ⟨t, ht, p, hp, a.2, ha, rfl, x, hx, hi, hv⟩
      obtain ⟨t0, ht0, e1, e2⟩ := hhdr _ hm
      simp only at e1
      have : t0 = t := (h1.row_inj t0 ht0 t ht).2 e1
      subst this
      exact ⟨t0.row, (get?_eq_some_iff h7).mpr hm, g1, Or.inr (by rw [e2]; exact g2)⟩
  have hD1s : Sorted (insertAll s'.data (rowClones (clampLast s'.rowHeader) s'.data)) :=
    insertAll_sorted _ _ h7
  have htile : ∀ t ∈ tiles, ∀ t' ∈ tiles, ∀ r, t.row ≤ r → r < t.row + t.rep → t'.row ≤ r →
      r < t'.row + t'.rep → t = t' := by
    intro t ht t' ht' r a1 a2 a3 a4
    have := h1.row_inj t ht t' ht'
    have := h1.row_inj t' ht' t ht
    rcases Nat.lt_trichotomy t.row t'.row with x | x | x
    · have := (h1.row_inj t ht t' ht').1 x; omega
    · exact (h1.row_inj t ht t' ht').2 x
    · have := (h1.row_inj t' ht' t ht).1 x; omega
  have hcd : CellDisj (insertAll s'.data (rowClones (clampLast s'.rowHeader) s'.data)) := by
    rintro ⟨⟨r1, c1⟩, d1⟩ hp ⟨⟨r2, c2⟩, d2⟩ hq e hlt
    simp only at e hlt ⊢
    subst e
    obtain ⟨t, ht, p, hp', a, ha, x, u1, u2, u3, hx, hi, hv⟩ :=
      (hD1 _ _ _).mp ((get?_eq_some_iff hD1s).mpr hp)
    obtain ⟨t', ht', p', hp'', a', ha', x', w1, w2, w3, hx', hi', hv'⟩ :=
      (hD1 _ _ _).mp ((get?_eq_some_iff hD1s).mpr hq)
    have : t = t' := htile t ht t' ht' _ u1 u2 w1 w2
    subst this
    have hne : t.plan ≠ [] := by intro e; rw [e] at hp'; simp at hp'
    have := plan_disj t.plan (hno _ (hrow t ht hne))
      (fun p hp => hrep _ (hstored t ht p hp)) (h2 t ht).2.2.2.1 p hp' p' hp'' a ha a' ha' (by omega)
    rw [hv]
    simp only
    omega
  have hr1 : ∀ q ∈ insertAll s'.data (rowClones (clampLast s'.rowHeader) s'.data), 1 ≤ q.2.repeat := by
    rintro ⟨⟨r1, c1⟩, d1⟩ hp
    obtain ⟨t, ht, p, hp', a, ha, x, u1, u2, u3, hx, hi, hv⟩ :=
      (hD1 _ _ _).mp ((get?_eq_some_iff hD1s).mpr hp)
    rw [hv]
    exact ((h2 t ht).2.2.2.1 p hp').mem ha |>.2.1
  unfold calcCloned
  simp only
  rw [cellClones_get? _ hD1s hcd hr1]
  constructor
  · rintro ⟨c0, d, g1, g2, g3, g4, g5⟩
    obtain ⟨t, ht, p, hp', a, ha, x, u1, u2, u3, hx, hi, hv⟩ := (hD1 _ _ _).mp g1
    subst u3
    rw [hv] at g3
    refine ⟨t, ht, p, hp', a, ha, x, u1, u2, g2, g3, hx, hi, by rw [g5, hv], ?_⟩
    rintro ⟨k1, k2, k3⟩
    apply g4
    refine ⟨by rw [hv]; exact k1, by rw [hv]; exact k2, ?_⟩
    rintro ⟨⟨r1, c1⟩, d1⟩ hq e
    simp only at e
    subst e
    obtain ⟨t', ht', p', hp'', a', ha', x', w1, w2, w3, hx', hi', hv'⟩ :=
      (hD1 _ _ _).mp ((get?_eq_some_iff hD1s).mpr hq)
    have : t = t' := htile t ht t' ht' _ u1 u2 w1 w2
    subst this
    simp only
    rw [← w3]
    exact k3 p' hp'' a' ha' x' hx' hi'
  · rintro ⟨t, ht, p, hp', a, ha, x, u1, u2, g2, g3, hx, hi, hv, hnd⟩
    refine ⟨a.1, { x with «repeat» := a.2 }, (hD1 _ _ _).mpr
      ⟨t, ht, p, hp', a, ha, x, u1, u2, rfl, hx, hi, rfl⟩, g2, g3, ?_, hv⟩
    rintro ⟨k1, k2, k3⟩
    apply hnd
    refine ⟨k1, k2, ?_⟩
    intro p' hp'' a' ha' x' hx' hi'
    exact k3 ((r, a'.1), { x' with «repeat» := a'.2 }) (mem_of_get?_eq_some ((hD1 _ _ _).mpr
      ⟨t, ht, p', hp'', a', ha', x', u1, u2, rfl, hx', hi', rfl⟩)) rfl

end Verif
