import Verif.Grid.Layout

/-!
# Row widths, row totals and covered cells (C14, C23)

Specification: `tableRows` (the rows of a list of events with positions, repeats expanded) and
`InArea` in `Verif/Grid/Layout.lean`.
-/

set_option autoImplicit false

namespace Verif

open OMap

/-! ### Areas -/

theorem covered_addArea (A : List CellRange) (row c : Nat) (d : CellData) (r x : Nat) :
    Covered (addArea A row c d) r x ↔ Covered A r x ∨ (¬ Covered A row c ∧ InArea row c d r x) := by
  unfold addArea InArea
  by_cases hc : Covered A row c
  · simp [hc]
  · rw [if_neg hc]
    cases he : d.extra with
    | none => simp
    | some e =>
      simp only
      by_cases hs : 1 < e.span.rowSpan ∨ 1 < e.span.colSpan
      · rw [if_pos hs]
        have ho := C60_origin_span row c e.span.rowSpan e.span.colSpan
        cases hr : CellRange.originSpan row c e.span.rowSpan e.span.colSpan with
        | none =>
          have := ho.1.mp hr
          simp only [Option.some.injEq, exists_eq_left']
          constructor
          · exact Or.inl
          · rintro (h | ⟨_, _, h1, h2, h3, h4⟩)
            · exact h
            · omega
        | some v =>
          have h2 := ho.2 v hr r x
          simp only [CellRange.contains, Bool.and_eq_true, decide_eq_true_eq, and_assoc] at h2
          simp only [Option.some.injEq, exists_eq_left']
          unfold Covered at hc ⊢
          rw [show (∃ v_1 ∈ A ++ [v], v_1.fromRow.row ≤ r ∧ r ≤ v_1.toRow.row ∧ v_1.fromCol.col ≤ x
              ∧ x ≤ v_1.toCol.col) ↔ (∃ v ∈ A, v.fromRow.row ≤ r ∧ r ≤ v.toRow.row ∧ v.fromCol.col ≤ x
              ∧ x ≤ v.toCol.col) ∨ (v.fromRow.row ≤ r ∧ r ≤ v.toRow.row ∧ v.fromCol.col ≤ x
              ∧ x ≤ v.toCol.col) by
            simp only [List.mem_append, List.mem_singleton, or_and_right, exists_or, exists_eq_left], h2]
          constructor
          · rintro (h | h)
            · exact Or.inl h
            · exact Or.inr ⟨hc, hs, h⟩
          · rintro (h | h)
            · exact Or.inl h
            · exact Or.inr h.2.2
      · rw [if_neg hs]
        simp only [Option.some.injEq, exists_eq_left']
        constructor
        · exact Or.inl
        · rintro (h | h)
          · exact h
          · exact absurd h.2.1 hs

/-- The areas of a list of cells, in order; covered cells add none. -/
def areas (l : List ((Nat × Nat) × CellData)) : List CellRange :=
  l.foldl (fun A q => addArea A q.1.1 q.1.2 q.2) []

theorem areas_append (l : List ((Nat × Nat) × CellData)) (r : Nat) (cs : List (Nat × CellData)) :
    areas (l ++ cs.map (fun q => ((r, q.1), q.2))) = addAreas (areas l) r cs := by
  unfold areas addAreas
  rw [List.foldl_append, List.foldl_map]

theorem covered_areas (l : List ((Nat × Nat) × CellData)) (r x : Nat) :
    Covered (areas l) r x ↔ ∃ pre q post, l = pre ++ q :: post
      ∧ ¬ Covered (areas pre) q.1.1 q.1.2 ∧ InArea q.1.1 q.1.2 q.2 r x := by
  suffices H : ∀ l : List ((Nat × Nat) × CellData), Covered (areas l.reverse) r x ↔
      ∃ pre q post, l.reverse = pre ++ q :: post
      ∧ ¬ Covered (areas pre) q.1.1 q.1.2 ∧ InArea q.1.1 q.1.2 q.2 r x by
    have := H l.reverse
    rwa [List.reverse_reverse] at this
  clear l
  intro l
  induction l with
  | nil =>
    constructor
    · rintro ⟨v, hv, _⟩; simp [areas] at hv
    · rintro ⟨pre, q, post, h, _⟩; simp at h
  | cons p l ih =>
    rw [List.reverse_cons]
    generalize l.reverse = l at *
    have e : areas (l ++ [p]) = addArea (areas l) p.1.1 p.1.2 p.2 := by
      unfold areas; rw [List.foldl_append]; rfl
    rw [e, covered_addArea, ih]
    constructor
    · rintro (⟨pre, q, post, h1, h2, h3⟩ | ⟨h1, h2⟩)
      · exact ⟨pre, q, post ++ [p], by rw [h1]; simp, h2, h3⟩
      · exact ⟨l, p, [], rfl, h1, h2⟩
    · rintro ⟨pre, q, post, h1, h2, h3⟩
      rcases List.eq_nil_or_concat post with rfl | ⟨post', p', rfl⟩
      · obtain ⟨rfl, h⟩ := List.append_inj' h1 rfl
        simp only [List.cons.injEq, and_true] at h
        subst h
        exact Or.inr ⟨h2, h3⟩
      · left
        refine ⟨pre, q, post', ?_, h2, h3⟩
        have : l ++ [p] = (pre ++ q :: post') ++ [p'] := by rw [h1]; simp
        exact (List.append_inj' this rfl).1

/-! ### Widths -/

theorem rowEntries_length (w row : Nat) (cs : List (Nat × CellData)) :
    ∀ A, cs ≠ [] → NoOverlap cs →
    w ≤ firstCol cs + (rowEntries w row A cs).length
    ∧ (∀ p ∈ cs, p.1 + p.2.repeat ≤ firstCol cs + (rowEntries w row A cs).length)
    ∧ (firstCol cs + (rowEntries w row A cs).length = w
      ∨ ∃ p ∈ cs, firstCol cs + (rowEntries w row A cs).length = p.1 + p.2.repeat) := by
  induction cs with
  | nil => intro _ h; exact absurd rfl h
  | cons p cs ih =>
    obtain ⟨c, d⟩ := p
    intro A _ hno
    cases cs with
    | nil =>
      simp only [rowEntries, firstCol, nextCol, List.append_nil, List.length_append, List.length_map,
        List.length_range', List.mem_singleton, forall_eq, exists_eq_left]
      omega
    | cons q cs =>
      obtain ⟨c', d'⟩ := q
      obtain ⟨h1, h2⟩ := hno
      simp only at h1
      obtain ⟨i1, i2, i3⟩ := ih (addArea A row c d) (by simp) h2
      have e : firstCol ((c, d) :: (c', d') :: cs)
          + (rowEntries w row A ((c, d) :: (c', d') :: cs)).length
          = firstCol ((c', d') :: cs) + (rowEntries w row (addArea A row c d) ((c', d') :: cs)).length := by
        rw [rowEntries]
        simp only [firstCol, nextCol, List.length_append, List.length_map, List.length_range']
        omega
      rw [e]
      refine ⟨i1, ?_, ?_⟩
      · intro p hp
        rcases List.mem_cons.mp hp with rfl | hp
        · have := i2 (c', d') (by simp)
          simp only at this ⊢
          omega
        · exact i2 p hp
      · rcases i3 with h | ⟨p, hp, h⟩
        · exact Or.inl h
        · exact Or.inr ⟨p, by simp [List.mem_cons.mp hp], h⟩

theorem withPos_append {α : Type} (a b : List (Nat × α)) : ∀ pos,
    withPos pos (a ++ b) = withPos pos a ++ withPos (pos + (a.map (·.1)).sum) b := by
  induction a with
  | nil => intro pos; simp [withPos]
  | cons p a ih => intro pos; simp [withPos, ih, Nat.add_assoc]

theorem withPos_mem {α : Type} (l : List (Nat × α)) : ∀ pos, ∀ x ∈ withPos pos l, x.2 ∈ l := by
  induction l with
  | nil => intro pos x hx; simp [withPos] at hx
  | cons p l ih =>
    intro pos x hx
    simp only [withPos, List.mem_cons] at hx
    rcases hx with rfl | hx
    · simp
    · exact List.mem_cons_of_mem _ (ih _ x hx)

theorem withPos_sum {α : Type} (l : List (Nat × α)) : ∀ pos,
    ((withPos pos l).map (·.2.1)).sum = (l.map (·.1)).sum := by
  induction l with
  | nil => intro pos; rfl
  | cons p l ih => intro pos; simp [withPos, ih]

theorem withPos_ge {α : Type} (l : List (Nat × α)) : ∀ pos, ∀ x ∈ withPos pos l, pos ≤ x.1 ∧
    x.1 + x.2.1 ≤ pos + (l.map (·.1)).sum := by
  induction l with
  | nil => intro pos x hx; simp [withPos] at hx
  | cons p l ih =>
    intro pos x hx
    simp only [withPos, List.mem_cons] at hx
    simp only [List.map_cons, List.sum_cons]
    rcases hx with rfl | hx
    · simp only; omega
    · have := ih _ x hx
      omega

/-- Every written row is empty or stands for a row with cells. -/
theorem rowsSpec_cases (s : TSheet) (w : Nat) (rows : List (Nat × List (Nat × CellData))) :
    ∀ pos A L, RowsSpec s w pos A rows L → RowsApart s pos rows → (∀ p ∈ rows, 1 ≤ rowRepeatOf s p.1) →
      ∀ x ∈ withPos pos L,
      (x.2.2 = List.replicate w (false, none) ∧ ∀ p ∈ rows, p.1 ≠ x.1)
      ∨ ∃ cs B, (x.1, cs) ∈ rows ∧ x.2.2 = List.replicate (firstCol cs) (false, none) ++ rowEntries w x.1 B cs := by
  induction rows with
  | nil => intro pos A L h _ _ x hx; rw [show L = [] from h] at hx; simp [withPos] at hx
  | cons q rows ih =>
    obtain ⟨r, cs⟩ := q
    rintro pos A L ⟨gaps, L', rfl, h2, h3, h4⟩ hap hone x hx
    rw [withPos_append] at hx
    rcases List.mem_append.mp hx with hx | hx
    · have hg := h2 x.2 (withPos_mem _ _ x hx)
      refine Or.inl ⟨hg.1, ?_⟩
      have := withPos_ge _ _ x hx
      rw [h3] at this
      intro p hp
      rcases List.mem_cons.mp hp with rfl | hp
      · simp only; omega
      · have := (rowsApart_mem s rows _ hap.2).1 p hp
        omega
    · rw [h3] at hx
      simp only [withPos, List.mem_cons] at hx
      rcases hx with rfl | hx
      · exact Or.inr ⟨cs, A, by simp, rfl⟩
      · rcases ih _ _ _ h4 hap.2 (fun p hp => hone p (by simp [hp])) x hx with ⟨h, h'⟩ | ⟨cs', B, h5, h6⟩
        · refine Or.inl ⟨h, ?_⟩
          intro p hp
          rcases List.mem_cons.mp hp with rfl | hp
          · have := withPos_ge _ _ x hx
            have := hone (r, cs) (by simp)
            simp only at this ⊢
            omega
          · exact h' p hp
        · exact Or.inr ⟨cs', B, by simp [h5], h6⟩

theorem rowsSpec_total (s : TSheet) (w : Nat) (rows : List (Nat × List (Nat × CellData))) :
    ∀ pos A L, RowsSpec s w pos A rows L → RowsApart s pos rows →
      (∀ p ∈ rows, p.1 + rowRepeatOf s p.1 ≤ pos + (L.map (·.1)).sum)
      ∧ (rows = [] ∧ L = [] ∨ ∃ p ∈ rows, p.1 + rowRepeatOf s p.1 = pos + (L.map (·.1)).sum) := by
  induction rows with
  | nil => intro pos A L h _; exact ⟨by simp, Or.inl ⟨rfl, h⟩⟩
  | cons q rows ih =>
    obtain ⟨r, cs⟩ := q
    rintro pos A L ⟨gaps, L', rfl, h2, h3, h4⟩ hap
    obtain ⟨i1, i2⟩ := ih _ _ _ h4 hap.2
    have e : pos + ((gaps ++ (rowRepeatOf s r, List.replicate (firstCol cs) (false, none)
        ++ rowEntries w r A cs) :: L').map (·.1)).sum = r + rowRepeatOf s r + (L'.map (·.1)).sum := by
      simp only [List.map_append, List.map_cons, List.sum_append, List.sum_cons]
      omega
    rw [e]
    refine ⟨?_, Or.inr ?_⟩
    · intro p hp
      rcases List.mem_cons.mp hp with rfl | hp
      · simp only; omega
      · exact i1 p hp
    · rcases i2 with ⟨_, h⟩ | ⟨p, hp, h⟩
      · refine ⟨(r, cs), by simp, ?_⟩
        simp [h]
      · exact ⟨p, by simp [hp], h⟩

theorem rows_unique {rows : List (Nat × List (Nat × CellData))}
    (h : rows.Pairwise (fun a b => a.1 < b.1)) {p q : Nat × List (Nat × CellData)} (hp : p ∈ rows)
    (hq : q ∈ rows) (e : p.1 = q.1) : p = q := by
  induction rows with
  | nil => simp at hp
  | cons x rows ih =>
    obtain ⟨h1, h2⟩ := List.pairwise_cons.mp h
    rcases List.mem_cons.mp hp with hp' | hp' <;> rcases List.mem_cons.mp hq with hq' | hq'
    · rw [hp', hq']
    · have := h1 q hq'; rw [hp'] at e; omega
    · have := h1 p hp'; rw [hq'] at e; omega
    · exact ih h2 hp' hq'

/-- **C14.** In a written table every row is at least as wide as the used area and as every cell
stored in it, and it is wider than the used area only by the repeat of one of its own cells; all rows
together end exactly with the last row that has cells, counting its repeats. (Partial only through
`CellsOK`: a row whose header was left behind by an earlier `set_row_repeat` is excluded, see
`C12_stale_repeat_counterexample`.) -/
theorem C14_layout_partial (s : TSheet) (hc : s.CellsOK) (evs : List TEv)
    (h : writeSheet s = .ok evs) :
    (∀ pos n es, (pos, n, es) ∈ tableRows evs →
      (Cells.usedGridSize s.data).2 ≤ es.length
      ∧ (∀ c d, s.data.get? (pos, c) = some d → c + d.repeat ≤ es.length)
      ∧ (es.length = (Cells.usedGridSize s.data).2
        ∨ ∃ c d, s.data.get? (pos, c) = some d ∧ es.length = c + d.repeat))
    ∧ (∀ r c d, s.data.get? (r, c) = some d →
        r + s.repeatOf r ≤ ((tableRows evs).map (·.2.1)).sum)
    ∧ (tableRows evs = [] ∨ ∃ r c d, s.data.get? (r, c) = some d
        ∧ r + s.repeatOf r = ((tableRows evs).map (·.2.1)).sum) := by
  obtain ⟨⟨L, l1, l2⟩, hno, hap⟩ := writeSheet_spec s hc.sorted hc.rows hc.rep evs h
  have hT : tableRows evs = withPos 0 L := by unfold tableRows; rw [l1]
  have hrs := rowsOf_sorted s.data hc.sorted
  have hmem : ∀ p ∈ rowsOf s.data, ∀ x ∈ p.2, ((p.1, x.1), x.2) ∈ s.data := by
    intro p hp x hx
    exact rowsOf_mem_key (r := p.1) (cs := p.2) hp hx
  obtain ⟨t1, t2⟩ := rowsSpec_total s _ _ 0 [] L l2 hap
  rw [hT, withPos_sum]
  refine ⟨?_, ?_, ?_⟩
  · intro pos n es hx
    -- the cells stored at `pos` are those of its row
    have hcells : ∀ cs, (pos, cs) ∈ rowsOf s.data → ∀ c d, s.data.get? (pos, c) = some d →
        (c, d) ∈ cs := by
      intro cs hcs c d hg
      obtain ⟨p, hp, e1, e2⟩ := mem_rowsOf_of_mem ((get?_eq_some_iff hc.sorted).mp hg)
      have : p = (pos, cs) := rows_unique hrs.1 hp hcs e1
      rw [this] at e2
      exact e2
    have hlen : ∀ cs B, (pos, cs) ∈ rowsOf s.data →
        (Cells.usedGridSize s.data).2 ≤ (List.replicate (firstCol cs) ((false, none) : Entry)
          ++ rowEntries (Cells.usedGridSize s.data).2 pos B cs).length
        ∧ (∀ c d, s.data.get? (pos, c) = some d → c + d.repeat ≤
          (List.replicate (firstCol cs) ((false, none) : Entry)
          ++ rowEntries (Cells.usedGridSize s.data).2 pos B cs).length)
        ∧ ((List.replicate (firstCol cs) ((false, none) : Entry)
          ++ rowEntries (Cells.usedGridSize s.data).2 pos B cs).length = (Cells.usedGridSize s.data).2
          ∨ ∃ c d, s.data.get? (pos, c) = some d ∧ (List.replicate (firstCol cs) ((false, none) : Entry)
          ++ rowEntries (Cells.usedGridSize s.data).2 pos B cs).length = c + d.repeat) := by
      intro cs B hcs
      obtain ⟨a1, a2, a3⟩ := rowEntries_length (Cells.usedGridSize s.data).2 pos cs B
        (hrs.2 _ hcs).1 (hno _ hcs)
      rw [List.length_append, List.length_replicate]
      refine ⟨a1, fun c d hg => a2 (c, d) (hcells cs hcs c d hg), ?_⟩
      rcases a3 with a3 | ⟨p, hp, a3⟩
      · exact Or.inl a3
      · exact Or.inr ⟨p.1, p.2, (get?_eq_some_iff hc.sorted).mpr (hmem _ hcs p hp), a3⟩
    have hone : ∀ p ∈ rowsOf s.data, 1 ≤ rowRepeatOf s p.1 := by
      intro p hp
      obtain ⟨q, hq, e⟩ := rowsOf_nonempty hc.sorted hp
      rw [← e]
      exact (dataTag_ok s q.1.1 (hc.rows q hq)).2.1
    rcases rowsSpec_cases s _ _ 0 [] L l2 hap hone _ hx with ⟨h5, h6⟩ | ⟨cs, B, h5, h6⟩
    · simp only at h5 h6
      rw [h5, List.length_replicate]
      refine ⟨Nat.le_refl _, ?_, Or.inl rfl⟩
      intro c d hg
      obtain ⟨p, hp, e1, _⟩ := mem_rowsOf_of_mem ((get?_eq_some_iff hc.sorted).mp hg)
      exact absurd e1 (h6 p hp)
    · simp only at h5 h6
      rw [h6]
      exact hlen cs B h5
  · intro r c d hg
    obtain ⟨p, hp, e1, e2⟩ := mem_rowsOf_of_mem ((get?_eq_some_iff hc.sorted).mp hg)
    have := t1 p hp
    rw [repeatOf_eq (hc.rows _ ((get?_eq_some_iff hc.sorted).mp hg))]
    simp only at e1 ⊢
    rw [← e1]
    omega
  · rcases t2 with ⟨_, h⟩ | ⟨p, hp, h⟩
    · left; rw [h]; rfl
    · right
      obtain ⟨q, hq, e⟩ := rowsOf_nonempty hc.sorted hp
      refine ⟨q.1.1, q.1.2, q.2, (get?_eq_some_iff hc.sorted).mpr hq, ?_⟩
      rw [repeatOf_eq (hc.rows q hq), e, h]
      omega

/-! ### Covered cells -/

/-- An entry of a cell of a row. -/
theorem rowEntries_at (w row : Nat) (cs : List (Nat × CellData)) :
    ∀ (done : List ((Nat × Nat) × CellData)), NoOverlap cs → cs.Pairwise (fun a b => a.1 < b.1) →
    ∀ p ∈ cs, ∀ x, p.1 ≤ x → x < p.1 + p.2.repeat →
    ∃ pre post, cs = pre ++ p :: post
      ∧ (rowEntries w row (areas done) cs)[x - firstCol cs]?
        = some (decide (Covered (areas (done ++ pre.map (fun q => ((row, q.1), q.2)))) row x), some p.2) := by
  induction cs with
  | nil => intro _ _ _ p hp; simp at hp
  | cons q cs ih =>
    obtain ⟨c, d⟩ := q
    intro done hno hpw p hp x h1 h2
    by_cases hpe : p = (c, d)
    · subst hpe
      refine ⟨[], cs, rfl, ?_⟩
      simp only at h1 h2
      simp only [firstCol, rowEntries, List.map_nil, List.append_nil]
      rw [List.append_assoc, List.getElem?_append_left (by simp; omega), List.getElem?_map,
        List.getElem?_range' (by omega)]
      simp only [Option.map_some, Nat.one_mul]
      rw [show c + (x - c) = x by omega]
    · have hp' : p ∈ cs := by
        rcases List.mem_cons.mp hp with h | h
        · exact absurd h hpe
        · exact h
      cases cs with
      | nil => simp at hp'
      | cons q' cs =>
        obtain ⟨c', d'⟩ := q'
        obtain ⟨n1, n2⟩ := hno
        simp only at n1
        have hpw' := (List.pairwise_cons.mp hpw).2
        have hc' : c' ≤ p.1 := by
          rcases List.mem_cons.mp hp' with h | h
          · rw [h]; exact Nat.le_refl _
          · exact Nat.le_of_lt ((List.pairwise_cons.mp hpw').1 p h)
        obtain ⟨pre, post, e1, e2⟩ := ih (done ++ [((row, c), d)]) n2 hpw' p hp' x h1 h2
        refine ⟨(c, d) :: pre, post, by rw [e1]; rfl, ?_⟩
        have ea : areas (done ++ [((row, c), d)]) = addArea (areas done) row c d := by
          unfold areas; rw [List.foldl_append]; rfl
        rw [ea] at e2
        rw [rowEntries, List.getElem?_append_right (by
          simp only [firstCol, nextCol, List.length_append, List.length_map, List.length_range']
          omega)]
        simp only [firstCol, nextCol, List.length_append, List.length_map, List.length_range'] at e2 ⊢
        rw [show x - c - (d.repeat + (c' - (c + d.repeat))) = x - c' by omega, e2]
        simp

theorem rowsSpec_at (s : TSheet) (w : Nat) (rows : List (Nat × List (Nat × CellData))) :
    ∀ pos (done : List ((Nat × Nat) × CellData)) L, RowsSpec s w pos (areas done) rows L →
    (∀ p ∈ rows, NoOverlap p.2) → (∀ p ∈ rows, p.2.Pairwise (fun a b => a.1 < b.1)) →
    ∀ q ∈ rows, ∀ p ∈ q.2, ∃ es, (q.1, rowRepeatOf s q.1, es) ∈ withPos pos L
      ∧ ∀ x, p.1 ≤ x → x < p.1 + p.2.repeat →
        ∃ pre post, done ++ rows.flatMap (fun p => p.2.map (fun q => ((p.1, q.1), q.2)))
            = pre ++ ((q.1, p.1), p.2) :: post
          ∧ es[x]? = some (decide (Covered (areas pre) q.1 x), some p.2) := by
  induction rows with
  | nil => intro pos done L _ _ _ q hq; simp at hq
  | cons y rows ih =>
    obtain ⟨r, cs⟩ := y
    rintro pos done L ⟨gaps, L', rfl, h2, h3, h4⟩ hno hpw q hq p hp
    rw [withPos_append, h3]
    rcases List.mem_cons.mp hq with rfl | hq'
    · refine ⟨List.replicate (firstCol cs) (false, none) ++ rowEntries w r (areas done) cs,
        by simp [withPos], ?_⟩
      intro x h5 h6
      obtain ⟨pre, post, e1, e2⟩ := rowEntries_at w r cs done (hno (r, cs) (by simp))
        (hpw (r, cs) (by simp)) p hp x h5 h6
      refine ⟨done ++ pre.map (fun q => ((r, q.1), q.2)),
        post.map (fun q => ((r, q.1), q.2)) ++
          rows.flatMap (fun p => p.2.map (fun q => ((p.1, q.1), q.2))), ?_, ?_⟩
      · simp only [List.flatMap_cons]
        rw [e1]
        simp
      · have hf : firstCol cs ≤ p.1 := by
          cases cs with
          | nil => simp at hp
          | cons a cs =>
            rcases List.mem_cons.mp hp with h | h
            · rw [h]; exact Nat.le_refl _
            · exact Nat.le_of_lt ((List.pairwise_cons.mp (hpw (r, a :: cs) (by simp))).1 p h)
        rw [List.getElem?_append_right (by simp; omega), List.length_replicate]
        exact e2
    · rw [← areas_append] at h4
      obtain ⟨es, a1, a2⟩ := ih _ _ L' h4 (fun p hp => hno p (by simp [hp]))
        (fun p hp => hpw p (by simp [hp])) q hq' p hp
      refine ⟨es, by simp [withPos, a1], ?_⟩
      intro x h5 h6
      obtain ⟨pre, post, e1, e2⟩ := a2 x h5 h6
      refine ⟨pre, post, ?_, e2⟩
      rw [← e1]
      simp

theorem takeWhile_sorted {pre post : List ((Nat × Nat) × CellData)} {k : Nat × Nat} {d : CellData}
    (h : Sorted (pre ++ (k, d) :: post)) :
    (pre ++ (k, d) :: post).takeWhile (fun q => Key.lt q.1 k) = pre := by
  have hpre : ∀ q ∈ pre, Key.lt q.1 k = true := by
    intro q hq
    exact (List.pairwise_append.mp h).2.2 q hq (k, d) (by simp)
  rw [List.takeWhile_append_of_pos hpre, List.takeWhile_cons_of_neg, List.append_nil]
  simp [Key.lt]

/-- **C23.** There is one flag `covered r c x` for every position `x` of the cell stored at `(r, c)`,
given by the rule: a position is covered exactly when it lies in the area spanned by a cell that comes
earlier (row by row, left to right) and is not covered itself. In a written table the row `r` has, at
every position of every stored cell, exactly this cell with exactly this flag. (Partial through
`CellsOK`, as in C14.) -/
theorem C23_covered_partial (s : TSheet) (hc : s.CellsOK) (evs : List TEv)
    (h : writeSheet s = .ok evs) :
    ∃ covered : Nat → Nat → Nat → Bool,
      (∀ r c d, s.data.get? (r, c) = some d → ∀ x,
        (covered r c x = true ↔ ∃ r' c' d', s.data.get? (r', c') = some d'
          ∧ (r' < r ∨ (r' = r ∧ c' < c)) ∧ covered r' c' c' = false ∧ InArea r' c' d' r x))
      ∧ ∀ r c d, s.data.get? (r, c) = some d →
        ∃ es, (r, s.repeatOf r, es) ∈ tableRows evs
          ∧ ∀ x, c ≤ x → x < c + d.repeat → es[x]? = some (covered r c x, some d) := by
  obtain ⟨⟨L, l1, l2⟩, hno, hap⟩ := writeSheet_spec s hc.sorted hc.rows hc.rep evs h
  have hT : tableRows evs = withPos 0 L := by unfold tableRows; rw [l1]
  have hrs := rowsOf_sorted s.data hc.sorted
  have hkey : ∀ r' c' r c : Nat, Key.lt (r', c') (r, c) = true ↔ (r' < r ∨ (r' = r ∧ c' < c)) := by
    intro r' c' r c
    simp [Key.lt]
  refine ⟨fun r c x => decide (Covered (areas (s.data.takeWhile (fun q => Key.lt q.1 (r, c)))) r x),
    ?_, ?_⟩
  · intro r c d hg x
    obtain ⟨pre, post, e⟩ := List.append_of_mem ((get?_eq_some_iff hc.sorted).mp hg)
    have hsort : Sorted (pre ++ ((r, c), d) :: post) := e ▸ hc.sorted
    have htw : s.data.takeWhile (fun q => Key.lt q.1 (r, c)) = pre := by
      rw [e]; exact takeWhile_sorted hsort
    simp only
    rw [htw, decide_eq_true_eq, covered_areas]
    constructor
    · rintro ⟨pre', q, post', e1, e2, e3⟩
      have hmem : q ∈ s.data := by rw [e, e1]; simp
      have htw' : s.data.takeWhile (fun y => Key.lt y.1 (q.1.1, q.1.2)) = pre' := by
        have : s.data = pre' ++ (q.1, q.2) :: (post' ++ ((r, c), d) :: post) := by
          rw [e, e1]; simp
        rw [this]
        exact takeWhile_sorted (this ▸ hc.sorted)
      refine ⟨q.1.1, q.1.2, q.2, (get?_eq_some_iff hc.sorted).mpr hmem, ?_, ?_, e3⟩
      · rw [← hkey]
        exact (List.pairwise_append.mp hsort).2.2 q (by rw [e1]; simp) ((r, c), d) (by simp)
      · rw [htw']
        exact decide_eq_false e2
    · rintro ⟨r', c', d', g1, g2, g3, g4⟩
      have hm := (get?_eq_some_iff hc.sorted).mp g1
      rw [e] at hm
      have hpre : ((r', c'), d') ∈ pre := by
        rcases List.mem_append.mp hm with h | h
        · exact h
        · exfalso
          rcases List.mem_cons.mp h with h | h
          · simp only [Prod.mk.injEq] at h
            omega
          · have := (List.pairwise_cons.mp (List.pairwise_append.mp hsort).2.1).1 _ h
            simp only [hkey] at this
            omega
      obtain ⟨pre', post', e1⟩ := List.append_of_mem hpre
      have htw' : s.data.takeWhile (fun y => Key.lt y.1 (r', c')) = pre' := by
        have : s.data = pre' ++ ((r', c'), d') :: (post' ++ ((r, c), d) :: post) := by
          rw [e, e1]; simp
        rw [this]
        exact takeWhile_sorted (this ▸ hc.sorted)
      rw [htw'] at g3
      exact ⟨pre', ((r', c'), d'), post', e1, of_decide_eq_false g3, g4⟩
  · intro r c d hg
    have hm := (get?_eq_some_iff hc.sorted).mp hg
    obtain ⟨p, hp, e1, e2⟩ := mem_rowsOf_of_mem hm
    obtain ⟨es, a1, a2⟩ := rowsSpec_at s _ (rowsOf s.data) 0 [] L l2 hno
      (fun q hq => (hrs.2 q hq).2) p hp (c, d) e2
    simp only at e1
    rw [e1] at a1 a2
    refine ⟨es, ?_, ?_⟩
    · rw [hT, repeatOf_eq (hc.rows _ hm)]
      exact a1
    · intro x h1 h2
      obtain ⟨pre, post, b1, b2⟩ := a2 x h1 h2
      rw [b2]
      rw [rowsOf_flatten, List.nil_append] at b1
      have : s.data.takeWhile (fun q => Key.lt q.1 (r, c)) = pre := by
        rw [b1]; exact takeWhile_sorted (b1 ▸ hc.sorted)
      simp only [this]

end Verif
