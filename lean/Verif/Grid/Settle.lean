import Verif.Grid.Again
import Verif.Grid.ColProps
import Verif.TableXml.Fits

/-!
# The sheet that was read can be written again

A sheet without repeated rows is written and read; what was read meets the conditions that the theorems about writing
and reading ask for.
-/

set_option autoImplicit false

namespace Verif

open OMap

/-- The repeat counts of the headers that were read. -/
theorem settle_rows (s s' : TSheet) (o : ReadOpts) (evs : List TEv) (hc : s.CellsOK) (hw : s.colHeader.WF)
    (one : ∀ q ∈ s.data, s.repeatOf q.1.1 = 1) (ho : o.useRepeat = false)
    (h : writeSheet s = .ok evs) (hr : readTable o evs = some s') :
    Sorted s'.data ∧ (∀ q ∈ s'.data, q.2.repeat = 1 ∧ RowOK s' q.1.1 ∧ s'.repeatOf q.1.1 = 1)
      ∧ (∀ p ∈ s'.rowHeader, p.2.repeat ≤ 1) := by
  obtain ⟨_, cols, tiles, b, m, raw, e0, h1, h2, h3, h4, h5, h6, h7, _, _, _⟩ :=
    readTable_tiles { s with colHeader := prepareCols s.groupCols s.headerCols s.colHeader } s' o evs
      hc.sorted hc.rows hc.rep (prepare_wf _ hw _ _) h hr
  rw [ho] at e0
  simp only [Bool.false_eq_true, if_false] at e0
  have htags : ∀ t ∈ tiles, t.tag.repeated.getD 1 = t.rep := fun t ht => (h2 t ht).1
  obtain ⟨i1, _, i3⟩ := hdrTiles_spec o cols tiles [] m 0 b (hinv_nil 0) h1 htags h4
  have hreps : ∀ q ∈ raw.data, 1 ≤ q.2.repeat := by
    rintro ⟨⟨r, c⟩, d⟩ hq
    rw [h6] at hq
    obtain ⟨t, ht, p, hp, n, ha, _, x, _, _, rfl⟩ := mem_rawTiles.mp hq
    exact (((h2 t ht).2.2.2.1 p hp).mem ha).2.1
  have hrawr : ∀ q ∈ raw.data, ∃ x, get? m q.1.1 = some x ∧ x.span = 1 ∧ x.repeat = 1 := by
    rintro ⟨⟨r, c⟩, d⟩ hq
    have hq0 := hq
    rw [h6] at hq
    obtain ⟨t, ht, p, hp, n, ha, hrr, x, hx, hi, _⟩ := mem_rawTiles.mp hq
    have hhas : t.has o cols = true := by
      have hmem : ((t.row, c), { x with «repeat» := n }) ∈ rawTiles o cols [t] := by
        rw [mem_rawTiles]
        exact ⟨t, by simp, p, hp, n, ha, rfl, x, hx, hi, rfl⟩
      simp only [rawTiles, List.flatMap_cons, List.flatMap_nil, List.append_nil] at hmem
      unfold Tile.has
      cases hrw : rawRow o cols t.row t.plan with
      | nil => rw [hrw] at hmem; cases hmem
      | cons _ _ => rfl
    have hpl : t.plan ≠ [] := by intro e; rw [e] at hp; cases hp
    have hmem := mem_plan_stored h3 ht hp
    have hrep : t.rep = 1 := by
      rw [(h2 t ht).2.2.1 hpl, ← repeatOf_eq (s := { s with colHeader := prepareCols s.groupCols s.headerCols s.colHeader })
        (hc.rows _ hmem)]
      exact one _ hmem
    have hm := i3 t ht hhas
    rw [hrep] at hm
    refine ⟨_, by rw [hrr] at hm; exact hm, ?_, rfl⟩
    · show (if t.tag.styled then t.tag.hdr else {}).span = 1
      split <;> rfl
  obtain ⟨d1, d2⟩ := cloned_mem raw h7 hreps (by rw [h5]; exact i1.sorted)
  rw [← e0, h5] at d2
  rw [← e0] at d1
  have hcs := clampLast_sorted m i1.sorted
  have hrh : s'.rowHeader = swapAll (clampLast m) := by rw [e0, ← h5]; rfl
  refine ⟨d1, fun q hq => ?_, ?_⟩
  · obtain ⟨w1, r0, c0, d, g1, g2, g3⟩ := d2 q hq
    refine ⟨w1, ?_⟩
    have key : rowRepeatOf s' q.1.1 = 1 ∧ s'.rowHeader.rowRepeat q.1.1 = 1 := by
      obtain ⟨y, y1, y2, y3⟩ := hrawr _ g1
      simp only at y1
      obtain ⟨x, hx⟩ := mem_clampLast _ _ _ (mem_of_get?_eq_some y1)
      have hxg := (get?_eq_some_iff hcs).mpr hx
      obtain ⟨y', z1, z2, z3⟩ := clampLast_mem _ _ _ hx
      have : y' = y := by
        have := (get?_eq_some_iff i1.sorted).mpr z1
        rw [y1, Option.some.injEq] at this
        exact this.symm
      subst this
      have hxr : x.repeat = 1 := by rcases z3 with z3 | z3 <;> omega
      have hq : q.1.1 = r0 := by
        rcases g3 with g3 | g3
        · exact g3
        · unfold hdrRep at g3
          rw [hxg] at g3
          simp only at g3
          omega
      have hr0 : get? (swapAll (clampLast m)) r0 = some (swapHdr x) := by
        rw [swapAll_get?, hxg]; rfl
      have hrep1 : (swapHdr x).repeat = 1 := by
        show x.span = 1
        omega
      rw [hq, hrh]
      refine ⟨?_, ?_⟩
      · unfold rowRepeatOf
        rw [hrh, hr0]
        exact hrep1
      · unfold RowHeaders.rowRepeat
        rw [(RowHeaders.valid_some (swapAll_sorted _ hcs)).mpr ⟨r0, hr0, Nat.le_refl _, by
          show r0 < r0 + x.repeat
          omega, by intro j a b; omega⟩]
        exact hrep1
    refine ⟨by unfold RowOK; rw [key.1, key.2]; rfl, by unfold TSheet.repeatOf; rw [key.2]; rfl⟩
  · intro p hp
    rw [hrh] at hp
    unfold swapAll at hp
    obtain ⟨⟨k, x⟩, hx, rfl⟩ := List.mem_map.1 hp
    obtain ⟨y, z1, z2, _⟩ := clampLast_mem _ _ _ hx
    show x.span ≤ 1
    rw [z2]
    exact i1.span ((get?_eq_some_iff i1.sorted).mpr z1)

/-- A look at the headers that were read reaches as far as they do. -/
theorem ColLook.reach {m r : ColHeaders} {c : Nat} (hw : m.WF) (h : ColLook m c r) {k : Nat} {y : ColHeader}
    (hk : r.valid k = some y) : ∃ c', c ≤ c' ∧ k < c' ∧ ColLook m c' r := by
  have hwr := h.wf hw
  obtain ⟨b, g1, g2, g3⟩ := hwr.valid_some.mp hk
  refine ⟨max c (k + 1), by omega, by omega, h.sorted, ?_⟩
  intro j
  rw [h.get j]
  by_cases hj : j < c
  · rw [if_pos hj, if_pos (by omega)]
  · rw [if_neg hj]
    split
    · rename_i hj2
      have hb := h.get b
      rw [g1] at hb
      by_cases hbc : b < c
      · rw [if_pos hbc] at hb
        obtain ⟨w, w1, w2⟩ := Option.map_eq_some_iff.mp hb.symm
        have w3 := (Option.filter_eq_some_iff.mp w1).1
        cases hm : get? m j with
        | none => rfl
        | some z =>
          exfalso
          have := hw.disj w3 hm (by omega)
          have e : w.span = y.span := by rw [← w2]; rfl
          omega
      · rw [if_neg hbc] at hb
        cases hb
    · rfl

theorem dedup_styled (m : ColHeaders) (hs : Sorted m) (h : ∀ p ∈ m, p.2.styled = true) :
    ∀ p ∈ m.dedup, p.2.styled = true := by
  have key : ∀ (rest : List (Nat × ColHeader)) (cur : Nat × ColHeader), cur.2.styled = true →
      (∀ p ∈ rest, p.2.styled = true) → ∀ p ∈ ColHeaders.dedupL cur rest, p.2.styled = true := by
    intro rest
    induction rest with
    | nil =>
      intro cur hc _ p hp
      have : p = cur := by simpa [ColHeaders.dedupL] using hp
      rw [this]; exact hc
    | cons q rest ih =>
      intro cur hc hr p hp
      unfold ColHeaders.dedupL at hp
      split at hp
      · exact ih (cur.1, { cur.2 with span := cur.2.span + q.2.span }) hc
          (fun x hx => hr x (List.mem_cons_of_mem _ hx)) p hp
      · rcases List.mem_cons.1 hp with rfl | hp
        · exact hc
        · exact ih q (hr q List.mem_cons_self) (fun x hx => hr x (List.mem_cons_of_mem _ hx)) p hp
  cases m with
  | nil => intro p hp; cases hp
  | cons q m =>
    rw [ColHeaders.dedup_cons _ _ hs]
    exact key m q (h q List.mem_cons_self) (fun x hx => h x (List.mem_cons_of_mem _ hx))

theorem attrs_none {m : ColHeaders} {k : Nat} (h : m.valid k = none) : m.attrs k = {} := by
  simp [ColHeaders.attrs, ColHeaders.colstyle, ColHeaders.colCellstyle, ColHeaders.colVisible, h]

theorem attrs_styled {m : ColHeaders} {k : Nat} {y : ColHeader} (h : m.valid k = some y) (hs : y.styled = true) :
    m.attrs k ≠ {} := by
  intro e
  simp only [ColHeaders.attrs, ColHeaders.colstyle, ColHeaders.colCellstyle, ColHeaders.colVisible, h,
    ColAttr.mk.injEq] at e
  unfold ColHeader.styled at hs
  rw [e.1, e.2.1, e.2.2] at hs
  simp at hs

/-- The columns that were read: the attributes up to a column, none behind it, and no header without attributes. -/
theorem settle_cols (s s' : TSheet) (o : ReadOpts) (evs : List TEv) (hc : s.CellsOK)
    (hw : s.colHeader.WF) (hg : s.colHeader.NoGap) (hn : s.colHeader.NoHole)
    (h : writeSheet s = .ok evs) (hr : readTable o evs = some s') :
    s'.colHeader.WF ∧ s'.colHeader.NoGap
      ∧ (∀ k, s'.colHeader.attrs k = {} → s'.colHeader.valid k = none)
      ∧ (∀ k, s'.colHeader.attrs k ≠ {} → ∀ x, x ≤ k → s'.colHeader.attrs x = s.colHeader.attrs x)
      ∧ (∀ N, (∀ q ∈ s.colHeader, q.1 + q.2.span ≤ N) → ∀ q ∈ s'.colHeader, q.1 + q.2.span ≤ N) := by
  have hobs := (C58_prepare_partial s.colHeader hw s.groupCols s.headerCols).2 hg
  obtain ⟨_, cols, _, _, _, raw, e0, _, _, _, _, _, _, _, e1, _, cc, hcc, hl⟩ :=
    readTable_tiles { s with colHeader := prepareCols s.groupCols s.headerCols s.colHeader } s' o evs
      hc.sorted hc.rows hc.rep (prepare_wf _ hw _ _) h hr
  have hwp := prepare_wf s.colHeader hw s.groupCols s.headerCols
  have hnp : (prepareCols s.groupCols s.headerCols s.colHeader).NoHole := by
    intro i k
    rw [attrs_of_observe (hobs i), attrs_of_observe (hobs k)]
    intro h1 h2 h3 h4
    refine hn i k h1 h2 h3 (fun x a b => ?_)
    rw [← attrs_of_observe (hobs x)]
    exact h4 x a b
  have hgap := noGap_read hwp hl hnp
  have hwc := hl.wf hwp
  have hcol : s'.colHeader = cols.dedup := by
    rw [e0, ← e1]
    split <;> rfl
  have hstyled : ∀ p ∈ cols, p.2.styled = true := by
    rintro ⟨k, y⟩ hp
    have := hl.get k
    rw [(get?_eq_some_iff hl.sorted).mpr hp] at this
    split at this
    · obtain ⟨z, z1, z2⟩ := Option.map_eq_some_iff.mp this.symm
      have z3 := (Option.filter_eq_some_iff.mp z1).2
      rw [← z2]
      exact z3
    · cases this
  have hmerge : ∀ k, s'.colHeader.attrs k = cols.attrs k := fun k => by
    rw [hcol, attrs_of_observe (C17_merge_partial cols hl.sorted hgap k)]
  rw [hcol]
  refine ⟨ColHeaders.dedup_wf _ hwc, deduped_noGap _ (ColHeaders.dedup_deduped _ hwc.1), ?_, ?_, ?_⟩
  · intro k hk
    cases hv : cols.dedup.valid k with
    | none => rfl
    | some y =>
      obtain ⟨b, g1, _, _⟩ := (ColHeaders.dedup_wf _ hwc).valid_some.mp hv
      exact absurd hk (attrs_styled hv (dedup_styled cols hl.sorted hstyled _ (mem_of_get?_eq_some g1)))
  · intro k hk x hx
    rw [← hcol, hmerge] at hk ⊢
    cases hv : cols.valid k with
    | none => exact absurd (attrs_none hv) hk
    | some y =>
      obtain ⟨c', _, hkc, hl'⟩ := hl.reach hwp hv
      have h2 := hl'.attrs hwp (show x < c' by omega)
      simp only at h2
      rw [hobs x] at h2
      have g1 := congrArg ColObs.style h2
      have g2 := congrArg ColObs.cellstyle h2
      have g3 := congrArg ColObs.visible h2
      simp only [ColHeaders.observe] at g1 g2 g3
      unfold ColHeaders.attrs
      rw [g1, g2, g3]
  · intro N hN
    refine TableXml.dedup_end N cols hwc ?_
    rintro ⟨k, y⟩ hp
    have := hl.get k
    rw [(get?_eq_some_iff hl.sorted).mpr hp] at this
    split at this
    · obtain ⟨z, z1, z2⟩ := Option.map_eq_some_iff.mp this.symm
      have z3 := TableXml.prepare_end N s.colHeader hw hN s.groupCols s.headerCols _
        (mem_of_get?_eq_some (Option.filter_eq_some_iff.mp z1).1)
      rw [← z2]
      exact z3
    · cases this

end Verif
