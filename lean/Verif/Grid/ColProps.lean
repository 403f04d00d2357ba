import Verif.Grid.Table

/-!
# Column attributes in the file and after reading (C16, C19)
-/

set_option autoImplicit false

namespace Verif

open OMap

/-! ### Specification -/

/-- The attributes of a column that are written with it; the width goes with the style. -/
structure ColAttr where
  style : Option String := none
  cellstyle : Option String := none
  visible : Visibility := .visible
  deriving DecidableEq

/-- What the getters say about a column, without the width. -/
def ColHeaders.attrs (m : ColHeaders) (c : Nat) : ColAttr :=
  ⟨m.colstyle c, m.colCellstyle c, m.colVisible c⟩

/-- What a `table:table-column` element says. -/
def ColTag.attrs (t : ColTag) : ColAttr := ⟨t.style, t.cellstyle, t.visibility.getD .visible⟩

/-- The columns of a written table, one entry per column, repeats expanded. -/
def colList : List TEv → List ColAttr
  | [] => []
  | .column t :: evs => List.replicate (t.repeated.getD 1) t.attrs ++ colList evs
  | _ :: evs => colList evs

/-- No hole: there are no two columns with equal attributes that are separated by columns without
attributes only. -/
def ColHeaders.NoHole (m : ColHeaders) : Prop :=
  ∀ i k, i + 1 < k → m.attrs i = m.attrs k → m.attrs i ≠ {} →
    ¬ ∀ x, i < x → x < k → m.attrs x = {}

/-! ### Proofs -/

theorem attrs_of_observe {m m' : ColHeaders} {c c' : Nat}
    (h : m.observe c = m'.observe c') : m.attrs c = m'.attrs c' := by
  have h1 := congrArg ColObs.style h
  have h2 := congrArg ColObs.cellstyle h
  have h3 := congrArg ColObs.visible h
  simp only [ColHeaders.observe] at h1 h2 h3
  unfold ColHeaders.attrs
  rw [h1, h2, h3]

theorem colList_append (a b : List TEv) : colList (a ++ b) = colList a ++ colList b := by
  induction a with
  | nil => rfl
  | cons e a ih => cases e <;> simp [colList, ih]

theorem colList_none (evs : List TEv) (h : ∀ e ∈ evs, ∀ t, e ≠ .column t) : colList evs = [] := by
  induction evs with
  | nil => rfl
  | cons e evs ih =>
    have := ih (fun x hx => h x (by simp [hx]))
    cases e with
    | column t => exact absurd rfl (h _ List.mem_cons_self t)
    | _ => exact this

theorem colList_step (s : TSheet) (hw : s.colHeader.WF) (c : Nat) (hb : s.colHeader.Border c) :
    colList (writeColStep s c).1
      = (List.range' c (writeColStep s c).2).map s.colHeader.attrs := by
  have h1 : colList ((s.groupCols.filter (fun g => decide (c = g.frm))).map colGroupStartOf
      ++ (if inHeaderCols s c then [.colHeaderStart] else [])) = [] := by
    refine colList_none _ ?_
    intro e he t ht
    rcases List.mem_append.mp he with he | he
    · obtain ⟨g, _, rfl⟩ := List.mem_map.mp he
      simp [colGroupStartOf] at ht
    · rw [mem_ite_single he] at ht; simp at ht
  have h2 : colList ((if inHeaderCols s c then [.colHeaderEnd] else [])
      ++ (s.groupCols.filter (fun g => decide (c = g.to))).map (fun _ => TEv.colGroupEnd)) = [] := by
    refine colList_none _ ?_
    intro e he t ht
    rcases List.mem_append.mp he with he | he
    · rw [mem_ite_single he] at ht; simp at ht
    · obtain ⟨g, _, rfl⟩ := List.mem_map.mp he
      simp at ht
  unfold writeColStep
  simp only
  rw [List.append_assoc, colList_append, colList_append, h1, h2]
  simp only [List.nil_append, List.append_nil, colList]
  cases hc : OMap.get? s.colHeader c with
  | none =>
    have hv : s.colHeader.valid c = none := by
      cases hv : s.colHeader.valid c with
      | none => rfl
      | some x =>
        obtain ⟨b, g1, g2, g3⟩ := hw.valid_some.mp hv
        by_cases e : b = c
        · rw [e, hc] at g1; simp at g1
        · exact absurd ⟨by omega, g3⟩ (hb b x g1)
    simp [ColTag.attrs, ColHeaders.attrs, ColHeaders.colstyle, ColHeaders.colCellstyle,
      ColHeaders.colVisible, hv]
  | some x =>
    have hp := hw.pos hc
    have hrep : (colTag x).repeated.getD 1 = x.span := by
      unfold colTag repAttr
      simp only
      split
      · rfl
      · simp only [Option.getD_none]; omega
    rw [hrep]
    apply List.ext_getElem?
    intro i
    by_cases hi : i < x.span
    · have hv : s.colHeader.valid (c + i) = some x :=
        hw.valid_some.mpr ⟨c, hc, by omega, by omega⟩
      rw [List.getElem?_replicate, if_pos hi, List.getElem?_map, List.getElem?_range' hi]
      simp only [Option.map_some, Nat.one_mul, ColHeaders.attrs, ColHeaders.colstyle,
        ColHeaders.colCellstyle, ColHeaders.colVisible, hv, ColTag.attrs, colTag]
      congr 2
      split
      · rename_i h; rw [h]; rfl
      · rfl
    · rw [List.getElem?_eq_none (by simp; omega), List.getElem?_eq_none (by simp; omega)]

theorem colList_loop (s : TSheet) (hw : s.colHeader.WF) (mx fuel : Nat) :
    ∀ (c : Nat) (evs : List TEv), s.colHeader.Border c → writeColLoop s mx fuel c = .ok evs →
    ∃ n, mx ≤ c + n ∧ colList evs = (List.range' c n).map s.colHeader.attrs := by
  induction fuel with
  | zero =>
    intro c evs hb h
    unfold writeColLoop at h
    split at h
    · simp only [Except.ok.injEq] at h; subst h
      exact ⟨0, by omega, rfl⟩
    · simp at h
  | succ fuel ih =>
    intro c evs hb h
    unfold writeColLoop at h
    split at h
    · simp only [Except.ok.injEq] at h; subst h
      exact ⟨0, by omega, rfl⟩
    · simp only at h
      split at h
      · simp at h
      split at h
      · simp at h
      rename_i evs' hev
      simp only [Except.ok.injEq] at h
      subst h
      obtain ⟨n, h1, h2⟩ := ih _ evs' (Border.next hw hb) hev
      refine ⟨(writeColStep s c).2 + n, by omega, ?_⟩
      rw [colList_append, colList_step s hw c hb, h2, ← List.map_append]
      have := List.range'_append (s := c) (m := (writeColStep s c).2) (n := n) (step := 1)
      rw [Nat.one_mul] at this
      rw [this]

theorem colList_rows (s : TSheet) (evs : List TEv) (h : writeRows s = .ok evs) : colList evs = [] := by
  refine colList_none _ ?_
  rintro e he t rfl
  have := writeLoop_notCol s _ _ _ _ h _ he
  simp [TEv.isCol] at this

/-- **C16 (partial), coverage.** Without a gap between equal columns: the column elements of a written
table, repeats expanded, are the columns 0, 1, 2, ... in order, each with its own attributes, and
reach at least over all columns with cells, all column groups and the header columns. (Balance of
the tags is `C15_balanced_partial`.) Missing: columns with equal attributes and a gap between them,
see `C17_gap_counterexample`. -/
theorem C16_columns_partial (s : TSheet) (hw : s.colHeader.WF) (hg : s.colHeader.NoGap)
    (evs : List TEv) (h : writeSheet s = .ok evs) :
    ∃ n, colList evs = (List.range n).map s.colHeader.attrs
      ∧ (∀ r c, s.data.isEmpty r c = false → c < n)
      ∧ (∀ g ∈ s.groupCols, g.to < n) ∧ (∀ x, s.headerCols = some x → x.to < n) := by
  unfold writeSheet writeTable at h
  split at h
  · simp at h
  rename_i e1 h1
  split at h
  · simp at h
  rename_i e2 h2
  simp only [Except.ok.injEq] at h
  subst h
  obtain ⟨n, a1, a2⟩ := colList_loop _ (prepare_wf _ hw _ _) _ _ 0 e1 (fun b x _ hb => by omega) h1
  refine ⟨n, ?_, ?_, ?_, ?_⟩
  · rw [colList_append, a2, colList_rows _ e2 h2, List.append_nil, ← List.range_eq_range']
    refine List.map_congr_left ?_
    intro j _
    exact attrs_of_observe ((C58_prepare_partial s.colHeader hw s.groupCols s.headerCols).2 hg j)
  · intro r c hc
    have := (C07_used_grid_size s.data).1 r c hc
    have := (colCount_ge { s with colHeader := prepareCols s.groupCols s.headerCols s.colHeader }).1
    simp only at this a1
    omega
  · intro g hg
    have := (colCount_ge { s with colHeader := prepareCols s.groupCols s.headerCols s.colHeader }).2.1 g hg
    omega
  · intro x hx
    have := (colCount_ge { s with colHeader := prepareCols s.groupCols s.headerCols s.colHeader }).2.2 x hx
    omega

/-! ### Reading -/

theorem noGap_of {m : ColHeaders} (hs : Sorted m)
    (h : ∀ p ∈ m, ∀ q ∈ m, p.1 < q.1 → (∀ z ∈ m, ¬ (p.1 < z.1 ∧ z.1 < q.1)) →
      p.2.limitedEq q.2 = true → p.1 + p.2.span = q.1) : m.NoGap := by
  induction m with
  | nil => exact trivial
  | cons p m ih =>
    have hp : ∀ q ∈ m, p.1 < q.1 := fun q hq => by simpa using hs.head_lt q hq
    have i := ih hs.tail (by
      intro a ha b hb hlt hz
      refine h a (by simp [ha]) b (by simp [hb]) hlt ?_
      intro z hz'
      rcases List.mem_cons.mp hz' with e | e
      · rw [e]; have := hp a ha; omega
      · exact hz z e)
    cases m with
    | nil => exact trivial
    | cons q m =>
      refine ⟨h p (by simp) q (by simp) (hp q (by simp)) ?_, i⟩
      intro z hz
      rcases List.mem_cons.mp hz with e | e
      · rw [e]; omega
      · rcases List.mem_cons.mp e with e | e
        · rw [e]; omega
        · have : q.1 < z.1 := by simpa using hs.tail.head_lt z e
          omega

theorem noGap_read {m r : ColHeaders} {c : Nat} (hw : m.WF) (hl : ColLook m c r) (hn : m.NoHole) :
    r.NoGap := by
  have hwr := hl.wf hw
  refine noGap_of hl.sorted ?_
  intro p hp q hq hlt hz heq
  have gp := (get?_eq_some_iff hl.sorted).mpr hp
  have gq := (get?_eq_some_iff hl.sorted).mpr hq
  have d := hwr.disj gp gq hlt
  have pp := hwr.pos gp
  have pq := hwr.pos gq
  apply Nat.le_antisymm d
  apply Nat.le_of_not_lt
  intro hgap
  have hqc : q.1 < c := by
    have := hl.get q.1
    rw [gq] at this
    by_cases h : q.1 < c
    · exact h
    · rw [if_neg h] at this; simp at this
  have vp : r.valid (p.1 + p.2.span - 1) = some p.2 := hwr.valid_some.mpr ⟨p.1, gp, by omega, by omega⟩
  have vq : r.valid q.1 = some q.2 := hwr.valid_some.mpr ⟨q.1, gq, by omega, by omega⟩
  have vx : ∀ x, p.1 + p.2.span ≤ x → x < q.1 → r.valid x = none := by
    intro x h1 h2
    cases hv : r.valid x with
    | none => rfl
    | some y =>
      obtain ⟨b, g1, g2, g3⟩ := hwr.valid_some.mp hv
      rcases Nat.lt_trichotomy b p.1 with l | l | l
      · have := hwr.disj g1 gp l; omega
      · rw [l, gp] at g1
        simp only [Option.some.injEq] at g1
        rw [← g1] at g3; omega
      · exact absurd ⟨l, by omega⟩ (hz (b, y) (mem_of_get?_eq_some g1))
  have attrs_eq : ∀ k, k < c → m.attrs k = r.attrs k := by
    intro k hk
    have := hl.attrs hw hk
    have h1 := congrArg ColObs.style this
    have h2 := congrArg ColObs.cellstyle this
    have h3 := congrArg ColObs.visible this
    simp only [ColHeaders.observe] at h1 h2 h3
    unfold ColHeaders.attrs
    rw [h1, h2, h3]
  have hobs := (ColHeader.limitedEq_iff _ _).mp heq
  have hstyled : p.2.styled = true := by
    have := hl.get p.1
    rw [gp, if_pos (by omega)] at this
    obtain ⟨y, h1, h2⟩ := Option.map_eq_some_iff.mp this.symm
    have h3 := (Option.filter_eq_some_iff.mp h1).2
    rw [← h2]
    exact h3
  refine hn (p.1 + p.2.span - 1) q.1 (by omega) ?_ ?_ ?_
  · rw [attrs_eq _ (by omega), attrs_eq _ hqc]
    refine attrs_of_observe ?_
    rw [ColHeaders.observe_of_some vp, ColHeaders.observe_of_some vq]
    exact hobs
  · rw [attrs_eq _ (by omega)]
    intro e
    simp only [ColHeaders.attrs, ColHeaders.colstyle, ColHeaders.colCellstyle, ColHeaders.colVisible,
      vp, ColAttr.mk.injEq] at e
    unfold ColHeader.styled at hstyled
    rw [e.1, e.2.1, e.2.2] at hstyled
    simp at hstyled
  · intro x h1 h2
    rw [attrs_eq _ (by omega)]
    have := vx x (by omega) h2
    simp [ColHeaders.attrs, ColHeaders.colstyle, ColHeaders.colCellstyle, ColHeaders.colVisible, this]

/-- **C19 (partial).** Every column inside the used area, and every column up to the end of the column
groups and header columns, has the same style, default cell style and visibility after writing and
reading. Missing: columns with equal attributes separated by columns without attributes
(`C19_hole_counterexample`, `C17_gap_counterexample`). The widths are C57. -/
theorem C19_columns_partial (s s' : TSheet) (o : ReadOpts) (evs : List TEv) (hc : s.CellsOK)
    (hw : s.colHeader.WF) (hg : s.colHeader.NoGap) (hn : s.colHeader.NoHole)
    (h : writeSheet s = .ok evs) (hr : readTable o evs = some s') :
    ∀ k, ((∃ r c, s.data.isEmpty r c = false ∧ k ≤ c) ∨ (∃ g ∈ s.groupCols, k ≤ g.to)
        ∨ (∃ x, s.headerCols = some x ∧ k ≤ x.to)) →
      s'.colHeader.attrs k = s.colHeader.attrs k := by
  have hobs := (C58_prepare_partial s.colHeader hw s.groupCols s.headerCols).2 hg
  obtain ⟨_, cols, _, _, _, raw, e0, _, _, _, _, _, _, _, e1, _, cc, hcc, hl⟩ :=
    readTable_tiles { s with colHeader := prepareCols s.groupCols s.headerCols s.colHeader } s' o evs
      hc.sorted hc.rows hc.rep (prepare_wf _ hw _ _) h hr
  have hwp := prepare_wf s.colHeader hw s.groupCols s.headerCols
  have hnp : (prepareCols s.groupCols s.headerCols s.colHeader).NoHole := by
    intro i k
    rw [attrs_of_observe (hobs i), attrs_of_observe (hobs k)]
    intro h1 h2 h3 h4
    refine hn i k h1 h2 h3 (fun x a b => ?_)
    rw [← attrs_of_observe (hobs x)]
    exact h4 x a b
  have hgap := noGap_read hwp hl hnp
  have hcol : s'.colHeader = cols.dedup := by
    rw [e0, ← e1]
    split <;> rfl
  intro k hk
  have hkc : k < cc := by
    have b := colCount_ge { s with colHeader := prepareCols s.groupCols s.headerCols s.colHeader }
    rcases hk with ⟨r, c, h1, h2⟩ | ⟨g, h1, h2⟩ | ⟨x, h1, h2⟩
    · have := (C07_used_grid_size s.data).1 r c h1
      have := b.1
      simp only at this
      omega
    · have := b.2.1 g h1; omega
    · have := b.2.2 x h1; omega
  have h1 := C17_merge_partial cols hl.sorted hgap k
  rw [hcol, attrs_of_observe h1]
  have h2 := hl.attrs hwp hkc
  rw [hobs k] at h2
  have g1 := congrArg ColObs.style h2
  have g2 := congrArg ColObs.cellstyle h2
  have g3 := congrArg ColObs.visible h2
  simp only [ColHeaders.observe] at g1 g2 g3
  unfold ColHeaders.attrs
  rw [g1, g2, g3]

end Verif
