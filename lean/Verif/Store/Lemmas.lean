import Verif.Store.Spec

set_option autoImplicit false

namespace Verif

open OMap

/-- The observation of a stored cell, or of none. -/
def obsOf : Option CellData → Obs
  | none => .fresh
  | some d =>
    let e := d.extra.getD {}
    { present := true, value := d.value, formula := d.formula, style := d.style
      «repeat» := d.repeat, validation := e.validation
      rowSpan := e.span.rowSpan, colSpan := e.span.colSpan
      matrixRowSpan := e.matrixSpan.rowSpan, matrixColSpan := e.matrixSpan.colSpan
      annotation := e.annotation, drawFrames := e.drawFrames }

theorem observe_eq (m : Cells) (r c : Nat) : observe m r c = obsOf (m.get? (r, c)) := by
  simp only [observe, obsOf, Cells.isEmpty, OMap.contains, Cells.value, Cells.formula,
    Cells.cellstyle, Cells.cellRepeat, Cells.validation, Cells.rowSpan, Cells.colSpan,
    Cells.matrixRowSpan, Cells.matrixColSpan, Cells.annotation, Cells.drawFrames]
  cases h : m.get? (r, c) with
  | none => simp [Obs.fresh]
  | some d =>
    obtain ⟨v, f, s, n, e⟩ := d
    cases e <;> simp

theorem obsOf_toData (x : CellContent) :
    obsOf (some x.toData) = Obs.fresh.after (.addCell 0 0 x) := by
  obtain ⟨v, s, f, n, va, sp, msp, an, df⟩ := x
  obtain ⟨sr, sc⟩ := sp
  obtain ⟨mr, mc⟩ := msp
  simp only [obsOf, CellContent.toData, Obs.after]
  split
  · simp
  · rename_i h
    simp [CellSpan.isEmpty] at h
    simp
    obtain ⟨⟨⟨⟨h1, h2⟩, h3⟩, h4⟩, h5⟩ := h
    simp [h1, h2, h3, h4, h5]

/-- Effect of an operation on the cell it names. -/
def CellOp.effect (op : CellOp) (x : Option CellData) : Option CellData :=
  match op with
  | .setValue _ _ v => some { x.getD {} with value := v }
  | .setStyledValue _ _ v s => some { x.getD {} with value := v, style := some s }
  | .setFormula _ _ f => some { x.getD {} with formula := some f }
  | .clearFormula _ _ => x.map (fun d => { d with formula := none })
  | .setRepeat _ _ n => some { x.getD {} with «repeat» := n }
  | .setCellstyle _ _ s => some { x.getD {} with style := some s }
  | .clearCellstyle _ _ => x.map (fun d => { d with style := none })
  | .setValidation _ _ s => some (Cells.extraMut (x.getD {}) (fun e => { e with validation := some s }))
  | .clearValidation _ _ => x.map (fun d => Cells.extraMut d (fun e => { e with validation := none }))
  | .setRowSpan _ _ n =>
    some (Cells.extraMut (x.getD {}) (fun e => { e with span := { e.span with rowSpan := n } }))
  | .setColSpan _ _ n =>
    some (Cells.extraMut (x.getD {}) (fun e => { e with span := { e.span with colSpan := n } }))
  | .setMatrixRowSpan _ _ n =>
    some (Cells.extraMut (x.getD {}) (fun e => { e with matrixSpan := { e.matrixSpan with rowSpan := n } }))
  | .setMatrixColSpan _ _ n =>
    some (Cells.extraMut (x.getD {}) (fun e => { e with matrixSpan := { e.matrixSpan with colSpan := n } }))
  | .setAnnotation _ _ a => some (Cells.extraMut (x.getD {}) (fun e => { e with annotation := some a }))
  | .clearAnnotation _ _ => x.map (fun d => Cells.extraMut d (fun e => { e with annotation := none }))
  | .editAnnotation _ _ g =>
    x.map (fun d => { d with extra := d.extra.map (fun e => { e with annotation := e.annotation.map g }) })
  | .addDrawFrame _ _ f =>
    some (Cells.extraMut (x.getD {}) (fun e => { e with drawFrames := e.drawFrames ++ [f] }))
  | .clearDrawFrames _ _ => x.map (fun d => Cells.extraMut d (fun e => { e with drawFrames := [] }))
  | .editDrawFrames _ _ g =>
    x.map (fun d => { d with extra := d.extra.map (fun e => { e with drawFrames := e.drawFrames.map g }) })
  | .addCell _ _ y => some y.toData
  | .removeCell _ _ => none

theorem get?_orDefault (m : Cells) (r c : Nat) (f : CellData → CellData) (k : Nat × Nat) :
    (m.orDefault r c f).get? k = if k = (r, c) then some (f ((m.get? k).getD {})) else m.get? k := by
  unfold Cells.orDefault
  rw [get?_insert]
  split
  · rename_i h; rw [h]
  · rfl

theorem get?_modify (m : Cells) (r c : Nat) (f : CellData → CellData) (k : Nat × Nat) :
    (m.modify r c f).get? k = if k = (r, c) then (m.get? k).map f else m.get? k := by
  unfold Cells.modify
  split
  · rename_i h
    split
    · rename_i e; subst e; rw [h]; rfl
    · rfl
  · rename_i d h
    rw [get?_insert]
    split
    · rename_i e; subst e; rw [h]; rfl
    · rfl

theorem get?_step {m m' : Cells} (hm : Sorted m) {op : CellOp} (h : op.step m = some m')
    (k : Nat × Nat) :
    m'.get? k = if k = op.pos then op.effect (m.get? k) else m.get? k := by
  cases op <;>
    simp only [CellOp.step, Option.some.injEq, Cells.setRowSpan, Cells.setColSpan,
      Cells.setMatrixRowSpan, Cells.setMatrixColSpan, Option.ite_none_left_eq_some] at h <;>
    (first | subst h | (obtain ⟨_, rfl⟩ := h)) <;>
    simp only [CellOp.pos, CellOp.effect, Cells.setValue, Cells.setStyledValue, Cells.setFormula,
      Cells.clearFormula, Cells.setRepeat, Cells.setCellstyle, Cells.clearCellstyle,
      Cells.setValidation, Cells.clearValidation, Cells.setAnnotation, Cells.clearAnnotation,
      Cells.editAnnotation, Cells.editDrawFrames, Cells.addDrawFrame, Cells.clearDrawFrames, Cells.addCell, Cells.removeCell,
      get?_orDefault, get?_modify, get?_insert, get?_erase hm] <;> rfl

theorem sorted_orDefault {m : Cells} (hm : Sorted m) (r c : Nat) (f : CellData → CellData) :
    Sorted (m.orDefault r c f) := hm.insert _ _

theorem sorted_modify {m : Cells} (hm : Sorted m) (r c : Nat) (f : CellData → CellData) :
    Sorted (m.modify r c f) := by
  unfold Cells.modify
  split
  · exact hm
  · exact hm.insert _ _

theorem sorted_step {m m' : Cells} (hm : Sorted m) {op : CellOp} (h : op.step m = some m') :
    Sorted m' := by
  cases op <;>
    simp only [CellOp.step, Option.some.injEq, Cells.setRowSpan, Cells.setColSpan,
      Cells.setMatrixRowSpan, Cells.setMatrixColSpan, Option.ite_none_left_eq_some] at h <;>
    (first | subst h | (obtain ⟨_, rfl⟩ := h)) <;>
    first
      | exact sorted_orDefault hm _ _ _
      | exact sorted_modify hm _ _ _
      | exact hm.insert _ _
      | exact hm.erase _

theorem sorted_run {m m' : Cells} (hm : Sorted m) {ops : List CellOp}
    (h : CellOp.run m ops = some m') : Sorted m' := by
  induction ops generalizing m with
  | nil => simp [CellOp.run] at h; subst h; exact hm
  | cons op ops ih =>
    simp only [CellOp.run] at h
    cases h1 : op.step m with
    | none => rw [h1] at h; simp at h
    | some m1 => rw [h1] at h; exact ih (sorted_step hm h1) h

theorem obsOf_effect (op : CellOp) (x : Option CellData) :
    obsOf (op.effect x) = (obsOf x).after op := by
  cases op <;> cases x <;>
    simp [CellOp.effect, obsOf, Obs.after, Obs.fresh, Cells.extraMut, Option.map]
  case editAnnotation.some r c g d =>
    obtain ⟨v, f, s, n, e⟩ := d
    cases e <;> simp
  case editDrawFrames.some r c g d =>
    obtain ⟨v, f, s, n, e⟩ := d
    cases e <;> simp
  all_goals
    have := obsOf_toData (by assumption)
    simpa [obsOf, Obs.after] using this

theorem obsOf_run {m m' : Cells} (hm : Sorted m) {ops : List CellOp}
    (h : CellOp.run m ops = some m') (k : Nat × Nat) :
    obsOf (m'.get? k) =
      (ops.filter (fun op => decide (op.pos = k))).foldl Obs.after (obsOf (m.get? k)) := by
  induction ops generalizing m with
  | nil => simp [CellOp.run] at h; subst h; rfl
  | cons op ops ih =>
    simp only [CellOp.run] at h
    cases h1 : op.step m with
    | none => rw [h1] at h; simp at h
    | some m1 =>
      rw [h1] at h
      rw [ih (sorted_step hm h1) h, get?_step hm h1]
      by_cases e : op.pos = k
      · subst e; simp [obsOf_effect]
      · rw [if_neg (fun h => e h.symm)]
        simp [e]

theorem step_eq_none_iff (m : Cells) (op : CellOp) : op.step m = none ↔ op.rejected = true := by
  cases op <;> simp [CellOp.step, CellOp.rejected, Cells.setRowSpan, Cells.setColSpan,
    Cells.setMatrixRowSpan, Cells.setMatrixColSpan]

theorem run_eq_none_iff (m : Cells) (ops : List CellOp) :
    CellOp.run m ops = none ↔ ∃ op ∈ ops, op.rejected = true := by
  induction ops generalizing m with
  | nil => simp [CellOp.run]
  | cons op ops ih =>
    simp only [CellOp.run]
    cases h1 : op.step m with
    | none => simp [(step_eq_none_iff m op).mp h1]
    | some m1 =>
      have : ¬ op.rejected = true := fun h => by
        rw [(step_eq_none_iff m op).mpr h] at h1; simp at h1
      simp [ih, this]

/-! ### used_grid_size -/

theorem foldl_max_spec (m : Cells) (a : Nat × Nat) :
    let f := m.foldl (fun mx p => (Nat.max mx.1 p.1.1, Nat.max mx.2 p.1.2)) a
    a.1 ≤ f.1 ∧ a.2 ≤ f.2 ∧ (∀ p ∈ m, p.1.1 ≤ f.1 ∧ p.1.2 ≤ f.2)
      ∧ (f.1 = a.1 ∨ ∃ p ∈ m, p.1.1 = f.1) ∧ (f.2 = a.2 ∨ ∃ p ∈ m, p.1.2 = f.2) := by
  induction m generalizing a with
  | nil => simp
  | cons p m ih =>
    simp only [List.foldl_cons]
    have h := ih (Nat.max a.1 p.1.1, Nat.max a.2 p.1.2)
    simp only at h
    obtain ⟨h1, h2, h3, h4, h5⟩ := h
    have g1 : a.1 ≤ Nat.max a.1 p.1.1 := Nat.le_max_left _ _
    have g2 : p.1.1 ≤ Nat.max a.1 p.1.1 := Nat.le_max_right _ _
    have g3 : a.2 ≤ Nat.max a.2 p.1.2 := Nat.le_max_left _ _
    have g4 : p.1.2 ≤ Nat.max a.2 p.1.2 := Nat.le_max_right _ _
    refine ⟨by omega, by omega, ?_, ?_, ?_⟩
    · intro q hq
      rcases List.mem_cons.mp hq with hq | hq
      · subst hq; omega
      · exact h3 q hq
    · rcases h4 with h4 | ⟨q, hq, h4⟩
      · rw [h4]
        by_cases hc : a.1 ≤ p.1.1
        · exact Or.inr ⟨p, by simp, by simp [hc]⟩
        · left; exact Nat.max_eq_left (by omega)
      · exact Or.inr ⟨q, by simp [hq], h4⟩
    · rcases h5 with h5 | ⟨q, hq, h5⟩
      · rw [h5]
        by_cases hc : a.2 ≤ p.1.2
        · exact Or.inr ⟨p, by simp, by simp [hc]⟩
        · left; exact Nat.max_eq_left (by omega)
      · exact Or.inr ⟨q, by simp [hq], h5⟩

end Verif
