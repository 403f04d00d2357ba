import Verif.Store.Lemmas

/-!
# Properties of the cell store (C01, C02, C07)
-/

set_option autoImplicit false

namespace Verif

open OMap

/-- **C01.** After any history of cell operations on an empty sheet that does not panic, every getter
at every position returns what the specification says: the fold of the operations that name this
position, all other operations being ignored. -/
theorem C01_history (ops : List CellOp) (m : Cells) (h : CellOp.run [] ops = some m) (r c : Nat) :
    observe m r c = specAt (r, c) ops := by
  rw [observe_eq, obsOf_run sorted_nil h]
  rfl

/-- **C01.** A history panics exactly if it contains a span of zero. -/
theorem C01_panics (ops : List CellOp) :
    CellOp.run [] ops = none ↔ ∃ op ∈ ops, op.rejected = true :=
  run_eq_none_iff _ _

/-- **C01.** In any sheet reached by API calls, an operation changes nothing at other positions. -/
theorem C01_isolation (ops : List CellOp) (op : CellOp) (m m' : Cells)
    (h : CellOp.run [] ops = some m) (h' : op.step m = some m') (r c : Nat)
    (hne : op.pos ≠ (r, c)) : observe m' r c = observe m r c := by
  rw [observe_eq, observe_eq, get?_step (sorted_run sorted_nil h) h', if_neg (fun e => hne e.symm)]

/-- The histories of the theorem exist: a non-trivial one, with its observation. -/
example : ∃ m, CellOp.run [] [.setValue 2 3 (.boolean true), .setRowSpan 2 3 2, .setCellstyle 2 4 "s",
      .setFormula 2 3 "of:=1".toList, .clearFormula 2 3, .setValidation 2 3 "v"] = some m
    ∧ observe m 2 3 = { Obs.fresh with present := true, value := .boolean true, rowSpan := 2,
                                       validation := some "v" } := by
  refine ⟨_, rfl, ?_⟩
  decide

/-- **C02.** Copying a cell with `cell` / `add_cell` reproduces every getter at the target, leaves all
other positions unchanged and does not change the source. -/
theorem C02_copy (m : Cells) (r c r' c' : Nat) (x : CellContent) (hx : m.cell r c = some x) :
    observe (m.addCell r' c' x) r' c' = observe m r c
    ∧ ∀ r'' c'', (r'', c'') ≠ (r', c') →
        observe (m.addCell r' c' x) r'' c'' = observe m r'' c'' := by
  constructor
  · rw [observe_eq, observe_eq]
    unfold Cells.addCell
    rw [get?_insert, if_pos rfl, obsOf_toData]
    unfold Cells.cell at hx
    cases hd : m.get? (r, c) with
    | none => rw [hd] at hx; simp at hx
    | some d =>
      rw [hd] at hx
      simp at hx
      subst hx
      simp [Obs.after, CellData.toContent, obsOf]
  · intro r'' c'' hne
    rw [observe_eq, observe_eq]
    unfold Cells.addCell
    rw [get?_insert, if_neg hne]

/-- **C02.** `remove_cell` returns the content `cell` would have returned, empties the position and
nothing else; putting the returned content back restores every observation. -/
theorem C02_remove (ops : List CellOp) (m : Cells) (h : CellOp.run [] ops = some m) (r c : Nat) :
    (m.removeCell r c).2 = m.cell r c
    ∧ observe (m.removeCell r c).1 r c = Obs.fresh
    ∧ (∀ r' c', (r', c') ≠ (r, c) →
        observe (m.removeCell r c).1 r' c' = observe m r' c')
    ∧ (∀ x, (m.removeCell r c).2 = some x → ∀ r' c',
        observe ((m.removeCell r c).1.addCell r c x) r' c' = observe m r' c') := by
  have hs := sorted_run sorted_nil h
  refine ⟨rfl, ?_, ?_, ?_⟩
  · rw [observe_eq]
    simp only [Cells.removeCell]
    rw [get?_erase hs, if_pos rfl]; rfl
  · intro r' c' hne
    rw [observe_eq, observe_eq]
    simp only [Cells.removeCell]
    rw [get?_erase hs, if_neg hne]
  · intro x hx r' c'
    by_cases e : (r', c') = (r, c)
    · simp only [Prod.mk.injEq] at e
      obtain ⟨e1, e2⟩ := e
      subst e1; subst e2
      rw [observe_eq, observe_eq]
      unfold Cells.addCell
      rw [get?_insert, if_pos rfl, obsOf_toData]
      simp only [Cells.removeCell] at hx
      cases hd : m.get? (r', c') with
      | none => rw [hd] at hx; simp at hx
      | some d =>
        rw [hd] at hx
        simp at hx
        subst hx
        simp [Obs.after, CellData.toContent, obsOf]
    · rw [observe_eq, observe_eq]
      unfold Cells.addCell
      rw [get?_insert, if_neg e]
      simp only [Cells.removeCell]
      rw [get?_erase hs, if_neg e]

/-- A cell to copy exists in a reachable sheet. -/
example : ∃ m, CellOp.run [] [.setValue 0 0 (.text "x".toList), .setColSpan 0 0 3] = some m
    ∧ (m.cell 0 0).isSome := ⟨_, rfl, by decide⟩

/-- Remark to C02: the raw `draw_frames` getter distinguishes "no extra data" from "an empty list of
frames", so it is not literally preserved by copying. This is why `Obs` identifies the two. -/
theorem C02_draw_frames_option :
    ∃ m x, CellOp.run [] [.setValidation 0 0 "v", .clearValidation 0 0] = some m
      ∧ m.cell 0 0 = some x ∧ m.drawFrames 0 0 = some []
      ∧ (m.addCell 1 1 x).drawFrames 1 1 = none :=
  ⟨_, _, rfl, rfl, by decide, by decide⟩

/-- **C07.** Every stored cell lies strictly inside `used_grid_size`, and no smaller bound (in either
coordinate) does; for a sheet without cells it is (1, 1). -/
theorem C07_used_grid_size (m : Cells) :
    (∀ r c, m.isEmpty r c = false → r < m.usedGridSize.1 ∧ c < m.usedGridSize.2)
    ∧ (∀ R C, (m ≠ [] ∧ ∀ r c, m.isEmpty r c = false → r < R ∧ c < C) →
        m.usedGridSize.1 ≤ R ∧ m.usedGridSize.2 ≤ C)
    ∧ (m = [] → m.usedGridSize = (1, 1)) := by
  have key := foldl_max_spec m (0, 0)
  simp only at key
  obtain ⟨_, _, h3, h4, h5⟩ := key
  refine ⟨?_, ?_, ?_⟩
  · intro r c h
    simp only [Cells.isEmpty, OMap.contains, Bool.not_eq_false'] at h
    cases hg : m.get? (r, c) with
    | none => rw [hg] at h; simp at h
    | some d =>
      have := h3 _ (mem_of_get?_eq_some hg)
      simp only [Cells.usedGridSize]
      simp only at this
      omega
  · rintro R C ⟨hne, h⟩
    have hin : ∀ p ∈ m, p.1.1 < R ∧ p.1.2 < C := by
      intro p hp
      have := get?_isSome_of_mem hp
      exact h p.1.1 p.1.2 (by simp only [Cells.isEmpty, OMap.contains]; rw [this]; rfl)
    obtain ⟨p0, hp0⟩ := List.exists_mem_of_ne_nil m hne
    have hp := hin p0 hp0
    simp only [Cells.usedGridSize]
    constructor
    · rcases h4 with h4 | ⟨q, hq, h4⟩
      · rw [h4]; simp; omega
      · rw [← h4]; exact (hin q hq).1
    · rcases h5 with h5 | ⟨q, hq, h5⟩
      · rw [h5]; simp; omega
      · rw [← h5]; exact (hin q hq).2
  · intro h; subst h; rfl

example : Cells.usedGridSize [((1, 7), {}), ((4, 2), {})] = (5, 8) := by decide

end Verif
