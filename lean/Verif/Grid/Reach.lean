import Verif.Grid.Props

/-!
# Which sheets meet the hypotheses on row headers
-/

set_option autoImplicit false

namespace Verif

open OMap

/-- The history sets a repeat of more than one for row `r`. -/
def setsRepeat (ops : List RowOp) (r : Nat) : Prop := ∃ n, 1 < n ∧ RowOp.setRepeat r n ∈ ops

/-- Where repeat counts of more than one are stored after a history. -/
structure RepInv (ops : List RowOp) (m : RowHeaders) : Prop where
  wfg : m.WFG
  span : ∀ k x, m.get? k = some x → x.span ≤ 1
  rep : ∀ k x, m.get? k = some x → 1 < x.repeat →
    (x.span = 1 ∧ setsRepeat ops k) ∨ (x.span = 0 ∧ ∃ k', k = k' + 1 ∧ setsRepeat ops k')

theorem setsRepeat.mono {ops ops' : List RowOp} {r : Nat} (h : setsRepeat ops r) :
    setsRepeat (ops ++ ops') r := by
  obtain ⟨n, h1, h2⟩ := h
  exact ⟨n, h1, by simp [h2]⟩

theorem apply_repeat_cases (op : RowOp) (h : RowHeader) :
    (op.apply h).repeat = h.repeat ∨ op = .setRepeat op.row (op.apply h).repeat := by
  cases op <;> simp [RowOp.apply, RowOp.row]

theorem RepInv.step {ops : List RowOp} {m m' : RowHeaders} (h : RepInv ops m) (op : RowOp)
    (hs : m.step op = some m') : RepInv (ops ++ [op]) m' := by
  have hrej : op.rejected = false := by
    cases hr : op.rejected with
    | false => rfl
    | true => rw [RowHeaders.step_eq, hr] at hs; simp at hs
  have hrun : RowHeaders.run m [op] = some m' := by simp only [RowHeaders.run, hs]
  obtain ⟨w1, w2⟩ := rows_run_inv [op] m m' h.wfg h.span hrun
  refine ⟨w1, w2, ?_⟩
  rw [RowHeaders.step_eq, hrej] at hs
  simp only [Bool.false_eq_true, if_false] at hs
  have hown : ∀ (y : RowHeader), y.span = 1 → (1 < y.repeat → setsRepeat ops op.row) →
      1 < (op.apply y).repeat →
      ((op.apply y).span = 1 ∧ setsRepeat (ops ++ [op]) op.row) := by
    intro y hy1 hy2 hy3
    refine ⟨by rw [RowHeaders.apply_span]; exact hy1, ?_⟩
    rcases apply_repeat_cases op y with e | e
    · rw [e] at hy3; exact (hy2 hy3).mono
    · exact ⟨_, hy3, by rw [← e]; simp⟩
  cases hv : m.valid op.row with
  | none =>
    rw [RowHeaders.modify_uncovered hv] at hs
    simp only [Option.some.injEq] at hs
    subst hs
    intro k x hx hr
    rw [get?_insert, get?_insert] at hx
    by_cases e : k = op.row
    · rw [if_pos e] at hx
      simp only [Option.some.injEq] at hx
      subst hx
      rw [e]
      exact Or.inl (hown {} rfl (fun h => absurd h (by decide)) hr)
    · rw [if_neg e, if_neg e] at hx
      rcases h.rep k x hx hr with ⟨a, b⟩ | ⟨a, k', e', b⟩
      · exact Or.inl ⟨a, b.mono⟩
      · exact Or.inr ⟨a, k', e', b.mono⟩
  | some y =>
    obtain ⟨b, hb, h1, h2⟩ := h.wfg.valid_some.mp hv
    have hsp := h.span b y hb
    have hbr : b = op.row := by omega
    have hy1 : y.span = 1 := by omega
    subst hbr
    obtain ⟨m2, e2, _, g2⟩ := RowHeaders.modify_covered h.wfg hb h1 h2 (fun h => op.apply h)
    rw [e2] at hs
    simp only [Option.some.injEq] at hs
    subst hs
    have hold : 1 < y.repeat → setsRepeat ops op.row := by
      intro hr
      rcases h.rep _ y hb hr with ⟨_, b⟩ | ⟨a, _⟩
      · exact b
      · omega
    intro k x hx hr
    rw [g2] at hx
    by_cases e : k = op.row
    · rw [if_pos e] at hx
      simp only [Option.some.injEq] at hx
      subst hx
      rw [e]
      exact Or.inl (hown { y with span := 1 } rfl hold hr)
    · rw [if_neg e] at hx
      by_cases e' : k = op.row + 1
      · rw [if_pos e'] at hx
        simp only [Option.some.injEq] at hx
        subst hx
        refine Or.inr ⟨?_, op.row, e', (hold hr).mono⟩
        simp only; omega
      · rw [if_neg e', if_neg e] at hx
        rcases h.rep k x hx hr with ⟨a, b⟩ | ⟨a, k', e', b⟩
        · exact Or.inl ⟨a, b.mono⟩
        · exact Or.inr ⟨a, k', e', b.mono⟩

theorem RepInv.run (ops' : List RowOp) : ∀ {ops : List RowOp} {m m' : RowHeaders}, RepInv ops m →
    m.run ops' = some m' → RepInv (ops ++ ops') m' := by
  induction ops' with
  | nil =>
    intro ops m m' h hr
    simp only [RowHeaders.run, Option.some.injEq] at hr
    subst hr
    simpa using h
  | cons op ops' ih =>
    intro ops m m' h hr
    simp only [RowHeaders.run] at hr
    cases hs : m.step op with
    | none => rw [hs] at hr; simp at hr
    | some m1 =>
      rw [hs] at hr
      have := ih (h.step op hs) hr
      simpa using this

/-- Row headers made by row calls on a fresh sheet: the repeat count the writer uses is the one
`row_repeat` reports, for every row that does not follow a row for which a repeat was set. -/
theorem rowOK_reachable (ops : List RowOp) (m : RowHeaders) (h : RowHeaders.run [] ops = some m)
    (s : TSheet) (hs : s.rowHeader = m) (r : Nat) (hr : ∀ r', r = r' + 1 → ¬ setsRepeat ops r') :
    RowOK s r := by
  have inv : RepInv ([] ++ ops) m := RepInv.run ops ⟨wfg_nil, by simp, by simp⟩ h
  simp only [List.nil_append] at inv
  unfold RowOK rowRepeatOf RowHeaders.rowRepeat
  rw [hs]
  cases hg : OMap.get? m r with
  | none =>
    have hv : m.valid r = none := by
      rw [inv.wfg.valid_none]
      intro b x hb h1 h2
      have := inv.span b x hb
      have : b = r := by omega
      rw [this, hg] at hb
      simp at hb
    simp only [hv]
    rfl
  | some x =>
    simp only
    have h1 := inv.wfg.rep hg
    by_cases hsp : x.span = 1
    · have hv : m.valid r = some x := inv.wfg.valid_some.mpr ⟨r, hg, Nat.le_refl _, by omega⟩
      simp only [hv]
      omega
    · have hle := inv.span r x hg
      have hv : m.valid r = none := by
        rw [inv.wfg.valid_none]
        intro b y hb h1 h2
        have := inv.span b y hb
        have : b = r := by omega
        rw [this, hg] at hb
        simp only [Option.some.injEq] at hb
        subst hb
        omega
      simp only [hv]
      apply Nat.le_antisymm
      · apply Nat.le_of_not_lt
        intro hlt
        have hlt : 1 < x.repeat := by omega
        rcases inv.rep r x hg hlt with ⟨a, _⟩ | ⟨_, k', e, b⟩
        · exact hsp a
        · exact hr k' e b
      · omega

end Verif
