import Verif.Store.Props

/-!
# Cells built on their own: `CellContent` (src/cell_.rs:289-622) (C99)

A cell can be built as a value and be put into a sheet at once.
-/

set_option autoImplicit false

namespace Verif

open OMap

/-- `CellContent::new`, src/cell_.rs:399-426: `Default` is derived, so that the repeat count is the default of `u32`,
which is 0; that of the spans is 1, src/cell_.rs:14-22. -/
def CellContent.new : CellContent :=
  { value := .empty, style := none, formula := none, «repeat» := 0, validation := none, span := {}, matrixSpan := {}
    annotation := none, drawFrames := [] }

/-- The calls that change a `CellContent`. -/
inductive ContentOp where
  | setValue (v : Value)
  | setFormula (f : Str)
  | clearFormula
  | setStyle (s : String)
  | clearStyle
  | setRepeat (n : Nat)
  | setValidation (s : String)
  | clearValidation
  | setRowSpan (n : Nat)
  | setColSpan (n : Nat)
  | setMatrixRowSpan (n : Nat)
  | setMatrixColSpan (n : Nat)
  | setAnnotation (a : Annotation)
  | clearAnnotation
  | setDrawFrames (l : List DrawFrame)

/-- The setters of `CellContent`, src/cell_.rs:470-616; `none` is the panic of `assert!(.. > 0)`. -/
def ContentOp.step (x : CellContent) : ContentOp → Option CellContent
  | .setValue v => some { x with value := v }
  | .setFormula f => some { x with formula := some f }
  | .clearFormula => some { x with formula := none }
  | .setStyle s => some { x with style := some s }
  | .clearStyle => some { x with style := none }
  | .setRepeat n => if n = 0 then none else some { x with «repeat» := n }
  | .setValidation s => some { x with validation := some s }
  | .clearValidation => some { x with validation := none }
  | .setRowSpan n => if n = 0 then none else some { x with span := { x.span with rowSpan := n } }
  | .setColSpan n => if n = 0 then none else some { x with span := { x.span with colSpan := n } }
  | .setMatrixRowSpan n => if n = 0 then none else some { x with matrixSpan := { x.matrixSpan with rowSpan := n } }
  | .setMatrixColSpan n => if n = 0 then none else some { x with matrixSpan := { x.matrixSpan with colSpan := n } }
  | .setAnnotation a => some { x with annotation := some a }
  | .clearAnnotation => some { x with annotation := none }
  | .setDrawFrames l => some { x with drawFrames := l }

/-- A chain of calls. -/
def ContentOp.run (x : CellContent) : List ContentOp → Option CellContent
  | [] => some x
  | op :: ops => (op.step x).bind fun x => ContentOp.run x ops

/-- `CellContentRef`, src/cell_.rs:289-313: what `cell_ref` gives and the iterators yield. `draw_frames` is an option
here. -/
structure CellContentRef where
  value : Value
  style : Option String
  formula : Option Str
  «repeat» : Nat
  validation : Option String
  span : CellSpan
  matrixSpan : CellSpan
  annotation : Option Annotation
  drawFrames : Option (List DrawFrame)
  deriving DecidableEq

/-- `CellData::cell_content_ref`, src/cell_.rs:262-287. -/
def CellData.toRef (c : CellData) : CellContentRef :=
  match c.extra with
  | some e =>
    { value := c.value, style := c.style, formula := c.formula, «repeat» := c.repeat
      validation := e.validation, span := e.span, matrixSpan := e.matrixSpan
      annotation := e.annotation, drawFrames := some e.drawFrames }
  | none =>
    { value := c.value, style := c.style, formula := c.formula, «repeat» := c.repeat
      validation := none, span := {}, matrixSpan := {}, annotation := none, drawFrames := none }

/-- `CellContentRef::to_owned`, src/cell_.rs:382-395. -/
def CellContentRef.toOwned (x : CellContentRef) : CellContent :=
  { value := x.value, style := x.style, formula := x.formula, «repeat» := x.repeat, validation := x.validation
    span := x.span, matrixSpan := x.matrixSpan, annotation := x.annotation, drawFrames := x.drawFrames.getD [] }

/-- `Sheet::cell_ref`, src/sheet_.rs:1036-1038. -/
def Cells.cellRef (m : Cells) (r c : Nat) : Option CellContentRef := (m.get? (r, c)).map CellData.toRef

/-! ## Specification -/

/-- What the last of the calls that matter says; `d` if there is none. -/
def lastSaid {α : Type} (f : ContentOp → Option α) (d : α) (ops : List ContentOp) : α :=
  match (ops.filterMap f).getLast? with
  | some a => a
  | none => d

/-- What a sheet with such a cell should report for it: each property as the last call for it said, else that of a
cell nothing was set for.  The repeat count is a parameter. -/
def Obs.asked (n : Nat) (ops : List ContentOp) : Obs where
  present := true
  value := lastSaid (fun | .setValue v => some v | _ => none) .empty ops
  formula := lastSaid (fun | .setFormula f => some (some f) | .clearFormula => some none | _ => none) none ops
  style := lastSaid (fun | .setStyle s => some (some s) | .clearStyle => some none | _ => none) none ops
  «repeat» := lastSaid (fun | .setRepeat n => some n | _ => none) n ops
  validation := lastSaid (fun | .setValidation s => some (some s) | .clearValidation => some none | _ => none) none ops
  rowSpan := lastSaid (fun | .setRowSpan n => some n | _ => none) 1 ops
  colSpan := lastSaid (fun | .setColSpan n => some n | _ => none) 1 ops
  matrixRowSpan := lastSaid (fun | .setMatrixRowSpan n => some n | _ => none) 1 ops
  matrixColSpan := lastSaid (fun | .setMatrixColSpan n => some n | _ => none) 1 ops
  annotation := lastSaid (fun | .setAnnotation a => some (some a) | .clearAnnotation => some none | _ => none) none ops
  drawFrames := lastSaid (fun | .setDrawFrames l => some l | _ => none) [] ops

/-- A call that is refused: a count of zero. -/
def ContentOp.rejected : ContentOp → Bool
  | .setRepeat n | .setRowSpan n | .setColSpan n | .setMatrixRowSpan n | .setMatrixColSpan n => n == 0
  | _ => false

/-- The repeat count is said. -/
def ContentOp.isRepeat : ContentOp → Bool
  | .setRepeat _ => true
  | _ => false

/-! ## Proofs -/

theorem lastSaid_snoc {α : Type} (f : ContentOp → Option α) (d : α) (ops : List ContentOp) (op : ContentOp) :
    lastSaid f d (ops ++ [op]) = (f op).getD (lastSaid f d ops) := by
  unfold lastSaid
  rw [List.filterMap_append]
  cases h : f op with
  | none => simp [h]
  | some a => simp [h]

theorem run_snoc (x : CellContent) (ops : List ContentOp) (op : ContentOp) :
    ContentOp.run x (ops ++ [op]) = (ContentOp.run x ops).bind op.step := by
  induction ops generalizing x with
  | nil =>
    show (op.step x).bind (fun x => some x) = op.step x
    cases op.step x <;> rfl
  | cons o ops ih =>
    show (o.step x).bind (fun x => ContentOp.run x (ops ++ [op])) = ((o.step x).bind _).bind op.step
    cases o.step x with
    | none => rfl
    | some y => exact ih y

/-- The observation of a built cell. -/
def CellContent.obs (x : CellContent) : Obs := Obs.fresh.after (.addCell 0 0 x)

theorem obs_step (x y : CellContent) (ops : List ContentOp) (op : ContentOp)
    (hx : x.obs = Obs.asked 0 ops) (h : op.step x = some y) : y.obs = Obs.asked 0 (ops ++ [op]) := by
  have e : Obs.asked 0 (ops ++ [op]) = { Obs.asked 0 (ops ++ [op]) with present := true } := rfl
  unfold CellContent.obs Obs.after Obs.asked at hx
  simp only [Obs.mk.injEq] at hx
  obtain ⟨-, h1, h2, h3, h4, h5, h6, h7, h8, h9, h10, h11⟩ := hx
  unfold CellContent.obs Obs.after Obs.asked
  simp only [lastSaid_snoc, ← h1, ← h2, ← h3, ← h4, ← h5, ← h6, ← h7, ← h8, ← h9, ← h10, ← h11]
  cases op <;> simp only [ContentOp.step] at h
  all_goals first
    | (simp only [Option.some.injEq] at h; subst h; rfl)
    | (split at h
       · simp at h
       · simp only [Option.some.injEq] at h; subst h; rfl)

theorem obs_run (ops : List ContentOp) : ∀ (done : List ContentOp) (x y : CellContent),
    x.obs = Obs.asked 0 done → ContentOp.run x ops = some y → y.obs = Obs.asked 0 (done ++ ops) := by
  induction ops with
  | nil =>
    intro done x y hx h
    simp only [ContentOp.run, Option.some.injEq] at h
    subst h
    rw [List.append_nil]; exact hx
  | cons op ops ih =>
    intro done x y hx h
    rw [ContentOp.run] at h
    cases hs : op.step x with
    | none => rw [hs] at h; simp at h
    | some z =>
      rw [hs] at h
      have := ih (done ++ [op]) z y (obs_step x z done op hx hs) h
      rw [List.append_assoc] at this
      exact this

theorem toRef_toOwned (d : CellData) : d.toRef.toOwned = d.toContent := by
  unfold CellData.toRef CellContentRef.toOwned CellData.toContent
  cases d.extra <;> rfl

theorem asked_repeat (n m : Nat) (ops : List ContentOp) (h : ∃ op ∈ ops, op.isRepeat = true) :
    Obs.asked n ops = Obs.asked m ops := by
  have : ∀ k : Nat, lastSaid (fun | .setRepeat n => some n | _ => none) k ops
      = lastSaid (fun | .setRepeat n => some n | _ => none) 0 ops := by
    intro k
    unfold lastSaid
    obtain ⟨op, h1, h2⟩ := h
    cases op <;> simp only [ContentOp.isRepeat, Bool.false_eq_true] at h2
    rename_i v
    cases hl : (List.filterMap (fun | ContentOp.setRepeat n => some n | _ => none) ops).getLast? with
    | some a => rfl
    | none =>
      rw [List.getLast?_eq_none_iff, List.filterMap_eq_nil_iff] at hl
      have := hl _ h1
      simp at this
  unfold Obs.asked
  rw [this n, this m]

/-! ## Properties -/

/-- **C99.** A cell is built by any chain of calls in which the repeat count is set at least once, and put anywhere
into any sheet. Then the sheet reports for this position what the calls asked for, everything that was not asked for
being as in a cell nothing was set for, and nothing else changes; the same cell is what `cell` and `cell_ref` give.

Missing (`_partial`): cells whose repeat count is not set (`C99_repeat`, `C99_lost_counterexample`). -/
theorem C99_built_partial (ops : List ContentOp) (x : CellContent) (h : ContentOp.run .new ops = some x)
    (hr : ∃ op ∈ ops, op.isRepeat = true) (m : Cells) (r c : Nat) :
    observe (m.addCell r c x) r c = Obs.asked 1 ops
    ∧ (∀ r' c', (r', c') ≠ (r, c) → observe (m.addCell r c x) r' c' = observe m r' c')
    ∧ (m.addCell r c x).cell r c = some x
    ∧ ((m.addCell r c x).cellRef r c).map CellContentRef.toOwned = some x := by
  have hx : x.obs = Obs.asked 0 ops := obs_run ops [] .new x rfl h
  have hg : (m.addCell r c x).get? (r, c) = some x.toData := by
    unfold Cells.addCell; rw [get?_insert, if_pos rfl]
  have hb : x.toData.toContent = x := by
    unfold CellContent.toData CellData.toContent
    cases x with
    | mk v s f n vd sp ms an df =>
      simp only
      split
      · rfl
      · rename_i hn
        simp only [Bool.or_eq_true, not_or, Bool.not_eq_true, Option.isSome_eq_false_iff, Option.isNone_iff_eq_none,
          Bool.not_eq_eq_eq_not, Bool.not_true, Bool.not_false, List.isEmpty_iff] at hn
        obtain ⟨⟨⟨⟨h1, h2⟩, h3⟩, h4⟩, h5⟩ := hn
        have span : ∀ s : CellSpan, s.isEmpty = true → s = {} := by
          intro s hs
          cases s
          simp only [CellSpan.isEmpty, Bool.and_eq_true, beq_iff_eq] at hs
          simp [hs.1, hs.2]
        have h5 : df = [] := by simpa using h5
        simp [h1, span sp (by simpa using h2), span ms (by simpa using h3), h4, h5]
  refine ⟨?_, ?_, ?_, ?_⟩
  · rw [observe_eq, hg, obsOf_toData, ← asked_repeat 0 1 ops hr, ← hx]; rfl
  · intro r' c' hne
    rw [observe_eq, observe_eq]
    unfold Cells.addCell
    rw [get?_insert, if_neg hne]
  · unfold Cells.cell; rw [hg]; simp [hb]
  · unfold Cells.cellRef; rw [hg]; simp [toRef_toOwned, hb]

/-- **C99.** A chain of calls panics exactly if one of them asks for a count of zero. -/
theorem C99_panics (ops : List ContentOp) :
    ContentOp.run .new ops = none ↔ ∃ op ∈ ops, op.rejected = true := by
  suffices H : ∀ x, ContentOp.run x ops = none ↔ ∃ op ∈ ops, op.rejected = true from H _
  induction ops with
  | nil => intro x; simp [ContentOp.run]
  | cons op ops ih =>
    intro x
    rw [ContentOp.run]
    cases hs : op.step x with
    | none =>
      simp only [Option.bind_none, true_iff]
      refine ⟨op, by simp, ?_⟩
      cases op <;> simp [ContentOp.step] at hs <;> simp [ContentOp.rejected, hs]
    | some y =>
      have hn : op.rejected = false := by
        cases op <;> simp only [ContentOp.rejected] <;> simp only [ContentOp.step] at hs
        all_goals
          split at hs
          · simp at hs
          · simp; assumption
      simp only [Option.bind_some]
      rw [ih y]
      simp [hn]

/-- **C99, where it fails.** In every cell whose repeat count was not set it is 0: a cell that stands nowhere. -/
theorem C99_repeat (ops : List ContentOp) (x : CellContent) (h : ContentOp.run .new ops = some x)
    (hr : ∀ op ∈ ops, op.isRepeat = false) (m : Cells) (r c : Nat) :
    (m.addCell r c x).cellRepeat r c = 0 := by
  have hx : x.obs = Obs.asked 0 ops := obs_run ops [] .new x rfl h
  have h0 : x.repeat = 0 := by
    have := congrArg Obs.repeat hx
    show x.obs.repeat = 0
    rw [this]
    show lastSaid _ 0 ops = 0
    unfold lastSaid
    rw [List.filterMap_eq_nil_iff.mpr]
    · rfl
    · intro op ho
      have := hr op ho
      cases op <;> simp_all [ContentOp.isRepeat]
  unfold Cells.cellRepeat Cells.addCell
  rw [get?_insert, if_pos rfl]
  exact h0

/-- A chain that meets the conditions. -/
theorem C99_meets :
    ∃ x, ContentOp.run .new [.setValue (.boolean true), .setRepeat 1, .setRowSpan 2, .setStyle "s", .clearStyle,
        .setValidation "v"] = some x
      ∧ Obs.asked 1 [.setValue (.boolean true), .setRepeat 1, .setRowSpan 2, .setStyle "s", .clearStyle,
          .setValidation "v"]
        = { Obs.fresh with present := true, value := .boolean true, rowSpan := 2, validation := some "v" } :=
  ⟨_, rfl, by decide⟩

end Verif
