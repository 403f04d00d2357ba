import Verif.Sheet.Lemmas
import Verif.Refs.Props

/-!
# C92: a sheet is what it was asked to be
-/

set_option autoImplicit false

namespace Verif.Sheets

open TableXml Config OMap Spec

/-- **C92, settings.** After any history of calls on a new sheet, none of which panics, name, style, the display and
print flags, header rows and header columns are those of the last call for each of them, and the print ranges are those
added since they were cleared last, whatever calls of other kinds stand between. -/
theorem C92_settings (n : Str) (cs : List Call) (s : Sheet) (h : (Sheet.new n).run cs = some s) :
    s.head.name = lastWish wishName n cs
    ∧ s.head.style = lastWish wishStyle none cs
    ∧ s.head.display = lastWish wishDisplay true cs
    ∧ s.head.print = lastWish wishPrint true cs
    ∧ s.body.headerRows = lastWish wishHeaderRows none cs
    ∧ s.body.headerCols = lastWish wishHeaderCols none cs
    ∧ s.head.ranges = (if rangesOf [] cs = [] then none else some (rangesOf [] cs)) :=
  ⟨run_wish wishName (·.head.name) call_name cs _ s h,
   run_wish wishStyle (·.head.style) call_style cs _ s h,
   run_wish wishDisplay (·.head.display) call_display cs _ s h,
   run_wish wishPrint (·.head.print) call_print cs _ s h,
   run_wish wishHeaderRows (·.body.headerRows) call_headerRows cs _ s h,
   run_wish wishHeaderCols (·.body.headerCols) call_headerCols cs _ s h,
   run_ranges cs _ s [] rfl h⟩

/-- **C92, cells.** Each cell is as the calls for this cell say. -/
theorem C92_cells (n : Str) (cs : List Call) (s : Sheet) (h : (Sheet.new n).run cs = some s) (r c : Nat) :
    observe s.body.data r c = specAt (r, c) (cellCalls cs) := by
  rw [observe_eq, obsOf_run sorted_nil (run_cells cs _ s h) (r, c)]
  rfl

/-- **C92, columns.** Each column is as the calls for this column and for the groups that it is in say. -/
theorem C92_columns (n : Str) (cs : List Call) (s : Sheet) (h : (Sheet.new n).run cs = some s) (c : Nat) :
    s.body.colHeader.observe c = colSpec {} c (colCalls [] cs) := by
  obtain ⟨m, h1, h2⟩ := C08_history_partial (colCalls [] cs)
  have h3 := (run_cols cs _ s [] rfl h).2
  have : m = s.body.colHeader := Option.some.inj (h1.symm.trans h3)
  rw [← this]
  exact h2 c

/-- **C92, rows (partial).** Each row is as the calls for this row and for the groups that it is in say, in histories
in which no call names a row for a second time while the row below it has been named already.  Missing: the other
histories (`C09_next_row_counterexample`). -/
theorem C92_rows_partial (n : Str) (cs : List Call) (s : Sheet) (h : (Sheet.new n).run cs = some s)
    (hs : rowsSafe [] (rowCalls [] cs)) (r : Nat) : s.body.rowHeader.observe r = rowSpec r (rowCalls [] cs) := by
  have h3 := (run_rows cs _ s [] rfl h).2
  have hr : ∀ op ∈ rowCalls [] cs, op.rejected = false := by
    have : ∀ (ops : List RowOp) (m m' : RowHeaders), m.run ops = some m' → ∀ op ∈ ops, op.rejected = false := by
      intro ops
      induction ops with
      | nil => intro _ _ _ op hop; cases hop
      | cons o ops ih =>
        intro m m' hm op hop
        simp only [RowHeaders.run] at hm
        cases hst : m.step o with
        | none => rw [hst] at hm; cases hm
        | some m1 =>
          rw [hst] at hm
          rcases List.mem_cons.mp hop with e | e
          · subst e
            rw [RowHeaders.step_eq] at hst
            cases hj : op.rejected with
            | false => rfl
            | true => rw [hj] at hst; cases hst
          · exact ih m1 m' hm op e
    exact this _ _ _ h3
  obtain ⟨m, h1, h2⟩ := C09_history_partial (rowCalls [] cs) hr hs
  have : m = s.body.rowHeader := Option.some.inj (h1.symm.trans h3)
  rw [← this]
  exact h2 r

/-- **C92, groups.** The groups are those that were added and not removed, in the order in which they were added; they
are proper intervals, and no two of them cross. -/
theorem C92_groups (n : Str) (cs : List Call) (s : Sheet) (h : (Sheet.new n).run cs = some s) :
    (s.body.groupCols.map fun g => (g.frm, g.to)) = colGroups [] cs
    ∧ (s.body.groupRows.map fun g => (g.frm, g.to)) = rowGroups [] cs
    ∧ (∀ g ∈ s.body.groupCols ++ s.body.groupRows, g.frm ≤ g.to)
    ∧ (∀ g ∈ s.body.groupCols, ∀ g' ∈ s.body.groupCols, ¬ Crossing g g')
    ∧ (∀ g ∈ s.body.groupRows, ∀ g' ∈ s.body.groupRows, ¬ Crossing g g') := by
  have h0 : Laminar [] := ⟨by simp, by simp⟩
  obtain ⟨l1, l2⟩ := run_laminar cs _ s h0 h0 h
  refine ⟨(run_cols cs _ s [] rfl h).1, (run_rows cs _ s [] rfl h).1, ?_, l1.2, l2.2⟩
  intro g hg
  rcases List.mem_append.mp hg with e | e
  · exact l1.1 g e
  · exact l2.1 g e

/-! ## Panics -/

theorem add_none {gs : List Grouped} (hl : Laminar gs) (f t : Nat) :
    addGroup gs f t = none ↔ BadGroup (bounds gs) f t := by
  unfold addGroup BadGroup
  dsimp only
  by_cases hle : f ≤ t
  · rw [if_pos hle]
    split
    · rename_i hall
      constructor
      · intro h; cases h
      · rintro (h | ⟨g, h1, h2⟩)
        · omega
        · obtain ⟨x, x1, x2⟩ := List.mem_map.mp h1
          have := List.all_eq_true.mp hall x x1
          simp only [Bool.or_eq_true, or_assoc] at this
          have hn := notCrossing_of this
          rw [← x2] at h2
          exact absurd h2 hn
    · rename_i hall
      refine ⟨fun _ => .inr ?_, fun _ => rfl⟩
      have : ∃ x ∈ gs, ¬ ((Grouped.contains ⟨f, t, true⟩ x || x.contains ⟨f, t, true⟩
          || Grouped.disjunct ⟨f, t, true⟩ x) = true) := by
        apply Classical.byContradiction
        intro hn
        apply hall
        rw [List.all_eq_true]
        intro x hx
        apply Classical.byContradiction
        intro hx2
        exact hn ⟨x, hx, hx2⟩
      obtain ⟨x, x1, x2⟩ := this
      refine ⟨(x.frm, x.to), List.mem_map.mpr ⟨x, x1, rfl⟩, ?_⟩
      have hx := hl.1 x x1
      simp only [Grouped.contains, Grouped.disjunct, Bool.or_eq_true, Bool.and_eq_true, decide_eq_true_eq] at x2
      unfold Crossing
      dsimp only
      refine ⟨?_, ?_, ?_⟩
      · by_cases e : f ≤ x.frm
        · exact ⟨x.frm, by omega, by omega, by omega, by omega⟩
        · exact ⟨f, by omega, by omega, by omega, by omega⟩
      · by_cases e : f < x.frm
        · exact ⟨f, by omega, by omega, by omega⟩
        · exact ⟨t, by omega, by omega, by omega⟩
      · by_cases e : f < x.frm
        · exact ⟨x.to, by omega, by omega, by omega⟩
        · exact ⟨x.frm, by omega, by omega, by omega⟩
  · rw [if_neg hle]
    exact ⟨fun _ => .inl (by omega), fun _ => rfl⟩

theorem rows_ok {m : RowHeaders} (hw : m.WFG) (hs : ∀ k x, m.get? k = some x → x.span ≤ 1) (op : RowOp) :
    m.step op = none ↔ op.rejected = true := by
  constructor
  · intro h
    cases hr : op.rejected with
    | true => rfl
    | false =>
      obtain ⟨m', e1, _⟩ := RowHeaders.step_obs hw op hr
      rw [e1] at h
      cases h
  · intro h
    rw [RowHeaders.step_eq, h]
    rfl

theorem rows_visible (v : Visibility) : ∀ (l : List Nat) (m : RowHeaders), m.WFG →
    (∀ k x, m.get? k = some x → x.span ≤ 1) → ∃ m', m.run (l.map fun r => .setVisible r v) = some m' := by
  intro l
  induction l with
  | nil => intro m _ _; exact ⟨m, rfl⟩
  | cons r l ih =>
    intro m hw hs
    cases hst : m.step (.setVisible r v) with
    | none => exact absurd ((rows_ok hw hs _).mp hst) (by simp [RowOp.rejected])
    | some m1 =>
      obtain ⟨w1, s1⟩ := rows_run_inv [.setVisible r v] m m1 hw hs (by simp only [RowHeaders.run, hst])
      obtain ⟨m', h'⟩ := ih m1 w1 s1
      exact ⟨m', by simp only [List.map_cons, RowHeaders.run, hst]; exact h'⟩

/-- One call on a sheet that calls have made. -/
theorem call_refused (s : Sheet) (c : Call) (hc : s.body.colHeader.Ones) (hw : s.body.rowHeader.WFG)
    (hs : ∀ k x, s.body.rowHeader.get? k = some x → x.span ≤ 1) (l1 : Laminar s.body.groupCols)
    (l2 : Laminar s.body.groupRows) :
    s.call c = none ↔ Refused (bounds s.body.groupCols) (bounds s.body.groupRows) c := by
  cases c
  case cell op =>
    simp only [Sheet.call, Option.map_eq_none_iff, Refused]
    exact step_eq_none_iff _ _
  case row op =>
    simp only [Sheet.call, Option.map_eq_none_iff, Refused]
    exact rows_ok hw hs op
  case col op =>
    simp only [Sheet.call, Option.map_eq_none_iff, Refused, iff_false]
    obtain ⟨m', h1, _⟩ := ColHeaders.step_obs hc.wf op
    rw [h1]
    intro h; cases h
  case colGroup op =>
    cases op with
    | add f t =>
      simp only [Sheet.call, Option.map_eq_none_iff, Refused]
      exact add_none l1 f t
    | remove f t => simp [Sheet.call, Refused, GroupOp.step]
  case rowGroup op =>
    cases op with
    | add f t =>
      simp only [Sheet.call, Option.map_eq_none_iff, Refused]
      exact add_none l2 f t
    | remove f t => simp [Sheet.call, Refused, GroupOp.step]
  case splitColHeader n =>
    simp only [Sheet.call, Option.map_eq_none_iff, Refused, SheetConfig.splitColHeader]
    split
    · exact ⟨fun h => by (cases h), fun h => by omega⟩
    · exact ⟨fun _ => by omega, fun _ => rfl⟩
  case splitRowHeader n =>
    simp only [Sheet.call, Option.map_eq_none_iff, Refused, SheetConfig.splitRowHeader]
    split
    · exact ⟨fun h => by (cases h), fun h => by omega⟩
    · exact ⟨fun _ => by omega, fun _ => rfl⟩
  case showColGroup f t b =>
    simp only [Sheet.call, Option.map_eq_none_iff, Refused, iff_false]
    unfold setColGroupDisplayed
    split
    · dsimp only
      rw [cols_loop]
      obtain ⟨m', h1, _⟩ := ColHeaders.Ones.run hc
        ((List.range (t + 1 - f)).map fun i => ColOp.setVisible (f + i) (if b = true then .visible else .collapsed))
      rw [h1]
      intro h; cases h
    · intro h; cases h
  case showRowGroup f t b =>
    simp only [Sheet.call, Option.map_eq_none_iff, Refused, iff_false]
    unfold setRowGroupDisplayed
    split
    · dsimp only
      rw [rows_loop]
      obtain ⟨m', h1⟩ := rows_visible (if b = true then .visible else .collapsed)
        ((List.range (t + 1 - f)).map (f + ·)) s.body.rowHeader hw hs
      rw [List.map_map] at h1
      have h2 : s.body.rowHeader.run ((List.range (t + 1 - f)).map fun i =>
        RowOp.setVisible (f + i) (if b = true then .visible else .collapsed)) = some m' := h1
      rw [h2]
      intro h; cases h
    · intro h; cases h
  all_goals simp [Sheet.call, Refused]

theorem run_append (a b : List Call) : ∀ s : Sheet, s.run (a ++ b) = (s.run a).bind fun s' => s'.run b := by
  induction a with
  | nil => intro s; rfl
  | cons c a ih =>
    intro s
    simp only [List.cons_append, Sheet.run]
    cases s.call c with
    | none => rfl
    | some s1 => exact ih s1

/-- **C92, panics.** A history panics exactly if one of its calls is refused: a span of zero cells, a row repeated zero
times, a group that is no interval or that crosses a group there is at that time, a split behind the last column or
row.  Nothing else panics. -/
theorem C92_panics (n : Str) (cs : List Call) :
    (Sheet.new n).run cs = none ↔ ∃ pre c post, cs = pre ++ c :: post
      ∧ Refused (colGroups [] pre) (rowGroups [] pre) c := by
  have one : ∀ (pre : List Call) (s : Sheet) (c : Call), (Sheet.new n).run pre = some s →
      (s.call c = none ↔ Refused (colGroups [] pre) (rowGroups [] pre) c) := by
    intro pre s c h
    have h0 : Laminar [] := ⟨by simp, by simp⟩
    obtain ⟨l1, l2⟩ := run_laminar pre _ s h0 h0 h
    obtain ⟨g1, h1⟩ := run_cols pre _ s [] rfl h
    obtain ⟨g2, h2⟩ := run_rows pre _ s [] rfl h
    rw [← g1, ← g2]
    obtain ⟨m, k1, k2, _⟩ := ColHeaders.Ones.run (m := []) ⟨sorted_nil, by simp⟩ (colCalls [] pre)
    have e : m = s.body.colHeader := Option.some.inj (k1.symm.trans h1)
    obtain ⟨w1, w2⟩ := rows_run_inv _ _ _ wfg_nil (by simp) h2
    exact call_refused s c (e ▸ k2) w1 w2 l1 l2
  constructor
  · intro h
    have : ∀ (cs pre : List Call) (s : Sheet), (Sheet.new n).run pre = some s → s.run cs = none →
        ∃ p c post, pre ++ cs = p ++ c :: post ∧ Refused (colGroups [] p) (rowGroups [] p) c := by
      intro cs
      induction cs with
      | nil => intro pre s _ h2; cases h2
      | cons c cs ih =>
        intro pre s h1 h2
        simp only [Sheet.run] at h2
        cases hc : s.call c with
        | none => exact ⟨pre, c, cs, rfl, (one pre s c h1).mp hc⟩
        | some s1 =>
          rw [hc] at h2
          have h3 : (Sheet.new n).run (pre ++ [c]) = some s1 := by
            rw [run_append, h1]
            simp only [Option.bind, Sheet.run, hc]
          obtain ⟨p, c', post, e, hr⟩ := ih (pre ++ [c]) s1 h3 h2
          exact ⟨p, c', post, by rw [← e]; simp, hr⟩
    exact this cs [] _ rfl h
  · rintro ⟨pre, c, post, rfl, hr⟩
    rw [run_append]
    cases h : (Sheet.new n).run pre with
    | none => rfl
    | some s =>
      have := (one pre s c h).mpr hr
      simp only [Option.bind, Sheet.run, this]

/-! ## The view -/

theorem call_view (s : Sheet) (c : Call) (s' : Sheet) (h : s.call c = some s') :
    (s'.config.horSplitMode, s'.config.horSplitPos)
      = (wishLeftRight c).getD (s.config.horSplitMode, s.config.horSplitPos)
    ∧ (s'.config.vertSplitMode, s'.config.vertSplitPos)
      = (wishTopBottom c).getD (s.config.vertSplitMode, s.config.vertSplitPos)
    ∧ (s'.config.positionRight, s'.config.cursorX) = (wishRight c).getD (s.config.positionRight, s.config.cursorX)
    ∧ (s'.config.positionBottom, s'.config.cursorY) = (wishBottom c).getD (s.config.positionBottom, s.config.cursorY)
    ∧ otherView s'.config = (wishOtherView c).getD (otherView s.config) := by
  cases c
  case splitColHeader n =>
    simp only [Sheet.call, Option.map_eq_some_iff, SheetConfig.splitColHeader] at h
    obtain ⟨x, h1, h2⟩ := h
    split at h1
    · injection h1 with h1
      subst h1 h2
      exact ⟨rfl, rfl, rfl, rfl, rfl⟩
    · cases h1
  case splitRowHeader n =>
    simp only [Sheet.call, Option.map_eq_some_iff, SheetConfig.splitRowHeader] at h
    obtain ⟨x, h1, h2⟩ := h
    split at h1
    · injection h1 with h1
      subst h1 h2
      exact ⟨rfl, rfl, rfl, rfl, rfl⟩
    · cases h1
  all_goals
    simp only [Sheet.call, Option.some.injEq, Option.map_eq_some_iff] at h
    first
    | (subst h; exact ⟨rfl, rfl, rfl, rfl, rfl⟩)
    | (obtain ⟨_, _, e⟩ := h; subst e; exact ⟨rfl, rfl, rfl, rfl, rfl⟩)

/-- **C92, view.** How and where the view is split, where its parts begin, where the cursor is and the other settings of
the view are those of the last call for each of them; for a new sheet nothing is split and zoom is 100 %. -/
theorem C92_view (n : Str) (cs : List Call) (s : Sheet) (h : (Sheet.new n).run cs = some s) :
    (s.config.horSplitMode, s.config.horSplitPos) = lastWish wishLeftRight (.none, 0) cs
    ∧ (s.config.vertSplitMode, s.config.vertSplitPos) = lastWish wishTopBottom (.none, 0) cs
    ∧ (s.config.positionRight, s.config.cursorX) = lastWish wishRight (0, 0) cs
    ∧ (s.config.positionBottom, s.config.cursorY) = lastWish wishBottom (0, 0) cs
    ∧ otherView s.config = lastWish wishOtherView (2, 0, 0, 0, 100, 60, true) cs :=
  ⟨run_wish wishLeftRight (fun s => (s.config.horSplitMode, s.config.horSplitPos))
     (fun s c s' h => (call_view s c s' h).1) cs _ s h,
   run_wish wishTopBottom (fun s => (s.config.vertSplitMode, s.config.vertSplitPos))
     (fun s c s' h => (call_view s c s' h).2.1) cs _ s h,
   run_wish wishRight (fun s => (s.config.positionRight, s.config.cursorX))
     (fun s c s' h => (call_view s c s' h).2.2.1) cs _ s h,
   run_wish wishBottom (fun s => (s.config.positionBottom, s.config.cursorY))
     (fun s c s' h => (call_view s c s' h).2.2.2.1) cs _ s h,
   run_wish wishOtherView (fun s => otherView s.config) (fun s c s' h => (call_view s c s' h).2.2.2.2) cs _ s h⟩

/-! ## The copy without data -/

/-- **C92, copy (partial).** The copy without the data has no cells and is the same in everything else that can be
asked of a sheet, but for the view settings.  Missing: these (`C92_copy_counterexample`). -/
theorem C92_copy_partial (s : Sheet) :
    (∀ r c, observe s.cloneNoData.body.data r c = Obs.fresh)
    ∧ s.cloneNoData.head.name = s.head.name ∧ s.cloneNoData.head.style = s.head.style
    ∧ s.cloneNoData.head.display = s.head.display ∧ s.cloneNoData.head.print = s.head.print
    ∧ s.cloneNoData.head.ranges = s.head.ranges ∧ s.cloneNoData.head.extra = s.head.extra
    ∧ s.cloneNoData.body.headerRows = s.body.headerRows ∧ s.cloneNoData.body.headerCols = s.body.headerCols
    ∧ s.cloneNoData.body.groupRows = s.body.groupRows ∧ s.cloneNoData.body.groupCols = s.body.groupCols
    ∧ (∀ c, s.cloneNoData.body.colHeader.observe c = s.body.colHeader.observe c)
    ∧ (∀ r, s.cloneNoData.body.rowHeader.observe r = s.body.rowHeader.observe r) :=
  ⟨fun r c => by rw [observe_eq]; rfl, rfl, rfl, rfl, rfl, rfl, rfl, rfl, rfl, rfl, rfl, fun _ => rfl, fun _ => rfl⟩

/-- **C92 is false of the code** for the view: the copy of any sheet has the view of a new sheet, whatever was set. -/
theorem C92_copy_counterexample (n : Str) (s : Sheet) :
    s.cloneNoData.config = (Sheet.new n).config
    ∧ ∀ col s', s.call (.splitColHeader col) = some s' → s'.cloneNoData.config ≠ s'.config := by
  refine ⟨rfl, ?_⟩
  intro col s' h
  simp only [Sheet.call, Option.map_eq_some_iff, SheetConfig.splitColHeader] at h
  obtain ⟨c, h1, h2⟩ := h
  split at h1
  · injection h1 with h1
    subst h1 h2
    intro e
    have := congrArg SheetConfig.horSplitMode e
    cases this
  · cases h1

/-! ## A case -/

/-- Calls of all kinds, mixed. -/
def someCalls : List Call :=
  [.setName "a".toList, .cell (.setValue 2 1 (.boolean true)), .setPrint false, .row (.setStyle 2 "r"),
   .colGroup (.add 1 2), .showColGroup 1 2 false, .setHeaderRows 0 1, .addPrintRange Refs.sampleRange,
   .setName "b".toList, .cell (.setCellstyle 2 1 "c"), .setHeaderRows 2 2, .splitColHeader 0, .setPrint true,
   .rowGroup (.add 1 2)]

/-- **The hypotheses of C92 are met.** -/
theorem C92_meets : ∃ s, (Sheet.new "x".toList).run someCalls = some s ∧ s.head.name = "b".toList
    ∧ s.body.headerRows = some ⟨2, 2⟩ ∧ s.body.colHeader.colVisible 2 = .collapsed
    ∧ s.body.data.value 2 1 = .boolean true ∧ s.body.data.cellstyle 2 1 = some "c"
    ∧ s.body.groupRows = [⟨1, 2, true⟩] ∧ rowsSafe [] (rowCalls [] someCalls)
    ∧ (Sheet.new "x".toList).run (someCalls ++ [.rowGroup (.add 2 3)]) = none := by
  refine ⟨_, rfl, ?_, ?_, ?_, ?_, ?_, ?_, ?_, ?_⟩ <;> first | decide | rfl | skip
  simp [someCalls, rowCalls, rowsSafe]

end Verif.Sheets
