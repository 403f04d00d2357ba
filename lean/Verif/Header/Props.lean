import Verif.Header.Split
import Verif.Header.Rows

/-!
# Properties of column and row attributes and of groups (C08 - C11, C17, C18, C58)
-/

set_option autoImplicit false

namespace Verif

open OMap

/-! ### C08: columns -/

/-- **C08, for sheets built by calls (partial).** No history of column setters panics, and
afterwards the getters of every column return what the calls naming this column have set, whatever
was done to other columns. Missing: sheets with repeated columns (read from a file, or written
before), see `C08_step_partial` and the counterexamples. -/
theorem C08_history_partial (ops : List ColOp) :
    ∃ m, ColHeaders.run [] ops = some m ∧ ∀ c, m.observe c = colSpec {} c ops := by
  obtain ⟨m, h1, _, h2⟩ := ColHeaders.Ones.run (m := []) ⟨sorted_nil, by simp⟩ ops
  exact ⟨m, h1, fun c => by rw [h2]; rfl⟩

/-- **C08, one call on a sheet with repeated columns (partial).** The column named looks as
intended. All other columns are unchanged, if the column named is not the last one of a repeated
column of more than one. -/
theorem C08_step_partial (m : ColHeaders) (hm : m.WF) (op : ColOp) :
    ∃ m', m.step op = some m' ∧ m'.observe op.col = (m.observe op.col).after op
    ∧ ((∀ b x, m.get? b = some x → b ≤ op.col → op.col < b + x.span →
          x.span = 1 ∨ op.col + 1 < b + x.span) →
        ∀ j, j ≠ op.col → m'.observe j = m.observe j) :=
  ColHeaders.step_obs hm op

/-- The hypotheses of `C08_step_partial` are met by a column repeated three times. -/
example : ColHeaders.WF [(0, { style := some "a", span := 3 }), (5, {})] := by
  refine ⟨?_, ?_, ?_⟩ <;> simp [Sorted]

/-- **C08 is violated** on a repeated column: three equal columns are merged when the sheet is
written; then hiding the last one also hides the next column, for which nothing was ever set, and
gives it their style. -/
theorem C08_leak_counterexample :
    ∃ m m', ColHeaders.run [] [.setStyle 0 "a", .setStyle 1 "a", .setStyle 2 "a"] = some m
      ∧ m.dedup.step (.setVisible 2 .collapsed) = some m'
      ∧ m.dedup.colVisible 3 = .visible ∧ m'.colVisible 3 = .collapsed
      ∧ m.dedup.colstyle 3 = none ∧ m'.colstyle 3 = some "a" := by
  refine ⟨_, _, rfl, rfl, ?_, ?_, ?_, ?_⟩ <;> decide

/-- **C08 is violated** on a repeated column by a second call: the visibility of column 1 is set,
its style changes. -/
theorem C08_second_call_counterexample :
    ∃ m m1 m2, ColHeaders.run [] [.setStyle 0 "a", .setStyle 1 "a", .setStyle 2 "a"] = some m
      ∧ m.dedup.step (.setStyle 0 "b") = some m1
      ∧ m1.step (.setVisible 1 .collapsed) = some m2
      ∧ m1.colstyle 1 = some "a" ∧ m2.colstyle 1 = some "b" := by
  refine ⟨_, _, _, rfl, rfl, rfl, ?_, ?_⟩ <;> decide

/-! ### C17, C18, C58: normalising the column headers -/

/-- **C17, partial.** Merging equal neighbours changes no getter, if neighbouring equal headers have
no column between them. Missing: gaps, see `C17_gap_counterexample`. -/
theorem C17_merge_partial (m : ColHeaders) (hs : Sorted m) (hg : m.NoGap) (c : Nat) :
    m.dedup.observe c = m.observe c := by
  cases m with
  | nil => rfl
  | cons p m =>
    rw [ColHeaders.dedup_cons _ _ hs, ColHeaders.observe_eq, ColHeaders.observe_eq,
      ColHeaders.dedupL_obs _ _ _ hs hg]

/-- The hypotheses of `C17_merge_partial` are met by two equal columns side by side. -/
example : ColHeaders.NoGap [(0, { style := some "a", span := 3 }), (3, { style := some "a" }), (7, {})] := by
  simp [ColHeaders.NoGap, ColHeader.limitedEq]

/-- **C17 is violated** if there is a column between two equal ones: columns 0 and 5 get the style
`a`; after merging column 1 has this style and column 5 has lost it. -/
theorem C17_gap_counterexample :
    ∃ m, ColHeaders.run [] [.setStyle 0 "a", .setStyle 5 "a"] = some m
      ∧ m.colstyle 1 = none ∧ m.colstyle 5 = some "a"
      ∧ m.dedup.colstyle 1 = some "a" ∧ m.dedup.colstyle 5 = none := by
  refine ⟨_, rfl, ?_, ?_, ?_, ?_⟩ <;> decide

/-- **C18 (partial).** On headers whose spans do not overlap, splitting at the borders of groups and
header columns changes no getter, and afterwards no stored header extends over a border. Missing:
overlapping spans, which setters leave behind on repeated columns, see
`C18_overlap_counterexample`. -/
theorem C18_split_partial (m : ColHeaders) (hm : m.WF) (gs : List Grouped)
    (hc : Option HeaderRange) :
    (∀ c, (m.splitAt (isBorder gs hc)).observe c = m.observe c)
    ∧ (∀ p ∈ m.splitAt (isBorder gs hc),
        (∀ g ∈ gs, ¬ (p.1 < g.frm ∧ g.frm < p.1 + p.2.span)
          ∧ ¬ (p.1 ≤ g.to ∧ g.to + 1 < p.1 + p.2.span))
        ∧ (∀ h, hc = some h → ¬ (p.1 < h.frm ∧ h.frm < p.1 + p.2.span)
          ∧ ¬ (p.1 ≤ h.to ∧ h.to + 1 < p.1 + p.2.span)))
    ∧ (m.splitAt (isBorder gs hc)).WF := by
  refine ⟨ColHeaders.splitAt_obs _ m hm, ?_, ColHeaders.splitAt_wf _ m hm⟩
  intro p hp
  have hu := ColHeaders.splitAt_uncrossed (isBorder gs hc) m hm p hp
  refine ⟨?_, ?_⟩
  · intro g hg
    have b1 : isBorder gs hc g.frm = true := by
      simp only [isBorder, Bool.or_eq_true, List.any_eq_true]
      exact Or.inl ⟨g, hg, by simp⟩
    have b2 : isBorder gs hc (g.to + 1) = true := by
      simp only [isBorder, Bool.or_eq_true, List.any_eq_true]
      exact Or.inl ⟨g, hg, by simp⟩
    have u1 := hu _ b1
    have u2 := hu _ b2
    omega
  · intro h hh
    subst hh
    have b1 : isBorder gs (some h) h.frm = true := by
      simp only [isBorder, Bool.or_eq_true]; exact Or.inr (Or.inl (by simp))
    have b2 : isBorder gs (some h) (h.to + 1) = true := by
      simp only [isBorder, Bool.or_eq_true]; exact Or.inr (Or.inr (by simp))
    have u1 := hu _ b1
    have u2 := hu _ b2
    omega

/-- The headers of `C18_split_partial` are those of any sheet built by setter calls, also after
merging (as `calc_col_headers` does first). -/
theorem C18_reachable (ops : List ColOp) (m : ColHeaders) (h : ColHeaders.run [] ops = some m) :
    m.WF ∧ m.dedup.WF := by
  obtain ⟨m', h1, h2, _⟩ := ColHeaders.Ones.run (m := []) ⟨sorted_nil, by simp⟩ ops
  rw [h] at h1
  simp only [Option.some.injEq] at h1
  subst h1
  exact ⟨h2.wf, ColHeaders.dedup_wf m h2.wf⟩

/-- **C18 is violated** for overlapping spans: five equal columns are merged when the sheet is
written, a setter is called for the second one, then a border at column 5 makes column 5 look like
them. -/
theorem C18_overlap_counterexample :
    ∃ m m', ColHeaders.run [] [.setStyle 0 "a", .setStyle 1 "a", .setStyle 2 "a", .setStyle 3 "a",
        .setStyle 4 "a"] = some m
      ∧ m.dedup.step (.setVisible 1 .collapsed) = some m'
      ∧ m'.colstyle 5 = none
      ∧ (m'.splitAt (isBorder [⟨5, 6, true⟩] none)).colstyle 5 = some "a" := by
  refine ⟨_, _, rfl, rfl, ?_, ?_⟩ <;> decide

/-- **C58 (partial).** Preparing the column headers of a sheet a second time, for any groups and
header columns, changes nothing; if there are no gaps between equal headers, preparing changes no
getter. Missing: the getters if there are gaps (`C17_gap_counterexample`). -/
theorem C58_prepare_partial (m : ColHeaders) (hm : m.WF) (gs : List Grouped)
    (hc : Option HeaderRange) :
    prepareCols gs hc (prepareCols gs hc m) = prepareCols gs hc m
    ∧ (m.NoGap → ∀ c, (prepareCols gs hc m).observe c = m.observe c) := by
  have hd := ColHeaders.dedup_wf m hm
  refine ⟨?_, ?_⟩
  · unfold prepareCols
    rw [ColHeaders.dedup_splitAt _ _ hd (ColHeaders.dedup_deduped m hm.sorted)]
  · intro hg c
    unfold prepareCols
    rw [ColHeaders.splitAt_obs _ _ hd, C17_merge_partial m hm.sorted hg]

/-! ### C09: rows -/

/-- Headers of a row history: spans are 0 or 1. -/
theorem rows_run_inv (ops : List RowOp) :
    ∀ (m m' : RowHeaders), m.WFG → (∀ k x, m.get? k = some x → x.span ≤ 1) →
      m.run ops = some m' → m'.WFG ∧ (∀ k x, m'.get? k = some x → x.span ≤ 1) := by
  induction ops with
  | nil =>
    intro m m' h1 h2 h
    simp only [RowHeaders.run, Option.some.injEq] at h
    subst h
    exact ⟨h1, h2⟩
  | cons op ops ih =>
    intro m m' h1 h2 h
    cases hr : op.rejected with
    | true => simp [RowHeaders.run, RowHeaders.step_eq, hr] at h
    | false =>
      obtain ⟨m1, e1, w1, _, ⟨x0, _, g0, s0⟩, hk, _⟩ := RowHeaders.step_obs h1 op hr
      simp only [RowHeaders.run, e1] at h
      refine ih m1 m' w1 ?_ h
      intro k x hx
      by_cases e : k = op.row
      · subst e
        rw [g0] at hx
        simp only [Option.some.injEq] at hx
        subst hx
        omega
      · rcases hk k e x hx with ⟨y, hy, hle⟩ | ⟨_, b, y, hy, hle, heq⟩
        · have := h2 k y hy; omega
        · have := h2 b y hy; omega

theorem wfg_nil : RowHeaders.WFG [] := ⟨sorted_nil, by simp, by simp⟩

/-- **C09, first half.** After any history of row calls on a fresh sheet, a row call that is not
rejected (a repeat of zero is) succeeds, the row it names looks as intended, and no row above it
changes. -/
theorem C09_named_row (ops : List RowOp) (m : RowHeaders) (h : RowHeaders.run [] ops = some m)
    (op : RowOp) :
    (op.rejected = true → m.step op = none)
    ∧ (op.rejected = false → ∃ m', m.step op = some m'
        ∧ m'.observe op.row = (m.observe op.row).after op
        ∧ ∀ j, j < op.row → m'.observe j = m.observe j) := by
  have hw := (rows_run_inv ops [] m wfg_nil (by simp) h).1
  refine ⟨fun hr => by rw [RowHeaders.step_eq, hr]; rfl, fun hr => ?_⟩
  obtain ⟨m', e1, _, e2, _, _, _, e3⟩ := RowHeaders.step_obs hw op hr
  exact ⟨m', e1, e2, e3⟩

theorem rows_history (ops : List RowOp) (hr : ∀ op ∈ ops, op.rejected = false) :
    ∀ (named : List Nat) (m : RowHeaders), m.WFG →
      (∀ k x, m.get? k = some x → x.span ≤ 1 ∧ (x.span = 1 → k ∈ named)) →
      rowsSafe named ops →
      ∃ m', m.run ops = some m' ∧ ∀ r, m'.observe r
        = (ops.filter (fun op => decide (op.row = r))).foldl RowObs.after (m.observe r) := by
  induction ops with
  | nil => intro named m _ _ _; exact ⟨m, rfl, fun _ => rfl⟩
  | cons op ops ih =>
    intro named m h1 h2 hsafe
    obtain ⟨m1, e1, w1, own, ⟨x0, _, g0, s0⟩, hk, hoth, _⟩ :=
      RowHeaders.step_obs h1 op (hr op (by simp))
    have hinv : ∀ k x, m1.get? k = some x → x.span ≤ 1 ∧ (x.span = 1 → k ∈ op.row :: named) := by
      intro k x hx
      by_cases e : k = op.row
      · subst e
        rw [g0] at hx
        simp only [Option.some.injEq] at hx
        subst hx
        exact ⟨by omega, fun _ => by simp⟩
      · rcases hk k e x hx with ⟨y, hy, hle⟩ | ⟨_, b, y, hy, hle, heq⟩
        · have := h2 k y hy
          refine ⟨by omega, fun h => ?_⟩
          exact List.mem_cons_of_mem _ (this.2 (by omega))
        · have := h2 b y hy
          exact ⟨by omega, fun h => by omega⟩
    have hother := hoth (by
      intro b x y hb hle hlt hy
      have hbx := h2 b x hb
      have hby := h2 _ y hy
      have : b = op.row := by omega
      subst this
      have hnot := hsafe.1 (hbx.2 (by omega))
      cases hs : y.span with
      | zero => rfl
      | succ n => exact absurd (hby.2 (by omega)) hnot)
    obtain ⟨m2, e2, o2⟩ := ih (fun o ho => hr o (by simp [ho])) _ m1 w1 hinv hsafe.2
    refine ⟨m2, by simp only [RowHeaders.run, e1]; exact e2, fun r => ?_⟩
    rw [o2]
    by_cases e : op.row = r
    · subst e
      simp only [List.filter_cons, decide_true, if_true, List.foldl_cons, own]
    · simp only [List.filter_cons, e, decide_false, Bool.false_eq_true, if_false,
        hother r (fun h => e h.symm)]

/-- **C09, histories (partial).** In a history without a repeat of zero, in which no call names a
row for a second time while the row below has been named already, no call panics and the getters of
every row return what the calls naming this row have set. Missing: the other histories, see
`C09_next_row_counterexample`. -/
theorem C09_history_partial (ops : List RowOp) (hr : ∀ op ∈ ops, op.rejected = false)
    (hs : rowsSafe [] ops) :
    ∃ m, RowHeaders.run [] ops = some m ∧ ∀ r, m.observe r = rowSpec r ops :=
  rows_history ops hr [] [] wfg_nil (by simp) hs

/-- Setting several attributes row by row, top down, meets the hypotheses. -/
example : rowsSafe [] [.setStyle 0 "a", .setHeight 0 .default, .setStyle 1 "b", .setVisible 1 .filtered] := by
  simp [rowsSafe, RowOp.row]

/-- **C09 is violated** in general: row 1 has a style; the second call for row 0 removes it. -/
theorem C09_next_row_counterexample :
    ∃ m m', RowHeaders.run [] [.setStyle 1 "a", .setStyle 0 "b"] = some m
      ∧ m.step (.setVisible 0 .collapsed) = some m'
      ∧ m.rowstyle 1 = some "a" ∧ m'.rowstyle 1 = none := by
  refine ⟨_, _, rfl, rfl, ?_, ?_⟩ <;> decide

/-! ### C10: groups -/

theorem notCrossing_of {a b : Grouped} (h : a.contains b = true ∨ b.contains a = true
    ∨ a.disjunct b = true) : ¬ Crossing a b := by
  simp only [Grouped.contains, Grouped.disjunct, Bool.and_eq_true, Bool.or_eq_true,
    decide_eq_true_eq] at h
  rintro ⟨⟨x, _⟩, ⟨y, _⟩, ⟨z, _⟩⟩
  omega

theorem Crossing.symm {a b : Grouped} (h : Crossing a b) : Crossing b a := by
  obtain ⟨⟨x, h1, h2, h3, h4⟩, h5, h6⟩ := h
  exact ⟨⟨x, h3, h4, h1, h2⟩, h6, h5⟩

/-- **C10.** After any history of group calls none of which panics, all groups are proper intervals
and no two of them cross. -/
theorem C10_never_cross (ops : List GroupOp) (gs : List Grouped)
    (h : GroupOp.run [] ops = some gs) :
    (∀ g ∈ gs, g.frm ≤ g.to) ∧ gs.Pairwise (fun a b => ¬ Crossing a b) := by
  suffices ∀ (gs gs' : List Grouped), ((∀ g ∈ gs, g.frm ≤ g.to)
      ∧ gs.Pairwise (fun a b => ¬ Crossing a b)) → GroupOp.run gs ops = some gs' →
      ((∀ g ∈ gs', g.frm ≤ g.to) ∧ gs'.Pairwise (fun a b => ¬ Crossing a b)) from
    this [] gs ⟨by simp, List.Pairwise.nil⟩ h
  clear h gs
  induction ops with
  | nil =>
    intro gs gs' hi h
    simp only [GroupOp.run, Option.some.injEq] at h
    subst h
    exact hi
  | cons op ops ih =>
    intro gs gs' hi h
    unfold GroupOp.run at h
    cases hst : op.step gs with
    | none => rw [hst] at h; simp at h
    | some gs1 =>
      rw [hst] at h
      refine ih gs1 gs' ?_ h
      cases op with
      | add f t =>
        simp only [GroupOp.step, addGroup] at hst
        split at hst
        · rename_i hle
          split at hst
          · rename_i hall
            simp only [Option.some.injEq] at hst
            subst hst
            refine ⟨?_, List.pairwise_append.mpr ⟨hi.2, by simp, ?_⟩⟩
            · intro g hg
              rcases List.mem_append.mp hg with e | e
              · exact hi.1 g e
              · simp only [List.mem_singleton] at e; rw [e]; exact hle
            · intro a ha b hb
              simp only [List.mem_singleton] at hb
              subst hb
              have := List.all_eq_true.mp hall a ha
              simp only [Bool.or_eq_true, or_assoc] at this
              intro hx
              exact notCrossing_of this hx.symm
          · simp at hst
        · simp at hst
      | remove f t =>
        simp only [GroupOp.step, Option.some.injEq] at hst
        subst hst
        unfold removeGroup
        split
        · exact ⟨fun g hg => hi.1 g (List.mem_of_mem_eraseIdx hg),
            hi.2.sublist (List.eraseIdx_sublist _ _)⟩
        · exact hi

/-- **C10.** Removing a group removes the first one with these bounds, and no other. -/
theorem C10_remove (gs : List Grouped) (f t : Nat) :
    removeGroup gs f t = gs.eraseP (fun g => decide (g.frm = f ∧ g.to = t)) := by
  unfold removeGroup
  rw [List.eraseP_eq_eraseIdx]
  cases List.findIdx? (fun v : Grouped => decide (v.frm = f ∧ v.to = t)) gs <;> rfl

/-- **C10.** Adding a group panics exactly if `from > to` or the new group crosses an existing one
(the call works on a value, so nothing changes then); otherwise the group is added. -/
theorem C10_add_panics (ops : List GroupOp) (gs : List Grouped)
    (h : GroupOp.run [] ops = some gs) (f t : Nat) :
    (addGroup gs f t = none ↔ (t < f ∨ ∃ g ∈ gs, Crossing ⟨f, t, true⟩ g))
    ∧ ∀ gs', addGroup gs f t = some gs' → gs' = gs ++ [⟨f, t, true⟩] := by
  have hi := (C10_never_cross ops gs h).1
  unfold addGroup
  by_cases hle : f ≤ t
  · rw [if_pos hle]
    simp only
    split
    · rename_i hall
      refine ⟨?_, fun gs' e => by simpa using e.symm⟩
      simp only [reduceCtorEq, false_iff, not_or, not_exists, not_and]
      refine ⟨by omega, fun g hg hc => ?_⟩
      have := List.all_eq_true.mp hall g hg
      simp only [Bool.or_eq_true, or_assoc] at this
      exact notCrossing_of this hc
    · rename_i hall
      refine ⟨?_, fun gs' e => by simp at e⟩
      simp only [true_iff]
      right
      simp only [List.all_eq_true, Classical.not_forall] at hall
      obtain ⟨g, hg, hn⟩ := hall
      have hgi := hi g hg
      simp only [Grouped.contains, Grouped.disjunct, Bool.or_eq_true, Bool.and_eq_true,
        decide_eq_true_eq] at hn
      refine ⟨g, hg, ?_, ?_, ?_⟩
      · simp only
        by_cases c : f ≤ g.frm
        · exact ⟨g.frm, by omega⟩
        · exact ⟨f, by omega⟩
      · simp only
        by_cases c : f < g.frm
        · exact ⟨f, by omega⟩
        · exact ⟨t, by omega⟩
      · simp only
        by_cases c : g.frm < f
        · exact ⟨g.frm, by omega⟩
        · exact ⟨g.to, by omega⟩
  · rw [if_neg hle]
    refine ⟨?_, fun gs' e => by simp at e⟩
    simp only [true_iff]
    left; omega

/-- Crossing is possible: rows 0-4 and 3-7; the second call panics. -/
example : GroupOp.run [] [.add 0 4, .add 3 7] = none := by decide
/-- Nested, equal and disjoint groups are accepted. -/
example : (GroupOp.run [] [.add 0 4, .add 1 2, .add 0 4, .add 6 9, .remove 0 4]).isSome := by decide

/-! ### C11: hiding a group -/

theorem cols_setVisibleLoop (v : Visibility) (n : Nat) :
    ∀ (col : Nat) (m : ColHeaders), m.Ones →
      ∃ m', m.setVisibleLoop v col n = some m' ∧ m'.Ones
        ∧ ∀ c, m'.observe c =
          if col ≤ c ∧ c < col + n then { m.observe c with visible := v } else m.observe c := by
  induction n with
  | zero => intro col m h; exact ⟨m, rfl, h, fun c => by rw [if_neg (by omega)]⟩
  | succ n ih =>
    intro col m h
    obtain ⟨m1, e1, own, oth⟩ := ColHeaders.step_obs h.wf (.setVisible col v)
    have oth := oth (fun b x hb _ _ => Or.inl (h.2 _ (mem_of_get?_eq_some hb)))
    obtain ⟨m2, e2, w2, o2⟩ := ih (col + 1) m1 (h.step e1)
    refine ⟨m2, by simp only [ColHeaders.setVisibleLoop, e1]; exact e2, w2, ?_⟩
    intro c
    rw [o2]
    by_cases e : c = col
    · subst e
      rw [if_neg (by omega), if_pos (by omega)]
      exact own
    · rw [oth c e]
      by_cases c1 : col ≤ c ∧ c < col + (n + 1)
      · rw [if_pos c1, if_pos (by omega)]
      · rw [if_neg c1, if_neg (by omega)]

/-- **C11, columns (partial).** On a sheet built by column calls, for an existing group `from..=to`:
the call does not panic; exactly one group with these bounds gets the display flag and no other
group changes; the columns `from..=to` become visible or collapsed, keep their other attributes, and
no other column changes. Missing: sheets with repeated columns, see `C08_leak_counterexample`. -/
theorem C11_cols_partial (ops : List ColOp) (m : ColHeaders) (h : ColHeaders.run [] ops = some m)
    (gs : List Grouped) (g : Grouped) (hg : g ∈ gs) (d : Bool) :
    ∃ (gs' : List Grouped) (m' : ColHeaders) (i : Nat), setColGroupDisplayed gs m g.frm g.to d = some (gs', m')
      ∧ (∃ gi, gs[i]? = some gi ∧ gi.frm = g.frm ∧ gi.to = g.to)
      ∧ (∀ k, gs'[k]? = if k = i then some ⟨g.frm, g.to, d⟩ else gs[k]?)
      ∧ (∀ c, m'.observe c = if g.frm ≤ c ∧ c ≤ g.to then
          { m.observe c with visible := if d then .visible else .collapsed } else m.observe c) := by
  have hones : m.Ones := by
    obtain ⟨m', h1, h2, _⟩ := ColHeaders.Ones.run (m := []) ⟨sorted_nil, by simp⟩ ops
    rw [h] at h1
    simp only [Option.some.injEq] at h1
    exact h1 ▸ h2
  unfold setColGroupDisplayed
  cases hf : gs.findIdx? (fun v => decide (v.frm = g.frm ∧ v.to = g.to)) with
  | none =>
    have := List.findIdx?_eq_none_iff.mp hf g hg
    simp at this
  | some i =>
    obtain ⟨hi, hp, _⟩ := List.findIdx?_eq_some_iff_getElem.mp hf
    simp only [decide_eq_true_eq] at hp
    obtain ⟨m', e1, _, e2⟩ := cols_setVisibleLoop (if d then .visible else .collapsed)
      (g.to + 1 - g.frm) g.frm m hones
    refine ⟨gs.modify i (fun g => { g with display := d }), m', i, by simp only [e1],
      ⟨gs[i], List.getElem?_eq_getElem hi, hp⟩, ?_, ?_⟩
    · intro k
      rw [List.getElem?_modify]
      by_cases e : k = i
      · subst e
        rw [List.getElem?_eq_getElem hi]
        simp [hp.1, hp.2]
      · have e' : ¬ i = k := fun h => e h.symm
        simp only [e, e', if_false]
        cases gs[k]? <;> rfl
    · intro c
      rw [e2]
      by_cases c1 : g.frm ≤ c ∧ c ≤ g.to
      · rw [if_pos c1, if_pos (by omega)]
      · rw [if_neg c1, if_neg (by omega)]

theorem rows_setVisibleLoop (v : Visibility) (n : Nat) :
    ∀ (row : Nat) (m : RowHeaders), m.WFG → (∀ k x, m.get? k = some x → x.span ≤ 1) →
      ∃ m', m.setVisibleLoop v row n = some m' ∧ m'.WFG
        ∧ (∀ k x, m'.get? k = some x → x.span ≤ 1)
        ∧ (∀ r, row ≤ r → r < row + n → m'.rowVisible r = v)
        ∧ (∀ r, r < row → m'.observe r = m.observe r)
        ∧ (∀ r, row + n ≤ r → (r = row + n → m.rowRepeat r = 0) → m'.observe r = m.observe r) := by
  induction n with
  | zero =>
    intro row m h h1
    exact ⟨m, rfl, h, h1, fun r _ _ => by omega, fun _ _ => rfl, fun _ _ _ => rfl⟩
  | succ n ih =>
    intro row m h h1
    obtain ⟨m1, e1, w1, own, ⟨x0, v0, g0, s0⟩, hk, oth, low⟩ :=
      RowHeaders.step_obs h (.setVisible row v) rfl
    simp only [RowOp.row] at own v0 g0 hk oth low
    have hsp : ∀ k x, m1.get? k = some x → x.span ≤ 1 := by
      intro k x hx
      by_cases e : k = row
      · subst e
        rw [g0] at hx
        simp only [Option.some.injEq] at hx
        subst hx
        omega
      · rcases hk k e x hx with ⟨y, hy, hle⟩ | ⟨_, b, y, hy, hle, heq⟩
        · have := h1 k y hy; omega
        · have := h1 b y hy; omega
    -- a row behind the next one is not affected
    have far : ∀ r, row + 1 < r → m1.observe r = m.observe r := by
      intro r hr
      have hv : m1.valid r = m.valid r := by
        -- with spans of at most 1 the lookup is the lookup at the key itself
        have lookup : ∀ (m : RowHeaders), m.WFG → (∀ k x, m.get? k = some x → x.span ≤ 1) →
            m.valid r = (m.get? r).filter (fun x => decide (x.span = 1)) := by
          intro m hm hsp
          cases hg : m.get? r with
          | none =>
            rw [Option.filter_none]
            rw [hm.valid_none]
            intro b x hb hle hlt
            have := hsp b x hb
            have : b = r := by omega
            rw [this, hg] at hb; simp at hb
          | some x =>
            have hx := hsp r x hg
            by_cases hs : x.span = 1
            · rw [hm.valid_some.mpr ⟨r, hg, Nat.le_refl _, by omega⟩]
              exact (if_pos (decide_eq_true hs)).symm
            · have : m.valid r = none := by
                rw [hm.valid_none]
                intro b y hb hle hlt
                have := hsp b y hb
                have : b = r := by omega
                rw [this, hg] at hb
                simp only [Option.some.injEq] at hb
                subst hb
                omega
              rw [this]
              exact (if_neg (by rw [decide_eq_true_eq]; exact hs)).symm
        rw [lookup m1 w1 hsp, lookup m h h1]
        congr 1
        -- stored headers at `r` are the same
        have : m.step (.setVisible row v) = some m1 := e1
        rw [RowHeaders.step_eq] at this
        simp only [RowOp.rejected, Bool.false_eq_true, if_false, RowOp.row] at this
        cases hv : m.valid row with
        | none =>
          rw [RowHeaders.modify_uncovered hv] at this
          simp only [Option.some.injEq] at this
          rw [← this, get?_insert, get?_insert, if_neg (by omega), if_neg (by omega)]
        | some x =>
          obtain ⟨b, hb, hle, hlt⟩ := h.valid_some.mp hv
          obtain ⟨m'', hm'', _, hget⟩ := RowHeaders.modify_covered h hb hle hlt
            (fun h => RowOp.apply h (.setVisible row v))
          rw [hm''] at this
          simp only [Option.some.injEq] at this
          rw [← this, hget, if_neg (by omega), if_neg (by omega), if_neg (by omega)]
      rw [RowHeaders.observe_eq, RowHeaders.observe_eq, hv]
    obtain ⟨m2, e2, w2, hsp2, vis2, low2, high2⟩ := ih (row + 1) m1 w1 hsp
    refine ⟨m2, by simp only [RowHeaders.setVisibleLoop, e1]; exact e2, w2, hsp2, ?_, ?_, ?_⟩
    · intro r hr1 hr2
      by_cases e : r = row
      · subst e
        have h3 := low2 r (by omega)
        have : m2.rowVisible r = (m2.observe r).visible := rfl
        rw [this, h3, own]; rfl
      · exact vis2 r (by omega) (by omega)
    · intro r hr
      rw [low2 r (by omega), low r (by omega)]
    · intro r hr1 hr2
      have next : m1.observe r = m.observe r := by
        by_cases e : r = row + 1
        · subst e
          have hn : n = 0 := by omega
          subst hn
          have hz := hr2 rfl
          apply oth
          · intro b x y hb hle hlt hy
            have hsy := h1 _ y hy
            cases hs : y.span with
            | zero => rfl
            | succ k =>
              exfalso
              have hval := h.valid_some.mpr ⟨row + 1, hy, Nat.le_refl _, by omega⟩
              simp only [RowHeaders.rowRepeat, hval] at hz
              have := h.rep hy
              omega
          · omega
        · exact far r (by omega)
      rw [high2 r (by omega) ?_, next]
      intro e
      have : m1.rowRepeat r = (m1.observe r).repeat := rfl
      rw [this, next]
      exact hr2 (by omega)

/-- **C11, rows (partial).** On a sheet reached by any history of row calls, for an existing group
`from..=to`: the call does not panic; exactly one group with these bounds gets the display flag and
no other group changes; the rows `from..=to` become visible or collapsed; rows outside do not
change, except possibly the row behind the group if something was set for it. Missing: that row, and
the other attributes of the members, see `C11_rows_counterexample`. -/
theorem C11_rows_partial (ops : List RowOp) (m : RowHeaders) (h : RowHeaders.run [] ops = some m)
    (gs : List Grouped) (g : Grouped) (hg : g ∈ gs) (hgi : g.frm ≤ g.to) (d : Bool) :
    ∃ (gs' : List Grouped) (m' : RowHeaders) (i : Nat), setRowGroupDisplayed gs m g.frm g.to d = some (gs', m')
      ∧ (∃ gi, gs[i]? = some gi ∧ gi.frm = g.frm ∧ gi.to = g.to)
      ∧ (∀ k, gs'[k]? = if k = i then some ⟨g.frm, g.to, d⟩ else gs[k]?)
      ∧ (∀ r, g.frm ≤ r → r ≤ g.to → m'.rowVisible r = if d then .visible else .collapsed)
      ∧ (∀ r, r < g.frm ∨ g.to + 1 < r ∨ (r = g.to + 1 ∧ m.rowRepeat r = 0) →
          m'.observe r = m.observe r) := by
  obtain ⟨w, hsp⟩ := rows_run_inv ops [] m wfg_nil (by simp) h
  unfold setRowGroupDisplayed
  cases hf : gs.findIdx? (fun v => decide (v.frm = g.frm ∧ v.to = g.to)) with
  | none =>
    have := List.findIdx?_eq_none_iff.mp hf g hg
    simp at this
  | some i =>
    obtain ⟨hi, hp, _⟩ := List.findIdx?_eq_some_iff_getElem.mp hf
    simp only [decide_eq_true_eq] at hp
    obtain ⟨m', e1, _, _, e2, e3, e4⟩ := rows_setVisibleLoop (if d then .visible else .collapsed)
      (g.to + 1 - g.frm) g.frm m w hsp
    refine ⟨gs.modify i (fun g => { g with display := d }), m', i, by simp only [e1],
      ⟨gs[i], List.getElem?_eq_getElem hi, hp⟩, ?_, ?_, ?_⟩
    · intro k
      rw [List.getElem?_modify]
      by_cases e : k = i
      · subst e
        rw [List.getElem?_eq_getElem hi]
        simp [hp.1, hp.2]
      · have e' : ¬ i = k := fun h => e h.symm
        simp only [e, e', if_false]
        cases gs[k]? <;> rfl
    · intro r h1 h2
      exact e2 r h1 (by omega)
    · intro r hr
      rcases hr with hr | hr | hr
      · exact e3 r hr
      · exact e4 r (by omega) (by omega)
      · exact e4 r (by omega) (fun _ => hr.2)

/-- **C11 is violated** for rows: hiding the group of the rows 0 to 2 makes the filtered row 3
visible, and removes the style of row 1. -/
theorem C11_rows_counterexample :
    ∃ m gs' m', RowHeaders.run [] [.setVisible 3 .filtered, .setStyle 2 "a", .setStyle 1 "a",
        .setStyle 0 "a"] = some m
      ∧ setRowGroupDisplayed [⟨0, 2, true⟩] m 0 2 false = some (gs', m')
      ∧ m.rowVisible 3 = .filtered ∧ m.rowstyle 1 = some "a"
      ∧ m'.rowVisible 3 = .visible ∧ m'.rowstyle 1 = none := by
  refine ⟨_, _, _, rfl, rfl, ?_, ?_, ?_, ?_⟩ <;> decide

end Verif
