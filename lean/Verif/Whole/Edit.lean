import Verif.Whole.Again
import Verif.Grid.Ready

/-!
# Working with a workbook

C96: cells are changed, the workbook is saved and loaded, cells are changed again, and so on.  What is to be seen in the
end is what the changes made, wherever the workbook was saved and loaded in between.
-/

set_option autoImplicit false

namespace Verif.Whole

open Xml Codec Xml.Spec
open TableXml (Blank face Agrees afterReload Plain Ready GoodEdit Sound)

/-! ## The specification -/

namespace Spec

/-- A cell of a sheet is changed by a call, or the workbook is saved and loaded. -/
inductive Step where
  | change (sheet : Nat) (op : CellOp)
  | reload

/-- `s'` is the workbook after the steps: each call that changes a cell may be made (`Sound`) and does not panic, and
saving and loading succeeds. -/
inductive Works {Z : Type} (fl : Floats) (lb : Bool) (write : Source → Option Z) (read : Z → Except Fault Target) :
    Source → List Step → Source → Prop where
  | start {s : Source} : Works fl lb write read s [] s
  | change {s s' : Source} {l : List Step} {i : Nat} {h : TableXml.Head} {b : TSheet} {op : CellOp} {m : Cells} :
    Works fl lb write read s l s' → s'.sheets[i]? = some (h, b) → Sound fl lb b op → op.step b.data = some m →
    Works fl lb write read s (l ++ [.change i op]) { s' with sheets := s'.sheets.set i (h, { b with data := m }) }
  | reload {s s' s2 : Source} {l : List Step} {z : Z} {t : Target} :
    Works fl lb write read s l s' → write s' = some z → read z = .ok t → Reopened t s2 →
    Works fl lb write read s (l ++ [.reload]) s2

/-- What is expected at row `r` and column `c` of sheet `i`, where `o` was seen at the beginning: what the calls for
this cell made of it. -/
def expect (i r c : Nat) (o : Obs) : List Step → Obs
  | [] => o
  | .change j op :: l => expect i r c (if j = i ∧ op.pos = (r, c) then o.after op else o) l
  | .reload :: l => expect i r c (afterReload o) l

/-- The sheets after the steps: they have the same heads, groups and header ranges, and each cell looks as expected. -/
structure Worked (l : List Step) (s s' : List (TableXml.Head × TSheet)) : Prop where
  heads : s'.map (·.1) = s.map (·.1)
  parts : ∀ (i : Nat) (p p' : TableXml.Head × TSheet), s[i]? = some p → s'[i]? = some p' →
    p'.2.groupRows.Perm p.2.groupRows ∧ p'.2.groupCols.Perm p.2.groupCols ∧ p'.2.headerRows = p.2.headerRows
      ∧ p'.2.headerCols = p.2.headerCols
  cells : ∀ (i : Nat) (p p' : TableXml.Head × TSheet), s[i]? = some p → s'[i]? = some p' → ∀ r c,
    Agrees (expect i r c (observe p.2.data r c) l) (observe p'.2.data r c)

end Spec

open Spec

/-! ## Proofs -/

theorem expect_append (i r c : Nat) (l l' : List Step) : ∀ o, expect i r c o (l ++ l') = expect i r c (expect i r c o l) l' := by
  induction l with
  | nil => intro o; rfl
  | cons x l ih => intro o; cases x <;> exact ih _

/-- Sheets without repeats. -/
def AllPlain (l : List (TableXml.Head × TSheet)) : Prop := ∀ p ∈ l, Plain p.2

theorem worked_start (s : List (TableXml.Head × TSheet)) : Worked [] s s where
  heads := rfl
  parts := by
    intro i p p' h h'
    rw [h] at h'
    cases h'
    exact ⟨.refl _, .refl _, rfl, rfl⟩
  cells := by
    intro i p p' h h' r c
    rw [h] at h'
    cases h'
    exact TableXml.agrees_refl _

theorem worked_change {l : List Step} {s s' : List (TableXml.Head × TSheet)} (hw : Worked l s s') {i : Nat}
    {h : TableXml.Head} {b : TSheet} {op : CellOp} {m : Cells} (hi : s'[i]? = some (h, b)) (hs : OMap.Sorted b.data)
    (ho : op.step b.data = some m) :
    Worked (l ++ [.change i op]) s (s'.set i (h, { b with data := m })) where
  heads := by
    rw [← hw.heads]
    apply List.ext_getElem?
    intro j
    simp only [List.getElem?_map, List.getElem?_set]
    split
    · rename_i e
      subst e
      split
      · rw [hi]; rfl
      · rename_i hn
        rw [List.getElem?_eq_none (by omega)] at hi
        cases hi
    · rfl
  parts := by
    intro j p p' h1 h2
    rw [List.getElem?_set] at h2
    split at h2
    · rename_i e
      subst e
      split at h2
      · cases h2
        have := hw.parts i p (h, b) h1 hi
        exact this
      · cases h2
    · exact hw.parts j p p' h1 h2
  cells := by
    intro j p p' h1 h2 r c
    rw [expect_append]
    rw [List.getElem?_set] at h2
    split at h2
    · rename_i e
      subst e
      split at h2
      · cases h2
        have ih := hw.cells i p _ h1 hi r c
        show Agrees (if i = i ∧ op.pos = (r, c) then _ else _) _
        show Agrees _ (observe m r c)
        rw [TableXml.edit_observe hs ho]
        by_cases e : op.pos = (r, c)
        · rw [if_pos ⟨rfl, e⟩, if_pos e]
          exact TableXml.agrees_after op ih
        · rw [if_neg (fun x => e x.2), if_neg e]
          exact ih
      · cases h2
    · rename_i e
      have ih := hw.cells j p p' h1 h2 r c
      show Agrees (if i = j ∧ op.pos = (r, c) then _ else _) _
      rw [if_neg (fun x => e x.1)]
      exact ih

/-- One sheet that was saved and loaded. -/
theorem sheet_reload {fl : Floats} {lb ie : Bool} {defStyle : ValueType → Option String} {s s' : TSheet} {evs : List TEv}
    (hs : TableXml.SheetOk fl lb s) (hf : TableXml.SheetFits s) (hst : TableXml.Steady s)
    (h1 : writeSheet s = .ok evs) (h2 : readTable (TableXml.absOpts id defStyle ⟨ie, false⟩) evs = some s') :
    TableXml.SameSheet ie defStyle s s' ∧ Plain s' := by
  obtain ⟨_, _, _, same⟩ := TableXml.steady fl defStyle lb s s' hs hf hst ie evs h1 h2
  obtain ⟨_, r2, r3⟩ := settle_rows s s' (TableXml.absOpts id defStyle ⟨ie, false⟩) evs hs.cells hf.cols.wf hst.rows rfl h1 h2
  exact ⟨same, fun q hq => (r2 q hq).1, r3⟩

theorem rounds_at {o : ReadOpts} {l l' : List (TableXml.Head × TSheet)} (h : TableXml.Rounds o l l') :
    l'.map (·.1) = l.map (·.1) ∧ ∀ (i : Nat) p', l'[i]? = some p' → ∃ p evs, l[i]? = some p ∧ writeSheet p.2 = .ok evs
      ∧ readTable o evs = some p'.2 := by
  induction h with
  | nil => exact ⟨rfl, by intro i p' h; simp at h⟩
  | @cons h s s' evs l l' h1 h2 _ ih =>
    refine ⟨by simp [ih.1], ?_⟩
    intro i p' hp
    cases i with
    | zero =>
      simp only [List.getElem?_cons_zero, Option.some.injEq] at hp
      subst hp
      exact ⟨(h, s), evs, rfl, h1, h2⟩
    | succ i =>
      simp only [List.getElem?_cons_succ] at hp ⊢
      exact ih.2 i p' hp

theorem worked_reload {fl : Floats} {lb ie : Bool} {defStyle : ValueType → Option String} {l : List Step}
    {s s' s2 : List (TableXml.Head × TSheet)} (hw : Worked l s s') (hs : TableXml.AllSteady fl lb s') (hp : AllPlain s')
    (hr : TableXml.Rounds (TableXml.absOpts id defStyle ⟨ie, false⟩) s' s2) :
    Worked (l ++ [.reload]) s s2 ∧ AllPlain s2 := by
  obtain ⟨r1, r2⟩ := rounds_at hr
  refine ⟨⟨r1.trans hw.heads, ?_, ?_⟩, ?_⟩
  · intro i p p2 h1 h2
    obtain ⟨p', evs, g1, g2, g3⟩ := r2 i p2 h2
    obtain ⟨_, a1, a2, a3⟩ := hs p' (List.mem_of_getElem? g1)
    obtain ⟨same, _⟩ := sheet_reload a1 a2 a3 g2 g3
    obtain ⟨b1, b2, b3, b4⟩ := hw.parts i p p' h1 g1
    exact ⟨same.groupRows.trans b1, same.groupCols.trans b2, same.headerRows.trans b3, same.headerCols.trans b4⟩
  · intro i p p2 h1 h2 r c
    obtain ⟨p', evs, g1, g2, g3⟩ := r2 i p2 h2
    have hm := List.mem_of_getElem? g1
    obtain ⟨_, a1, a2, a3⟩ := hs p' hm
    obtain ⟨same, _⟩ := sheet_reload a1 a2 a3 g2 g3
    obtain ⟨k1, k2⟩ := TableXml.reload_observe a1.cells.sorted a3.rows (hp p' hm) same r c
    rw [expect_append]
    exact TableXml.agrees_reload (hw.cells i p p' h1 g1 r c) k1 k2
  · intro p2 h2
    obtain ⟨i, hi, e⟩ := List.getElem_of_mem h2
    obtain ⟨p', evs, g1, g2, g3⟩ := r2 i p2 (by rw [List.getElem?_eq_getElem hi, e])
    obtain ⟨_, a1, a2, a3⟩ := hs p' (List.mem_of_getElem? g1)
    exact (sheet_reload a1 a2 a3 g2 g3).2

theorem lasting_change {fl : Floats} {lb : Bool} {s : Source} (hl : Lasting fl lb s) (hp : AllPlain s.sheets) {i : Nat}
    {h : TableXml.Head} {b : TSheet} {op : CellOp} {m : Cells} (hi : s.sheets[i]? = some (h, b)) (hs : Sound fl lb b op)
    (ho : op.step b.data = some m) :
    Lasting fl lb { s with sheets := s.sheets.set i (h, { b with data := m }) }
      ∧ AllPlain (s.sheets.set i (h, { b with data := m })) := by
  have hm := List.mem_of_getElem? hi
  obtain ⟨a0, a1, a2, a3⟩ := hl.sheets _ hm
  obtain ⟨b1, b2, b3, b4⟩ := TableXml.edit_closed a1 a2 a3 (hp _ hm) hs ho
  refine ⟨{ hl.toGoodParts with noRules := hl.noRules, stays := hl.stays, sheets := ?_, some := ?_ }, ?_⟩
  · intro q hq
    rcases List.mem_or_eq_of_mem_set hq with hq | rfl
    · exact hl.sheets q hq
    · exact ⟨a0, b1, b2, b3⟩
  · intro hc
    exact hl.some (by simpa using hc)
  · intro q hq
    rcases List.mem_or_eq_of_mem_set hq with hq | rfl
    · exact hp q hq
    · exact b4

variable {e : Env}

/-- What saving and loading does for a workbook that lasts. -/
def Saves {Z : Type} (e : Env) (lb : Bool) (defStyle : ValueType → Option String)
    (R : Style.SBook → Style.SBook → Prop) (write : Source → Option Z) (read : Z → Except Fault Target) : Prop :=
  ∀ s, Lasting e.fl lb s → ∃ z t, write s = some z ∧ read z = .ok t
    ∧ TableXml.Rounds (TableXml.absOpts id defStyle ⟨e.opts.ignoreEmpty, false⟩) s.sheets t.body.sheets
    ∧ StillBack e.opts.ignoreEmpty defStyle s t ∧ R s.styles t.styles ∧ ∀ s', Reopened t s' → Lasting e.fl lb s'

theorem package_saves (hm : e.ints.max = Refs.Spec.maxU32) (ho : e.opts.useRepeat = false)
    (defStyle : ValueType → Option String) :
    Saves e false defStyle PackageStyles (writePackage e.fl defStyle) (readPackage e) := by
  intro s h
  obtain ⟨z, t, h1, h2, h3, _⟩ := package_live hm ho defStyle s h
  obtain ⟨z', t', g1, g2, g3, _⟩ := package_exact hm ho defStyle s (lasting_good h)
  rw [h1] at g1
  cases g1
  rw [h2] at g2
  cases g2
  refine ⟨z, t, h1, h2, ?_, h3.still, h3.rel, h3.next⟩
  obtain ⟨fl, ints, ie, ur⟩ := e
  simp only at ho
  subst ho
  exact g3

theorem flat_saves (hm : e.ints.max = Refs.Spec.maxU32) (ho : e.opts.useRepeat = false)
    (defStyle : ValueType → Option String) :
    Saves e true defStyle FlatStyles (writeFlat e.fl defStyle) (readFlat e) := by
  intro s h
  obtain ⟨z, t, h1, h2, h3, _⟩ := flat_live hm ho defStyle s h
  obtain ⟨z', t', g1, g2, g3, _⟩ := flat_exact hm ho defStyle s (lasting_good h)
  rw [h1] at g1
  cases g1
  rw [h2] at g2
  cases g2
  refine ⟨z, t, h1, h2, ?_, h3.still, h3.rel, h3.next⟩
  obtain ⟨fl, ints, ie, ur⟩ := e
  simp only at ho
  subst ho
  exact g3

theorem works {Z : Type} {lb : Bool} {defStyle : ValueType → Option String} {R : Style.SBook → Style.SBook → Prop}
    {write : Source → Option Z} {read : Z → Except Fault Target} (hsv : Saves e lb defStyle R write read)
    {s s' : Source} {l : List Step} (hw : Works e.fl lb write read s l s') :
    Lasting e.fl lb s → AllPlain s.sheets → Lasting e.fl lb s' ∧ AllPlain s'.sheets ∧ Worked l s.sheets s'.sheets := by
  induction hw with
  | start => intro h1 h2; exact ⟨h1, h2, worked_start _⟩
  | change _ hi hs ho ih =>
    intro h1 h2
    obtain ⟨a1, a2, a3⟩ := ih h1 h2
    obtain ⟨b1, b2⟩ := lasting_change a1 a2 hi hs ho
    exact ⟨b1, b2, worked_change a3 hi (a1.sheets _ (List.mem_of_getElem? hi)).2.1.cells.sorted ho⟩
  | reload _ hz ht hr ih =>
    intro h1 h2
    obtain ⟨a1, a2, a3⟩ := ih h1 h2
    obtain ⟨z, t, g1, g2, g3, _, _, g6⟩ := hsv _ a1
    rw [hz] at g1
    cases g1
    rw [ht] at g2
    cases g2
    obtain ⟨b1, b2⟩ := worked_reload a3 a1.sheets a2 g3
    rw [hr.sheets]
    exact ⟨g6 _ hr, b2, b1⟩

/-! ## C96 -/

/-- **C96 (partial).** Cells of a workbook are changed, it is saved as a package and loaded, cells are changed again, and
so on, any number of times and in any order.  In the end each cell of each sheet shows what the calls for it made of what
was there at the beginning, as if the workbook had never been saved; sheets, groups and header ranges are the same; and
the workbook can always be saved and loaded once more, with all its parts as `StillBack` says.

Missing (`_partial`): the limits of `Lasting`, and the rows that `Ready` excludes; `C96_shift_counterexample` shows what
goes wrong there. -/
theorem C96_package_partial (hm : e.ints.max = Refs.Spec.maxU32) (ho : e.opts.useRepeat = false)
    (defStyle : ValueType → Option String) (s s' : Source) (l : List Step) (h : Lasting e.fl false s)
    (hp : ∀ p ∈ s.sheets, Plain p.2) (hw : Works e.fl false (writePackage e.fl defStyle) (readPackage e) s l s') :
    Worked l s.sheets s'.sheets
      ∧ ∃ z t, writePackage e.fl defStyle s' = some z ∧ readPackage e z = .ok t
        ∧ StillBack e.opts.ignoreEmpty defStyle s' t ∧ PackageStyles s'.styles t.styles := by
  obtain ⟨a1, _, a3⟩ := works (package_saves hm ho defStyle) hw h hp
  obtain ⟨z, t, g1, g2, _, g4, g5, _⟩ := package_saves hm ho defStyle s' a1
  exact ⟨a3, z, t, g1, g2, g4, g5⟩

/-- **C96 (partial)**, for flat files. -/
theorem C96_flat_partial (hm : e.ints.max = Refs.Spec.maxU32) (ho : e.opts.useRepeat = false)
    (defStyle : ValueType → Option String) (s s' : Source) (l : List Step) (h : Lasting e.fl true s)
    (hp : ∀ p ∈ s.sheets, Plain p.2) (hw : Works e.fl true (writeFlat e.fl defStyle) (readFlat e) s l s') :
    Worked l s.sheets s'.sheets
      ∧ ∃ z t, writeFlat e.fl defStyle s' = some z ∧ readFlat e z = .ok t
        ∧ StillBack e.opts.ignoreEmpty defStyle s' t ∧ FlatStyles s'.styles t.styles := by
  obtain ⟨a1, _, a3⟩ := works (flat_saves hm ho defStyle) hw h hp
  obtain ⟨z, t, g1, g2, _, g4, g5, _⟩ := flat_saves hm ho defStyle s' a1
  exact ⟨a3, z, t, g1, g2, g4, g5⟩

/-- A workbook that was loaded meets the conditions, if the one that was saved lasts. -/
theorem C96_loaded_partial (hm : e.ints.max = Refs.Spec.maxU32) (ho : e.opts.useRepeat = false)
    (defStyle : ValueType → Option String) (s : Source) (h : Lasting e.fl false s) :
    ∃ z t, writePackage e.fl defStyle s = some z ∧ readPackage e z = .ok t
      ∧ ∀ s', Reopened t s' → Lasting e.fl false s' ∧ ∀ p ∈ s'.sheets, Plain p.2 := by
  obtain ⟨z, t, g1, g2, g3, _, _, g6⟩ := package_saves hm ho defStyle s h
  refine ⟨z, t, g1, g2, fun s' hr => ⟨g6 s' hr, ?_⟩⟩
  rw [hr.sheets]
  intro p2 h2
  obtain ⟨i, hi, e⟩ := List.getElem_of_mem h2
  obtain ⟨p', evs, k1, k2, k3⟩ := (rounds_at g3).2 i p2 (by rw [List.getElem?_eq_getElem hi, e])
  obtain ⟨_, a1, a2, a3⟩ := h.sheets p' (List.mem_of_getElem? k1)
  exact (sheet_reload a1 a2 a3 k2 k3).2

theorem ready_next {Z : Type} {lb : Bool} {defStyle : ValueType → Option String} {R : Style.SBook → Style.SBook → Prop}
    {write : Source → Option Z} {read : Z → Except Fault Target} (hsv : Saves e lb defStyle R write read)
    {s s' : Source} (h : Lasting e.fl lb s) {z : Z} {t : Target} (hz : write s = some z) (ht : read z = .ok t)
    (hr : Reopened t s') {i : Nat} {p p' : TableXml.Head × TSheet} (hi : s.sheets[i]? = some p)
    (hi' : s'.sheets[i]? = some p') (r : Nat)
    (hrow : (∃ c d, p.2.data.get? (r, c) = some d ∧ d.isEmpty = false) ∨
      ∀ r0, r = r0 + 1 → p.2.DataRow r0 → p.2.rowHeader.attrs r0 = {}) : Ready p'.2 r := by
  obtain ⟨z', t', g1, g2, g3, _⟩ := hsv s h
  rw [hz] at g1
  cases g1
  rw [ht] at g2
  cases g2
  rw [hr.sheets] at hi'
  obtain ⟨q, evs, k1, k2, k3⟩ := (rounds_at g3).2 i p' hi'
  rw [hi] at k1
  cases k1
  obtain ⟨_, a1, a2, a3⟩ := h.sheets p (List.mem_of_getElem? hi)
  refine C96_ready_partial p.2 p'.2 _ evs a1.cells a2.cols.wf ?_ rfl k2 k3 r ?_
  · rintro r ⟨c, d, hd⟩
    exact a3.rows _ (OMap.mem_of_get?_eq_some hd)
  · rcases hrow with ⟨c, d, h1, h2⟩ | h
    · exact .inl ⟨c, d, TableXml.decode id defStyle d, h1, rfl, by rw [TableXml.decode_isEmpty]; exact h2⟩
    · exact .inr h

/-- **C96, which rows can be filled after loading a package.** Those that had something to show when the workbook was
saved, and those that are not below a row that had cells and attributes. -/
theorem C96_next_package_partial (hm : e.ints.max = Refs.Spec.maxU32) (ho : e.opts.useRepeat = false)
    (defStyle : ValueType → Option String) (s s' : Source) (h : Lasting e.fl false s) (z : Package) (t : Target)
    (hz : writePackage e.fl defStyle s = some z) (ht : readPackage e z = .ok t) (hr : Reopened t s') (i : Nat)
    (p p' : TableXml.Head × TSheet) (hi : s.sheets[i]? = some p) (hi' : s'.sheets[i]? = some p') (r : Nat)
    (hrow : (∃ c d, p.2.data.get? (r, c) = some d ∧ d.isEmpty = false) ∨
      ∀ r0, r = r0 + 1 → p.2.DataRow r0 → p.2.rowHeader.attrs r0 = {}) : Ready p'.2 r :=
  ready_next (package_saves hm ho defStyle) h hz ht hr hi hi' r hrow

/-- **C96, which rows can be filled after loading a flat file.** -/
theorem C96_next_flat_partial (hm : e.ints.max = Refs.Spec.maxU32) (ho : e.opts.useRepeat = false)
    (defStyle : ValueType → Option String) (s s' : Source) (h : Lasting e.fl true s) (z : Str) (t : Target)
    (hz : writeFlat e.fl defStyle s = some z) (ht : readFlat e z = .ok t) (hr : Reopened t s') (i : Nat)
    (p p' : TableXml.Head × TSheet) (hi : s.sheets[i]? = some p) (hi' : s'.sheets[i]? = some p') (r : Nat)
    (hrow : (∃ c d, p.2.data.get? (r, c) = some d ∧ d.isEmpty = false) ∨
      ∀ r0, r = r0 + 1 → p.2.DataRow r0 → p.2.rowHeader.attrs r0 = {}) : Ready p'.2 r :=
  ready_next (flat_saves hm ho defStyle) h hz ht hr hi hi' r hrow

end Verif.Whole
