import Verif.Whole.CycleSizes
import Verif.Config.ViewBack
import Verif.Header.RowStates

/-!
# C94: what was asked of the sheets is what the program has after saving and loading

The histories of calls of C92, the preparations for saving, the files of C78 and C79 and the completion after reading,
as one cycle.
-/

set_option autoImplicit false

namespace Verif.Whole

open Xml Codec OMap Sheets Sheets.Spec
open Verif.Book (Stores Style)
open Verif.Style (Body)
open Verif.Width Verif.Width.Spec
open Verif.TableXml (Head HeadOk SheetOk SheetFits SameSheet SameSheets)

/-! ## Specification -/

namespace Spec

/-- The numbers in the calls about the view are values of their types. -/
def ViewTyped (cs : List Sheets.Call) : Prop := ∀ c ∈ cs, match c with
  | .setConfig c => c.InRange
  | .splitHorizontal n => n < 2 ^ 32
  | .splitVertical n => n < 2 ^ 32
  | _ => True

/-- What is asked of a column. -/
abbrev colAsked (cs : List Sheets.Call) (c : Nat) : ColObs := colSpec {} c (colCalls [] cs)

/-- What is asked of a row. -/
abbrev rowAsked (cs : List Sheets.Call) (r : Nat) : RowObs := rowSpec r (rowCalls [] cs)

/-- What is asked of a row, or was before the last call that names it. -/
def RowState (cs : List Sheets.Call) (o : RowObs) : Prop :=
  ∃ r, o = rowAsked cs r ∨ o = rowBefore r (rowCalls [] cs)

/-- The widths and heights can be kept, in terms of the calls (C60, C62): the styles that columns and rows name are
there, columns and rows that share a style share the size, and no row is changed again after the row below it. -/
structure SizesFit (fl : Floats) (st : Stores Body) (hist : List (Str × List Sheets.Call)) : Prop where
  safe : ∀ q ∈ hist, rowsSafe [] (rowCalls [] q.2)
  widths : ∀ q ∈ hist, ∀ c, LengthOk fl (colAsked q.2 c).width
  heights : ∀ q ∈ hist, ∀ o, RowState q.2 o → LengthOk fl o.height
  colStored : ∀ q ∈ hist, ∀ c n, (colAsked q.2 c).style = some n → ∃ t, st.get? .col n.toList = some t ∧ Kept t
    ∧ ((colAsked q.2 c).width ≠ .default → flagOr (val "style:use-optimal-column-width".toList t.body.main) = some false)
  colShared : ∀ q ∈ hist, ∀ q' ∈ hist, ∀ c c' n, (colAsked q.2 c).style = some n → (colAsked q'.2 c').style = some n →
    (colAsked q.2 c).width = (colAsked q'.2 c').width
  rowStored : ∀ q ∈ hist, ∀ o n, RowState q.2 o → o.style = some n → ∃ t, st.get? .row n.toList = some t ∧ Kept t
    ∧ (o.height ≠ .default → flagOr (val "style:use-optimal-row-height".toList t.body.main) = some false)
  rowShared : ∀ q ∈ hist, ∀ q' ∈ hist, ∀ o o' n, RowState q.2 o → RowState q'.2 o' → o.style = some n →
    o'.style = some n → o.height = o'.height

/-- The other settings of the view with the zoom of the page view as in a new sheet: it is not read (C47). -/
def freshPageZoom (v : Int × Nat × Nat × Int × Int × Int × Bool) : Int × Nat × Nat × Int × Int × Int × Bool :=
  (v.1, v.2.1, v.2.2.1, v.2.2.2.1, v.2.2.2.2.1, 60, v.2.2.2.2.2.2)

/-- What the program has of a sheet after saving and loading, of which the calls `cs` were asked after it was made with
the name `n`.  A column or row that was asked to have a size but no style has got a style, and nothing is said about
its name. -/
structure SheetLoaded (ignoreEmpty : Bool) (defStyle : ValueType → Option String) (n : Str) (cs : List Sheets.Call)
    (s : Sheet) : Prop extends GridRead ignoreEmpty defStyle n cs s.head s.body where
  cols : ∀ r c k, (specAt (r, c) (cellCalls cs)).present = true → k ≤ c →
    s.body.colHeader.colWidth k = (colAsked cs k).width ∧ s.body.colHeader.colCellstyle k = (colAsked cs k).cellstyle
    ∧ s.body.colHeader.colVisible k = (colAsked cs k).visible
    ∧ ((colAsked cs k).style ≠ none ∨ (colAsked cs k).width = .default →
        s.body.colHeader.colstyle k = (colAsked cs k).style)
  rows : ∀ r c, (specAt (r, c) (cellCalls cs)).present = true → ¬ Blank (specAt (r, c) (cellCalls cs)) →
    s.body.rowHeader.rowHeight r = (rowAsked cs r).height
    ∧ s.body.rowHeader.rowCellstyle r = (rowAsked cs r).cellstyle
    ∧ s.body.rowHeader.rowVisible r = (rowAsked cs r).visible
    ∧ ((rowAsked cs r).style ≠ none ∨ (rowAsked cs r).height = .default →
        s.body.rowHeader.rowstyle r = (rowAsked cs r).style)
  leftRight : (s.config.horSplitMode, s.config.horSplitPos) = lastWish wishLeftRight (.none, 0) cs
  topBottom : (s.config.vertSplitMode, s.config.vertSplitPos) = lastWish wishTopBottom (.none, 0) cs
  right : (s.config.positionRight, s.config.cursorX) = lastWish wishRight (0, 0) cs
  bottom : (s.config.positionBottom, s.config.cursorY) = lastWish wishBottom (0, 0) cs
  otherView : otherView s.config = freshPageZoom (lastWish wishOtherView (2, 0, 0, 0, 100, 60, true) cs)

/-- The view settings of the workbook: the first sheet is active, if none was set. -/
def bookView (v : Config.BookConfig) (names : List Str) : Config.BookConfig :=
  if v.activeTable = [] then { v with activeTable := names.headD [] } else v

end Spec

open Spec

/-! ## The sheets before saving -/

theorem call_typed (s : Sheet) (c : Sheets.Call) (s' : Sheet) (hc : s.call c = some s') (ht : ViewTyped [c])
    (h : s.config.InRange) : s'.config.InRange := by
  have ht := ht c List.mem_cons_self
  obtain ⟨h1, h2, h3, h4, h5, h6, h7, h8, h9, h10⟩ := h
  cases c <;> simp only [Sheet.call, Option.some.injEq] at hc
  case setConfig c => subst hc; exact ht
  case splitHorizontal n => subst hc; exact ⟨h1, h2, ht, h4, h5, h6, h7, h8, h9, h10⟩
  case splitVertical n => subst hc; exact ⟨h1, h2, h3, ht, h5, h6, h7, h8, h9, h10⟩
  case splitColHeader n =>
    obtain ⟨x, hx, rfl⟩ := Option.map_eq_some_iff.1 hc
    unfold Config.SheetConfig.splitColHeader at hx
    split at hx
    · rename_i hn
      injection hx with hx
      subst hx
      exact ⟨hn, h2, hn, h4, h5, h6, hn, h8, h9, h10⟩
    · cases hx
  case splitRowHeader n =>
    obtain ⟨x, hx, rfl⟩ := Option.map_eq_some_iff.1 hc
    unfold Config.SheetConfig.splitRowHeader at hx
    split at hx
    · rename_i hn
      injection hx with hx
      subst hx
      exact ⟨h1, hn, h3, hn, h5, h6, h7, h8, hn, h10⟩
    · cases hx
  all_goals first
    | (subst hc; exact ⟨h1, h2, h3, h4, h5, h6, h7, h8, h9, h10⟩)
    | (obtain ⟨c, _, rfl⟩ := Option.map_eq_some_iff.1 hc; exact ⟨h1, h2, h3, h4, h5, h6, h7, h8, h9, h10⟩)

theorem config_typed (cs : List Sheets.Call) : ∀ (s s' : Sheet), s.run cs = some s' → ViewTyped cs →
    s.config.InRange → s'.config.InRange := by
  induction cs with
  | nil => intro s s' h _ hr; cases h; exact hr
  | cons c cs ih =>
    intro s s' h ht hr
    rw [Sheet.run] at h
    cases hc : s.call c with
    | none => rw [hc] at h; cases h
    | some s1 =>
      rw [hc] at h
      refine ih s1 s' h (fun x hx => ht x (List.mem_cons_of_mem _ hx)) (call_typed s c s1 hc ?_ hr)
      intro x hx
      rw [List.mem_singleton] at hx
      subst hx
      exact ht x List.mem_cons_self

theorem insert_length {V : Type} (m : OMap Nat V) (k : Nat) (v : V) : (m.insert k v).length ≤ m.length + 1 := by
  induction m with
  | nil => simp [OMap.insert]
  | cons p m ih =>
    obtain ⟨k', v'⟩ := p
    rw [OMap.insert]
    split
    · simp
    · split
      · simp
      · simp only [List.length_cons]; omega

theorem erase_length {V : Type} (m : OMap Nat V) (k : Nat) : (m.erase k).length ≤ m.length := by
  induction m with
  | nil => simp [OMap.erase]
  | cons p m ih =>
    obtain ⟨k', v'⟩ := p
    rw [OMap.erase]
    split
    · simp
    · first
      | (simp only [List.length_cons]; omega)
      | (split <;> simp only [List.length_cons] <;> omega)

theorem row_step_length (m m' : RowHeaders) (op : RowOp) (h : m.step op = some m') : m'.length ≤ m.length + 4 := by
  rw [RowHeaders.step_eq] at h
  split at h
  · cases h
  have hs : (m.split op.row).length ≤ m.length + 3 := by
    unfold RowHeaders.split
    split
    · rename_i base x _
      split
      · dsimp only
        split
        · have h1 := insert_length m base { x with span := op.row - base }
          have h2 := insert_length (OMap.insert m base { x with span := op.row - base }) op.row { x with span := 1 }
          have h3 := insert_length ((OMap.insert m base { x with span := op.row - base }).insert op.row { x with span := 1 })
            (op.row + 1) { x with span := base + x.span - (op.row + 1) }
          omega
        · have h1 := insert_length m base { x with span := 1 }
          have h2 := insert_length (OMap.insert m base { x with span := 1 }) (op.row + 1)
            { x with span := base + x.span - (op.row + 1) }
          omega
      · have := insert_length m op.row ({} : RowHeader); omega
    · have := insert_length m op.row ({} : RowHeader); omega
  unfold RowHeaders.modify at h
  simp only at h
  split at h
  · rename_i x _
    injection h with h
    have := insert_length (m.split op.row) op.row (op.apply x)
    rw [← h]
    omega
  · cases h

theorem col_step_length (m m' : ColHeaders) (op : ColOp) (h : m.step op = some m') : m'.length ≤ m.length + 4 := by
  rw [ColHeaders.step_eq] at h
  have hs : (m.split op.col).length ≤ m.length + 3 := by
    unfold ColHeaders.split
    split
    · omega
    · split
      · rename_i base x _
        dsimp only
        have e := erase_length m base
        have h1 : (if 0 < op.col - base then (OMap.erase m base).insert base { x with span := op.col - base }
            else OMap.erase m base).length ≤ m.length + 1 := by
          split
          · have := insert_length (OMap.erase m base) base { x with span := op.col - base }; omega
          · omega
        generalize (if 0 < op.col - base then (OMap.erase m base).insert base { x with span := op.col - base }
            else OMap.erase m base) = m1 at h1
        have h2 := insert_length m1 op.col x
        split
        · have := insert_length (OMap.insert m1 op.col x) (op.col + 1) { x with span := base + x.span - (op.col + 1) }
          omega
        · omega
      · have := insert_length m op.col ({} : ColHeader); omega
  unfold ColHeaders.modify at h
  simp only at h
  split at h
  · rename_i x _
    injection h with h
    have := insert_length (m.split op.col) op.col (op.apply x)
    rw [← h]
    omega
  · cases h

theorem row_run_length (ops : List RowOp) : ∀ (m m' : RowHeaders), m.run ops = some m' →
    m'.length ≤ m.length + 4 * ops.length := by
  induction ops with
  | nil => intro m m' h; cases h; simp
  | cons op ops ih =>
    intro m m' h
    rw [RowHeaders.run] at h
    cases hs : m.step op with
    | none => rw [hs] at h; cases h
    | some m1 =>
      rw [hs] at h
      have := ih m1 m' h
      have := row_step_length m m1 op hs
      simp only [List.length_cons]
      omega

theorem col_run_length (ops : List ColOp) : ∀ (m m' : ColHeaders), m.run ops = some m' →
    m'.length ≤ m.length + 4 * ops.length := by
  induction ops with
  | nil => intro m m' h; cases h; simp
  | cons op ops ih =>
    intro m m' h
    rw [ColHeaders.run] at h
    cases hs : m.step op with
    | none => rw [hs] at h; cases h
    | some m1 =>
      rw [hs] at h
      have := ih m1 m' h
      have := col_step_length m m1 op hs
      simp only [List.length_cons]
      omega

theorem headers_length (cs : List Sheets.Call) {n : Str} {s : Sheet} (h : (Sheet.new n).run cs = some s) :
    s.body.rowHeader.length ≤ 4 * (rowCalls [] cs).length ∧ s.body.colHeader.length ≤ 4 * (colCalls [] cs).length := by
  have h1 := row_run_length _ _ _ (run_rows cs _ s [] rfl h).2
  have h2 := col_run_length _ _ _ (run_cols cs _ s [] rfl h).2
  have e1 : (Sheet.new n).body.rowHeader.length = 0 := rfl
  have e2 : (Sheet.new n).body.colHeader.length = 0 := rfl
  omega

/-- The headers of the columns, in terms of the calls. -/
theorem col_header {n : Str} {cs : List Sheets.Call} {s : Sheet} (h : (Sheet.new n).run cs = some s) (c : Nat) (x : ColHeader)
    (hx : (c, x) ∈ s.body.colHeader) : x.style = (colAsked cs c).style ∧ x.width = (colAsked cs c).width := by
  obtain ⟨hones, _⟩ := cols_of h
  have hg := (get?_eq_some_iff hones.1).mpr hx
  have := C92_columns n cs s h c
  rw [ColHeaders.observe_eq, ones_valid hones, hg] at this
  show _ = (colSpec {} c (colCalls [] cs)).style ∧ _ = (colSpec {} c (colCalls [] cs)).width
  rw [← this]
  exact ⟨rfl, rfl⟩

/-- The headers of the rows, in terms of the calls. -/
theorem row_header {n : Str} {cs : List Sheets.Call} {s : Sheet} (h : (Sheet.new n).run cs = some s)
    (hsafe : rowsSafe [] (rowCalls [] cs)) (r : Nat) (x : RowHeader) (hx : (r, x) ∈ s.body.rowHeader) :
    ∃ o, RowState cs o ∧ x.style = o.style ∧ x.height = o.height := by
  have h1 := (run_rows cs _ s [] rfl h).2
  have h2 := RowHeaders.states_of _ _ hsafe h1
  rcases h2.header r x ((get?_eq_some_iff h2.sorted).mpr hx) with ⟨_, _, a, b⟩ | ⟨_, _, r', _, _, a, b⟩
  · exact ⟨_, ⟨r, .inl rfl⟩, a, b⟩
  · exact ⟨_, ⟨r', .inr rfl⟩, a, b⟩

section Made

variable {fl : Floats} {lb : Bool} {hist : List (Str × List Sheets.Call)} {sheets : List Sheet} {st : Stores Body}
    (hmade : Made hist sheets)

include hmade in
theorem made_mem (s : Sheet) (hs : s ∈ sheets) : ∃ q ∈ hist, (Sheet.new q.1).run q.2 = some s := by
  have h2 : some s ∈ sheets.map some := List.mem_map.mpr ⟨s, hs, rfl⟩
  rw [← hmade] at h2
  obtain ⟨p, h3, h4⟩ := List.mem_map.mp h2
  exact ⟨p, h3, h4⟩

include hmade in
theorem made_cols (h : ColHeader) (hh : IsHeader (sheets.map (·.body)) h) :
    ∃ q ∈ hist, ∃ c, h.style = (colAsked q.2 c).style ∧ h.width = (colAsked q.2 c).width := by
  obtain ⟨b, hb, c, hc⟩ := hh
  obtain ⟨s, hs, rfl⟩ := List.mem_map.mp hb
  obtain ⟨q, hq, hr⟩ := made_mem hmade s hs
  exact ⟨q, hq, c, col_header hr c h hc⟩

include hmade in
theorem made_rows (hf : SizesFit fl st hist) (h : RowHeader) (hh : IsRowHeader (sheets.map (·.body)) h) :
    ∃ q ∈ hist, ∃ o, RowState q.2 o ∧ h.style = o.style ∧ h.height = o.height := by
  obtain ⟨b, hb, r, hc⟩ := hh
  obtain ⟨s, hs, rfl⟩ := List.mem_map.mp hb
  obtain ⟨q, hq, hr⟩ := made_mem hmade s hs
  exact ⟨q, hq, row_header hr (hf.safe q hq) r h hc⟩

include hmade in
theorem made_widths (hf : SizesFit fl st hist) : WidthsFit st (sheets.map (·.body)) := by
  constructor
  · intro h n hh hn
    obtain ⟨q, hq, c, e1, e2⟩ := made_cols hmade h hh
    rw [e1] at hn
    rw [e2]
    exact hf.colStored q hq c n hn
  · intro h h' n hh hh' hn hn'
    obtain ⟨q, hq, c, e1, e2⟩ := made_cols hmade h hh
    obtain ⟨q', hq', c', e1', e2'⟩ := made_cols hmade h' hh'
    rw [e2, e2']
    exact hf.colShared q hq q' hq' c c' n (by rw [← e1]; exact hn) (by rw [← e1']; exact hn')

include hmade in
theorem made_heights (hf : SizesFit fl st hist) : HeightsFit st (sheets.map (·.body)) := by
  constructor
  · intro h n hh hn
    obtain ⟨q, hq, o, ho, e1, e2⟩ := made_rows hmade hf h hh
    rw [e1] at hn
    rw [e2]
    exact hf.rowStored q hq o n ho hn
  · intro h h' n hh hh' hn hn'
    obtain ⟨q, hq, o, ho, e1, e2⟩ := made_rows hmade hf h hh
    obtain ⟨q', hq', o', ho', e1', e2'⟩ := made_rows hmade hf h' hh'
    rw [e2, e2']
    exact hf.rowShared q hq q' hq' o o' n ho ho' (by rw [← e1]; exact hn) (by rw [← e1']; exact hn')

theorem made_rowsFit {n : Str} {cs : List Sheets.Call} {s : Sheet} (h : (Sheet.new n).run cs = some s)
    (hs : Saveable fl lb cs) : RowsFit s.body := by
  obtain ⟨hrep, hone, hrow⟩ := repeats_of h hs.rows
  exact ⟨fun r _ => by rw [hone]; omega⟩

end Made

/-! ## The cycle -/

theorem rounds_get {o : ReadOpts} {l l' : List (Head × TSheet)} (h : TableXml.Rounds o l l') :
    ∀ (i : Nat) (p : Head × TSheet), l[i]? = some p → ∃ s' evs, l'[i]? = some (p.1, s') ∧ writeSheet p.2 = .ok evs
      ∧ readTable o evs = some s' := by
  induction h with
  | nil => simp
  | cons h1 h2 _ ih =>
    intro i p hp
    cases i with
    | zero =>
      simp only [List.getElem?_cons_zero, Option.some.injEq] at hp
      subst hp
      exact ⟨_, _, rfl, h1, h2⟩
    | succ i => exact ih i p (by simpa using hp)

/-- If each sheet can be completed, all can. -/
theorem deriveSheets_ok (fl : Floats) (t : Target) : ∀ (l : List (Head × TSheet)),
    (∀ p ∈ l, ∃ s, deriveOne fl t p.1 p.2 = .ok s) → ∃ ss, deriveSheets fl t l = .ok ss ∧ ss.length = l.length
      ∧ ∀ (i : Nat) p, l[i]? = some p → ∃ s, ss[i]? = some s ∧ deriveOne fl t p.1 p.2 = .ok s := by
  intro l
  induction l with
  | nil => intro _; exact ⟨[], rfl, rfl, by simp⟩
  | cons p l ih =>
    intro h
    obtain ⟨s, hs⟩ := h p List.mem_cons_self
    obtain ⟨ss, h1, h2, h3⟩ := ih fun q hq => h q (List.mem_cons_of_mem _ hq)
    refine ⟨s :: ss, ?_, by simp [h2], ?_⟩
    · rw [deriveSheets, hs]
      simp only [h1]
      rfl
    · intro i q hq
      cases i with
      | zero =>
        simp only [List.getElem?_cons_zero, Option.some.injEq] at hq
        subst hq
        exact ⟨s, rfl, hs⟩
      | succ i => exact h3 i q (by simpa using hq)

/-- The workbook as it is made by calls, and as its sheets, view and sizes can be kept. -/
structure Spec.Cyclic (fl : Floats) (lb : Bool) (hist : List (Str × List Sheets.Call)) (d : Doc) : Prop where
  parts : GoodParts fl lb d.rest
  made : Made hist d.sheets
  some : hist ≠ []
  saveable : ∀ q ∈ hist, Saveable fl lb q.2
  typed : ∀ q ∈ hist, ViewTyped q.2
  named : ∀ q ∈ hist, lastWish wishName q.1 q.2 ≠ []
  unique : (hist.map fun q => lastWish wishName q.1 q.2).Nodup
  sizes : SizesFit fl d.rest.styles.styles hist
  count : d.rest.styles.count + 4 * (hist.map fun q => (rowCalls [] q.2).length + (colCalls [] q.2).length).sum < 4294967296

theorem headers_sum : ∀ (hist : List (Str × List Sheets.Call)) (sheets : List Sheet), Made hist sheets →
    ((sheets.map (·.body)).map fun s => s.rowHeader.length).sum + ((sheets.map (·.body)).map fun s => s.colHeader.length).sum
      ≤ 4 * (hist.map fun q => (rowCalls [] q.2).length + (colCalls [] q.2).length).sum := by
  intro hist
  induction hist with
  | nil =>
    intro sheets h
    cases sheets with
    | nil => simp
    | cons s ss => cases h
  | cons q hist ih =>
    intro sheets h
    cases sheets with
    | nil => cases h
    | cons s ss =>
      unfold Made at h
      simp only [List.map_cons, List.cons.injEq] at h
      have := ih ss h.2
      obtain ⟨a, b⟩ := headers_length q.2 h.1
      simp only [List.map_cons, List.sum_cons]
      omega

section Core

variable {fl : Floats} {lb : Bool} {hist : List (Str × List Sheets.Call)} {d d2 : Doc} (hd : Cyclic fl lb hist d)

include hd in
theorem cyclic_names : (d.sheets.map fun s => (s.head.name, s.config)).map (·.1) = hist.map fun q => lastWish wishName q.1 q.2 := by
  have h := hd.made
  unfold Made at h
  rw [List.map_map]
  apply List.ext_getElem?
  intro i
  have hi := congrArg (·[i]?) h
  simp only [List.getElem?_map] at hi ⊢
  cases hh : hist[i]? with
  | none => 
    rw [hh] at hi
    cases hs : d.sheets[i]? with
    | none => rfl
    | some s => rw [hs] at hi; cases hi
  | some q =>
    rw [hh] at hi
    cases hs : d.sheets[i]? with
    | none => rw [hs] at hi; cases hi
    | some s =>
      rw [hs] at hi
      simp only [Option.map_some, Option.some.injEq] at hi ⊢
      exact (C92_settings q.1 q.2 s hi).1

include hd in
theorem cyclic_view : Config.Distinct (d.sheets.map fun s => (s.head.name, s.config))
    ∧ (∀ s ∈ d.sheets.map fun s => (s.head.name, s.config), s.2.InRange)
    ∧ ∀ s ∈ d.sheets.map fun s => (s.head.name, s.config), s.1 ≠ [] := by
  have hnames := cyclic_names hd
  have hdist : Config.Distinct (d.sheets.map fun s => (s.head.name, s.config)) := by
    unfold Config.Distinct
    rw [hnames]
    exact hd.unique
  have hrange : ∀ s ∈ d.sheets.map fun s => (s.head.name, s.config), s.2.InRange := by
    intro s hs
    obtain ⟨x, hx, rfl⟩ := List.mem_map.1 hs
    obtain ⟨q, hq, hr⟩ := made_mem hd.made x hx
    exact config_typed q.2 _ x hr (hd.typed q hq) (show Config.SheetConfig.InRange {} by unfold Config.SheetConfig.InRange; decide)
  have hnonempty : ∀ s ∈ d.sheets.map fun s => (s.head.name, s.config), s.1 ≠ [] := by
    intro s hs
    have : s.1 ∈ (d.sheets.map fun s => (s.head.name, s.config)).map (·.1) := List.mem_map.2 ⟨s, hs, rfl⟩
    rw [hnames] at this
    obtain ⟨q, hq, e⟩ := List.mem_map.1 this
    rw [← e]
    exact hd.named q hq
  exact ⟨hdist, hrange, hnonempty⟩

theorem prepared (hc : d.calculations fl = some d2) : ∃ view k config st1 ss1 st2 ss2,
    Config.calcConfig d.view (d.sheets.map fun s => (s.head.name, s.config)) (.node .set d.rest.config)
      = some (view, .node k config)
    ∧ calcRowSheets fl d.rest.styles.styles (d.sheets.map (·.body)) = .ok (st1, ss1)
    ∧ calcSheets fl st1 ss1 = .ok (st2, ss2)
    ∧ d2 = { rest := { d.rest with config := config, styles := { d.rest.styles with styles := st2 } }
             view := view
             sheets := List.zipWith (fun s b => { s with body := b }) d.sheets ss2 } := by
  unfold Doc.calculations at hc
  split at hc
  · rename_i view k config h1
    cases h2 : calcRowSheets fl d.rest.styles.styles (d.sheets.map (·.body)) with
    | error f => rw [h2] at hc; cases hc
    | ok r =>
      obtain ⟨st1, ss1⟩ := r
      rw [h2] at hc
      simp only at hc
      cases h3 : calcSheets fl st1 ss1 with
      | error f => rw [h3] at hc; cases hc
      | ok r =>
        obtain ⟨st2, ss2⟩ := r
        rw [h3] at hc
        injection hc with hc
        exact ⟨view, k, config, st1, ss1, st2, ss2, h1, rfl, h3, hc.symm⟩
  · cases hc

/-- The settings in which the view is stored: those of the workbook, and those of the sheets with these names. -/
inductive Spec.ViewSetting (names : List Str) : List Str → Prop where
  | book (k : Config.BKey) : ViewSetting names ["ooo:view-settings".toList, "Views".toList, "0".toList, k.name]
  | sheet (n : Str) (h : n ∈ names) (k : Config.SKey) :
    ViewSetting names ["ooo:view-settings".toList, "Views".toList, "0".toList, "Tables".toList, n, k.name]
  | script (n : Str) (h : n ∈ names) :
    ViewSetting names ["ooo:configuration-settings".toList, "ScriptConfiguration".toList, n, "CodeName".toList]

/-- The other settings have their values, but for empty texts, which have none. -/
def Spec.SettingsBack (names : List Str) (s : Source) (t : Target) : Prop :=
  ∀ q : List Str, (∀ p, ViewSetting names p → ¬ p <+: q) →
    Config.getValueRec q (.node .set t.config) = (Config.getValueRec q (.node .set s.config)).filter (fun v => !v.isEmpty)

include hd in
/-- What is written, and what is read from it. -/
theorem cycle_core (hc : d.calculations fl = some d2) :
    Good fl lb d2.source
    ∧ (∃ config, d2.rest = { d.rest with config := config, styles := { d.rest.styles with styles := d2.rest.styles.styles } })
    ∧ (∀ k n, k ≠ .row → k ≠ .col → d2.rest.styles.styles.get? k n = d.rest.styles.styles.get? k n)
    ∧ ∀ (ie : Bool) (defStyle : ValueType → Option String) (t : Target),
      TableXml.Rounds (TableXml.absOpts id defStyle ⟨ie, false⟩) d2.source.sheets t.body.sheets →
      SameSheets ie defStyle d2.source.sheets t.body.sheets → t.config = Config.dropAll d2.rest.config →
      (∀ k n s, d2.rest.styles.styles.get? k n = some s → s.body.use ≠ .default →
        (s.body.origin = .styles ∨ s.body.use = .automatic) →
        ∃ u, t.styles.styles.get? k n = some u ∧ u.body.main = s.body.main) →
      ∃ l, derive fl t = .ok l ∧ l.file = t
        ∧ l.view = bookView d.view (hist.map fun q => lastWish wishName q.1 q.2) ∧ l.sheets.length = hist.length
        ∧ (∀ (i : Nat) n cs, hist[i]? = some (n, cs) → ∃ s, l.sheets[i]? = some s ∧ SheetLoaded ie defStyle n cs s)
        ∧ SettingsBack (hist.map fun q => lastWish wishName q.1 q.2) d.rest t := by
  obtain ⟨view, k, config, st1, ss1, st2, ss2, h1, h2, h3, rfl⟩ := prepared hc
  obtain ⟨hlen, hget⟩ := made_get hd.made
  have hnames := cyclic_names hd
  obtain ⟨hdist, hrange, hnonempty⟩ := cyclic_view hd
  obtain ⟨m1, hm1, hgood, hfix, hbook, hsheet, hpaths⟩ := Config.view_back fl d.view view _ hdist hrange hnonempty
    d.rest.config hd.parts.config _ h1
  injection hm1 with hk hm1
  subst hk hm1
  have hwf := made_widths hd.made hd.sizes
  have hhf := made_heights hd.made hd.sizes
  obtain ⟨hl2, hother, hnew⟩ := calc_styles fl d.rest.styles.styles st1 st2 _ ss1 ss2 hwf hhf h2 h3
  rw [List.length_map] at hl2
  have hbody : ∀ (i : Nat) q, hist[i]? = some q → ∃ s s2 ns nc, d.sheets[i]? = some s ∧ (Sheet.new q.1).run q.2 = some s
      ∧ ss2[i]? = some s2 ∧ NewStyles (fun n => st1.get? .col n ≠ none) s.body s2 ns nc := by
    intro i q hq
    obtain ⟨s, a, b⟩ := hget i q hq
    obtain ⟨s2, ns, nc, c1, c2⟩ := hnew i s.body (by rw [List.getElem?_map, a]; rfl)
    exact ⟨s, s2, ns, nc, a, b, c1, c2⟩
  have hsrc : ∀ (i : Nat) s s2, d.sheets[i]? = some s → ss2[i]? = some s2 →
      ((List.zipWith (fun s b => ({ s with body := b } : Sheet)) d.sheets ss2).map fun s => (s.head, s.body))[i]? = some (s.head, s2) := by
    intro i s s2 a b
    rw [List.getElem?_map, List.getElem?_zipWith, a, b]
    rfl
  have hcount : d.rest.styles.count + ((d.sheets.map (·.body)).map fun s => s.rowHeader.length).sum
      + ((d.sheets.map (·.body)).map fun s => s.colHeader.length).sum < 4294967296 := by
    have := headers_sum hist d.sheets hd.made
    have := hd.count
    omega
  obtain ⟨hbok, hbcount⟩ := sizes_ok fl d.rest.styles hd.parts.styles _ ss1 ss2 st1 st2 h2 h3 hcount
  have hg : Good fl lb (Doc.source { rest := { d.rest with config := config, styles := { d.rest.styles with styles := st2 } }
                                     view := view
                                     sheets := List.zipWith (fun s b => { s with body := b }) d.sheets ss2 }) := by
    refine ⟨⟨hd.parts.ns, hd.parts.metadata, hgood, hd.parts.scripts, hbok, hbcount, hd.parts.masters,
      hd.parts.masterNames, hd.parts.masterOnce, hd.parts.masterKeeps, hd.parts.body⟩, ?_, ?_⟩
    · intro q hq
      obtain ⟨i, hi⟩ := List.getElem?_of_mem hq
      have hil := (List.getElem?_eq_some_iff.1 hi).1
      unfold Doc.source at hil
      simp only [List.length_map, List.length_zipWith] at hil
      have hh : i < hist.length := by omega
      obtain ⟨s, s2, ns, nc, a, b, c, e⟩ := hbody i hist[i] (List.getElem?_eq_getElem hh)
      have hi2 := hsrc i s s2 a c
      have : some q = some (s.head, s2) := hi.symm.trans hi2
      injection this with this
      subst this
      obtain ⟨x1, x2, x3⟩ := saveable_sheet b (hd.saveable _ (List.getElem_mem hh))
      exact ⟨x1, e.ok x2, e.fits x3⟩
    · intro h0
      have := congrArg List.length h0
      unfold Doc.source at this
      simp only [List.length_map, List.length_zipWith, List.length_nil] at this
      have := List.length_pos_iff.2 hd.some
      omega
  refine ⟨hg, ⟨config, rfl⟩, hother, ?_⟩
  intro ie defStyle t hrounds hsame hconf hfound
  have hcore := sizes_core fl d.rest.styles.styles st1 st2 t.styles.styles _ ss1 ss2
    (fun h hh => by
      obtain ⟨q, hq, c, _, e2⟩ := made_cols hd.made h hh
      rw [e2]
      exact hd.sizes.widths q hq c)
    (fun h hh => by
      obtain ⟨q, hq, o, ho, _, e2⟩ := made_rows hd.made hd.sizes h hh
      rw [e2]
      exact hd.sizes.heights q hq o ho) hwf hhf h2 h3 hfound
  obtain ⟨htl, hsame⟩ := same_get hsame
  have hrounds := rounds_get hrounds
  have htl : t.body.sheets.length = hist.length := by
    rw [htl]
    unfold Doc.source
    simp only [List.length_map, List.length_zipWith]
    omega
  -- each sheet
  have hone : ∀ (i : Nat) n cs, hist[i]? = some (n, cs) → ∃ h b s, t.body.sheets[i]? = some (h, b)
      ∧ deriveOne fl t h b = .ok s ∧ SheetLoaded ie defStyle n cs s := by
    intro i n cs hi
    obtain ⟨s, s2, ns, nc, a1, a2, a3, a4⟩ := hbody i (n, cs) hi
    have hmem := List.mem_of_getElem? hi
    have hs := hd.saveable _ hmem
    have hsafe := hd.sizes.safe _ hmem
    dsimp only at a2 hs hsafe
    obtain ⟨x1, x2, x3⟩ := saveable_sheet a2 hs
    obtain ⟨s', b1, b2⟩ := hsame i _ (hsrc i s s2 a1 a3)
    obtain ⟨s'', evs, c1, c2, c3⟩ := hrounds i _ (hsrc i s s2 a1 a3)
    rw [b1] at c1
    simp only [Option.some.injEq, Prod.mk.injEq, true_and] at c1
    subst c1
    dsimp only at b2 c2
    have hfits := made_rowsFit a2 hs
    obtain ⟨k1, k2⟩ := hcore i s.body s2 (by rw [List.getElem?_map, a1]; rfl) a3 x2.cells x3.cols.wf _ evs s' c2 c3
    obtain ⟨cols, k3, k4⟩ := k1 x3.cols.nogap x3.hole
    obtain ⟨rows, k5, k6, _⟩ := k2 rfl hfits
    have f2 := a4.fits x3
    have hwf' := (Width.read_columns s2 s' _ evs (a4.cells x2.cells) f2.cols.wf f2.cols.nogap f2.hole c2 c3).1
    have hcols := derived_cols fl t.styles.styles s'.colHeader cols k3 hwf'
    have hrows := derived_rows fl t.styles.styles s'.rowHeader rows k5
    have hview : Config.deriveSheet (.node .set t.config) s.head.name {} = .ok { s.config with pageViewZoomValue := 60 } := by
      rw [hconf]
      exact hsheet (s.head.name, s.config) (List.mem_map.2 ⟨s, List.mem_of_getElem? a1, rfl⟩) {}
    obtain ⟨v1, v2, v3, v4, v5⟩ := C92_view n cs s a2
    have hgrid := grid_read a2 hs (a4.restyled x3.cols.wf) b2
    have hcobs := C92_columns n cs s a2
    have hrobs := C92_rows_partial n cs s a2 hsafe
    refine ⟨s.head, s', ⟨s.head, { s' with colHeader := cols, rowHeader := rows }, { s.config with pageViewZoomValue := 60 }⟩,
      b1, ?_, ?_⟩
    · unfold deriveOne
      rw [k3]
      simp only [k5, hview]
    · refine ⟨⟨hgrid.name, hgrid.style, hgrid.display, hgrid.print, hgrid.ranges, hgrid.headerRows, hgrid.headerCols,
        hgrid.rowGroups, hgrid.colGroups, hgrid.sound, hgrid.complete, hgrid.styled⟩, ?_, ?_, v1, v2, v3, v4, ?_⟩
      · intro r c k hp hk
        obtain ⟨dd, hdd, _⟩ := cell_get a2 hs r c hp
        have hne : s.body.data.isEmpty r c = false := by simp [Cells.isEmpty, OMap.contains, hdd]
        have hne2 : s2.data.isEmpty r c = false := by rw [(a4.restyled x3.cols.wf).data]; exact hne
        have e1 := hcols k
        rw [b2.cols r c k hne2 hk] at e1
        obtain ⟨e2, e3, e4⟩ := a4.colAttrs x3.cols.wf k
        have ew := k4 k (.inl ⟨r, c, hne, hk⟩)
        have o := hcobs k
        have ow : s.body.colHeader.colWidth k = (colAsked cs k).width := congrArg ColObs.width o
        have os : s.body.colHeader.colstyle k = (colAsked cs k).style := congrArg ColObs.style o
        have oc : s.body.colHeader.colCellstyle k = (colAsked cs k).cellstyle := congrArg ColObs.cellstyle o
        have ov : s.body.colHeader.colVisible k = (colAsked cs k).visible := congrArg ColObs.visible o
        rw [← ow, ← os, ← oc, ← ov]
        refine ⟨ew, ?_, ?_, fun hh => ?_⟩
        · rw [← e2]; exact congrArg ColAttr.cellstyle e1
        · rw [← e3]; exact congrArg ColAttr.visible e1
        · rw [← e4 hh]; exact congrArg ColAttr.style e1
      · intro r c hp hnb
        obtain ⟨dd, hdd, hsp, hr⟩ := cell_get a2 hs r c hp
        rw [hsp, blank_iff] at hnb
        obtain ⟨_, hrep, _⟩ := repeats_of a2 hs.rows
        have hcopy : s.body.CopyOf r r := ⟨⟨c, dd, hdd⟩, Nat.le_refl _, by rw [hrep]; omega⟩
        have hdata := (a4.restyled x3.cols.wf).data
        have e1 := hrows r
        rw [b2.rows r r ((a4.copyOf r r).mpr hcopy) ⟨c, dd, by rw [hdata]; exact hdd, by simpa using hnb⟩] at e1
        · obtain ⟨e2, e3, e4⟩ := a4.rowAttrs r
          have eh := k6 r r hcopy ⟨c, dd, TableXml.decode id defStyle dd, hdd, rfl, by
            rw [TableXml.decode_isEmpty]; simpa using hnb⟩
          have o := hrobs r
          have ow : s.body.rowHeader.rowHeight r = (rowAsked cs r).height := congrArg RowObs.height o
          have os : s.body.rowHeader.rowstyle r = (rowAsked cs r).style := congrArg RowObs.style o
          have oc : s.body.rowHeader.rowCellstyle r = (rowAsked cs r).cellstyle := congrArg RowObs.cellstyle o
          have ov : s.body.rowHeader.rowVisible r = (rowAsked cs r).visible := congrArg RowObs.visible o
          rw [← ow, ← os, ← oc, ← ov]
          refine ⟨eh, ?_, ?_, fun hh => ?_⟩
          · rw [← e2]; exact congrArg RowAttrs.cellstyle e1
          · rw [← e3]; exact congrArg RowAttrs.visible e1
          · rw [← e4 hh]; exact congrArg RowAttrs.style e1
      · show _ = freshPageZoom (lastWish wishOtherView (2, 0, 0, 0, 100, 60, true) cs)
        rw [← v5]
        rfl
  obtain ⟨ss, d1, dl, d2⟩ := deriveSheets_ok fl t t.body.sheets (by
    intro p hp
    obtain ⟨i, hi⟩ := List.getElem?_of_mem hp
    have hil := (List.getElem?_eq_some_iff.1 hi).1
    obtain ⟨h, b, s, e1, e2, _⟩ := hone i _ _ (List.getElem?_eq_getElem (show i < hist.length by omega))
    rw [hi] at e1
    injection e1 with e1
    subst e1
    exact ⟨s, e2⟩)
  refine ⟨⟨t, view, ss⟩, ?_, rfl, ?_, by rw [← htl]; exact dl, ?_, ?_⟩
  · unfold derive
    rw [d1, hconf]
    show Except.ok (Loaded.mk t (Config.deriveBook _ _) ss) = _
    rw [hbook]
  · show view = _
    unfold Config.fixActive at hfix
    unfold bookView
    rw [← hnames]
    split at hfix
    · rename_i h0
      rw [if_pos h0]
      split at hfix
      · cases hfix
      · rename_i x _ hx
        injection hfix with hfix
        rw [← hfix, hx]
        rfl
    · rename_i h0
      rw [if_neg h0]
      injection hfix with hfix
      exact hfix.symm
  · intro i n cs hi
    obtain ⟨h, b, s, e1, e2, e3⟩ := hone i n cs hi
    obtain ⟨s', e4, e5⟩ := d2 i _ e1
    rw [e2] at e5
    injection e5 with e5
    subst e5
    exact ⟨s, e4, e3⟩
  · intro q hq
    rw [hconf]
    refine hpaths q (fun a ha => ?_)
    rcases Config.mem_assigns _ _ a ha with ⟨k, v, rfl⟩ | ⟨s, hs, k, rfl⟩ | ⟨s, hs, rfl⟩
    · exact hq _ (.book k)
    · refine hq _ (.sheet s.1 ?_ k)
      rw [← hnames]
      exact List.mem_map.2 ⟨s, hs, rfl⟩
    · refine hq _ (.script s.1 ?_)
      rw [← hnames]
      exact List.mem_map.2 ⟨s, hs, rfl⟩

end Core

/-! ## Saving -/

/-- Names are found for the new styles. -/
theorem sizeStep_seen (dm : Dim) (fl : Floats) (b : Stores Body) (E : Book.Kind → List Str) (hs : Book.Seen b E) (N : Nat)
    (hE : ∀ k, (E k).length ≤ N) (hN : N < Book.u32Max1) (st : Option String) (w : Length) :
    ∃ b' st' E', sizeStep dm fl b st w = .ok (b', st') ∧ Book.Seen b' E' ∧ ∀ k, (E' k).length ≤ N + 1 := by
  have hmod : ∀ (b : Stores Body) (E : Book.Kind → List Str) n, Book.Seen b E → Book.Seen (b.modify dm.kind n (toBody dm fl w)) E := by
    intro b E n hs
    refine ⟨?_, hs.2⟩
    intro k' m hm
    unfold Book.Stores.modify at hm
    simp only [Book.get_setStore] at hm
    split at hm
    · rename_i h; subst h; rw [Book.HMap.keys_modify] at hm; exact hs.1 _ m hm
    · exact hs.1 k' m hm
  unfold sizeStep
  dsimp only
  by_cases h : w ≠ .default ∧ st = none
  · rw [if_pos h]
    obtain ⟨b', r, E', h1, h2, h3⟩ := Book.step_seen b E hs (.add dm.kind ⟨[], {}⟩) N hE hN
    unfold Book.Stores.step at h1
    simp only at h1
    cases ha : b.add dm.kind ⟨[], {}⟩ with
    | error e => rw [ha] at h1; cases h1
    | ok x =>
      obtain ⟨b1, n⟩ := x
      rw [ha] at h1
      simp only [Except.ok.injEq, Prod.mk.injEq] at h1
      obtain ⟨rfl, _⟩ := h1
      exact ⟨_, _, E', rfl, hmod _ _ _ h2, h3⟩
  · rw [if_neg h]
    cases st with
    | none => exact ⟨b, none, E, rfl, hs, fun k => by have := hE k; omega⟩
    | some n => exact ⟨_, some n, E, rfl, hmod _ _ _ hs, fun k => by have := hE k; omega⟩

theorem calcCols_seen (fl : Floats) (m : ColHeaders) : ∀ (b : Stores Body) (E : Book.Kind → List Str) (N : Nat),
    Book.Seen b E → (∀ k, (E k).length ≤ N) → N + m.length ≤ Book.u32Max1 →
    ∃ b' m' E', calcCols fl b m = .ok (b', m') ∧ Book.Seen b' E' ∧ (∀ k, (E' k).length ≤ N + m.length) := by
  induction m with
  | nil => intro b E N hs hE _; exact ⟨b, [], E, rfl, hs, hE⟩
  | cons p m ih =>
    obtain ⟨c, h⟩ := p
    intro b E N hs hE hN
    simp only [List.length_cons] at hN
    obtain ⟨b1, st, E1, h1, h2, h3⟩ := sizeStep_seen colDim fl b E hs N hE (by omega) h.style h.width
    obtain ⟨b2, m2, E2, h4, h5, h6⟩ := ih b1 E1 (N + 1) h2 h3 (by omega)
    refine ⟨b2, _, E2, by rw [calcCols, h1]; simp only [h4]; rfl, h5, fun k => ?_⟩
    have := h6 k
    simp only [List.length_cons]
    omega

theorem calcRows_seen (fl : Floats) (m : RowHeaders) : ∀ (b : Stores Body) (E : Book.Kind → List Str) (N : Nat),
    Book.Seen b E → (∀ k, (E k).length ≤ N) → N + m.length ≤ Book.u32Max1 →
    ∃ b' m' E', calcRows fl b m = .ok (b', m') ∧ Book.Seen b' E' ∧ (∀ k, (E' k).length ≤ N + m.length) := by
  induction m with
  | nil => intro b E N hs hE _; exact ⟨b, [], E, rfl, hs, hE⟩
  | cons p m ih =>
    obtain ⟨c, h⟩ := p
    intro b E N hs hE hN
    simp only [List.length_cons] at hN
    obtain ⟨b1, st, E1, h1, h2, h3⟩ := sizeStep_seen rowDim fl b E hs N hE (by omega) h.style h.height
    obtain ⟨b2, m2, E2, h4, h5, h6⟩ := ih b1 E1 (N + 1) h2 h3 (by omega)
    refine ⟨b2, _, E2, by rw [calcRows, h1]; simp only [h4]; rfl, h5, fun k => ?_⟩
    have := h6 k
    simp only [List.length_cons]
    omega

theorem calcSheets_seen (fl : Floats) (ss : List TSheet) : ∀ (b : Stores Body) (E : Book.Kind → List Str) (N : Nat),
    Book.Seen b E → (∀ k, (E k).length ≤ N) → N + (ss.map fun s => s.colHeader.length).sum ≤ Book.u32Max1 →
    ∃ b' ss', calcSheets fl b ss = .ok (b', ss') := by
  induction ss with
  | nil => intro b E N hs hE _; exact ⟨b, [], rfl⟩
  | cons s ss ih =>
    intro b E N hs hE hN
    simp only [List.map_cons, List.sum_cons] at hN
    obtain ⟨b1, m, E1, h1, h2, h3⟩ := calcCols_seen fl s.colHeader b E N hs hE (by omega)
    obtain ⟨b2, ss2, h4⟩ := ih b1 E1 _ h2 h3 (by omega)
    exact ⟨b2, _, by rw [calcSheets, h1]; simp only [h4]; rfl⟩

theorem calcRowSheets_seen (fl : Floats) (ss : List TSheet) : ∀ (b : Stores Body) (E : Book.Kind → List Str) (N : Nat),
    Book.Seen b E → (∀ k, (E k).length ≤ N) → N + (ss.map fun s => s.rowHeader.length).sum ≤ Book.u32Max1 →
    ∃ b' ss' E', calcRowSheets fl b ss = .ok (b', ss') ∧ Book.Seen b' E'
      ∧ (∀ k, (E' k).length ≤ N + (ss.map fun s => s.rowHeader.length).sum)
      ∧ (ss'.map fun s => s.colHeader.length) = ss.map fun s => s.colHeader.length := by
  induction ss with
  | nil => intro b E N hs hE _; exact ⟨b, [], E, rfl, hs, hE, rfl⟩
  | cons s ss ih =>
    intro b E N hs hE hN
    simp only [List.map_cons, List.sum_cons] at hN
    obtain ⟨b1, m, E1, h1, h2, h3⟩ := calcRows_seen fl s.rowHeader b E N hs hE (by omega)
    obtain ⟨b2, ss2, E2, h4, h5, h6, h7⟩ := ih b1 E1 _ h2 h3 (by omega)
    refine ⟨b2, _, E2, by rw [calcRowSheets, h1]; simp only [h4]; rfl, h5, fun k => ?_, by simp [h7]⟩
    have := h6 k
    simp only [List.map_cons, List.sum_cons]
    omega

/-- The calculations do not fail. -/
theorem calculations_ok {fl : Floats} {lb : Bool} {hist : List (Str × List Sheets.Call)} {d : Doc} (hd : Cyclic fl lb hist d)
    (os : List (Book.StoreOp Body)) (rs : List (Option Str)) (hstyles : ({} : Stores Body).run os = .ok (d.rest.styles.styles, rs))
    (hcount : os.length + 4 * (hist.map fun q => (rowCalls [] q.2).length + (colCalls [] q.2).length).sum ≤ 4294967296)
    (hconf : ∀ q ∈ hist, Config.PathFits Config.viewPath (.node .set d.rest.config)
      ∧ Config.PathFits (Config.sheetPath (lastWish wishName q.1 q.2)) (.node .set d.rest.config)
      ∧ Config.PathFits (Config.scriptPath (lastWish wishName q.1 q.2)) (.node .set d.rest.config)) :
    ∃ d2, d.calculations fl = some d2 := by
  have hnames := cyclic_names hd
  obtain ⟨b, rs', E, h1, h2, h3⟩ := Book.run_seen os {} (fun _ => []) 0 (Book.new_seen (β := Body)) (fun _ => Nat.le_refl _)
    (by unfold Book.u32Max1; omega)
  rw [hstyles] at h1
  simp only [Except.ok.injEq, Prod.mk.injEq] at h1
  obtain ⟨rfl, rfl⟩ := h1
  have hsum := headers_sum hist d.sheets hd.made
  obtain ⟨st1, ss1, E1, a1, a2, a3, a4⟩ := calcRowSheets_seen fl (d.sheets.map (·.body)) d.rest.styles.styles E _ h2 h3
    (by unfold Book.u32Max1; omega)
  obtain ⟨st2, ss2, c1⟩ := calcSheets_seen fl ss1 st1 E1 _ a2 a3 (by rw [a4]; unfold Book.u32Max1; omega)
  have hne : (d.sheets.map fun s => (s.head.name, s.config)) ≠ [] := by
    intro h0
    have := (made_get hd.made).1
    rw [List.map_eq_nil_iff.mp h0] at this
    exact hd.some (List.length_eq_zero_iff.mp this.symm)
  have hc := Config.C47_no_panic d.view (d.sheets.map fun s => (s.head.name, s.config)) hne (.node .set d.rest.config) (by
    intro s hs
    have : s.1 ∈ (d.sheets.map fun s => (s.head.name, s.config)).map (·.1) := List.mem_map.2 ⟨s, hs, rfl⟩
    rw [hnames] at this
    obtain ⟨q, hq, e⟩ := List.mem_map.1 this
    rw [← e]
    exact hconf q hq)
  unfold Doc.calculations
  cases hcc : Config.calcConfig d.view (d.sheets.map fun s => (s.head.name, s.config)) (.node .set d.rest.config) with
  | none => rw [hcc] at hc; cases hc
  | some x =>
    obtain ⟨v, t⟩ := x
    obtain ⟨hdist, hrange, hnonempty⟩ := cyclic_view hd
    obtain ⟨m1, rfl, _⟩ := Config.view_back fl d.view v _ hdist hrange hnonempty d.rest.config hd.parts.config
      _ hcc
    simp only [a1, c1]
    exact ⟨_, rfl⟩

/-! ## C94 -/

/-- The parts of the workbook besides the sheets, the settings and the styles, as in C78. -/
structure Spec.OthersBack (s : Source) (t : Target) : Prop where
  version : t.ns.version = s.ns.version
  metadata : SameMeta s.metadata t.metadata
  pages : ∀ n, t.styles.pages.get? .page n = s.styles.pages.get? .page n
  masters : ∀ q ∈ s.masters, ∃ b, t.masters.get? .masterPage q.name = some ⟨q.name, b⟩ ∧ Master.MasterSame q.body b
  noMasters : ∀ n, n ∉ s.masters.map (·.name) → t.masters.get? .masterPage n = none
  extra : t.body.extra = (s.extra.filter fun t => decide (TableXml.nodeName t ∈ TableXml.bookPrelude))
    ++ (s.extra.filter fun t => decide (TableXml.nodeName t ∈ TableXml.bookEpilogue))
  validations : ∀ v ∈ s.validations, ∃ w, t.body.valid.get? .validation v.name = some w ∧ w.name = v.name
    ∧ w.body.rule = v.body.rule

/-- The styles of a package besides those of columns and rows, which get the widths and heights; the formats and the
fonts. -/
structure Spec.OtherStyles (b b' : Style.SBook) : Prop where
  styles : ∀ k n s, k ≠ .row → k ≠ .col → b.styles.get? k n = some s → s.body.use ≠ .default →
    (s.body.origin = .styles ∨ s.body.use = .automatic) → ∃ t, b'.styles.get? k n = some t ∧ Style.Spec.SameStyle s t
  noStyles : ∀ k n t, k ≠ .row → k ≠ .col → b'.styles.get? k n = some t → t.body.use ≠ .default →
    ∃ s, b.styles.get? k n = some s ∧ Style.Spec.SameStyle s t
  formats : ∀ k n s, b.formats.get? k n = some s → (s.body.origin = .styles ∨ s.body.use = .automatic) →
    ∃ t, b'.formats.get? k n = some t ∧ Style.Spec.SameFormat s t
  noFormats : ∀ k n t, b'.formats.get? k n = some t → ∃ s, b.formats.get? k n = some s ∧ Style.Spec.SameFormat s t
  fonts : ∀ n f, b.fonts.get? n = some f → ∃ g, b'.fonts.get? n = some g ∧ g.name = f.name ∧ g.attr = f.attr
  noFonts : ∀ n, b.fonts.get? n = none → b'.fonts.get? n = none

/-- The same for a flat file: the origins are lost, and the fonts with another origin than `Content`. -/
structure Spec.OtherFlatStyles (b b' : Style.SBook) : Prop where
  styles : ∀ k n s, k ≠ .row → k ≠ .col → b.styles.get? k n = some s → s.body.use ≠ .default →
    ∃ t, b'.styles.get? k n = some t ∧ Style.Spec.SameStyle (Style.Spec.moved s) t
  noStyles : ∀ k n t, k ≠ .row → k ≠ .col → b'.styles.get? k n = some t → t.body.use ≠ .default →
    ∃ s, b.styles.get? k n = some s ∧ Style.Spec.SameStyle (Style.Spec.moved s) t
  formats : ∀ k n s, b.formats.get? k n = some s →
    ∃ t, b'.formats.get? k n = some t ∧ Style.Spec.SameFormat (Style.Spec.movedF s) t
  noFormats : ∀ k n t, b'.formats.get? k n = some t →
    ∃ s, b.formats.get? k n = some s ∧ Style.Spec.SameFormat (Style.Spec.movedF s) t
  fonts : ∀ n, b'.fonts.get? n = (b.fonts.get? n).filter (·.origin = .content)

variable {e : Env}

theorem others_back {ie : Bool} {defStyle : ValueType → Option String} {d2 : Doc} {s : Source} {t : Target}
    {config : List (Str × Config.CItem)}
    (hrest : d2.rest = { s with config := config, styles := { s.styles with styles := d2.rest.styles.styles } })
    (h : Back ie defStyle d2.source t) : OthersBack s t := by
  unfold Doc.source at h
  rw [hrest] at h
  exact ⟨h.version, h.metadata, h.pages, h.masters, h.noMasters, h.extra, h.validations⟩

/-- **C94, packages (partial).** The sheets of a workbook are made by any histories of calls that a file can hold.  If
the workbook is saved as a package, the package can be loaded, and the workbook then has as many sheets, in the same
order, and each setting, group, cell, column and row with content of each sheet, with its width or height, and the view
are what the calls asked for.  The other settings, the other parts and the other styles are what they were.

Missing (`_partial`): the limits in `Cyclic`; the zoom of the page view is not read. -/
theorem C94_package_partial (hm : e.ints.max = Refs.Spec.maxU32) (ho : e.opts.useRepeat = false)
    (defStyle : ValueType → Option String) (hist : List (Str × List Sheets.Call)) (d : Doc) (hd : Cyclic e.fl false hist d)
    (z : Package) (hz : d.save e.fl defStyle = some z) :
    ∃ l, load e z = .ok l ∧ l.view = bookView d.view (hist.map fun q => lastWish wishName q.1 q.2)
      ∧ l.sheets.length = hist.length
      ∧ (∀ (i : Nat) n cs, hist[i]? = some (n, cs) → ∃ s, l.sheets[i]? = some s
          ∧ SheetLoaded e.opts.ignoreEmpty defStyle n cs s)
      ∧ SettingsBack (hist.map fun q => lastWish wishName q.1 q.2) d.rest l.file
      ∧ OthersBack d.rest l.file ∧ OtherStyles d.rest.styles l.file.styles := by
  unfold Doc.save at hz
  cases hc : d.calculations e.fl with
  | none => rw [hc] at hz; cases hz
  | some d2 =>
    rw [hc] at hz
    simp only at hz
    obtain ⟨hg, ⟨config, hrest⟩, hother, hload⟩ := cycle_core hd hc
    obtain ⟨z', t, h1, h2, h3, _, h4, h5, _⟩ := package_exact hm ho defStyle d2.source hg
    cases hz.symm.trans h1
    have hopts : e.opts = ⟨e.opts.ignoreEmpty, false⟩ := by
      cases ho' : e.opts with
      | mk a b => rw [ho'] at ho; simp only at ho; rw [ho]
    rw [hopts] at h3
    obtain ⟨l, l1, l2, l3, l4, l5, l6⟩ := hload e.opts.ignoreEmpty defStyle t h3 h4.sheets h4.config (by
      intro k n s hs hu ho
      obtain ⟨u, u1, u2⟩ := h5.styles k n s hs hu ho
      exact ⟨u, u1, u2.main⟩)
    have hst : d2.source.styles = { d.rest.styles with styles := d2.rest.styles.styles } := by
      show d2.rest.styles = _
      rw [hrest]
    refine ⟨l, by unfold load; rw [h2]; exact l1, l3, l4, l5, by rw [l2]; exact l6, ?_, ?_⟩
    · rw [l2]; exact others_back hrest h4
    · rw [l2]
      rw [hst] at h5
      refine ⟨?_, ?_, h5.formats, h5.noFormats, h5.fonts, h5.noFonts⟩
      · intro k n s hk1 hk2 hs
        exact h5.styles k n s (by rw [← hs]; exact hother k n hk1 hk2)
      · intro k n t hk1 hk2 ht hu
        obtain ⟨s, s1, s2⟩ := h5.noStyles k n t ht hu
        exact ⟨s, by rw [← s1]; exact (hother k n hk1 hk2).symm, s2⟩

/-- **C94, flat files (partial).** The same for flat files. -/
theorem C94_flat_partial (hm : e.ints.max = Refs.Spec.maxU32) (ho : e.opts.useRepeat = false)
    (defStyle : ValueType → Option String) (hist : List (Str × List Sheets.Call)) (d : Doc) (hd : Cyclic e.fl true hist d)
    (z : Str) (hz : d.saveFlat e.fl defStyle = some z) :
    ∃ l, loadFlat e z = .ok l ∧ l.view = bookView d.view (hist.map fun q => lastWish wishName q.1 q.2)
      ∧ l.sheets.length = hist.length
      ∧ (∀ (i : Nat) n cs, hist[i]? = some (n, cs) → ∃ s, l.sheets[i]? = some s
          ∧ SheetLoaded e.opts.ignoreEmpty defStyle n cs s)
      ∧ SettingsBack (hist.map fun q => lastWish wishName q.1 q.2) d.rest l.file
      ∧ OthersBack d.rest l.file ∧ OtherFlatStyles d.rest.styles l.file.styles := by
  unfold Doc.saveFlat at hz
  cases hc : d.calculations e.fl with
  | none => rw [hc] at hz; cases hz
  | some d2 =>
    rw [hc] at hz
    simp only at hz
    obtain ⟨hg, ⟨config, hrest⟩, hother, hload⟩ := cycle_core hd hc
    obtain ⟨z', t, h1, h2, h3, _, h4, h5⟩ := flat_exact hm ho defStyle d2.source hg
    cases hz.symm.trans h1
    have hopts : e.opts = ⟨e.opts.ignoreEmpty, false⟩ := by
      cases ho' : e.opts with
      | mk a b => rw [ho'] at ho; simp only at ho; rw [ho]
    rw [hopts] at h3
    obtain ⟨l, l1, l2, l3, l4, l5, l6⟩ := hload e.opts.ignoreEmpty defStyle t h3 h4.sheets h4.config (by
      intro k n s hs hu ho
      obtain ⟨u, u1, u2⟩ := h5.styles k n s hs hu
      exact ⟨u, u1, u2.main⟩)
    have hst : d2.source.styles = { d.rest.styles with styles := d2.rest.styles.styles } := by
      show d2.rest.styles = _
      rw [hrest]
    refine ⟨l, by unfold loadFlat; rw [h2]; exact l1, l3, l4, l5, by rw [l2]; exact l6, ?_, ?_⟩
    · rw [l2]; exact others_back hrest h4
    · rw [l2]
      rw [hst] at h5
      refine ⟨?_, ?_, h5.formats, h5.noFormats, h5.fonts⟩
      · intro k n s hk1 hk2 hs
        exact h5.styles k n s (by rw [← hs]; exact hother k n hk1 hk2)
      · intro k n t hk1 hk2 ht hu
        obtain ⟨s, s1, s2⟩ := h5.noStyles k n t ht hu
        exact ⟨s, by rw [← s1]; exact (hother k n hk1 hk2).symm, s2⟩

/-- **C94, saving.** Such a workbook can be saved, if its styles were added by calls, fewer than there are names, and its
configuration has no value where the view settings go (C47). -/
theorem C94_saves (hm : e.ints.max = Refs.Spec.maxU32) (ho : e.opts.useRepeat = false)
    (defStyle : ValueType → Option String) (hist : List (Str × List Sheets.Call)) (d : Doc)
    (os : List (Book.StoreOp Body)) (rs : List (Option Str)) (hstyles : ({} : Stores Body).run os = .ok (d.rest.styles.styles, rs))
    (hcount : os.length + 4 * (hist.map fun q => (rowCalls [] q.2).length + (colCalls [] q.2).length).sum ≤ 4294967296)
    (hconf : ∀ q ∈ hist, Config.PathFits Config.viewPath (.node .set d.rest.config)
      ∧ Config.PathFits (Config.sheetPath (lastWish wishName q.1 q.2)) (.node .set d.rest.config)
      ∧ Config.PathFits (Config.scriptPath (lastWish wishName q.1 q.2)) (.node .set d.rest.config)) :
    (Cyclic e.fl false hist d → ∃ z, d.save e.fl defStyle = some z)
    ∧ (Cyclic e.fl true hist d → ∃ z, d.saveFlat e.fl defStyle = some z) := by
  constructor
  · intro hd
    obtain ⟨d2, hc⟩ := calculations_ok hd os rs hstyles hcount hconf
    obtain ⟨hg, _⟩ := cycle_core hd hc
    obtain ⟨z, _, h1, _⟩ := package_exact hm ho defStyle d2.source hg
    exact ⟨z, by unfold Doc.save; rw [hc]; exact h1⟩
  · intro hd
    obtain ⟨d2, hc⟩ := calculations_ok hd os rs hstyles hcount hconf
    obtain ⟨hg, _⟩ := cycle_core hd hc
    obtain ⟨z, _, h1, _⟩ := flat_exact hm ho defStyle d2.source hg
    exact ⟨z, by unfold Doc.saveFlat; rw [hc]; exact h1⟩

end Verif.Whole
