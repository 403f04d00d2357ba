import Verif.TableXml.OtherAttrs
import Verif.Grid.Other

/-!
# C105: tables of other programs as XML

A table element of any file, with rows, columns, groups and cells in any nesting, and with anything else
between them: what is read is the sheet that the file describes.
-/

set_option autoImplicit false

namespace Verif.TableXml

open Xml Xml.Spec Verif.Codec

/-! ## Specification -/

/-- The kinds of elements in a table. -/
inductive Kind where
  | extra
  | cell (covered : Bool)
  | column
  | colGroup
  | headerCols
  | rowGroup
  | headerRows
  | row
  | other
  deriving DecidableEq

/-- The kind of the element with a name. -/
def kindOf (n : Str) : Kind :=
  if n ∈ preludeNames ∨ n ∈ epilogueNames then .extra
  else if n = cellTag false then .cell false
  else if n = cellTag true then .cell true
  else if n = tColumn then .column
  else if n = tColGroup then .colGroup
  else if n = tHeaderCols then .headerCols
  else if n = tRowGroup then .rowGroup
  else if n = tHeaderRows then .headerRows
  else if n = tRow then .row
  else .other

/-- A cell element. -/
def cellEv (fl : Floats) (covered : Bool) (as : List (Str × Str)) (c : List El) : TEv :=
  .cell covered ((attrText as "table:number-columns-repeated").bind parseU32)
    ((cellSaid fl as c).map CellContent.toData)

mutual

/-- What an element of a table means.  Elements with unknown names, like `table:table-rows`, stand for what is
in them. -/
def El.tags (fl : Floats) : El → List TEv
  | .text _ => []
  | .ref _ => []
  | .void n as =>
    match kindOf n with
    | .cell b => [cellEv fl b as []]
    | .column => [.column (colSaid as)]
    | _ => []
  | .elem n as c =>
    match kindOf n with
    | .extra => []
    | .cell b => [cellEv fl b as c]
    | .column => tagsIn fl c
    | .colGroup => .colGroupStart (groupSaid as) :: (tagsIn fl c ++ [.colGroupEnd])
    | .headerCols => .colHeaderStart :: (tagsIn fl c ++ [.colHeaderEnd])
    | .rowGroup => .groupStart (groupSaid as) :: (tagsIn fl c ++ [.groupEnd])
    | .headerRows => .headerStart :: (tagsIn fl c ++ [.headerEnd])
    | .row => .rowStart (rowSaid as) :: (tagsIn fl c ++ [.rowEnd])
    | .other => tagsIn fl c

/-- Several. -/
def tagsIn (fl : Floats) : List El → List TEv
  | [] => []
  | e :: c => El.tags fl e ++ tagsIn fl c

end

mutual

/-- The elements that are kept as they are. -/
def El.kept : El → List Node
  | .text _ => []
  | .ref _ => []
  | .void n as =>
    match kindOf n with
    | .extra => [(El.void n as).tree]
    | _ => []
  | .elem n as c =>
    match kindOf n with
    | .extra => [(El.elem n as c).tree]
    | .cell _ => []
    | _ => keptIn c

/-- Several. -/
def keptIn : List El → List Node
  | [] => []
  | e :: c => El.kept e ++ keptIn c

end

mutual

/-- Attributes and cells can be read, and there is no table in the table. -/
def El.TableOk (fl : Floats) : El → Prop
  | .text _ => True
  | .ref _ => True
  | .void n as =>
    match kindOf n with
    | .extra => Escaped as
    | .cell b => CellReadable fl (cellTag b) as []
    | .column => LineReadable "table:number-columns-repeated" as
    | _ => True
  | .elem n as c =>
    n ≠ tTable ∧
    match kindOf n with
    | .extra => Escaped as ∧ CleanIn c ∧ NoStartIn n c
    | .cell b => CellReadable fl (cellTag b) as c
    | .row => LineReadable "table:number-rows-repeated" as ∧ TableOkIn fl c
    | .colGroup => GroupReadable as ∧ TableOkIn fl c
    | .rowGroup => GroupReadable as ∧ TableOkIn fl c
    | _ => TableOkIn fl c

/-- All of several. -/
def TableOkIn (fl : Floats) : List El → Prop
  | [] => True
  | e :: c => El.TableOk fl e ∧ TableOkIn fl c

end

/-! ## Kinds -/

theorem kindOf_spec (n : Str) : match kindOf n with
    | .extra => n ∈ preludeNames ∨ n ∈ epilogueNames
    | .cell b => n = cellTag b
    | .column => n = tColumn
    | .colGroup => n = tColGroup
    | .headerCols => n = tHeaderCols
    | .rowGroup => n = tRowGroup
    | .headerRows => n = tHeaderRows
    | .row => n = tRow
    | .other => ¬ (n ∈ preludeNames ∨ n ∈ epilogueNames) ∧ n ≠ cellTag false ∧ n ≠ cellTag true ∧ n ≠ tColumn
        ∧ n ≠ tColGroup ∧ n ≠ tHeaderCols ∧ n ≠ tRowGroup ∧ n ≠ tHeaderRows ∧ n ≠ tRow := by
  by_cases h0 : n ∈ preludeNames ∨ n ∈ epilogueNames
  · rw [kindOf, if_pos h0]; exact h0
  by_cases h1 : n = cellTag false
  · rw [kindOf, if_neg h0, if_pos h1]; exact h1
  by_cases h2 : n = cellTag true
  · rw [kindOf, if_neg h0, if_neg h1, if_pos h2]; exact h2
  by_cases h3 : n = tColumn
  · rw [kindOf, if_neg h0, if_neg h1, if_neg h2, if_pos h3]; exact h3
  by_cases h4 : n = tColGroup
  · rw [kindOf, if_neg h0, if_neg h1, if_neg h2, if_neg h3, if_pos h4]; exact h4
  by_cases h5 : n = tHeaderCols
  · rw [kindOf, if_neg h0, if_neg h1, if_neg h2, if_neg h3, if_neg h4, if_pos h5]; exact h5
  by_cases h6 : n = tRowGroup
  · rw [kindOf, if_neg h0, if_neg h1, if_neg h2, if_neg h3, if_neg h4, if_neg h5, if_pos h6]; exact h6
  by_cases h7 : n = tHeaderRows
  · rw [kindOf, if_neg h0, if_neg h1, if_neg h2, if_neg h3, if_neg h4, if_neg h5, if_neg h6, if_pos h7]; exact h7
  by_cases h8 : n = tRow
  · rw [kindOf, if_neg h0, if_neg h1, if_neg h2, if_neg h3, if_neg h4, if_neg h5, if_neg h6, if_neg h7, if_pos h8]; exact h8
  rw [kindOf, if_neg h0, if_neg h1, if_neg h2, if_neg h3, if_neg h4, if_neg h5, if_neg h6, if_neg h7, if_neg h8]
  exact ⟨h0, h1, h2, h3, h4, h5, h6, h7, h8⟩

/-! ## The reader follows the tags -/

theorem start_none {n : Str} (as : List (Str × Str)) (h : endTag n = none) : startTag n as = .ok none := by
  unfold endTag at h
  repeat' split at h
  all_goals first | cases h | skip
  unfold startTag
  rename_i h1 h2 h3 h4 h5
  rw [if_neg h1, if_neg h2, if_neg h3, if_neg h4, if_neg h5]

theorem end_tColGroup : endTag tColGroup = some .colGroupEnd := by
  unfold endTag
  rw [if_pos rfl]

theorem end_tHeaderCols : endTag tHeaderCols = some .colHeaderEnd := by
  unfold endTag
  rw [if_neg (by decide +kernel), if_pos rfl]

theorem end_tRowGroup : endTag tRowGroup = some .groupEnd := by
  unfold endTag
  rw [if_neg (by decide +kernel), if_neg (by decide +kernel), if_pos rfl]

theorem end_tHeaderRows : endTag tHeaderRows = some .headerEnd := by
  unfold endTag
  rw [if_neg (by decide +kernel), if_neg (by decide +kernel), if_neg (by decide +kernel), if_pos rfl]

theorem end_tRow : endTag tRow = some .rowEnd := by
  unfold endTag
  rw [if_neg (by decide +kernel), if_neg (by decide +kernel), if_neg (by decide +kernel), if_neg (by decide +kernel), if_pos rfl]

theorem end_tColumn : endTag tColumn = none := by
  unfold endTag
  rw [if_neg (by decide +kernel), if_neg (by decide +kernel), if_neg (by decide +kernel), if_neg (by decide +kernel), if_neg (by decide +kernel)]

theorem start_headerCols {as : List (Str × Str)} : startTag tHeaderCols as = .ok (some .colHeaderStart) := by
  unfold startTag
  rw [if_neg (by decide +kernel), if_pos rfl]

theorem start_headerRows {as : List (Str × Str)} : startTag tHeaderRows as = .ok (some .headerStart) := by
  unfold startTag
  rw [if_neg (by decide +kernel), if_neg (by decide +kernel), if_neg (by decide +kernel), if_pos rfl]

/-- The options of the reader of the tags. -/
def Opts.abs (o : Opts) : ReadOpts := { ignoreEmpty := o.ignoreEmpty, useRepeat := o.useRepeat }

/-- The head with more elements. -/
def Head.add (h : Head) (l : List Node) : Head := { h with extra := h.extra ++ l }

theorem Head.add_nil (h : Head) : h.add [] = h := by simp [Head.add]

theorem Head.add_add (h : Head) (a b : List Node) : (h.add a).add b = h.add (a ++ b) := by
  simp [Head.add, List.append_assoc]

/-- Reading the events has the effect of the tags, and keeps the elements. -/
def Follows (fl : Floats) (o : Opts) (es : List Event) (tags : List TEv) (kept : List Node) : Prop :=
  ∀ h names st r, match readEvents o.abs st tags with
    | some st' => Goes fl o ⟨h, names, st⟩ (es ++ r) ⟨h.add kept, names, st'⟩ r
    | none => Fails fl o ⟨h, names, st⟩ (es ++ r)

theorem Follows.nil (fl : Floats) (o : Opts) : Follows fl o [] [] [] := by
  intro h names st r
  simp only [readEvents, Head.add_nil]
  exact Goes.refl fl o _ _

theorem Follows.append {fl : Floats} {o : Opts} {es us : List Event} {a b : List TEv} {k l : List Node}
    (h1 : Follows fl o es a k) (h2 : Follows fl o us b l) : Follows fl o (es ++ us) (a ++ b) (k ++ l) := by
  intro h names st r
  rw [readEvents_append, List.append_assoc]
  have g1 := h1 h names st (us ++ r)
  cases hr : readEvents o.abs st a with
  | none => rw [hr] at g1; exact g1
  | some st' =>
    rw [hr] at g1
    simp only [Option.bind_some]
    have g2 := h2 (h.add k) names st' r
    cases hr2 : readEvents o.abs st' b with
    | none => rw [hr2] at g2; exact g1.fails g2
    | some st'' =>
      rw [hr2, Head.add_add] at g2
      exact g1.trans g2

theorem Follows.skip (fl : Floats) (o : Opts) (e : Event)
    (h : ∀ x r, xstep fl o x (e :: r) = .ok (false, x, r)) : Follows fl o [e] [] [] := by
  intro hd names st r
  simp only [readEvents, Head.add_nil]
  exact goes_step (h _ r) (by simp)

/-- An element with a start tag and an end tag, and what is between them. -/
theorem Follows.wrap {fl : Floats} {o : Opts} {n : Str} {as : List (Str × Str)} {es : List Event} {tags : List TEv}
    {kept : List Node} (hin : Follows fl o es tags kept) (a b : TEv) (ht : n ≠ tTable)
    (ha : a.opens.isSome = true) (hb : b.closes.isSome = true)
    (h1 : ¬ (n ∈ preludeNames ∨ n ∈ epilogueNames)) (h2 : ¬ (n = cellTag false ∨ n = cellTag true))
    (hs : startTag n as = .ok (some a)) (he : endTag n = some b) :
    Follows fl o (.start n as :: (es ++ [.end n])) (a :: (tags ++ [b])) kept := by
  intro h names st r
  replace ha : ∀ c r d, a ≠ .cell c r d := by intro c r d e; subst e; cases ha
  replace hb : ∀ c r d, b ≠ .cell c r d := by intro c r d e; subst e; cases hb
  have hx : xstep fl o ⟨h, names, st⟩ (.start n as :: (es ++ .end n :: r))
      = stepTag ⟨h, n :: names, st⟩ a (es ++ .end n :: r) := by
    rw [xstep, if_neg h1, if_neg h2, hs]
  rw [readEvents, readStep_opts o.abs st a ha, List.cons_append, List.append_assoc,
    show [Event.end n] ++ r = .end n :: r from rfl]
  unfold stepTag at hx
  simp only at hx
  cases hr1 : readStep {} st a with
  | none => rw [hr1] at hx; exact fails_step hx
  | some st1 =>
    rw [hr1] at hx
    simp only
    have g1 : Goes fl o ⟨h, names, st⟩ (.start n as :: (es ++ .end n :: r)) ⟨h, n :: names, st1⟩ (es ++ .end n :: r) :=
      goes_step hx (by simp)
    rw [readEvents_append]
    have g2 := hin h (n :: names) st1 (.end n :: r)
    cases hr2 : readEvents o.abs st1 tags with
    | none => rw [hr2] at g2; exact g1.fails g2
    | some st2 =>
      rw [hr2] at g2
      simp only [Option.bind_some]
      have hy : xstep fl o ⟨h.add kept, n :: names, st2⟩ (.end n :: r) = stepTag ⟨h.add kept, names, st2⟩ b r := by
        rw [xstep, if_neg (by simp), if_neg ht, he]
        rfl
      unfold stepTag at hy
      simp only at hy
      rw [readEvents, readStep_opts o.abs st2 b hb]
      cases hr3 : readStep {} st2 b with
      | none => rw [hr3] at hy; exact (g1.trans g2).fails (fails_step hy)
      | some st3 =>
        rw [hr3] at hy
        simp only [readEvents]
        exact (g1.trans g2).trans (goes_step hy (by simp))

/-- An element that is passed over, but not what is in it. -/
theorem Follows.through {fl : Floats} {o : Opts} {n : Str} {as : List (Str × Str)} {es : List Event} {tags : List TEv}
    {kept : List Node} (hin : Follows fl o es tags kept) (ht : n ≠ tTable)
    (h1 : ¬ (n ∈ preludeNames ∨ n ∈ epilogueNames)) (h2 : ¬ (n = cellTag false ∨ n = cellTag true))
    (hs : startTag n as = .ok none) (he : endTag n = none) :
    Follows fl o (.start n as :: (es ++ [.end n])) tags kept := by
  intro h names st r
  have hx : xstep fl o ⟨h, names, st⟩ (.start n as :: (es ++ .end n :: r))
      = .ok (false, ⟨h, n :: names, st⟩, es ++ .end n :: r) := by
    rw [xstep, if_neg h1, if_neg h2, hs]
  rw [List.cons_append, List.append_assoc, show [Event.end n] ++ r = .end n :: r from rfl]
  have g1 : Goes fl o ⟨h, names, st⟩ (.start n as :: (es ++ .end n :: r)) ⟨h, n :: names, st⟩ (es ++ .end n :: r) :=
    goes_step hx (by simp)
  have g2 := hin h (n :: names) st (.end n :: r)
  cases hr2 : readEvents o.abs st tags with
  | none => rw [hr2] at g2; exact g1.fails g2
  | some st2 =>
    rw [hr2] at g2
    have hy : xstep fl o ⟨h.add kept, n :: names, st2⟩ (.end n :: r) = .ok (false, ⟨h.add kept, names, st2⟩, r) := by
      rw [xstep, if_neg (by simp), if_neg ht, he]
      rfl
    exact (g1.trans g2).trans (goes_step hy (by simp))

/-- The cell that is stored. -/
def storedCell (o : Opts) (x : CellContent) (n : Nat) (st : RState) : Option CellData :=
  if ignoreContent o.ignoreEmpty (st.sheet.colHeader.colCellstyle st.col) x then none
  else some { x with «repeat» := n }.toData

/-- The state behind a cell. -/
def afterCell (o : Opts) (x : CellContent) (n : Nat) (st : RState) : RState :=
  { st with
    sheet := { st.sheet with data := putCell st.sheet.data (st.row, st.col) (storedCell o x n st) }
    col := st.col + n
    colData := st.colData || (storedCell o x n st).isSome }

/-- A cell. -/
theorem Follows.cell {fl : Floats} {o : Opts} (b : Bool) (as : List (Str × Str)) (c : List El) (es : List Event)
    (x : CellContent) (n : Nat) (hx : cellSaid fl as c = some x)
    (hn : attrCount as "table:number-columns-repeated" = some n)
    (hlen : 0 < es.length)
    (h : ∀ x' r, xstep fl o x' (es ++ r) = .ok (false, { x' with st := afterCell o x n x'.st }, r)) :
    Follows fl o es [cellEv fl b as c] [] := by
  intro hd names st r
  have hcount : ((attrText as "table:number-columns-repeated").bind parseU32).getD 1 = n := by
    unfold attrCount at hn
    split at hn
    · rename_i h0; rw [h0]; exact Option.some.inj hn
    · rename_i v h0; rw [h0, Option.bind_some, hn]; rfl
  have hig : Verif.ignoreCell o.abs (st.sheet.colHeader.colCellstyle st.col) x.toData
      = ignoreContent o.ignoreEmpty (st.sheet.colHeader.colCellstyle st.col) x := by
    have := ignoreCell_content o.ignoreEmpty (st.sheet.colHeader.colCellstyle st.col) x.toData
    rw [toData_toContent] at this
    exact this
  have hread : readCell o.abs st.sheet.colHeader st.sheet.data st.row st.col n (some x.toData)
      = (putCell st.sheet.data (st.row, st.col) (storedCell o x n st), (storedCell o x n st).isSome) := by
    unfold readCell storedCell
    show (if Verif.ignoreCell o.abs (st.sheet.colHeader.colCellstyle st.col) x.toData then _ else _) = _
    rw [hig]
    split
    · rfl
    · rfl
  have hstep : readEvents o.abs st [cellEv fl b as c] = some (afterCell o x n st) := by
    unfold cellEv afterCell
    rw [hx, Option.map_some, readEvents, readStep]
    simp only [hcount, hread, readEvents]
  rw [hstep]
  simp only [Head.add_nil]
  exact goes_step (h ⟨hd, names, st⟩ r) (by rw [List.length_append]; omega)

/-- A foreign element. -/
theorem Follows.keep {fl : Floats} {o : Opts} (es : List Event) (t : Node) (hlen : 0 < es.length)
    (h : ∀ x r, xstep fl o x (es ++ r) =
      .ok (false, { x with head := { x.head with extra := x.head.extra ++ [t] } }, r)) :
    Follows fl o es [] [t] := by
  intro hd names st r
  simp only [readEvents]
  exact goes_step (h ⟨hd, names, st⟩ r) (by rw [List.length_append]; omega)

mutual

/-- An element of a table. -/
theorem El.follows (fl : Floats) (o : Opts) (e : El) (he : El.TableOk fl e) :
    Follows fl o e.events (El.tags fl e) (El.kept e) :=
  match e with
  | .text s => Follows.skip fl o _ (fun _ _ => rfl)
  | .ref s => Follows.skip fl o _ (fun _ _ => rfl)
  | .void n as => by
    have hsp := kindOf_spec n
    rw [El.TableOk] at he
    rw [El.events, El.tags, El.kept]
    cases hk : kindOf n with
    | extra =>
      rw [hk] at hsp he
      try simp only at hsp
      try simp only at he
      try simp only
      refine Follows.keep _ _ (by simp) ?_
      intro x r
      rw [List.cons_append, List.nil_append, xstep, if_pos hsp, stepExtra, readXml_void n as he]
    | cell b =>
      rw [hk] at hsp he
      try simp only at hsp
      try simp only at he
      try simp only
      subst hsp
      obtain ⟨x, k, h1, h2, h3⟩ := C105_cell_void fl (cellTag b) as he
      refine Follows.cell b as [] _ x k h1 h2 (by simp) ?_
      intro x' r
      rw [List.cons_append, List.nil_append, xstep, if_neg (by cases b <;> decide +kernel),
        if_pos (by cases b <;> decide +kernel), stepCell, h3]
      rfl
    | column =>
      rw [hk] at hsp he
      try simp only at hsp
      try simp only at he
      try simp only
      subst hsp
      intro h names st r
      have hx : xstep fl o ⟨h, names, st⟩ (.empty tColumn as :: r) = stepTag ⟨h, names, st⟩ (.column (colSaid as)) r := by
        rw [xstep, if_neg (by decide +kernel), if_neg (by decide +kernel), if_pos rfl, col_read as he]
      rw [List.cons_append, List.nil_append, Head.add_nil]
      exact goes_step hx (by simp)
    | other =>
      rw [hk] at hsp
      try simp only at hsp
      try simp only
      refine Follows.skip fl o _ ?_
      intro x r
      rw [xstep, if_neg hsp.1, if_neg (by rintro (h | h); exact hsp.2.1 h; exact hsp.2.2.1 h), if_neg hsp.2.2.2.1]
    | _ =>
      rw [hk] at hsp
      try simp only at hsp
      try simp only
      subst hsp
      refine Follows.skip fl o _ ?_
      intro x r
      rw [xstep, if_neg (by decide +kernel), if_neg (by decide +kernel), if_neg (by decide +kernel)]
  | .elem n as c => by
    have hsp := kindOf_spec n
    rw [El.TableOk] at he
    obtain ⟨ht, he⟩ := he
    rw [El.events, El.tags, El.kept]
    cases hk : kindOf n with
    | extra =>
      rw [hk] at hsp he
      try simp only at hsp
      try simp only at he
      try simp only
      refine Follows.keep _ _ (by simp) ?_
      intro x r
      rw [List.cons_append, List.append_assoc, show [Event.end n] ++ r = .end n :: r from rfl, xstep, if_pos hsp,
        stepExtra, readXml_elem n as c he.1 he.2.1 he.2.2]
    | cell b =>
      rw [hk] at hsp he
      try simp only at hsp
      try simp only at he
      try simp only
      subst hsp
      obtain ⟨x, k, h1, h2, h3⟩ := C105_cell fl (cellTag b) as c he
      refine Follows.cell b as c _ x k h1 h2 (by simp) ?_
      intro x' r
      rw [List.cons_append, List.append_assoc, show [Event.end (cellTag b)] ++ r = .end (cellTag b) :: r from rfl, xstep,
        if_neg (by cases b <;> decide +kernel), if_pos (by cases b <;> decide +kernel), stepCell, h3]
      rfl
    | column =>
      rw [hk] at hsp he
      try simp only at hsp
      try simp only at he
      try simp only
      subst hsp
      exact (El.followsIn fl o c he).through ht (by decide +kernel) (by decide +kernel) (start_none _ end_tColumn) end_tColumn
    | other =>
      rw [hk] at hsp he
      try simp only at hsp
      try simp only at he
      try simp only
      obtain ⟨g0, g1, g2, g3, g4, g5, g6, g7, g8⟩ := hsp
      refine (El.followsIn fl o c he).through ht g0 (by rintro (h | h); exact g1 h; exact g2 h) ?_ ?_
      · unfold startTag; rw [if_neg g4, if_neg g5, if_neg g6, if_neg g7, if_neg g8]
      · unfold endTag; rw [if_neg g4, if_neg g5, if_neg g6, if_neg g7, if_neg g8]
    | colGroup =>
      rw [hk] at hsp he
      try simp only at hsp
      try simp only at he
      try simp only
      subst hsp
      refine (El.followsIn fl o c he.2).wrap (.colGroupStart (groupSaid as)) (.colGroupEnd) ht rfl rfl (by decide +kernel) (by decide +kernel) ?_ end_tColGroup
      unfold startTag
      rw [if_pos rfl, group_read as he.1]
      rfl
    | rowGroup =>
      rw [hk] at hsp he
      try simp only at hsp
      try simp only at he
      try simp only
      subst hsp
      refine (El.followsIn fl o c he.2).wrap (.groupStart (groupSaid as)) (.groupEnd) ht rfl rfl (by decide +kernel) (by decide +kernel) ?_ end_tRowGroup
      unfold startTag
      rw [if_neg (by decide +kernel), if_neg (by decide +kernel), if_pos rfl, group_read as he.1]
      rfl
    | headerCols =>
      rw [hk] at hsp he
      try simp only at hsp
      try simp only at he
      try simp only
      subst hsp
      exact (El.followsIn fl o c he).wrap (.colHeaderStart) (.colHeaderEnd) ht rfl rfl (by decide +kernel) (by decide +kernel) start_headerCols end_tHeaderCols
    | headerRows =>
      rw [hk] at hsp he
      try simp only at hsp
      try simp only at he
      try simp only
      subst hsp
      exact (El.followsIn fl o c he).wrap (.headerStart) (.headerEnd) ht rfl rfl (by decide +kernel) (by decide +kernel) start_headerRows end_tHeaderRows
    | row =>
      rw [hk] at hsp he
      try simp only at hsp
      try simp only at he
      try simp only
      subst hsp
      refine (El.followsIn fl o c he.2).wrap (.rowStart (rowSaid as)) (.rowEnd) ht rfl rfl (by decide +kernel) (by decide +kernel) ?_ end_tRow
      unfold startTag
      rw [if_neg (by decide +kernel), if_neg (by decide +kernel), if_neg (by decide +kernel), if_neg (by decide +kernel),
        if_pos rfl, row_read as he.1]
      rfl

/-- Several. -/
theorem El.followsIn (fl : Floats) (o : Opts) (c : List El) (hc : TableOkIn fl c) :
    Follows fl o (evsOf c) (tagsIn fl c) (keptIn c) :=
  match c with
  | [] => Follows.nil fl o
  | e :: c => by
    rw [TableOkIn] at hc
    rw [evsOf, tagsIn, keptIn]
    exact (El.follows fl o e hc.1).append (El.followsIn fl o c hc.2)

end

mutual

/-- The tags of an element are balanced. -/
theorem El.balanced (fl : Floats) (e : El) (stack : List TTag) (r : List TEv) :
    checkTags stack (El.tags fl e ++ r) = checkTags stack r :=
  match e with
  | .text s => rfl
  | .ref s => rfl
  | .void n as => by
    rw [El.tags]
    split <;> rfl
  | .elem n as c => by
    rw [El.tags]
    have hin := fun st r => El.balancedIn fl c st r
    split
    all_goals first
      | rfl
      | exact hin stack r
      | (rw [List.cons_append, List.append_assoc, checkTags]
         simp only [TEv.opens]
         rw [hin]
         rfl)

/-- Several. -/
theorem El.balancedIn (fl : Floats) (c : List El) (stack : List TTag) (r : List TEv) :
    checkTags stack (tagsIn fl c ++ r) = checkTags stack r :=
  match c with
  | [] => rfl
  | e :: c => by
    rw [tagsIn, List.append_assoc, El.balanced fl e, El.balancedIn fl c]

end

/-- **C105**: a table of any file is read as the sheet that its tags describe, or refused if they describe
none.  Names, styles, print ranges are those of the start tag, foreign elements are kept in their order. -/
theorem C105_table (fl : Floats) (m : Refs.Ints) (o : Opts) (as : List (Str × Str)) (c : List El)
    (ha : HeadReadable m as) (hc : TableOkIn fl c) (rest : List Event) :
    match readTable o.abs (tagsIn fl c) with
    | some s => readTableXml fl m o ((El.elem tTable as c).events ++ rest)
        = .ok (({ headSaid m as with extra := keptIn c }, s), rest)
    | none => ∃ e, readTableXml fl m o ((El.elem tTable as c).events ++ rest) = .error e := by
  have hb := El.balancedIn fl c [] []
  rw [List.append_nil] at hb
  have hf := El.followsIn fl o c hc (headSaid m as) [] {} (.end tTable :: rest)
  unfold readTable
  rw [hb, checkTags]
  simp only
  have hev : (El.elem tTable as c).events ++ rest = .start tTable as :: (evsOf c ++ .end tTable :: rest) := by
    rw [El.events, List.cons_append, List.append_assoc]
    rfl
  rw [hev]
  unfold readTableXml
  simp only
  rw [head_read m as ha]
  simp only
  cases hr : readEvents o.abs {} (tagsIn fl c) with
  | none =>
    rw [hr] at hf
    obtain ⟨e, he⟩ := hf ((evsOf c ++ .end tTable :: rest).length + 1) (by omega)
    simp only
    exact ⟨e, by rw [he]⟩
  | some st =>
    rw [hr] at hf
    obtain ⟨n, hn, hg⟩ := hf
    simp only
    have hk : (evsOf c ++ .end tTable :: rest).length + 1 = ((evsOf c ++ .end tTable :: rest).length - n) + 1 + n := by
      rw [List.length_cons] at hn; omega
    rw [hk, hg, xloop]
    have hx : xstep fl o ⟨(headSaid m as).add (keptIn c), [], st⟩ (.end tTable :: rest)
        = .ok (true, ⟨(headSaid m as).add (keptIn c), [], st⟩, rest) := by
      rw [xstep, if_neg (by simp), if_pos rfl]
    rw [hx]
    rfl

end Verif.TableXml
