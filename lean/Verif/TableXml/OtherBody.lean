import Verif.TableXml.OtherProps
import Verif.TableXml.Body
import Verif.Valid.Other

/-!
# C107: the body of a document of another program

The sheets, validations and further elements of a body, in whatever order and between whatever else they are.
-/

set_option autoImplicit false

namespace Verif.TableXml

open Xml Xml.Spec Verif.Codec
open Verif.Valid (ListPart rulesIn namedIn storeAll storeAll_append list_loops)

/-! ## Specification -/

/-- What the elements in a body are. -/
inductive BodyKind where
  | validations | table | extra | other

def bodyKind (n : Str) : BodyKind :=
  if n = Valid.tAll then .validations
  else if n = tTable then .table
  else if n ∈ bookPrelude ∨ n ∈ bookEpilogue then .extra
  else .other

mutual

/-- The tables in an element: their attributes and contents. -/
def El.tables : El → List (List (Str × Str) × List El)
  | .elem n as c =>
    match bodyKind n with
    | .table => [(as, c)]
    | .other => tablesIn c
    | _ => []
  | _ => []

/-- In several. -/
def tablesIn : List El → List (List (Str × Str) × List El)
  | [] => []
  | e :: c => El.tables e ++ tablesIn c

end

mutual

/-- The lists of validations in an element: what is in them. -/
def El.lists : El → List El
  | .elem n _ c =>
    match bodyKind n with
    | .validations => c
    | .other => listsIn c
    | _ => []
  | _ => []

/-- In several. -/
def listsIn : List El → List El
  | [] => []
  | e :: c => El.lists e ++ listsIn c

end

mutual

/-- The elements that are kept as trees: named ranges, database ranges, pivot tables and so on. -/
def El.bodyKept : El → List Node
  | .elem n as c =>
    match bodyKind n with
    | .extra => [(El.elem n as c).tree]
    | .other => bodyKeptIn c
    | _ => []
  | .void n as =>
    match bodyKind n with
    | .extra => [(El.void n as).tree]
    | _ => []
  | _ => []

/-- Of several. -/
def bodyKeptIn : List El → List Node
  | [] => []
  | e :: c => El.bodyKept e ++ bodyKeptIn c

end

/-- A table as in C105. -/
def TableGood (fl : Floats) (m : Refs.Ints) (as : List (Str × Str)) (c : List El) : Prop :=
  HeadReadable m as ∧ TableOkIn fl c ∧ ∃ t : FileTable, tagsIn fl c = t.events ∧ t.OK ∧ t.Opened

mutual

/-- What a body may contain. -/
def El.BodyOk (fl : Floats) (m : Refs.Ints) : El → Prop
  | .text _ => True
  | .ref _ => True
  | .void n as =>
    match bodyKind n with
    | .extra => Escaped as
    | _ => True
  | .elem n as c =>
    n ≠ tBody ∧
    match bodyKind n with
    | .validations => ∀ e ∈ c, ListPart m e
    | .table => TableGood fl m as c
    | .extra => Escaped as ∧ CleanIn c ∧ NoStartIn n c
    | .other => BodyOkIn fl m c

/-- All of several. -/
def BodyOkIn (fl : Floats) (m : Refs.Ints) : List El → Prop
  | [] => True
  | e :: c => El.BodyOk fl m e ∧ BodyOkIn fl m c

end

/-- What is read for a table. -/
def tableRead (fl : Floats) (m : Refs.Ints) (o : Opts) (p : List (Str × Str) × List El) : Option (Head × TSheet) :=
  (readTable o.abs (tagsIn fl p.2)).map fun s => ({ headSaid m p.1 with extra := keptIn p.2 }, s)

/-- The sheets. -/
def sheetsOf (fl : Floats) (m : Refs.Ints) (o : Opts) (l : List (List (Str × Str) × List El)) : List (Head × TSheet) :=
  l.filterMap (tableRead fl m o)

/-! ## The loop -/

theorem bodyKind_spec (n : Str) : match bodyKind n with
    | .validations => n = Valid.tAll
    | .table => n = tTable ∧ n ≠ Valid.tAll
    | .extra => n ≠ Valid.tAll ∧ n ≠ tTable ∧ (n ∈ bookPrelude ∨ n ∈ bookEpilogue)
    | .other => n ≠ Valid.tAll ∧ n ≠ tTable ∧ ¬ (n ∈ bookPrelude ∨ n ∈ bookEpilogue) := by
  by_cases h1 : n = Valid.tAll
  · rw [bodyKind, if_pos h1]; exact h1
  by_cases h2 : n = tTable
  · rw [bodyKind, if_neg h1, if_pos h2]; exact ⟨h2, h1⟩
  by_cases h3 : n ∈ bookPrelude ∨ n ∈ bookEpilogue
  · rw [bodyKind, if_neg h1, if_neg h2, if_pos h3]; exact ⟨h1, h2, h3⟩
  · rw [bodyKind, if_neg h1, if_neg h2, if_neg h3]; exact ⟨h1, h2, h3⟩

/-- What the loop adds. -/
def BSt.plus (x : BSt) (kept : List Node) (b : Book.Stores Valid.Body) (tabs : List (Head × TSheet)) : BSt :=
  { x with book := ⟨x.book.extra ++ kept, b, x.book.sheets ++ tabs⟩ }

/-- The loop passes over the events, keeps `kept`, stores `l` and reads the sheets `tabs`. -/
def BPass (fl : Floats) (m : Refs.Ints) (o : Opts) (es : List Event) (kept : List Node) (l : List Valid.Validation)
    (tabs : List (Head × TSheet)) : Prop :=
  ∀ x b, storeAll l x.book.valid = .ok b → ∀ r, BGoes fl m o x (es ++ r) (x.plus kept b tabs) r

theorem BPass.nil (fl : Floats) (m : Refs.Ints) (o : Opts) : BPass fl m o [] [] [] [] := by
  intro x b h r
  cases h
  unfold BSt.plus
  rw [List.append_nil, List.append_nil]
  exact BGoes.refl fl m o x r

theorem BPass.append {fl : Floats} {m : Refs.Ints} {o : Opts} {es us : List Event} {k k' : List Node}
    {l l' : List Valid.Validation} {t t' : List (Head × TSheet)} (h1 : BPass fl m o es k l t)
    (h2 : BPass fl m o us k' l' t') : BPass fl m o (es ++ us) (k ++ k') (l ++ l') (t ++ t') := by
  intro x b h r
  rw [storeAll_append] at h
  cases hs : storeAll l x.book.valid with
  | error e => rw [hs] at h; cases h
  | ok b1 =>
    rw [hs] at h
    rw [List.append_assoc]
    have g2 := h2 (x.plus k b1 t) b h r
    have e : (x.plus k b1 t).plus k' b t' = x.plus (k ++ k') b (t ++ t') := by
      unfold BSt.plus
      simp only [List.append_assoc]
    rw [e] at g2
    exact (h1 x b1 hs _).trans g2

/-- One event that does not matter. -/
theorem BPass.skip {fl : Floats} {m : Refs.Ints} {o : Opts} (ev : Event)
    (h : ∀ x r, bstep fl m o x (ev :: r) = .ok (false, x, r)) : BPass fl m o [ev] [] [] [] := by
  intro x b hs r
  cases hs
  unfold BSt.plus
  rw [List.append_nil, List.append_nil]
  exact bgoes_step (h x r) (by simp)

theorem plus_names (x : BSt) (k : List Node) (b : Book.Stores Valid.Body) (t : List (Head × TSheet)) :
    (x.plus k b t).names = x.names := rfl

/-- An element of another kind around something. -/
theorem BPass.around {fl : Floats} {m : Refs.Ints} {o : Opts} {es : List Event} {k : List Node}
    {l : List Valid.Validation} {t : List (Head × TSheet)} (n : Str) (as : List (Str × Str))
    (hb : n ≠ tBody) (h1 : n ≠ Valid.tAll) (h2 : n ≠ tTable) (h3 : ¬ (n ∈ bookPrelude ∨ n ∈ bookEpilogue))
    (h : BPass fl m o es k l t) : BPass fl m o (.start n as :: (es ++ [.end n])) k l t := by
  intro x b hs r
  rw [List.cons_append, List.append_assoc]
  refine BGoes.trans (bgoes_step (x' := { x with names := n :: x.names }) ?_ (by simp)) (BGoes.trans
    (h { x with names := n :: x.names } b hs ([.end n] ++ r)) (bgoes_step ?_ (by simp)))
  · rw [bstep, if_neg h1, if_neg h2, if_neg h3]
  · show bstep fl m o _ (.end n :: r) = _
    rw [bstep, plus_names]
    rw [if_neg (by simp), if_neg hb]
    rfl

/-- The facts about an element or several: what the loop does. -/
def BGood (fl : Floats) (m : Refs.Ints) (o : Opts) (es : List Event) (kept : List Node) (lists : List El)
    (tabs : List (List (Str × Str) × List El)) : Prop :=
  ∃ l, BPass fl m o es kept l (sheetsOf fl m o tabs)
    ∧ l.filter (fun v => !v.name.isEmpty) = (namedIn m lists).filter (fun v => !v.name.isEmpty)
    ∧ l.length = 2 * (namedIn m lists).length
    ∧ tabs.map (tableRead fl m o) = (sheetsOf fl m o tabs).map some

theorem BGood.append {fl : Floats} {m : Refs.Ints} {o : Opts} {es us : List Event} {k k' : List Node}
    {ls ls' : List El} {t t' : List (List (Str × Str) × List El)} (h1 : BGood fl m o es k ls t)
    (h2 : BGood fl m o us k' ls' t') : BGood fl m o (es ++ us) (k ++ k') (ls ++ ls') (t ++ t') := by
  obtain ⟨l, a1, a2, a3, a4⟩ := h1
  obtain ⟨l', b1, b2, b3, b4⟩ := h2
  have hn : namedIn m (ls ++ ls') = namedIn m ls ++ namedIn m ls' := List.filterMap_append
  have ht : sheetsOf fl m o (t ++ t') = sheetsOf fl m o t ++ sheetsOf fl m o t' := List.filterMap_append
  refine ⟨l ++ l', ?_, ?_, ?_, ?_⟩
  · rw [ht]; exact a1.append b1
  · rw [hn, List.filter_append, List.filter_append, a2, b2]
  · rw [hn, List.length_append, List.length_append, a3, b3]; omega
  · rw [ht, List.map_append, List.map_append, a4, b4]

theorem BGood.skip {fl : Floats} {m : Refs.Ints} {o : Opts} (ev : Event)
    (h : ∀ x r, bstep fl m o x (ev :: r) = .ok (false, x, r)) : BGood fl m o [ev] [] [] [] :=
  ⟨[], BPass.skip ev h, rfl, rfl, rfl⟩

theorem tableRead_some (fl : Floats) (m : Refs.Ints) (o : Opts) (as : List (Str × Str)) (c : List El)
    (h : TableGood fl m as c) : ∃ s, readTable o.abs (tagsIn fl c) = some s := by
  obtain ⟨-, -, t, hev, ht, hop⟩ := h
  have hb := El.balancedIn fl c [] []
  rw [List.append_nil, hev] at hb
  rw [hev]
  exact C105_accepts t ht hop hb o.abs

mutual

theorem El.bgood (fl : Floats) (m : Refs.Ints) (o : Opts) (e : El) (h : El.BodyOk fl m e) :
    BGood fl m o e.events (El.bodyKept e) (El.lists e) (El.tables e) :=
  match e with
  | .text s => BGood.skip _ (fun _ _ => rfl)
  | .ref s => BGood.skip _ (fun _ _ => rfl)
  | .void n as => by
    have hsp := bodyKind_spec n
    rw [El.BodyOk] at h
    rw [El.events, El.bodyKept, show El.lists (.void n as) = [] from by rw [El.lists]; nofun,
      show El.tables (.void n as) = [] from by rw [El.tables]; nofun]
    cases hk : bodyKind n with
    | extra =>
      rw [hk] at hsp h
      simp only at hsp h ⊢
      refine ⟨[], ?_, rfl, rfl, rfl⟩
      intro x b hs r
      cases hs
      refine bgoes_step ?_ (by simp)
      rw [List.cons_append, List.nil_append, bstep, if_pos hsp.2.2, bodyExtra, readXml_void n as h]
      show _ = Except.ok (false, BSt.plus x _ x.book.valid [], r)
      unfold BSt.plus
      rw [List.append_nil]
    | validations =>
      rw [hk] at hsp
      simp only at hsp ⊢
      refine BGood.skip _ (fun x r => ?_)
      rw [bstep, if_neg]
      rw [hsp]
      decide +kernel
    | table =>
      rw [hk] at hsp
      simp only at hsp ⊢
      refine BGood.skip _ (fun x r => ?_)
      rw [bstep, if_neg]
      rw [hsp.1]
      decide +kernel
    | other =>
      rw [hk] at hsp
      simp only at hsp ⊢
      refine BGood.skip _ (fun x r => ?_)
      rw [bstep, if_neg hsp.2.2]
  | .elem n as c => by
    have hsp := bodyKind_spec n
    rw [El.BodyOk] at h
    obtain ⟨hb, h⟩ := h
    rw [El.events, El.bodyKept, El.lists, El.tables]
    cases hk : bodyKind n with
    | extra =>
      rw [hk] at hsp h
      simp only at hsp h ⊢
      refine ⟨[], ?_, rfl, rfl, rfl⟩
      intro x b hs r
      cases hs
      refine bgoes_step ?_ (by simp; omega)
      rw [List.cons_append, List.append_assoc, show [Event.end n] ++ r = .end n :: r from rfl, bstep, if_neg hsp.1,
        if_neg hsp.2.1, if_pos hsp.2.2, bodyExtra, readXml_elem n as c h.1 h.2.1 h.2.2]
      show _ = Except.ok (false, BSt.plus x _ x.book.valid [], r)
      unfold BSt.plus
      rw [List.append_nil]
    | validations =>
      rw [hk] at hsp h
      simp only at hsp h ⊢
      subst hsp
      obtain ⟨l, h1, h2, h3⟩ := list_loops m c h
      refine ⟨l, ?_, h2, h3, rfl⟩
      intro x b hs r
      refine bgoes_step ?_ (by simp; omega)
      rw [List.cons_append, List.append_assoc, show [Event.end Valid.tAll] ++ r = .end Valid.tAll :: r from rfl, bstep,
        if_pos rfl, h1.read, hs]
      show Except.ok _ = Except.ok (false, BSt.plus x [] b [], r)
      unfold BSt.plus
      rw [List.append_nil, List.append_nil]
    | table =>
      rw [hk] at hsp h
      simp only at hsp h ⊢
      obtain ⟨rfl, hv⟩ := hsp
      obtain ⟨s, hs⟩ := tableRead_some fl m o as c h
      have hr : tableRead fl m o (as, c) = some ({ headSaid m as with extra := keptIn c }, s) := by
        unfold tableRead
        rw [hs]
        rfl
      have hsh : sheetsOf fl m o [(as, c)] = [({ headSaid m as with extra := keptIn c }, s)] := by
        unfold sheetsOf
        rw [List.filterMap_cons, hr]
        rfl
      refine ⟨[], ?_, rfl, rfl, ?_⟩
      · intro x b hst r
        cases hst
        refine bgoes_step ?_ (by simp; omega)
        have hx := C105_table fl m o as c h.1 h.2.1 r
        rw [hs] at hx
        simp only at hx
        rw [El.events] at hx
        rw [List.cons_append, bstep, if_neg hv, if_pos rfl, ← List.cons_append, hx, hsh]
        show Except.ok _ = Except.ok (false, BSt.plus x [] x.book.valid _, r)
        unfold BSt.plus
        rw [List.append_nil]
      · rw [hsh, List.map_cons, hr]
        rfl
    | other =>
      rw [hk] at hsp h
      simp only at hsp h ⊢
      obtain ⟨l, a1, a2, a3, a4⟩ := El.bgoodIn fl m o c h
      exact ⟨l, a1.around n as hb hsp.1 hsp.2.1 hsp.2.2, a2, a3, a4⟩

theorem El.bgoodIn (fl : Floats) (m : Refs.Ints) (o : Opts) (c : List El) (h : BodyOkIn fl m c) :
    BGood fl m o (evsOf c) (bodyKeptIn c) (listsIn c) (tablesIn c) :=
  match c with
  | [] => ⟨[], BPass.nil fl m o, rfl, rfl, rfl⟩
  | e :: c => by
    rw [BodyOkIn] at h
    rw [evsOf, bodyKeptIn, listsIn, tablesIn]
    exact (El.bgood fl m o e h.1).append (El.bgoodIn fl m o c h.2)

end

/-! ## The properties -/

/-- **C107** (exact): the body of any document.  The elements that are kept, the validations and the tables are
those of the file, in their order, wherever they are. -/
theorem C107_body (fl : Floats) (m : Refs.Ints) (o : Opts) (c : List El) (h : BodyOkIn fl m c)
    (hne : ∀ x ∈ rulesIn m (listsIn c), x.1 ≠ []) (hnd : ((rulesIn m (listsIn c)).map Prod.fst).Nodup)
    (hlen : 2 * (rulesIn m (listsIn c)).length < 4294967296) (r : List Event) :
    ∃ b, readBody fl m o (evsOf c ++ .end tBody :: r) = .ok (b, r)
      ∧ b.extra = bodyKeptIn c
      ∧ b.sheets.map some = (tablesIn c).map (tableRead fl m o)
      ∧ ∀ n rule, (n, rule) ∈ rulesIn m (listsIn c) →
        ∃ s, b.valid.get? .validation n = some s ∧ s.name = n ∧ s.body.rule = rule := by
  obtain ⟨l, h1, h2, h3, h4⟩ := El.bgoodIn fl m o c h
  obtain ⟨v, h5, h6⟩ := Valid.named_found m (listsIn c) l h2 h3 hne hnd hlen
  obtain ⟨n, hn, hg⟩ := h1 {} v h5 (.end tBody :: r)
  refine ⟨⟨bodyKeptIn c, v, sheetsOf fl m o (tablesIn c)⟩, ?_, rfl, h4.symm, h6⟩
  unfold readBody
  have hk' : ∃ j, (evsOf c ++ .end tBody :: r).length + 1 = (j + 1) + n :=
    ⟨(evsOf c ++ .end tBody :: r).length - n, by simp only [List.length_cons] at hn; omega⟩
  obtain ⟨j, hj⟩ := hk'
  rw [hj, hg, bloop, bstep, plus_names]
  rw [if_neg (by decide +kernel), if_pos rfl]
  rfl

/-- **C107 (partial)**: and the cells of the sheets are those of the tables of the file.  Missing: rows that are
repeated more than 1000 times (`C103_thousand_counterexample`), columns with end tags
(`C105_column_counterexample`), validations without messages and messages (`C106_empty_counterexample`). -/
theorem C107_cells_partial (fl : Floats) (m : Refs.Ints) (o : Opts) (ho : o.useRepeat = false) (c : List El)
    (h : BodyOkIn fl m c) (hne : ∀ x ∈ rulesIn m (listsIn c), x.1 ≠ [])
    (hnd : ((rulesIn m (listsIn c)).map Prod.fst).Nodup) (hlen : 2 * (rulesIn m (listsIn c)).length < 4294967296)
    (r : List Event) :
    ∃ b, readBody fl m o (evsOf c ++ .end tBody :: r) = .ok (b, r)
      ∧ b.sheets.length = (tablesIn c).length
      ∧ ∀ (i : Nat) (as : List (Str × Str)) (tc : List El) (t : FileTable), (tablesIn c)[i]? = some (as, tc) →
        tagsIn fl tc = t.events → t.OK → (∀ r ∈ t.rows, r.tag.repeated.getD 1 ≤ 1000) →
        ∃ s, b.sheets[i]? = some ({ headSaid m as with extra := keptIn tc }, s)
          ∧ (∀ r k v, s.data.get? (r, k) = some v → ∃ x, t.cellAt r k = some x ∧ v = { x with «repeat» := 1 })
          ∧ (∀ r k x, t.cellAt r k = some x → x.isEmpty = false →
            s.data.get? (r, k) = some { x with «repeat» := 1 }) := by
  obtain ⟨b, h1, -, h3, -⟩ := C107_body fl m o c h hne hnd hlen r
  refine ⟨b, h1, ?_, ?_⟩
  · have := congrArg List.length h3
    rw [List.length_map, List.length_map] at this
    exact this
  · intro i as tc t hi hev ht hbig
    have hm : (b.sheets.map some)[i]? = some (tableRead fl m o (as, tc)) := by
      rw [h3, List.getElem?_map, hi]
      rfl
    rw [List.getElem?_map] at hm
    cases hb : b.sheets[i]? with
    | none => rw [hb] at hm; cases hm
    | some p =>
      rw [hb] at hm
      have hm := Option.some.inj hm
      unfold tableRead at hm
      cases hs : readTable o.abs (tagsIn fl tc) with
      | none => simp only [hs] at hm; cases hm
      | some s =>
        simp only [hs] at hm
        have hm := Option.some.inj hm
        rw [hev] at hs
        refine ⟨s, by rw [hm], ?_, ?_⟩
        · intro r k v hv
          obtain ⟨x, g1, g2⟩ := C103_only t ht o.abs ho s hs r k v hv
          refine ⟨x, ?_, g2⟩
          rw [← g1]
          cases t.cellAt r k <;> rfl
        · intro r k x hx hne
          refine C103_cells_partial t ht o.abs ho hbig s hs r k x ?_ hne
          rw [hx]
          rfl

/-! ## A body as other programs write it -/

def nSpread : Str := "office:spreadsheet".toList
def nCalc : Str := "table:calculation-settings".toList
def nRanges : Str := "table:database-ranges".toList

/-- A body with settings, validations, two tables and database ranges. -/
def officeBody : List El :=
  [.elem nSpread []
    [.void nCalc [("table:case-sensitive".toList, "false".toList)],
      .elem Valid.tAll [] Valid.officeValids,
      .elem tTable headAttrs officeTable,
      .text "\n".toList,
      .elem tTable [("table:name".toList, "Two".toList)] officeTable,
      .elem nRanges [] [.void "table:database-range".toList [("table:name".toList, "d".toList)]]]]

theorem headAttrs_ok (m : Refs.Ints) : HeadReadable m headAttrs := by
  refine ⟨by decide +kernel, fun a ha => ?_⟩
  simp only [headAttrs, List.mem_cons, List.not_mem_nil, or_false] at ha
  rcases ha with rfl | rfl
  · exact ⟨fun _ => by decide +kernel, fun h => absurd h (by decide +kernel), fun h => absurd h (by decide +kernel)⟩
  · exact ⟨fun _ => by decide +kernel, fun h => absurd h (by decide +kernel), fun h => absurd h (by decide +kernel)⟩

theorem two_ok (m : Refs.Ints) : HeadReadable m [("table:name".toList, "Two".toList)] := by
  refine ⟨by decide +kernel, fun a ha => ?_⟩
  rw [List.mem_singleton] at ha
  subst ha
  exact ⟨fun _ => by decide +kernel, fun h => absurd h (by decide +kernel), fun h => absurd h (by decide +kernel)⟩

theorem bodyKinds : (match bodyKind nSpread with | .other => true | _ => false) = true
    ∧ (match bodyKind nCalc with | .extra => true | _ => false) = true
    ∧ (match bodyKind nRanges with | .extra => true | _ => false) = true := by decide +kernel

theorem kind_spread : bodyKind nSpread = .other := by
  have := bodyKinds.1
  cases h : bodyKind nSpread <;> rw [h] at this <;> first | rfl | cases this
theorem kind_calc : bodyKind nCalc = .extra := by
  have := bodyKinds.2.1
  cases h : bodyKind nCalc <;> rw [h] at this <;> first | rfl | cases this
theorem kind_ranges : bodyKind nRanges = .extra := by
  have := bodyKinds.2.2
  cases h : bodyKind nRanges <;> rw [h] at this <;> first | rfl | cases this
theorem kind_table : bodyKind tTable = .table := by
  rw [bodyKind, if_neg (by decide +kernel), if_pos rfl]
theorem kind_all : bodyKind Valid.tAll = .validations := by
  rw [bodyKind, if_pos rfl]

theorem body_apart : nSpread ≠ tBody ∧ Valid.tAll ≠ tBody ∧ tTable ≠ tBody ∧ nRanges ≠ tBody := by decide +kernel

theorem officeBody_ok (fl : Floats) : BodyOkIn fl Refs.checked officeBody := by
  obtain ⟨n1, n2, n3, n4⟩ := body_apart
  have ht : ∀ as, HeadReadable Refs.checked as → TableGood fl Refs.checked as officeTable := fun as h =>
    ⟨h, officeTable_ok fl, officeRows, officeTable_rows fl, officeRows_ok, officeRows_opened⟩
  simp only [officeBody, BodyOkIn, El.BodyOk, kind_spread, kind_calc, kind_ranges, kind_table, kind_all]
  refine ⟨⟨n1, ?_, ⟨n2, Valid.officeValids_ok⟩, ⟨n3, ht _ (headAttrs_ok _)⟩, trivial, ⟨n3, ht _ (two_ok _)⟩,
    ⟨n4, ?_, ?_, ?_⟩, trivial⟩, trivial⟩
  · unfold Escaped; decide +kernel
  · unfold Escaped; decide +kernel
  · refine ⟨?_, trivial⟩
    rw [El.Clean]
    unfold Escaped; decide +kernel
  · exact ⟨trivial, trivial⟩

theorem officeBody_tables : tablesIn officeBody
    = [(headAttrs, officeTable), ([("table:name".toList, "Two".toList)], officeTable)] := by
  simp only [officeBody, tablesIn, El.tables, kind_spread, kind_ranges, kind_table, kind_all]
  rfl

theorem officeBody_lists : listsIn officeBody = Valid.officeValids := by
  simp only [officeBody, listsIn, El.lists, kind_spread, kind_ranges, kind_table, kind_all, List.append_nil]
  rfl

/-- `C107_cells_partial` says that this body has two sheets, and where the text of the second is. -/
example (fl : Floats) (r : List Event) : ∃ b s, readBody fl Refs.checked {} (evsOf officeBody ++ .end tBody :: r) = .ok (b, r)
    ∧ b.sheets.length = 2
    ∧ (b.sheets[1]?.map Prod.snd) = some s ∧ s.data.get? (3, 0) = some officeCellData.toData := by
  obtain ⟨b, h1, h2, h3⟩ := C107_cells_partial fl Refs.checked {} rfl officeBody (officeBody_ok fl)
    (by rw [officeBody_lists, Valid.officeValids_rules]; decide +kernel)
    (by rw [officeBody_lists, Valid.officeValids_rules]; decide +kernel)
    (by rw [officeBody_lists, Valid.officeValids_rules]; decide +kernel) r
  rw [officeBody_tables] at h2 h3
  obtain ⟨s, g1, -, g2⟩ := h3 1 _ _ officeRows rfl (officeTable_rows fl) officeRows_ok (by decide)
  refine ⟨b, s, h1, h2, ?_, g2 3 0 _ rfl (by decide +kernel)⟩
  rw [g1]
  rfl

end Verif.TableXml
