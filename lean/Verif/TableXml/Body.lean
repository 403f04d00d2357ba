import Verif.TableXml.Props
import Verif.Valid.Props

/-!
# The body of the document: `office:body`
-/

set_option autoImplicit false

namespace Verif.TableXml

open Xml Xml.Spec Codec

def tBody : Str := "office:body".toList
def tSpread : Str := "office:spreadsheet".toList

/-- The foreign elements in front of the sheets, src/io/write.rs:1369-1376 and src/io/read.rs:818-825. -/
def bookPrelude : List Str :=
  ["table:calculation-settings".toList, "table:label-ranges".toList, "table:tracked-changes".toList,
   "text:alphabetical-index-auto-mark-file".toList, "text:dde-connection-decls".toList, "text:sequence-decls".toList,
   "text:user-field-decls".toList, "text:variable-decls".toList]

/-- The foreign elements behind the sheets, src/io/write.rs:1391-1396 and src/io/read.rs:832-837. -/
def bookEpilogue : List Str :=
  ["table:consolidation".toList, "table:data-pilot-tables".toList, "table:database-ranges".toList,
   "table:dde-links".toList, "table:named-expressions".toList, "calcext:conditional-formats".toList]

/-- The part of a workbook that is in the body: `extra`, `validations` and `sheets` of `WorkBook`,
src/workbook_.rs:39-103. -/
structure BookBody where
  extra : List Node := []
  valid : Book.Stores Valid.Body := {}
  sheets : List (Head × TSheet) := []

/-- All sheets as tags; the first that fails ends writing with an error, src/io/write.rs:1384-1386. -/
def writeSheets : List (Head × TSheet) → Except WErr (List (Head × List TEv))
  | [] => .ok []
  | (h, s) :: l =>
    match writeSheet s with
    | .error e => .error e
    | .ok evs => (writeSheets l).map fun l => (h, evs) :: l

/-- `write_office_body`, src/io/write.rs:1363-1404.  The validations are in a `HashMap`: `vs` is a list of them in
any order. -/
def bodyCalls (fl : Floats) (defStyle : ValueType → Option String) (extra : List Node) (vs : List Valid.Validation)
    (tables : List (Head × List TEv)) : List Call :=
  .elem tBody :: .elem tSpread
    :: ((extra.filter fun t => decide (nodeName t ∈ bookPrelude)).flatMap writeNode
      ++ (Valid.writeAll vs ++ (tables.flatMap (fun p => tableCalls fl defStyle p.1 p.2)
        ++ ((extra.filter fun t => decide (nodeName t ∈ bookEpilogue)).flatMap writeNode
          ++ [.endElem tSpread, .endElem tBody]))))

/-- The state of `read_office_body`: the names of the open elements that the reader has seen and what it has put
into the workbook. -/
structure BSt where
  names : List Str := [tBody]
  book : BookBody := {}

/-- A foreign element, src/io/read.rs:826-827 and 838-839. -/
def bodyExtra (x : BSt) (n : Str) (as : List (Str × Str)) (emptyTag : Bool) (es : List Event) :
    Except Fault (Bool × BSt × List Event) :=
  match readXml n as emptyTag es with
  | .error e => .error e
  | .ok (t, es) => .ok (false, { x with book := { x.book with extra := x.book.extra ++ [t] } }, es)

/-- One round of the loop of `read_office_body`, src/io/read.rs:793-867; `true` if it was the last.  The comparison
of the end tags is done by `quick-xml`. -/
def bstep (fl : Floats) (m : Refs.Ints) (o : Opts) (x : BSt) : List Event → Except Fault (Bool × BSt × List Event)
  | [] => .ok (true, x, [])
  | .start n as :: es =>
    if n = Valid.tAll then
      match Valid.readValidations m x.book.valid es with
      | .error e => .error e
      | .ok (b, es) => .ok (false, { x with book := { x.book with valid := b } }, es)
    else if n = tTable then
      match readTableXml fl m o (.start n as :: es) with
      | .error e => .error e
      | .ok (s, es) => .ok (false, { x with book := { x.book with sheets := x.book.sheets ++ [s] } }, es)
    else if n ∈ bookPrelude ∨ n ∈ bookEpilogue then bodyExtra x n as false es
    else .ok (false, { x with names := n :: x.names }, es)
  | .empty n as :: es =>
    if n ∈ bookPrelude ∨ n ∈ bookEpilogue then bodyExtra x n as true es
    else .ok (false, x, es)
  | .end n :: es =>
    if n ≠ x.names.headD [] then .error .mismatchedEnd
    else if n = tBody then .ok (true, x, es)
    else .ok (false, { x with names := x.names.tail }, es)
  | _ :: es => .ok (false, x, es)

/-- The loop with enough fuel. -/
def bloop (fl : Floats) (m : Refs.Ints) (o : Opts) : Nat → BSt → List Event → Except Fault (BSt × List Event)
  | 0, _, _ => .error .panic
  | k + 1, x, es =>
    match bstep fl m o x es with
    | .error e => .error e
    | .ok (true, x, es) => .ok (x, es)
    | .ok (false, x, es) => bloop fl m o k x es

/-- `read_office_body`, src/io/read.rs:791-873, after its start tag, for a workbook that has the validations `b`. -/
def readBody (fl : Floats) (m : Refs.Ints) (o : Opts) (es : List Event) : Except Fault (BookBody × List Event) :=
  (bloop fl m o (es.length + 1) {} es).map fun p => (p.1.book, p.2)

/-! ## Lemmas -/

/-- The reader reaches the state `x'` in front of `es'`. -/
def BGoes (fl : Floats) (m : Refs.Ints) (o : Opts) (x : BSt) (es : List Event) (x' : BSt) (es' : List Event) : Prop :=
  ∃ n, n + es'.length ≤ es.length ∧ ∀ k, bloop fl m o (k + n) x es = bloop fl m o k x' es'

theorem BGoes.refl (fl : Floats) (m : Refs.Ints) (o : Opts) (x : BSt) (es : List Event) : BGoes fl m o x es x es :=
  ⟨0, by omega, fun _ => rfl⟩

theorem BGoes.trans {fl : Floats} {m : Refs.Ints} {o : Opts} {x y z : BSt} {a b c : List Event}
    (h1 : BGoes fl m o x a y b) (h2 : BGoes fl m o y b z c) : BGoes fl m o x a z c := by
  obtain ⟨n, hn, h1⟩ := h1
  obtain ⟨l, hl, h2⟩ := h2
  refine ⟨l + n, by omega, fun k => ?_⟩
  rw [← Nat.add_assoc, h1, h2]

theorem bgoes_step {fl : Floats} {m : Refs.Ints} {o : Opts} {x x' : BSt} {es es' : List Event}
    (h : bstep fl m o x es = .ok (false, x', es')) (hl : es'.length < es.length) : BGoes fl m o x es x' es' := by
  refine ⟨1, by omega, fun k => ?_⟩
  rw [bloop, h]

theorem bgoes_nl (fl : Floats) (m : Refs.Ints) (o : Opts) (lb : Bool) (x : BSt) (r : List Tok) (hr : NoChr r) :
    BGoes fl m o x (events ((nl lb).map Tok.chr ++ r)) x (events r) := by
  rw [events_nl lb r hr]
  cases lb with
  | false => exact BGoes.refl fl m o x _
  | true => exact bgoes_step (x' := x) rfl (by simp [nlEv])

/-- The workbook with further elements. -/
def BSt.addExtra (x : BSt) (l : List Node) : BSt := { x with book := { x.book with extra := x.book.extra ++ l } }

theorem addExtra_nil (x : BSt) : x.addExtra [] = x := by simp [BSt.addExtra]

theorem addExtra_append (x : BSt) (a b : List Node) : (x.addExtra a).addExtra b = x.addExtra (a ++ b) := by
  simp [BSt.addExtra]

theorem book_names (n : Str) (h : n ∈ bookPrelude ∨ n ∈ bookEpilogue) : n ≠ Valid.tAll ∧ n ≠ tTable := by
  have h1 : ∀ n ∈ bookPrelude ++ bookEpilogue, n ≠ Valid.tAll ∧ n ≠ tTable := by decide +kernel
  exact h1 n (List.mem_append.mpr h)

theorem bgoes_extras (fl : Floats) (m : Refs.Ints) (o : Opts) (lb : Bool) (r : List Tok) (l : List Node)
    (h : ExtrasOk lb l) (hn : ∀ t ∈ l, nodeName t ∈ bookPrelude ∨ nodeName t ∈ bookEpilogue) : ∀ x : BSt,
    BGoes fl m o x (events (extraToks lb l ++ r)) (x.addExtra (l.map norm)) (events r) := by
  induction l with
  | nil =>
    intro x
    rw [List.map_nil, addExtra_nil]
    exact BGoes.refl fl m o x _
  | cons t l ih =>
    intro x
    have hlb : lb = false := by
      rcases h.1 with h | h
      · exact h
      · cases h
    obtain ⟨n, as, c, rfl, _, hw⟩ := h.2 t List.mem_cons_self
    have hpre : n ∈ bookPrelude ∨ n ∈ bookEpilogue := hn _ List.mem_cons_self
    have hne := book_names n hpre
    have ih' := ih ⟨.inl hlb, fun t ht => h.2 t (List.mem_cons_of_mem _ ht)⟩
      (fun t ht => hn t (List.mem_cons_of_mem _ ht))
    subst hlb
    rw [extraToks_cons, List.append_assoc,
      show (nodeItems (.tag n as c)).flatMap (itemToks false) = toks (nodeItems (.tag n as c)) from rfl]
    obtain ⟨es, he, hread⟩ := element_reads n as c hw (extraToks false l ++ r)
    obtain ⟨raw, es0, hs, hlen⟩ := extra_shape n as c (extraToks false l ++ r)
    have hstep : bstep fl m o x (events (toks (nodeItems (.tag n as c)) ++ (extraToks false l ++ r)))
        = .ok (false, x.addExtra [norm (.tag n as c)], events (extraToks false l ++ r)) := by
      rw [← he] at hread
      rcases hs with hs | hs
      · rw [hs] at hread ⊢
        rw [readNext] at hread
        rw [bstep, if_neg hne.1, if_neg hne.2, if_pos hpre, bodyExtra, hread]
        rfl
      · rw [hs] at hread ⊢
        rw [readNext] at hread
        rw [bstep, if_pos hpre, bodyExtra, hread]
        rfl
    refine BGoes.trans (bgoes_step hstep ?_) ?_
    · rcases hs with hs | hs
      · rw [hs, List.length_cons]; omega
      · rw [hs, List.length_cons]; omega
    · have := ih' (x.addExtra [norm (.tag n as c)])
      rw [addExtra_append] at this
      exact this

/-- The items of the validations. -/
def validItems (vs : List Valid.Validation) : List Item := if vs = [] then [] else Valid.allItems vs

theorem validItems_calls (vs : List Valid.Validation) : (validItems vs).flatMap Item.calls = Valid.writeAll vs := by
  unfold validItems
  by_cases h : vs = []
  · subst h; rfl
  · rw [if_neg h, Valid.allItems_calls vs h]

theorem validItems_valid (vs : List Valid.Validation) (h : ∀ v ∈ vs, Valid.Ok v) : ∀ i ∈ validItems vs, i.Valid := by
  unfold validItems
  by_cases hv : vs = []
  · subst hv; intro i hi; cases hi
  · rw [if_neg hv]; exact Valid.allItems_valid vs h

theorem noChr_valid (lb : Bool) (vs : List Valid.Validation) (r : List Tok) (hr : NoChr r) :
    NoChr ((validItems vs).flatMap (itemToks lb) ++ r) := by
  unfold validItems
  by_cases hv : vs = []
  · subst hv; exact hr
  · rw [if_neg hv]
    unfold Valid.allItems
    rw [List.flatMap_cons]
    exact noChr_cons _ _ (by intro c; simp)

theorem bgoes_valid (fl : Floats) (m : Refs.Ints) (hm : m.max = Refs.Spec.maxU32) (o : Opts) (lb : Bool)
    (vs : List Valid.Validation) (h : ∀ v ∈ vs, Valid.Ok v) (hl : lb = false ∨ vs = []) (x : BSt)
    (b : Book.Stores Valid.Body) (hb : Valid.stored vs x.book.valid = .ok b) (r : List Tok) (hr : NoChr r) :
    BGoes fl m o x (events ((validItems vs).flatMap (itemToks lb) ++ r))
      { x with book := { x.book with valid := b } } (events r) := by
  unfold validItems
  by_cases hv : vs = []
  · subst hv
    cases hb
    exact BGoes.refl fl m o x _
  · rw [if_neg hv]
    obtain rfl : lb = false := hl.resolve_right hv
    obtain ⟨ev, g, hread⟩ := Valid.loop_all m hm vs h
    have ht : (Valid.allItems vs).flatMap (itemToks false)
        = .start Valid.tAll [] :: (toks (vs.flatMap Valid.oneItems) ++ [.end Valid.tAll]) := by
      show toks (Valid.allItems vs) = _
      unfold Valid.allItems
      rw [Valid.toks_cons, toks_append]
      simp [itemToks, toks, nl, rawAttrs]
    rw [ht, List.cons_append, List.append_assoc, events, List.cons_append, List.nil_append,
      g _ (noChr_cons _ _ (by intro c; simp)), show events (.end Valid.tAll :: r) = .end Valid.tAll :: events r from rfl]
    refine bgoes_step ?_ ?_
    · rw [bstep, if_pos rfl]
      unfold Valid.readValidations
      rw [hread _ _ _ (by simp), hb]
      rfl
    · simp; omega

/-- The sheets with what is written behind each. -/
def sheetItems (fl : Floats) (defStyle : ValueType → Option String) (tables : List (Head × List TEv)) : List Item :=
  tables.flatMap fun p => tableItems fl defStyle p.1 p.2 ++ extraItems (epilogue p.1.extra)

/-- A sheet that can be written and read: the tags `evs` that are written for it and the sheet `back` that is
read. -/
structure Sheetlike (fl : Floats) (m : Refs.Ints) (o : Opts) (bv : Value → Value)
    (defStyle : ValueType → Option String) (lb : Bool) (p : Head × List TEv) (back : Head × TSheet) : Prop where
  fits : ∀ e ∈ p.2, Fits fl lb bv e
  extra : ExtrasOk lb p.1.extra
  ranges : ∀ l, p.1.ranges = some l → Refs.parseCellRanges m (Refs.fmtCellRanges l) = .ok back.1.ranges
  noRanges : p.1.ranges = none → back.1.ranges = none
  head : back.1 = headBack p.1 back.1.ranges
  body : readTable (absOpts bv defStyle o) p.2 = some back.2

/-- Pairwise. -/
inductive Sheetlikes (fl : Floats) (m : Refs.Ints) (o : Opts) (bv : Value → Value)
    (defStyle : ValueType → Option String) (lb : Bool) : List (Head × List TEv) → List (Head × TSheet) → Prop where
  | nil : Sheetlikes fl m o bv defStyle lb [] []
  | cons {p b l l'} : Sheetlike fl m o bv defStyle lb p b → Sheetlikes fl m o bv defStyle lb l l' →
    Sheetlikes fl m o bv defStyle lb (p :: l) (b :: l')

theorem sheetItems_calls {fl : Floats} {m : Refs.Ints} {o : Opts} {bv : Value → Value}
    {defStyle : ValueType → Option String} {lb : Bool} {tables : List (Head × List TEv)}
    {back : List (Head × TSheet)} (h : Sheetlikes fl m o bv defStyle lb tables back) :
    (sheetItems fl defStyle tables).flatMap Item.calls = tables.flatMap fun p => tableCalls fl defStyle p.1 p.2 := by
  induction h with
  | nil => rfl
  | cons hp _ ih =>
    unfold sheetItems at ih ⊢
    rw [List.flatMap_cons, List.flatMap_append, ih, tableItems_calls fl defStyle lb bv _ _ hp.fits, List.flatMap_cons]

theorem sheetItems_valid {fl : Floats} {m : Refs.Ints} {o : Opts} {bv : Value → Value}
    {defStyle : ValueType → Option String} {lb : Bool} {tables : List (Head × List TEv)}
    {back : List (Head × TSheet)} (h : Sheetlikes fl m o bv defStyle lb tables back) :
    ∀ i ∈ sheetItems fl defStyle tables, i.Valid := by
  induction h with
  | nil => intro i hi; cases hi
  | cons hp _ ih =>
    intro i hi
    unfold sheetItems at ih hi
    rw [List.flatMap_cons, List.mem_append, List.mem_append] at hi
    rcases hi with (hi | hi) | hi
    · exact tableItems_valid fl defStyle lb bv _ _ hp.fits hp.extra i hi
    · exact extraItems_valid lb _ (hp.extra.filter _) i hi
    · exact ih i hi

theorem noChr_table (fl : Floats) (defStyle : ValueType → Option String) (lb : Bool) (h : Head) (evs : List TEv)
    (r : List Tok) : NoChr (tableToks fl defStyle lb h evs ++ r) := by
  rw [tableToks_eq]
  exact noChr_cons _ _ (by intro c; simp)

theorem noChr_sheets (fl : Floats) (defStyle : ValueType → Option String) (lb : Bool)
    (tables : List (Head × List TEv)) (r : List Tok) (hr : NoChr r) :
    NoChr ((sheetItems fl defStyle tables).flatMap (itemToks lb) ++ r) := by
  cases tables with
  | nil => exact hr
  | cons p tables =>
    unfold sheetItems
    rw [List.flatMap_cons, List.flatMap_append, List.flatMap_append, List.append_assoc, List.append_assoc]
    exact noChr_table fl defStyle lb p.1 p.2 _

theorem bgoes_table {fl : Floats} {m : Refs.Ints} {o : Opts} {bv : Value → Value}
    {defStyle : ValueType → Option String} {lb : Bool} {p : Head × List TEv} {b : Head × TSheet}
    (h : Sheetlike fl m o bv defStyle lb p b) (x : BSt) (r : List Tok) (hr : NoChr r) :
    BGoes fl m o x (events (tableToks fl defStyle lb p.1 p.2 ++ r))
      { x with book := { x.book with sheets := x.book.sheets ++ [b] } } (events r) := by
  have hread := (table_reads fl m o bv defStyle lb p.1 p.2 b.1.ranges h.ranges h.noRanges h.extra h.fits r).1 b.2 h.body
  rw [← h.head] at hread
  refine BGoes.trans (bgoes_step ?_ ?_) (bgoes_nl fl m o lb _ r hr)
  · have : ∃ as es, events (tableToks fl defStyle lb p.1 p.2 ++ r) = .start tTable as :: es := by
      rw [tableToks_eq]; exact ⟨_, _, rfl⟩
    obtain ⟨as, es, he⟩ := this
    rw [he] at hread ⊢
    rw [bstep, if_neg (by decide), if_pos rfl, hread]
  · rw [tableToks_eq, events, List.length_cons]
    have := events_suffix (extraToks lb (prelude p.1.extra) ++ (p.2.flatMap (tagToks fl defStyle lb) ++ [.end tTable]))
      ((nl lb).map Tok.chr ++ r)
    simp only [List.append_assoc, List.cons_append, List.nil_append] at this
    omega

theorem bgoes_sheets {fl : Floats} {m : Refs.Ints} {o : Opts} {bv : Value → Value}
    {defStyle : ValueType → Option String} {lb : Bool} {tables : List (Head × List TEv)}
    {back : List (Head × TSheet)} (h : Sheetlikes fl m o bv defStyle lb tables back) (r : List Tok) (hr : NoChr r) :
    ∀ x : BSt, BGoes fl m o x (events ((sheetItems fl defStyle tables).flatMap (itemToks lb) ++ r))
      { x with book := { x.book with
                         sheets := x.book.sheets ++ back
                         extra := x.book.extra ++ (tables.flatMap fun p => epilogue p.1.extra).map norm } }
      (events r) := by
  induction h with
  | nil =>
    intro x
    have : ({ x with book := { x.book with
                         sheets := x.book.sheets ++ []
                         extra := x.book.extra ++ ([] : List Node).map norm } } : BSt) = x := by simp
    rw [List.flatMap_nil, this]
    exact BGoes.refl fl m o x _
  | @cons p b tables back hp hl ih =>
    intro x
    have ht : (sheetItems fl defStyle (p :: tables)).flatMap (itemToks lb) ++ r = tableToks fl defStyle lb p.1 p.2
        ++ (extraToks lb (epilogue p.1.extra) ++ ((sheetItems fl defStyle tables).flatMap (itemToks lb) ++ r)) := by
      unfold sheetItems tableToks extraToks
      rw [List.flatMap_cons, List.flatMap_append, List.flatMap_append, List.append_assoc, List.append_assoc]
    rw [ht]
    have hr1 := noChr_sheets fl defStyle lb tables r hr
    have he : ∀ n ∈ epilogueNames, n ∈ bookEpilogue := by decide
    have g1 := bgoes_table hp x _ (noChr_extras lb (epilogue p.1.extra) (hp.extra.filter _) _ hr1)
    have g2 := bgoes_extras fl m o lb ((sheetItems fl defStyle tables).flatMap (itemToks lb) ++ r)
      (epilogue p.1.extra) (hp.extra.filter _)
      (fun t ht => .inr (he _ (by simpa using (List.mem_filter.mp ht).2)))
      { x with book := { x.book with sheets := x.book.sheets ++ [b] } }
    have g3 := ih (({ x with book := { x.book with sheets := x.book.sheets ++ [b] } } : BSt).addExtra
      ((epilogue p.1.extra).map norm))
    have g := (g1.trans g2).trans g3
    simpa [BSt.addExtra] using g

/-- The items of the body. -/
def bodyItems (fl : Floats) (defStyle : ValueType → Option String) (extra : List Node) (vs : List Valid.Validation)
    (tables : List (Head × List TEv)) : List Item :=
  .start false tBody [] :: .start false tSpread []
    :: (extraItems (extra.filter fun t => decide (nodeName t ∈ bookPrelude))
      ++ (validItems vs ++ (sheetItems fl defStyle tables
        ++ (extraItems (extra.filter fun t => decide (nodeName t ∈ bookEpilogue))
          ++ [.end false tSpread, .end false tBody]))))

/-- What is read of the foreign elements. -/
def extraBack (extra : List Node) (tables : List (Head × List TEv)) : List Node :=
  ((extra.filter fun t => decide (nodeName t ∈ bookPrelude)) ++ (tables.flatMap fun p => epilogue p.1.extra)
    ++ (extra.filter fun t => decide (nodeName t ∈ bookEpilogue))).map norm

/-- The body in its place. -/
theorem body_reads {fl : Floats} {m : Refs.Ints} (hm : m.max = Refs.Spec.maxU32) {o : Opts} {bv : Value → Value}
    {defStyle : ValueType → Option String} {lb : Bool} (extra : List Node) (hx : ExtrasOk lb extra)
    (vs : List Valid.Validation) (hv : ∀ v ∈ vs, Valid.Ok v) (hl : lb = false ∨ vs = [])
    (b : Book.Stores Valid.Body) (hb : Valid.stored vs {} = .ok b) {tables : List (Head × List TEv)}
    {back : List (Head × TSheet)} (h : Sheetlikes fl m o bv defStyle lb tables back) (r : List Tok) :
    ∃ es, events ((bodyItems fl defStyle extra vs tables).flatMap (itemToks lb) ++ r) = .start tBody [] :: es
      ∧ readBody fl m o es = .ok ({ extra := extraBack extra tables, valid := b, sheets := back },
          events ((nl lb).map Tok.chr ++ r)) := by
  let r1 : List Tok := .end tSpread :: ((nl lb).map Tok.chr ++ (.end tBody :: ((nl lb).map Tok.chr ++ r)))
  let r2 := extraToks lb (extra.filter fun t => decide (nodeName t ∈ bookEpilogue)) ++ r1
  let r3 := (sheetItems fl defStyle tables).flatMap (itemToks lb) ++ r2
  let r4 := (validItems vs).flatMap (itemToks lb) ++ r3
  let r5 := extraToks lb (extra.filter fun t => decide (nodeName t ∈ bookPrelude)) ++ r4
  have hr1 : NoChr r1 := noChr_cons _ _ (by intro c; simp)
  have hr2 : NoChr r2 := noChr_extras lb _ (hx.filter _) _ hr1
  have hr3 : NoChr r3 := noChr_sheets fl defStyle lb tables r2 hr2
  have hr4 : NoChr r4 := noChr_valid lb vs r3 hr3
  have ht : (bodyItems fl defStyle extra vs tables).flatMap (itemToks lb) ++ r
      = .start tBody [] :: .start tSpread [] :: r5 := by
    simp [bodyItems, itemToks, rawAttrs, r5, r4, r3, r2, r1, extraToks]
  rw [ht]
  refine ⟨events (.start tSpread [] :: r5), rfl, ?_⟩
  have g0 : BGoes fl m o {} (events (.start tSpread [] :: r5)) { names := [tSpread, tBody] } (events r5) := by
    refine bgoes_step ?_ (by rw [events]; simp)
    rw [events, bstep, if_neg (by decide), if_neg (by decide), if_neg (by decide +kernel)]
  have g1 := bgoes_extras fl m o lb r4 (extra.filter fun t => decide (nodeName t ∈ bookPrelude)) (hx.filter _)
    (fun t ht => .inl (by simpa using (List.mem_filter.mp ht).2)) { names := [tSpread, tBody] }
  have g2 := bgoes_valid fl m hm o lb vs hv hl
    (({ names := [tSpread, tBody] } : BSt).addExtra
      ((extra.filter fun t => decide (nodeName t ∈ bookPrelude)).map norm)) b hb r3 hr3
  have g3 := bgoes_sheets h r2 hr2
    { names := [tSpread, tBody]
      book := { extra := (extra.filter fun t => decide (nodeName t ∈ bookPrelude)).map norm, valid := b } }
  have g4 := bgoes_extras fl m o lb r1 (extra.filter fun t => decide (nodeName t ∈ bookEpilogue)) (hx.filter _)
    (fun t ht => .inr (by simpa using (List.mem_filter.mp ht).2))
    { names := [tSpread, tBody]
      book := { extra := (extra.filter fun t => decide (nodeName t ∈ bookPrelude)).map norm
                  ++ (tables.flatMap fun p => epilogue p.1.extra).map norm
                valid := b, sheets := back } }
  have hbook : ∀ ns, (({ names := ns
                         book := { extra := (extra.filter fun t => decide (nodeName t ∈ bookPrelude)).map norm
                  ++ (tables.flatMap fun p => epilogue p.1.extra).map norm
                                   valid := b, sheets := back } } : BSt).addExtra
      ((extra.filter fun t => decide (nodeName t ∈ bookEpilogue)).map norm))
      = { names := ns, book := { extra := extraBack extra tables, valid := b, sheets := back } } := by
    intro ns
    simp [BSt.addExtra, extraBack]
  rw [hbook] at g4
  generalize hB : ({ extra := extraBack extra tables, valid := b, sheets := back } : BookBody) = B at g4 ⊢
  have g5 : BGoes fl m o { names := [tSpread, tBody], book := B } (events r1) { names := [tBody], book := B }
      (events (.end tBody :: ((nl lb).map Tok.chr ++ r))) := by
    refine BGoes.trans (bgoes_step (x' := { names := [tBody], book := B }) (es' := events ((nl lb).map Tok.chr
      ++ (.end tBody :: ((nl lb).map Tok.chr ++ r)))) ?_ (by simp only [r1]; rw [events]; simp)) (bgoes_nl fl m o lb _ _
        (noChr_cons _ _ (by intro c; simp)))
    simp only [r1]
    rw [events, bstep, if_neg (fun e => e rfl), if_neg (by decide)]
    rfl
  have g2' : BGoes fl m o _ (events r4) _ (events r3) := g2
  have g1' : BGoes fl m o _ (events r5) _ (events r4) := g1
  have g3' : BGoes fl m o _ (events r3) _ (events r2) := g3
  have g4' : BGoes fl m o _ (events r2) _ (events r1) := g4
  obtain ⟨n, hn, g⟩ := ((((g0.trans g1').trans g2').trans g3').trans g4').trans g5
  unfold readBody
  have hlen : 1 ≤ (events (.end tBody :: ((nl lb).map Tok.chr ++ r))).length := by
    rw [events, List.length_cons]; omega
  have hk : ∃ k, (events (.start tSpread [] :: r5)).length + 1 = (k + 1) + n :=
    ⟨(events (.start tSpread [] :: r5)).length - n, by omega⟩
  obtain ⟨k, hk⟩ := hk
  rw [hk, g, bloop, events, bstep, if_neg (fun e => e rfl), if_pos rfl]
  rfl

theorem bodyItems_calls {fl : Floats} {m : Refs.Ints} {o : Opts} {bv : Value → Value}
    {defStyle : ValueType → Option String} {lb : Bool} (extra : List Node) (vs : List Valid.Validation)
    {tables : List (Head × List TEv)} {back : List (Head × TSheet)}
    (h : Sheetlikes fl m o bv defStyle lb tables back) :
    (bodyItems fl defStyle extra vs tables).flatMap Item.calls = bodyCalls fl defStyle extra vs tables := by
  unfold bodyItems bodyCalls
  simp only [List.flatMap_cons, List.flatMap_append, extraItems_calls, validItems_calls, sheetItems_calls h,
    List.flatMap_nil, List.append_nil]
  simp [Item.calls]

theorem bodyItems_valid {fl : Floats} {m : Refs.Ints} {o : Opts} {bv : Value → Value}
    {defStyle : ValueType → Option String} {lb : Bool} (extra : List Node) (hx : ExtrasOk lb extra)
    (vs : List Valid.Validation) (hv : ∀ v ∈ vs, Valid.Ok v) {tables : List (Head × List TEv)}
    {back : List (Head × TSheet)} (h : Sheetlikes fl m o bv defStyle lb tables back) :
    ∀ i ∈ bodyItems fl defStyle extra vs tables, i.Valid := by
  intro i hi
  unfold bodyItems at hi
  simp only [List.mem_cons, List.mem_append, List.not_mem_nil, or_false] at hi
  rcases hi with rfl | rfl | hi | hi | hi | hi | rfl | rfl
  · exact ⟨by decide, by simp [AttrsOk]⟩
  · exact ⟨by decide, by simp [AttrsOk]⟩
  · exact extraItems_valid lb _ (hx.filter _) i hi
  · exact validItems_valid vs hv i hi
  · exact sheetItems_valid h i hi
  · exact extraItems_valid lb _ (hx.filter _) i hi
  · show Name _
    decide
  · show Name _
    decide

end Verif.TableXml
