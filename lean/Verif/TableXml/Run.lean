import Verif.TableXml.Attrs
import Verif.Xml.Doc

/-!
# Lemmas about the text of a table: the reader goes through the tags
-/

set_option autoImplicit false

namespace Verif.TableXml

open Xml Xml.Spec Codec

/-! ## What is written -/

/-- The items of a tag. -/
def tagItems (fl : Floats) (defStyle : ValueType → Option String) : TEv → List Item
  | .groupStart d => [.start false tRowGroup (groupAtts d)]
  | .groupEnd => [.end false tRowGroup]
  | .headerStart => [.start false tHeaderRows []]
  | .headerEnd => [.end false tHeaderRows]
  | .rowStart t => [.start false tRow (rowAtts t)]
  | .rowEnd => [.end false tRow]
  | .cell covered rep none =>
    [.empty false (cellTag covered) (numA "table:number-columns-repeated".toList rep)]
  | .cell covered rep (some d) => cellItems fl defStyle d covered (rep.getD 1)
  | .colGroupStart d => [.start false tColGroup (groupAtts d)]
  | .colGroupEnd => [.end false tColGroup]
  | .colHeaderStart => [.start false tHeaderCols []]
  | .colHeaderEnd => [.end false tHeaderCols]
  | .column t => [.empty false tColumn (colAtts t)]

/-- The tokens of a tag. -/
def tagToks (fl : Floats) (defStyle : ValueType → Option String) (lb : Bool) (e : TEv) : List Tok :=
  (tagItems fl defStyle e).flatMap (itemToks lb)

/-- A tag that can be written and read: the numbers are `u32`, the values of the cells are read as `bv`
says, and annotations and frames can be read. -/
def Fits (fl : Floats) (lb : Bool) (bv : Value → Value) : TEv → Prop
  | .rowStart t => ∀ n, t.repeated = some n → n ≤ maxRep
  | .column t => ∀ n, t.repeated = some n → n ≤ maxRep
  | .cell _ rep none => ∀ n, rep = some n → n ≤ maxRep
  | .cell _ rep (some d) => 1 ≤ rep.getD 1 ∧ rep.getD 1 ≤ maxRep ∧ CellOk lb d ∧ ValueBack fl lb d.value (bv d.value)
  | _ => True

theorem numA_ok (k : Str) (o : Option Nat) (h : Name k) : AttrsOk (numA k o) := optA_ok _ _ h

theorem tagItems_calls (fl : Floats) (defStyle : ValueType → Option String) (lb : Bool) (bv : Value → Value)
    (e : TEv) (h : Fits fl lb bv e) : (tagItems fl defStyle e).flatMap Item.calls = tagCalls fl defStyle e := by
  cases e with
  | cell c r b =>
    cases b with
    | none => simp [tagItems, tagCalls, Item.calls]
    | some d => exact cellItems_calls fl defStyle d c _
  | _ => simp [tagItems, tagCalls, Item.calls]

theorem tagItems_valid (fl : Floats) (defStyle : ValueType → Option String) (lb : Bool) (bv : Value → Value)
    (e : TEv) (h : Fits fl lb bv e) : ∀ i ∈ tagItems fl defStyle e, i.Valid := by
  have nil_ok : AttrsOk [] := by intro a ha; cases ha
  cases e with
  | cell c r b =>
    cases b with
    | none =>
      intro i hi
      simp only [tagItems, List.mem_cons, List.not_mem_nil, or_false] at hi
      subst hi
      exact ⟨name_tag c, numA_ok _ _ (by decide)⟩
    | some d => exact cellItems_valid fl defStyle d c lb _ h.2.2.2.1 h.2.2.1.notes
  | groupStart d =>
    intro i hi
    simp only [tagItems, List.mem_cons, List.not_mem_nil, or_false] at hi
    subst hi
    exact ⟨by decide, groupAtts_ok d⟩
  | colGroupStart d =>
    intro i hi
    simp only [tagItems, List.mem_cons, List.not_mem_nil, or_false] at hi
    subst hi
    exact ⟨by decide, groupAtts_ok d⟩
  | rowStart t =>
    intro i hi
    simp only [tagItems, List.mem_cons, List.not_mem_nil, or_false] at hi
    subst hi
    exact ⟨by decide, rowAtts_ok t⟩
  | column t =>
    intro i hi
    simp only [tagItems, List.mem_cons, List.not_mem_nil, or_false] at hi
    subst hi
    exact ⟨by decide, colAtts_ok t⟩
  | headerStart =>
    intro i hi
    simp only [tagItems, List.mem_cons, List.not_mem_nil, or_false] at hi
    subst hi
    exact ⟨by decide, nil_ok⟩
  | colHeaderStart =>
    intro i hi
    simp only [tagItems, List.mem_cons, List.not_mem_nil, or_false] at hi
    subst hi
    exact ⟨by decide, nil_ok⟩
  | groupEnd | headerEnd | rowEnd | colGroupEnd | colHeaderEnd =>
    intro i hi
    simp only [tagItems, List.mem_cons, List.not_mem_nil, or_false] at hi
    subst hi
    show Name _
    decide

/-! ## Steps of the reader -/

/-- The reader gets from one state to another. -/
def Goes (fl : Floats) (o : Opts) (x : XSt) (es : List Event) (x' : XSt) (es' : List Event) : Prop :=
  ∃ n, n + es'.length ≤ es.length ∧ ∀ k, xloop fl o (k + n) x es = xloop fl o k x' es'

/-- The reader ends with an error. -/
def Fails (fl : Floats) (o : Opts) (x : XSt) (es : List Event) : Prop :=
  ∀ k, es.length < k → ∃ e, xloop fl o k x es = .error e

theorem Goes.refl (fl : Floats) (o : Opts) (x : XSt) (es : List Event) : Goes fl o x es x es :=
  ⟨0, by omega, fun _ => rfl⟩

theorem Goes.trans {fl : Floats} {o : Opts} {x y z : XSt} {a b c : List Event} (h1 : Goes fl o x a y b)
    (h2 : Goes fl o y b z c) : Goes fl o x a z c := by
  obtain ⟨n, hn, h1⟩ := h1
  obtain ⟨m, hm, h2⟩ := h2
  refine ⟨m + n, by omega, fun k => ?_⟩
  rw [← Nat.add_assoc, h1, h2]

theorem Goes.fails {fl : Floats} {o : Opts} {x y : XSt} {a b : List Event} (h1 : Goes fl o x a y b)
    (h2 : Fails fl o y b) : Fails fl o x a := by
  obtain ⟨n, hn, h1⟩ := h1
  intro k hk
  obtain ⟨e, he⟩ := h2 (k - n) (by omega)
  refine ⟨e, ?_⟩
  rw [← he, ← h1, Nat.sub_add_cancel (by omega)]

theorem goes_step {fl : Floats} {o : Opts} {x x' : XSt} {es es' : List Event}
    (h : xstep fl o x es = .ok (false, x', es')) (hl : es'.length < es.length) : Goes fl o x es x' es' := by
  refine ⟨1, by omega, fun k => ?_⟩
  rw [xloop, h]

theorem fails_step {fl : Floats} {o : Opts} {x : XSt} {es : List Event} {e : Fault}
    (h : xstep fl o x es = .error e) : Fails fl o x es := by
  intro k hk
  cases k with
  | zero => omega
  | succ k => exact ⟨e, by rw [xloop, h]⟩

theorem goes_nl (fl : Floats) (o : Opts) (lb : Bool) (x : XSt) (r : List Tok) (hr : NoChr r) :
    Goes fl o x (events ((nl lb).map Tok.chr ++ r)) x (events r) := by
  rw [events_nl lb r hr]
  cases lb with
  | false => exact Goes.refl fl o x _
  | true => exact goes_step (x' := x) rfl (by simp [nlEv])

theorem events_suffix (a : List Tok) : ∀ b : List Tok, (events b).length ≤ (events (a ++ b)).length := by
  induction a with
  | nil => intro b; exact Nat.le_refl _
  | cons t a ih =>
    intro b
    have h := ih b
    rw [List.cons_append]
    cases t with
    | chr c =>
      rcases events_chr_cases c (a ++ b) with h1 | ⟨s, es, h1, h2⟩
      · rw [h1, List.length_cons]; omega
      · rw [h1] at h
        rw [h2]
        exact h
    | skip s => rw [events]; exact h
    | start n as => rw [events, List.length_cons]; omega
    | empty n as => rw [events, List.length_cons]; omega
    | «end» n => rw [events, List.length_cons]; omega
    | ref n => rw [events, List.length_cons]; omega

/-! ## The tags -/

/-- The name of a tag. -/
def tagName : TTag → Str
  | .group => tRowGroup
  | .header => tHeaderRows
  | .row => tRow
  | .colGroup => tColGroup
  | .colHeader => tHeaderCols

theorem tagName_inj (a b : TTag) (h : tagName a = tagName b) : a = b := by
  cases a <;> cases b <;> first | rfl | (revert h; decide)

theorem tagName_table (a : TTag) : tagName a ≠ tTable := by cases a <;> decide

/-- What comes of one event: the tags still open and the state, or an error. -/
def after1 (ro : ReadOpts) (st : RState) (stack : List TTag) (e : TEv) : Option (List TTag × RState) :=
  match checkTags stack [e], readStep ro st e with
  | some stack', some st' => some (stack', st')
  | _, _ => none

/-- The same for a list of events. -/
def afterAll (ro : ReadOpts) (st : RState) (stack : List TTag) (evs : List TEv) : Option (List TTag × RState) :=
  match checkTags stack evs, readEvents ro st evs with
  | some stack', some st' => some (stack', st')
  | _, _ => none

theorem checkTags_cons (stack : List TTag) (e : TEv) (evs : List TEv) :
    checkTags stack (e :: evs) = (checkTags stack [e]).bind (fun s => checkTags s evs) := by
  rw [checkTags, checkTags]
  split
  · rfl
  · split
    · split
      · split
        · rfl
        · rfl
      · rfl
    · rfl

theorem afterAll_cons (ro : ReadOpts) (st : RState) (stack : List TTag) (e : TEv) (evs : List TEv) :
    afterAll ro st stack (e :: evs) = (after1 ro st stack e).bind (fun p => afterAll ro p.2 p.1 evs) := by
  unfold afterAll after1
  rw [checkTags_cons, readEvents]
  cases h1 : checkTags stack [e] with
  | none => rfl
  | some s =>
    cases h2 : readStep ro st e with
    | none =>
      simp only [Option.bind_some]
      cases checkTags s evs <;> rfl
    | some st' => rfl

/-- The state of the reader for a stack of tags. -/
def xst (h : Head) (stack : List TTag) (st : RState) : XSt := ⟨h, stack.map tagName, st⟩

/-- The reader does what the abstract reader does. -/
def Does (fl : Floats) (o : Opts) (h : Head) (stack : List TTag) (st : RState) (es : List Event)
    (r : Option (List TTag × RState)) (es' : List Event) : Prop :=
  match r with
  | some (stack', st') => Goes fl o (xst h stack st) es (xst h stack' st') es'
  | none => Fails fl o (xst h stack st) es

theorem readStep_opts (ro : ReadOpts) (st : RState) (e : TEv) (h : ∀ c r b, e ≠ .cell c r b) :
    readStep ro st e = readStep {} st e := by
  cases e with
  | cell c r b => exact absurd rfl (h c r b)
  | _ => rfl

theorem does_start (fl : Floats) (o : Opts) (ro : ReadOpts) (h : Head) (stack : List TTag) (st : RState) (e : TEv)
    (t : TTag) (as : List (Str × Str)) (r : List Tok) (he : e.opens = some t) (hr : NoChr r)
    (hs : startTag (tagName t) as = .ok (some e)) :
    Does fl o h stack st (events (.start (tagName t) as :: r)) (after1 ro st stack e) (events r) := by
  have hro : readStep ro st e = readStep {} st e := readStep_opts ro st e (by
    intro c r b h; subst h; cases he)
  have hc : checkTags stack [e] = some (t :: stack) := by rw [checkTags, he]; rfl
  have hx : xstep fl o (xst h stack st) (events (.start (tagName t) as :: r))
      = stepTag (xst h (t :: stack) st) e (events r) := by
    rw [events, xstep]
    rw [if_neg (by cases t <;> decide), if_neg (by cases t <;> decide), hs]
    rfl
  unfold after1
  rw [hc, hro]
  unfold stepTag at hx
  have hst : (xst h (t :: stack) st).st = st := rfl
  rw [hst] at hx
  cases hst : readStep {} st e with
  | none =>
    rw [hst] at hx
    exact fails_step hx
  | some st' =>
    rw [hst] at hx
    exact goes_step hx (by rw [events]; simp)

theorem does_end (fl : Floats) (o : Opts) (ro : ReadOpts) (lb : Bool) (h : Head) (stack : List TTag) (st : RState)
    (e : TEv) (t : TTag) (r : List Tok) (he : e.closes = some t) (hr : NoChr r) (hs : endTag (tagName t) = some e) :
    Does fl o h stack st (events (.end (tagName t) :: ((nl lb).map Tok.chr ++ r))) (after1 ro st stack e)
      (events r) := by
  have hro : readStep ro st e = readStep {} st e := readStep_opts ro st e (by
    intro c r b h; subst h; cases he)
  have ho : e.opens = none := by cases e <;> first | rfl | cases he
  rw [events]
  unfold after1
  rw [checkTags, ho]
  simp only
  rw [he]
  simp only
  rw [hro]
  cases stack with
  | nil =>
    simp only
    refine fails_step (e := .mismatchedEnd) ?_
    rw [xstep, if_pos (show tagName t ≠ (xst h [] st).names.headD tTable from tagName_table t)]
  | cons t' stack =>
    simp only
    by_cases ht : t = t'
    · subst ht
      rw [if_pos rfl, checkTags]
      have hx : xstep fl o (xst h (t :: stack) st) (.end (tagName t) :: events ((nl lb).map Tok.chr ++ r))
          = stepTag (xst h stack st) e (events ((nl lb).map Tok.chr ++ r)) := by
        rw [xstep, if_neg (by simp [xst]), if_neg (tagName_table t), hs]
        rfl
      unfold stepTag at hx
      have hst : (xst h stack st).st = st := rfl
      rw [hst] at hx
      cases hst : readStep {} st e with
      | none =>
        rw [hst] at hx
        exact fails_step hx
      | some st' =>
        rw [hst] at hx
        exact Goes.trans (goes_step hx (by simp)) (goes_nl fl o lb _ r hr)
    · rw [if_neg ht]
      refine fails_step (e := .mismatchedEnd) ?_
      rw [xstep, if_pos (show tagName t ≠ (xst h (t' :: stack) st).names.headD tTable from
        fun e => ht (tagName_inj _ _ e))]

theorem does_column (fl : Floats) (o : Opts) (ro : ReadOpts) (lb : Bool) (h : Head) (stack : List TTag) (st : RState)
    (t : ColTag) (r : List Tok) (hr : NoChr r) (hn : ∀ n, t.repeated = some n → n ≤ maxRep) :
    Does fl o h stack st (events (.empty tColumn (rawAttrs (colAtts t)) :: ((nl lb).map Tok.chr ++ r)))
      (after1 ro st stack (.column t)) (events r) := by
  have hx : xstep fl o (xst h stack st)
        (.empty tColumn (rawAttrs (colAtts t)) :: events ((nl lb).map Tok.chr ++ r))
      = stepTag (xst h stack st) (.column t) (events ((nl lb).map Tok.chr ++ r)) := by
    rw [xstep, if_neg (by decide), if_neg (by decide), if_pos rfl, colAtts_read t hn]
  rw [events]
  have hc : checkTags stack [.column t] = some stack := rfl
  unfold after1
  rw [hc, readStep_opts ro st _ (by intro c r b h; cases h)]
  unfold stepTag at hx
  have hst : (xst h stack st).st = st := rfl
  rw [hst] at hx
  cases hst : readStep {} st (.column t) with
  | none =>
    rw [hst] at hx
    exact fails_step hx
  | some st' =>
    rw [hst] at hx
    exact Goes.trans (goes_step hx (by simp)) (goes_nl fl o lb _ r hr)

/-! ## Cells -/

/-- What reading makes of a cell. -/
def decode (bv : Value → Value) (defStyle : ValueType → Option String) (d : CellData) : CellData :=
  CellContent.toData { d.toContent with value := bv d.value, style := outStyle defStyle d }

/-- The options of the abstract reader. -/
def absOpts (bv : Value → Value) (defStyle : ValueType → Option String) (o : Opts) : ReadOpts :=
  { dec := fun d => some (decode bv defStyle d), ignoreEmpty := o.ignoreEmpty, useRepeat := o.useRepeat }

theorem toData_toContent (x : CellContent) : x.toData.toContent = x := by
  obtain ⟨v, st, f, r, va, ⟨a, b⟩, ⟨c, d⟩, an, df⟩ := x
  unfold CellContent.toData
  simp only
  split
  · rfl
  · rename_i h
    simp only [Bool.or_eq_true, Bool.not_eq_true', not_or, Bool.not_eq_true, Option.isSome_eq_false_iff,
      Option.isNone_iff_eq_none, Bool.not_eq_false, List.isEmpty_iff] at h
    obtain ⟨⟨⟨⟨h1, h2⟩, h3⟩, h4⟩, h5⟩ := h
    unfold CellSpan.isEmpty at h2 h3
    simp only [Bool.and_eq_true, beq_iff_eq] at h2 h3
    obtain ⟨rfl, rfl⟩ := h2
    obtain ⟨rfl, rfl⟩ := h3
    subst h1 h4 h5
    rfl

theorem toData_repeat (x : CellContent) (n : Nat) :
    ({ x with «repeat» := n } : CellContent).toData = { x.toData with «repeat» := n } := rfl

theorem xstep_cell (fl : Floats) (o : Opts) (x : XSt) (hidden : Bool) (es : List Event) (as : List (Str × Str))
    (es0 : List Event) (hes : es = .start (cellTag hidden) as :: es0 ∨ es = .empty (cellTag hidden) as :: es0) :
    xstep fl o x es =
      match readCellNext fl o.ignoreEmpty (x.st.sheet.colHeader.colCellstyle x.st.col) es with
      | .error e => .error e
      | .ok (r, es) =>
        .ok (false, { x with st := { x.st with
          sheet := { x.st.sheet with data := putCell x.st.sheet.data (x.st.row, x.st.col) r.cell }
          col := x.st.col + r.repeat
          colData := x.st.colData || r.cell.isSome } }, es) := by
  rcases hes with rfl | rfl
  · rw [xstep, if_neg (by cases hidden <;> decide), if_pos (by cases hidden <;> decide), readCellNext]
    rfl
  · rw [xstep, if_neg (by cases hidden <;> decide), if_pos (by cases hidden <;> decide), readCellNext]
    rfl

theorem cell_shape (fl : Floats) (defStyle : ValueType → Option String) (lb : Bool) (d : CellData) (hidden : Bool)
    (rep : Nat) (r : List Tok) :
    ∃ as es0, (events ((cellItems fl defStyle d hidden rep).flatMap (itemToks lb) ++ r)
        = .start (cellTag hidden) as :: es0
      ∨ events ((cellItems fl defStyle d hidden rep).flatMap (itemToks lb) ++ r)
        = .empty (cellTag hidden) as :: es0)
      ∧ (events ((nl lb).map Tok.chr ++ r)).length ≤ es0.length := by
  unfold cellItems
  split
  · refine ⟨rawAttrs (headAtts defStyle d rep ++ valueAtts fl d.value),
      events ((valueBody fl d.value ++ noteItems d ++ [Item.end true (cellTag hidden)]).flatMap (itemToks lb) ++ r), .inl ?_, ?_⟩
    · simp only [List.flatMap_cons, itemToks, List.cons_append, List.nil_append]
      rfl
    · rw [List.flatMap_append, List.append_assoc]
      refine Nat.le_trans ?_ (events_suffix _ _)
      simp only [List.flatMap_cons, itemToks, List.flatMap_nil, List.append_nil, List.cons_append]
      rw [events, List.length_cons]
      omega
  · refine ⟨rawAttrs (headAtts defStyle d rep ++ valueAtts fl d.value), events ((nl lb).map Tok.chr ++ r),
      .inr ?_, Nat.le_refl _⟩
    simp only [List.flatMap_cons, itemToks, List.flatMap_nil, List.append_nil, List.cons_append]
    rfl

theorem does_cell (fl : Floats) (o : Opts) (bv : Value → Value) (defStyle : ValueType → Option String) (lb : Bool)
    (h : Head) (stack : List TTag) (st : RState) (hidden : Bool) (rep : Option Nat) (d : CellData) (r : List Tok)
    (hr : NoChr r) (hf : Fits fl lb bv (.cell hidden rep (some d))) :
    Does fl o h stack st (events (tagToks fl defStyle lb (.cell hidden rep (some d)) ++ r))
      (after1 (absOpts bv defStyle o) st stack (.cell hidden rep (some d))) (events r) := by
  obtain ⟨h1, h2, ⟨hp, hk, hs, hm⟩, hw, hv⟩ := hf
  obtain ⟨t, w, hpc, hvr, hwv, h0⟩ := hv (cellTag hidden)
  obtain ⟨x, a1, a2⟩ := cell_read fl defStyle d hidden (rep.getD 1) lb o.ignoreEmpty
    (st.sheet.colHeader.colCellstyle st.col) t w hp h1 h2 hs hm hpc hvr h0 r
  obtain ⟨as, es0, hes, hlen⟩ := cell_shape fl defStyle lb d hidden (rep.getD 1) r
  have htok : tagToks fl defStyle lb (.cell hidden rep (some d))
      = (cellItems fl defStyle d hidden (rep.getD 1)).flatMap (itemToks lb) := rfl
  rw [htok]
  have hx := xstep_cell fl o (xst h stack st) hidden _ as es0 hes
  have hst : (xst h stack st).st = st := rfl
  rw [hst, a1] at hx
  simp only at hx
  -- the cell that is stored
  have htidy : ∀ c, x = some c → c = c.toContent.toData := by
    intro c hc
    rcases hes with he | he
    · rw [he, readCellNext] at a1
      exact (tidy_read fl _ _ _ _ _ _ _ _ c a1 hc).symm
    · rw [he, readCellNext] at a1
      exact (tidy_read fl _ _ _ _ _ _ _ _ c a1 hc).symm
  rw [hwv, head_kept defStyle d hk] at a2
  have hig : Verif.ignoreCell (absOpts bv defStyle o) (st.sheet.colHeader.colCellstyle st.col) (decode bv defStyle d)
      = ignoreContent o.ignoreEmpty (st.sheet.colHeader.colCellstyle st.col)
          { d.toContent with value := bv d.value, style := outStyle defStyle d, «repeat» := 1 } := by
    have := ignoreCell_content o.ignoreEmpty (st.sheet.colHeader.colCellstyle st.col) (decode bv defStyle d)
    unfold decode at this
    rw [toData_toContent] at this
    exact this
  have hstep : readStep (absOpts bv defStyle o) st (.cell hidden rep (some d))
      = some { st with sheet := { st.sheet with data := putCell st.sheet.data (st.row, st.col) x }
                       col := st.col + rep.getD 1, colData := st.colData || x.isSome } := by
    have hread : readCell (absOpts bv defStyle o) st.sheet.colHeader st.sheet.data st.row st.col (rep.getD 1) (some d)
        = (putCell st.sheet.data (st.row, st.col) x, x.isSome) := by
      unfold readCell
      show (if Verif.ignoreCell (absOpts bv defStyle o) (st.sheet.colHeader.colCellstyle st.col) (decode bv defStyle d)
        then _ else _) = _
      rw [hig]
      cases hi : ignoreContent o.ignoreEmpty (st.sheet.colHeader.colCellstyle st.col)
          { d.toContent with value := bv d.value, style := outStyle defStyle d, «repeat» := 1 } with
      | true =>
        rw [hi, if_pos rfl] at a2
        cases x with
        | none => rfl
        | some c => cases a2
      | false =>
        rw [hi, if_neg (by simp)] at a2
        cases x with
        | none => cases a2
        | some c =>
          simp only [Option.map_some, Option.some.injEq] at a2
          have hc := htidy c rfl
          rw [a2] at hc
          rw [hc]
          rfl
    show (let rep' := rep.getD 1
      let (data, have_) := readCell (absOpts bv defStyle o) st.sheet.colHeader st.sheet.data st.row st.col rep' (some d)
      some { st with sheet := { st.sheet with data := data }
                     col := st.col + rep', colData := st.colData || have_ }) = _
    simp only [hread]
  have hc : checkTags stack [.cell hidden rep (some d)] = some stack := rfl
  unfold after1
  rw [hc, hstep]
  refine Goes.trans (goes_step hx ?_) (goes_nl fl o lb _ r hr)
  rcases hes with he | he <;> rw [he, List.length_cons] <;> omega

theorem does_blank (fl : Floats) (o : Opts) (ro : ReadOpts) (lb : Bool)
    (h : Head) (stack : List TTag) (st : RState) (hidden : Bool) (rep : Option Nat) (r : List Tok)
    (hr : NoChr r) (hn : ∀ n, rep = some n → n ≤ maxRep) :
    Does fl o h stack st (events (.empty (cellTag hidden) (rawAttrs (numA "table:number-columns-repeated".toList rep))
        :: ((nl lb).map Tok.chr ++ r)))
      (after1 ro st stack (.cell hidden rep none)) (events r) := by
  have hx := xstep_cell fl o (xst h stack st) hidden _ _
    (events ((nl lb).map Tok.chr ++ r)) (.inr (rfl : events (.empty (cellTag hidden)
      (rawAttrs (numA "table:number-columns-repeated".toList rep)) :: ((nl lb).map Tok.chr ++ r)) = _))
  have hattr : cellAttrs fl {} (rawAttrs (numA "table:number-columns-repeated".toList rep))
      = .ok { «repeat» := rep.getD 1 } := by
    cases rep with
    | none => rfl
    | some n =>
      show cellAttrs fl {} [("table:number-columns-repeated".toList, escape (decNat n))] = _
      rw [cellAttrs_one, cellAttr, key_repeated]
      simp only
      rw [escape_dec, parseU32_dec n (hn n rfl)]
      rfl
  have hst : (xst h stack st).st = st := rfl
  have hrd : readCellNext fl o.ignoreEmpty ((xst h stack st).st.sheet.colHeader.colCellstyle (xst h stack st).st.col)
      (events (.empty (cellTag hidden) (rawAttrs (numA "table:number-columns-repeated".toList rep))
        :: ((nl lb).map Tok.chr ++ r)))
      = .ok (⟨rep.getD 1, none⟩, events ((nl lb).map Tok.chr ++ r)) := by
    rw [events, readCellNext, readTableCell, hattr]
    rfl
  rw [hrd] at hx
  have hc : checkTags stack [.cell hidden rep none] = some stack := rfl
  have hstep : readStep ro st (.cell hidden rep none)
      = some { st with sheet := { st.sheet with data := st.sheet.data }
                       col := st.col + rep.getD 1, colData := st.colData || false } := rfl
  unfold after1
  rw [hc, hstep]
  exact Goes.trans (goes_step hx (by rw [events]; simp)) (goes_nl fl o lb _ r hr)

theorem does_tag (fl : Floats) (o : Opts) (bv : Value → Value) (defStyle : ValueType → Option String) (lb : Bool)
    (h : Head) (stack : List TTag) (st : RState) (e : TEv) (r : List Tok)
    (hr : NoChr r) (hf : Fits fl lb bv e) :
    Does fl o h stack st (events (tagToks fl defStyle lb e ++ r))
      (after1 (absOpts bv defStyle o) st stack e) (events r) := by
  cases e with
  | cell c rep b =>
    cases b with
    | none =>
      have := does_blank fl o (absOpts bv defStyle o) lb h stack st c rep r hr hf
      simpa [tagToks, tagItems, itemToks, tagName] using this
    | some d => exact does_cell fl o bv defStyle lb h stack st c rep d r hr hf
  | groupStart d =>
    have := does_start fl o (absOpts bv defStyle o) h stack st (.groupStart d) .group (rawAttrs (groupAtts d)) r rfl hr
      (by
        unfold startTag
        rw [if_neg (by decide), if_neg (by decide), if_pos (by decide), groupAtts_read]; rfl)
    simpa [tagToks, tagItems, itemToks, tagName] using this
  | colGroupStart d =>
    have := does_start fl o (absOpts bv defStyle o) h stack st (.colGroupStart d) .colGroup
      (rawAttrs (groupAtts d)) r rfl hr
      (by
        unfold startTag
        rw [if_pos (by decide), groupAtts_read]; rfl)
    simpa [tagToks, tagItems, itemToks, tagName] using this
  | rowStart t =>
    have := does_start fl o (absOpts bv defStyle o) h stack st (.rowStart t) .row (rawAttrs (rowAtts t)) r rfl hr
      (by
        unfold startTag
        rw [if_neg (by decide), if_neg (by decide), if_neg (by decide), if_neg (by decide), if_pos (by decide),
          rowAtts_read t hf]; rfl)
    simpa [tagToks, tagItems, itemToks, tagName] using this
  | headerStart =>
    have := does_start fl o (absOpts bv defStyle o) h stack st .headerStart .header (rawAttrs []) r rfl hr
      (by
        unfold startTag
        rw [if_neg (by decide), if_neg (by decide), if_neg (by decide), if_pos (by decide)])
    simpa [tagToks, tagItems, itemToks, tagName] using this
  | colHeaderStart =>
    have := does_start fl o (absOpts bv defStyle o) h stack st .colHeaderStart .colHeader (rawAttrs []) r rfl hr
      (by
        unfold startTag
        rw [if_neg (by decide), if_pos (by decide)])
    simpa [tagToks, tagItems, itemToks, tagName] using this
  | column t =>
    have := does_column fl o (absOpts bv defStyle o) lb h stack st t r hr hf
    simpa [tagToks, tagItems, itemToks, tagName] using this
  | groupEnd =>
    have := does_end fl o (absOpts bv defStyle o) lb h stack st .groupEnd .group r rfl hr (by decide)
    simpa [tagToks, tagItems, itemToks, tagName] using this
  | headerEnd =>
    have := does_end fl o (absOpts bv defStyle o) lb h stack st .headerEnd .header r rfl hr (by decide)
    simpa [tagToks, tagItems, itemToks, tagName] using this
  | rowEnd =>
    have := does_end fl o (absOpts bv defStyle o) lb h stack st .rowEnd .row r rfl hr (by decide)
    simpa [tagToks, tagItems, itemToks, tagName] using this
  | colGroupEnd =>
    have := does_end fl o (absOpts bv defStyle o) lb h stack st .colGroupEnd .colGroup r rfl hr (by decide)
    simpa [tagToks, tagItems, itemToks, tagName] using this
  | colHeaderEnd =>
    have := does_end fl o (absOpts bv defStyle o) lb h stack st .colHeaderEnd .colHeader r rfl hr (by decide)
    simpa [tagToks, tagItems, itemToks, tagName] using this

theorem noChr_tag (fl : Floats) (defStyle : ValueType → Option String) (lb : Bool) (e : TEv) (r : List Tok) :
    NoChr (tagToks fl defStyle lb e ++ r) := by
  cases e with
  | cell c rep b =>
    cases b with
    | none =>
      simp only [tagToks, tagItems, itemToks, List.flatMap_cons, List.cons_append]
      exact noChr_cons _ _ (by intro c; simp)
    | some d =>
      unfold tagToks tagItems cellItems
      simp only
      split
      · simp only [itemToks, List.flatMap_cons, List.cons_append]
        exact noChr_cons _ _ (by intro c; simp)
      · simp only [itemToks, List.flatMap_cons, List.cons_append]
        exact noChr_cons _ _ (by intro c; simp)
  | _ =>
    simp only [tagToks, tagItems, itemToks, List.flatMap_cons, List.cons_append]
    exact noChr_cons _ _ (by intro c; simp)

theorem noChr_tags (fl : Floats) (defStyle : ValueType → Option String) (lb : Bool) (evs : List TEv) (r : List Tok)
    (hr : NoChr r) : NoChr (evs.flatMap (tagToks fl defStyle lb) ++ r) := by
  cases evs with
  | nil => exact hr
  | cons e evs =>
    rw [List.flatMap_cons, List.append_assoc]
    exact noChr_tag fl defStyle lb e _

/-- All tags. -/
theorem does_tags (fl : Floats) (o : Opts) (bv : Value → Value) (defStyle : ValueType → Option String) (lb : Bool)
    (h : Head) (r : List Tok) (hr : NoChr r) (evs : List TEv) : ∀ (stack : List TTag) (st : RState),
    (∀ e ∈ evs, Fits fl lb bv e) →
    Does fl o h stack st (events (evs.flatMap (tagToks fl defStyle lb) ++ r))
      (afterAll (absOpts bv defStyle o) st stack evs) (events r) := by
  induction evs with
  | nil => intro stack st _; exact Goes.refl fl o _ _
  | cons e evs ih =>
    intro stack st hf
    have h1 := does_tag fl o bv defStyle lb h stack st e (evs.flatMap (tagToks fl defStyle lb) ++ r)
      (noChr_tags fl defStyle lb evs r hr) (hf e List.mem_cons_self)
    rw [List.flatMap_cons, List.append_assoc, afterAll_cons]
    cases ha : after1 (absOpts bv defStyle o) st stack e with
    | none =>
      rw [ha] at h1
      exact h1
    | some p =>
      obtain ⟨stack', st'⟩ := p
      rw [ha] at h1
      have h2 := ih stack' st' (fun e he => hf e (List.mem_cons_of_mem _ he))
      simp only [Option.bind_some]
      cases hb : afterAll (absOpts bv defStyle o) st' stack' evs with
      | none =>
        rw [hb] at h2
        exact Goes.fails h1 h2
      | some q =>
        obtain ⟨stack2, st2⟩ := q
        rw [hb] at h2
        exact Goes.trans h1 h2

end Verif.TableXml
