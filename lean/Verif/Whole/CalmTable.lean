import Verif.Whole.Calm
import Verif.Grid.Accept

/-!
# Reading comes to an end: tables and validations
-/

set_option autoImplicit false

namespace Verif.Whole

open Xml Codec Xml.Spec
open TableXml (tTable tRow tColumn tRowGroup tColGroup tHeaderRows tHeaderCols XSt)

/-! ## What the reader stumbles over -/

/-- The text is not that of a duration whose parts are durations, but whose sum is too long for one. -/
def DurationFits (s : Str) : Prop := parseDuration s ≠ .error .panic

/-- The text of an element up to its end tag. -/
def textUpTo (tag : Str) : List Event → Str
  | [] => []
  | .text s :: es => s ++ textUpTo tag es
  | .ref r :: es => entity r ++ textUpTo tag es
  | .end n :: es => if n = tag then [] else textUpTo tag es
  | .start _ _ :: es => textUpTo tag es
  | .empty _ _ :: es => textUpTo tag es

/-- An attribute that is no trap: no duration that is too long, no row or column that is repeated zero times, and no
condition of a validation that has fewer than three bytes, or a character across the third one. -/
structure AttrSafe (k v : Str) : Prop where
  duration : DurationFits v
  unescaped : ∀ s, unescape v = some s → DurationFits s
  rows : k = "table:number-rows-repeated".toList → parseU32 v ≠ some 0
  cols : k = "table:number-columns-repeated".toList → parseU32 v ≠ some 0
  condition : k = "table:condition".toList → ∀ s, unescape v = some s → Valid.splitBytes s 3 ≠ none

/-- An event that is no trap, with the events behind it: in addition there are no empty tags for scripts, and
behind the start of a table there are more end tags than start tags, as in each document that is complete. -/
def EvSafe : Event → List Event → Prop
  | .start n as, es =>
    (∀ a ∈ as, AttrSafe a.1 a.2) ∧ (n = "meta:editing-duration".toList → DurationFits (textUpTo n es))
      ∧ (n = tTable → 1 ≤ excess es)
  | .empty n as, _ => (∀ a ∈ as, AttrSafe a.1 a.2) ∧ n ≠ "office:script".toList
  | .text s, _ => DurationFits s
  | .ref _, _ => True
  | .end _, _ => True

/-- No event is a trap. -/
def EventsSafe : List Event → Prop
  | [] => True
  | ev :: es => EvSafe ev es ∧ EventsSafe es

/-- The end of header rows and of a group of rows comes directly after the end of a row, or of other header rows or of
another group, and the same for columns.  The flags: whether such an end may follow. -/
def Closed : Bool → Bool → List Event → Prop
  | _, _, [] => True
  | r, c, .text _ :: es => Closed r c es
  | r, c, .ref _ :: es => Closed r c es
  | _, _, .start _ _ :: es => Closed false false es
  | _, _, .empty n _ :: es => Closed false (decide (n = tColumn)) es
  | r, c, .end n :: es =>
    if n = tRow then Closed true false es
    else if n = tHeaderRows ∨ n = tRowGroup then r = true ∧ Closed true false es
    else if n = tHeaderCols ∨ n = tColGroup then c = true ∧ Closed false true es
    else Closed false false es

/-- Events that the readers do not stumble over. -/
def Smooth (es : List Event) : Prop := EventsSafe es ∧ ∃ r c, Closed r c es

/-! ## Events -/

theorem closed_tail (r c : Bool) (ev : Event) (es : List Event) (h : Closed r c (ev :: es)) : ∃ r c, Closed r c es := by
  cases ev with
  | text s => exact ⟨_, _, h⟩
  | ref s => exact ⟨_, _, h⟩
  | start n as => exact ⟨_, _, h⟩
  | empty n as => exact ⟨_, _, h⟩
  | «end» n =>
    rw [Closed] at h
    split at h
    · exact ⟨_, _, h⟩
    · split at h
      · exact ⟨_, _, h.2⟩
      · split at h
        · exact ⟨_, _, h.2⟩
        · exact ⟨_, _, h⟩

theorem smooth_inherited : Inherited Smooth := by
  rintro ev es ⟨h1, r, c, h2⟩
  exact ⟨h1.2, closed_tail r c ev es h2⟩

theorem closed_ends {r c : Bool} {es es' : List Event} (e : Ends es es') (h : Closed r c es) : ∃ r c, Closed r c es' := by
  obtain ⟨pre, e⟩ := e
  subst e
  induction pre generalizing r c with
  | nil => exact ⟨r, c, h⟩
  | cons ev pre ih =>
    obtain ⟨r, c, h⟩ := closed_tail r c ev _ h
    exact ih h

/-- The names of the elements whose ends matter. -/
def turnNames : List Str := [tRow, tHeaderRows, tRowGroup, tHeaderCols, tColGroup]

theorem closed_end (r c : Bool) (n : Str) (es : List Event) (hn : n ∉ turnNames) (h : Closed r c (.end n :: es)) :
    Closed false false es := by
  simp only [turnNames, List.mem_cons, List.not_mem_nil, or_false, not_or] at hn
  obtain ⟨h1, h2, h3, h4, h5⟩ := hn
  rw [Closed, if_neg h1, if_neg (by simp [h2, h3]), if_neg (by simp [h4, h5])] at h
  exact h

theorem closed_after {n : Str} {es es' : List Event} (e : After n es es') (hn : n ∉ turnNames) (r c : Bool)
    (h : Closed r c es) : Closed false false es' := by
  rcases e with e | ⟨pre, e⟩
  · subst e; trivial
  · obtain ⟨r, c, h⟩ := closed_ends (es' := .end n :: es') ⟨pre, e⟩ h
    exact closed_end r c n es' hn h

/-! ## Cells -/

theorem readDuration_calm (v : Str) (h : DurationFits v) : Calm (readDuration v) := by
  unfold readDuration
  cases hp : parseDuration v with
  | ok n => exact calm_ok _
  | error e =>
    cases e with
    | err => exact calm_error (by decide) (by decide)
    | panic => exact absurd hp h

/-- The type of the value. -/
def TypeOk (s : CellState) : Prop := s.valType ≠ .textXml

theorem map_keeps {α β : Type} {r : Except Fault α} {g : α → β} {Q : β → Prop} (h : ∀ a, r = .ok a → Q (g a)) :
    ∀ b, r.map g = .ok b → Q b := by
  intro b e
  cases hr : r with
  | error f => rw [hr] at e; cases e
  | ok a => rw [hr] at e; cases e; exact h a hr

theorem span_calm (s : CellState) (v : Str) (f : Nat → CellDataExt → CellDataExt) (hs : TypeOk s) :
    Calm (s.span v f) ∧ ∀ s', s.span v f = .ok s' → TypeOk s' := by
  unfold CellState.span
  cases parseU32 v with
  | none => exact ⟨calm_error (by decide) (by decide), by intro s' h; cases h⟩
  | some n =>
    refine ⟨calm_ok _, ?_⟩
    intro s' h
    cases h
    split <;> exact hs

theorem cellAttr_calm (fl : Floats) (s : CellState) (k v : Str) (hv : DurationFits v) (hs : TypeOk s) :
    Calm (cellAttr fl s k v) ∧ ∀ s', cellAttr fl s k v = .ok s' → TypeOk s' := by
  unfold cellAttr
  cases cellKey k with
  | none => exact ⟨calm_ok _, by intro s' h; cases h; exact hs⟩
  | some key =>
    cases key with
    | repeated => exact ⟨(calm_orFail _ (by decide) (by decide)).map _, map_keeps fun a _ => hs⟩
    | rowsSpanned => exact span_calm s v _ hs
    | colsSpanned => exact span_calm s v _ hs
    | matrixRows => exact span_calm s v _ hs
    | matrixCols => exact span_calm s v _ hs
    | validation => exact ⟨(calm_orFail _ (by decide) (by decide)).map _, map_keeps fun a _ => hs⟩
    | valueType =>
      refine ⟨(calm_orFail _ (by decide) (by decide)).map _, map_keeps fun t ht => ?_⟩
      refine valueType_text v t ?_
      cases hr : readValueType v with
      | none => rw [hr] at ht; cases ht
      | some u => rw [hr] at ht; cases ht; rfl
    | dateValue => exact ⟨(calm_orFail _ (by decide) (by decide)).map _, map_keeps fun a _ => hs⟩
    | timeValue => exact ⟨(readDuration_calm v hv).map _, map_keeps fun a _ => hs⟩
    | value => exact ⟨(calm_orFail _ (by decide) (by decide)).map _, map_keeps fun a _ => hs⟩
    | boolValue => exact ⟨(calm_orFail _ (by decide) (by decide)).map _, map_keeps fun a _ => hs⟩
    | stringValue => exact ⟨(calm_orFail _ (by decide) (by decide)).map _, map_keeps fun a _ => hs⟩
    | currency => exact ⟨calm_ok _, by intro s' h; cases h; exact hs⟩
    | formula => exact ⟨(calm_orFail _ (by decide) (by decide)).map _, map_keeps fun a _ => hs⟩
    | style => exact ⟨(calm_orFail _ (by decide) (by decide)).map _, map_keeps fun a _ => hs⟩

theorem cellAttrs_calm (fl : Floats) : ∀ (as : List (Str × Str)) (s : CellState), (∀ a ∈ as, AttrSafe a.1 a.2) →
    TypeOk s → Calm (cellAttrs fl s as) ∧ ∀ s', cellAttrs fl s as = .ok s' → TypeOk s' := by
  intro as
  induction as with
  | nil => intro s _ hs; exact ⟨calm_ok _, by intro s' h; cases h; exact hs⟩
  | cons p as ih =>
    intro s ha hs
    obtain ⟨k, v⟩ := p
    rw [cellAttrs]
    obtain ⟨h1, h2⟩ := cellAttr_calm fl s k v (ha (k, v) (by simp)).duration hs
    cases hr : cellAttr fl s k v with
    | error f => exact ⟨h1.of hr, by intro s' h; cases h⟩
    | ok s' => exact ih s' (fun a h => ha a (by simp [h])) (h2 s' hr)

theorem cellChild_type (b : CellBody) (n : Str) (as : List (Str × Str)) (et : Bool) (es : List Event) (b' : CellBody)
    (es' : List Event) (hb : TypeOk b.st) (h : cellChild b n as et es = .ok (some (b', es'))) : TypeOk b'.st := by
  unfold cellChild at h
  split at h
  · split at h
    · exact (map_keeps (Q := fun o => ∀ p, o = some p → TypeOk p.1.st)
        (fun c _ p hp => by cases hp; exact hb) _ h) _ rfl
    · split at h
      · cases h
      · exact (map_keeps (Q := fun o => ∀ p, o = some p → TypeOk p.1.st)
          (fun c _ p hp => by cases hp; exact hb) _ h) _ rfl
  · split at h
    · exact (map_keeps (Q := fun o => ∀ p, o = some p → TypeOk p.1.st)
        (fun c _ p hp => by cases hp; exact hb) _ h) _ rfl
    · split at h
      · exact (map_keeps (Q := fun o => ∀ p, o = some p → TypeOk p.1.st)
          (fun c _ p hp => by cases hp; exact hb) _ h) _ rfl
      · cases h

theorem setValue_calm (s : CellState) (c : TextContent) (hs : TypeOk s) : Calm (setValue s c) := by
  unfold setValue
  cases ht : s.valType with
  | textXml => exact absurd ht hs
  | empty => exact calm_ok _
  | text =>
    simp only
    cases s.valString with
    | some v => exact calm_ok _
    | none => cases c <;> exact calm_ok _
  | boolean => exact (calm_orFail _ (by decide) (by decide)).map _
  | number => exact (calm_orFail _ (by decide) (by decide)).map _
  | percentage => exact (calm_orFail _ (by decide) (by decide)).map _
  | currency => exact (calm_orFail _ (by decide) (by decide)).map _
  | dateTime => exact (calm_orFail _ (by decide) (by decide)).map _
  | timeDuration => exact (calm_orFail _ (by decide) (by decide)).map _

theorem finishCell_calm (i : Bool) (cs : Option String) (s : CellState) (t : TextContent) (hs : TypeOk s) :
    Calm (finishCell i cs s t) := by
  unfold finishCell
  cases s.cell with
  | none => exact calm_ok _
  | some c =>
    simp only
    cases hr : setValue s t with
    | error f => exact (setValue_calm s t hs).of hr
    | ok v => exact calm_ok _

theorem readTableCell_calm (fl : Floats) (i : Bool) (cs : Option String) (tag : Str) (as : List (Str × Str)) (et : Bool)
    (es : List Event) (ha : ∀ a ∈ as, AttrSafe a.1 a.2) :
    Calm (readTableCell fl i cs tag as et es)
      ∧ ∀ x es', readTableCell fl i cs tag as et es = .ok (x, es') → Rest tag et es es' := by
  unfold readTableCell
  obtain ⟨h1, h2⟩ := cellAttrs_calm fl as {} ha (by intro h; cases h)
  cases hr : cellAttrs fl {} as with
  | error f => exact ⟨h1.of hr, by intro x es' h; cases h⟩
  | ok s =>
    have hs := h2 s hr
    simp only
    cases et with
    | true =>
      simp only [if_true]
      cases hf : finishCell i cs s .empty with
      | error f => exact ⟨(finishCell_calm i cs s .empty hs).of hf, by intro x es' h; cases h⟩
      | ok c => exact ⟨calm_ok _, by intro x es' h; cases h; rfl⟩
    | false =>
      simp only [Bool.false_eq_true, if_false]
      obtain ⟨g1, g2⟩ := cellChild_plain.loop tag ⟨s, .empty⟩ es
      have ok : ChildOk cellChild (fun _ => True) (fun b _ => TypeOk b.st) :=
        ⟨fun a n as et es _ _ => (cellChild_plain a n as et es).1,
         fun a n as et es a' es' _ hi e => ⟨((cellChild_plain a n as et es).2 a' es' e).ends,
          cellChild_type a n as et es a' es' hi e⟩⟩
      obtain ⟨_, g3⟩ := subLoop_calm tag cellChild (fun _ => True) (fun b _ => TypeOk b.st) (fun _ _ _ => trivial)
        (fun _ _ h => h) ok (es.length + 1) ⟨s, .empty⟩ [] es (by omega) trivial hs
      unfold cellLoop
      cases hl : subLoop tag cellChild (es.length + 1) ⟨s, .empty⟩ [] es with
      | error f => exact ⟨g1.of hl, by intro x es' h; cases h⟩
      | ok r =>
        obtain ⟨b, es1⟩ := r
        simp only
        have hb := (g3 b es1 hl).2
        cases hf : finishCell i cs b.st b.text with
        | error f => exact ⟨(finishCell_calm i cs b.st b.text hb).of hf, by intro x es' h; cases h⟩
        | ok c => exact ⟨calm_ok _, by intro x es' h; cases h; exact g2 b es1 hl⟩

/-! ## Tables -/

theorem foldAttrs_calm {α : Type} (f : α → Str → Str → Except Fault α) (as : List (Str × Str)) (Q : α → Prop)
    (hf : ∀ p ∈ as, ∀ a, Q a → Calm (f a p.1 p.2) ∧ ∀ a', f a p.1 p.2 = .ok a' → Q a') : ∀ a, Q a →
    Calm (TableXml.foldAttrs f a as) ∧ ∀ a', TableXml.foldAttrs f a as = .ok a' → Q a' := by
  induction as with
  | nil => intro a ha; exact ⟨calm_ok _, by intro a' h; cases h; exact ha⟩
  | cons p as ih =>
    intro a ha
    obtain ⟨k, v⟩ := p
    rw [TableXml.foldAttrs]
    obtain ⟨h1, h2⟩ := hf (k, v) (by simp) a ha
    cases hr : f a k v with
    | error e => exact ⟨h1.of hr, by intro a' h; cases h⟩
    | ok a' => exact ih (fun p hp => hf p (by simp [hp])) a' (h2 a' hr)

theorem ranges_calm (m : Refs.Ints) (hm : m.wrap = true) (s : Str) : Refs.parseCellRanges m s ≠ .error .panic :=
  fun h => Refs.not_overflows_wrap m s hm (Refs.parseCellRanges_panic _ _ _ h).2

theorem ref_calm (m : Refs.Ints) (hm : m.wrap = true) (s : Str) : Refs.parseCellRef m s ≠ .error .panic :=
  fun h => Refs.not_overflows_wrap m s hm (Refs.pCellRef_panic _ _ (Refs.consumeAll_panic _ _ h))

theorem tableAttr_calm (m : Refs.Ints) (hm : m.wrap = true) (h : TableXml.Head) (k v : Str) :
    Calm (TableXml.tableAttr m h k v) := by
  unfold TableXml.tableAttr
  split
  · exact (calm_orFail _ (by decide) (by decide)).map _
  · split
    · exact (calm_orFail _ (by decide) (by decide)).map _
    · split
      · exact (calm_orFail _ (by decide) (by decide)).map _
      · split
        · exact (calm_orFail _ (by decide) (by decide)).map _
        · split
          · cases unescape v with
            | none => exact calm_error (by decide) (by decide)
            | some s =>
              simp only
              cases hr : Refs.parseCellRanges m s with
              | ok r => exact calm_ok _
              | error e =>
                cases e with
                | panic => exact absurd hr (ranges_calm m hm s)
                | _ => exact calm_error (by decide) (by decide)
          · exact calm_ok _

theorem orFail_some {α : Type} {f : Fault} {o : Option α} {a : α} (h : orFail f o = .ok a) : o = some a := by
  cases o with
  | none => cases h
  | some b => cases h; rfl

theorem rowAttr_calm (t : RowTag) (k v : Str) (ha : AttrSafe k v) (ht : t.repeated ≠ some 0) :
    Calm (TableXml.rowAttr t k v) ∧ ∀ t', TableXml.rowAttr t k v = .ok t' → t'.repeated ≠ some 0 := by
  unfold TableXml.rowAttr
  split
  · rename_i hk
    refine ⟨(calm_orFail _ (by decide) (by decide)).map _, map_keeps fun n hn => ?_⟩
    intro e
    refine ha.rows hk ?_
    rw [orFail_some hn]
    exact e
  · split
    · exact ⟨(calm_orFail _ (by decide) (by decide)).map _, map_keeps fun n hn => ht⟩
    · split
      · exact ⟨(calm_orFail _ (by decide) (by decide)).map _, map_keeps fun n hn => ht⟩
      · split
        · exact ⟨(calm_orFail _ (by decide) (by decide)).map _, map_keeps fun n hn => ht⟩
        · exact ⟨calm_ok _, by intro t' h; cases h; exact ht⟩

theorem colAttr_calm (t : ColTag) (k v : Str) (ha : AttrSafe k v) (ht : t.repeated ≠ some 0) :
    Calm (TableXml.colAttr t k v) ∧ ∀ t', TableXml.colAttr t k v = .ok t' → t'.repeated ≠ some 0 := by
  unfold TableXml.colAttr
  split
  · rename_i hk
    refine ⟨(calm_orFail _ (by decide) (by decide)).map _, map_keeps fun n hn => ?_⟩
    intro e
    refine ha.cols hk ?_
    rw [orFail_some hn]
    exact e
  · split
    · exact ⟨(calm_orFail _ (by decide) (by decide)).map _, map_keeps fun n hn => ht⟩
    · split
      · exact ⟨(calm_orFail _ (by decide) (by decide)).map _, map_keeps fun n hn => ht⟩
      · split
        · exact ⟨(calm_orFail _ (by decide) (by decide)).map _, map_keeps fun n hn => ht⟩
        · exact ⟨calm_ok _, by intro t' h; cases h; exact ht⟩

theorem groupAttr_calm (d : Option Bool) (k v : Str) : Calm (TableXml.groupAttr d k v) := by
  unfold TableXml.groupAttr
  split
  · exact (calm_orFail _ (by decide) (by decide)).map _
  · exact calm_ok _

/-- A tag at a start is a row with at least one repetition, or no end. -/
def StartOk : TEv → Prop
  | .rowStart t => t.repeated ≠ some 0
  | .colGroupStart _ => True
  | .colHeaderStart => True
  | .groupStart _ => True
  | .headerStart => True
  | _ => False

theorem startTag_calm (n : Str) (as : List (Str × Str)) (ha : ∀ a ∈ as, AttrSafe a.1 a.2) :
    Calm (TableXml.startTag n as) ∧ ∀ e, TableXml.startTag n as = .ok (some e) → StartOk e := by
  have hg := foldAttrs_calm TableXml.groupAttr as (fun _ => True)
    (fun p _ a _ => ⟨groupAttr_calm a p.1 p.2, fun _ _ => trivial⟩) none trivial
  have hr := foldAttrs_calm TableXml.rowAttr as (fun t => t.repeated ≠ some 0)
    (fun p hp a h => rowAttr_calm a p.1 p.2 (ha p hp) h) {} (by intro h; cases h)
  unfold TableXml.startTag
  split
  · refine ⟨hg.1.map _, ?_⟩
    intro e h
    exact map_keeps (Q := fun o => ∀ e, o = some e → StartOk e) (fun d _ e he => by cases he; trivial) _ h e rfl
  · split
    · exact ⟨calm_ok _, by intro e h; cases h; trivial⟩
    · split
      · refine ⟨hg.1.map _, ?_⟩
        intro e h
        exact map_keeps (Q := fun o => ∀ e, o = some e → StartOk e) (fun d _ e he => by cases he; trivial) _ h e rfl
      · split
        · exact ⟨calm_ok _, by intro e h; cases h; trivial⟩
        · split
          · refine ⟨hr.1.map _, ?_⟩
            intro e h
            exact map_keeps (Q := fun o => ∀ e, o = some e → StartOk e)
              (fun d hd e he => by cases he; exact hr.2 d hd) _ h e rfl
          · exact ⟨calm_ok _, by intro e h; cases h⟩

/-- What holds while a table is read. -/
structure Going (x : XSt) (r c : Bool) (es : List Event) : Prop where
  safe : EventsSafe es
  closed : Closed r c es
  row : r = true → 0 < x.st.row
  col : c = true → 0 < x.st.col
  rep : 0 < x.st.rowRepeat
  open_ : (x.names.length : Int) + 1 ≤ excess es

/-- The result of a turn of the loop. -/
def TurnOk (es : List Event) (res : Except Fault (Bool × XSt × List Event)) : Prop :=
  Calm res ∧ (∀ x es', res = .ok (true, x, es') → Ends es es')
    ∧ ∀ x es', res = .ok (false, x, es') → Ends es es' ∧ es'.length < es.length ∧ ∃ r c, Going x r c es'

theorem turn_error {es : List Event} {f : Fault} (h1 : f ≠ .panic) (h2 : f ≠ .endless) : TurnOk es (.error f) :=
  ⟨calm_error h1 h2, (by intro x es' h; cases h), by intro x es' h; cases h⟩

theorem turn_of {es : List Event} {α : Type} {r : Except Fault α} {f : Fault} (h : Calm r) (e : r = .error f) :
    TurnOk es (.error f) :=
  ⟨h.of e, (by intro x es' h; cases h), by intro x es' h; cases h⟩

theorem turn_next {ev : Event} {es es' : List Event} {x : XSt} (h : Ends es es') (r c : Bool) (g : Going x r c es') :
    TurnOk (ev :: es) (.ok (false, x, es')) := by
  refine ⟨calm_ok _, (by intro x es' h; cases h), ?_⟩
  intro y es2 e
  cases e
  exact ⟨h.cons ev, by have := h.length; simp; omega, r, c, g⟩

theorem turn_tag {ev : Event} {es : List Event} {x : XSt} {e : TEv} {st : RState} (h : readStep {} x.st e = some st)
    (r c : Bool) (g : Going { x with st := st } r c es) : TurnOk (ev :: es) (TableXml.stepTag x e es) := by
  unfold TableXml.stepTag
  rw [h]
  exact turn_next (Ends.refl es) r c g

theorem safe_ends {es es' : List Event} (h : Ends es es') (hs : EventsSafe es) : EventsSafe es' := by
  obtain ⟨pre, h⟩ := h
  subst h
  induction pre with
  | nil => exact hs
  | cons ev pre ih => exact ih hs.2

theorem foreign_names (n : Str) (h : n ∈ TableXml.preludeNames ∨ n ∈ TableXml.epilogueNames) : n ∉ turnNames := by
  have h1 : ∀ n ∈ TableXml.preludeNames ++ TableXml.epilogueNames, n ∉ turnNames := by decide +kernel
  exact h1 n (List.mem_append.mpr h)

theorem cell_names (n : Str) (h : n = cellTag false ∨ n = cellTag true) : n ∉ turnNames := by
  have h1 : ∀ n ∈ [cellTag false, cellTag true], n ∉ turnNames := by decide +kernel
  exact h1 n (by simpa using h)

/-- After an element inside. -/
theorem going_rest {x : XSt} {et : Bool} {n : Str} {as : List (Str × Str)} {r c : Bool} {es es' : List Event}
    (g : Going x r c (tagEv et n as :: es)) (hn : n ∉ turnNames) (hc : n ≠ tColumn) (h : Rest n et es es') :
    EventsSafe es' ∧ Closed false false es' ∧ (x.names.length : Int) + 1 ≤ excess es' := by
  refine ⟨safe_ends h.ends g.safe.2, ?_, ?_⟩
  · cases et with
    | true =>
      rw [show es' = es from h]
      have := g.closed
      simp only [tagEv, if_true, Closed] at this
      rwa [decide_eq_false hc] at this
    | false =>
      exact closed_after h.1 hn false false g.closed
  · have h1 := h.bal
    have h2 := g.open_
    cases et with
    | true => simp only [tagEv, if_true, excess] at h1 h2; omega
    | false => simp only [tagEv, Bool.false_eq_true, if_false, excess] at h1 h2; omega

theorem stepCell_turn (fl : Floats) (o : TableXml.Opts) (x : XSt) (n : Str) (as : List (Str × Str)) (et : Bool)
    (es : List Event) (r c : Bool) (g : Going x r c (tagEv et n as :: es)) (ha : ∀ a ∈ as, AttrSafe a.1 a.2)
    (hn : n = cellTag false ∨ n = cellTag true) : TurnOk (tagEv et n as :: es) (TableXml.stepCell fl o x n as et es) := by
  unfold TableXml.stepCell
  obtain ⟨h1, h2⟩ := readTableCell_calm fl o.ignoreEmpty (x.st.sheet.colHeader.colCellstyle x.st.col) n as et es ha
  cases hr : readTableCell fl o.ignoreEmpty (x.st.sheet.colHeader.colCellstyle x.st.col) n as et es with
  | error f => exact turn_of h1 hr
  | ok p =>
    obtain ⟨d, es1⟩ := p
    have hrest := h2 d es1 hr
    have hcol : n ≠ tColumn := by rcases hn with h | h <;> rw [h] <;> decide +kernel
    obtain ⟨k1, k2, k3⟩ := going_rest g (cell_names n hn) hcol hrest
    exact turn_next hrest.ends false false ⟨k1, k2, (by intro h; cases h), (by intro h; cases h), g.rep, k3⟩

theorem stepExtra_turn (x : XSt) (n : Str) (as : List (Str × Str)) (et : Bool)
    (es : List Event) (r c : Bool) (g : Going x r c (tagEv et n as :: es))
    (hn : n ∈ TableXml.preludeNames ∨ n ∈ TableXml.epilogueNames) :
    TurnOk (tagEv et n as :: es) (TableXml.stepExtra x n as et es) := by
  unfold TableXml.stepExtra
  obtain ⟨h1, h2⟩ := readXml_calm n as et es
  cases hr : readXml n as et es with
  | error f => exact turn_of h1 hr
  | ok p =>
    obtain ⟨d, es1⟩ := p
    have hrest := h2 d es1 hr
    have hcol : n ≠ tColumn := by
      have : ∀ n ∈ TableXml.preludeNames ++ TableXml.epilogueNames, n ≠ tColumn := by decide +kernel
      exact this n (List.mem_append.mpr hn)
    obtain ⟨k1, k2, k3⟩ := going_rest g (foreign_names n hn) hcol hrest
    exact turn_next hrest.ends false false ⟨k1, k2, (by intro h; cases h), (by intro h; cases h), g.rep, k3⟩

theorem getD_pos (o : Option Nat) (h : o ≠ some 0) : 0 < o.getD 1 := by
  cases o with
  | none => simp
  | some n =>
    rcases Nat.eq_zero_or_pos n with h0 | h0
    · exact absurd (by rw [h0]) h
    · exact h0

theorem readColAttr_rep (m : ColHeaders) (col : Nat) (t : ColTag) : (readColAttr m col t).2 = t.repeated.getD 1 := by
  unfold readColAttr
  split <;> rfl

theorem readRowAttr_rep (m : RowHeaders) (row : Nat) (t : RowTag) : (readRowAttr m row t).2 = t.repeated.getD 1 := by
  unfold readRowAttr
  split <;> rfl

theorem xstep_turn (fl : Floats) (o : TableXml.Opts) (x : XSt) (r c : Bool) (es : List Event) (g : Going x r c es) :
    TurnOk es (TableXml.xstep fl o x es) := by
  cases es with
  | nil =>
    exfalso
    have := g.open_
    simp only [excess] at this
    omega
  | cons ev es =>
    have hs2 := g.safe.2
    cases ev with
    | text s => exact turn_next (Ends.refl es) r c ⟨hs2, g.closed, g.row, g.col, g.rep, g.open_⟩
    | ref s => exact turn_next (Ends.refl es) r c ⟨hs2, g.closed, g.row, g.col, g.rep, g.open_⟩
    | start n as =>
      have ha := g.safe.1.1
      have ho : (x.names.length : Int) + 1 + 1 ≤ excess es := by have := g.open_; simp only [excess] at this; omega
      have hcl : Closed false false es := g.closed
      rw [TableXml.xstep]
      by_cases h1 : n ∈ TableXml.preludeNames ∨ n ∈ TableXml.epilogueNames
      · rw [if_pos h1]
        exact stepExtra_turn x n as false es r c g h1
      · rw [if_neg h1]
        by_cases h2 : n = cellTag false ∨ n = cellTag true
        · rw [if_pos h2]
          exact stepCell_turn fl o x n as false es r c g ha h2
        · rw [if_neg h2]
          obtain ⟨k1, k2⟩ := startTag_calm n as ha
          cases hr : TableXml.startTag n as with
          | error f => exact turn_of k1 hr
          | ok q =>
            cases q with
            | none =>
              exact turn_next (Ends.refl es) false false
                ⟨hs2, hcl, (by intro h; cases h), (by intro h; cases h), g.rep, by simp; omega⟩
            | some e =>
              have he := k2 e hr
              simp only
              cases e with
              | rowStart t =>
                obtain ⟨st, hst, hrep⟩ : ∃ st, readStep {} x.st (.rowStart t) = some st
                    ∧ st.rowRepeat = (readRowAttr x.st.sheet.rowHeader x.st.row t).2 := ⟨_, rfl, rfl⟩
                refine turn_tag (x := { x with names := n :: x.names }) hst false false
                  ⟨hs2, hcl, (by intro h; cases h), (by intro h; cases h), ?_, by simp; omega⟩
                simp only [hrep, readRowAttr_rep]
                exact getD_pos _ he
              | colGroupStart d =>
                exact turn_tag (x := { x with names := n :: x.names }) rfl false false
                  ⟨hs2, hcl, (by intro h; cases h), (by intro h; cases h), g.rep, by simp; omega⟩
              | colHeaderStart =>
                exact turn_tag (x := { x with names := n :: x.names }) rfl false false
                  ⟨hs2, hcl, (by intro h; cases h), (by intro h; cases h), g.rep, by simp; omega⟩
              | groupStart d =>
                exact turn_tag (x := { x with names := n :: x.names }) rfl false false
                  ⟨hs2, hcl, (by intro h; cases h), (by intro h; cases h), g.rep, by simp; omega⟩
              | headerStart =>
                exact turn_tag (x := { x with names := n :: x.names }) rfl false false
                  ⟨hs2, hcl, (by intro h; cases h), (by intro h; cases h), g.rep, by simp; omega⟩
              | _ => exact he.elim
    | empty n as =>
      have ha := g.safe.1.1
      have ho : (x.names.length : Int) + 1 ≤ excess es := g.open_
      rw [TableXml.xstep]
      by_cases h1 : n ∈ TableXml.preludeNames ∨ n ∈ TableXml.epilogueNames
      · rw [if_pos h1]
        exact stepExtra_turn x n as true es r c g h1
      · rw [if_neg h1]
        by_cases h2 : n = cellTag false ∨ n = cellTag true
        · rw [if_pos h2]
          exact stepCell_turn fl o x n as true es r c g ha h2
        · rw [if_neg h2]
          have hcl := g.closed
          rw [Closed] at hcl
          by_cases h3 : n = tColumn
          · rw [if_pos h3]
            rw [decide_eq_true h3] at hcl
            obtain ⟨k1, k2⟩ := foldAttrs_calm TableXml.colAttr as (fun t => t.repeated ≠ some 0)
              (fun p hp a h => colAttr_calm a p.1 p.2 (ha p hp) h) {} (by intro h; cases h)
            cases hr : TableXml.foldAttrs TableXml.colAttr {} as with
            | error f => exact turn_of k1 hr
            | ok t =>
              obtain ⟨st, hst, hcol, hrep⟩ : ∃ st, readStep {} x.st (.column t) = some st
                  ∧ st.col = x.st.col + (readColAttr x.st.sheet.colHeader x.st.col t).2 ∧ st.rowRepeat = x.st.rowRepeat :=
                ⟨_, rfl, rfl, rfl⟩
              refine turn_tag (x := x) hst false true
                ⟨hs2, hcl, (by intro h; cases h), ?_, by simp only [hrep]; exact g.rep, ho⟩
              intro _
              simp only [hcol, readColAttr_rep]
              have := getD_pos _ (k2 t hr)
              omega
          · rw [if_neg h3]
            rw [decide_eq_false h3] at hcl
            exact turn_next (Ends.refl es) false false
              ⟨hs2, hcl, (by intro h; cases h), (by intro h; cases h), g.rep, ho⟩
    | «end» n =>
      rw [TableXml.xstep]
      by_cases h1 : n ≠ x.names.headD tTable
      · rw [if_pos h1]
        exact turn_error (by decide) (by decide)
      · rw [if_neg h1]
        by_cases h2 : n = tTable
        · rw [if_pos h2]
          refine ⟨calm_ok _, ?_, by intro x es' h; cases h⟩
          intro y es' h
          cases h
          exact (Ends.refl es).cons _
        · rw [if_neg h2]
          have ho : (x.names.tail.length : Int) + 1 ≤ excess es := by
            cases hnm : x.names with
            | nil => rw [hnm] at h1; exact absurd (Classical.byContradiction h1) h2
            | cons q l =>
              have := g.open_
              rw [hnm] at this
              simp only [excess, List.length_cons, List.tail_cons] at this ⊢
              omega
          have hcl := g.closed
          rw [Closed] at hcl
          unfold TableXml.endTag
          by_cases e1 : n = tRow
          · subst e1
            rw [if_pos rfl] at hcl
            rw [if_neg (by decide +kernel), if_neg (by decide +kernel), if_neg (by decide +kernel), if_neg (by decide +kernel),
              if_pos rfl]
            simp only
            obtain ⟨st, hst, hrow, hrep⟩ : ∃ st, readStep {} x.st .rowEnd = some st ∧ 0 < st.row ∧ st.rowRepeat = 1 := by
              simp only [readStep]
              by_cases hd : x.st.colData = true
              · rw [if_pos hd]
                obtain ⟨m', hm'⟩ := modify_some x.st.sheet.rowHeader x.st.row fun h => { h with «repeat» := x.st.rowRepeat }
                have : RowHeaders.step x.st.sheet.rowHeader (.setRepeat x.st.row x.st.rowRepeat) = some m' := by
                  simp only [RowHeaders.step]
                  rw [if_neg (by have := g.rep; omega)]
                  exact hm'
                rw [this]
                exact ⟨_, rfl, by have := g.rep; simp only; omega, rfl⟩
              · rw [if_neg hd]
                exact ⟨_, rfl, by have := g.rep; simp only; omega, rfl⟩
            exact turn_tag (x := { x with names := x.names.tail }) hst true false
              ⟨hs2, hcl, fun _ => hrow, (by intro h; cases h), by simp only [hrep]; omega, ho⟩
          · rw [if_neg e1] at hcl
            by_cases e2 : n = tHeaderRows ∨ n = tRowGroup
            · rw [if_pos e2] at hcl
              have hrow := g.row hcl.1
              rcases e2 with e2 | e2
              · subst e2
                rw [if_neg (by decide +kernel), if_neg (by decide +kernel), if_neg (by decide +kernel), if_pos rfl]
                simp only
                obtain ⟨st, hst, hr1, hr2⟩ : ∃ st, readStep {} x.st .headerEnd = some st ∧ st.row = x.st.row
                    ∧ st.rowRepeat = x.st.rowRepeat := by
                  simp only [readStep, endHeader]
                  rw [if_neg (by omega)]
                  cases x.st.sheet.headerRows <;> exact ⟨_, rfl, rfl, rfl⟩
                exact turn_tag (x := { x with names := x.names.tail }) hst true false
                  ⟨hs2, hcl.2, (fun _ => by simp only [hr1]; exact hrow), (by intro h; cases h),
                    by simp only [hr2]; exact g.rep, ho⟩
              · subst e2
                rw [if_neg (by decide +kernel), if_neg (by decide +kernel), if_pos rfl]
                simp only
                obtain ⟨st, hst, hr1, hr2⟩ : ∃ st, readStep {} x.st .groupEnd = some st ∧ st.row = x.st.row
                    ∧ st.rowRepeat = x.st.rowRepeat := by
                  simp only [readStep]
                  cases x.st.rowGroup with
                  | nil => exact ⟨_, rfl, rfl, rfl⟩
                  | cons q l =>
                    simp only
                    rw [if_neg (by omega)]
                    exact ⟨_, rfl, rfl, rfl⟩
                exact turn_tag (x := { x with names := x.names.tail }) hst true false
                  ⟨hs2, hcl.2, (fun _ => by simp only [hr1]; exact hrow), (by intro h; cases h),
                    by simp only [hr2]; exact g.rep, ho⟩
            · rw [if_neg e2] at hcl
              by_cases e3 : n = tHeaderCols ∨ n = tColGroup
              · rw [if_pos e3] at hcl
                have hcol := g.col hcl.1
                rcases e3 with e3 | e3
                · subst e3
                  rw [if_neg (by decide +kernel), if_pos rfl]
                  simp only
                  obtain ⟨st, hst, hr1, hr2⟩ : ∃ st, readStep {} x.st .colHeaderEnd = some st ∧ st.col = x.st.col
                      ∧ st.rowRepeat = x.st.rowRepeat := by
                    simp only [readStep, endHeader]
                    rw [if_neg (by omega)]
                    cases x.st.sheet.headerCols <;> exact ⟨_, rfl, rfl, rfl⟩
                  exact turn_tag (x := { x with names := x.names.tail }) hst false true
                    ⟨hs2, hcl.2, (by intro h; cases h), (fun _ => by simp only [hr1]; exact hcol),
                      by simp only [hr2]; exact g.rep, ho⟩
                · subst e3
                  rw [if_pos rfl]
                  simp only
                  obtain ⟨st, hst, hr1, hr2⟩ : ∃ st, readStep {} x.st .colGroupEnd = some st ∧ st.col = x.st.col
                      ∧ st.rowRepeat = x.st.rowRepeat := by
                    simp only [readStep]
                    cases x.st.colGroup with
                    | nil => exact ⟨_, rfl, rfl, rfl⟩
                    | cons q l =>
                      simp only
                      rw [if_neg (by omega)]
                      exact ⟨_, rfl, rfl, rfl⟩
                  exact turn_tag (x := { x with names := x.names.tail }) hst false true
                    ⟨hs2, hcl.2, (by intro h; cases h), (fun _ => by simp only [hr1]; exact hcol),
                      by simp only [hr2]; exact g.rep, ho⟩
              · rw [if_neg e3] at hcl
                simp only [not_or] at e2 e3
                rw [if_neg e3.2, if_neg e3.1, if_neg e2.2, if_neg e2.1, if_neg e1]
                simp only
                exact turn_next (Ends.refl es) false false
                  ⟨hs2, hcl, (by intro h; cases h), (by intro h; cases h), g.rep, ho⟩

theorem xloop_calm (fl : Floats) (o : TableXml.Opts) : ∀ (k : Nat) (x : XSt) (r c : Bool) (es : List Event),
    es.length < k → Going x r c es →
    Calm (TableXml.xloop fl o k x es) ∧ ∀ x' es', TableXml.xloop fl o k x es = .ok (x', es') → Ends es es' := by
  intro k
  induction k with
  | zero => intro x r c es h; omega
  | succ k ih =>
    intro x r c es hl g
    rw [TableXml.xloop]
    obtain ⟨h1, h2, h3⟩ := xstep_turn fl o x r c es g
    cases hr : TableXml.xstep fl o x es with
    | error f => exact ⟨h1.of hr, by intro x es' h; cases h⟩
    | ok p =>
      obtain ⟨b, x1, es1⟩ := p
      cases b with
      | true =>
        refine ⟨calm_ok _, ?_⟩
        intro x' es' h
        cases h
        exact h2 x1 es1 hr
      | false =>
        obtain ⟨k1, k2, r1, c1, k3⟩ := h3 x1 es1 hr
        obtain ⟨q1, q2⟩ := ih x1 r1 c1 es1 (by omega) k3
        refine ⟨q1, ?_⟩
        intro x' es' h
        exact k1.trans (q2 x' es' h)

theorem readTable_calm (fl : Floats) (m : Refs.Ints) (hm : m.wrap = true) (o : TableXml.Opts)
    (as : List (Str × Str)) (es : List Event) (hs : Smooth (.start tTable as :: es)) :
    Calm (TableXml.readTableXml fl m o (.start tTable as :: es))
      ∧ ∀ x es', TableXml.readTableXml fl m o (.start tTable as :: es) = .ok (x, es') → Ends es es' := by
  rw [TableXml.readTableXml]
  obtain ⟨h1, _⟩ := foldAttrs_calm (TableXml.tableAttr m) as (fun _ => True)
    (fun p _ a _ => ⟨tableAttr_calm m hm a p.1 p.2, fun _ _ => trivial⟩) {} trivial
  cases hr : TableXml.foldAttrs (TableXml.tableAttr m) {} as with
  | error f => exact ⟨h1.of hr, by intro x es' h; cases h⟩
  | ok h =>
    obtain ⟨h2, r, c, h3⟩ := hs
    obtain ⟨k1, k2⟩ := xloop_calm fl o (es.length + 1) { head := h } false false es (by omega)
      ⟨h2.2, h3, (by intro h; cases h), (by intro h; cases h), by simp, by simpa using h2.1.2.2 rfl⟩
    simp only
    cases hx : TableXml.xloop fl o (es.length + 1) { head := h } es with
    | error f => exact ⟨k1.of hx, by intro x es' h; cases h⟩
    | ok p => exact ⟨calm_ok _, by intro x es' e; cases e; exact k2 p.1 p.2 hx⟩

end Verif.Whole
