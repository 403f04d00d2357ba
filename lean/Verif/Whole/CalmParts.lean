import Verif.Whole.CalmTable
import Verif.Style.Adds

/-!
# Reading comes to an end: the sections of a file
-/

set_option autoImplicit false

namespace Verif.Whole

open Xml Codec Xml.Spec
open Verif.Book (Stores Kind)
open Verif.Style (addsAll addsAll_append addsAll_ok)

/-! ## Names -/

/-- The store has been filled with `add`, and `left` further styles can be added. -/
def Made {β : Type} (b : Stores β) (left : Nat) : Prop := ∃ ps, addsAll {} ps = .ok b ∧ ps.length + left < 4294967296

theorem made_new {β : Type} (left : Nat) (h : left < 4294967296) : Made ({} : Stores β) left :=
  ⟨[], rfl, by simpa using h⟩

theorem Made.less {β : Type} {b : Stores β} {k l : Nat} (h : Made b k) (hl : l ≤ k) : Made b l := by
  obtain ⟨ps, h1, h2⟩ := h
  exact ⟨ps, h1, by omega⟩

theorem Made.add {β : Type} {b : Stores β} {l : Nat} (h : Made b (l + 1)) (k : Kind) (s : Book.Style β) :
    ∃ b' r, b.add k s = .ok (b', r) ∧ Made b' l := by
  obtain ⟨ps, h1, h2⟩ := h
  obtain ⟨b', hb'⟩ := addsAll_ok (ps ++ [(k, s)]) (by rw [List.length_append]; simp; omega)
  have e := hb'
  rw [addsAll_append, h1] at e
  have e : addsAll b [(k, s)] = .ok b' := e
  rw [addsAll] at e
  cases ha : b.add k s with
  | error f => rw [ha] at e; cases e
  | ok r =>
    rw [ha] at e
    have e : addsAll r.1 [] = .ok b' := e
    rw [addsAll] at e
    cases e
    exact ⟨r.1, r.2, rfl, ps ++ [(k, s)], hb', by rw [List.length_append]; simp; omega⟩

/-! ## Validations -/

theorem vAttr_calm (m : Refs.Ints) (hm : m.wrap = true) (v : Valid.Validation) (k raw : Str) (ha : AttrSafe k raw) :
    Calm (Valid.readAttr m v k raw) := by
  unfold Valid.readAttr
  cases hk : Valid.vKey k with
  | none => exact calm_ok _
  | some key =>
    cases key with
    | name => simp only; cases unescape raw <;> first | exact calm_ok _ | exact calm_error (by decide) (by decide)
    | condition =>
      simp only
      cases hu : unescape raw with
      | none => exact calm_error (by decide) (by decide)
      | some s =>
        simp only
        have hc : k = "table:condition".toList := by
          unfold Valid.vKey at hk
          split at hk
          · cases hk
          · split at hk
            · rename_i h; exact h
            · repeat' split at hk
              all_goals cases hk
        cases hs : Valid.splitBytes s 3 with
        | none => exact absurd hs (ha.condition hc s hu)
        | some c => exact calm_ok _
    | allowEmpty => simp only; cases parseBool raw <;> first | exact calm_ok _ | exact calm_error (by decide) (by decide)
    | baseCell =>
      simp only
      cases unescape raw with
      | none => exact calm_error (by decide) (by decide)
      | some s =>
        simp only
        cases hr : Refs.parseCellRef m s with
        | ok r => exact calm_ok _
        | error e =>
          cases e with
          | panic => exact absurd hr (ref_calm m hm s)
          | _ => exact calm_error (by decide) (by decide)
    | displayList =>
      simp only; cases Valid.Display.parse raw <;> first | exact calm_ok _ | exact calm_error (by decide) (by decide)

theorem vAttrs_calm (m : Refs.Ints) (hm : m.wrap = true) : ∀ (as : List (Str × Str)) (v : Valid.Validation),
    (∀ a ∈ as, AttrSafe a.1 a.2) → Calm (Valid.readAttrs m v as) := by
  intro as
  induction as with
  | nil => intro v _; exact calm_ok _
  | cons p as ih =>
    intro v ha
    obtain ⟨k, raw⟩ := p
    rw [Valid.readAttrs]
    cases hr : Valid.readAttr m v k raw with
    | error f => exact (vAttr_calm m hm v k raw (ha (k, raw) (by simp))).of hr
    | ok v => exact ih v fun a h => ha a (by simp [h])

theorem errAttrs_calm : ∀ (as : List (Str × Str)) (e : Valid.VError), Calm (Valid.errAttrs e as) := by
  intro as
  induction as with
  | nil => intro e; exact calm_ok _
  | cons p as ih =>
    intro e
    obtain ⟨k, raw⟩ := p
    rw [Valid.errAttrs]
    split
    · split
      · exact calm_error (by decide) (by decide)
      · exact ih _
    · split
      · exact calm_error (by decide) (by decide)
      · exact ih _
    · split
      · exact calm_error (by decide) (by decide)
      · exact ih _
    · exact ih _

theorem helpAttrs_calm : ∀ (as : List (Str × Str)) (e : Valid.VHelp), Calm (Valid.helpAttrs e as) := by
  intro as
  induction as with
  | nil => intro e; exact calm_ok _
  | cons p as ih =>
    intro e
    obtain ⟨k, raw⟩ := p
    rw [Valid.helpAttrs]
    split
    · split
      · exact calm_error (by decide) (by decide)
      · exact ih _
    · split
      · exact calm_error (by decide) (by decide)
      · exact ih _
    · exact ih _

theorem msgText_calm (n : Str) (as : List (Str × Str)) (et : Bool) (es : List Event) :
    Calm (Valid.msgText n as et es) ∧ ∀ x es', Valid.msgText n as et es = .ok (x, es') → Ends es es' := by
  unfold Valid.msgText
  cases et with
  | true => exact ⟨calm_ok _, by intro x es' h; cases h; exact Ends.refl es⟩
  | false =>
    simp only [Bool.false_eq_true, if_false]
    obtain ⟨h1, h2⟩ := readText_calm n as es
    cases hr : readText n as es with
    | error f => exact ⟨h1.of hr, by intro x es' h; cases h⟩
    | ok p =>
      obtain ⟨c, es1⟩ := p
      have := (h2 c es1 hr).2.ends
      cases c with
      | empty => exact ⟨calm_ok _, by intro x es' h; cases h; exact this⟩
      | xml f => exact ⟨calm_ok _, by intro x es' h; cases h; exact this⟩
      | text t => exact ⟨calm_error (by decide) (by decide), by intro x es' h; cases h⟩
      | xmlVec t => exact ⟨calm_error (by decide) (by decide), by intro x es' h; cases h⟩

theorem readError_calm (v : Valid.Validation) (as : List (Str × Str)) (et : Bool) (es : List Event) :
    Calm (Valid.readError v as et es) ∧ ∀ x es', Valid.readError v as et es = .ok (x, es') → Ends es es' := by
  unfold Valid.readError
  cases hr : Valid.errAttrs {} as with
  | error f => exact ⟨(errAttrs_calm as {}).of hr, by intro x es' h; cases h⟩
  | ok e =>
    simp only
    obtain ⟨h1, h2⟩ := msgText_calm Valid.tErr as et es
    cases hm : Valid.msgText Valid.tErr as et es with
    | error f => exact ⟨h1.of hm, by intro x es' h; cases h⟩
    | ok p =>
      obtain ⟨o, es1⟩ := p
      have := h2 o es1 hm
      cases o <;> exact ⟨calm_ok _, by intro x es' h; cases h; exact this⟩

theorem readHelp_calm (v : Valid.Validation) (as : List (Str × Str)) (et : Bool) (es : List Event) :
    Calm (Valid.readHelp v as et es) ∧ ∀ x es', Valid.readHelp v as et es = .ok (x, es') → Ends es es' := by
  unfold Valid.readHelp
  cases hr : Valid.helpAttrs {} as with
  | error f => exact ⟨(helpAttrs_calm as {}).of hr, by intro x es' h; cases h⟩
  | ok e =>
    simp only
    obtain ⟨h1, h2⟩ := msgText_calm Valid.tHelp as et es
    cases hm : Valid.msgText Valid.tHelp as et es with
    | error f => exact ⟨h1.of hm, by intro x es' h; cases h⟩
    | ok p =>
      obtain ⟨o, es1⟩ := p
      have := h2 o es1 hm
      cases o <;> exact ⟨calm_ok _, by intro x es' h; cases h; exact this⟩

theorem addValid_made {b : Stores Valid.Body} {l : Nat} (h : Made b (l + 1)) (v : Valid.Validation) :
    ∃ b', Valid.addValid b v = .ok b' ∧ Made b' l := by
  obtain ⟨b', r, h1, h2⟩ := h.add .validation v
  exact ⟨b', by unfold Valid.addValid; rw [h1], h2⟩

theorem validLoop_calm (m : Refs.Ints) (hm : m.wrap = true) (more : Nat) :
    ∀ (k : Nat) (v : Valid.Validation) (b : Stores Valid.Body) (es : List Event), es.length < k → EventsSafe es →
    Made b (es.length + more) →
    Calm (Valid.readLoop m k v b es)
      ∧ ∀ b' es', Valid.readLoop m k v b es = .ok (b', es') → Ends es es' ∧ Made b' (es'.length + more) := by
  intro k
  induction k with
  | zero => intro v b es h; omega
  | succ k ih =>
    intro v b es hl hs hb
    cases es with
    | nil => exact ⟨calm_ok _, by intro b' es' h; cases h; exact ⟨Ends.refl _, hb⟩⟩
    | cons ev es =>
      have hl2 : es.length < k := by simp at hl; omega
      have hb1 : Made b ((es.length + more) + 1) := hb.less (by simp; omega)
      have go : ∀ v b es1, Ends es es1 → Made b (es1.length + more) →
          Calm (Valid.readLoop m k v b es1)
          ∧ ∀ b' es', Valid.readLoop m k v b es1 = .ok (b', es') → Ends (ev :: es) es' ∧ Made b' (es'.length + more) := by
        intro v b es1 he hb
        obtain ⟨h1, h2⟩ := ih v b es1 (by have := he.length; omega) (safe_ends he hs.2) hb
        refine ⟨h1, ?_⟩
        intro b' es' h
        obtain ⟨k1, k2⟩ := h2 b' es' h
        exact ⟨(he.trans k1).cons ev, k2⟩
      have same : ∀ es1, Ends es es1 → Made b (es1.length + more) := fun es1 he => hb1.less (by have := he.length; omega)
      cases ev with
      | text s => exact go v b es (Ends.refl es) (same es (Ends.refl es))
      | ref s => exact go v b es (Ends.refl es) (same es (Ends.refl es))
      | start n as =>
        unfold Valid.readLoop
        by_cases h1 : n = Valid.tOne
        · simp only [if_pos h1]
          cases hr : Valid.readAttrs m v as with
          | error f => exact ⟨(vAttrs_calm m hm as v hs.1.1).of hr, by intro b' es' h; cases h⟩
          | ok v1 =>
            simp only
            obtain ⟨b1, e1, e2⟩ := addValid_made hb1 v1
            rw [e1]
            exact go _ b1 es (Ends.refl es) e2
        · simp only [if_neg h1]
          by_cases h2 : n = Valid.tErr
          · simp only [if_pos h2]
            have q := readError_calm v as false es
            cases he : Valid.readError v as false es with
            | error f => exact ⟨q.1.of he, by intro b' es' h; cases h⟩
            | ok p => exact go p.1 b p.2 (q.2 p.1 p.2 he) (same _ (q.2 p.1 p.2 he))
          · simp only [if_neg h2]
            by_cases h3 : n = Valid.tHelp
            · simp only [if_pos h3]
              have q := readHelp_calm v as false es
              cases he : Valid.readHelp v as false es with
              | error f => exact ⟨q.1.of he, by intro b' es' h; cases h⟩
              | ok p => exact go p.1 b p.2 (q.2 p.1 p.2 he) (same _ (q.2 p.1 p.2 he))
            · simp only [if_neg h3]
              exact go v b es (Ends.refl es) (same es (Ends.refl es))
      | empty n as =>
        unfold Valid.readLoop
        by_cases h2 : n = Valid.tErr
        · simp only [if_pos h2]
          have q := readError_calm v as true es
          cases he : Valid.readError v as true es with
          | error f => exact ⟨q.1.of he, by intro b' es' h; cases h⟩
          | ok p => exact go p.1 b p.2 (q.2 p.1 p.2 he) (same _ (q.2 p.1 p.2 he))
        · simp only [if_neg h2]
          by_cases h3 : n = Valid.tHelp
          · simp only [if_pos h3]
            have q := readHelp_calm v as true es
            cases he : Valid.readHelp v as true es with
            | error f => exact ⟨q.1.of he, by intro b' es' h; cases h⟩
            | ok p => exact go p.1 b p.2 (q.2 p.1 p.2 he) (same _ (q.2 p.1 p.2 he))
          · simp only [if_neg h3]
            exact go v b es (Ends.refl es) (same es (Ends.refl es))
      | «end» n =>
        unfold Valid.readLoop
        by_cases h1 : n = Valid.tOne
        · simp only [if_pos h1]
          obtain ⟨b1, e1, e2⟩ := addValid_made hb1 v
          rw [e1]
          exact go _ b1 es (Ends.refl es) e2
        · simp only [if_neg h1]
          by_cases h2 : n = Valid.tAll
          · simp only [if_pos h2]
            refine ⟨calm_ok _, ?_⟩
            intro b' es' h
            cases h
            exact ⟨(Ends.refl es).cons _, same es (Ends.refl es)⟩
          · simp only [if_neg h2]
            exact go v b es (Ends.refl es) (same es (Ends.refl es))

/-! ## The body -/

theorem bstep_calm (e : Env) (hm : e.ints.wrap = true) (more : Nat) (x : TableXml.BSt) (es : List Event) (hs : Smooth es)
    (hb : Made x.book.valid (es.length + more)) :
    Calm (TableXml.bstep e.fl e.ints e.opts x es)
      ∧ ∀ last x' es', TableXml.bstep e.fl e.ints e.opts x es = .ok (last, x', es') →
        Ends es es' ∧ Made x'.book.valid (es'.length + more) ∧ (last = false → es'.length < es.length) := by
  cases es with
  | nil => exact ⟨calm_ok _, by intro last x' es' h; cases h; exact ⟨Ends.refl _, hb, by simp⟩⟩
  | cons ev es =>
    have hb1 : Made x.book.valid ((es.length + more) + 1) := hb.less (by simp; omega)
    have same : ∀ es1, Ends es es1 → Made x.book.valid (es1.length + more) :=
      fun es1 he => hb1.less (by have := he.length; omega)
    have done : ∀ (b : Bool) (x1 : TableXml.BSt) es1, Ends es es1 → Made x1.book.valid (es1.length + more) →
        Calm (.ok (b, x1, es1) : Except Fault (Bool × TableXml.BSt × List Event))
        ∧ ∀ last x' es', (.ok (b, x1, es1) : Except Fault (Bool × TableXml.BSt × List Event)) = .ok (last, x', es') →
          Ends (ev :: es) es' ∧ Made x'.book.valid (es'.length + more) ∧ (last = false → es'.length < (ev :: es).length) := by
      intro b x1 es1 he hb
      refine ⟨calm_ok _, ?_⟩
      intro last x' es' h
      cases h
      exact ⟨he.cons ev, hb, fun _ => by have := he.length; simp; omega⟩
    have extra : ∀ n as et, Calm (TableXml.bodyExtra x n as et es)
        ∧ ∀ last x' es', TableXml.bodyExtra x n as et es = .ok (last, x', es') →
          Ends (ev :: es) es' ∧ Made x'.book.valid (es'.length + more) ∧ (last = false → es'.length < (ev :: es).length) := by
      intro n as et
      unfold TableXml.bodyExtra
      obtain ⟨h1, h2⟩ := readXml_calm n as et es
      cases hr : readXml n as et es with
      | error f => exact ⟨h1.of hr, by intro last x' es' h; cases h⟩
      | ok p => exact done false _ p.2 (h2 p.1 p.2 hr).ends (same _ (h2 p.1 p.2 hr).ends)
    cases ev with
    | text s => exact done false x es (Ends.refl es) (same es (Ends.refl es))
    | ref s => exact done false x es (Ends.refl es) (same es (Ends.refl es))
    | start n as =>
      rw [TableXml.bstep]
      by_cases h1 : n = Valid.tAll
      · rw [if_pos h1]
        unfold Valid.readValidations
        obtain ⟨k1, k2⟩ := validLoop_calm e.ints hm more (es.length + 1) Valid.Validation.new x.book.valid es (by omega)
          hs.1.2 (same es (Ends.refl es))
        cases hr : Valid.readLoop e.ints (es.length + 1) Valid.Validation.new x.book.valid es with
        | error f => exact ⟨k1.of hr, by intro last x' es' h; cases h⟩
        | ok p => exact done false _ p.2 (k2 p.1 p.2 hr).1 (k2 p.1 p.2 hr).2
      · rw [if_neg h1]
        by_cases h2 : n = TableXml.tTable
        · rw [if_pos h2]
          subst h2
          obtain ⟨k1, k2⟩ := readTable_calm e.fl e.ints hm e.opts as es hs
          cases hr : TableXml.readTableXml e.fl e.ints e.opts (.start TableXml.tTable as :: es) with
          | error f => exact ⟨k1.of hr, by intro last x' es' h; cases h⟩
          | ok p => exact done false _ p.2 (k2 p.1 p.2 hr) (same _ (k2 p.1 p.2 hr))
        · rw [if_neg h2]
          by_cases h3 : n ∈ TableXml.bookPrelude ∨ n ∈ TableXml.bookEpilogue
          · rw [if_pos h3]
            exact extra n as false
          · rw [if_neg h3]
            exact done false _ es (Ends.refl es) (same es (Ends.refl es))
    | empty n as =>
      rw [TableXml.bstep]
      by_cases h3 : n ∈ TableXml.bookPrelude ∨ n ∈ TableXml.bookEpilogue
      · rw [if_pos h3]
        exact extra n as true
      · rw [if_neg h3]
        exact done false _ es (Ends.refl es) (same es (Ends.refl es))
    | «end» n =>
      rw [TableXml.bstep]
      by_cases h1 : n ≠ x.names.headD []
      · rw [if_pos h1]
        exact ⟨calm_error (by decide) (by decide), by intro last x' es' h; cases h⟩
      · rw [if_neg h1]
        by_cases h2 : n = TableXml.tBody
        · rw [if_pos h2]
          exact done true x es (Ends.refl es) (same es (Ends.refl es))
        · rw [if_neg h2]
          exact done false _ es (Ends.refl es) (same es (Ends.refl es))

theorem bloop_calm (e : Env) (hm : e.ints.wrap = true) (more : Nat) : ∀ (k : Nat) (x : TableXml.BSt) (es : List Event),
    es.length < k → Smooth es → Made x.book.valid (es.length + more) →
    Calm (TableXml.bloop e.fl e.ints e.opts k x es)
      ∧ ∀ x' es', TableXml.bloop e.fl e.ints e.opts k x es = .ok (x', es') →
        Ends es es' ∧ Made x'.book.valid (es'.length + more) := by
  intro k
  induction k with
  | zero => intro x es h; omega
  | succ k ih =>
    intro x es hl hs hb
    rw [TableXml.bloop]
    obtain ⟨h1, h2⟩ := bstep_calm e hm more x es hs hb
    cases hr : TableXml.bstep e.fl e.ints e.opts x es with
    | error f => exact ⟨h1.of hr, by intro x' es' h; cases h⟩
    | ok p =>
      obtain ⟨last, x1, es1⟩ := p
      obtain ⟨k1, k2, k3⟩ := h2 last x1 es1 hr
      cases last with
      | true => exact ⟨calm_ok _, by intro x' es' h; cases h; exact ⟨k1, k2⟩⟩
      | false =>
        obtain ⟨q1, q2⟩ := ih x1 es1 (by have := k3 rfl; omega) (smooth_inherited.ends k1 hs) k2
        refine ⟨q1, ?_⟩
        intro x' es' h
        exact ⟨k1.trans (q2 x' es' h).1, (q2 x' es' h).2⟩

theorem readBody_calm (e : Env) (hm : e.ints.wrap = true) (more : Nat) (b : TableXml.BookBody) (es : List Event)
    (hs : Smooth es) (hb : Made b.valid (es.length + more)) :
    Calm (readBodyInto e b es)
      ∧ ∀ b' es', readBodyInto e b es = .ok (b', es') → Ends es es' ∧ Made b'.valid (es'.length + more) := by
  unfold readBodyInto
  obtain ⟨h1, h2⟩ := bloop_calm e hm more (es.length + 1) { book := b } es (by omega) hs hb
  refine ⟨h1.map _, ?_⟩
  intro b' es' h
  cases hr : TableXml.bloop e.fl e.ints e.opts (es.length + 1) { book := b } es with
  | error f => rw [hr] at h; cases h
  | ok p =>
    rw [hr] at h
    cases h
    exact h2 p.1 p.2 hr

end Verif.Whole
