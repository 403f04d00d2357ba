import Verif.Whole.Props
import Verif.Style.Form

/-!
# Reading the content only

`OdsOptions::content_only`: the readers that take the sheets from a file and leave the rest.  And packages in which
some files are missing.
-/

set_option autoImplicit false

namespace Verif.Whole

open Xml Codec Xml.Spec
open Verif.Book (Stores HMap Less)
open Verif.Ns (Part NsBook)

/-! ## The readers -/

/-- The files of a package, those that are there. -/
structure Files where
  metaXml : Option Str
  settingsXml : Option Str
  stylesXml : Option Str
  contentXml : Option Str

/-- `if let Ok(z) = zip.by_name(..)`, src/io/read.rs:376-402: a file that is missing is passed over. -/
def readIf (e : Env) (p : Part) (b : Target) : Option Str → Except Fault Target
  | none => .ok b
  | some text => readFile e p b text

/-- `zip.by_name("content.xml")?`, src/io/read.rs:404-409, 419-426: this file must be there. -/
def readContent (e : Env) (b : Target) : Option Str → Except Fault Target
  | none => .error .malformed
  | some text => readFile e .content b text

/-- `read_ods_impl`, src/io/read.rs:359-410, with files that may be missing.  Simplification: as in `readPackage`. -/
def readOds (e : Env) (z : Files) : Except Fault Target :=
  match readIf e .metadata {} z.metaXml with
  | .error f => .error f
  | .ok b =>
    match readIf e .settings b z.settingsXml with
    | .error f => .error f
    | .ok b =>
      match readIf e .styles b z.stylesXml with
      | .error f => .error f
      | .ok b => readContent e b z.contentXml

/-- `read_ods_impl_content_only`, src/io/read.rs:413-431: one file, with all its sections. -/
def readOdsContent (e : Env) (z : Files) : Except Fault Target := readContent e {} z.contentXml

/-- The loop of `read_fods_impl_content_only`, src/io/read.rs:333-351: all events but the start of the body are passed
over. -/
def bodyLoop (e : Env) : Nat → TableXml.BookBody → List Event → Except Fault TableXml.BookBody
  | 0, _, _ => .error .panic
  | _ + 1, b, [] => .ok b
  | k + 1, b, .start n _ :: es =>
    if n = TableXml.tBody then
      match readBodyInto e b es with
      | .error f => .error f
      | .ok (b, es) => bodyLoop e k b es
    else bodyLoop e k b es
  | k + 1, b, .empty _ _ :: es => bodyLoop e k b es
  | k + 1, b, .end _ :: es => bodyLoop e k b es
  | k + 1, b, .text _ :: es => bodyLoop e k b es
  | k + 1, b, .ref _ :: es => bodyLoop e k b es

/-- `read_fods_impl_content_only`, src/io/read.rs:325-356. -/
def readFodsContent (e : Env) (text : Str) : Except Fault Target :=
  match tokenize text with
  | none => .error .malformed
  | some ts => (bodyLoop e ((events ts).length + 1) {} (events ts)).map fun b => { body := b }

/-- `OdsOptions::read_ods`, src/io/read.rs:135-142. -/
def read_ods (contentOnly : Bool) (e : Env) (z : Files) : Except Fault Target :=
  if contentOnly then readOdsContent e z else readOds e z

/-- `OdsOptions::read_fods`, src/io/read.rs:145-151. -/
def read_fods (contentOnly : Bool) (e : Env) (text : Str) : Except Fault Target :=
  if contentOnly then readFodsContent e text else readFlat e text

theorem read_fods_all (e : Env) (text : Str) : read_fods false e text = readFlat e text := by
  unfold read_fods; rw [if_neg (by simp)]

theorem read_fods_content (e : Env) (text : Str) : read_fods true e text = readFodsContent e text := by
  unfold read_fods; rw [if_pos rfl]

/-- A package with all its files. -/
def Package.files (z : Package) : Files := ⟨some z.metaXml, some z.settingsXml, some z.stylesXml, some z.contentXml⟩

theorem readOds_package (e : Env) (z : Package) : readOds e z.files = readPackage e z := rfl

/-! ## Packages -/

/-- The workbook `a` has the same body and scripts as `b` and has seen fewer styles. -/
structure Fewer (a b : Target) : Prop where
  body : a.body = b.body
  scripts : a.scripts = b.scripts
  styles : Style.LessBook a.styles b.styles
  masters : Less a.masters b.masters

theorem readRoot_any {p : Part} {ns ns' n : NsBook} {as : List (Str × Str)} (h : Ns.readRoot p ns as = .ok n) :
    ∃ n', Ns.readRoot p ns' as = .ok n' := by
  unfold Ns.readRoot at h ⊢
  split at h
  · cases h
  · rename_i x hx
    exact ⟨_, rfl⟩

theorem less_addMaster {a b b' : Stores Master.Master} (h : Less a b) (q : Book.Style Master.Master)
    (hb : Master.addMaster b q = .ok b') : ∃ a', Master.addMaster a q = .ok a' ∧ Less a' b' := by
  unfold Master.addMaster at hb ⊢
  split at hb
  · rename_i x n hx
    cases hb
    obtain ⟨y, n', g1, g2⟩ := Book.less_add h .masterPage q n hx
    exact ⟨y, by rw [g1], g2⟩
  · cases hb

/-- The reader of the master pages. -/
theorem less_masters : ∀ (k : Nat) (a b b' : Stores Master.Master) (names : List Str) (es es' : List Event), Less a b →
    subLoop Master.tMasters Master.mastersChild k b names es = .ok (b', es') →
    ∃ a', subLoop Master.tMasters Master.mastersChild k a names es = .ok (a', es') ∧ Less a' b' := by
  have child : ∀ (a b : Stores Master.Master) n as et es, Less a b →
      (∀ b' es', Master.mastersChild b n as et es = .ok (some (b', es')) →
        ∃ a', Master.mastersChild a n as et es = .ok (some (a', es')) ∧ Less a' b')
      ∧ (Master.mastersChild b n as et es = .ok none → Master.mastersChild a n as et es = .ok none) := by
    intro a b n as et es h
    unfold Master.mastersChild
    by_cases hn : n = Master.tMaster
    · simp only [if_pos hn]
      cases Master.readMaster as et es with
      | error f => exact ⟨(by intro b' es' hb; cases hb), by intro hb; cases hb⟩
      | ok x =>
        obtain ⟨q, es1⟩ := x
        simp only
        cases hq : Master.addMaster b q with
        | error f => exact ⟨(by intro b' es' hb; cases hb), by intro hb; cases hb⟩
        | ok b1 =>
          obtain ⟨a1, g1, g2⟩ := less_addMaster h q hq
          refine ⟨?_, by intro hb; cases hb⟩
          intro b' es' hb
          cases hb
          exact ⟨a1, by rw [g1]; rfl, g2⟩
    · simp only [if_neg hn]
      exact ⟨(by intro b' es' hb; cases hb), by simp⟩
  intro k
  induction k with
  | zero => intro a b b' names es es' _ hb; cases hb
  | succ k ih =>
    intro a b b' names es es' h hb
    cases es with
    | nil =>
      rw [subLoop] at hb ⊢
      cases hb
      exact ⟨a, rfl, h⟩
    | cons ev es =>
      cases ev with
      | text s => rw [subLoop] at hb ⊢; exact ih a b b' names es es' h hb
      | ref s => rw [subLoop] at hb ⊢; exact ih a b b' names es es' h hb
      | «end» n =>
        rw [subLoop] at hb ⊢
        split at hb
        · cases hb
        · rename_i h1
          rw [if_neg h1]
          split at hb
          · rename_i h2
            rw [if_pos h2]
            cases hb
            exact ⟨a, rfl, h⟩
          · rename_i h2
            rw [if_neg h2]
            exact ih a b b' _ es es' h hb
      | start n as =>
        rw [subLoop] at hb ⊢
        cases hc : Master.mastersChild b n as false es with
        | error f => rw [hc] at hb; cases hb
        | ok x =>
          rw [hc] at hb
          cases x with
          | none =>
            rw [(child a b n as false es h).2 hc]
            exact ih a b b' _ es es' h hb
          | some x =>
            obtain ⟨b1, es1⟩ := x
            obtain ⟨a1, g1, g2⟩ := (child a b n as false es h).1 b1 es1 hc
            rw [g1]
            exact ih a1 b1 b' _ es1 es' g2 hb
      | empty n as =>
        rw [subLoop] at hb ⊢
        cases hc : Master.mastersChild b n as true es with
        | error f => rw [hc] at hb; cases hb
        | ok x =>
          rw [hc] at hb
          cases x with
          | none =>
            rw [(child a b n as true es h).2 hc]
            exact ih a b b' _ es es' h hb
          | some x =>
            obtain ⟨b1, es1⟩ := x
            obtain ⟨a1, g1, g2⟩ := (child a b n as true es h).1 b1 es1 hc
            rw [g1]
            exact ih a1 b1 b' _ es1 es' g2 hb

variable {e : Env} {p : Part}

/-- The files after the first. -/
def Later (p : Part) : Prop := p = .settings ∨ p = .styles ∨ p = .content

theorem later_special (hp : Later p) (n : Str) (h : special p n = some .metadata) : False := by
  unfold special at h
  split at h
  · cases h
  · rcases hp with rfl | rfl | rfl
    all_goals
      simp only at h
      repeat' split at h
      all_goals cases h

/-- Not in the metadata. -/
def NoMeta (md : Mode) : Prop := ∀ m, md ≠ .metadata m

/-- `Fewer`, and the same settings while the settings are read. -/
def Near (p : Part) (a b : Target) : Prop := Fewer a b ∧ (p = .settings → a.config = b.config)

theorem near_plain {a b : Target} (h : Near p a b) (md : Style.Mode) (ev : Event) (x : State)
    (hb : plain e p md b ev = .ok x) :
    ∃ md' a' b', x = ⟨.style md', b'⟩ ∧ plain e p md a ev = .ok ⟨.style md', a'⟩ ∧ Near p a' b' := by
  cases hp : styled p with
  | true =>
    rw [plain_styled hp] at hb ⊢
    obtain ⟨st, h1, h2⟩ := map_ok hb
    obtain ⟨s', g1, g2⟩ := Style.less_step h.1.styles _ _ _ _ st h1
    refine ⟨st.mode, { a with styles := s' }, { b with styles := st.book }, h2.symm, ?_, ?_⟩
    · rw [g1]; rfl
    · exact ⟨⟨h.1.body, h.1.scripts, g2, h.1.masters⟩, h.2⟩
  | false =>
    unfold plain at hb ⊢
    rw [hp] at hb ⊢
    cases hb
    exact ⟨md, a, b, rfl, rfl, h⟩

/-- One event of a file after the first. -/
theorem near_step (hp : Later p) {a b : Target} (h : Near p a b) (md : Mode) (hmd : NoMeta md) (ev : Event)
    (es es' : List Event) (x : State) (hb : step e p ⟨md, b⟩ ev es = .ok (x, es')) :
    ∃ md' a' b', x = ⟨md', b'⟩ ∧ step e p ⟨md, a⟩ ev es = .ok (⟨md', a'⟩, es') ∧ NoMeta md' ∧ Near p a' b' := by
  have nm : ∀ m, NoMeta (.style m) := fun m m' h => by cases h
  have pl : ∀ md, (plain e p md b ev).map (fun x => (x, es)) = .ok (x, es') →
      ∃ md' a' b', x = ⟨md', b'⟩ ∧ (plain e p md a ev).map (fun x => (x, es)) = .ok (⟨md', a'⟩, es')
        ∧ NoMeta md' ∧ Near p a' b' := by
    intro md hb
    obtain ⟨y, h1, h2⟩ := map_ok hb
    cases h2
    obtain ⟨md', a', b', g1, g2, g3⟩ := near_plain h md ev x h1
    exact ⟨_, a', b', g1, by rw [g2]; rfl, nm _, g3⟩
  cases md with
  | style md =>
    cases md with
    | doc =>
      cases ev with
      | start n as =>
        unfold step at hb ⊢
        simp only at hb ⊢
        cases hs : special p n with
        | none => rw [hs] at hb; exact pl .doc hb
        | some s =>
          rw [hs] at hb
          simp only at hb ⊢
          cases s with
          | root =>
            unfold enter at hb ⊢
            obtain ⟨ns, h1, h2⟩ := map_ok hb
            cases h2
            obtain ⟨n', g⟩ := readRoot_any (ns' := a.ns) h1
            exact ⟨_, { a with ns := n' }, _, rfl, by rw [g]; rfl, nm _,
              ⟨h.1.body, h.1.scripts, h.1.styles, h.1.masters⟩, h.2⟩
          | metadata => exact absurd hs (later_special hp n)
          | settings =>
            have hp' : p = .settings := by
              rcases hp with rfl | rfl | rfl
              · rfl
              all_goals
                unfold special at hs
                simp only at hs
                repeat' split at hs
                all_goals cases hs
            cases hb
            exact ⟨_, a, b, rfl, by unfold enter; rw [h.2 hp'], (by intro m hm; cases hm), h⟩
          | scripts =>
            unfold enter at hb ⊢
            obtain ⟨r, h1, h2⟩ := map_ok hb
            cases h2
            rw [h.1.scripts, h1]
            exact ⟨_, { a with scripts := r.1 }, _, rfl, rfl, nm _, ⟨h.1.body, rfl, h.1.styles, h.1.masters⟩, h.2⟩
          | masters =>
            unfold enter at hb ⊢
            obtain ⟨r, h1, h2⟩ := map_ok hb
            cases h2
            obtain ⟨m', g1, g2⟩ := less_masters _ _ _ r.1 _ _ r.2 h.1.masters h1
            refine ⟨_, { a with masters := m' }, _, rfl, ?_, nm _, ⟨h.1.body, h.1.scripts, h.1.styles, g2⟩, h.2⟩
            unfold Master.readMasters
            rw [g1]
            rfl
          | body =>
            unfold enter at hb ⊢
            obtain ⟨r, h1, h2⟩ := map_ok hb
            cases h2
            rw [h.1.body, h1]
            exact ⟨_, { a with body := r.1 }, _, rfl, rfl, nm _, ⟨rfl, h.1.scripts, h.1.styles, h.1.masters⟩, h.2⟩
      | empty n as => exact pl .doc hb
      | «end» n => exact pl .doc hb
      | text s => exact pl .doc hb
      | ref s => exact pl .doc hb
    | fonts | sect | style | format | part | page => exact pl _ hb
  | metadata m => exact absurd rfl (hmd m)
  | settings st =>
    unfold step at hb ⊢
    obtain ⟨st', h1, h2⟩ := map_ok hb
    simp only [Prod.mk.injEq] at h2
    obtain ⟨h2, h3⟩ := h2
    subst h3
    simp only at h1 ⊢
    rw [h1]
    cases hf : st'.frames.isEmpty with
    | true =>
      rw [hf] at h2
      exact ⟨.style .doc, { a with config := st'.config }, { b with config := st'.config }, h2.symm,
        by simp [Except.map, hf], nm _, ⟨h.1.body, h.1.scripts, h.1.styles, h.1.masters⟩, fun _ => rfl⟩
    | false =>
      rw [hf] at h2
      exact ⟨.settings st', a, b, h2.symm, by simp [Except.map, hf], (by intro m hm; cases hm), h⟩

theorem near_loop (hp : Later p) : ∀ (k : Nat) (a b t : Target) (md : Mode) (es : List Event), Near p a b → NoMeta md →
    loop e p k ⟨md, b⟩ es = .ok t → ∃ t', loop e p k ⟨md, a⟩ es = .ok t' ∧ Near p t' t := by
  intro k
  induction k with
  | zero => intro a b t md es _ _ hb; cases hb
  | succ k ih =>
    intro a b t md es h hmd hb
    cases es with
    | nil =>
      rw [loop] at hb ⊢
      unfold atEof at hb ⊢
      cases md with
      | style md =>
        simp only at hb ⊢
        obtain ⟨s, h1, h2⟩ := map_ok hb
        cases h2
        obtain ⟨s', g1, g2⟩ := Style.less_atEof h.1.styles md h1
        exact ⟨{ a with styles := s' }, by rw [g1]; rfl, ⟨h.1.body, h.1.scripts, g2, h.1.masters⟩, h.2⟩
      | metadata m => exact absurd rfl (hmd m)
      | settings st => cases hb
    | cons ev es =>
      rw [loop] at hb ⊢
      cases hs : step e p ⟨md, b⟩ ev es with
      | error f => rw [hs] at hb; cases hb
      | ok x =>
        obtain ⟨x, es'⟩ := x
        rw [hs] at hb
        obtain ⟨md', a', b', g1, g2, g3, g4⟩ := near_step hp h md hmd ev es es' x hs
        subst g1
        rw [g2]
        exact ih a' b' t md' es' g4 g3 hb

theorem near_file (hp : Later p) {a b t : Target} (h : Near p a b) (text : Str) (hb : readFile e p b text = .ok t) :
    ∃ t', readFile e p a text = .ok t' ∧ Near p t' t := by
  unfold readFile at hb ⊢
  split at hb
  · cases hb
  · rename_i ts hts
    exact near_loop hp _ a b t _ _ h (by intro m hm; cases hm) hb

/-- What is there before `content.xml` is read: neither body nor scripts. -/
structure Before (b : Target) : Prop where
  body : b.body = {}
  scripts : b.scripts = {}
  styles : Style.LessBook {} b.styles
  masters : Less {} b.masters

theorem lessBook_empty {a b : Style.SBook} (h : Style.LessBook a b) : Style.LessBook {} b :=
  ⟨Book.less_empty _ h.styles.bound, Book.less_empty _ h.formats.bound, Book.less_empty _ h.pages.bound⟩

theorem before_start : Before {} := by
  have : ∀ {β : Type}, Less ({} : Stores β) {} := fun {β} => Book.less_empty _ (fun k => Nat.zero_le _)
  exact ⟨rfl, rfl, ⟨this, this, this⟩, this⟩

theorem before_plain {b : Target} (h : Before b) (md : Style.Mode) (ev : Event) (x : State)
    (hb : plain e p md b ev = .ok x) : Before x.book := by
  unfold plain at hb
  split at hb
  · obtain ⟨st, h1, h2⟩ := map_ok hb
    cases h2
    obtain ⟨s', g1, g2⟩ := Style.less_step h.styles _ _ _ _ st h1
    exact ⟨h.body, h.scripts, lessBook_empty g2, h.masters⟩
  · cases hb
    exact h

/-- One event of another file. -/
theorem before_step (hp : p = .metadata ∨ p = .settings ∨ p = .styles) {x x' : State} (h : Before x.book) (ev : Event)
    (es es' : List Event) (hb : step e p x ev es = .ok (x', es')) : Before x'.book := by
  have pl : ∀ md, (plain e p md x.book ev).map (fun x => (x, es)) = .ok (x', es') → Before x'.book := by
    intro md hb
    obtain ⟨y, h1, h2⟩ := map_ok hb
    cases h2
    exact before_plain h md ev x' h1
  obtain ⟨md, b⟩ := x
  cases md with
  | style md =>
    cases md with
    | doc =>
      cases ev with
      | start n as =>
        unfold step at hb
        simp only at hb
        cases hs : special p n with
        | none => rw [hs] at hb; exact pl .doc hb
        | some s =>
          rw [hs] at hb
          simp only at hb
          have hs' : s = .root ∨ s = .metadata ∨ s = .settings ∨ s = .masters := by
            unfold special at hs
            rcases hp with rfl | rfl | rfl
            all_goals
              split at hs
              · cases hs; exact .inl rfl
              · simp only at hs
                split at hs
                · cases hs; simp
                · cases hs
          unfold enter at hb
          rcases hs' with rfl | rfl | rfl | rfl
          · obtain ⟨ns, h1, h2⟩ := map_ok hb
            cases h2
            exact ⟨h.body, h.scripts, h.styles, h.masters⟩
          · cases hb; exact h
          · cases hb; exact h
          · obtain ⟨r, h1, h2⟩ := map_ok hb
            cases h2
            obtain ⟨m', g1, g2⟩ := less_masters _ _ _ r.1 _ _ r.2 h.masters h1
            exact ⟨h.body, h.scripts, h.styles, Book.less_empty _ g2.bound⟩
      | empty n as => exact pl .doc hb
      | «end» n => exact pl .doc hb
      | text s => exact pl .doc hb
      | ref s => exact pl .doc hb
    | fonts | sect | style | format | part | page => exact pl _ hb
  | metadata md =>
    unfold step at hb
    obtain ⟨st, h1, h2⟩ := map_ok hb
    cases h2
    exact ⟨h.body, h.scripts, h.styles, h.masters⟩
  | settings st =>
    unfold step at hb
    obtain ⟨st', h1, h2⟩ := map_ok hb
    simp only [Prod.mk.injEq] at h2
    obtain ⟨h2, _⟩ := h2
    rw [← h2]
    split
    · exact ⟨h.body, h.scripts, h.styles, h.masters⟩
    · exact h

theorem before_loop (hp : p = .metadata ∨ p = .settings ∨ p = .styles) : ∀ (k : Nat) (x : State) (es : List Event)
    (t : Target), Before x.book → loop e p k x es = .ok t → Before t := by
  intro k
  induction k with
  | zero => intro x es t _ hb; cases hb
  | succ k ih =>
    intro x es t h hb
    cases es with
    | nil =>
      rw [loop] at hb
      obtain ⟨md, b⟩ := x
      unfold atEof at hb
      cases md with
      | style md =>
        obtain ⟨s, h1, h2⟩ := map_ok hb
        cases h2
        obtain ⟨s', g1, g2⟩ := Style.less_atEof h.styles md h1
        exact ⟨h.body, h.scripts, lessBook_empty g2, h.masters⟩
      | metadata md =>
        obtain ⟨s, h1, h2⟩ := map_ok hb
        cases h2
        exact ⟨h.body, h.scripts, h.styles, h.masters⟩
      | settings st => cases hb
    | cons ev es =>
      rw [loop] at hb
      cases hs : step e p x ev es with
      | error f => rw [hs] at hb; cases hb
      | ok y =>
        obtain ⟨y, es'⟩ := y
        rw [hs] at hb
        exact ih y es' t (before_step hp h ev es es' hs) hb

theorem before_file (hp : p = .metadata ∨ p = .settings ∨ p = .styles) {b t : Target} (h : Before b) (text : Option Str)
    (hb : readIf e p b text = .ok t) : Before t := by
  cases text with
  | none => cases hb; exact h
  | some text =>
    have hb : readFile e p b text = .ok t := hb
    unfold readFile at hb
    split at hb
    · cases hb
    · exact before_loop hp _ _ _ t h hb

/-- The styles and master pages, the body and the scripts stay as they are; and the settings, but in `settings.xml`. -/
structure Keeps (p : Part) (b t : Target) : Prop where
  body : t.body = b.body
  scripts : t.scripts = b.scripts
  styles : t.styles = b.styles
  masters : t.masters = b.masters
  config : p = .metadata → t.config = b.config

theorem Keeps.refl (b : Target) : Keeps p b b := ⟨rfl, rfl, rfl, rfl, fun _ => rfl⟩

theorem Keeps.trans {a b c : Target} (h1 : Keeps p a b) (h2 : Keeps p b c) : Keeps p a c :=
  ⟨h2.body.trans h1.body, h2.scripts.trans h1.scripts, h2.styles.trans h1.styles, h2.masters.trans h1.masters,
    fun hp => (h2.config hp).trans (h1.config hp)⟩

/-- The loop of `meta.xml` does not come to the settings; and neither `meta.xml` nor `settings.xml` has styles. -/
def NoConfig (p : Part) (md : Mode) : Prop := (p = .metadata → ∀ c, md ≠ .settings c) ∧ ∀ m, md = .style m → m = .doc

theorem keeps_step (hp : p = .metadata ∨ p = .settings) (x x' : State) (ev : Event) (es es' : List Event)
    (hx : NoConfig p x.mode) (hb : step e p x ev es = .ok (x', es')) : NoConfig p x'.mode ∧ Keeps p x.book x'.book := by
  obtain ⟨md, b⟩ := x
  have nc : NoConfig p (.style .doc) := ⟨(fun _ c hc => by cases hc), fun m hm => by cases hm; rfl⟩
  have hst : styled p = false := by rcases hp with rfl | rfl <;> rfl
  have pl : (plain e p .doc b ev).map (fun x => (x, es)) = .ok (x', es') →
      NoConfig p x'.mode ∧ Keeps p b x'.book := by
    intro hb
    unfold plain at hb
    rw [hst] at hb
    cases hb
    exact ⟨nc, Keeps.refl _⟩
  cases md with
  | style md =>
    cases md with
    | doc =>
      cases ev with
      | start n as =>
        unfold step at hb
        simp only at hb
        cases hs : special p n with
        | none => rw [hs] at hb; exact pl hb
        | some s =>
          rw [hs] at hb
          simp only at hb
          have hs' : s = .root ∨ s = .metadata ∨ (s = .settings ∧ p = .settings) := by
            unfold special at hs
            split at hs
            · cases hs; exact .inl rfl
            · rcases hp with rfl | rfl
              · simp only at hs
                split at hs
                · cases hs; exact .inr (.inl rfl)
                · cases hs
              · simp only at hs
                split at hs
                · cases hs; exact .inr (.inr ⟨rfl, rfl⟩)
                · cases hs
          unfold enter at hb
          rcases hs' with rfl | rfl | ⟨rfl, hp'⟩
          · obtain ⟨ns, h1, h2⟩ := map_ok hb
            cases h2
            exact ⟨nc, rfl, rfl, rfl, rfl, fun _ => rfl⟩
          · cases hb
            exact ⟨⟨(by intro _ c hc; cases hc), by intro m hm; cases hm⟩, Keeps.refl _⟩
          · cases hb
            exact ⟨⟨(by intro h; rw [hp'] at h; cases h), by intro m hm; cases hm⟩, Keeps.refl _⟩
      | empty n as => exact pl hb
      | «end» n => exact pl hb
      | text s => exact pl hb
      | ref s => exact pl hb
    | fonts | sect | style | format | part | page => exact absurd (hx.2 _ rfl) (by simp)
  | metadata md =>
    unfold step at hb
    obtain ⟨s, h1, h2⟩ := map_ok hb
    cases h2
    refine ⟨?_, rfl, rfl, rfl, rfl, fun _ => rfl⟩
    simp only
    split
    · exact nc
    · exact ⟨(by intro _ c hc; cases hc), by intro m hm; cases hm⟩
  | settings st =>
    have hne : p ≠ .metadata := fun h => hx.1 h st rfl
    unfold step at hb
    obtain ⟨st', h1, h2⟩ := map_ok hb
    simp only [Prod.mk.injEq] at h2
    obtain ⟨h2, _⟩ := h2
    rw [← h2]
    split
    · exact ⟨nc, rfl, rfl, rfl, rfl, fun h => absurd h hne⟩
    · exact ⟨⟨(fun h => absurd h hne), by intro m hm; cases hm⟩, Keeps.refl _⟩

theorem keeps_file (hp : p = .metadata ∨ p = .settings) {b t : Target} (text : Option Str)
    (hb : readIf e p b text = .ok t) : Keeps p b t := by
  have lp : ∀ (k : Nat) (x : State) (es : List Event) (t : Target), NoConfig p x.mode →
      loop e p k x es = .ok t → Keeps p x.book t := by
    intro k
    induction k with
    | zero => intro x es t _ hb; cases hb
    | succ k ih =>
      intro x es t hx hb
      cases es with
      | nil =>
        rw [loop] at hb
        obtain ⟨md, b⟩ := x
        unfold atEof at hb
        cases md with
        | style md =>
          cases hx.2 md rfl
          cases hb
          exact Keeps.refl _
        | metadata md =>
          obtain ⟨s, h1, h2⟩ := map_ok hb
          cases h2
          exact ⟨rfl, rfl, rfl, rfl, fun _ => rfl⟩
        | settings st => cases hb
      | cons ev es =>
        rw [loop] at hb
        cases hs : step e p x ev es with
        | error f => rw [hs] at hb; cases hb
        | ok y =>
          obtain ⟨y, es'⟩ := y
          rw [hs] at hb
          obtain ⟨g1, g2⟩ := keeps_step hp x y ev es es' hx hs
          exact g2.trans (ih y es' t g1 hb)
  cases text with
  | none => cases hb; exact Keeps.refl _
  | some text =>
    have hb : readFile e p b text = .ok t := hb
    unfold readFile at hb
    split at hb
    · cases hb
    · exact lp _ _ _ t ⟨(by intro _ c hc; cases hc), by intro m hm; cases hm; rfl⟩ hb

/-- `z'` is what is left of the package `z` when some of its files are taken out, but not `content.xml`. -/
structure LeftOf (z z' : Files) : Prop where
  metaXml : z'.metaXml = none ∨ z'.metaXml = z.metaXml
  settingsXml : z'.settingsXml = none ∨ z'.settingsXml = z.settingsXml
  stylesXml : z'.stylesXml = none ∨ z'.stylesXml = z.stylesXml
  contentXml : z'.contentXml = z.contentXml

/-- **C97, packages with fewer files.** For each package, whatever its files say: if it can be read, it can also be read
without its metadata, its settings, its styles, or any two or all three of these; and its sheets with all their cells,
the validations, the foreign elements and the scripts are the same. -/
theorem C97_left (e : Env) (z z' : Files) (t : Target) (hz : LeftOf z z') (h : readOds e z = .ok t) :
    ∃ t', readOds e z' = .ok t' ∧ t'.body = t.body ∧ t'.scripts = t.scripts := by
  unfold readOds at h
  split at h
  · cases h
  rename_i b1 h1
  split at h
  · cases h
  rename_i b2 h2
  split at h
  · cases h
  rename_i b3 h3
  have g1 := before_file (.inl rfl) before_start _ h1
  have g2 := before_file (.inr (.inl rfl)) g1 _ h2
  have g3 := before_file (.inr (.inr rfl)) g2 _ h3
  have k1 := keeps_file (.inl rfl) _ h1
  have k2 := keeps_file (.inr rfl) _ h2
  -- meta.xml
  have s1 : ∃ a1, readIf e .metadata {} z'.metaXml = .ok a1 ∧ Keeps .metadata {} a1 := by
    rcases hz.metaXml with hm | hm
    · exact ⟨{}, by rw [hm]; rfl, Keeps.refl _⟩
    · exact ⟨b1, by rw [hm]; exact h1, k1⟩
  obtain ⟨a1, m1, m2⟩ := s1
  have n1 : Near .settings a1 b1 := by
    refine ⟨⟨m2.body.trans k1.body.symm, m2.scripts.trans k1.scripts.symm, ?_, ?_⟩, fun _ => (m2.config rfl).trans (k1.config rfl).symm⟩
    · rw [m2.styles]; exact g1.styles
    · rw [m2.masters]; exact g1.masters
  -- settings.xml
  have s2 : ∃ a2, readIf e .settings a1 z'.settingsXml = .ok a2 ∧ Fewer a2 b2 ∧ a2.styles = {} ∧ a2.masters = {} := by
    rcases hz.settingsXml with hm | hm
    · refine ⟨a1, by rw [hm]; rfl, ⟨n1.1.body.trans k2.body.symm, n1.1.scripts.trans k2.scripts.symm, ?_, ?_⟩, m2.styles,
        m2.masters⟩
      · rw [k2.styles]; exact n1.1.styles
      · rw [k2.masters]; exact n1.1.masters
    · rw [hm]
      cases hs : z.settingsXml with
      | none =>
        rw [hs] at h2
        cases h2
        exact ⟨a1, rfl, n1.1, m2.styles, m2.masters⟩
      | some text =>
        rw [hs] at h2
        obtain ⟨a2, q1, q2⟩ := near_file (.inl rfl) n1 text h2
        have q3 := keeps_file (p := .settings) (.inr rfl) (some text) q1
        exact ⟨a2, q1, q2.1, q3.styles.trans m2.styles, q3.masters.trans m2.masters⟩
  obtain ⟨a2, p1, p2, p3, p4⟩ := s2
  -- styles.xml
  have s3 : ∃ a3, readIf e .styles a2 z'.stylesXml = .ok a3 ∧ Fewer a3 b3 := by
    rcases hz.stylesXml with hm | hm
    · refine ⟨a2, by rw [hm]; rfl, ?_, ?_, ?_, ?_⟩
      · rw [p2.body, g2.body, g3.body]
      · rw [p2.scripts, g2.scripts, g3.scripts]
      · rw [p3]; exact g3.styles
      · rw [p4]; exact g3.masters
    · rw [hm]
      cases hs : z.stylesXml with
      | none =>
        rw [hs] at h3
        cases h3
        exact ⟨a2, rfl, p2⟩
      | some text =>
        rw [hs] at h3
        obtain ⟨a3, q1, q2⟩ := near_file (p := .styles) (.inr (.inl rfl)) ⟨p2, fun h => by cases h⟩ text h3
        exact ⟨a3, q1, q2.1⟩
  obtain ⟨a3, r1, r2⟩ := s3
  unfold readOds
  rw [m1]
  simp only
  rw [p1]
  simp only
  rw [r1]
  simp only
  rw [hz.contentXml]
  cases hc : z.contentXml with
  | none => rw [hc] at h; cases h
  | some text =>
    rw [hc] at h
    obtain ⟨t', k1, k2⟩ := near_file (p := .content) (.inr (.inr rfl)) ⟨r2, fun h => by cases h⟩ text h
    exact ⟨t', k1, k2.1.body, k2.1.scripts⟩

/-- **C97, packages.** For each package, whatever its files say and whichever of them are missing: if it can be read,
its content alone can be read, too, and gives the same sheets with all their cells, the same validations and foreign
elements, and the same scripts. -/
theorem C97_package (e : Env) (z : Files) (t : Target) (h : read_ods false e z = .ok t) :
    ∃ t', read_ods true e z = .ok t' ∧ t'.body = t.body ∧ t'.scripts = t.scripts :=
  C97_left e z ⟨none, none, none, z.contentXml⟩ t ⟨.inl rfl, .inl rfl, .inl rfl, rfl⟩ h

/-- **C97, missing files.** What the other files of a package say does not matter for its sheets: two packages with the
same `content.xml` that can both be read have the same sheets, validations, foreign elements and scripts. -/
theorem C97_other_files (e : Env) (z z' : Files) (t t' : Target) (hz : z'.contentXml = z.contentXml)
    (h : readOds e z = .ok t) (h' : readOds e z' = .ok t') : t'.body = t.body ∧ t'.scripts = t.scripts := by
  obtain ⟨u, g1, g2, g3⟩ := C97_package e z t h
  obtain ⟨u', k1, k2, k3⟩ := C97_package e z' t' h'
  have g1 : readContent e {} z.contentXml = .ok u := g1
  have k1 : readContent e {} z'.contentXml = .ok u' := k1
  rw [hz, g1] at k1
  cases k1
  exact ⟨k2.symm.trans g2, k3.symm.trans g3⟩

/-! ## Flat files -/

section Flat

variable {lb : Bool}

theorem metaDocs_outside (f : Floats) (m : Meta.Metadata) (ds : List Doc) (hds : Meta.metaDocs f m = ds) :
    DocsTags (· ≠ TableXml.tBody) ds := by
  rw [← hds]
  unfold Meta.metaDocs
  simp only [docsTags_append]
  refine ⟨⟨⟨⟨⟨⟨⟨⟨⟨⟨⟨⟨⟨⟨⟨⟨⟨⟨?_, textDoc_tags _ _ _ (by decide +kernel)⟩, textDoc_tags _ _ _ (by decide +kernel)⟩,
    textDoc_tags _ _ _ (by decide +kernel)⟩, textDoc_tags _ _ _ (by decide +kernel)⟩, textDoc_tags _ _ _ (by decide +kernel)⟩,
    textDoc_tags _ _ _ (by decide +kernel)⟩, textDoc_tags _ _ _ (by decide +kernel)⟩, dateDoc_tags _ _ _ (by decide +kernel)⟩,
    dateDoc_tags _ _ _ (by decide +kernel)⟩, dateDoc_tags _ _ _ (by decide +kernel)⟩, textDoc_tags _ _ _ (by decide +kernel)⟩,
    ?_⟩, ?_⟩, ?_⟩, ?_⟩, ?_⟩, ?_⟩, ?_⟩
  · exact tags_short (P := (· ≠ TableXml.tBody)) (by decide +kernel)
  · split
    · exact tags_short (P := (· ≠ TableXml.tBody)) (by decide +kernel)
    · trivial
  · split
    · exact tags_short (P := (· ≠ TableXml.tBody)) (by decide +kernel)
    · trivial
  · unfold Meta.templateDoc
    split
    · trivial
    · exact tags_void (P := (· ≠ TableXml.tBody)) (by decide +kernel)
  · unfold Meta.reloadDoc
    split
    · trivial
    · exact tags_void (P := (· ≠ TableXml.tBody)) (by decide +kernel)
  · unfold Meta.hyperlinkDoc
    split
    · trivial
    · exact tags_void (P := (· ≠ TableXml.tBody)) (by decide +kernel)
  · exact tags_void (P := (· ≠ TableXml.tBody)) (by decide +kernel)
  · exact docsTags_map _ _ _ (fun u _ => tags_leaf (P := (· ≠ TableXml.tBody)) (by decide +kernel))

theorem valueDoc_outside (f : Floats) (n : Str) (v : Config.CValue) : DocTags (· ≠ TableXml.tBody) (Config.valueDoc f n v) := by
  unfold Config.valueDoc
  split <;> (show Config.tItem ≠ TableXml.tBody; decide +kernel)

mutual
theorem itemDoc_outside (f : Floats) : ∀ (x : Config.CItem) (n : Option Str), DocTags (· ≠ TableXml.tBody) (Config.itemDoc f n x)
  | .value v, n => by rw [Config.itemDoc]; exact valueDoc_outside f _ v
  | .node k m, n => by
    rw [Config.itemDoc]
    refine ⟨?_, itemDocs_outside f m _⟩
    cases k <;> decide +kernel
theorem itemDocs_outside (f : Floats) : ∀ (m : List (Str × Config.CItem)) (vec : Bool),
    DocsTags (· ≠ TableXml.tBody) (Config.itemDocs f vec m)
  | [], _ => by rw [Config.itemDocs]; trivial
  | (n, x) :: m, vec => by
    rw [Config.itemDocs]
    exact ⟨itemDoc_outside f x _, itemDocs_outside f m vec⟩
end


theorem metaDoc_outside (f : Floats) (m : Meta.Metadata) : DocTags (· ≠ TableXml.tBody) (Meta.metaDoc f m) := by
  obtain ⟨ds, hds⟩ : ∃ ds, Meta.metaDocs f m = ds := ⟨_, rfl⟩
  have h3 : Meta.metaDoc f m = .elem false tMeta [] ds := by rw [← hds]; rfl
  have h1 : tMeta ≠ TableXml.tBody := by decide +kernel
  rw [h3]
  exact ⟨h1, metaDocs_outside f m ds hds⟩

/-- The loop goes from the body `b` before `es` to the body `b'` before `es'`. -/
def BGoes (e : Env) (b : TableXml.BookBody) (es : List Event) (b' : TableXml.BookBody) (es' : List Event) : Prop :=
  ∃ n, n + es'.length ≤ es.length ∧ ∀ k, bodyLoop e (k + n) b es = bodyLoop e k b' es'

theorem BGoes.trans {b b1 b2 : TableXml.BookBody} {es es1 es2 : List Event} (h1 : BGoes e b es b1 es1)
    (h2 : BGoes e b1 es1 b2 es2) : BGoes e b es b2 es2 := by
  obtain ⟨n, l1, g1⟩ := h1
  obtain ⟨m, l2, g2⟩ := h2
  exact ⟨m + n, by omega, fun k => by rw [← Nat.add_assoc, g1, g2]⟩

theorem bgoes_skip (b : TableXml.BookBody) (r : List Event) : ∀ evs, StartsOk (· ≠ TableXml.tBody) evs →
    BGoes e b (evs ++ r) b r
  | [], _ => ⟨0, by simp, fun _ => rfl⟩
  | ev :: evs, h => by
    have ih := bgoes_skip b r evs (fun n as hm => h n as (List.mem_cons_of_mem _ hm))
    refine BGoes.trans (es1 := evs ++ r) (b1 := b) ⟨1, by simp; omega, fun k => ?_⟩ ih
    cases ev with
    | start n as =>
      have : n ≠ TableXml.tBody := h n as List.mem_cons_self
      rw [List.cons_append, bodyLoop, if_neg this]
    | empty n as => rfl
    | «end» n => rfl
    | text s => rfl
    | ref s => rfl

/-- What these calls write takes the loop from the body `b` to the body `b'`. -/
def BCovers (e : Env) (lb : Bool) (calls : List Call) (b b' : TableXml.BookBody) : Prop :=
  ∃ items : List Item, items.flatMap Item.calls = calls ∧ (∀ i ∈ items, i.Valid)
    ∧ ∀ r, NoChr r → NoChr (itemsToks lb items ++ r) ∧ BGoes e b (events (itemsToks lb items ++ r)) b' (events r)

theorem BCovers.append {c1 c2 : List Call} {b b1 b2 : TableXml.BookBody} (h1 : BCovers e lb c1 b b1)
    (h2 : BCovers e lb c2 b1 b2) : BCovers e lb (c1 ++ c2) b b2 := by
  obtain ⟨i1, e1, v1, g1⟩ := h1
  obtain ⟨i2, e2, v2, g2⟩ := h2
  refine ⟨i1 ++ i2, by rw [List.flatMap_append, e1, e2], ?_, fun r hr => ?_⟩
  · intro i hi
    rcases List.mem_append.1 hi with hi | hi
    · exact v1 i hi
    · exact v2 i hi
  · obtain ⟨n2, s2⟩ := g2 r hr
    obtain ⟨n1, s1⟩ := g1 _ n2
    rw [itemsToks_append, List.append_assoc]
    exact ⟨n1, s1.trans s2⟩

theorem bcovers_doc (d : Doc) (hok : DocOk d) (ht : DocTags (· ≠ TableXml.tBody) d) (b : TableXml.BookBody) :
    BCovers e lb (docCalls d) b b :=
  ⟨docItems d, rfl, docItems_valid d hok, fun r hr => ⟨docItems_head lb d r, by
    rw [events_doc lb d r hr]
    exact bgoes_skip b _ _ (startsOk_doc _ lb d ht)⟩⟩

theorem unblocked_body (n : Str) (h : Unblocked n) : n ≠ TableXml.tBody := by
  intro he
  subst he
  exact h (by decide +kernel)

theorem startsOk_toks (P : Str → Prop) (ts : List Tok) (h : ∀ n as, Tok.start n as ∈ ts → P n) :
    StartsOk P (events ts) := by
  induction ts with
  | nil => intro n as h; cases h
  | cons t ts ih =>
    have ih := ih (fun n as hm => h n as (List.mem_cons_of_mem _ hm))
    cases t with
    | chr c =>
      intro n as hm
      rw [events] at hm
      have := ih n as
      split at hm <;> simp_all
    | ref r =>
      intro n as hm
      rw [events] at hm
      have := ih n as
      simp_all
    | skip s => rw [events]; exact ih
    | start m bs =>
      intro n as hm
      rw [events] at hm
      rcases List.mem_cons.1 hm with he | hm
      · cases he; exact h m _ List.mem_cons_self
      · exact ih n as hm
    | «end» m =>
      intro n as hm
      rw [events] at hm
      have := ih n as
      simp_all
    | empty m bs =>
      intro n as hm
      rw [events] at hm
      have := ih n as
      simp_all

/-- The tags of an item that opens an element. -/
def openTag : Item → Option Str
  | .start _ n _ => some n
  | .elemText _ n _ => some n
  | _ => none

theorem start_item (i : Item) (n : Str) (as : List (Str × Str)) (h : Tok.start n as ∈ itemToks lb i) :
    openTag i = some n := by
  have hnl : Tok.start n as ∉ (nl lb).map Tok.chr := by simp
  have hesc : ∀ s : Str, Tok.start n as ∉ s.map escTok := by
    intro s hs
    obtain ⟨c, _, hc⟩ := List.mem_map.1 hs
    unfold escTok at hc
    repeat' split at hc
    all_goals cases hc
  unfold itemToks at h
  split at h
  · simp only [List.mem_cons, List.not_mem_nil, or_false] at h
    cases h
    rfl
  · simp at h
  · exact absurd h (hesc _)
  · simp at h
  · simp only [List.cons_append, List.mem_cons, List.mem_append, hesc, hnl, or_false, false_or] at h
    rcases h with h | h
    · cases h; rfl
    · cases h
  · simp at h
    rw [h.1]; rfl
  · simp at h
  · cases h

theorem bcovers_items (items : List Item) (calls : List Call) (hc : items.flatMap Item.calls = calls)
    (hv : ∀ i ∈ items, i.Valid) (hn : ∀ r, NoChr r → NoChr (itemsToks lb items ++ r))
    (ht : ∀ i ∈ items, openTag i ≠ some TableXml.tBody) (b : TableXml.BookBody) : BCovers e lb calls b b := by
  refine ⟨items, hc, hv, fun r hr => ⟨hn r hr, ?_⟩⟩
  rw [events_append _ _ hr]
  refine bgoes_skip b _ _ (startsOk_toks _ _ ?_)
  intro n as hm he
  subst he
  unfold itemsToks at hm
  obtain ⟨i, hi, hm⟩ := List.mem_flatMap.1 hm
  exact ht i hi (start_item i _ as hm)

theorem bcovers_nil (b : TableXml.BookBody) : BCovers e lb [] b b :=
  bcovers_items [] _ rfl (by intro i hi; cases hi) (fun _ hr => hr) (by intro i hi; cases hi) b

theorem bcovers_empty (v : Bool) (n : Str) (as : List (Bool × Str × Str)) (hn : Name n) (ha : AttrsOk as)
    (b : TableXml.BookBody) : BCovers e lb (Item.calls (.empty v n as)) b b :=
  bcovers_items [.empty v n as] _ (by simp) (by
    intro i hi
    rcases List.mem_cons.1 hi with rfl | hi
    · exact ⟨hn, ha⟩
    · cases hi) (fun r hr => noChr_cons _ _ (by intro c; simp)) (by
    intro i hi
    rcases List.mem_cons.1 hi with rfl | hi
    · intro h; cases h
    · cases hi) b

theorem bcovers_scripts (ls : List Script.Listener) (b : TableXml.BookBody) :
    BCovers e lb (Script.writeOffice [] ls) b b := by
  have hl : BCovers e lb (Script.writeListeners ls) b b := by
    induction ls with
    | nil => exact bcovers_nil b
    | cons x ls ih =>
      have := bcovers_empty (e := e) (lb := lb) false Script.tListener (Script.listenerAtts Script.Actuate.fmt x)
        (by decide) (listenerAtts_ok x) b
      exact this.append ih
  have h0 := bcovers_empty (e := e) (lb := lb) true Script.tScripts [] (by decide) (by intro a ha; cases ha) b
  have h1 : BCovers e lb [.endElemIf false Script.tScripts] b b := bcovers_items [.noEnd Script.tScripts] _ rfl (by
    intro i hi
    rcases List.mem_cons.1 hi with rfl | hi
    · trivial
    · cases hi) (fun r hr => hr) (by
    intro i hi
    rcases List.mem_cons.1 hi with rfl | hi
    · intro h; cases h
    · cases hi) b
  exact h0.append (hl.append h1)

/-- The master pages, whose headers and footers are empty in a flat file. -/
theorem bcovers_masters (l : List (Book.Style Master.Master)) (h : ∀ q ∈ l, Master.MasterOk true q) (b : TableXml.BookBody) :
    BCovers e true (Master.writeMasters l) b b := by
  refine bcovers_items (Master.mastersItems l) _ (Master.mastersItems_calls l) (Master.mastersItems_valid true l h) ?_ ?_ b
  · intro r hr
    unfold Master.mastersItems itemsToks
    rw [List.flatMap_cons]
    exact noChr_cons _ _ (by intro c; simp)
  · intro i hi
    have h1 : some Master.tMasters ≠ some TableXml.tBody := by decide +kernel
    have h2 : some Master.tMaster ≠ some TableXml.tBody := by decide +kernel
    unfold Master.mastersItems at hi
    simp only [List.mem_cons, List.mem_append, List.mem_flatMap, List.not_mem_nil, or_false] at hi
    rcases hi with rfl | ⟨q, hq, hi⟩ | rfl
    · exact h1
    · unfold Master.masterItems at hi
      simp only [List.mem_cons, List.mem_append, List.mem_flatMap, List.not_mem_nil, or_false] at hi
      rcases hi with rfl | ⟨s, hs, hi⟩ | rfl
      · exact h2
      · have he : (q.body.slot s).isEmpty = true := ((h q hq s).breaks).resolve_left (by simp)
        unfold Master.slotItems at hi
        rw [if_pos he] at hi
        simp only [List.mem_cons, List.not_mem_nil, or_false] at hi
        rcases hi with rfl | rfl
        · intro h; cases h
        · intro h; cases h
      · intro h; cases h
    · intro h; cases h

theorem bcovers_body (hm : e.ints.max = Refs.Spec.maxU32)
    {bv : Value → Value} {defStyle : ValueType → Option String}
    (extra : List Node) (hx : TableXml.ExtrasOk lb extra)
    (vs : List Valid.Validation) (hv : ∀ v ∈ vs, Valid.Ok v) (hl : lb = false ∨ vs = [])
    (vb : Stores Valid.Body) (hvb : Valid.stored vs {} = .ok vb) {tables : List (TableXml.Head × List TEv)}
    {back : List (TableXml.Head × TSheet)} (h : TableXml.Sheetlikes e.fl e.ints e.opts bv defStyle lb tables back) :
    BCovers e lb (TableXml.bodyCalls e.fl defStyle extra vs tables) {}
      { extra := TableXml.extraBack extra tables, valid := vb, sheets := back } := by
  refine ⟨TableXml.bodyItems e.fl defStyle extra vs tables, TableXml.bodyItems_calls extra vs h,
    TableXml.bodyItems_valid extra hx vs hv h, fun r hr => ⟨?_, ?_⟩⟩
  · unfold TableXml.bodyItems itemsToks
    rw [List.flatMap_cons]
    exact noChr_cons _ _ (by intro c; simp)
  · obtain ⟨es, h1, h2⟩ := TableXml.body_reads hm extra hx vs hv hl vb hvb h r
    have hi : ∃ init, TableXml.bodyItems e.fl defStyle extra vs tables = init ++ [.end false TableXml.tBody] := by
      unfold TableXml.bodyItems
      exact ⟨.start false TableXml.tBody [] :: .start false TableXml.tSpread []
        :: (TableXml.extraItems (extra.filter fun t => decide (TableXml.nodeName t ∈ TableXml.bookPrelude))
          ++ (TableXml.validItems vs ++ (TableXml.sheetItems e.fl defStyle tables
            ++ (TableXml.extraItems (extra.filter fun t => decide (TableXml.nodeName t ∈ TableXml.bookEpilogue))
              ++ [.end false TableXml.tSpread])))), by simp⟩
    obtain ⟨init, hi⟩ := hi
    have hlen : (events ((nl lb).map Tok.chr ++ r)).length ≤ es.length :=
      rest_le lb init false TableXml.tBody r _ es (by rw [← hi]; exact h1)
    rw [itemsToks, h1]
    refine BGoes.trans (es1 := events ((nl lb).map Tok.chr ++ r))
      (b1 := { extra := TableXml.extraBack extra tables, valid := vb, sheets := back }) ⟨1, ?_, fun k => ?_⟩ ?_
    · simp only [List.length_cons]; omega
    · unfold TableXml.readBody at h2
      rw [bodyLoop, if_pos rfl]
      unfold readBodyInto
      rw [h2]
    · rw [events_nl lb r hr]
      exact bgoes_skip _ _ _ (startsOk_nl _ lb)

theorem bfile_reads (defStyle : ValueType → Option String) (w : Parts) (hns : Ns.BookOk w.src.ns) (b' : TableXml.BookBody)
    (h : BCovers e lb (inner e.fl defStyle w .flat) {} b') :
    readFodsContent e (fileText e.fl defStyle lb w .flat) = .ok { body := b' } := by
  obtain ⟨items, hc, hv, hg⟩ := h
  have hcalls : (Ns.writeRoot .flat w.src.ns).2 ++ (inner e.fl defStyle w .flat ++ [.endElem Part.flat.root])
      = (.start false Part.flat.root (Ns.rootAtts .flat w.src.ns) :: (items ++ [.end false Part.flat.root])).flatMap Item.calls := by
    rw [Ns.writeRoot_calls, List.flatMap_cons, List.flatMap_append, hc]
    rfl
  have hvalid : ∀ i ∈ (Item.start false Part.flat.root (Ns.rootAtts .flat w.src.ns) :: (items ++ [.end false Part.flat.root])),
      i.Valid := by
    intro i hi
    simp only [List.mem_cons, List.mem_append, List.not_mem_nil, or_false] at hi
    rcases hi with rfl | hi | rfl
    · exact ⟨Ns.root_name _, Ns.rootAtts_ok _ _ hns⟩
    · exact hv i hi
    · exact Ns.root_name _
  unfold readFodsContent fileText
  rw [hcalls, tok_document lb _ (by decide) _ (fun i hi => tok_item lb i (hvalid i hi)) (by
    intro i hi
    have hi : i = .end false Part.flat.root := by
      simp only [List.getLast?_cons, List.getLast?_append, Option.getD_some, Option.some_or] at hi
      simpa using hi.symm
    subst hi
    exact id)]
  simp only
  have htoks : Tok.chr '\n' :: (nl lb).map Tok.chr
        ++ (Item.start false Part.flat.root (Ns.rootAtts .flat w.src.ns) :: (items ++ [.end false Part.flat.root])).flatMap (itemToks lb)
      = (('\n' :: nl lb).map Tok.chr ++ [.start Part.flat.root (rawAttrs (Ns.rootAtts .flat w.src.ns))])
          ++ (itemsToks lb items ++ .end Part.flat.root :: (nl lb).map Tok.chr) := by
    simp [itemToks, itemsToks]
  rw [htoks]
  have hroot : Part.flat.root ≠ TableXml.tBody := by decide +kernel
  obtain ⟨hn, hbody⟩ := hg (.end Part.flat.root :: (nl lb).map Tok.chr) (noChr_end _ _)
  have hall : BGoes e {} (events ((('\n' :: nl lb).map Tok.chr ++ [.start Part.flat.root (rawAttrs (Ns.rootAtts .flat w.src.ns))])
          ++ (itemsToks lb items ++ .end Part.flat.root :: (nl lb).map Tok.chr))) b' [] := by
    rw [events_append _ _ hn]
    refine (bgoes_skip {} _ _ (startsOk_toks _ _ ?_)).trans (hbody.trans ?_)
    · intro n as hm
      rcases List.mem_append.1 hm with hm | hm
      · simp at hm
      · simp only [List.mem_cons, List.not_mem_nil, or_false] at hm
        cases hm
        exact hroot
    · have := bgoes_skip (e := e) b' [] (events (.end Part.flat.root :: (nl lb).map Tok.chr)) (startsOk_toks _ _ (by
        intro n as hm
        simp at hm))
      rw [List.append_nil] at this
      exact this
  clear hbody
  obtain ⟨n, hn1, hn2⟩ := hall
  generalize events _ = es at *
  have h1 := hn2 (es.length + 1 - n)
  simp only [List.length_nil, Nat.add_zero] at hn1
  rw [show es.length + 1 - n + n = es.length + 1 by omega] at h1
  rw [h1, show es.length + 1 - n = (es.length - n) + 1 by omega, bodyLoop]
  rfl

/-- **C97, flat files (partial).** A workbook is written to a flat file: the content of the file can be read alone, and
gives the same sheets with all their cells, the same validations and foreign elements as reading all of it.

Missing (`_partial`): the limits of C79, which are in `Good`; files that the library did not write
(`C97_flat_counterexample`). -/
theorem C97_flat_partial (hm : e.ints.max = Refs.Spec.maxU32) (ho : e.opts.useRepeat = false)
    (defStyle : ValueType → Option String) (s : Source) (h : Spec.Good e.fl true s) :
    ∃ z t, writeFlat e.fl defStyle s = some z ∧ read_fods false e z = .ok t
      ∧ read_fods true e z = .ok { body := t.body } := by
  obtain ⟨w, vb, back, t, ⟨hw, hsrc, hset, hvb, hsl, hbody⟩, h1, _⟩ := flat_gathered hm ho defStyle s h
  have hz : writeFlat e.fl defStyle s = some (fileText e.fl defStyle true w .flat) := by unfold writeFlat; rw [hw]; rfl
  refine ⟨fileText e.fl defStyle true w .flat, t, hz, by rw [read_fods_all]; exact h1, ?_⟩
  have hcb := Style.convert_ok s.styles h.styles
  have hns : Ns.BookOk w.src.ns := by rw [hsrc]; exact Ns.reachable_ok _ h.ns
  have hmeta : w.src.metadata = s.calc.metadata := by rw [hsrc]; rfl
  have hstyles : w.src.styles = s.styles.convert := by rw [hsrc]; rfl
  have hmasters : w.src.masters = s.masters := by rw [hsrc]; rfl
  have hscripts : w.src.scripts = [] := by rw [hsrc]; exact h.scripts
  have hextra : w.src.extra = s.extra := by rw [hsrc]; rfl
  have hvalids : w.src.validations = s.validations := by rw [hsrc]; rfl
  rw [read_fods_content, hbody]
  refine bfile_reads defStyle w hns _ ?_
  show BCovers e _ (docCalls (Meta.metaDoc e.fl w.src.metadata) ++ (w.settings
    ++ (Script.writeOffice w.src.scripts w.src.listeners ++ (Style.writeFonts w.src.styles .content
      ++ (Style.writeOffice w.src.styles .content ++ (Style.writeAuto w.src.styles .content
        ++ (Master.writeMasters w.src.masters
          ++ TableXml.bodyCalls e.fl defStyle w.src.extra w.src.validations w.tables))))))) _ _
  rw [hmeta, hset, hstyles, hscripts, hextra, hvalids, hmasters, ← Style.fontsDoc_calls, ← Style.officeDoc_calls,
    ← Style.autoDoc_calls]
  have c1 : BCovers e true (docCalls (Meta.metaDoc e.fl s.calc.metadata)) {} {} :=
    bcovers_doc _ (Meta.metaDoc_ok e.fl _ (kept_readable e.fl s.metadata h.metadata _)) (metaDoc_outside e.fl _) _
  have c2 : BCovers e true (docCalls (Config.settingsDoc e.fl s.config)) {} {} :=
    bcovers_doc (Config.settingsDoc e.fl s.config) ⟨Config.name_settings, (by intro a ha; cases ha),
        Config.itemDocs_ok e.fl false _ (fun q hq n => Config.itemDoc_ok e.fl (h.config.2.2 q hq) n)⟩
      ⟨by decide +kernel, itemDocs_outside e.fl _ _⟩ _
  have un : ∀ d, DocTags Unblocked d → DocTags (· ≠ TableXml.tBody) d := docTags_mono unblocked_body
  exact c1.append (c2.append ((bcovers_scripts _ _).append
    ((bcovers_doc _ (Style.fontsDoc_ok _ hcb _) (un _ (fontsDoc_tags _ _)) _).append
      ((bcovers_doc _ (Style.officeDoc_ok _ hcb _) (un _ (officeDoc_tags _ _)) _).append
        ((bcovers_doc _ (Style.autoDoc_ok _ hcb _) (un _ (autoDoc_tags _ _)) _).append
          ((bcovers_masters s.masters h.masters _).append
            (bcovers_body hm s.extra h.body.extras s.validations h.body.valid
              (h.body.flat.imp id And.right) vb hvb hsl)))))))

end Flat

/-! ## Cases that meet the hypotheses -/

/-- **The hypotheses of C97 are met**: a package with something in every part can be read, and its content alone, and
what is left of it without its styles. -/
theorem C97_meets : ∃ z t t' t'', writePackage Meta.asBits (fun _ => none) demo = some z
    ∧ read_ods false ⟨Meta.asBits, Refs.checked, {}⟩ z.files = .ok t
    ∧ read_ods true ⟨Meta.asBits, Refs.checked, {}⟩ z.files = .ok t' ∧ t'.body = t.body
    ∧ read_ods false ⟨Meta.asBits, Refs.checked, {}⟩ { z.files with stylesXml := none } = .ok t'' ∧ t''.body = t.body
    ∧ t.body.sheets.map (·.1.name) = ["A & <B>".toList, "b".toList] := by
  obtain ⟨z, t, h1, h2, _, h3⟩ := C78_meets
  have h2 : read_ods false ⟨Meta.asBits, Refs.checked, {}⟩ z.files = .ok t := h2
  obtain ⟨t', g1, g2, _⟩ := C97_package _ z.files t h2
  obtain ⟨t'', k1, k2, _⟩ := C97_left _ z.files { z.files with stylesXml := none } t
    ⟨.inr rfl, .inr rfl, .inl rfl, rfl⟩ h2
  exact ⟨z, t, t', t'', h1, h2, g1, g2, k1, k2, h3⟩

/-- **The hypotheses of C97 for flat files are met.** -/
theorem C97_flat_meets : ∃ z t, writeFlat Meta.asBits (fun _ => none) demoFlat = some z
    ∧ read_fods false ⟨Meta.asBits, Refs.checked, {}⟩ z = .ok t
    ∧ read_fods true ⟨Meta.asBits, Refs.checked, {}⟩ z = .ok { body := t.body } :=
  C97_flat_partial (e := ⟨Meta.asBits, Refs.checked, {}⟩) rfl rfl (fun _ => none) demoFlat demoFlat_good

/-- A flat file whose only sheet is a part of a script. -/
def scriptFile : Str :=
  ("<office:document><office:scripts><office:script><office:body><office:spreadsheet><table:table table:name=\"a\">"
    ++ "</table:table></office:spreadsheet></office:body></office:script></office:scripts></office:document>").toList

/-- The names of the sheets that are read. -/
def sheetNames (r : Except Fault Target) : Option (List Str) :=
  match r with
  | .ok t => some (t.body.sheets.map (·.1.name))
  | .error _ => none

/-- **C97** is false of the code for some flat files that the library did not write: what stands in a script as an
element `office:body` is no sheet for the reader of the whole file, but one for the reader of the content. -/
theorem C97_flat_counterexample :
    sheetNames (read_fods false ⟨Meta.asBits, Refs.checked, {}⟩ scriptFile) = some []
      ∧ sheetNames (read_fods true ⟨Meta.asBits, Refs.checked, {}⟩ scriptFile) = some ["a".toList] := by
  decide +kernel

end Verif.Whole
