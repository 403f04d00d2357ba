import Verif.Whole.CalmSections

/-!
# Reading comes to an end: settings, metadata and whole files
-/

set_option autoImplicit false

namespace Verif.Whole

open Xml Codec Xml.Spec
open Verif.Book (Stores Kind)
open Verif.Ns (Part)

/-! ## Settings -/

/-- The outermost function is that of the settings. -/
def Rooted : List Config.Frame → Prop
  | [] => True
  | [.settings _] => True
  | [_] => False
  | _ :: g :: fs => Rooted (g :: fs)

theorem rooted_cons (f : Config.Frame) (fs : List Config.Frame) (h : Rooted fs) (hn : fs ≠ []) : Rooted (f :: fs) := by
  cases fs with
  | nil => exact absurd rfl hn
  | cons g fs => cases f <;> exact h

theorem rooted_tail (f : Config.Frame) (fs : List Config.Frame) (h : Rooted (f :: fs)) : Rooted fs := by
  cases fs with
  | nil => trivial
  | cons g fs => cases f <;> exact h

theorem rooted_change (f f' : Config.Frame) (fs : List Config.Frame) (h : Rooted (f :: fs)) (hs : ∀ m, f = .settings m → ∃ m', f' = .settings m') :
    Rooted (f' :: fs) := by
  cases fs with
  | nil =>
    cases f with
    | settings m => obtain ⟨m', e⟩ := hs m rfl; subst e; trivial
    | node k n m i => exact h.elim
    | value n t s => exact h.elim
  | cons g fs => exact rooted_cons _ _ (rooted_tail _ _ h) (by simp)

theorem readName_calm : ∀ (as : List (Str × Str)) (n : Option Str), Calm (Config.readName n as) := by
  intro as
  induction as with
  | nil => intro n; exact calm_ok _
  | cons q as ih =>
    intro n
    obtain ⟨k, v⟩ := q
    rw [Config.readName]
    split
    · split
      · exact calm_error (by decide) (by decide)
      · exact ih _
    · exact ih _

theorem readType_calm : ∀ (as : List (Str × Str)) (n : Option Config.VType), Calm (Config.readType n as) := by
  intro as
  induction as with
  | nil => intro n; exact calm_ok _
  | cons q as ih =>
    intro n
    obtain ⟨k, v⟩ := q
    rw [Config.readType]
    split
    · split
      · exact ih _
      · exact calm_error (by decide) (by decide)
    · exact ih _

theorem openFrame_calm (as : List (Str × Str)) (o : Config.Opens) : Calm (Config.openFrame as o) := by
  unfold Config.openFrame
  split
  · exact calm_ok _
  · split
    · rename_i h; exact (readName_calm as none).of h
    · split
      · exact calm_error (by decide) (by decide)
      · exact calm_ok _
  · split
    · exact calm_ok _
    · rename_i h; exact (readName_calm as none).of h
    · rename_i h _; exact (readType_calm as none).of h
    · exact calm_error (by decide) (by decide)

theorem parseValue_calm (fl : Floats) (s : Str) (t : Config.VType) : Calm (Config.parseValue fl s t) := by
  cases t <;> first | exact calm_ok _ | exact calm_orFail _ (by decide) (by decide)

theorem frameAdd_calm (n : Option Str) (x : Config.CItem) (g : Config.Frame) :
    Calm (g.add n x) ∧ ∀ g', g.add n x = .ok g' → ∀ m, g = .settings m → ∃ m', g' = .settings m' := by
  cases g with
  | settings m =>
    cases n with
    | none => exact ⟨calm_error (by decide) (by decide), by intro g' h; cases h⟩
    | some n => exact ⟨calm_ok _, by intro g' h m' _; cases h; exact ⟨_, rfl⟩⟩
  | node k name m i =>
    refine ⟨?_, by intro g' _ m' h; cases h⟩
    cases k <;> cases n <;> first | exact calm_ok _ | exact calm_error (by decide) (by decide)
  | value a b c => exact ⟨calm_ok _, by intro g' _ m' h; cases h⟩

theorem configStep_calm (fl : Floats) (st : Config.State) (ev : Event) (h : Rooted st.frames) :
    Calm (Config.step fl st ev) ∧ ∀ st', Config.step fl st ev = .ok st' → Rooted st'.frames := by
  have text : ∀ s, Rooted (st.text s).frames := by
    intro s
    unfold Config.State.text
    split
    · rename_i n t u fs e
      rw [e] at h
      exact rooted_change _ _ fs h (by intro m e; cases e)
    · exact h
  cases ev with
  | empty n as => exact ⟨calm_ok _, by intro st' e; cases e; exact h⟩
  | text s => exact ⟨calm_ok _, by intro st' e; cases e; exact text s⟩
  | ref s => exact ⟨calm_ok _, by intro st' e; cases e; exact text _⟩
  | start n as =>
    unfold Config.step
    simp only
    cases ho : Config.opens st.frames.head? n with
    | none => exact ⟨calm_ok _, by intro st' e; cases e; exact h⟩
    | some o =>
      refine ⟨(openFrame_calm as o).map _, ?_⟩
      refine map_keeps (Q := fun st' : Config.State => Rooted st'.frames) ?_
      intro f hf
      show Rooted (f :: st.frames)
      cases hfs : st.frames with
      | nil =>
        rw [hfs] at ho
        simp only [List.head?_nil, Config.opens] at ho
        split at ho
        · cases ho; cases hf; trivial
        · cases ho
      | cons g fs =>
        rw [hfs] at h
        exact rooted_cons _ _ h (by simp)
  | «end» n =>
    unfold Config.step
    simp only
    split
    · exact ⟨calm_error (by decide) (by decide), by intro st' e; cases e⟩
    · split
      · exact ⟨calm_error (by decide) (by decide), by intro st' e; cases e⟩
      · split
        · exact ⟨calm_ok _, by intro st' e; cases e; trivial⟩
        · rename_i f fs hfs
          rw [hfs] at h
          split
          · have key : Calm (Config.closeFrame fl f fs st.config)
                ∧ ∀ r, Config.closeFrame fl f fs st.config = .ok r → Rooted r.1 := by
              cases f with
              | settings m =>
                unfold Config.closeFrame
                exact ⟨calm_ok _, by intro r e; cases e; exact rooted_tail _ _ h⟩
              | node k nm m i =>
                cases fs with
                | nil => exact h.elim
                | cons g fs =>
                  unfold Config.closeFrame
                  obtain ⟨h1, h2⟩ := frameAdd_calm nm (.node k m) g
                  refine ⟨h1.map _, map_keeps (Q := fun r : List Config.Frame × List (Str × Config.CItem) => Rooted r.1) ?_⟩
                  intro g' hg
                  exact rooted_change g g' fs (rooted_tail _ _ h) (h2 g' hg)
              | value nm t s =>
                cases fs with
                | nil => exact h.elim
                | cons g fs =>
                  unfold Config.closeFrame
                  simp only
                  cases hv : Config.parseValue fl s t with
                  | error e => exact ⟨(parseValue_calm fl s t).of hv, by intro r e; cases e⟩
                  | ok v =>
                    obtain ⟨h1, h2⟩ := frameAdd_calm (some nm) (.value v) g
                    refine ⟨h1.map _, map_keeps (Q := fun r : List Config.Frame × List (Str × Config.CItem) => Rooted r.1) ?_⟩
                    intro g' hg
                    exact rooted_change g g' fs (rooted_tail _ _ h) (h2 g' hg)
            exact ⟨key.1.map _, map_keeps (Q := fun st' : Config.State => Rooted st'.frames) fun r hr => key.2 r hr⟩
          · refine ⟨calm_ok _, ?_⟩
            intro st' e
            cases e
            show Rooted st.frames
            rw [hfs]
            exact h

/-! ## Metadata -/

/-- No crash. -/
def MetaCalm {α : Type} (r : Except Meta.Fault α) : Prop := r ≠ .error .panic

theorem metaCalm_ok {α : Type} (a : α) : MetaCalm (.ok a) := by intro h; cases h

theorem metaCalm_err {α : Type} : MetaCalm (α := α) (.error .err) := by intro h; cases h

theorem MetaCalm.map {α β : Type} {r : Except Meta.Fault α} (h : MetaCalm r) (f : α → β) : MetaCalm (r.map f) := by
  cases r with
  | ok a => exact metaCalm_ok _
  | error e => intro e'; cases e; · cases e'
               · exact h rfl

theorem MetaCalm.bind {α β : Type} {r : Except Meta.Fault α} {f : α → Except Meta.Fault β} (h : MetaCalm r)
    (hf : ∀ a, MetaCalm (f a)) : MetaCalm (r >>= f) := by
  cases r with
  | ok a => exact hf a
  | error e =>
    cases e
    · exact metaCalm_err
    · exact absurd rfl h

theorem MetaCalm.calm {α : Type} {r : Except Meta.Fault α} (h : MetaCalm r) : Calm (ofMeta r) := by
  cases r with
  | ok a => exact calm_ok _
  | error e =>
    cases e
    · exact calm_error (by decide) (by decide)
    · exact absurd rfl h

theorem attrOf_calm {α : Type} (p : Str → Option α) (v : Str) : MetaCalm (Meta.attrOf p v) := by
  unfold Meta.attrOf
  split
  · exact metaCalm_err
  · split
    · exact metaCalm_err
    · exact metaCalm_ok _

theorem durationOf_calm (s : Str) (h : DurationFits s) : MetaCalm (Meta.durationOf s) := by
  unfold Meta.durationOf
  split
  · exact metaCalm_ok _
  · exact metaCalm_err
  · rename_i e; exact absurd e h

theorem dateOf_calm (s : Str) : MetaCalm (Meta.dateOf s) := by
  unfold Meta.dateOf
  split
  · exact metaCalm_ok _
  · exact metaCalm_err

theorem readTemplate_calm : ∀ (as : List (Str × Str)) (t : Meta.Template), MetaCalm (Meta.readTemplate t as) := by
  intro as
  induction as with
  | nil => intro t; exact metaCalm_ok _
  | cons q as ih =>
    intro t
    obtain ⟨k, v⟩ := q
    rw [Meta.readTemplate]
    repeat' split
    all_goals first
      | exact MetaCalm.bind ((attrOf_calm _ v).map _) fun t => ih t
      | exact MetaCalm.bind (metaCalm_ok _) fun t => ih t

theorem readReload_calm : ∀ (as : List (Str × Str)) (t : Meta.AutoReload),
    (∀ a ∈ as, AttrSafe a.1 a.2) → MetaCalm (Meta.readReload t as) := by
  intro as
  induction as with
  | nil => intro t _; exact metaCalm_ok _
  | cons q as ih =>
    intro t hs
    obtain ⟨k, v⟩ := q
    rw [Meta.readReload]
    have hv := hs _ (List.mem_cons_self ..)
    have ih := fun t => ih t fun a h => hs a (List.mem_cons_of_mem _ h)
    have hd : MetaCalm (Meta.attrDuration v) := by
      unfold Meta.attrDuration
      split
      · exact metaCalm_err
      · rename_i s e
        exact durationOf_calm s (hv.unescaped s e)
    repeat' split
    all_goals first
      | exact MetaCalm.bind (hd.map _) fun t => ih t
      | exact MetaCalm.bind ((attrOf_calm _ v).map _) fun t => ih t
      | exact MetaCalm.bind (metaCalm_ok _) fun t => ih t

theorem readHyperlink_calm : ∀ (as : List (Str × Str)) (t : Meta.Hyperlink), MetaCalm (Meta.readHyperlink t as) := by
  intro as
  induction as with
  | nil => intro t; exact metaCalm_ok _
  | cons q as ih =>
    intro t
    obtain ⟨k, v⟩ := q
    rw [Meta.readHyperlink]
    repeat' split
    all_goals first
      | exact MetaCalm.bind ((attrOf_calm _ v).map _) fun t => ih t
      | exact MetaCalm.bind (metaCalm_ok _) fun t => ih t

theorem readStatistics_calm : ∀ (as : List (Str × Str)) (t : Meta.Statistics), MetaCalm (Meta.readStatistics t as) := by
  intro as
  induction as with
  | nil => intro t; exact metaCalm_ok _
  | cons q as ih =>
    intro t
    obtain ⟨k, v⟩ := q
    rw [Meta.readStatistics]
    repeat' split
    all_goals first
      | exact MetaCalm.bind ((attrOf_calm _ v).map _) fun t => ih t
      | exact MetaCalm.bind (metaCalm_ok _) fun t => ih t

theorem readUser_calm : ∀ (as : List (Str × Str)) (t : Meta.UserDefined × Meta.UType), MetaCalm (Meta.readUser t as) := by
  intro as
  induction as with
  | nil => intro t; exact metaCalm_ok _
  | cons q as ih =>
    intro t
    obtain ⟨k, v⟩ := q
    rw [Meta.readUser]
    repeat' split
    all_goals first
      | exact MetaCalm.bind ((attrOf_calm _ v).map _) fun t => ih t
      | exact MetaCalm.bind (metaCalm_ok _) fun t => ih t

theorem userValue_calm (f : Floats) (s : Str) (t : Meta.UType) (h : DurationFits s) : MetaCalm (Meta.userValue f s t) := by
  cases t with
  | boolean => unfold Meta.userValue; simp only; split <;> first | exact metaCalm_ok _ | exact metaCalm_err
  | date => exact (dateOf_calm s).map _
  | float => unfold Meta.userValue; simp only; split <;> first | exact metaCalm_ok _ | exact metaCalm_err
  | time => exact (durationOf_calm s h).map _
  | string => exact metaCalm_ok _

theorem orEmpty_calm {α : Type} (p : Str → Except Meta.Fault α) (d : α) (s : Str) (h : MetaCalm (p s)) :
    MetaCalm (Meta.orEmpty p d s) := by
  unfold Meta.orEmpty
  split
  · exact metaCalm_ok _
  · exact h

theorem fieldSet_calm (m : Meta.Metadata) (s : Str) (k : Meta.Field) (h : k = .editingDuration → DurationFits s) :
    MetaCalm (k.set m s) := by
  cases k with
  | creationDate => exact (orEmpty_calm _ _ s ((dateOf_calm s).map _)).map _
  | date => exact (orEmpty_calm _ _ s ((dateOf_calm s).map _)).map _
  | printDate => exact (orEmpty_calm _ _ s ((dateOf_calm s).map _)).map _
  | editingCycles =>
    refine (orEmpty_calm _ _ s ?_).map _
    split
    · exact metaCalm_ok _
    · exact metaCalm_err
  | editingDuration => exact (orEmpty_calm _ _ s (durationOf_calm s (h rfl))).map _
  | _ => exact metaCalm_ok _

/-- The text that is being read is that of a duration that fits. -/
def MetaGoing : Meta.Mode → List Event → Prop
  | .value k s, es => k = .editingDuration → DurationFits (s ++ textUpTo k.tag es)
  | _, _ => True

theorem fieldOf_tag (n : Str) (k : Meta.Field) (h : Meta.fieldOf n = some k) : k.tag = n := by
  unfold Meta.fieldOf at h
  have := List.find?_some h
  simpa using this

theorem metaStep_calm (f : Floats) (st : Meta.St) (ev : Event) (es : List Event) (hs : EventsSafe (ev :: es))
    (hg : MetaGoing st.mode (ev :: es)) :
    MetaCalm (Meta.step f st ev) ∧ ∀ st', Meta.step f st ev = .ok st' → MetaGoing st'.mode es := by
  obtain ⟨mode, m⟩ := st
  have ok : ∀ st' : Meta.St, MetaGoing st'.mode es →
      MetaCalm (.ok st') ∧ ∀ s, (Except.ok st' : Except Meta.Fault Meta.St) = .ok s → MetaGoing s.mode es :=
    fun st' h => ⟨metaCalm_ok _, by intro s e; cases e; exact h⟩
  have mp : ∀ {α : Type} (r : Except Meta.Fault α) (g : α → Meta.St), MetaCalm r → (∀ a, MetaGoing (g a).mode es) →
      MetaCalm (r.map g) ∧ ∀ s, r.map g = .ok s → MetaGoing s.mode es := by
    intro α r g h hg
    refine ⟨h.map _, ?_⟩
    intro s e
    cases r with
    | error x => cases e
    | ok a => cases e; exact hg a
  cases mode with
  | file =>
    unfold Meta.step
    simp only
    split
    · split <;> exact ok _ trivial
    · exact ok _ trivial
  | office =>
    unfold Meta.step
    simp only
    split
    · split <;> exact ok _ trivial
    · rename_i n as
      split
      · rename_i k hk
        refine ok _ ?_
        intro e
        have := fieldOf_tag n k hk
        subst e
        rw [this]
        exact hs.1.2.1 this.symm
      · split
        · exact mp _ _ (readTemplate_calm as _) fun _ => trivial
        · split
          · exact mp _ _ (readReload_calm as _ hs.1.1) fun _ => trivial
          · split
            · exact mp _ _ (readHyperlink_calm as _) fun _ => trivial
            · split
              · exact mp _ _ (readStatistics_calm as _) fun _ => trivial
              · split
                · exact mp _ _ (readUser_calm as _) fun _ => trivial
                · exact ok _ trivial
    · exact ok _ trivial
  | value k s =>
    unfold Meta.step
    simp only
    cases ev with
    | «end» n =>
      simp only
      split
      · rename_i hn
        refine mp _ _ (fieldSet_calm m s k ?_) fun _ => trivial
        intro hk
        have := hg hk
        rw [textUpTo, if_pos hn, List.append_nil] at this
        exact this
      · rename_i hn
        refine ok _ ?_
        intro hk
        have := hg hk
        rw [textUpTo, if_neg hn] at this
        exact this
    | ref r =>
      refine ok _ ?_
      intro hk
      have := hg hk
      rw [textUpTo, ← List.append_assoc] at this
      exact this
    | text t =>
      refine ok _ ?_
      intro hk
      have := hg hk
      rw [textUpTo, ← List.append_assoc] at this
      exact this
    | start n as => exact ok _ hg
    | empty n as => exact ok _ hg
  | user u ty =>
    unfold Meta.step
    simp only
    cases ev with
    | «end» n => simp only; split <;> exact ok _ trivial
    | text t => exact mp _ _ (userValue_calm f t ty hs.1) fun _ => trivial
    | ref r => exact ok _ trivial
    | start n as => exact ok _ trivial
    | empty n as => exact ok _ trivial

theorem metaEof_calm (st : Meta.St) (hg : MetaGoing st.mode []) : MetaCalm (Meta.atEof st) := by
  obtain ⟨mode, m⟩ := st
  cases mode with
  | value k s =>
    refine fieldSet_calm m s k ?_
    intro hk
    have := hg hk
    rwa [textUpTo, List.append_nil] at this
  | _ => exact metaCalm_ok _

/-! ## Namespaces -/

theorem readNs_calm : ∀ (as : List (Str × Str)) (v : Option Str) (m : Ns.NsMap), Calm (Ns.readNs v m as) := by
  intro as
  induction as with
  | nil => intro v m; exact calm_ok _
  | cons q as ih =>
    intro ver m
    obtain ⟨k, v⟩ := q
    rw [Ns.readNs]
    repeat' split
    all_goals first | exact ih _ _ | exact calm_error (by decide) (by decide)

theorem readRoot_calm (p : Part) (b : Ns.NsBook) (as : List (Str × Str)) : Calm (Ns.readRoot p b as) := by
  unfold Ns.readRoot
  split
  · rename_i h; exact (readNs_calm as none []).of h
  · exact calm_ok _

/-! ## Whole files -/

/-- The stores of a workbook have room for `left` entries more. -/
structure Room (b : Target) (left : Nat) : Prop where
  styles : StylesMade b.styles left
  masters : Made b.masters left
  valid : Made b.body.valid left

theorem Room.less {b : Target} {k l : Nat} (h : Room b k) (hl : l ≤ k) : Room b l :=
  ⟨h.styles.less hl, h.masters.less hl, h.valid.less hl⟩

/-- What holds while a file is read. -/
def FileGoing (x : State) (es : List Event) : Prop :=
  match x.mode with
  | .style _ => True
  | .metadata md => MetaGoing md es
  | .settings st => Rooted st.frames

theorem enter_calm (e : Env) (hm : e.ints.wrap = true) (p : Part) (b : Target) (as : List (Str × Str)) (es : List Event)
    (more : Nat) (hs : Smooth es) (hb : Room b (es.length + more)) (s : Sect) :
    Calm (enter e p b as es s)
      ∧ ∀ x' es', enter e p b as es s = .ok (x', es') → Ends es es' ∧ FileGoing x' es' ∧ Room x'.book (es'.length + more) := by
  cases s with
  | root =>
    refine ⟨(readRoot_calm p b.ns as).map _, ?_⟩
    intro x' es' h
    refine map_keeps (Q := fun r : State × List Event => Ends es r.2 ∧ FileGoing r.1 r.2 ∧ Room r.1.book (r.2.length + more)) ?_ _ h
    exact fun ns _ => ⟨Ends.refl es, trivial, hb.styles, hb.masters, hb.valid⟩
  | metadata => exact ⟨calm_ok _, by intro x' es' h; cases h; exact ⟨Ends.refl es, trivial, hb⟩⟩
  | settings => exact ⟨calm_ok _, by intro x' es' h; cases h; exact ⟨Ends.refl es, trivial, hb⟩⟩
  | scripts =>
    obtain ⟨h1, h2⟩ := readScripts_calm b.scripts es hs.1
    refine ⟨h1.map _, ?_⟩
    intro x' es' h
    refine map_keeps (Q := fun r : State × List Event => Ends es r.2 ∧ FileGoing r.1 r.2 ∧ Room r.1.book (r.2.length + more)) ?_ _ h
    exact fun r hr => ⟨h2 _ _ hr, trivial,
        (hb.less (l := r.2.length + more) (by have := (h2 _ _ hr).length; omega)).styles,
        (hb.less (l := r.2.length + more) (by have := (h2 _ _ hr).length; omega)).masters,
        (hb.less (l := r.2.length + more) (by have := (h2 _ _ hr).length; omega)).valid⟩
  | masters =>
    obtain ⟨h1, h2⟩ := readMasters_calm more b.masters es hb.masters
    refine ⟨h1.map _, ?_⟩
    intro x' es' h
    refine map_keeps (Q := fun r : State × List Event => Ends es r.2 ∧ FileGoing r.1 r.2 ∧ Room r.1.book (r.2.length + more)) ?_ _ h
    exact fun r hr => ⟨(h2 _ _ hr).1, trivial,
        (hb.less (l := r.2.length + more) (by have := (h2 _ _ hr).1.length; omega)).styles, (h2 _ _ hr).2,
        (hb.less (l := r.2.length + more) (by have := (h2 _ _ hr).1.length; omega)).valid⟩
  | body =>
    obtain ⟨h1, h2⟩ := readBody_calm e hm more b.body es hs hb.valid
    refine ⟨h1.map _, ?_⟩
    intro x' es' h
    refine map_keeps (Q := fun r : State × List Event => Ends es r.2 ∧ FileGoing r.1 r.2 ∧ Room r.1.book (r.2.length + more)) ?_ _ h
    exact fun r hr => ⟨(h2 _ _ hr).1, trivial,
        (hb.less (l := r.2.length + more) (by have := (h2 _ _ hr).1.length; omega)).styles,
        (hb.less (l := r.2.length + more) (by have := (h2 _ _ hr).1.length; omega)).masters, (h2 _ _ hr).2⟩

theorem plain_calm (e : Env) (hm : e.ints.wrap = true) (p : Part) (md : Style.Mode) (b : Target) (ev : Event) (es : List Event)
    (left : Nat) (hb : Room b (left + 1)) :
    Calm (plain e p md b ev) ∧ ∀ x', plain e p md b ev = .ok x' → FileGoing x' es ∧ Room x'.book left := by
  have h0 := hb.less (Nat.le_succ left)
  unfold plain
  split
  · obtain ⟨h1, h2⟩ := styleStep_turn left e.ints hm (origin p) ⟨md, b.styles⟩ ev hb.styles
    exact ⟨h1.map _, map_keeps (Q := fun x' : State => FileGoing x' es ∧ Room x'.book left)
      fun st hst => ⟨trivial, h2 st hst, h0.masters, h0.valid⟩⟩
  · exact ⟨calm_ok _, by intro x' h; cases h; exact ⟨trivial, h0⟩⟩

theorem step_calm (e : Env) (hm : e.ints.wrap = true) (p : Part) (x : State) (ev : Event) (es : List Event) (more : Nat)
    (hs : Smooth (ev :: es)) (hg : FileGoing x (ev :: es)) (hb : Room x.book (es.length + more + 1)) :
    Calm (step e p x ev es)
      ∧ ∀ x' es', step e p x ev es = .ok (x', es') → Ends es es' ∧ FileGoing x' es' ∧ Room x'.book (es'.length + more) := by
  have h0 := hb.less (Nat.le_succ _)
  have pl : ∀ md, Calm ((plain e p md x.book ev).map fun x => (x, es))
      ∧ ∀ x' es', (plain e p md x.book ev).map (fun x => (x, es)) = .ok (x', es') →
        Ends es es' ∧ FileGoing x' es' ∧ Room x'.book (es'.length + more) := by
    intro md
    obtain ⟨h1, h2⟩ := plain_calm e hm p md x.book ev es (es.length + more) hb
    refine ⟨h1.map _, ?_⟩
    intro x' es' h
    exact map_keeps (Q := fun r : State × List Event => Ends es r.2 ∧ FileGoing r.1 r.2 ∧ Room r.1.book (r.2.length + more))
      (fun x hx => ⟨Ends.refl es, h2 x hx⟩) _ h
  unfold step
  split
  · split
    · split
      · exact enter_calm e hm p x.book _ es more (smooth_inherited _ _ hs) h0 _
      · exact pl .doc
    · exact pl .doc
  · exact pl _
  · rename_i md hmode
    unfold FileGoing at hg
    rw [hmode] at hg
    obtain ⟨h1, h2⟩ := metaStep_calm e.fl ⟨md, x.book.metadata⟩ ev es hs.1 hg
    refine ⟨h1.calm.map _, ?_⟩
    intro x' es' h
    refine map_keeps (Q := fun r : State × List Event => Ends es r.2 ∧ FileGoing r.1 r.2 ∧ Room r.1.book (r.2.length + more))
      (fun st hst => ⟨Ends.refl es, ?_, h0.styles, h0.masters, h0.valid⟩) _ h
    have hst' : Meta.step e.fl ⟨md, x.book.metadata⟩ ev = .ok st := by
      cases hr : Meta.step e.fl ⟨md, x.book.metadata⟩ ev with
      | ok a => rw [hr] at hst; cases hst; rfl
      | error f => rw [hr] at hst; cases f <;> cases hst
    have hg' := h2 st hst'
    obtain ⟨md', m'⟩ := st
    cases md' with
    | file => trivial
    | _ => exact hg'
  · rename_i st hmode
    unfold FileGoing at hg
    rw [hmode] at hg
    obtain ⟨h1, h2⟩ := configStep_calm e.fl st ev hg
    refine ⟨h1.map _, ?_⟩
    intro x' es' h
    refine map_keeps (Q := fun r : State × List Event => Ends es r.2 ∧ FileGoing r.1 r.2 ∧ Room r.1.book (r.2.length + more))
      (fun st hst => ⟨Ends.refl es, ?_⟩) _ h
    simp only
    split
    · exact ⟨trivial, h0.styles, h0.masters, h0.valid⟩
    · exact ⟨h2 st hst, h0⟩

theorem loop_calm (e : Env) (hm : e.ints.wrap = true) (p : Part) (more : Nat) : ∀ (k : Nat) (x : State) (es : List Event),
    es.length < k → Smooth es → FileGoing x es → Room x.book (es.length + more + 1) →
    Calm (loop e p k x es) ∧ ∀ b, loop e p k x es = .ok b → Room b more := by
  intro k
  induction k with
  | zero => intro x es h; omega
  | succ k ih =>
    intro x es hl hs hg hb
    cases es with
    | nil =>
      have hb : Room x.book (more + 1) := hb.less (by simp)
      have h0 := hb.less (Nat.le_succ more)
      show Calm (atEof x) ∧ ∀ b, atEof x = .ok b → Room b more
      unfold atEof
      split
      · rename_i md _
        obtain ⟨h1, h2⟩ := styleEof_calm more ⟨md, x.book.styles⟩ hb.styles
        exact ⟨h1.map _, map_keeps (Q := fun b : Target => Room b more) fun s hs => ⟨h2 s hs, h0.masters, h0.valid⟩⟩
      · rename_i md hmode
        unfold FileGoing at hg
        rw [hmode] at hg
        exact ⟨(metaEof_calm ⟨md, x.book.metadata⟩ hg).calm.map _,
          map_keeps (Q := fun b : Target => Room b more) fun m _ => ⟨h0.styles, h0.masters, h0.valid⟩⟩
      · exact ⟨calm_error (by decide) (by decide), by intro b h; cases h⟩
    | cons ev es =>
      have hl2 : es.length < k := by simp at hl; omega
      obtain ⟨h1, h2⟩ := step_calm e hm p x ev es (more + 1) hs hg (hb.less (by simp; omega))
      rw [loop]
      cases hr : step e p x ev es with
      | error f => exact ⟨h1.of hr, by intro b h; cases h⟩
      | ok r =>
        obtain ⟨g1, g2, g3⟩ := h2 r.1 r.2 hr
        exact ih r.1 r.2 (by have := g1.length; omega) (smooth_inherited.ends g1 (smooth_inherited _ _ hs)) g2
          (g3.less (by omega))

/-- The events of a text. -/
def eventsOf (text : Str) : List Event := (tokenize text).elim [] events

theorem readFile_calm (e : Env) (hm : e.ints.wrap = true) (p : Part) (more : Nat) (b : Target) (text : Str)
    (hs : Smooth (eventsOf text)) (hb : Room b ((eventsOf text).length + more + 1)) :
    Calm (readFile e p b text) ∧ ∀ b', readFile e p b text = .ok b' → Room b' more := by
  unfold readFile
  unfold eventsOf at hs hb
  cases ht : tokenize text with
  | none => exact ⟨calm_error (by decide) (by decide), by intro b h; cases h⟩
  | some ts =>
    rw [ht] at hs hb
    exact loop_calm e hm p more _ ⟨.style .doc, b⟩ (events ts) (by omega) hs trivial hb

theorem bodyLoop_calm (e : Env) (hm : e.ints.wrap = true) : ∀ (k : Nat) (b : TableXml.BookBody) (es : List Event),
    es.length < k → Smooth es → Made b.valid es.length → Calm (bodyLoop e k b es) := by
  intro k
  induction k with
  | zero => intro b es h; omega
  | succ k ih =>
    intro b es hl hs hb
    cases es with
    | nil => exact calm_ok _
    | cons ev es =>
      have hl2 : es.length < k := by simp at hl; omega
      have hs2 := smooth_inherited _ _ hs
      have hb2 : Made b.valid (es.length + 0) := hb.less (by simp)
      have go := ih b es hl2 hs2 hb2
      cases ev with
      | text s => exact go
      | ref s => exact go
      | «end» n => exact go
      | empty n as => exact go
      | start n as =>
        rw [bodyLoop]
        split
        · obtain ⟨h1, h2⟩ := readBody_calm e hm 0 b es hs2 hb2
          cases hr : readBodyInto e b es with
          | error f => exact h1.of hr
          | ok r =>
            obtain ⟨g1, g2⟩ := h2 r.1 r.2 hr
            exact ih r.1 r.2 (by have := g1.length; omega) (smooth_inherited.ends g1 hs2) g2
        · exact go

theorem room_new (left : Nat) (h : left < 4294967296) : Room {} left :=
  ⟨⟨made_new left h, made_new left h, made_new left h⟩, made_new left h, made_new left h⟩

theorem readFodsContent_calm (e : Env) (hm : e.ints.wrap = true) (text : Str) (hs : Smooth (eventsOf text))
    (hn : (eventsOf text).length < 4294967296) : Calm (readFodsContent e text) := by
  unfold readFodsContent
  unfold eventsOf at hs hn
  cases ht : tokenize text with
  | none => exact calm_error (by decide) (by decide)
  | some ts =>
    rw [ht] at hs hn
    exact (bodyLoop_calm e hm _ {} (events ts) (by omega) hs (made_new _ hn)).map _

end Verif.Whole
