import Verif.Whole.OtherStyles
import Verif.Master.Other
import Verif.Meta.OtherTree

/-!
# C116: whole files of other programs
-/

set_option autoImplicit false

namespace Verif.Whole

open Xml Xml.Spec Verif.Codec Verif.TableXml
open Verif.Ns (Part NsBook)
open Verif.Valid (rulesIn)
open Verif.Style (AttrsFine attrOf_cons attrOf_absent)
open Verif.Script (escaped_cons)

/-! ## Specification -/

/-- Which section of a file an element is; styles and fonts are not sections of their own here. -/
def sect (p : Part) : El → Option Sect
  | .elem n _ _ => special p n
  | _ => none

/-- What is in an element. -/
def inside : El → List El
  | .elem _ _ c => c
  | _ => []

/-- What is in a section of the file, if there is one. -/
def findSection (p : Part) (s : Sect) (c : List El) : Option (List El) := (c.find? fun x => sect p x = some s).map inside

/-- What is in a section of the file; nothing if there is none. -/
def sectionOf (p : Part) (s : Sect) (c : List El) : List El := (findSection p s c).getD []

/-- No section is there twice. -/
def Once (p : Part) : List El → Prop
  | [] => True
  | x :: c => (∀ s, sect p x = some s → ∀ y ∈ c, sect p y ≠ some s) ∧ Once p c

/-- The elements of a file with its fonts and styles, and all others without a section. -/
def rest (p : Part) (c : List El) : List El := c.filter fun x => sect p x = none

/-- The rules of a body have names, each its own. -/
def RulesFine (m : Refs.Ints) (c : List El) : Prop :=
  (∀ x ∈ rulesIn m (listsIn c), x.1 ≠ []) ∧ ((rulesIn m (listsIn c)).map Prod.fst).Nodup
    ∧ 2 * (rulesIn m (listsIn c)).length < 4294967296

/-- A section can be read: the conditions of C115, C114, C113, C112 and C107. -/
def SectionFine (e : Env) : Sect → List El → Prop
  | .root, _ => False
  | .metadata, c => Meta.MetaFine e.fl c ∧ NoStartIn tMeta c
  | .settings, c => Config.ItemsFine e.fl .settings c ∧ NoStartIn Config.tSettings c
  | .scripts, c => Script.ScriptsFine c
  | .masters, c => Master.MastersFine c
  | .body, c => BodyOkIn e.fl e.ints c ∧ RulesFine e.ints c

/-- An element of the root element can be read: a section as above, and all else as in C111, without a section in it. -/
def ChildFine (e : Env) (p : Part) (x : El) : Prop :=
  match sect p x with
  | some s => SectionFine e s (inside x)
  | none => (styled p = true → Style.StylesFine e.ints x) ∧ StartsOk (Free p) x.events

/-- The root element has the type of the standard, if it has one. -/
structure RootFine (as : List (Str × Str)) : Prop where
  attrs : AttrsFine as
  mime : ∀ v, Style.attrOf as Ns.aMime = some v → v = Ns.mime

/-- A file: its root element, with white space in front and behind. -/
structure FileFine (e : Env) (p : Part) (front : List El) (as : List (Str × Str)) (c back : List El) : Prop where
  front : ∀ x ∈ front, x.isText = true
  back : ∀ x ∈ back, x.isText = true
  root : RootFine as
  once : Once p c
  child : ∀ x ∈ c, ChildFine e p x

/-- The elements of the file. -/
def wholeEls (p : Part) (front : List El) (as : List (Str × Str)) (c back : List El) : List El :=
  front ++ .elem p.root as c :: back

/-- The definitions of styles, formats, page layouts and fonts of a file. -/
def stylesOf (e : Env) (p : Part) (c : List El) : List Style.Op :=
  if styled p = true then Style.stylesSaidIn e.ints (origin p) (rest p c) else []

/-- The master pages of a file. -/
def mastersOf (p : Part) (c : List El) : List (Book.Style Master.Master) := Master.mastersSaid (sectionOf p .masters c)

/-- The body of a workbook is what the element of the file means: C107. -/
structure BodySaid (e : Env) (c : List El) (b : BookBody) : Prop where
  extra : b.extra = bodyKeptIn c
  sheets : b.sheets.map some = (tablesIn c).map (tableRead e.fl e.ints e.opts)
  rules : ∀ n rule, (n, rule) ∈ rulesIn e.ints (listsIn c) →
    ∃ s, b.valid.get? .validation n = some s ∧ s.name = n ∧ s.body.rule = rule

/-- The namespaces of a file are those of the attributes of its root element. -/
def NamespacesSaid (p : Part) (as : List (Str × Str)) (b : NsBook) : Prop :=
  ∃ m, b.xmlns.get? p.readKey = some m
    ∧ ∀ k, (Book.HMap.get? m k).map Prod.snd = if Ns.xmlnsPrefix.isPrefixOf k then Style.attrOf as k else none

/-! ## The root element -/

theorem version_apart : Ns.xmlnsPrefix.isPrefixOf Ns.aVersion = false := by decide +kernel
theorem mime_apart : Ns.xmlnsPrefix.isPrefixOf Ns.aMime = false := by decide +kernel
theorem version_mime : Ns.aVersion ≠ Ns.aMime := by decide +kernel

theorem readNs_said (as : List (Str × Str)) (h : RootFine as) : ∀ (ver : Option Str) (m : Ns.NsMap), ∃ m',
    Ns.readNs ver m as = .ok ((Style.attrOf as Ns.aVersion).or ver, m')
      ∧ ∀ k, (Book.HMap.get? m' k).map Prod.snd
        = if Ns.xmlnsPrefix.isPrefixOf k then (Style.attrOf as k).or ((Book.HMap.get? m k).map Prod.snd)
          else (Book.HMap.get? m k).map Prod.snd := by
  induction as with
  | nil => intro ver m; exact ⟨m, rfl, fun k => by split <;> rfl⟩
  | cons kv as ih =>
    obtain ⟨k, v⟩ := kv
    intro ver m
    obtain ⟨⟨hd, hp⟩, hm⟩ := h
    obtain ⟨w, hw, hp', -⟩ := escaped_cons hp
    rw [List.map_cons, List.nodup_cons] at hd
    have hno : ∀ q, k = q → Style.attrOf as q = none := fun q e => attrOf_absent as q (by rw [← e]; exact hd.1)
    have hcons : ∀ q, Style.attrOf ((k, v) :: as) q = if q = k then some w else Style.attrOf as q := by
      intro q; rw [attrOf_cons, hw]
    have ih := ih ⟨⟨hd.2, hp'⟩, fun u hu => hm u (by
      rw [hcons, if_neg (fun e => by rw [hno _ e.symm] at hu; cases hu)]; exact hu)⟩
    rw [Ns.readNs]
    by_cases k0 : k = Ns.aVersion
    · rw [if_pos k0, hw]
      simp only
      obtain ⟨m', h1, h2⟩ := ih (some w) m
      refine ⟨m', ?_, fun q => ?_⟩
      · rw [h1, hno _ k0, hcons, if_pos k0.symm]
        rfl
      · rw [h2, hcons]
        split
        · rename_i hq
          rw [if_neg (fun e => by rw [e, k0, version_apart] at hq; cases hq)]
        · rfl
    rw [if_neg k0]
    by_cases k1 : Ns.xmlnsPrefix.isPrefixOf k = true
    · rw [if_pos k1, hw]
      simp only
      obtain ⟨m', h1, h2⟩ := ih ver (m.insert k w)
      refine ⟨m', ?_, fun q => ?_⟩
      · rw [h1, hcons, if_neg (Ne.symm k0)]
      · rw [h2, hcons]
        have hi : (Book.HMap.get? (Ns.NsMap.insert m k w) q).map Prod.snd
            = if q = k then some w else (Book.HMap.get? m q).map Prod.snd := by
          unfold Ns.NsMap.insert Ns.NsMap.put
          rw [Book.HMap.get?_insert]
          by_cases e : q = k
          · rw [if_pos e, if_pos e.symm]; rfl
          · rw [if_neg e, if_neg (Ne.symm e)]
        rw [hi]
        by_cases e : q = k
        · subst e
          rw [if_pos k1, if_pos k1, if_pos rfl, if_pos rfl, hno _ rfl]
          rfl
        · rw [if_neg e, if_neg e]
    rw [if_neg k1]
    obtain ⟨m', h1, h2⟩ := ih ver m
    have hq : ∀ q, (if Ns.xmlnsPrefix.isPrefixOf q = true then (Style.attrOf ((k, v) :: as) q).or ((Book.HMap.get? m q).map Prod.snd)
        else (Book.HMap.get? m q).map Prod.snd)
        = if Ns.xmlnsPrefix.isPrefixOf q = true then (Style.attrOf as q).or ((Book.HMap.get? m q).map Prod.snd)
        else (Book.HMap.get? m q).map Prod.snd := by
      intro q
      rw [hcons]
      split
      · rename_i hq
        rw [if_neg (show ¬ q = k from fun e => k1 (e ▸ hq))]
      · rfl
    by_cases k2 : k = Ns.aMime
    · rw [if_pos k2, hw]
      simp only
      rw [if_neg (by
        rw [hm w (by rw [hcons, if_pos k2.symm])]; simp)]
      refine ⟨m', ?_, fun q => ?_⟩
      · rw [h1, hcons, if_neg (Ne.symm k0)]
      · rw [h2, hq]
    · rw [if_neg k2]
      refine ⟨m', ?_, fun q => ?_⟩
      · rw [h1, hcons, if_neg (Ne.symm k0)]
      · rw [h2, hq]

theorem readRoot_said (p : Part) (b : NsBook) (as : List (Str × Str)) (h : RootFine as) :
    ∃ n, Ns.readRoot p b as = .ok n ∧ NamespacesSaid p as n
      ∧ n.version = (if p.versioned then (Style.attrOf as Ns.aVersion).getD b.version else b.version)
      ∧ ∀ k, k ≠ p.readKey → n.xmlns.get? k = b.xmlns.get? k := by
  obtain ⟨m, h1, h2⟩ := readNs_said as h none []
  unfold Ns.readRoot
  rw [h1]
  refine ⟨_, rfl, ⟨m, ?_, fun k => ?_⟩, ?_, fun k hk => ?_⟩
  · rw [Book.HMap.get?_insert, if_pos rfl]
  · rw [h2]
    split
    · simp [Book.HMap.get?]
    · rfl
  · simp
  · rw [Book.HMap.get?_insert, if_neg (Ne.symm hk)]

/-! ## Elements -/

section Events

variable {e : Env} {p : Part}

/-- What has no section is left to the styles. -/
theorem goes_rest (x : El) (hs : sect p x = none) (h : ChildFine e p x) (b : Target) (sb : Style.SBook)
    (hb : b.styles.applyAll (if styled p = true then Style.stylesSaid e.ints (origin p) x else []) = .ok sb) (r : List Event) :
    Goes e p ⟨.style .doc, b⟩ (x.events ++ r) ⟨.style .doc, { b with styles := sb }⟩ r := by
  unfold ChildFine at h
  rw [hs] at h
  obtain ⟨h1, h2⟩ := h
  by_cases hp : styled p = true
  · rw [if_pos hp] at hb
    refine goes_style hp r _ h2 _ _ _ _ ?_
    rw [Style.file_el e.ints (origin p) x (h1 hp) b.styles, hb]
    rfl
  · rw [if_neg hp] at hb
    cases hb
    show Goes e p ⟨.style .doc, b⟩ (x.events ++ r) ⟨.style .doc, b⟩ r
    have : ∀ evs : List Event, StartsOk (Free p) evs → Goes e p ⟨.style .doc, b⟩ (evs ++ r) ⟨.style .doc, b⟩ r := by
      intro evs
      induction evs with
      | nil => intro _; exact Goes.refl _ _
      | cons ev evs ih =>
        intro hs
        refine Goes.trans (goes_step (x' := ⟨.style .doc, b⟩) (es' := evs ++ r) ?_ (Nat.le_refl _))
          (ih (fun n as hm => hs n as (List.mem_cons_of_mem _ hm)))
        have hpl : plain e p .doc b ev = .ok ⟨.style .doc, b⟩ := by unfold plain; rw [if_neg hp]
        cases ev with
        | start n as =>
          have hf : special p n = none := hs n as List.mem_cons_self
          unfold step
          simp only [hf, hpl]
          rfl
        | _ => unfold step; simp only [hpl]; rfl
    exact this _ h2

mutual

theorem ends_noStart (m : Str) (x : El) (h : x.NoStart m) : EndsOk (· ≠ m) x.events :=
  match x with
  | .text s => by intro n hm; simp [El.events] at hm
  | .ref s => by intro n hm; simp [El.events] at hm
  | .void n as => by intro n hm; simp [El.events] at hm
  | .elem n as c => by
    intro k hm
    rw [El.events] at hm
    rcases List.mem_cons.1 hm with hm | hm
    · cases hm
    · rcases List.mem_append.1 hm with hm | hm
      · exact ends_noStartIn m c h.2 k hm
      · rw [List.mem_singleton] at hm
        cases hm
        exact h.1

theorem ends_noStartIn (m : Str) (c : List El) (h : NoStartIn m c) : EndsOk (· ≠ m) (evsOf c) :=
  match c with
  | [] => by intro n hm; cases hm
  | x :: c => by
    intro n hm
    rw [evsOf] at hm
    rcases List.mem_append.1 hm with hm | hm
    · exact ends_noStart m x h.1 n hm
    · exact ends_noStartIn m c h.2 n hm

end

theorem special_name {n : Str} {s : Sect} (h : special p n = some s) : match s with
    | .root => n = p.root
    | .metadata => n = tMeta
    | .settings => n = Config.tSettings
    | .scripts => n = Script.tScripts
    | .masters => n = Master.tMasters
    | .body => n = tBody := by
  unfold special at h
  by_cases h0 : n = p.root
  · rw [if_pos h0] at h; cases h; exact h0
  rw [if_neg h0] at h
  cases p with
  | metadata =>
    by_cases h1 : n = tMeta
    · simp only at h; rw [if_pos h1] at h; cases h; exact h1
    · simp only at h; rw [if_neg h1] at h; cases h
  | settings =>
    by_cases h1 : n = Config.tSettings
    · simp only at h; rw [if_pos h1] at h; cases h; exact h1
    · simp only at h; rw [if_neg h1] at h; cases h
  | styles =>
    by_cases h1 : n = Master.tMasters
    · simp only at h; rw [if_pos h1] at h; cases h; exact h1
    · simp only at h; rw [if_neg h1] at h; cases h
  | content =>
    simp only at h
    by_cases h1 : n = Script.tScripts
    · rw [if_pos h1] at h; cases h; exact h1
    rw [if_neg h1] at h
    by_cases h2 : n = Master.tMasters
    · rw [if_pos h2] at h; cases h; exact h2
    rw [if_neg h2] at h
    by_cases h3 : n = tBody
    · rw [if_pos h3] at h; cases h; exact h3
    rw [if_neg h3] at h
    cases h
  | flat =>
    simp only at h
    by_cases h4 : n = tMeta
    · rw [if_pos h4] at h; cases h; exact h4
    rw [if_neg h4] at h
    by_cases h5 : n = Config.tSettings
    · rw [if_pos h5] at h; cases h; exact h5
    rw [if_neg h5] at h
    by_cases h1 : n = Script.tScripts
    · rw [if_pos h1] at h; cases h; exact h1
    rw [if_neg h1] at h
    by_cases h2 : n = Master.tMasters
    · rw [if_pos h2] at h; cases h; exact h2
    rw [if_neg h2] at h
    by_cases h3 : n = tBody
    · rw [if_pos h3] at h; cases h; exact h3
    rw [if_neg h3] at h
    cases h

theorem goes_metaSection (hp : special p tMeta = some .metadata) (as : List (Str × Str)) (c : List El)
    (h : Meta.MetaFine e.fl c) (hn : NoStartIn tMeta c) (b : Target) (hb : b.metadata = {}) (r : List Event) :
    Goes e p ⟨.style .doc, b⟩ ((El.elem tMeta as c).events ++ r) ⟨.style .doc, { b with metadata := Meta.metaSaid e.fl c }⟩ r := by
  rw [El.events]
  simp only [List.cons_append, List.append_assoc, List.nil_append]
  refine Goes.trans (goes_enter _ _ _ hp b ⟨.metadata .office, b⟩ _ _ rfl (Nat.le_refl _)) ?_
  refine Goes.trans (goes_meta (e := e) (p := p) (.end tMeta :: r) _
    (ends_noStartIn _ c hn) .office _ b (by intro hh; cases hh) (by rw [hb]; exact Meta.section_read e.fl c h)) ?_
  refine goes_step (x' := ⟨.style .doc, { b with metadata := Meta.metaSaid e.fl c }⟩) (es' := r) ?_ (Nat.le_refl _)
  have hs : Meta.step e.fl ⟨.office, Meta.metaSaid e.fl c⟩ (.end tMeta) = .ok ⟨.file, Meta.metaSaid e.fl c⟩ := by
    unfold Meta.step
    exact if_pos rfl
  unfold step
  simp only [hs, ofMeta, Except.map]

theorem goes_settingsSection (hp : special p Config.tSettings = some .settings) (as : List (Str × Str)) (c : List El)
    (h : Config.ItemsFine e.fl .settings c) (hn : NoStartIn Config.tSettings c) (b : Target) (r : List Event) :
    Goes e p ⟨.style .doc, b⟩ ((El.elem Config.tSettings as c).events ++ r)
      ⟨.style .doc, { b with config := Config.configSaid e.fl c }⟩ r := by
  rw [El.events]
  simp only [List.cons_append, List.append_assoc, List.nil_append]
  refine Goes.trans (goes_enter _ _ _ hp b ⟨.settings ⟨[Config.tSettings], [.settings []], b.config⟩, b⟩ _ _ rfl
    (Nat.le_refl _)) ?_
  refine Goes.trans (goes_settings (e := e) (p := p) b (.end Config.tSettings :: r) _
    (ends_noStartIn _ c hn) _ _ ⟨[], rfl⟩ (Config.section_read e.fl c h _ _ _)) ?_
  refine goes_step (x' := ⟨.style .doc, { b with config := Config.configSaid e.fl c }⟩) (es' := r) ?_ (Nat.le_refl _)
  have hs : Config.step e.fl ⟨[Config.tSettings], [.settings (Config.configSaid e.fl c)], b.config⟩ (.end Config.tSettings)
      = .ok ⟨[], [], Config.configSaid e.fl c⟩ := by
    rw [Config.step]
    simp only
    rw [if_neg (by simp), if_pos (show Config.tSettings = (Config.Frame.settings (Config.configSaid e.fl c)).tag from rfl)]
    rfl
  unfold step
  simp only [hs, Except.map]
  rfl

/-- A section of its own. -/
theorem goes_own (n : Str) (s : Sect) (hp : special p n = some s) (as : List (Str × Str)) (c : List El) (b b' : Target)
    (r : List Event) (h : enter e p b as (evsOf c ++ .end n :: r) s = .ok (⟨.style .doc, b'⟩, r)) :
    Goes e p ⟨.style .doc, b⟩ ((El.elem n as c).events ++ r) ⟨.style .doc, b'⟩ r := by
  rw [El.events]
  simp only [List.cons_append, List.append_assoc, List.nil_append]
  exact goes_enter _ _ _ hp b _ _ _ h (by simp; omega)

/-- What has been read of the elements. -/
structure Said (e : Env) (p : Part) (c : List El) (b t : Target) : Prop where
  ns : t.ns = b.ns
  metadata : t.metadata = (findSection p .metadata c).elim b.metadata (Meta.metaSaid e.fl)
  config : t.config = (findSection p .settings c).elim b.config (Config.configSaid e.fl)
  scripts : t.scripts = (findSection p .scripts c).elim b.scripts fun d =>
    { scripts := b.scripts.scripts ++ Script.scriptsSaid d
      listeners := (Script.listenersSaid d).foldl (fun m e => m.insert e.event e) b.scripts.listeners }
  styles : b.styles.applyAll (stylesOf e p c) = .ok t.styles
  masters : Style.addsAll b.masters ((mastersOf p c).map fun x => (.masterPage, x)) = .ok t.masters
  body : (findSection p .body c).elim (t.body = b.body) fun d => BodySaid e d t.body

theorem find_hit {x : El} {s : Sect} (h : sect p x = some s) (c : List El) : findSection p s (x :: c) = some (inside x) := by
  unfold findSection
  rw [List.find?_cons_of_pos (by simpa using h)]
  rfl

theorem find_other {x : El} {s : Sect} (h : sect p x ≠ some s) (c : List El) :
    findSection p s (x :: c) = findSection p s c := by
  unfold findSection
  rw [List.find?_cons_of_neg (by simpa using h)]

theorem find_gone {s : Sect} {c : List El} (h : ∀ y ∈ c, sect p y ≠ some s) : findSection p s c = none := by
  unfold findSection
  rw [List.find?_eq_none.2 (fun y hy => by simpa using h y hy)]
  rfl

theorem sect_elem {x : El} {s : Sect} (h : sect p x = some s) : ∃ n as, x = .elem n as (inside x) ∧ special p n = some s := by
  cases x with
  | elem n as c => exact ⟨n, as, rfl, h⟩
  | _ => cases h

theorem stylesOf_section {x : El} {s : Sect} (h : sect p x = some s) (c : List El) : stylesOf e p (x :: c) = stylesOf e p c := by
  unfold stylesOf rest
  rw [List.filter_cons_of_neg (by rw [h]; simp)]

theorem stylesOf_rest {x : El} (h : sect p x = none) (c : List El) :
    stylesOf e p (x :: c) = (if styled p = true then Style.stylesSaid e.ints (origin p) x else []) ++ stylesOf e p c := by
  unfold stylesOf rest
  rw [List.filter_cons_of_pos (by rw [h]; simp)]
  split
  · rw [Style.stylesSaidIn]
  · rfl

theorem mastersOf_other {x : El} (h : sect p x ≠ some .masters) (c : List El) : mastersOf p (x :: c) = mastersOf p c := by
  unfold mastersOf sectionOf
  rw [find_other h]

theorem goes_children (c : List El) (hf : ∀ x ∈ c, ChildFine e p x) (ho : Once p c) : ∀ (b : Target),
    (findSection p .metadata c ≠ none → b.metadata = {}) → (findSection p .body c ≠ none → b.body = {}) →
    ∀ sb, b.styles.applyAll (stylesOf e p c) = .ok sb → ∀ ms, Style.addsAll b.masters ((mastersOf p c).map fun x => (.masterPage, x)) = .ok ms →
    ∀ r, ∃ t, Goes e p ⟨.style .doc, b⟩ (evsOf c ++ r) ⟨.style .doc, t⟩ r ∧ Said e p c b t := by
  induction c with
  | nil =>
    intro b _ _ sb hs ms hms r
    exact ⟨b, Goes.refl _ _, rfl, rfl, rfl, rfl, by unfold stylesOf; split <;> rfl, rfl, rfl⟩
  | cons x c ih =>
    intro b hm hb sb hs ms hms r
    have ih := ih (fun y hy => hf y (List.mem_cons_of_mem _ hy)) ho.2
    have hx := hf x List.mem_cons_self
    rw [evsOf, List.append_assoc]
    cases hsx : sect p x with
    | none =>
      have hfo : ∀ s, findSection p s (x :: c) = findSection p s c := fun s => find_other (by rw [hsx]; simp) c
      have hmo : mastersOf p (x :: c) = mastersOf p c := mastersOf_other (by rw [hsx]; simp) c
      rw [hfo] at hm hb
      rw [hmo] at hms
      rw [stylesOf_rest hsx, Style.applyAll_append] at hs
      cases ha : b.styles.applyAll (if styled p = true then Style.stylesSaid e.ints (origin p) x else []) with
      | error er => rw [ha] at hs; cases hs
      | ok b1 =>
        rw [ha] at hs
        obtain ⟨t, g, h1, h2, h3, h4, h5, h6, h7⟩ := ih { b with styles := b1 } hm hb sb hs ms hms r
        refine ⟨t, Goes.trans (goes_rest x hsx hx b b1 ha _) g, h1, ?_, ?_, ?_, ?_, ?_, ?_⟩
        · rw [hfo]; exact h2
        · rw [hfo]; exact h3
        · rw [hfo]; exact h4
        · rw [stylesOf_rest hsx, Style.applyAll_append, ha]; exact h5
        · rw [hmo]; exact h6
        · rw [hfo]; exact h7
    | some s =>
      obtain ⟨n, as, hxe, hsp⟩ := sect_elem hsx
      have hgone : findSection p s c = none := find_gone (ho.1 s hsx)
      have hhit : findSection p s (x :: c) = some (inside x) := find_hit hsx c
      have hoth : ∀ s', s' ≠ s → findSection p s' (x :: c) = findSection p s' c := fun s' h =>
        find_other (by rw [hsx]; intro e; cases e; exact h rfl) c
      have hst := stylesOf_section (e := e) hsx c
      have hname := special_name hsp
      unfold ChildFine at hx
      rw [hsx] at hx
      generalize inside x = d at *
      subst hxe
      rw [hst] at hs
      cases s with
      | root => exact absurd hx id
      | metadata =>
        have hmo : mastersOf p (.elem n as d :: c) = mastersOf p c := mastersOf_other (by rw [hsx]; simp) c
        rw [hmo] at hms
        have hm0 := hm (by rw [hhit]; simp)
        clear hm
        have hname : n = tMeta := hname
        subst hname
        obtain ⟨t, g, h1, h2, h3, h4, h5, h6, h7⟩ := ih { b with metadata := Meta.metaSaid e.fl d }
          (fun h => absurd hgone h) (by rw [hoth _ (by simp)] at hb; exact hb) sb hs ms hms r
        refine ⟨t, Goes.trans (goes_metaSection hsp as d hx.1 hx.2 b hm0 _) g, h1, ?_, ?_, ?_, ?_, ?_, ?_⟩
        · rw [hhit, h2, hgone]; rfl
        · rw [hoth _ (by simp)]; exact h3
        · rw [hoth _ (by simp)]; exact h4
        · rw [hst]; exact h5
        · rw [hmo]; exact h6
        · rw [hoth _ (by simp)]; exact h7
      | settings =>
        have hmo : mastersOf p (.elem n as d :: c) = mastersOf p c := mastersOf_other (by rw [hsx]; simp) c
        rw [hmo] at hms
        have hname : n = Config.tSettings := hname
        subst hname
        obtain ⟨t, g, h1, h2, h3, h4, h5, h6, h7⟩ := ih { b with config := Config.configSaid e.fl d }
          (by rw [hoth _ (by simp)] at hm; exact hm) (by rw [hoth _ (by simp)] at hb; exact hb) sb hs ms hms r
        refine ⟨t, Goes.trans (goes_settingsSection hsp as d hx.1 hx.2 b _) g, h1, ?_, ?_, ?_, ?_, ?_, ?_⟩
        · rw [hoth _ (by simp)]; exact h2
        · rw [hhit, h3, hgone]; rfl
        · rw [hoth _ (by simp)]; exact h4
        · rw [hst]; exact h5
        · rw [hmo]; exact h6
        · rw [hoth _ (by simp)]; exact h7
      | scripts =>
        have hmo : mastersOf p (.elem n as d :: c) = mastersOf p c := mastersOf_other (by rw [hsx]; simp) c
        rw [hmo] at hms
        have hname : n = Script.tScripts := hname
        subst hname
        obtain ⟨t, g, h1, h2, h3, h4, h5, h6, h7⟩ := ih { b with scripts :=
            { scripts := b.scripts.scripts ++ Script.scriptsSaid d
              listeners := (Script.listenersSaid d).foldl (fun m e => m.insert e.event e) b.scripts.listeners } }
          (by rw [hoth _ (by simp)] at hm; exact hm) (by rw [hoth _ (by simp)] at hb; exact hb) sb hs ms hms r
        refine ⟨t, Goes.trans (goes_own _ _ hsp as d b _ _ ?_) g, h1, ?_, ?_, ?_, ?_, ?_, ?_⟩
        · unfold enter
          simp only
          rw [Script.section_read d hx b.scripts]
          rfl
        · rw [hoth _ (by simp)]; exact h2
        · rw [hoth _ (by simp)]; exact h3
        · rw [hhit, h4, hgone]; rfl
        · rw [hst]; exact h5
        · rw [hmo]; exact h6
        · rw [hoth _ (by simp)]; exact h7
      | masters =>
        have hmd : mastersOf p (.elem n as d :: c) = Master.mastersSaid d := by
          unfold mastersOf sectionOf
          rw [hhit]
          rfl
        have hmc : mastersOf p c = [] := by
          unfold mastersOf sectionOf
          rw [hgone]
          rfl
        rw [hmd] at hms
        have hname : n = Master.tMasters := hname
        subst hname
        obtain ⟨t, g, h1, h2, h3, h4, h5, h6, h7⟩ := ih { b with masters := ms }
          (by rw [hoth _ (by simp)] at hm; exact hm) (by rw [hoth _ (by simp)] at hb; exact hb) sb hs ms (by rw [hmc]; rfl) r
        refine ⟨t, Goes.trans (goes_own _ _ hsp as d b _ _ ?_) g, h1, ?_, ?_, ?_, ?_, ?_, ?_⟩
        · unfold enter
          simp only
          rw [Master.section_read d hx b.masters ms hms]
          rfl
        · rw [hoth _ (by simp)]; exact h2
        · rw [hoth _ (by simp)]; exact h3
        · rw [hoth _ (by simp)]; exact h4
        · rw [hst]; exact h5
        · rw [hmd, hms]
          rw [hmc] at h6
          exact h6
        · rw [hoth _ (by simp)]; exact h7
      | body =>
        have hmo : mastersOf p (.elem n as d :: c) = mastersOf p c := mastersOf_other (by rw [hsx]; simp) c
        rw [hmo] at hms
        have hb0 := hb (by rw [hhit]; simp)
        clear hb
        have hname : n = tBody := hname
        subst hname
        obtain ⟨bb, k1, k2, k3, k4⟩ := C107_body e.fl e.ints e.opts d hx.1 hx.2.1 hx.2.2.1 hx.2.2.2 (evsOf c ++ r)
        obtain ⟨t, g, h1, h2, h3, h4, h5, h6, h7⟩ := ih { b with body := bb }
          (by rw [hoth _ (by simp)] at hm; exact hm) (fun h => absurd hgone h) sb hs ms hms r
        refine ⟨t, Goes.trans (goes_own _ _ hsp as d b _ _ ?_) g, h1, ?_, ?_, ?_, ?_, ?_, ?_⟩
        · unfold enter
          simp only
          rw [hb0]
          unfold readBodyInto
          unfold readBody at k1
          rw [k1]
          rfl
        · rw [hoth _ (by simp)]; exact h2
        · rw [hoth _ (by simp)]; exact h3
        · rw [hoth _ (by simp)]; exact h4
        · rw [hst]; exact h5
        · rw [hmo]; exact h6
        · rw [hhit]
          rw [hgone] at h7
          show BodySaid e d t.body
          rw [show t.body = bb from h7]
          exact ⟨k2, k3, k4⟩

/-- White space outside of the root element. -/
theorem goes_space (l : List El) (h : ∀ x ∈ l, x.isText = true) (b : Target) (r : List Event) :
    Goes e p ⟨.style .doc, b⟩ (evsOf l ++ r) ⟨.style .doc, b⟩ r := by
  induction l with
  | nil => exact Goes.refl _ _
  | cons x l ih =>
    rw [evsOf, List.append_assoc]
    refine Goes.trans ?_ (ih fun y hy => h y (List.mem_cons_of_mem _ hy))
    have hx := h x List.mem_cons_self
    have hpl : ∀ ev, (∃ s, ev = Event.text s ∨ ev = .ref s) → step e p ⟨.style .doc, b⟩ ev (evsOf l ++ r)
        = .ok (⟨.style .doc, b⟩, evsOf l ++ r) := by
      rintro ev ⟨s, rfl | rfl⟩ <;> (unfold step plain; simp only; split <;> rfl)
    cases x with
    | text s => exact goes_step (hpl _ ⟨s, .inl rfl⟩) (Nat.le_refl _)
    | ref s => exact goes_step (hpl _ ⟨s, .inr rfl⟩) (Nat.le_refl _)
    | void n as => cases hx
    | elem n as c => cases hx

/-- A file. -/
theorem file_said (front : List El) (as : List (Str × Str)) (c back : List El) (h : FileFine e p front as c back) (text : Str)
    (ht : FileText (wholeEls p front as c back) text) (b : Target)
    (hm : findSection p .metadata c ≠ none → b.metadata = {}) (hb : findSection p .body c ≠ none → b.body = {})
    (sb : Style.SBook) (hs : b.styles.applyAll (stylesOf e p c) = .ok sb) (ms : Book.Stores Master.Master)
    (hms : Style.addsAll b.masters ((mastersOf p c).map fun x => (.masterPage, x)) = .ok ms) :
    ∃ n t, Ns.readRoot p b.ns as = .ok n ∧ readFile e p b text = .ok t ∧ Said e p c { b with ns := n } t := by
  obtain ⟨ts, g1, g2⟩ := file_events ht
  obtain ⟨n, hn, -⟩ := readRoot_said p b.ns as h.root
  obtain ⟨t, gt, hsaid⟩ := goes_children (e := e) (p := p) c h.child h.once { b with ns := n } hm hb sb hs ms hms
    (.end p.root :: evsOf back)
  refine ⟨n, t, hn, ?_, hsaid⟩
  have hroot : special p p.root = some .root := by unfold special; rw [if_pos rfl]
  have hev : evsOf (wholeEls p front as c back) = evsOf front ++ .start p.root as :: (evsOf c ++ .end p.root :: evsOf back) := by
    unfold wholeEls
    rw [Valid.evsOf_append, evsOf, El.events]
    simp
  have hend : Goes e p ⟨.style .doc, t⟩ (.end p.root :: evsOf back) ⟨.style .doc, t⟩ [] := by
    have h1 : Goes e p ⟨.style .doc, t⟩ (evsOf back ++ []) ⟨.style .doc, t⟩ [] := goes_space back h.back t []
    rw [List.append_nil] at h1
    refine Goes.trans (goes_step (x' := ⟨.style .doc, t⟩) (es' := evsOf back) ?_ (Nat.le_refl _)) h1
    unfold step plain
    simp only
    split <;> rfl
  have hall : Goes e p ⟨.style .doc, b⟩ (evsOf (wholeEls p front as c back)) ⟨.style .doc, t⟩ [] := by
    rw [hev]
    refine Goes.trans (goes_space front h.front b _) (Goes.trans ?_ (Goes.trans gt hend))
    refine goes_enter _ _ _ hroot b _ _ _ ?_ (Nat.le_refl _)
    unfold enter
    simp only [hn]
    rfl
  obtain ⟨k, hk, hl⟩ := hall
  unfold readFile
  rw [g1]
  simp only
  rw [g2]
  have hk' : ∃ j, (evsOf (wholeEls p front as c back)).length + 1 = (j + 1) + k :=
    ⟨(evsOf (wholeEls p front as c back)).length - k, by rw [List.length_nil] at hk; omega⟩
  obtain ⟨j, hj⟩ := hk'
  rw [hj, hl, loop]
  rfl

end Events

end Verif.Whole
