import Verif.Config.Other
import Verif.Meta.Other

/-!
# C115: the metadata of other programs
-/

set_option autoImplicit false

namespace Verif.Meta

open Xml Xml.Spec Codec Enum
open Verif.Style (AttrsFine attrOf_cons attrOf_absent)
open Verif.Script (escaped_cons)
open Verif.Config (deep deepIn str)

/-! ## Specification -/

/-! ## Names of attributes -/

def kDate : Str := "meta:date".toList
def kActuate : Str := "xlink:actuate".toList
def kHref : Str := "xlink:href".toList
def kTitle : Str := "xlink:title".toList
def kType : Str := "xlink:type".toList
def kDelay : Str := "meta:delay".toList
def kShow : Str := "xlink:show".toList
def kTarget : Str := "office:targetframe-name".toList
def kCells : Str := "meta:cell-count".toList
def kObjects : Str := "meta:object-count".toList
def kOle : Str := "meta:ole-object-count".toList
def kTables : Str := "meta:table-count".toList

def kName : Str := "meta:name".toList
def kValueType : Str := "meta:value-type".toList

/-- The element of the metadata. -/
def tMeta : Str := "office:meta".toList

/-- The element of a value with a name. -/
def tUser : Str := "meta:user-defined".toList

/-- The template that attributes mean. -/
def templateSaid (as : List (Str × Str)) : Template :=
  { date := (Style.attrOf as kDate).bind parseDateTime
    actuate := (Style.attrOf as kActuate).bind Actuate.parse
    href := Style.attrOf as kHref
    title := Style.attrOf as kTitle
    linkType := (Style.attrOf as kType).bind LinkType.parse }

/-- They can be read. -/
def TemplateFine (as : List (Str × Str)) : Prop :=
  AttrsFine as ∧ (∀ v, Style.attrOf as kDate = some v → (parseDateTime v).isSome = true)
    ∧ (∀ v, Style.attrOf as kActuate = some v → (Actuate.parse v).isSome = true)
    ∧ (∀ v, Style.attrOf as kType = some v → (LinkType.parse v).isSome = true)

/-- The reload that attributes mean. -/
def reloadSaid (as : List (Str × Str)) : AutoReload :=
  { delay := (Style.attrOf as kDelay).bind fun v => (durationOf v).toOption
    actuate := (Style.attrOf as kActuate).bind Actuate.parse
    href := Style.attrOf as kHref
    «show» := (Style.attrOf as kShow).bind LinkShow.parse
    linkType := (Style.attrOf as kType).bind LinkType.parse }

/-- They can be read. -/
def AutoReloadFine (as : List (Str × Str)) : Prop :=
  AttrsFine as ∧ (∀ v, Style.attrOf as kDelay = some v → ((durationOf v).toOption).isSome = true)
    ∧ (∀ v, Style.attrOf as kActuate = some v → (Actuate.parse v).isSome = true)
    ∧ (∀ v, Style.attrOf as kShow = some v → (LinkShow.parse v).isSome = true)
    ∧ (∀ v, Style.attrOf as kType = some v → (LinkType.parse v).isSome = true)

/-- The behaviour of hyperlinks that attributes mean. -/
def hyperlinkSaid (as : List (Str × Str)) : Hyperlink :=
  { target := Style.attrOf as kTarget
    «show» := (Style.attrOf as kShow).bind LinkShow.parse }

/-- They can be read. -/
def HyperlinkFine (as : List (Str × Str)) : Prop :=
  AttrsFine as ∧ (∀ v, Style.attrOf as kShow = some v → (LinkShow.parse v).isSome = true)

/-- The statistics that attributes mean. -/
def statisticsSaid (as : List (Str × Str)) : Statistics :=
  { cells := ((Style.attrOf as kCells).bind parseU32).getD 0
    objects := ((Style.attrOf as kObjects).bind parseU32).getD 0
    oleObjects := ((Style.attrOf as kOle).bind parseU32).getD 0
    tables := ((Style.attrOf as kTables).bind parseU32).getD 0 }

/-- They can be read. -/
def StatisticsFine (as : List (Str × Str)) : Prop :=
  AttrsFine as ∧ (∀ v, Style.attrOf as kCells = some v → (parseU32 v).isSome = true)
    ∧ (∀ v, Style.attrOf as kObjects = some v → (parseU32 v).isSome = true)
    ∧ (∀ v, Style.attrOf as kOle = some v → (parseU32 v).isSome = true)
    ∧ (∀ v, Style.attrOf as kTables = some v → (parseU32 v).isSome = true)

/-- What there is at most once: texts, and four elements with attributes. -/
inductive Slot where
  | field (k : Field)
  | template | reload | hyperlink | statistics
  deriving DecidableEq

/-- The names of their elements. -/
def Slot.tag : Slot → Str
  | .field k => k.tag
  | .template => "meta:template".toList
  | .reload => "meta:auto-reload".toList
  | .hyperlink => "meta:hyperlink-behaviour".toList
  | .statistics => "meta:document-statistic".toList

/-- An element. -/
structure Elem where
  name : Str
  attrs : List (Str × Str)
  content : List El

/-- The elements whose content is a value. -/
def holdsText (n : Str) : Prop := n ∈ Field.all.map Field.tag ∨ n = tUser

instance (n : Str) : Decidable (holdsText n) := inferInstanceAs (Decidable (_ ∨ _))

mutual

/-- The elements of the metadata: at any depth, but not within values. Empty tags do not count (see below). -/
def elems : El → List Elem
  | .text _ => []
  | .ref _ => []
  | .void _ _ => []
  | .elem n as c => if holdsText n then [⟨n, as, c⟩] else ⟨n, as, c⟩ :: elemsIn c

/-- Of several. -/
def elemsIn : List El → List Elem
  | [] => []
  | x :: c => elems x ++ elemsIn c

end

/-- The value with a name that an element means. -/
def userSaid (fl : Floats) (x : Elem) : UserDefined :=
  { name := (Style.attrOf x.attrs kName).getD []
    value := match x.content with
      | [] => .string []
      | c => ((userValue fl (deepIn c) (UType.of ((Style.attrOf x.attrs kValueType).getD []))).toOption).getD (.string []) }

/-- The metadata, from the element of each kind, if there is one, and the values with names. -/
def metaOf (g : Slot → Option Elem) (us : List UserDefined) : Metadata :=
  let text k := ((g (.field k)).map fun x => deepIn x.content).getD []
  { generator := text .generator
    title := text .title
    description := text .description
    subject := text .subject
    keyword := text .keyword
    initialCreator := text .initialCreator
    creator := text .creator
    printedBy := text .printedBy
    creationDate := parseDateTime (text .creationDate)
    date := parseDateTime (text .date)
    printDate := parseDateTime (text .printDate)
    language := text .language
    editingCycles := (parseU32 (text .editingCycles)).getD 0
    editingDuration := ((durationOf (text .editingDuration)).toOption).getD 0
    template := ((g .template).map fun x => templateSaid x.attrs).getD {}
    autoReload := ((g .reload).map fun x => reloadSaid x.attrs).getD {}
    hyperlink := ((g .hyperlink).map fun x => hyperlinkSaid x.attrs).getD {}
    statistics := ((g .statistics).map fun x => statisticsSaid x.attrs).getD {}
    userDefined := us }

/-- The last element with a name. -/
def lastNamed (l : List Elem) (n : Str) : Option Elem := l.reverse.find? fun x => x.name = n

/-- The metadata that the content of `office:meta` means: of several elements of a kind the last one counts, of the values
with names all, in the order of the file. -/
def metaSaid (fl : Floats) (c : List El) : Metadata :=
  metaOf (fun s => lastNamed (elemsIn c) s.tag) (((elemsIn c).filter fun x => x.name = tUser).map (userSaid fl))

/-- The form of a text. -/
def TextFine (s : Str) : Field → Prop
  | .creationDate => s = [] ∨ (parseDateTime s).isSome = true
  | .date => s = [] ∨ (parseDateTime s).isSome = true
  | .printDate => s = [] ∨ (parseDateTime s).isSome = true
  | .editingCycles => s = [] ∨ (parseU32 s).isSome = true
  | .editingDuration => s = [] ∨ (durationOf s).toOption.isSome = true
  | _ => True

/-- An element that can be read: dates, numbers and attributes have their forms, a text is not within an element of its own
name, a value with a name has one text or none. -/
def ElemFine (fl : Floats) (x : Elem) : Prop :=
  x.name ≠ tMeta
  ∧ (∀ k : Field, x.name = k.tag → NoStartIn x.name x.content ∧ TextFine (deepIn x.content) k)
  ∧ (x.name = Slot.template.tag → TemplateFine x.attrs)
  ∧ (x.name = Slot.reload.tag → AutoReloadFine x.attrs)
  ∧ (x.name = Slot.hyperlink.tag → HyperlinkFine x.attrs)
  ∧ (x.name = Slot.statistics.tag → StatisticsFine x.attrs)
  ∧ (x.name = tUser → AttrsFine x.attrs ∧ (x.content = [] ∨ ∃ s, x.content = [.text s]
      ∧ (userValue fl s (UType.of ((Style.attrOf x.attrs kValueType).getD []))).toOption.isSome = true))

/-- All can be read. -/
def MetaFine (fl : Floats) (c : List El) : Prop := ∀ x ∈ elemsIn c, ElemFine fl x

/-! ## Attributes -/

theorem template_apart : [kDate, kActuate, kHref, kTitle, kType].Nodup := by decide +kernel

theorem readTemplate_cons (t : Template) (k v : Str) (as : List (Str × Str)) : readTemplate t ((k, v) :: as) = (do
    let t ←
      if k = kDate then (attrOf parseDateTime v).map fun d => { t with date := some d }
      else if k = kActuate then (attrOf Actuate.parse v).map fun d => { t with actuate := some d }
      else if k = kHref then (attrOf some v).map fun d => { t with href := some d }
      else if k = kTitle then (attrOf some v).map fun d => { t with title := some d }
      else if k = kType then (attrOf LinkType.parse v).map fun d => { t with linkType := some d }
      else pure t
    readTemplate t as) := rfl

theorem readTemplate_said (as : List (Str × Str)) (h : TemplateFine as) : ∀ t, readTemplate t as = .ok
    { date := ((Style.attrOf as kDate).bind parseDateTime).or t.date
      actuate := ((Style.attrOf as kActuate).bind Actuate.parse).or t.actuate
      href := (Style.attrOf as kHref).or t.href
      title := (Style.attrOf as kTitle).or t.title
      linkType := ((Style.attrOf as kType).bind LinkType.parse).or t.linkType } := by
  induction as with
  | nil => intro t; cases t; rfl
  | cons kv as ih =>
    obtain ⟨k, v⟩ := kv
    intro t
    obtain ⟨⟨hd, hp⟩, c0, c1, c2⟩ := h
    have ha := template_apart
    simp only [List.nodup_cons, List.mem_cons, List.not_mem_nil, or_false, not_or, not_false_eq_true, List.nodup_nil,
      and_true] at ha
    obtain ⟨w, hw, hp', -⟩ := escaped_cons hp
    rw [List.map_cons, List.nodup_cons] at hd
    have hno : ∀ q, k = q → Style.attrOf as q = none := fun q e => attrOf_absent as q (by rw [← e]; exact hd.1)
    have hcons : ∀ q, Style.attrOf ((k, v) :: as) q = if q = k then some w else Style.attrOf as q := by
      intro q; rw [attrOf_cons, hw]
    have ih := ih ⟨⟨hd.2, hp'⟩, fun u hu => c0 u (by rw [hcons, if_neg (fun e => by rw [hno _ e.symm] at hu; cases hu)]; exact hu), fun u hu => c1 u (by rw [hcons, if_neg (fun e => by rw [hno _ e.symm] at hu; cases hu)]; exact hu), fun u hu => c2 u (by rw [hcons, if_neg (fun e => by rw [hno _ e.symm] at hu; cases hu)]; exact hu)⟩
    rw [readTemplate_cons]
    simp only [hcons]
    by_cases k0 : k = kDate
    · have hn := hno _ k0
      obtain ⟨y, hy⟩ := Option.isSome_iff_exists.1 (c0 w (by rw [hcons, if_pos k0.symm]))
      subst k0
      rw [if_pos rfl]
      simp only [attrOf, hw, hy, Except.map, bind, Except.bind, if_true, if_neg (Ne.symm ha.1.1), if_neg (Ne.symm ha.1.2.1), if_neg (Ne.symm ha.1.2.2.1), if_neg (Ne.symm ha.1.2.2.2)]
      rw [ih, hn]
      simp [hy]
    rw [if_neg k0]
    by_cases k1 : k = kActuate
    · have hn := hno _ k1
      obtain ⟨y, hy⟩ := Option.isSome_iff_exists.1 (c1 w (by rw [hcons, if_pos k1.symm]))
      subst k1
      rw [if_pos rfl]
      simp only [attrOf, hw, hy, Except.map, bind, Except.bind, if_true, if_neg ha.1.1, if_neg (Ne.symm ha.2.1.1), if_neg (Ne.symm ha.2.1.2.1), if_neg (Ne.symm ha.2.1.2.2)]
      rw [ih, hn]
      simp [hy]
    rw [if_neg k1]
    by_cases k2 : k = kHref
    · have hn := hno _ k2
      subst k2
      rw [if_pos rfl]
      simp only [attrOf, hw, Except.map, bind, Except.bind, if_true, if_neg ha.1.2.1, if_neg ha.2.1.1, if_neg (Ne.symm ha.2.2.1.1), if_neg (Ne.symm ha.2.2.1.2)]
      rw [ih, hn]
      rfl
    rw [if_neg k2]
    by_cases k3 : k = kTitle
    · have hn := hno _ k3
      subst k3
      rw [if_pos rfl]
      simp only [attrOf, hw, Except.map, bind, Except.bind, if_true, if_neg ha.1.2.2.1, if_neg ha.2.1.2.1, if_neg ha.2.2.1.1, if_neg (Ne.symm ha.2.2.2)]
      rw [ih, hn]
      rfl
    rw [if_neg k3]
    by_cases k4 : k = kType
    · have hn := hno _ k4
      obtain ⟨y, hy⟩ := Option.isSome_iff_exists.1 (c2 w (by rw [hcons, if_pos k4.symm]))
      subst k4
      rw [if_pos rfl]
      simp only [attrOf, hw, hy, Except.map, bind, Except.bind, if_true, if_neg ha.1.2.2.2, if_neg ha.2.1.2.2, if_neg ha.2.2.1.2, if_neg ha.2.2.2]
      rw [ih, hn]
      simp [hy]
    rw [if_neg k4]
    simp only [if_neg (Ne.symm k0), if_neg (Ne.symm k1), if_neg (Ne.symm k2), if_neg (Ne.symm k3), if_neg (Ne.symm k4)]
    exact ih t

theorem readTemplate_eq (as : List (Str × Str)) (h : TemplateFine as) : readTemplate {} as = .ok (templateSaid as) := by
  rw [readTemplate_said as h]
  simp [templateSaid]

theorem reload_apart : [kDelay, kActuate, kHref, kShow, kType].Nodup := by decide +kernel

theorem readReload_cons (t : AutoReload) (k v : Str) (as : List (Str × Str)) : readReload t ((k, v) :: as) = (do
    let t ←
      if k = kDelay then (attrDuration v).map fun d => { t with delay := some d }
      else if k = kActuate then (attrOf Actuate.parse v).map fun d => { t with actuate := some d }
      else if k = kHref then (attrOf some v).map fun d => { t with href := some d }
      else if k = kShow then (attrOf LinkShow.parse v).map fun d => { t with «show» := some d }
      else if k = kType then (attrOf LinkType.parse v).map fun d => { t with linkType := some d }
      else pure t
    readReload t as) := rfl

theorem readReload_said (as : List (Str × Str)) (h : AutoReloadFine as) : ∀ t, readReload t as = .ok
    { delay := ((Style.attrOf as kDelay).bind fun v => (durationOf v).toOption).or t.delay
      actuate := ((Style.attrOf as kActuate).bind Actuate.parse).or t.actuate
      href := (Style.attrOf as kHref).or t.href
      «show» := ((Style.attrOf as kShow).bind LinkShow.parse).or t.«show»
      linkType := ((Style.attrOf as kType).bind LinkType.parse).or t.linkType } := by
  induction as with
  | nil => intro t; cases t; rfl
  | cons kv as ih =>
    obtain ⟨k, v⟩ := kv
    intro t
    obtain ⟨⟨hd, hp⟩, c0, c1, c2, c3⟩ := h
    have ha := reload_apart
    simp only [List.nodup_cons, List.mem_cons, List.not_mem_nil, or_false, not_or, not_false_eq_true, List.nodup_nil,
      and_true] at ha
    obtain ⟨w, hw, hp', -⟩ := escaped_cons hp
    rw [List.map_cons, List.nodup_cons] at hd
    have hno : ∀ q, k = q → Style.attrOf as q = none := fun q e => attrOf_absent as q (by rw [← e]; exact hd.1)
    have hcons : ∀ q, Style.attrOf ((k, v) :: as) q = if q = k then some w else Style.attrOf as q := by
      intro q; rw [attrOf_cons, hw]
    have ih := ih ⟨⟨hd.2, hp'⟩, fun u hu => c0 u (by rw [hcons, if_neg (fun e => by rw [hno _ e.symm] at hu; cases hu)]; exact hu), fun u hu => c1 u (by rw [hcons, if_neg (fun e => by rw [hno _ e.symm] at hu; cases hu)]; exact hu), fun u hu => c2 u (by rw [hcons, if_neg (fun e => by rw [hno _ e.symm] at hu; cases hu)]; exact hu), fun u hu => c3 u (by rw [hcons, if_neg (fun e => by rw [hno _ e.symm] at hu; cases hu)]; exact hu)⟩
    rw [readReload_cons]
    simp only [hcons]
    by_cases k0 : k = kDelay
    · have hn := hno _ k0
      obtain ⟨y, hy⟩ := Option.isSome_iff_exists.1 (c0 w (by rw [hcons, if_pos k0.symm]))
      subst k0
      rw [if_pos rfl]
      have hy' : durationOf w = .ok y := by cases hq : durationOf w <;> rw [hq] at hy <;> cases hy; rfl
      simp only [attrDuration, hw, hy', Except.map, bind, Except.bind, if_true, if_neg (Ne.symm ha.1.1), if_neg (Ne.symm ha.1.2.1), if_neg (Ne.symm ha.1.2.2.1), if_neg (Ne.symm ha.1.2.2.2)]
      rw [ih, hn]
      simp [hy, hy', Except.toOption]
    rw [if_neg k0]
    by_cases k1 : k = kActuate
    · have hn := hno _ k1
      obtain ⟨y, hy⟩ := Option.isSome_iff_exists.1 (c1 w (by rw [hcons, if_pos k1.symm]))
      subst k1
      rw [if_pos rfl]
      simp only [attrOf, hw, hy, Except.map, bind, Except.bind, if_true, if_neg ha.1.1, if_neg (Ne.symm ha.2.1.1), if_neg (Ne.symm ha.2.1.2.1), if_neg (Ne.symm ha.2.1.2.2)]
      rw [ih, hn]
      simp [hy]
    rw [if_neg k1]
    by_cases k2 : k = kHref
    · have hn := hno _ k2
      subst k2
      rw [if_pos rfl]
      simp only [attrOf, hw, Except.map, bind, Except.bind, if_true, if_neg ha.1.2.1, if_neg ha.2.1.1, if_neg (Ne.symm ha.2.2.1.1), if_neg (Ne.symm ha.2.2.1.2)]
      rw [ih, hn]
      rfl
    rw [if_neg k2]
    by_cases k3 : k = kShow
    · have hn := hno _ k3
      obtain ⟨y, hy⟩ := Option.isSome_iff_exists.1 (c2 w (by rw [hcons, if_pos k3.symm]))
      subst k3
      rw [if_pos rfl]
      simp only [attrOf, hw, hy, Except.map, bind, Except.bind, if_true, if_neg ha.1.2.2.1, if_neg ha.2.1.2.1, if_neg ha.2.2.1.1, if_neg (Ne.symm ha.2.2.2)]
      rw [ih, hn]
      simp [hy]
    rw [if_neg k3]
    by_cases k4 : k = kType
    · have hn := hno _ k4
      obtain ⟨y, hy⟩ := Option.isSome_iff_exists.1 (c3 w (by rw [hcons, if_pos k4.symm]))
      subst k4
      rw [if_pos rfl]
      simp only [attrOf, hw, hy, Except.map, bind, Except.bind, if_true, if_neg ha.1.2.2.2, if_neg ha.2.1.2.2, if_neg ha.2.2.1.2, if_neg ha.2.2.2]
      rw [ih, hn]
      simp [hy]
    rw [if_neg k4]
    simp only [if_neg (Ne.symm k0), if_neg (Ne.symm k1), if_neg (Ne.symm k2), if_neg (Ne.symm k3), if_neg (Ne.symm k4)]
    exact ih t

theorem readReload_eq (as : List (Str × Str)) (h : AutoReloadFine as) : readReload {} as = .ok (reloadSaid as) := by
  rw [readReload_said as h]
  simp [reloadSaid]

theorem hyperlink_apart : [kTarget, kShow].Nodup := by decide +kernel

theorem readHyperlink_cons (t : Hyperlink) (k v : Str) (as : List (Str × Str)) : readHyperlink t ((k, v) :: as) = (do
    let t ←
      if k = kTarget then (attrOf some v).map fun d => { t with target := some d }
      else if k = kShow then (attrOf LinkShow.parse v).map fun d => { t with «show» := some d }
      else pure t
    readHyperlink t as) := rfl

theorem readHyperlink_said (as : List (Str × Str)) (h : HyperlinkFine as) : ∀ t, readHyperlink t as = .ok
    { target := (Style.attrOf as kTarget).or t.target
      «show» := ((Style.attrOf as kShow).bind LinkShow.parse).or t.«show» } := by
  induction as with
  | nil => intro t; cases t; rfl
  | cons kv as ih =>
    obtain ⟨k, v⟩ := kv
    intro t
    obtain ⟨⟨hd, hp⟩, c0⟩ := h
    have ha := hyperlink_apart
    simp only [List.nodup_cons, List.mem_cons, List.not_mem_nil, or_false, not_or, not_false_eq_true, List.nodup_nil,
      and_true] at ha
    obtain ⟨w, hw, hp', -⟩ := escaped_cons hp
    rw [List.map_cons, List.nodup_cons] at hd
    have hno : ∀ q, k = q → Style.attrOf as q = none := fun q e => attrOf_absent as q (by rw [← e]; exact hd.1)
    have hcons : ∀ q, Style.attrOf ((k, v) :: as) q = if q = k then some w else Style.attrOf as q := by
      intro q; rw [attrOf_cons, hw]
    have ih := ih ⟨⟨hd.2, hp'⟩, fun u hu => c0 u (by rw [hcons, if_neg (fun e => by rw [hno _ e.symm] at hu; cases hu)]; exact hu)⟩
    rw [readHyperlink_cons]
    simp only [hcons]
    by_cases k0 : k = kTarget
    · have hn := hno _ k0
      subst k0
      rw [if_pos rfl]
      simp only [attrOf, hw, Except.map, bind, Except.bind, if_true, if_neg (Ne.symm ha)]
      rw [ih, hn]
      rfl
    rw [if_neg k0]
    by_cases k1 : k = kShow
    · have hn := hno _ k1
      obtain ⟨y, hy⟩ := Option.isSome_iff_exists.1 (c0 w (by rw [hcons, if_pos k1.symm]))
      subst k1
      rw [if_pos rfl]
      simp only [attrOf, hw, hy, Except.map, bind, Except.bind, if_true, if_neg ha]
      rw [ih, hn]
      simp [hy]
    rw [if_neg k1]
    simp only [if_neg (Ne.symm k0), if_neg (Ne.symm k1)]
    exact ih t

theorem readHyperlink_eq (as : List (Str × Str)) (h : HyperlinkFine as) : readHyperlink {} as = .ok (hyperlinkSaid as) := by
  rw [readHyperlink_said as h]
  simp [hyperlinkSaid]

theorem statistics_apart : [kCells, kObjects, kOle, kTables].Nodup := by decide +kernel

theorem readStatistics_cons (t : Statistics) (k v : Str) (as : List (Str × Str)) : readStatistics t ((k, v) :: as) = (do
    let t ←
      if k = kCells then (attrOf parseU32 v).map fun d => { t with cells := d }
      else if k = kObjects then (attrOf parseU32 v).map fun d => { t with objects := d }
      else if k = kOle then (attrOf parseU32 v).map fun d => { t with oleObjects := d }
      else if k = kTables then (attrOf parseU32 v).map fun d => { t with tables := d }
      else pure t
    readStatistics t as) := rfl

theorem readStatistics_said (as : List (Str × Str)) (h : StatisticsFine as) : ∀ t, readStatistics t as = .ok
    { cells := ((Style.attrOf as kCells).bind parseU32).getD t.cells
      objects := ((Style.attrOf as kObjects).bind parseU32).getD t.objects
      oleObjects := ((Style.attrOf as kOle).bind parseU32).getD t.oleObjects
      tables := ((Style.attrOf as kTables).bind parseU32).getD t.tables } := by
  induction as with
  | nil => intro t; cases t; rfl
  | cons kv as ih =>
    obtain ⟨k, v⟩ := kv
    intro t
    obtain ⟨⟨hd, hp⟩, c0, c1, c2, c3⟩ := h
    have ha := statistics_apart
    simp only [List.nodup_cons, List.mem_cons, List.not_mem_nil, or_false, not_or, not_false_eq_true, List.nodup_nil,
      and_true] at ha
    obtain ⟨w, hw, hp', -⟩ := escaped_cons hp
    rw [List.map_cons, List.nodup_cons] at hd
    have hno : ∀ q, k = q → Style.attrOf as q = none := fun q e => attrOf_absent as q (by rw [← e]; exact hd.1)
    have hcons : ∀ q, Style.attrOf ((k, v) :: as) q = if q = k then some w else Style.attrOf as q := by
      intro q; rw [attrOf_cons, hw]
    have ih := ih ⟨⟨hd.2, hp'⟩, fun u hu => c0 u (by rw [hcons, if_neg (fun e => by rw [hno _ e.symm] at hu; cases hu)]; exact hu), fun u hu => c1 u (by rw [hcons, if_neg (fun e => by rw [hno _ e.symm] at hu; cases hu)]; exact hu), fun u hu => c2 u (by rw [hcons, if_neg (fun e => by rw [hno _ e.symm] at hu; cases hu)]; exact hu), fun u hu => c3 u (by rw [hcons, if_neg (fun e => by rw [hno _ e.symm] at hu; cases hu)]; exact hu)⟩
    rw [readStatistics_cons]
    simp only [hcons]
    by_cases k0 : k = kCells
    · have hn := hno _ k0
      obtain ⟨y, hy⟩ := Option.isSome_iff_exists.1 (c0 w (by rw [hcons, if_pos k0.symm]))
      subst k0
      rw [if_pos rfl]
      simp only [attrOf, hw, hy, Except.map, bind, Except.bind, if_true, if_neg (Ne.symm ha.1.1), if_neg (Ne.symm ha.1.2.1), if_neg (Ne.symm ha.1.2.2)]
      rw [ih, hn]
      simp [hy]
    rw [if_neg k0]
    by_cases k1 : k = kObjects
    · have hn := hno _ k1
      obtain ⟨y, hy⟩ := Option.isSome_iff_exists.1 (c1 w (by rw [hcons, if_pos k1.symm]))
      subst k1
      rw [if_pos rfl]
      simp only [attrOf, hw, hy, Except.map, bind, Except.bind, if_true, if_neg ha.1.1, if_neg (Ne.symm ha.2.1.1), if_neg (Ne.symm ha.2.1.2)]
      rw [ih, hn]
      simp [hy]
    rw [if_neg k1]
    by_cases k2 : k = kOle
    · have hn := hno _ k2
      obtain ⟨y, hy⟩ := Option.isSome_iff_exists.1 (c2 w (by rw [hcons, if_pos k2.symm]))
      subst k2
      rw [if_pos rfl]
      simp only [attrOf, hw, hy, Except.map, bind, Except.bind, if_true, if_neg ha.1.2.1, if_neg ha.2.1.1, if_neg (Ne.symm ha.2.2)]
      rw [ih, hn]
      simp [hy]
    rw [if_neg k2]
    by_cases k3 : k = kTables
    · have hn := hno _ k3
      obtain ⟨y, hy⟩ := Option.isSome_iff_exists.1 (c3 w (by rw [hcons, if_pos k3.symm]))
      subst k3
      rw [if_pos rfl]
      simp only [attrOf, hw, hy, Except.map, bind, Except.bind, if_true, if_neg ha.1.2.2, if_neg ha.2.1.2, if_neg ha.2.2]
      rw [ih, hn]
      simp [hy]
    rw [if_neg k3]
    simp only [if_neg (Ne.symm k0), if_neg (Ne.symm k1), if_neg (Ne.symm k2), if_neg (Ne.symm k3)]
    exact ih t

theorem readStatistics_eq (as : List (Str × Str)) (h : StatisticsFine as) : readStatistics {} as = .ok (statisticsSaid as) := by
  rw [readStatistics_said as h]
  simp [statisticsSaid]

theorem readUser_cons (t : UserDefined × UType) (k v : Str) (as : List (Str × Str)) : readUser t ((k, v) :: as) = (do
    let t ←
      if k = kName then (attrOf some v).map fun d => ({ t.1 with name := d }, t.2)
      else if k = kValueType then (attrOf some v).map fun d => (t.1, UType.of d)
      else pure t
    readUser t as) := rfl

theorem readUser_said (as : List (Str × Str)) (h : AttrsFine as) : ∀ t, readUser t as = .ok
    ({ t.1 with name := (Style.attrOf as kName).getD t.1.name }, ((Style.attrOf as kValueType).map UType.of).getD t.2) := by
  induction as with
  | nil => intro t; rfl
  | cons kv as ih =>
    obtain ⟨k, v⟩ := kv
    intro t
    obtain ⟨hd, hp⟩ := h
    have ha : kName ≠ kValueType := by decide +kernel
    obtain ⟨w, hw, hp', -⟩ := escaped_cons hp
    rw [List.map_cons, List.nodup_cons] at hd
    have hno : ∀ q, k = q → Style.attrOf as q = none := fun q e => attrOf_absent as q (by rw [← e]; exact hd.1)
    have hcons : ∀ q, Style.attrOf ((k, v) :: as) q = if q = k then some w else Style.attrOf as q := by
      intro q; rw [attrOf_cons, hw]
    have ih := ih ⟨hd.2, hp'⟩
    rw [readUser_cons]
    simp only [hcons]
    by_cases k0 : k = kName
    · have hn := hno _ k0
      subst k0
      rw [if_pos rfl]
      simp only [attrOf, hw, Except.map, bind, Except.bind, if_true, if_neg (Ne.symm ha)]
      rw [ih, hn]
      rfl
    rw [if_neg k0]
    by_cases k1 : k = kValueType
    · have hn := hno _ k1
      subst k1
      rw [if_pos rfl]
      simp only [attrOf, hw, Except.map, bind, Except.bind, if_true, if_neg ha]
      rw [ih, hn]
      rfl
    rw [if_neg k1]
    simp only [if_neg (Ne.symm k0), if_neg (Ne.symm k1)]
    exact ih t

/-! ## Elements -/

/-- Another element of a kind. -/
def upd (g : Slot → Option Elem) (s : Slot) (x : Elem) : Slot → Option Elem := fun t => if t = s then some x else g t

theorem date_empty : parseDateTime [] = none := by decide +kernel
theorem u32_empty : parseU32 [] = none := by decide +kernel
theorem duration_empty : (durationOf []).toOption = none := by decide +kernel

theorem optDate_fine (s : Str) (h : s = [] ∨ (parseDateTime s).isSome = true) : optDate s = .ok (parseDateTime s) := by
  unfold optDate orEmpty
  by_cases hs : s = []
  · subst hs
    rw [if_pos rfl, date_empty]
  · rw [if_neg hs]
    obtain ⟨d, hd⟩ := Option.isSome_iff_exists.1 (h.resolve_left hs)
    unfold dateOf
    simp only [hd]
    rfl

theorem set_text (g : Slot → Option Elem) (us : List UserDefined) (k : Field) (x : Elem) (h : TextFine (deepIn x.content) k) :
    k.set (metaOf g us) (deepIn x.content) = .ok (metaOf (upd g (.field k) x) us) := by
  cases k
  case creationDate => simp only [Field.set]; rw [optDate_fine _ h]; rfl
  case date => simp only [Field.set]; rw [optDate_fine _ h]; rfl
  case printDate => simp only [Field.set]; rw [optDate_fine _ h]; rfl
  case editingCycles =>
    simp only [Field.set]
    have he : metaOf (upd g (.field .editingCycles) x) us
        = { metaOf g us with editingCycles := (parseU32 (deepIn x.content)).getD 0 } := rfl
    rw [he]
    unfold orEmpty
    by_cases hs : deepIn x.content = []
    · rw [if_pos hs, hs, u32_empty]
      rfl
    · rw [if_neg hs]
      obtain ⟨d, hd⟩ := Option.isSome_iff_exists.1 (Or.resolve_left h hs)
      simp only [hd]
      rfl
  case editingDuration =>
    simp only [Field.set]
    have : orEmpty durationOf 0 (deepIn x.content) = .ok (((durationOf (deepIn x.content)).toOption).getD 0) := by
      unfold orEmpty
      by_cases hs : deepIn x.content = []
      · rw [if_pos hs, hs, duration_empty]; rfl
      · rw [if_neg hs]
        obtain ⟨d, hd⟩ := Option.isSome_iff_exists.1 (Or.resolve_left h hs)
        cases hq : durationOf (deepIn x.content) with
        | error e => rw [hq] at hd; cases hd
        | ok y => rfl
    rw [this]
    rfl
  all_goals rfl

/-- All kinds. -/
def Slot.all : List Slot := [.template, .reload, .hyperlink, .statistics] ++ Field.all.map .field

theorem slot_all (s : Slot) : s ∈ Slot.all := by
  cases s with
  | field k => cases k <;> decide
  | _ => decide

theorem tags_apart : ((tUser :: Slot.all.map Slot.tag)).Nodup := by decide +kernel

theorem nodup_inj {α β : Type} (f : α → β) : ∀ l : List α, (l.map f).Nodup → ∀ a ∈ l, ∀ b ∈ l, f a = f b → a = b
  | [], _, a, ha, _, _, _ => by cases ha
  | x :: l, h, a, ha, b, hb, e => by
    rw [List.map_cons, List.nodup_cons] at h
    rcases List.mem_cons.1 ha with rfl | ha' <;> rcases List.mem_cons.1 hb with rfl | hb'
    · rfl
    · exact absurd (List.mem_map.2 ⟨b, hb', e.symm⟩) h.1
    · exact absurd (List.mem_map.2 ⟨a, ha', e⟩) h.1
    · exact nodup_inj f l h.2 a ha' b hb' e

theorem tag_inj (s t : Slot) (h : s.tag = t.tag) : s = t :=
  nodup_inj Slot.tag Slot.all (List.nodup_cons.1 tags_apart).2 s (slot_all s) t (slot_all t) h

theorem tag_user (s : Slot) : s.tag ≠ tUser := fun h =>
  (List.nodup_cons.1 tags_apart).1 (List.mem_map.2 ⟨s, slot_all s, h⟩)

theorem fieldOf_none {n : Str} (h : ∀ k : Field, n ≠ k.tag) : fieldOf n = none := by
  unfold fieldOf
  rw [List.find?_eq_none]
  intro k _
  simpa using fun e => h k e.symm

theorem field_all (k : Field) : k ∈ Field.all := by cases k <;> decide

/-- What has been read after some elements, the last one first. -/
def readSoFar (fl : Floats) (r : List Elem) : Metadata :=
  metaOf (fun s => r.find? fun x => x.name = s.tag) ((r.reverse.filter fun x => x.name = tUser).map (userSaid fl))

theorem soFar_slot (fl : Floats) (r : List Elem) (x : Elem) (s : Slot) (h : x.name = s.tag) :
    readSoFar fl (x :: r) = metaOf (upd (fun s => r.find? fun x => x.name = s.tag) s x)
      ((r.reverse.filter fun x => x.name = tUser).map (userSaid fl)) := by
  unfold readSoFar
  congr 1
  · funext t
    unfold upd
    by_cases e : t = s
    · subst e
      rw [if_pos rfl, List.find?_cons_of_pos (by simpa using h)]
    · rw [if_neg e, List.find?_cons_of_neg (by simpa using fun q => e (tag_inj t s (q.symm.trans h)))]
  · rw [List.reverse_cons, List.filter_append, List.filter_cons_of_neg (by rw [h]; simpa using tag_user s)]
    simp

theorem soFar_other (fl : Floats) (r : List Elem) (x : Elem) (h : ∀ s : Slot, x.name ≠ s.tag) (hu : x.name ≠ tUser) :
    readSoFar fl (x :: r) = readSoFar fl r := by
  unfold readSoFar
  congr 1
  · funext t
    rw [List.find?_cons_of_neg (by simpa using h t)]
  · rw [List.reverse_cons, List.filter_append, List.filter_cons_of_neg (by simpa using hu)]
    simp

theorem soFar_user (fl : Floats) (r : List Elem) (x : Elem) (h : x.name = tUser) :
    readSoFar fl (x :: r) = { readSoFar fl r with userDefined := (readSoFar fl r).userDefined ++ [userSaid fl x] } := by
  have : readSoFar fl (x :: r) = metaOf (fun s => r.find? fun x => x.name = s.tag)
      (((r.reverse.filter fun x => x.name = tUser).map (userSaid fl)) ++ [userSaid fl x]) := by
    unfold readSoFar
    congr 1
    · funext t
      rw [List.find?_cons_of_neg (by rw [h]; simpa using Ne.symm (tag_user t))]
    · rw [List.reverse_cons, List.filter_append, List.filter_cons_of_pos (by simpa using h), List.map_append]
      rfl
  rw [this]
  rfl

/-! ## Running -/

section Events

variable (f : Floats)

mutual

theorem file_el (x : El) (h : x.NoStart tMeta) (m : Metadata) : run f ⟨.file, m⟩ x.events = .ok ⟨.file, m⟩ :=
  match x with
  | .text s => rfl
  | .ref s => rfl
  | .void n as => rfl
  | .elem n as c => by
    rw [El.events, run, step]
    simp only
    rw [if_neg (show ¬ n = "office:meta".toList from h.1)]
    simp only
    rw [run_append, file_elIn c h.2 m]
    rfl

theorem file_elIn (c : List El) (h : NoStartIn tMeta c) (m : Metadata) : run f ⟨.file, m⟩ (evsOf c) = .ok ⟨.file, m⟩ :=
  match c with
  | [] => rfl
  | x :: c => by
    rw [evsOf, run_append, file_el x h.1 m]
    simp only
    rw [file_elIn c h.2 m]

end

mutual

theorem value_el (x : El) (k : Field) (h : x.NoStart k.tag) (s : Str) (m : Metadata) :
    run f ⟨.value k s, m⟩ x.events = .ok ⟨.value k (s ++ deep x), m⟩ :=
  match x with
  | .text t => rfl
  | .ref t => rfl
  | .void n as => by rw [deep, List.append_nil]; rfl
  | .elem n as c => by
    rw [El.events, run, step]
    simp only
    rw [run_append, value_elIn c k h.2 s m]
    simp only
    rw [run, step]
    simp only
    rw [if_neg h.1]
    rfl

theorem value_elIn (c : List El) (k : Field) (h : NoStartIn k.tag c) (s : Str) (m : Metadata) :
    run f ⟨.value k s, m⟩ (evsOf c) = .ok ⟨.value k (s ++ deepIn c), m⟩ :=
  match c with
  | [] => by rw [deepIn, List.append_nil]; rfl
  | x :: c => by
    rw [evsOf, run_append, value_el x k h.1 s m]
    simp only
    rw [value_elIn c k h.2, deepIn, List.append_assoc]

end

theorem holdsText_field {n : Str} (h : holdsText n) (hu : n ≠ tUser) : ∃ k : Field, n = k.tag := by
  obtain ⟨k, -, hk⟩ := List.mem_map.1 (h.resolve_right hu)
  exact ⟨k, hk.symm⟩

/-- The start tag of an element that holds no text. -/
theorem start_other (x : Elem) (hx : ElemFine f x) (ht : ¬ holdsText x.name) (r : List Elem) :
    step f ⟨.office, readSoFar f r⟩ (.start x.name x.attrs) = .ok ⟨.office, readSoFar f (x :: r)⟩ := by
  have hk : ∀ k : Field, x.name ≠ k.tag := fun k e => ht (.inl (List.mem_map.2 ⟨k, field_all k, e.symm⟩))
  have hu : x.name ≠ tUser := fun e => ht (.inr e)
  obtain ⟨-, -, h1, h2, h3, h4, -⟩ := hx
  unfold step
  dsimp only
  rw [fieldOf_none hk]
  dsimp only
  by_cases e1 : x.name = Slot.template.tag
  · rw [if_pos (show x.name = "meta:template".toList from e1), readTemplate_eq _ (h1 e1), soFar_slot f r x .template e1]
    rfl
  rw [if_neg (show ¬ x.name = "meta:template".toList from e1)]
  by_cases e2 : x.name = Slot.reload.tag
  · rw [if_pos (show x.name = "meta:auto-reload".toList from e2), readReload_eq _ (h2 e2), soFar_slot f r x .reload e2]
    rfl
  rw [if_neg (show ¬ x.name = "meta:auto-reload".toList from e2)]
  by_cases e3 : x.name = Slot.hyperlink.tag
  · rw [if_pos (show x.name = "meta:hyperlink-behaviour".toList from e3), readHyperlink_eq _ (h3 e3), soFar_slot f r x .hyperlink e3]
    rfl
  rw [if_neg (show ¬ x.name = "meta:hyperlink-behaviour".toList from e3)]
  by_cases e4 : x.name = Slot.statistics.tag
  · rw [if_pos (show x.name = "meta:document-statistic".toList from e4), readStatistics_eq _ (h4 e4), soFar_slot f r x .statistics e4]
    rfl
  rw [if_neg (show ¬ x.name = "meta:document-statistic".toList from e4), if_neg (show ¬ x.name = "meta:user-defined".toList from hu), soFar_other f r x ?_ hu]
  intro s
  cases s with
  | field k => exact hk k
  | template => exact e1
  | reload => exact e2
  | hyperlink => exact e3
  | statistics => exact e4

/-- A text. -/
theorem field_read (x : Elem) (hx : ElemFine f x) (k : Field) (hk : x.name = k.tag) (r : List Elem) :
    run f ⟨.office, readSoFar f r⟩ (El.elem x.name x.attrs x.content).events = .ok ⟨.office, readSoFar f (x :: r)⟩ := by
  obtain ⟨hn, ht⟩ := hx.2.1 k hk
  rw [El.events, run, step]
  simp only
  rw [hk, fieldOf_tag]
  simp only
  rw [hk] at hn
  rw [run_append, value_elIn f x.content k hn]
  simp only [List.nil_append]
  rw [run, step]
  simp only
  rw [if_pos trivial]
  unfold readSoFar at *
  rw [set_text _ _ k x ht, ← soFar_slot f r x (.field k) hk]
  rfl

/-- A value with a name. -/
theorem user_read (x : Elem) (hx : ElemFine f x) (hu : x.name = tUser) (r : List Elem) :
    run f ⟨.office, readSoFar f r⟩ (El.elem x.name x.attrs x.content).events = .ok ⟨.office, readSoFar f (x :: r)⟩ := by
  obtain ⟨ha, hc⟩ := hx.2.2.2.2.2.2 hu
  have hf : fieldOf tUser = none := by decide +kernel
  have hs : step f ⟨.office, readSoFar f r⟩ (.start tUser x.attrs)
      = .ok ⟨.user { name := (Style.attrOf x.attrs kName).getD [] }
          (UType.of ((Style.attrOf x.attrs kValueType).getD [])), readSoFar f r⟩ := by
    unfold step
    dsimp only
    rw [hf]
    dsimp only
    rw [if_neg (by decide +kernel), if_neg (by decide +kernel), if_neg (by decide +kernel), if_neg (by decide +kernel),
      if_pos (show tUser = "meta:user-defined".toList from rfl), readUser_said _ ha]
    cases hv : Style.attrOf x.attrs kValueType with
    | some v => rfl
    | none =>
      show Except.ok _ = _
      rw [Option.getD_none, show UType.of [] = .string by decide +kernel]
      rfl
  rw [soFar_user f r x hu, hu, El.events, run, hs]
  simp only
  have hend : ∀ u ty, step f ⟨.user u ty, readSoFar f r⟩ (.end tUser)
      = .ok ⟨.office, { readSoFar f r with userDefined := (readSoFar f r).userDefined ++ [u] }⟩ := by
    intro u ty
    unfold step
    dsimp only
    rw [if_pos (show tUser = "meta:user-defined".toList from rfl)]
  rcases hc with hc | ⟨s, hc, hv⟩
  · rw [hc, evsOf, List.nil_append, run, hend]
    simp only [run]
    unfold userSaid
    rw [hc]
  · obtain ⟨v, hv⟩ := Option.isSome_iff_exists.1 hv
    have hv' : userValue f s (UType.of ((Style.attrOf x.attrs kValueType).getD [])) = .ok v := by
      cases hq : userValue f s (UType.of ((Style.attrOf x.attrs kValueType).getD [])) with
      | error e => rw [hq] at hv; cases hv
      | ok y => rw [hq] at hv; cases hv; rfl
    have ht : ∀ u ty, step f ⟨.user u ty, readSoFar f r⟩ (.text s)
        = (userValue f s ty).map fun v => ⟨.user { u with value := v } ty, readSoFar f r⟩ := fun _ _ => rfl
    rw [hc, evsOf, evsOf, El.events, List.append_nil, List.singleton_append, run, ht, hv']
    simp only [Except.map]
    rw [run, hend]
    simp only [run]
    unfold userSaid
    rw [hc]
    simp only [deepIn, deep, List.append_nil]
    rw [hv]
    rfl

mutual

theorem office_el (x : El) (h : ∀ y ∈ elems x, ElemFine f y) (r : List Elem) :
    run f ⟨.office, readSoFar f r⟩ x.events = .ok ⟨.office, readSoFar f ((elems x).reverse ++ r)⟩ :=
  match x with
  | .text s => rfl
  | .ref s => rfl
  | .void n as => rfl
  | .elem n as c => by
    rw [elems] at h ⊢
    by_cases ht : holdsText n
    · rw [if_pos ht] at h ⊢
      have hx := h _ (List.mem_singleton.2 rfl)
      by_cases hu : n = tUser
      · exact user_read f ⟨n, as, c⟩ hx hu r
      · obtain ⟨k, hk⟩ := holdsText_field ht hu
        exact field_read f ⟨n, as, c⟩ hx k hk r
    · rw [if_neg ht] at h ⊢
      have hx := h _ (List.mem_cons_self ..)
      rw [El.events, run, start_other f ⟨n, as, c⟩ hx ht r]
      simp only
      rw [run_append, office_elIn c (fun y hy => h y (List.mem_cons_of_mem _ hy))]
      simp only
      rw [run, step]
      simp only
      rw [if_neg (show ¬ n = "office:meta".toList from hx.1), List.reverse_cons, List.append_assoc]
      rfl

theorem office_elIn (c : List El) (h : ∀ y ∈ elemsIn c, ElemFine f y) (r : List Elem) :
    run f ⟨.office, readSoFar f r⟩ (evsOf c) = .ok ⟨.office, readSoFar f ((elemsIn c).reverse ++ r)⟩ :=
  match c with
  | [] => rfl
  | x :: c => by
    rw [elemsIn] at h ⊢
    rw [evsOf, run_append, office_el x (fun y hy => h y (List.mem_append_left _ hy)) r]
    simp only
    rw [office_elIn c (fun y hy => h y (List.mem_append_right _ hy)), List.reverse_append, List.append_assoc]

end

/-- The section of the metadata. -/
theorem section_read (c : List El) (h : MetaFine f c) :
    run f ⟨.office, {}⟩ (evsOf c) = .ok ⟨.office, metaSaid f c⟩ := by
  have h0 : ({} : Metadata) = readSoFar f [] := by
    unfold readSoFar metaOf
    simp only [List.find?_nil, Option.map_none, Option.getD_none, date_empty, u32_empty, duration_empty]
    rfl
  rw [h0, office_elIn f c h []]
  unfold readSoFar metaSaid lastNamed
  rw [List.append_nil, List.reverse_reverse]

end Events

/-! ## Files -/

/-- A file with one element `office:meta` in its root element. -/
def metaFile (front : List El) (root : Str) (as : List (Str × Str)) (pre : List El) (bs : List (Str × Str))
    (c post back : List El) : List El := front ++ .elem root as (pre ++ .elem tMeta bs c :: post) :: back

/-- **C115** (exact): the metadata of a file of another program are those that its elements mean. -/
theorem C115_meta (fl : Floats) (front : List El) (root : Str) (as : List (Str × Str)) (pre : List El)
    (bs : List (Str × Str)) (c post back : List El) (hroot : root ≠ tMeta) (h1 : NoStartIn tMeta front)
    (h2 : NoStartIn tMeta pre) (h3 : NoStartIn tMeta post) (h4 : NoStartIn tMeta back) (text : Str)
    (ht : Whole.FileText (metaFile front root as pre bs c post back) text) (h : MetaFine fl c) :
    readMeta fl text = .ok (metaSaid fl c) := by
  obtain ⟨ts, g1, g2⟩ := Whole.file_events ht
  unfold readMeta
  rw [g1]
  simp only
  have hev : evsOf (metaFile front root as pre bs c post back)
      = evsOf front ++ (.start root as :: (evsOf pre ++ (.start tMeta bs :: (evsOf c ++ (.end tMeta ::
        (evsOf post ++ (.end root :: evsOf back))))))) := by
    unfold metaFile
    rw [Valid.evsOf_append, evsOf, El.events, Valid.evsOf_append, evsOf, El.events]
    simp
  rw [g2, hev, run_append, file_elIn fl front h1]
  simp only
  rw [run, step]
  simp only
  rw [if_neg (show ¬ root = "office:meta".toList from hroot)]
  simp only
  rw [run_append, file_elIn fl pre h2]
  simp only
  rw [run, step]
  simp only
  rw [if_pos (show tMeta = "office:meta".toList from rfl)]
  simp only
  rw [run_append, section_read fl c h]
  simp only
  rw [run, step]
  simp only
  rw [if_pos (show tMeta = "office:meta".toList from rfl)]
  simp only
  rw [run_append, file_elIn fl post h3]
  simp only
  rw [run, step]
  simp only
  rw [file_elIn fl back h4]
  rfl

/-! ## A file, and what is lost -/

/-- Metadata of an office program, with white space, an unknown element, a text with a reference and a second title. -/
def officeMeta : List El :=
  [.text (str "\n "),
   .elem (str "dc:title") [] [.text (str "old")],
   .elem (str "meta:creation-date") [] [.text (str "2024-02-29T23:59:59")],
   .elem (str "loext:more") [] [.text (str " "), .elem (str "dc:title") [] [.text (str "a"), .ref (str "amp"), .text (str "b")]],
   .elem (str "meta:user-defined") [(str "meta:value-type", str "boolean"), (str "meta:name", str "done")] [.text (str "true")],
   .elem (str "meta:document-statistic") [(str "meta:cell-count", str "12"), (str "meta:image-count", str "3"),
     (str "meta:table-count", str "2")] [],
   .elem (str "meta:user-defined") [(str "meta:name", str "by")] [.text (str "me")],
   .elem (str "meta:editing-cycles") [] [.text (str "7")]]

/-- What it means. -/
def officeMetadata : Metadata :=
  { title := str "a&b", creationDate := some ⟨2024, 2, 29, 23, 59, 59, 0⟩, editingCycles := 7
    statistics := { cells := 12, tables := 2 }
    userDefined := [{ name := str "done", value := .boolean true }, { name := str "by", value := .string (str "me") }] }

theorem officeMeta_elems : elemsIn officeMeta =
    [⟨str "dc:title", [], [.text (str "old")]⟩,
     ⟨str "meta:creation-date", [], [.text (str "2024-02-29T23:59:59")]⟩,
     ⟨str "loext:more", [], [.text (str " "), .elem (str "dc:title") [] [.text (str "a"), .ref (str "amp"), .text (str "b")]]⟩,
     ⟨str "dc:title", [], [.text (str "a"), .ref (str "amp"), .text (str "b")]⟩,
     ⟨str "meta:user-defined", [(str "meta:value-type", str "boolean"), (str "meta:name", str "done")], [.text (str "true")]⟩,
     ⟨str "meta:document-statistic", [(str "meta:cell-count", str "12"), (str "meta:image-count", str "3"),
       (str "meta:table-count", str "2")], []⟩,
     ⟨str "meta:user-defined", [(str "meta:name", str "by")], [.text (str "me")]⟩,
     ⟨str "meta:editing-cycles", [], [.text (str "7")]⟩] := by
  simp only [officeMeta, elemsIn, elems]
  rw [if_pos (by decide +kernel), if_pos (by decide +kernel), if_neg (by decide +kernel), if_pos (by decide +kernel),
    if_pos (by decide +kernel), if_neg (by decide +kernel), if_pos (by decide +kernel), if_pos (by decide +kernel)]
  rfl

theorem officeMeta_fine (fl : Floats) : MetaFine fl officeMeta := by
  unfold MetaFine
  rw [officeMeta_elems]
  have nope : ∀ (x : Elem) (P : Field → Prop), x.name ∉ Field.all.map Field.tag → ∀ k : Field, x.name = k.tag → P k :=
    fun x P h k e => absurd (List.mem_map.2 ⟨k, field_all k, e.symm⟩) h
  have only : ∀ (x : Elem) (P : Field → Prop) (j : Field), x.name = j.tag → P j → ∀ k : Field, x.name = k.tag → P k :=
    fun x P j h hj k e => by
      have : Slot.field j = Slot.field k := tag_inj (.field j) (.field k) (h.symm.trans e)
      cases this
      exact hj
  intro x hx
  simp only [List.mem_cons, List.not_mem_nil, or_false] at hx
  rcases hx with rfl | rfl | rfl | rfl | rfl | rfl | rfl | rfl
  · exact ⟨by decide +kernel, only _ _ .title rfl ⟨⟨trivial, trivial⟩, trivial⟩, fun h => absurd h (by decide +kernel),
      fun h => absurd h (by decide +kernel), fun h => absurd h (by decide +kernel), fun h => absurd h (by decide +kernel),
      fun h => absurd h (by decide +kernel)⟩
  · exact ⟨by decide +kernel, only _ _ .creationDate rfl ⟨⟨trivial, trivial⟩, .inr (by decide +kernel)⟩,
      fun h => absurd h (by decide +kernel),
      fun h => absurd h (by decide +kernel), fun h => absurd h (by decide +kernel), fun h => absurd h (by decide +kernel),
      fun h => absurd h (by decide +kernel)⟩
  · exact ⟨by decide +kernel, nope _ _ (by decide +kernel), fun h => absurd h (by decide +kernel),
      fun h => absurd h (by decide +kernel), fun h => absurd h (by decide +kernel), fun h => absurd h (by decide +kernel),
      fun h => absurd h (by decide +kernel)⟩
  · exact ⟨by decide +kernel, only _ _ .title rfl ⟨⟨trivial, trivial, trivial, trivial⟩, trivial⟩, fun h => absurd h (by decide +kernel),
      fun h => absurd h (by decide +kernel), fun h => absurd h (by decide +kernel), fun h => absurd h (by decide +kernel),
      fun h => absurd h (by decide +kernel)⟩
  · refine ⟨by decide +kernel, nope _ _ (by decide +kernel), fun h => absurd h (by decide +kernel),
      fun h => absurd h (by decide +kernel), fun h => absurd h (by decide +kernel), fun h => absurd h (by decide +kernel),
      fun h => ⟨⟨by decide +kernel, show (unescapeAttrs _).isSome = true by decide +kernel⟩, .inr ⟨_, rfl, ?_⟩⟩⟩
    rw [show UType.of ((Style.attrOf [(str "meta:value-type", str "boolean"), (str "meta:name", str "done")] kValueType).getD [])
      = .boolean by decide +kernel]
    show (userValue asBits (str "true") .boolean).toOption.isSome = true
    decide +kernel
  · refine ⟨by decide +kernel, nope _ _ (by decide +kernel), fun h => absurd h (by decide +kernel),
      fun h => absurd h (by decide +kernel), fun h => absurd h (by decide +kernel), fun h => ?_,
      fun h => absurd h (by decide +kernel)⟩
    refine ⟨⟨by decide +kernel, show (unescapeAttrs _).isSome = true by decide +kernel⟩, ?_, ?_, ?_, ?_⟩
    · rw [show Style.attrOf [(str "meta:cell-count", str "12"), (str "meta:image-count", str "3"),
        (str "meta:table-count", str "2")] kCells = some (str "12") by decide +kernel]
      intro v hv
      cases hv
      decide +kernel
    · rw [show Style.attrOf [(str "meta:cell-count", str "12"), (str "meta:image-count", str "3"),
        (str "meta:table-count", str "2")] kObjects = none by decide +kernel]
      intro v hv
      cases hv
    · rw [show Style.attrOf [(str "meta:cell-count", str "12"), (str "meta:image-count", str "3"),
        (str "meta:table-count", str "2")] kOle = none by decide +kernel]
      intro v hv
      cases hv
    · rw [show Style.attrOf [(str "meta:cell-count", str "12"), (str "meta:image-count", str "3"),
        (str "meta:table-count", str "2")] kTables = some (str "2") by decide +kernel]
      intro v hv
      cases hv
      decide +kernel
  · refine ⟨by decide +kernel, nope _ _ (by decide +kernel), fun h => absurd h (by decide +kernel),
      fun h => absurd h (by decide +kernel), fun h => absurd h (by decide +kernel), fun h => absurd h (by decide +kernel),
      fun h => ⟨⟨by decide +kernel, show (unescapeAttrs _).isSome = true by decide +kernel⟩, .inr ⟨_, rfl, ?_⟩⟩⟩
    rw [show UType.of ((Style.attrOf [(str "meta:name", str "by")] kValueType).getD []) = .string by decide +kernel]
    rfl
  · exact ⟨by decide +kernel, only _ _ .editingCycles rfl ⟨⟨trivial, trivial⟩, .inr (by decide +kernel)⟩,
      fun h => absurd h (by decide +kernel),
      fun h => absurd h (by decide +kernel), fun h => absurd h (by decide +kernel), fun h => absurd h (by decide +kernel),
      fun h => absurd h (by decide +kernel)⟩

/-- The file. -/
def officeMetaFile : List El := metaFile [] (str "office:document-meta") [] [.text (str "\n")] [] officeMeta [] []

/-- `C115_meta` says what is read of this file, and it is what it means. -/
theorem C115_meets : readMeta asBits (spellIn officeMetaFile) = .ok (metaSaid asBits officeMeta)
    ∧ metaSaid asBits officeMeta = officeMetadata :=
  ⟨C115_meta asBits [] (str "office:document-meta") [] [.text (str "\n")] [] officeMeta [] [] (by decide +kernel) trivial
    ⟨trivial, trivial⟩ trivial trivial _ (.plain _ _ (spell_ok _ (by decide +kernel))) (officeMeta_fine asBits), by decide +kernel⟩

/-- C115 fails for empty tags, which is how statistics, templates and reloads are written by all programs: whatever they
have as attributes, nothing of it is read. -/
theorem C115_empty_counterexample (fl : Floats) (root : Str) (l : List (Str × List (Str × Str))) (hroot : root ≠ tMeta)
    (text : Str) (ht : Whole.FileText (metaFile [] root [] [] [] (l.map fun p => .void p.1 p.2) [] []) text) :
    readMeta fl text = .ok {} := by
  have he : elemsIn (l.map fun p => El.void p.1 p.2) = [] := by
    clear ht
    induction l with
    | nil => rfl
    | cons p l ih => rw [List.map_cons, elemsIn, ih]; rfl
  have hm : metaSaid fl (l.map fun p => El.void p.1 p.2) = {} := by
    unfold metaSaid
    rw [he]
    unfold metaOf lastNamed
    simp only [List.reverse_nil, List.find?_nil, Option.map_none, Option.getD_none, date_empty, u32_empty, duration_empty]
    rfl
  rw [← hm]
  exact C115_meta fl [] root [] [] [] _ [] [] hroot trivial trivial trivial trivial text ht
    (by intro x hx; rw [he] at hx; cases hx)

/-- C115 fails for values with names whose text has a reference, for instance an ampersand: only what is behind the last
reference is kept, whatever is in front of it. -/
theorem C115_reference_counterexample (fl : Floats) (root n a r b : Str) (hn : Plain n) (hroot : root ≠ tMeta) (text : Str)
    (ht : Whole.FileText (metaFile [] root [] [] [] [.elem tUser [(kName, n)] [.text a, .ref r, .text b]] [] []) text) :
    readMeta fl text = .ok { userDefined := [{ name := n, value := .string b }] } := by
  obtain ⟨ts, g1, g2⟩ := Whole.file_events ht
  unfold readMeta
  rw [g1]
  simp only
  have hev : evsOf (metaFile [] root [] [] [] [.elem tUser [(kName, n)] [.text a, .ref r, .text b]] [] [])
      = [.start root [], .start tMeta [], .start tUser [(kName, n)], .text a, .ref r, .text b, .end tUser, .end tMeta,
        .end root] := rfl
  have h1 : step fl ⟨.file, {}⟩ (.start root []) = .ok ⟨.file, {}⟩ := by
    unfold step
    dsimp only
    rw [if_neg (show ¬ root = "office:meta".toList from hroot)]
  have h2 : step fl ⟨.file, {}⟩ (.start tMeta []) = .ok ⟨.office, {}⟩ := by
    unfold step
    dsimp only
    rw [if_pos (show tMeta = "office:meta".toList from rfl)]
  have h3 : step fl ⟨.office, {}⟩ (.start tUser [(kName, n)]) = .ok ⟨.user { name := n } .string, {}⟩ := by
    unfold step
    dsimp only
    rw [show fieldOf tUser = none by decide +kernel]
    dsimp only
    rw [if_neg (by decide +kernel), if_neg (by decide +kernel), if_neg (by decide +kernel), if_neg (by decide +kernel),
      if_pos (show tUser = "meta:user-defined".toList from rfl)]
    rw [readUser_cons, if_pos rfl]
    simp only [attrOf, unescape_plain n hn]
    rfl
  have h4 : ∀ u, step fl ⟨.user u .string, {}⟩ (.end tUser) = .ok ⟨.office, { userDefined := [u] }⟩ := by
    intro u
    unfold step
    dsimp only
    rw [if_pos (show tUser = "meta:user-defined".toList from rfl)]
    rfl
  have h5 : ∀ m, step fl ⟨.office, m⟩ (.end tMeta) = .ok ⟨.file, m⟩ := by
    intro m
    unfold step
    dsimp only
    rw [if_pos (show tMeta = "office:meta".toList from rfl)]
  have h6 : ∀ u s, step fl ⟨.user u .string, {}⟩ (.text s) = .ok ⟨.user { u with value := .string s } .string, {}⟩ :=
    fun _ _ => rfl
  have h7 : ∀ u s, step fl ⟨.user u .string, {}⟩ (.ref s) = .ok ⟨.user u .string, {}⟩ := fun _ _ => rfl
  rw [g2, hev, run, h1]
  simp only
  rw [run, h2]
  simp only
  rw [run, h3]
  simp only
  rw [run, h6]
  simp only
  rw [run, h7]
  simp only
  rw [run, h6]
  simp only
  rw [run, h4]
  simp only
  rw [run, h5]
  rfl

end Verif.Meta
