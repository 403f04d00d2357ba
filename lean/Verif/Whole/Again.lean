import Verif.Whole.Props
import Verif.Config.ViewBack
import Verif.Style.Closed
import Verif.Master.Again
import Verif.TableXml.Still

/-!
# Saving and loading a workbook many times

C95: a workbook that was loaded can be saved and loaded again, any number of times, and stays the same.
-/

set_option autoImplicit false

namespace Verif.Whole

open Xml Codec Xml.Spec
open Verif.Book (Stores HMap)
open Verif.Ns (Part NsBook)

/-! ## The specification -/

namespace Spec

/-- The same styles, formats, page layouts and fonts, in any order: a `HashMap` has none. -/
structure Shuffled (a b : Style.SBook) : Prop where
  styles : ∀ k, (a.styles.store k).Perm (b.styles.store k)
  formats : ∀ k, (a.formats.store k).Perm (b.formats.store k)
  pages : ∀ k, (a.pages.store k).Perm (b.pages.store k)
  fonts : a.fonts.Perm b.fonts

/-- The workbook `t` that was loaded, as the writer sees it: nothing is changed, and what is in a `HashMap` comes in
any order.  Simplification: the namespaces come in the order in which they were read. -/
structure Reopened (t : Target) (s : Source) : Prop where
  ns : s.ns = t.ns
  metadata : s.metadata = t.metadata
  config : s.config = t.config
  scripts : s.scripts = t.scripts.scripts
  listeners : s.listeners.Perm (t.scripts.listeners.map (·.2))
  styles : Shuffled s.styles t.styles
  masters : s.masters.Perm ((t.masters.store .masterPage).map (·.2))
  extra : s.extra = t.body.extra
  validations : s.validations.Perm ((t.body.valid.store .validation).map (·.2))
  sheets : s.sheets = t.body.sheets

/-- `t` is what is loaded after the workbook `s` was saved and loaded `n` times, without any change in between. -/
inductive Cycles {Z : Type} (write : Source → Option Z) (read : Z → Except Fault Target) : Nat → Source → Target → Prop where
  | once {s : Source} {z : Z} {t : Target} : write s = some z → read z = .ok t → Cycles write read 1 s t
  | again {n : Nat} {s s' : Source} {z : Z} {t t' : Target} : Cycles write read n s t → Reopened t s' →
    write s' = some z → read z = .ok t' → Cycles write read (n + 1) s t'

/-- A workbook that lasts: as for saving and loading once, and besides there are no validations, no header or footer
has an empty paragraph, and the sheets are as `TableXml.Steady` says. -/
structure Lasting (fl : Floats) (lb : Bool) (s : Source) : Prop extends GoodParts fl lb s where
  noRules : s.validations = []
  stays : ∀ q ∈ s.masters, Master.MasterStays q
  sheets : TableXml.AllSteady fl lb s.sheets
  some : s.sheets ≠ []

/-- What is still the same: all that is the same after one time. -/
structure StillBack (ignoreEmpty : Bool) (defStyle : ValueType → Option String) (s : Source) (t : Target) : Prop where
  version : t.ns.version = s.ns.version
  metadata : SameMeta s.metadata t.metadata
  config : t.config = Config.dropAll s.config
  scripts : t.scripts = {}
  pages : ∀ n, t.styles.pages.get? .page n = s.styles.pages.get? .page n
  masters : ∀ q ∈ s.masters, ∃ b, t.masters.get? .masterPage q.name = some ⟨q.name, b⟩ ∧ Master.MasterSame q.body b
  noMasters : ∀ n, n ∉ s.masters.map (·.name) → t.masters.get? .masterPage n = none
  sheets : TableXml.StillSheets ignoreEmpty defStyle s.sheets t.body.sheets
  extra : t.body.extra = (s.extra.filter fun t => decide (TableXml.nodeName t ∈ TableXml.bookPrelude))
    ++ (s.extra.filter fun t => decide (TableXml.nodeName t ∈ TableXml.bookEpilogue))
  noRules : ∀ n, t.body.valid.get? .validation n = none

end Spec

open Spec

/-! ## Maps in any order -/

theorem get?_perm {K V : Type} [DecidableEq K] (m m' : HMap K V) (hd : HMap.Distinct m) (hp : m'.Perm m) (k : K) :
    HMap.get? m' k = HMap.get? m k := by
  have hd' : HMap.Distinct m' := (hp.map Prod.fst).nodup_iff.2 hd
  cases h : HMap.get? m k with
  | some v => exact HMap.get?_of_mem m' hd' k v (hp.mem_iff.2 (HMap.get?_mem m k v h))
  | none =>
    cases h' : HMap.get? m' k with
    | none => rfl
    | some v =>
      rw [HMap.get?_of_mem m hd k v (hp.mem_iff.1 (HMap.get?_mem m' k v h'))] at h
      cases h

theorem distinct_perm {K V : Type} (m m' : HMap K V) (hd : HMap.Distinct m) (hp : m'.Perm m) : HMap.Distinct m' :=
  (hp.map Prod.fst).nodup_iff.2 hd

theorem shuffled_ok (a b : Style.SBook) (h : Shuffled a b) (hb : Style.BookOk b) : Style.BookOk a where
  styleKey := fun k e he => hb.styleKey k e ((h.styles k).mem_iff.1 he)
  style := fun k e he => hb.style k e ((h.styles k).mem_iff.1 he)
  stylesMap := fun k => distinct_perm _ _ (hb.stylesMap k) (h.styles k)
  formatKey := fun k e he => hb.formatKey k e ((h.formats k).mem_iff.1 he)
  format := fun k e he => hb.format k e ((h.formats k).mem_iff.1 he)
  formatsMap := fun k => distinct_perm _ _ (hb.formatsMap k) (h.formats k)
  pageKey := fun e he => hb.pageKey e ((h.pages .page).mem_iff.1 he)
  page := fun e he => hb.page e ((h.pages .page).mem_iff.1 he)
  pagesMap := distinct_perm _ _ hb.pagesMap (h.pages .page)
  fontKey := fun e he => hb.fontKey e (h.fonts.mem_iff.1 he)
  font := fun e he => hb.font e (h.fonts.mem_iff.1 he)
  fontsMap := distinct_perm _ _ hb.fontsMap h.fonts

theorem shuffled_count (a b : Style.SBook) (h : Shuffled a b) : a.count = b.count := by
  unfold Style.SBook.count
  congr 1
  exact List.map_congr_left fun k _ => (h.styles k).length_eq

theorem shuffled_get (a b : Style.SBook) (h : Shuffled a b) (hb : Style.BookOk b) :
    (∀ k n, a.styles.get? k n = b.styles.get? k n) ∧ (∀ k n, a.formats.get? k n = b.formats.get? k n)
      ∧ (∀ n, a.pages.get? .page n = b.pages.get? .page n) ∧ ∀ n, a.fonts.get? n = b.fonts.get? n :=
  ⟨fun k n => get?_perm _ _ (hb.stylesMap k) (h.styles k) n, fun k n => get?_perm _ _ (hb.formatsMap k) (h.formats k) n,
    fun n => get?_perm _ _ hb.pagesMap (h.pages .page) n, fun n => get?_perm _ _ hb.fontsMap h.fonts n⟩

/-! ## The same twice is the same -/

theorem meta_trans {a b c : Meta.Metadata} (h : SameMeta a b) (h' : SameMeta b c) : SameMeta a c :=
  ⟨h'.title.trans h.title, h'.description.trans h.description, h'.subject.trans h.subject, h'.keyword.trans h.keyword,
    h'.initialCreator.trans h.initialCreator, h'.creator.trans h.creator, h'.printedBy.trans h.printedBy,
    h'.creationDate.trans h.creationDate, h'.date.trans h.date, h'.printDate.trans h.printDate,
    h'.language.trans h.language, h'.editingCycles.trans h.editingCycles, h'.editingDuration.trans h.editingDuration,
    h'.userDefined.trans h.userDefined⟩

theorem meta_kept {fl : Floats} {a b : Meta.Metadata} (h : Meta.Spec.Kept fl a) (hs : SameMeta a b) :
    Meta.Spec.Kept fl b :=
  ⟨by rw [hs.creationDate]; exact h.creationDate, by rw [hs.date]; exact h.date, by rw [hs.printDate]; exact h.printDate,
    by rw [hs.editingCycles]; exact h.cycles, by rw [hs.editingDuration]; exact h.duration,
    by rw [hs.userDefined]; exact h.names, by rw [hs.userDefined]; exact h.values⟩

theorem style_trans {a b c : Book.Style Style.Body} (h : Style.Spec.SameStyle a b) (h' : Style.Spec.SameStyle b c) :
    Style.Spec.SameStyle a c :=
  ⟨h'.name.trans h.name, h'.origin.trans h.origin, h'.use.trans h.use, h'.attr.trans h.attr, h'.main.trans h.main,
    h'.para.trans h.para, h'.text.trans h.text, h'.maps.trans h.maps,
    fun hp => (h'.tabs (by rw [h.para]; exact hp)).trans (h.tabs hp)⟩

theorem format_trans {a b c : Book.Style Style.Format} (h : Style.Spec.SameFormat a b) (h' : Style.Spec.SameFormat b c) :
    Style.Spec.SameFormat a c :=
  ⟨h'.name.trans h.name, h'.origin.trans h.origin,
    fun hu => (h'.use (by rw [h.use hu]; exact hu)).trans (h.use hu), h'.attr.trans h.attr,
    h'.text.trans h.text, h'.maps.trans h.maps, h'.parts.trans h.parts⟩

theorem package_trans {a b c : Style.SBook} (h : PackageStyles a b) (h' : PackageStyles b c) : PackageStyles a c where
  styles := by
    intro k n s hs hu ho
    obtain ⟨t, ht, e⟩ := h.styles k n s hs hu ho
    obtain ⟨u, hu', e'⟩ := h'.styles k n t ht (by rw [e.use]; exact hu) (by rw [e.use, e.origin]; exact ho)
    exact ⟨u, hu', style_trans e e'⟩
  noStyles := by
    intro k n u hu hd
    obtain ⟨t, ht, e'⟩ := h'.noStyles k n u hu hd
    obtain ⟨s, hs, e⟩ := h.noStyles k n t ht (by rw [← e'.use]; exact hd)
    exact ⟨s, hs, style_trans e e'⟩
  formats := by
    intro k n s hs ho
    obtain ⟨t, ht, e⟩ := h.formats k n s hs ho
    obtain ⟨u, hu', e'⟩ := h'.formats k n t ht (by
      rcases ho with ho | ho
      · exact .inl (by rw [e.origin]; exact ho)
      · exact .inr (by rw [e.use (by rw [ho]; simp)]; exact ho))
    exact ⟨u, hu', format_trans e e'⟩
  noFormats := by
    intro k n u hu
    obtain ⟨t, ht, e'⟩ := h'.noFormats k n u hu
    obtain ⟨s, hs, e⟩ := h.noFormats k n t ht
    exact ⟨s, hs, format_trans e e'⟩
  fonts := by
    intro n f hf
    obtain ⟨g, hg, e1, e2⟩ := h.fonts n f hf
    obtain ⟨k, hk, e3, e4⟩ := h'.fonts n g hg
    exact ⟨k, hk, e3.trans e1, e4.trans e2⟩
  noFonts := fun n hn => h'.noFonts n (h.noFonts n hn)

theorem flat_trans {a b c : Style.SBook} (h : FlatStyles a b) (h' : FlatStyles b c) : FlatStyles a c where
  styles := by
    intro k n s hs hu
    obtain ⟨t, ht, e⟩ := h.styles k n s hs hu
    obtain ⟨u, hu', e'⟩ := h'.styles k n t ht (by rw [e.use]; exact hu)
    exact ⟨u, hu', ⟨e'.name.trans e.name, e'.origin, e'.use.trans e.use, e'.attr.trans e.attr, e'.main.trans e.main,
      e'.para.trans e.para, e'.text.trans e.text, e'.maps.trans e.maps,
      fun hp => (e'.tabs (by show t.body.para ≠ []; rw [e.para]; exact hp)).trans (e.tabs hp)⟩⟩
  noStyles := by
    intro k n u hu hd
    obtain ⟨t, ht, e'⟩ := h'.noStyles k n u hu hd
    obtain ⟨s, hs, e⟩ := h.noStyles k n t ht (by
      have := e'.use
      intro hc
      exact hd (this.trans hc))
    exact ⟨s, hs, ⟨e'.name.trans e.name, e'.origin, e'.use.trans e.use, e'.attr.trans e.attr, e'.main.trans e.main,
      e'.para.trans e.para, e'.text.trans e.text, e'.maps.trans e.maps,
      fun hp => (e'.tabs (by show t.body.para ≠ []; rw [e.para]; exact hp)).trans (e.tabs hp)⟩⟩
  formats := by
    intro k n s hs
    obtain ⟨t, ht, e⟩ := h.formats k n s hs
    obtain ⟨u, hu', e'⟩ := h'.formats k n t ht
    exact ⟨u, hu', ⟨e'.name.trans e.name, e'.origin,
      fun hu => (e'.use (by show t.body.use ≠ _; rw [e.use hu]; exact hu)).trans (e.use hu),
      e'.attr.trans e.attr, e'.text.trans e.text, e'.maps.trans e.maps, e'.parts.trans e.parts⟩⟩
  noFormats := by
    intro k n u hu
    obtain ⟨t, ht, e'⟩ := h'.noFormats k n u hu
    obtain ⟨s, hs, e⟩ := h.noFormats k n t ht
    exact ⟨s, hs, ⟨e'.name.trans e.name, e'.origin,
      fun hu => (e'.use (by show t.body.use ≠ _; rw [e.use hu]; exact hu)).trans (e.use hu),
      e'.attr.trans e.attr, e'.text.trans e.text, e'.maps.trans e.maps, e'.parts.trans e.parts⟩⟩
  fonts := by
    intro n
    rw [h'.fonts, h.fonts, Option.filter_filter]
    simp

theorem package_shuffled {a a' b : Style.SBook} (hs : Shuffled a' a) (ha : Style.BookOk a) (h : PackageStyles a' b) :
    PackageStyles a b := by
  obtain ⟨e1, e2, _, e4⟩ := shuffled_get a' a hs ha
  refine ⟨?_, ?_, ?_, ?_, ?_, ?_⟩
  · intro k n s; rw [← e1]; exact h.styles k n s
  · intro k n t; rw [← e1]; exact h.noStyles k n t
  · intro k n s; rw [← e2]; exact h.formats k n s
  · intro k n t; rw [← e2]; exact h.noFormats k n t
  · intro n f; rw [← e4]; exact h.fonts n f
  · intro n; rw [← e4]; exact h.noFonts n

theorem flat_shuffled {a a' b : Style.SBook} (hs : Shuffled a' a) (ha : Style.BookOk a) (h : FlatStyles a' b) :
    FlatStyles a b := by
  obtain ⟨e1, e2, _, e4⟩ := shuffled_get a' a hs ha
  refine ⟨?_, ?_, ?_, ?_, ?_⟩
  · intro k n s; rw [← e1]; exact h.styles k n s
  · intro k n t; rw [← e1]; exact h.noStyles k n t
  · intro k n s; rw [← e2]; exact h.formats k n s
  · intro k n t; rw [← e2]; exact h.noFormats k n t
  · intro n; rw [← e4]; exact h.fonts n

/-! ## What was loaded can be saved -/

theorem lasting_good {fl : Floats} {lb : Bool} {s : Source} (h : Lasting fl lb s) : Good fl lb s :=
  { h.toGoodParts with
    sheets := fun q hq => ⟨(h.sheets q hq).1, (h.sheets q hq).2.1, (h.sheets q hq).2.2.1⟩
    some := h.some }

/-- What the store of master pages has to be for them to be written. -/
def MasterBody (lb : Bool) (_ : Book.Kind) (m : Master.Master) : Prop :=
  ∀ i, Master.HFOk lb (m.slot i) ∧ Master.Stays (m.slot i)

theorem storeAll_ok (lb : Bool) (l : List (Book.Style Master.Master)) (hl : ∀ p ∈ l, MasterBody lb .masterPage p.body) :
    ∀ b b' : Stores Master.Master, Style.StoreOk (MasterBody lb) b → Master.storeAll l b = .ok b' →
      Style.StoreOk (MasterBody lb) b' := by
  induction l with
  | nil => intro b b' hb h; cases h; exact hb
  | cons p l ih =>
    intro b b' hb h
    rw [Master.storeAll] at h
    cases h1 : Master.addMaster b p with
    | error e => rw [h1] at h; cases h
    | ok b1 =>
      rw [h1] at h
      refine ih (fun q hq => hl q (List.mem_cons_of_mem _ hq)) b1 b' ?_ h
      unfold Master.addMaster at h1
      cases h2 : b.add .masterPage p with
      | error e => rw [h2] at h1; cases h1
      | ok r =>
        obtain ⟨b2, r⟩ := r
        rw [h2] at h1
        cases h1
        exact Style.storeOk_add hb .masterPage p r (hl p List.mem_cons_self) h2

theorem prelude_epilogue (n : Str) (h : n ∈ TableXml.bookPrelude) : n ∉ TableXml.bookEpilogue := by
  have : ∀ n ∈ TableXml.bookPrelude, n ∉ TableXml.bookEpilogue := by decide +kernel
  exact this n h

theorem extra_twice (l : List Node) :
    let k := (l.filter fun t => decide (TableXml.nodeName t ∈ TableXml.bookPrelude))
      ++ (l.filter fun t => decide (TableXml.nodeName t ∈ TableXml.bookEpilogue))
    (k.filter fun t => decide (TableXml.nodeName t ∈ TableXml.bookPrelude))
      ++ (k.filter fun t => decide (TableXml.nodeName t ∈ TableXml.bookEpilogue)) = k := by
  have e1 : ∀ t : Node, (decide (TableXml.nodeName t ∈ TableXml.bookPrelude)
      && decide (TableXml.nodeName t ∈ TableXml.bookEpilogue)) = false := by
    intro t
    by_cases h : TableXml.nodeName t ∈ TableXml.bookPrelude
    · simp [h, prelude_epilogue _ h]
    · simp [h]
  have e2 : ∀ t : Node, (decide (TableXml.nodeName t ∈ TableXml.bookEpilogue)
      && decide (TableXml.nodeName t ∈ TableXml.bookPrelude)) = false := fun t => by rw [Bool.and_comm]; exact e1 t
  have e3 : l.filter (fun _ => false) = [] := List.filter_eq_nil_iff.2 fun _ _ => by simp
  simp only [List.filter_append, List.filter_filter, e1, e2, Bool.and_self, e3]
  simp

theorem masters_body {fl : Floats} {lb : Bool} {ops : List Style.Op} {s : Source} {t : Target} (h : Lasting fl lb s)
    (hx : Exact ops s t) : Style.StoreOk (MasterBody lb) t.masters := by
  refine storeAll_ok lb _ ?_ {} t.masters (Style.storeOk_nil _) hx.masters
  intro p hp
  obtain ⟨q, hq, rfl⟩ := List.mem_map.1 hp
  have := Master.master_closed lb q (h.masters q hq) (h.stays q hq)
  exact fun i => ⟨this.1 i, this.2 i⟩

/-- Saving and loading gives a workbook that lasts as well. -/
theorem lasting_closed {fl : Floats} {lb : Bool} {ie : Bool} {defStyle : ValueType → Option String} {ops : List Style.Op}
    {s s' : Source} {t : Target} (h : Lasting fl lb s)
    (hr : TableXml.Rounds (TableXml.absOpts id defStyle ⟨ie, false⟩) s.sheets t.body.sheets) (hx : Exact ops s t)
    (hb : Back ie defStyle s t) (hk : Style.BookOk t.styles) (hc : t.styles.count ≤ s.styles.count)
    (ho : Reopened t s') : Lasting fl lb s' := by
  have hsh := TableXml.still_first fl defStyle lb ie hr h.sheets
  have hv : s'.validations = [] := by
    have h1 := hx.valid
    rw [h.noRules] at h1
    have h2 : t.body.valid = {} := (Except.ok.inj h1).symm
    have := ho.validations
    rw [h2] at this
    exact List.perm_nil.1 this
  have hm := masters_body h hx
  have hmem : ∀ q ∈ s'.masters, ∃ e ∈ t.masters.store .masterPage, e.2 = q := by
    intro q hq
    exact List.mem_map.1 (ho.masters.mem_iff.1 hq)
  have hextra : ∀ x ∈ t.body.extra, x ∈ s.extra := by
    intro x hx
    rw [hb.extra] at hx
    rcases List.mem_append.1 hx with hx | hx
    · exact (List.mem_filter.1 hx).1
    · exact (List.mem_filter.1 hx).1
  refine { ns := by rw [ho.ns]; exact hx.ns, metadata := by rw [ho.metadata]; exact meta_kept h.metadata hb.metadata,
           config := by rw [ho.config, hb.config]; exact Config.goodConfig_drop h.config,
           scripts := by rw [ho.scripts, hb.scripts], styles := shuffled_ok _ _ ho.styles hk,
           styleCount := by rw [shuffled_count _ _ ho.styles]; exact Nat.lt_of_le_of_lt hc h.styleCount,
           masters := ?_, masterNames := ?_, masterOnce := ?_, masterKeeps := ?_, body := ?_, noRules := hv, stays := ?_,
           sheets := ?_, some := ?_ }
  · intro q hq i
    obtain ⟨e, he, rfl⟩ := hmem q hq
    exact (hm.body .masterPage e he i).1
  · intro q hq
    obtain ⟨e, he, rfl⟩ := hmem q hq
    exact (hm.key .masterPage e he).2
  · have h1 := (ho.masters.map (·.name)).nodup_iff
    rw [h1, List.map_map]
    have h2 : (t.masters.store .masterPage).map ((fun q : Book.Style Master.Master => q.name) ∘ fun e => e.2)
        = (t.masters.store .masterPage).map Prod.fst :=
      List.map_congr_left fun e he => ((hm.key .masterPage e he).1).symm
    rw [h2]
    exact hm.map .masterPage
  · intro q hq i
    obtain ⟨e, he, rfl⟩ := hmem q hq
    exact (hm.body .masterPage e he i).2.1
  · rw [hv]
    refine ⟨?_, ?_, (by intro v hv; cases hv), by simp, by decide⟩
    · rcases h.body.flat with h1 | h1
      · exact .inl h1
      · refine .inr ⟨?_, rfl⟩
        rw [ho.extra, hb.extra, h1.1]
        rfl
    · intro x hx
      rw [ho.extra] at hx
      exact h.body.extra x (hextra x hx)
  · intro q hq i
    obtain ⟨e, he, rfl⟩ := hmem q hq
    exact (hm.body .masterPage e he i).2
  · rw [ho.sheets]
    exact hsh.2
  · rw [ho.sheets]
    intro hc
    have := hsh.1
    rw [hc] at this
    cases hs : s.sheets with
    | nil => exact h.some hs
    | cons p l => rw [hs] at this; cases this

theorem back_first {fl : Floats} {lb : Bool} {ie : Bool} {defStyle : ValueType → Option String} {ops : List Style.Op}
    {s : Source} {t : Target} (h : Lasting fl lb s)
    (hr : TableXml.Rounds (TableXml.absOpts id defStyle ⟨ie, false⟩) s.sheets t.body.sheets) (hx : Exact ops s t)
    (hb : Back ie defStyle s t) : StillBack ie defStyle s t where
  version := hb.version
  metadata := hb.metadata
  config := hb.config
  scripts := hb.scripts
  pages := hb.pages
  masters := hb.masters
  noMasters := hb.noMasters
  sheets := (TableXml.still_first fl defStyle lb ie hr h.sheets).1
  extra := hb.extra
  noRules := by
    intro n
    have h1 := hx.valid
    rw [h.noRules] at h1
    have h2 : t.body.valid = {} := (Except.ok.inj h1).symm
    rw [h2]
    rfl

theorem back_step {fl : Floats} {lb : Bool} {ie : Bool} {defStyle : ValueType → Option String} {ops : List Style.Op}
    {s s' : Source} {t t' : Target} (h : Lasting fl lb s) (h' : Lasting fl lb s') (hs : StillBack ie defStyle s t)
    (hk : Style.BookOk t.styles) (hd : Style.StoreOk (MasterBody lb) t.masters) (ho : Reopened t s')
    (hr : TableXml.Rounds (TableXml.absOpts id defStyle ⟨ie, false⟩) s'.sheets t'.body.sheets) (hx : Exact ops s' t')
    (hb : Back ie defStyle s' t') : StillBack ie defStyle s t' where
  version := by rw [hb.version, ho.ns, hs.version]
  metadata := meta_trans hs.metadata (by rw [← ho.metadata]; exact hb.metadata)
  config := by rw [hb.config, ho.config, hs.config, Config.dropAll_twice]
  scripts := hb.scripts
  pages := by
    intro n
    rw [hb.pages, (shuffled_get _ _ ho.styles hk).2.2.1, hs.pages]
  masters := by
    intro q hq
    obtain ⟨b, h1, h2⟩ := hs.masters q hq
    have hm : (⟨q.name, b⟩ : Book.Style Master.Master) ∈ s'.masters :=
      ho.masters.mem_iff.2 (List.mem_map.2 ⟨_, HMap.get?_mem _ _ _ h1, rfl⟩)
    obtain ⟨b', h3, h4⟩ := hb.masters _ hm
    exact ⟨b', h3, Master.master_trans _ _ _ h2 h4⟩
  noMasters := by
    intro n hn
    refine hb.noMasters n ?_
    intro hc
    obtain ⟨q, hq, rfl⟩ := List.mem_map.1 hc
    obtain ⟨e, he, rfl⟩ := List.mem_map.1 (ho.masters.mem_iff.1 hq)
    have h1 := hs.noMasters _ hn
    have h2 := HMap.get?_of_mem _ (hd.map .masterPage) e.1 e.2 he
    rw [(hd.key .masterPage e he).1] at h2
    unfold Stores.get? at h1
    rw [h1] at h2
    cases h2
  sheets := by
    rw [ho.sheets] at hr
    have h2 := h'.sheets
    rw [ho.sheets] at h2
    exact TableXml.still_sheets fl defStyle lb ie hs.sheets h.sheets h2 hr
  extra := by
    rw [hb.extra, ho.extra, hs.extra]
    exact extra_twice s.extra
  noRules := (back_first h' hr hx hb).noRules

/-! ## C95 -/

/-- What was loaded, with the entries of the maps in the order of the model. -/
def reopen (t : Target) : Source where
  ns := t.ns
  metadata := t.metadata
  config := t.config
  scripts := t.scripts.scripts
  listeners := t.scripts.listeners.map (·.2)
  styles := t.styles
  masters := (t.masters.store .masterPage).map (·.2)
  extra := t.body.extra
  validations := (t.body.valid.store .validation).map (·.2)
  sheets := t.body.sheets

theorem reopen_spec (t : Target) : Reopened t (reopen t) :=
  ⟨rfl, rfl, rfl, rfl, .refl _, ⟨fun _ => .refl _, fun _ => .refl _, fun _ => .refl _, .refl _⟩, .refl _, rfl, .refl _, rfl⟩

variable {e : Env}

/-- What holds after each time. -/
structure Live (e : Env) (lb : Bool) (defStyle : ValueType → Option String) (R : Style.SBook → Style.SBook → Prop)
    (s : Source) (t : Target) : Prop where
  still : StillBack e.opts.ignoreEmpty defStyle s t
  rel : R s.styles t.styles
  ok : Style.BookOk t.styles
  masters : Style.StoreOk (MasterBody lb) t.masters
  next : ∀ s', Reopened t s' → Lasting e.fl lb s'

theorem package_live (hm : e.ints.max = Refs.Spec.maxU32) (ho : e.opts.useRepeat = false)
    (defStyle : ValueType → Option String) (s : Source) (h : Lasting e.fl false s) :
    ∃ z t, writePackage e.fl defStyle s = some z ∧ readPackage e z = .ok t ∧ Live e false defStyle PackageStyles s t
      ∧ (∀ p, p ≠ Part.flat → ∀ k u, Ns.stored p s.ns k = some u → ¬ Ns.own p k → Ns.stored p t.ns k = some u)
      ∧ ∀ s0 t0, Lasting e.fl false s0 → Live e false defStyle PackageStyles s0 t0 → Reopened t0 s →
        Live e false defStyle PackageStyles s0 t := by
  obtain ⟨z, t, h1, h2, h3, h4, h5, h6, h7⟩ := package_exact hm ho defStyle s (lasting_good h)
  obtain ⟨fl, ints, ie, ur⟩ := e
  simp only at ho
  subst ho
  obtain ⟨hk, hc⟩ := Style.package_closed _ _ h.styles h4.styles
  have hn : ∀ s', Reopened t s' → Lasting fl false s' := fun s' hr => lasting_closed h h3 h4 h5 hk hc hr
  refine ⟨z, t, h1, h2, ⟨back_first h h3 h4 h5, h6, hk, masters_body h h4, hn⟩, h7, ?_⟩
  intro s0 t0 hl0 hl hr
  exact ⟨back_step hl0 h hl.still hl.ok hl.masters hr h3 h4 h5,
    package_trans hl.rel (package_shuffled hr.styles hl.ok h6), hk, masters_body h h4, hn⟩

/-- **C95 (partial).** A workbook that lasts is saved as a package and loaded again, any number of times and with the
maps in any order: it is always possible, and after any number of times the workbook still has all its parts.  The
metadata, the configuration, the styles, formats, page layouts and fonts, the master pages, the foreign elements, the
version and the prefixes of foreign namespaces are those of the beginning, as C78 says of one time, and the sheets are
as `TableXml.StillSame` says.

Missing (`_partial`): the limits of `Lasting`; the counterexamples show what goes wrong without them. -/
theorem C95_package_partial (hm : e.ints.max = Refs.Spec.maxU32) (ho : e.opts.useRepeat = false)
    (defStyle : ValueType → Option String) (s : Source) (h : Lasting e.fl false s) :
    (∀ n, ∃ t, Cycles (writePackage e.fl defStyle) (readPackage e) (n + 1) s t)
      ∧ ∀ n t, Cycles (writePackage e.fl defStyle) (readPackage e) n s t →
        StillBack e.opts.ignoreEmpty defStyle s t ∧ PackageStyles s.styles t.styles
        ∧ (∀ p, p ≠ Part.flat → ∀ k u, Ns.stored p s.ns k = some u → ¬ Ns.own p k → Ns.stored p t.ns k = some u)
        ∧ ∀ s', Reopened t s' → ∃ z t', writePackage e.fl defStyle s' = some z ∧ readPackage e z = .ok t' := by
  have key : ∀ n s t, Cycles (writePackage e.fl defStyle) (readPackage e) n s t → Lasting e.fl false s →
      Live e false defStyle PackageStyles s t
      ∧ ∀ p, p ≠ Part.flat → ∀ k u, Ns.stored p s.ns k = some u → ¬ Ns.own p k → Ns.stored p t.ns k = some u := by
    intro n s t hc
    induction hc with
    | once h1 h2 =>
      intro hl
      obtain ⟨z', t', g1, g2, g3, g4, _⟩ := package_live hm ho defStyle _ hl
      rw [h1] at g1
      cases g1
      rw [h2] at g2
      cases g2
      exact ⟨g3, g4⟩
    | again _ hr h1 h2 ih =>
      intro hl
      obtain ⟨i1, i2⟩ := ih hl
      obtain ⟨z', t', g1, g2, _, g4, g5⟩ := package_live hm ho defStyle _ (i1.next _ hr)
      rw [h1] at g1
      cases g1
      rw [h2] at g2
      cases g2
      exact ⟨g5 _ _ hl i1 hr, fun p hp k u hk hw => g4 p hp k u (by rw [hr.ns]; exact i2 p hp k u hk hw) hw⟩
  refine ⟨?_, ?_⟩
  · intro n
    induction n with
    | zero =>
      obtain ⟨z, t, h1, h2, _⟩ := package_live hm ho defStyle s h
      exact ⟨t, .once h1 h2⟩
    | succ n ih =>
      obtain ⟨t, ht⟩ := ih
      obtain ⟨z', t', h1, h2, _⟩ := package_live hm ho defStyle _ ((key _ _ _ ht h).1.next _ (reopen_spec t))
      exact ⟨t', .again ht (reopen_spec t) h1 h2⟩
  · intro n t ht
    obtain ⟨k1, k2⟩ := key n s t ht h
    refine ⟨k1.still, k1.rel, k2, ?_⟩
    intro s' hr
    obtain ⟨z', t', h1, h2, _⟩ := package_live hm ho defStyle _ (k1.next _ hr)
    exact ⟨z', t', h1, h2⟩

theorem flat_live (hm : e.ints.max = Refs.Spec.maxU32) (ho : e.opts.useRepeat = false)
    (defStyle : ValueType → Option String) (s : Source) (h : Lasting e.fl true s) :
    ∃ z t, writeFlat e.fl defStyle s = some z ∧ readFlat e z = .ok t ∧ Live e true defStyle FlatStyles s t
      ∧ ∀ s0 t0, Lasting e.fl true s0 → Live e true defStyle FlatStyles s0 t0 → Reopened t0 s →
        Live e true defStyle FlatStyles s0 t := by
  obtain ⟨z, t, h1, h2, h3, h4, h5, h6⟩ := flat_exact hm ho defStyle s (lasting_good h)
  obtain ⟨fl, ints, ie, ur⟩ := e
  simp only at ho
  subst ho
  obtain ⟨hk, hc⟩ := Style.flat_closed true _ _ (Style.convert_ok _ h.styles) h4.styles
  rw [Style.convert_count] at hc
  have hn : ∀ s', Reopened t s' → Lasting fl true s' := fun s' hr => lasting_closed h h3 h4 h5 hk hc hr
  refine ⟨z, t, h1, h2, ⟨back_first h h3 h4 h5, h6, hk, masters_body h h4, hn⟩, ?_⟩
  intro s0 t0 hl0 hl hr
  exact ⟨back_step hl0 h hl.still hl.ok hl.masters hr h3 h4 h5,
    flat_trans hl.rel (flat_shuffled hr.styles hl.ok h6), hk, masters_body h h4, hn⟩

/-- **C95 (partial)**, for flat files. -/
theorem C95_flat_partial (hm : e.ints.max = Refs.Spec.maxU32) (ho : e.opts.useRepeat = false)
    (defStyle : ValueType → Option String) (s : Source) (h : Lasting e.fl true s) :
    (∀ n, ∃ t, Cycles (writeFlat e.fl defStyle) (readFlat e) (n + 1) s t)
      ∧ ∀ n t, Cycles (writeFlat e.fl defStyle) (readFlat e) n s t →
        StillBack e.opts.ignoreEmpty defStyle s t ∧ FlatStyles s.styles t.styles
        ∧ ∀ s', Reopened t s' → ∃ z t', writeFlat e.fl defStyle s' = some z ∧ readFlat e z = .ok t' := by
  have key : ∀ n s t, Cycles (writeFlat e.fl defStyle) (readFlat e) n s t → Lasting e.fl true s →
      Live e true defStyle FlatStyles s t := by
    intro n s t hc
    induction hc with
    | once h1 h2 =>
      intro hl
      obtain ⟨z', t', g1, g2, g3, _⟩ := flat_live hm ho defStyle _ hl
      rw [h1] at g1
      cases g1
      rw [h2] at g2
      cases g2
      exact g3
    | again _ hr h1 h2 ih =>
      intro hl
      have i1 := ih hl
      obtain ⟨z', t', g1, g2, _, g5⟩ := flat_live hm ho defStyle _ (i1.next _ hr)
      rw [h1] at g1
      cases g1
      rw [h2] at g2
      cases g2
      exact g5 _ _ hl i1 hr
  refine ⟨?_, ?_⟩
  · intro n
    induction n with
    | zero =>
      obtain ⟨z, t, h1, h2, _⟩ := flat_live hm ho defStyle s h
      exact ⟨t, .once h1 h2⟩
    | succ n ih =>
      obtain ⟨t, ht⟩ := ih
      obtain ⟨z', t', h1, h2, _⟩ := flat_live hm ho defStyle _ ((key _ _ _ ht h).next _ (reopen_spec t))
      exact ⟨t', .again ht (reopen_spec t) h1 h2⟩
  · intro n t ht
    have k1 := key n s t ht h
    refine ⟨k1.still, k1.rel, ?_⟩
    intro s' hr
    obtain ⟨z', t', h1, h2, _⟩ := flat_live hm ho defStyle _ (k1.next _ hr)
    exact ⟨z', t', h1, h2⟩

end Verif.Whole
