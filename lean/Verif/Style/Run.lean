import Verif.Style.Docs
import Verif.Book.NameProps
import Verif.Codec.CellRead
import Verif.Refs.Props

/-!
# What is read of a written style
-/

set_option autoImplicit false

namespace Verif.Style

open Xml Xml.Spec Codec Book Refs.Spec

/-! ## Running -/

theorem run_append (m : Refs.Ints) (o : Origin) (a : List Event) : ∀ (st : State) (b : List Event),
    run m o st (a ++ b) = (run m o st a).bind fun st => run m o st b := by
  induction a with
  | nil => intro st b; rfl
  | cons e a ih =>
    intro st b
    rw [List.cons_append, run, run]
    cases step m o st e with
    | error e => rfl
    | ok st => exact ih st b

theorem run_ok (m : Refs.Ints) (o : Origin) (st st1 : State) (a b : List Event) (h : run m o st a = .ok st1) :
    run m o st (a ++ b) = run m o st1 b := by
  rw [run_append, h]; rfl

theorem run_cons_ok (m : Refs.Ints) (o : Origin) (st st1 : State) (e : Event) (b : List Event)
    (h : step m o st e = .ok st1) : run m o st (e :: b) = run m o st1 b := by
  rw [run, h]

/-- In this mode texts do not matter. -/
def Mode.deaf : Mode → Bool
  | .part _ _ _ _ _ _ .text _ => false
  | .part _ _ _ _ _ _ .number _ => false
  | _ => true

theorem onText_deaf (st : State) (h : st.mode.deaf = true) (s : Str) : onText st s = st := by
  obtain ⟨md, bk⟩ := st
  cases md with
  | part sc tag k n f pt hw p => cases hw <;> first | (cases h; done) | rfl
  | _ => rfl

theorem run_nl (m : Refs.Ints) (o : Origin) (st : State) (h : st.mode.deaf = true) (lb : Bool) (b : List Event) :
    run m o st (nlEv lb ++ b) = run m o st b := by
  cases lb with
  | false => rfl
  | true =>
    show run m o st (.text ['\n'] :: b) = _
    rw [run]
    show run m o (onText st ['\n']) b = _
    rw [onText_deaf st h]

theorem run_nl' (m : Refs.Ints) (o : Origin) (st : State) (h : st.mode.deaf = true) (lb : Bool) :
    run m o st (nlEv lb) = .ok st := by
  have := run_nl m o st h lb []
  rw [List.append_nil] at this
  exact this

/-- After the end of an element. -/
theorem run_done (m : Refs.Ints) (o : Origin) (lb : Bool) (md : Mode) (h : md.deaf = true) (x : Except Fault SBook) :
    (match x.map (fun bk => (⟨md, bk⟩ : State)) with
      | .error e => Except.error e
      | .ok st => run m o st (nlEv lb)) = x.map fun bk => ⟨md, bk⟩ := by
  cases x with
  | error e => rfl
  | ok bk => exact run_nl' m o _ h lb

/-! ## Attributes -/

theorem rawAttrs_cons (a : Bool × Str × Str) (as : List (Bool × Str × Str)) :
    rawAttrs (a :: as) = (a.2.1, rawVal a) :: rawAttrs as := rfl

theorem copyAttrs_raw (as : List (Bool × Str × Str)) (h : AttrsOk as) : ∀ m,
    copyAttrs m (rawAttrs as) = .ok (m ++ as.map (·.2)) := by
  induction as with
  | nil => intro m; simp [rawAttrs, copyAttrs]
  | cons a as ih =>
    intro m
    rw [rawAttrs_cons, copyAttrs, unescape_rawVal a (h a List.mem_cons_self).2]
    simp only
    rw [ih (fun b hb => h b (List.mem_cons_of_mem _ hb))]
    simp

theorem copyAttrs_esc (mm : Attrs) (h : KeysOk mm) (m : Attrs) : copyAttrs m (rawAttrs (escA mm)) = .ok (m ++ mm) := by
  rw [copyAttrs_raw _ (escA_ok mm h), escA_snd]

/-- No attribute `style:name`. -/
def NoName (m : Attrs) : Prop := ∀ a ∈ m, a.1 ≠ aName

theorem copyStyleAttrs_esc (as : List (Bool × Str × Str)) (h : AttrsOk as) (hn : ∀ a ∈ as, a.2.1 ≠ aName) : ∀ m n,
    copyStyleAttrs m n (rawAttrs as) = .ok (m ++ as.map (·.2), n) := by
  induction as with
  | nil => intro m n; simp [rawAttrs, copyStyleAttrs]
  | cons a as ih =>
    intro m n
    rw [rawAttrs_cons, copyStyleAttrs, unescape_rawVal a (h a List.mem_cons_self).2]
    simp only
    rw [if_neg (hn a List.mem_cons_self), ih (fun b hb => h b (List.mem_cons_of_mem _ hb))
      (fun b hb => hn b (List.mem_cons_of_mem _ hb))]
    simp

theorem copyStyle_named (n : Str) (as : List (Bool × Str × Str)) (h : AttrsOk as) (hn : ∀ a ∈ as, a.2.1 ≠ aName) :
    copyStyleAttr (rawAttrs ((true, aName, n) :: as)) = .ok (as.map (·.2), n) := by
  unfold copyStyleAttr
  show copyStyleAttrs [] [] ((aName, escape n) :: rawAttrs as) = _
  rw [copyStyleAttrs, unescape_escape]
  simp only [if_true]
  rw [copyStyleAttrs_esc as h hn]
  simp

theorem copyStyle_unnamed (as : List (Bool × Str × Str)) (h : AttrsOk as) (hn : ∀ a ∈ as, a.2.1 ≠ aName) :
    copyStyleAttr (rawAttrs as) = .ok (as.map (·.2), []) := by
  unfold copyStyleAttr
  rw [copyStyleAttrs_esc as h hn]
  simp

/-! ## Tags -/

theorem tag_table : propTag tTableProps = some .table := by decide +kernel
theorem tag_row : propTag tRowProps = some .row := by decide +kernel
theorem tag_col : propTag tColProps = some .col := by decide +kernel
theorem tag_cell : propTag tCellProps = some .cell := by decide +kernel
theorem tag_para : propTag tParaProps = some .para := by decide +kernel
theorem tag_text : propTag tTextProps = some .text := by decide +kernel
theorem tag_ruby : propTag tRubyProps = some .ruby := by decide +kernel
theorem tag_graphic : propTag tGraphicProps = some .graphic := by decide +kernel
theorem tag_map : propTag tMap = some .map := by decide +kernel
theorem tag_tabs : propTag tTabStops = some .tabStops := by decide +kernel
theorem tag_tab : propTag tTabStop = some .tabStop := by decide +kernel

/-! ## What is kept -/

/-- An option of a list as it is read: the empty list is not written. -/
def keepList {α : Type} : Option (List α) → Option (List α)
  | some [] => none
  | x => x

/-- The families of styles, as listed in the documentation of the crate (src/style/mod.rs). -/
def Spec.styleFamilies : List Kind := [.table, .row, .col, .cell, .paragraph, .text, .ruby, .graphic]

/-- The types of formats of values. -/
def Spec.formatFamilies : List Kind :=
  [.fmtBoolean, .fmtNumber, .fmtPercentage, .fmtCurrency, .fmtText, .fmtDateTime, .fmtTimeDuration]

theorem family_written : ∀ k ∈ Spec.styleFamilies, k ∈ styleKinds := by decide

theorem format_written : ∀ k ∈ Spec.formatFamilies, k ∈ formatKinds := by decide

/-- Only the properties the kind has: the types of the crate allow no others. -/
structure Shape (k : Kind) (b : Body) : Prop where
  kind : k ∈ Spec.styleFamilies
  main : k ∈ [.paragraph, .text] → b.main = []
  para : k ∉ [.cell, .paragraph, .graphic] → b.para = []
  text : k ∉ [.cell, .paragraph, .graphic, .text] → b.text = []
  maps : k ≠ .cell → b.maps = none
  tabs : k ≠ .paragraph → b.tabs = none

/-- A style map that can be read: a base cell must be one that can be written and read, see C35. -/
def MapOk (sm : StyleMap) : Prop := ∀ r, sm.baseCell = some r → GoodRef r ∧ RefU32 r

/-- A style that can be written: the names of attributes are XML names. -/
structure BodyOk (k : Kind) (b : Body) : Prop where
  shape : Shape k b
  attr : KeysOk b.attr
  main : KeysOk b.main
  para : KeysOk b.para
  text : KeysOk b.text
  maps : ∀ l, b.maps = some l → ∀ sm ∈ l, MapOk sm
  tabs : ∀ l, b.tabs = some l → ∀ t ∈ l, KeysOk t

/-- What is read of a style: all of it, with `style:family` as an attribute; but no empty lists of maps and
tab stops, and tab stops only beside other properties of the paragraph. -/
def Body.back (k : Kind) (b : Body) : Body :=
  { b with
    attr := (aFamily, family k) :: ownAttrs b.attr
    maps := keepList b.maps
    tabs := if b.para = [] then none else keepList b.tabs }

/-! ## The content of a style -/

section Style

variable (m : Refs.Ints) (o : Origin) (lb : Bool) (s : Section) (tag : Str) (k : Kind) (name : Str) (bk : SBook)

theorem run_tagDoc (b b1 : Body) (n : Str) (as : List (Bool × Str × Str))
    (h : readProp m k b n (rawAttrs as) = .ok b1) :
    run m o ⟨.style s tag k name b, bk⟩ (docEv lb (tagDoc n as)) = .ok ⟨.style s tag k name b1, bk⟩ := by
  show run m o _ (.empty n (rawAttrs as) :: nlEv lb) = _
  rw [run_cons_ok m o _ ⟨.style s tag k name b1, bk⟩ _ _ ?_, run_nl' m o _ rfl]
  show (readProp m k b n (rawAttrs as)).map _ = _
  rw [h]; rfl

theorem run_props (t : Str) (x : Attrs) (f : Attrs → Body)
    (h : ∀ as, readProp m k (f x) t as = (copyAttrs x as).map f) (mm : Attrs) (hm : KeysOk mm) :
    run m o ⟨.style s tag k name (f x), bk⟩ (docsEv lb (propsDoc t mm)) = .ok ⟨.style s tag k name (f (x ++ mm)), bk⟩ := by
  unfold propsDoc
  split
  · rename_i he; subst he; rw [List.append_nil]; rfl
  · rw [docsEv, docsEv, List.append_nil]
    refine run_tagDoc m o lb s tag k name bk _ _ _ _ ?_
    rw [h, copyAttrs_esc mm hm]; rfl

end Style

theorem mkey_cond : mapKey aCondition = some .condition := by decide +kernel
theorem mkey_apply : mapKey aApply = some .apply := by decide +kernel
theorem mkey_base : mapKey aBaseCell = some .baseCell := by decide +kernel

theorem readMap_atts (m : Refs.Ints) (hm : m.max = maxU32) (sm : StyleMap) (h : MapOk sm) :
    readMap m {} (rawAttrs (mapAtts sm)) = .ok sm := by
  obtain ⟨c, a, b⟩ := sm
  cases b with
  | none =>
    show readMap m {} [(aCondition, escape c), (aApply, escape a)] = _
    simp only [readMap, mkey_cond, mkey_apply, unescape_escape]
  | some r =>
    have h := h r rfl
    show readMap m {} [(aCondition, escape c), (aApply, escape a), (aBaseCell, escape (Refs.fmtCellRef r))] = _
    simp only [readMap, mkey_cond, mkey_apply, mkey_base, unescape_escape]
    rw [(Refs.C35_roundtrip_partial m hm _ h.2).2 h.1]

/-- Appending to an option of a list. -/
theorem keepList_some {α : Type} (l : List α) : keepList (some l) = if l = [] then none else some l := by
  cases l <;> simp [keepList]

theorem run_maps (m : Refs.Ints) (hm : m.max = maxU32) (o : Origin) (lb : Bool) (s : Section) (tag name : Str)
    (bk : SBook) (l : List StyleMap) (h : ∀ sm ∈ l, MapOk sm) : ∀ (b : Body),
    run m o ⟨.style s tag .cell name b, bk⟩ (docsEv lb (l.map fun sm => tagDoc tMap (mapAtts sm)))
      = .ok ⟨.style s tag .cell name { b with maps := if l = [] then b.maps else some (b.maps.getD [] ++ l) }, bk⟩ := by
  induction l with
  | nil => intro b; rfl
  | cons sm l ih =>
    intro b
    rw [List.map_cons, docsEv]
    rw [run_ok m o _ _ _ _ (run_tagDoc m o lb s tag .cell name bk b (pushMap b sm) _ _ ?_)]
    · rw [ih (fun sm hs => h sm (List.mem_cons_of_mem _ hs))]
      simp only [pushMap]
      split
      · rename_i hl; subst hl; simp
      · simp
    · unfold readProp
      rw [tag_map]
      simp only
      rw [readMap_atts m hm sm (h sm List.mem_cons_self)]
      rfl

theorem run_tabs (m : Refs.Ints) (o : Origin) (lb : Bool) (s : Section) (tag name : Str)
    (bk : SBook) (l : List Attrs) (h : ∀ t ∈ l, KeysOk t) : ∀ (b : Body),
    run m o ⟨.style s tag .paragraph name b, bk⟩ (docsEv lb (l.map tabDoc))
      = .ok ⟨.style s tag .paragraph name { b with tabs := if l = [] then b.tabs else some (b.tabs.getD [] ++ l) }, bk⟩ := by
  induction l with
  | nil => intro b; rfl
  | cons t l ih =>
    intro b
    rw [List.map_cons, docsEv]
    show run m o _ (docEv lb (tagDoc tTabStop (escA t)) ++ _) = _
    rw [run_ok m o _ _ _ _ (run_tagDoc m o lb s tag .paragraph name bk b (pushTab b t) _ _ ?_)]
    · rw [ih (fun t hs => h t (List.mem_cons_of_mem _ hs))]
      simp only [pushTab]
      split
      · rename_i hl; subst hl; simp
      · simp
    · unfold readProp
      rw [tag_tab]
      simp only
      rw [copyAttrs_esc t (h t List.mem_cons_self)]
      rfl

theorem style_end (tag n : Str) (htag : tag = tStyle ∨ tag = tDefault) (hn : propTag n ≠ none) : n ≠ tag := by
  intro he
  subst he
  apply hn
  rcases htag with rfl | rfl <;> decide +kernel

theorem step_start_style (m : Refs.Ints) (o : Origin) (s : Section) (tag : Str) (k : Kind) (name : Str) (bk : SBook)
    (b : Body) (n : Str) (as : List (Str × Str)) : step m o ⟨.style s tag k name b, bk⟩ (.start n as)
      = (readProp m k b n as).map fun b => ⟨.style s tag k name b, bk⟩ := rfl

theorem step_end_style (m : Refs.Ints) (o : Origin) (s : Section) (tag : Str) (k : Kind) (name : Str) (bk : SBook)
    (b : Body) (n : Str) (h : n ≠ tag) :
    step m o ⟨.style s tag k name b, bk⟩ (.end n) = .ok ⟨.style s tag k name b, bk⟩ := by
  rw [step, onEnd]
  simp only
  rw [if_neg h]

theorem readProp_tabs (m : Refs.Ints) (b : Body) (as : List (Str × Str)) :
    readProp m .paragraph b tTabStops as = .ok b := by
  unfold readProp; rw [tag_tabs]

theorem run_para (m : Refs.Ints) (o : Origin) (lb : Bool) (s : Section) (tag name : Str)
    (htag : tag = tStyle ∨ tag = tDefault) (bk : SBook) (b b0 : Body) (h : BodyOk .paragraph b) (h0 : b0.para = [])
    (h1 : b0.tabs = none) :
    run m o ⟨.style s tag .paragraph name b0, bk⟩ (docsEv lb (paraDoc b))
      = .ok ⟨.style s tag .paragraph name { b0 with
          para := b.para, tabs := if b.para = [] then none else keepList b.tabs }, bk⟩ := by
  unfold paraDoc
  split
  · rename_i he
    rw [he]
    obtain ⟨x1, x2, x3, x4, x5, x6, x7, x8⟩ := b0
    simp only at h0 h1
    subst h0; subst h1
    rfl
  · rename_i he
    have hp : ∀ as, readProp m .paragraph b0 tParaProps as = (copyAttrs b0.para as).map fun a => { b0 with para := a } := by
      intro as; unfold readProp; rw [tag_para]
    have hp' : readProp m .paragraph b0 tParaProps (rawAttrs (escA b.para)) = .ok { b0 with para := b.para } := by
      rw [hp, copyAttrs_esc _ h.para, h0]; rfl
    cases htabs : b.tabs with
    | none =>
      simp only
      rw [docsEv, docsEv, List.append_nil, run_tagDoc m o lb s tag .paragraph name bk b0 _ _ _ hp']
      obtain ⟨x1, x2, x3, x4, x5, x6, x7, x8⟩ := b0
      simp only at h1
      subst h1
      simp [keepList]
    | some ts =>
      simp only
      rw [docsEv, docsEv, List.append_nil, docEv, docsEv, docsEv, List.append_nil, docEv]
      rw [run_cons_ok m o _ ⟨.style s tag .paragraph name { b0 with para := b.para }, bk⟩ _ _
        (by show (readProp m .paragraph b0 tParaProps (rawAttrs (escA b.para))).map _ = _; rw [hp']; rfl)]
      rw [List.cons_append, run_cons_ok m o _ ⟨.style s tag .paragraph name { b0 with para := b.para }, bk⟩ _ _
        (by rw [step_start_style, readProp_tabs]; rfl)]
      rw [List.append_assoc, run_ok m o _ _ _ _ (run_tabs m o lb s tag name bk ts (h.tabs ts htabs) _)]
      rw [List.cons_append, run_cons_ok m o _ _ _ _ (step_end_style m o s tag .paragraph name bk _ tTabStops
          (style_end tag tTabStops htag (by rw [tag_tabs]; simp))), run_nl m o _ rfl,
        run_cons_ok m o _ _ _ _ (step_end_style m o s tag .paragraph name bk _ tParaProps
          (style_end tag tParaProps htag (by rw [tag_para]; simp))), run_nl' m o _ rfl]
      rw [keepList_some, h1]
      simp

theorem append_nil_docs (lb : Bool) (a b : List Doc) : docsEv lb (a ++ b) = docsEv lb a ++ docsEv lb b :=
  docsEv_append lb a b

theorem readProp_eq (m : Refs.Ints) (k : Kind) (n : Str) (t : PropTag) (h : propTag n = some t) (b : Body)
    (as : List (Str × Str)) : readProp m k b n as =
      match k, some t with
      | .table, some .table => (copyAttrs b.main as).map fun a => { b with main := a }
      | .row, some .row => (copyAttrs b.main as).map fun a => { b with main := a }
      | .col, some .col => (copyAttrs b.main as).map fun a => { b with main := a }
      | .cell, some .cell => (copyAttrs b.main as).map fun a => { b with main := a }
      | .cell, some .text => (copyAttrs b.text as).map fun a => { b with text := a }
      | .cell, some .para => (copyAttrs b.para as).map fun a => { b with para := a }
      | .cell, some .map => (readMap m {} as).map fun sm => pushMap b sm
      | .paragraph, some .text => (copyAttrs b.text as).map fun a => { b with text := a }
      | .paragraph, some .para => (copyAttrs b.para as).map fun a => { b with para := a }
      | .paragraph, some .tabStop => (copyAttrs [] as).map fun a => pushTab b a
      | .text, some .text => (copyAttrs b.text as).map fun a => { b with text := a }
      | .ruby, some .ruby => (copyAttrs b.main as).map fun a => { b with main := a }
      | .graphic, some .graphic => (copyAttrs b.main as).map fun a => { b with main := a }
      | .graphic, some .para => (copyAttrs b.para as).map fun a => { b with para := a }
      | .graphic, some .text => (copyAttrs b.text as).map fun a => { b with text := a }
      | _, _ => .ok b := by
  unfold readProp
  rw [h]
  cases k <;> cases t <;> rfl

/-- **The content of a style** is read as it was written. -/
theorem run_kids (m : Refs.Ints) (hm : m.max = maxU32) (o : Origin) (lb : Bool) (s : Section) (tag name : Str) (k : Kind)
    (htag : tag = tStyle ∨ tag = tDefault) (bk : SBook) (b : Body) (h : BodyOk k b) (o' : Origin) (u : Use) (a : Attrs) :
    run m o ⟨.style s tag k name { origin := o', use := u, attr := a }, bk⟩ (docsEv lb (kidDocs k b))
      = .ok ⟨.style s tag k name ⟨o', u, a, b.main, b.para, b.text, keepList b.maps,
          if b.para = [] then none else keepList b.tabs⟩, bk⟩ := by
  have hs := h.shape
  have hmain := h.main
  have hpara := h.para
  have htext := h.text
  obtain ⟨bo, bu, ba, mn, pa, tx, ms, ts⟩ := b
  simp only at hmain hpara htext
  cases k with
  | table =>
    obtain rfl : pa = [] := hs.para (by decide)
    obtain rfl : tx = [] := hs.text (by decide)
    obtain rfl : ms = none := hs.maps (by decide)
    exact run_props m o lb s tag .table name bk tTableProps [] (fun x => ⟨o', u, a, x, [], [], none, none⟩)
      (fun as => readProp_eq m .table tTableProps _ tag_table _ as) mn hmain
  | row =>
    obtain rfl : pa = [] := hs.para (by decide)
    obtain rfl : tx = [] := hs.text (by decide)
    obtain rfl : ms = none := hs.maps (by decide)
    exact run_props m o lb s tag .row name bk tRowProps [] (fun x => ⟨o', u, a, x, [], [], none, none⟩)
      (fun as => readProp_eq m .row tRowProps _ tag_row _ as) mn hmain
  | col =>
    obtain rfl : pa = [] := hs.para (by decide)
    obtain rfl : tx = [] := hs.text (by decide)
    obtain rfl : ms = none := hs.maps (by decide)
    exact run_props m o lb s tag .col name bk tColProps [] (fun x => ⟨o', u, a, x, [], [], none, none⟩)
      (fun as => readProp_eq m .col tColProps _ tag_col _ as) mn hmain
  | ruby =>
    obtain rfl : pa = [] := hs.para (by decide)
    obtain rfl : tx = [] := hs.text (by decide)
    obtain rfl : ms = none := hs.maps (by decide)
    exact run_props m o lb s tag .ruby name bk tRubyProps [] (fun x => ⟨o', u, a, x, [], [], none, none⟩)
      (fun as => readProp_eq m .ruby tRubyProps _ tag_ruby _ as) mn hmain
  | text =>
    obtain rfl : pa = [] := hs.para (by decide)
    obtain rfl : mn = [] := hs.main (by decide)
    obtain rfl : ms = none := hs.maps (by decide)
    exact run_props m o lb s tag .text name bk tTextProps [] (fun x => ⟨o', u, a, [], [], x, none, none⟩)
      (fun as => readProp_eq m .text tTextProps _ tag_text _ as) tx htext
  | graphic =>
    obtain rfl : ms = none := hs.maps (by decide)
    obtain rfl : ts = none := hs.tabs (by decide)
    simp only [kidDocs]
    rw [docsEv_append, docsEv_append, List.append_assoc]
    rw [run_ok m o _ _ _ _ (run_props m o lb s tag .graphic name bk tGraphicProps []
      (fun x => ⟨o', u, a, x, [], [], none, none⟩)
      (fun as => readProp_eq m .graphic tGraphicProps _ tag_graphic _ as) mn hmain)]
    rw [run_ok m o _ _ _ _ (run_props m o lb s tag .graphic name bk tParaProps []
      (fun x => ⟨o', u, a, [] ++ mn, x, [], none, none⟩)
      (fun as => readProp_eq m .graphic tParaProps _ tag_para _ as) pa hpara)]
    rw [run_props m o lb s tag .graphic name bk tTextProps []
      (fun x => ⟨o', u, a, [] ++ mn, [] ++ pa, x, none, none⟩)
      (fun as => readProp_eq m .graphic tTextProps _ tag_text _ as) tx htext]
    simp [keepList]
  | cell =>
    obtain rfl : ts = none := hs.tabs (by decide)
    simp only [kidDocs]
    rw [docsEv_append, docsEv_append, docsEv_append, List.append_assoc, List.append_assoc]
    rw [run_ok m o _ _ _ _ (run_props m o lb s tag .cell name bk tCellProps []
      (fun x => ⟨o', u, a, x, [], [], none, none⟩)
      (fun as => readProp_eq m .cell tCellProps _ tag_cell _ as) mn hmain)]
    rw [run_ok m o _ _ _ _ (run_props m o lb s tag .cell name bk tParaProps []
      (fun x => ⟨o', u, a, [] ++ mn, x, [], none, none⟩)
      (fun as => readProp_eq m .cell tParaProps _ tag_para _ as) pa hpara)]
    rw [run_ok m o _ _ _ _ (run_props m o lb s tag .cell name bk tTextProps []
      (fun x => ⟨o', u, a, [] ++ mn, [] ++ pa, x, none, none⟩)
      (fun as => readProp_eq m .cell tTextProps _ tag_text _ as) tx htext)]
    cases ms with
    | none => simp [keepList, mapsDoc, docsEv, run]
    | some l =>
      simp only [mapsDoc]
      rw [run_maps m hm o lb s tag name bk l (h.maps l rfl), keepList_some]
      simp [keepList]
  | paragraph =>
    obtain rfl : mn = [] := hs.main (by decide)
    obtain rfl : ms = none := hs.maps (by decide)
    simp only [kidDocs]
    rw [docsEv_append]
    rw [run_ok m o _ _ _ _ (run_para m o lb s tag name htag bk _ _ h rfl rfl)]
    rw [run_props m o lb s tag .paragraph name bk tTextProps []
      (fun x => ⟨o', u, a, [], pa, x, none, if pa = [] then none else keepList ts⟩)
      (fun as => readProp_eq m .paragraph tTextProps _ tag_text _ as) tx htext]
    rfl
  | _ => exact absurd hs.kind (by decide)

/-! ## Operations -/

/-- What is added while reading. -/
inductive Op where
  | style (k : Kind) (s : Style Body)
  | format (k : Kind) (s : Style Format)
  | page (s : Style Page)
  | font (f : Font)

def SBook.apply (b : SBook) : Op → Except Fault SBook
  | .style k s => b.addStyle k s
  | .format k s => b.addFormat k s
  | .page s => b.addPage s
  | .font f => .ok (b.addFont f)

def SBook.applyAll : SBook → List Op → Except Fault SBook
  | b, [] => .ok b
  | b, p :: ps => (b.apply p).bind fun b => applyAll b ps

theorem applyAll_append (ps qs : List Op) : ∀ b : SBook,
    b.applyAll (ps ++ qs) = (b.applyAll ps).bind fun b => b.applyAll qs := by
  induction ps with
  | nil => intro b; rfl
  | cons p ps ih =>
    intro b
    rw [List.cons_append, SBook.applyAll, SBook.applyAll]
    cases b.apply p with
    | error e => rfl
    | ok b => exact ih b

/-- Reading the events has the effect of the operations and stays in the mode. -/
def Does (m : Refs.Ints) (o : Origin) (md : Mode) (es : List Event) (ps : List Op) : Prop :=
  ∀ bk, run m o ⟨md, bk⟩ es = (bk.applyAll ps).map fun bk => ⟨md, bk⟩

theorem Does.append {m : Refs.Ints} {o : Origin} {md : Mode} {a b : List Event} {ps qs : List Op}
    (h1 : Does m o md a ps) (h2 : Does m o md b qs) : Does m o md (a ++ b) (ps ++ qs) := by
  intro bk
  rw [run_append, h1 bk, applyAll_append]
  cases bk.applyAll ps with
  | error e => rfl
  | ok bk => exact h2 bk

theorem Does.nil (m : Refs.Ints) (o : Origin) (md : Mode) : Does m o md [] [] := fun _ => rfl

theorem Does.flatMap {α : Type} {m : Refs.Ints} {o : Origin} {md : Mode} (lb : Bool) (l : List α) (f : α → List Doc)
    (g : α → List Op) (h : ∀ a ∈ l, Does m o md (docsEv lb (f a)) (g a)) :
    Does m o md (docsEv lb (l.flatMap f)) (l.flatMap g) := by
  induction l with
  | nil => exact Does.nil m o md
  | cons a l ih =>
    rw [List.flatMap_cons, List.flatMap_cons, docsEv_append]
    exact (h a List.mem_cons_self).append (ih fun b hb => h b (List.mem_cons_of_mem _ hb))

theorem Does.map {α : Type} {m : Refs.Ints} {o : Origin} {md : Mode} (lb : Bool) (l : List α) (f : α → Doc)
    (g : α → Op) (h : ∀ a ∈ l, Does m o md (docEv lb (f a)) [g a]) :
    Does m o md (docsEv lb (l.map f)) (l.map g) := by
  induction l with
  | nil => exact Does.nil m o md
  | cons a l ih =>
    rw [List.map_cons, List.map_cons, docsEv]
    exact (h a List.mem_cons_self).append (ih fun b hb => h b (List.mem_cons_of_mem _ hb))

/-! ## Styles -/

theorem family_read (k : Kind) (h : k ∈ styleKinds) : readFamily (family k) = some k := by
  have : ∀ k ∈ styleKinds, readFamily (family k) = some k := by decide +kernel
  exact this k h

theorem family_plain (k : Kind) : Plain (family k) := by cases k <;> decide +kernel

theorem sect_style : sectTag tStyle = some .style := by decide +kernel
theorem sect_default : sectTag tDefault = some .default := by decide +kernel
theorem sect_page : sectTag tPage = some .page := by decide +kernel
theorem sect_format (k : Kind) (h : k ∈ formatKinds) : sectTag (formatTag k) = some (.format k) := by
  have : ∀ k ∈ formatKinds, sectTag (formatTag k) = some (.format k) := by decide +kernel
  exact this k h

theorem own_name (m : Attrs) : ∀ a ∈ escA (ownAttrs m), a.2.1 ≠ aName := by
  intro a ha
  obtain ⟨b, hb, rfl⟩ := List.mem_map.1 ha
  have := (List.mem_filter.1 hb).2
  intro he
  simp at this
  exact this.1 he

theorem own_keys (m : Attrs) (h : KeysOk m) : KeysOk (ownAttrs m) := fun a ha => h a (List.mem_filter.1 ha).1

theorem name_aName : Name aName := by decide +kernel
theorem name_aFamily : Name aFamily := by decide +kernel
theorem family_ne_name : aFamily ≠ aName := by decide +kernel

theorem attrsOk_cons (a : Bool × Str × Str) (as : List (Bool × Str × Str)) (h : Name a.2.1)
    (hp : a.1 = false → Plain a.2.2) (has : AttrsOk as) : AttrsOk (a :: as) := by
  intro b hb
  rcases List.mem_cons.1 hb with rfl | hb
  · exact ⟨h, hp⟩
  · exact has b hb

theorem attrsOk_nil : AttrsOk [] := by intro a h; cases h

theorem family_atts_ok (k : Kind) (m : Attrs) (h : KeysOk m) : AttrsOk ((false, aFamily, family k) :: escA (ownAttrs m)) :=
  attrsOk_cons _ _ name_aFamily (fun _ => family_plain k) (escA_ok _ (own_keys m h))

theorem styleAtts_ok (k : Kind) (s : Style Body) (h : KeysOk s.body.attr) : AttrsOk (styleAtts k s) := by
  unfold styleAtts
  split
  · exact family_atts_ok k _ h
  · exact attrsOk_cons _ _ name_aName (by intro h; cases h) (family_atts_ok k _ h)

/-- The name under which a style is read. -/
def nameRead (s : Style Body) : Str := if s.body.use = .default then [] else s.name

theorem styleAtts_copy (k : Kind) (s : Style Body) (h : KeysOk s.body.attr) :
    copyStyleAttr (rawAttrs (styleAtts k s)) = .ok ((aFamily, family k) :: ownAttrs s.body.attr, nameRead s) := by
  have hn : ∀ a ∈ (false, aFamily, family k) :: escA (ownAttrs s.body.attr), a.2.1 ≠ aName := by
    intro a ha
    rcases List.mem_cons.1 ha with rfl | ha
    · exact family_ne_name
    · exact own_name _ a ha
  have hs : ((false, aFamily, family k) :: escA (ownAttrs s.body.attr)).map (·.2)
      = (aFamily, family k) :: ownAttrs s.body.attr := by
    rw [List.map_cons, escA_snd]
  unfold styleAtts nameRead
  split
  · rw [List.nil_append, copyStyle_unnamed _ (family_atts_ok k _ h) hn, hs]
  · rw [List.cons_append, List.nil_append, copyStyle_named _ _ (family_atts_ok k _ h) hn, hs]

theorem styleAtts_family (k : Kind) (s : Style Body) : familyOf (rawAttrs (styleAtts k s)) = some (family k) := by
  unfold styleAtts
  split
  · show familyOf ((aFamily, family k) :: _) = _
    rw [familyOf, if_pos rfl]
  · show familyOf ((aName, _) :: (aFamily, family k) :: _) = _
    rw [familyOf, if_neg (Ne.symm family_ne_name), familyOf, if_pos rfl]

/-- The use that is given to a style in a section. -/
def Fits (s : Section) (u : Use) : Prop :=
  match s with
  | .office => u = .named ∨ u = .default
  | .auto => u = .automatic

theorem start_style (o : Origin) (s : Section) (bk : SBook) (k : Kind) (st : Style Body) (hk : k ∈ styleKinds)
    (hu : Fits s st.body.use) (ha : KeysOk st.body.attr) (e : Bool) :
    startInSection o s ⟨.sect s, bk⟩ (styleTag st.body.use) (rawAttrs (styleAtts k st)) e =
      if e then (bk.addStyle k ⟨nameRead st,
          { origin := o, use := st.body.use, attr := (aFamily, family k) :: ownAttrs st.body.attr }⟩).map fun bk => ⟨.sect s, bk⟩
      else .ok ⟨.style s (styleTag st.body.use) k (nameRead st)
          { origin := o, use := st.body.use, attr := (aFamily, family k) :: ownAttrs st.body.attr }, bk⟩ := by
  have key : ∀ u, startStyle o s u ⟨.sect s, bk⟩ (styleTag st.body.use) (rawAttrs (styleAtts k st)) e =
      if e then (bk.addStyle k ⟨nameRead st,
          { origin := o, use := u, attr := (aFamily, family k) :: ownAttrs st.body.attr }⟩).map fun bk => ⟨.sect s, bk⟩
      else .ok ⟨.style s (styleTag st.body.use) k (nameRead st)
          { origin := o, use := u, attr := (aFamily, family k) :: ownAttrs st.body.attr }, bk⟩ := by
    intro u
    unfold startStyle
    rw [styleAtts_family]
    simp only
    rw [family_read k hk]
    simp only
    rw [styleAtts_copy k st ha]
  cases s with
  | office =>
    rcases hu with hu | hu
    · rw [hu] at key ⊢
      rw [show styleTag .named = tStyle from rfl] at key ⊢
      unfold startInSection
      rw [sect_style]
      exact key .named
    · rw [hu] at key ⊢
      rw [show styleTag .default = tDefault from rfl] at key ⊢
      unfold startInSection
      rw [sect_default]
      exact key .default
  | auto =>
    have hu : st.body.use = .automatic := hu
    rw [hu] at key ⊢
    rw [show styleTag .automatic = tStyle from rfl] at key ⊢
    unfold startInSection
    rw [sect_style]
    exact key .automatic

theorem styleTag_cases (u : Use) : styleTag u = tStyle ∨ styleTag u = tDefault := by cases u <;> simp [styleTag]

/-- **A style** that is written is added when it is read. -/
theorem does_style (m : Refs.Ints) (hm : m.max = maxU32) (lb : Bool) (s : Section) (k : Kind)
    (st : Style Body) (hb : BodyOk k st.body) (hu : Fits s st.body.use) :
    Does m st.body.origin (.sect s) (docEv lb (styleDoc k st)) [.style k ⟨nameRead st, st.body.back k⟩] := by
  intro bk
  have hk := family_written k hb.shape.kind
  have happ : bk.applyAll [.style k ⟨nameRead st, st.body.back k⟩] = bk.addStyle k ⟨nameRead st, st.body.back k⟩ := by
    show (bk.addStyle k _).bind (fun b => .ok b) = _
    cases bk.addStyle k ⟨nameRead st, st.body.back k⟩ <;> rfl
  rw [happ]
  unfold styleDoc
  split
  · rename_i he
    have hback : st.body.back k =
        { origin := st.body.origin, use := st.body.use, attr := (aFamily, family k) :: ownAttrs st.body.attr } := by
      have hs := hb.shape
      generalize st.body = b at he hs ⊢
      obtain ⟨bo, bu, ba, mn, pa, tx, ms, ts⟩ := b
      have hmain := hs.main; have hpara := hs.para; have htext := hs.text; have hmaps := hs.maps; have htabs := hs.tabs
      cases k <;> simp [isEmpty] at he <;> simp at hmain hpara htext hmaps htabs <;>
        first
        | (exact absurd hk (by decide))
        | simp_all [Body.back, keepList]
    show run m _ _ (.empty _ _ :: nlEv lb) = _
    rw [run, step, onTag]
    simp only
    rw [start_style st.body.origin s bk k st hk hu hb.attr true, if_pos rfl, ← hback]
    cases bk.addStyle k ⟨nameRead st, st.body.back k⟩ with
    | error e => rfl
    | ok bk1 => exact run_nl' m _ _ rfl lb
  · rw [docEv, run, step, onTag]
    simp only
    rw [start_style st.body.origin s bk k st hk hu hb.attr false, if_neg (by simp)]
    simp only
    rw [run_ok m _ _ _ _ _ (run_kids m hm st.body.origin lb s (styleTag st.body.use) (nameRead st) k
      (styleTag_cases _) bk st.body hb _ _ _)]
    rw [run, step, onEnd]
    simp only [if_true]
    exact run_done m _ lb (.sect s) rfl _

end Verif.Style
