import Verif.Meta.Model
import Verif.Style.FormatProps
import Verif.Codec.TimeProps
import Verif.Codec.CellProps

/-!
# C63: the document metadata survive write and read
-/

set_option autoImplicit false

namespace Verif.Meta

open Xml Xml.Spec Codec Enum Style

/-! ## Running the reader -/

theorem run_append (f : Floats) (es es' : List Event) : ∀ st, run f st (es ++ es')
    = match run f st es with
      | .error x => .error x
      | .ok st => run f st es' := by
  induction es with
  | nil => intro st; rfl
  | cons e es ih =>
    intro st
    rw [List.cons_append, run, run]
    cases step f st e with
    | error x => rfl
    | ok st => exact ih st

/-- The elements `ds` within `office:meta` change the metadata from `m` to `m'`. -/
def Does (f : Floats) (lb : Bool) (m : Metadata) (ds : List Doc) (m' : Metadata) : Prop :=
  run f ⟨.office, m⟩ (docsEv lb ds) = .ok ⟨.office, m'⟩

theorem does_nil (f : Floats) (lb : Bool) (m : Metadata) : Does f lb m [] m := rfl

theorem does_append {f : Floats} {lb : Bool} {m m' m'' : Metadata} {a b : List Doc} (ha : Does f lb m a m')
    (hb : Does f lb m' b m'') : Does f lb m (a ++ b) m'' := by
  unfold Does at *
  rw [docsEv_append, run_append, ha]
  exact hb

theorem run_nl (f : Floats) (lb : Bool) (m : Metadata) : run f ⟨.office, m⟩ (nlEv lb) = .ok ⟨.office, m⟩ := by
  cases lb <;> rfl

/-- The text of a value is collected. -/
theorem run_value (f : Floats) (k : Field) (m : Metadata) (es : List Event) (h : ∀ e ∈ es, isTextEv e = true) :
    ∀ s, run f ⟨.value k s, m⟩ es = .ok ⟨.value k (s ++ es.flatMap evText), m⟩ := by
  induction es with
  | nil => intro s; rw [List.flatMap_nil, List.append_nil]; rfl
  | cons e es ih =>
    intro s
    have ih := ih (fun e he => h e (List.mem_cons_of_mem _ he))
    have he := h e List.mem_cons_self
    cases e with
    | text t => rw [run]; show run f ⟨.value k (s ++ t), m⟩ es = _; rw [ih, List.flatMap_cons, List.append_assoc]; rfl
    | ref n =>
      rw [run]; show run f ⟨.value k (s ++ entity n), m⟩ es = _; rw [ih, List.flatMap_cons, List.append_assoc]; rfl
    | start a b => cases he
    | empty a b => cases he
    | «end» a => cases he

theorem fieldOf_tag (k : Field) : fieldOf k.tag = some k := by cases k <;> decide +kernel

/-- A text element. -/
theorem does_short (f : Floats) (lb esc : Bool) (m m' : Metadata) (k : Field) (s : Str) (h : k.set m s = .ok m') :
    Does f lb m [.short esc k.tag s] m' := by
  unfold Does
  rw [docsEv, docEv, docsEv, List.append_nil, run]
  have h1 : step f ⟨.office, m⟩ (.start k.tag []) = .ok ⟨.value k [], m⟩ := by
    rw [step]; simp only [fieldOf_tag]
  rw [h1]
  show run f ⟨.value k [], m⟩ (textEv esc s ++ .end k.tag :: nlEv lb) = _
  rw [run_append, run_value f k m _ (textEv_text esc s), textEv_flat, List.nil_append]
  show run f ⟨.value k s, m⟩ (.end k.tag :: nlEv lb) = _
  rw [run]
  have h2 : step f ⟨.value k s, m⟩ (.end k.tag) = .ok ⟨.office, m'⟩ := by
    rw [step]; simp only [if_true, h]; rfl
  rw [h2]
  exact run_nl f lb m'

/-- A text that is left out if it is empty. -/
theorem does_text (f : Floats) (lb : Bool) (m m' : Metadata) (k : Field) (s : Str) (h : k.set m s = .ok m')
    (h0 : s = [] → m' = m) : Does f lb m (textDoc k.tag s) m' := by
  unfold textDoc
  split
  · rename_i hs; rw [h0 hs]; exact does_nil f lb m
  · exact does_short f lb true m m' k s h

/-- An empty tag changes nothing. -/
theorem does_void (f : Floats) (lb : Bool) (m : Metadata) (v : Bool) (n : Str) (as : List (Bool × Str × Str))
    (t : Option Bool) (e : Bool) : Does f lb m [.void v n as t e] m := by
  unfold Does
  rw [docsEv, docEv, docsEv, List.append_nil, run]
  exact run_nl f lb m

theorem textEv_raw (s : Str) : textEv false s = if s = [] then [] else [.text s] := by
  by_cases h : s = []
  · subst h; rfl
  · rw [if_neg h]; unfold textEv; simp only [Bool.false_eq_true, if_false]; exact events_chars s h

/-! ## What is read of each value -/

namespace Spec

/-- A date of the calendar that can be written with four digits. -/
def DateOk (d : DateTime) : Prop := ValidDateTime d ∧ d.year ≤ 9999

/-- The nanoseconds that are read for a duration: the milliseconds are read as the digits of a fraction (C28). -/
def durationRead (d : Int) : Int := ((d.toNat / 10 ^ 9 * 10 ^ 9 + fracNanos (d.toNat / 10 ^ 6 % 1000) : Nat) : Int)

/-- A duration that is read at all. -/
def DurationOk (d : Int) : Prop := 0 ≤ d ∧ d ≤ maxDuration ∧ durationRead d ≤ maxDuration

/-- A value of the user that is read at all. -/
def ValueOk (f : Floats) : MetaValue → Prop
  | .boolean _ => True
  | .datetime d => DateOk d
  | .float v => FloatOk f v ∧ f.fmt v ≠ []
  | .time d => DurationOk d
  | .string _ => True

/-- Metadata that are read at all. -/
structure Readable (f : Floats) (m : Metadata) : Prop where
  generator : Plain m.generator
  creationDate : ∀ d, m.creationDate = some d → DateOk d
  date : ∀ d, m.date = some d → DateOk d
  printDate : ∀ d, m.printDate = some d → DateOk d
  cycles : m.editingCycles < 2 ^ 32
  duration : 10 ^ 9 ≤ m.editingDuration → DurationOk m.editingDuration
  names : ∀ u ∈ m.userDefined, Plain u.name
  values : ∀ u ∈ m.userDefined, ValueOk f u.value

/-- A text is what follows its last character with a meaning in XML, if anything follows; and only up to there. -/
def stringRead (s : Str) : Str := (lastText none (textEv true s)).getD []

/-- The value that is read. -/
def valueRead : MetaValue → MetaValue
  | .time d => .time (durationRead d)
  | .string s => .string (stringRead s)
  | v => v

/-- The metadata that are read. -/
def metaRead (m : Metadata) : Metadata :=
  { m with
    editingDuration := if m.editingDuration < 10 ^ 9 then 0 else durationRead m.editingDuration
    template := {}, autoReload := {}, hyperlink := {}, statistics := {}
    userDefined := m.userDefined.map fun u => ⟨u.name, valueRead u.value⟩ }

end Spec

open Spec

theorem date_ne (d : DateTime) : fmtDateTime d ≠ [] := by
  unfold fmtDateTime
  intro h
  have := congrArg List.length h
  simp at this

theorem duration_ne (d : Int) : fmtDuration d ≠ [] := by unfold fmtDuration; simp

theorem optDate_fmt (d : DateTime) (h : DateOk d) : optDate (fmtDateTime d) = .ok (some d) := by
  unfold optDate orEmpty
  rw [if_neg (date_ne d)]
  show (dateOf (fmtDateTime d)).map some = _
  unfold dateOf
  rw [C62_datetime_partial d h.1 h.2]
  rfl

theorem duration_fmt (d : Int) (h : DurationOk d) : durationOf (fmtDuration d) = .ok (durationRead d) := by
  obtain ⟨h1, h2, h3⟩ := h
  unfold durationOf
  unfold durationRead at h3 ⊢
  have hd : d = (d.toNat : Int) := (Int.toNat_of_nonneg h1).symm
  have hx := C28_exact d.toNat (by omega)
  rw [← hd] at hx
  rw [hx, if_pos (by exact Int.ofNat_le.1 h3)]

theorem dateDoc_does (f : Floats) (lb : Bool) (m m' : Metadata) (k : Field) (d : Option DateTime)
    (hd : ∀ x, d = some x → DateOk x) (h : ∀ x, d = some x → k.set m (fmtDateTime x) = .ok m') (h0 : d = none → m' = m) :
    Does f lb m (dateDoc k.tag d) m' := by
  cases d with
  | none => rw [h0 rfl]; exact does_nil f lb m
  | some x => exact does_short f lb false m m' k _ (h x rfl)

theorem run_user (f : Floats) (m : Metadata) (u : UserDefined) (es : List Event) (h : ∀ e ∈ es, isTextEv e = true) :
    ∀ s, run f ⟨.user { u with value := .string s } .string, m⟩ es
      = .ok ⟨.user { u with value := .string ((lastText (some s) es).getD []) } .string, m⟩ := by
  induction es with
  | nil => intro s; rfl
  | cons e es ih =>
    intro s
    have ih := ih (fun e he => h e (List.mem_cons_of_mem _ he))
    have he := h e List.mem_cons_self
    cases e with
    | text t => rw [run, lastText]; exact ih t
    | ref n => rw [run, lastText]; exact ih s; intro s h; cases h
    | start a b => cases he
    | empty a b => cases he
    | «end» a => cases he

theorem lastText_getD (es : List Event) : ∀ c, (lastText (some c) es).getD [] = (lastText none es).getD c := by
  induction es with
  | nil => intro c; rfl
  | cons e es ih =>
    intro c
    cases e with
    | text t =>
      rw [lastText, lastText]
      have : ∀ (es : List Event) (t : Str), ∃ x, lastText (some t) es = some x := by
        intro es
        induction es with
        | nil => intro t; exact ⟨t, rfl⟩
        | cons e es ih =>
          intro t
          cases e with
          | text s => rw [lastText]; exact ih s
          | _ => rw [lastText]; exact ih t; intro s h; cases h
      obtain ⟨x, hx⟩ := this es t
      rw [hx]; rfl
    | _ => rw [lastText, lastText]; exact ih c; all_goals (intro s h; cases h)

theorem stringRead_eq (s : Str) : (lastText (some []) (textEv true s)).getD [] = stringRead s := lastText_getD _ _

/-- The attributes of a value of the user. -/
theorem readUser_doc (f : Floats) (u : UserDefined) (hn : Plain u.name) :
    readUser ({}, .string) (rawAttrs ((false, "meta:name".toList, u.name) ::
        optAttr false "meta:value-type".toList u.value.typeName))
      = .ok ({ name := u.name }, match u.value with
          | .boolean _ => .boolean | .datetime _ => .date | .float _ => .float | .time _ => .time | .string _ => .string) := by
  obtain ⟨n, v⟩ := u
  have h1 : attrOf some n = .ok n := by unfold attrOf; rw [unescape_plain n hn]
  have h2 : ∀ as, readUser ({}, .string) (("meta:name".toList, n) :: as) = readUser ({ name := n }, .string) as := by
    intro as; rw [readUser]; simp only [if_true, h1]; rfl
  have hk : ("meta:value-type".toList : Str) ≠ "meta:name".toList := by decide
  have h3 : ∀ t, Plain t → readUser ({ name := n }, .string) [("meta:value-type".toList, t)]
      = .ok ({ name := n }, UType.of t) := by
    intro t ht
    have h1 : attrOf some t = .ok t := by unfold attrOf; rw [unescape_plain t ht]
    rw [readUser]; simp only [if_neg hk, if_true, h1]; rfl
  cases v with
  | string s => exact h2 []
  | boolean b => exact (h2 _).trans (h3 "boolean".toList (by decide))
  | datetime b => exact (h2 _).trans (h3 "date".toList (by decide))
  | float b => exact (h2 _).trans (h3 "float".toList (by decide))
  | time b => exact (h2 _).trans (h3 "time".toList (by decide))

theorem fieldOf_user : fieldOf "meta:user-defined".toList = none := by decide +kernel

/-- A value of the user. -/
theorem does_user (f : Floats) (lb : Bool) (m : Metadata) (u : UserDefined) (hn : Plain u.name) (hv : ValueOk f u.value) :
    Does f lb m [userDoc f u] { m with userDefined := m.userDefined ++ [⟨u.name, valueRead u.value⟩] } := by
  unfold Does
  rw [docsEv, docsEv, List.append_nil, userDoc, docEv, run]
  have h1 : step f ⟨.office, m⟩ (.start "meta:user-defined".toList (rawAttrs ((false, "meta:name".toList, u.name) ::
        optAttr false "meta:value-type".toList u.value.typeName)))
      = .ok ⟨.user { name := u.name } (match u.value with
          | .boolean _ => .boolean | .datetime _ => .date | .float _ => .float | .time _ => .time | .string _ => .string), m⟩ := by
    rw [step]
    simp only [fieldOf_user]
    rw [if_neg (by decide +kernel), if_neg (by decide +kernel), if_neg (by decide +kernel), if_neg (by decide +kernel),
      if_pos trivial, readUser_doc f u hn]
    rfl
  rw [h1]
  have hend : ∀ v ty, run f ⟨.user ⟨u.name, v⟩ ty, m⟩ (.end "meta:user-defined".toList :: nlEv lb)
      = .ok ⟨.office, { m with userDefined := m.userDefined ++ [⟨u.name, v⟩] }⟩ := by
    intro v ty
    rw [run]
    exact run_nl f lb _
  have hraw : ∀ (t : Str) (v : MetaValue) (ty : UType), t ≠ [] → userValue f t ty = .ok v →
      run f ⟨.user { name := u.name } ty, m⟩ (textEv false t ++ .end "meta:user-defined".toList :: nlEv lb)
        = .ok ⟨.office, { m with userDefined := m.userDefined ++ [⟨u.name, v⟩] }⟩ := by
    intro t v ty ht hty
    rw [textEv_raw, if_neg ht, List.singleton_append, run]
    have : step f ⟨.user { name := u.name } ty, m⟩ (.text t) = .ok ⟨.user ⟨u.name, v⟩ ty, m⟩ := by
      show Except.map (fun v => (⟨.user ⟨u.name, v⟩ ty, m⟩ : St)) (userValue f t ty) = _
      rw [hty]; rfl
    rw [this]
    exact hend v ty
  obtain ⟨n, v⟩ := u
  cases v with
  | boolean b =>
    refine hraw _ _ _ ?_ ?_
    · show fmtBool b ≠ []
      cases b <;> decide
    · show userValue f (fmtBool b) .boolean = _
      rw [userValue, C62_bool]; rfl
  | datetime d =>
    refine hraw _ _ _ (date_ne d) ?_
    show userValue f (fmtDateTime d) .date = _
    rw [userValue, dateOf]
    rw [C62_datetime_partial d hv.1 hv.2]; rfl
  | float d =>
    refine hraw _ _ _ hv.2 ?_
    show userValue f (f.fmt d) .float = _
    rw [userValue, hv.1.2]; rfl
  | time d =>
    refine hraw _ _ _ (duration_ne d) ?_
    show userValue f (fmtDuration d) .time = _
    rw [userValue, duration_fmt d hv]; rfl
  | string s =>
    show run f ⟨.user { name := n } .string, m⟩ (textEv true s ++ .end "meta:user-defined".toList :: nlEv lb) = _
    rw [run_append, run_user f m ⟨n, .string []⟩ _ (textEv_text true s) [], stringRead_eq]
    exact hend _ _

theorem does_users (f : Floats) (lb : Bool) (us : List UserDefined) (hn : ∀ u ∈ us, Plain u.name)
    (hv : ∀ u ∈ us, ValueOk f u.value) : ∀ m, Does f lb m (us.map (userDoc f))
      { m with userDefined := m.userDefined ++ us.map fun u => ⟨u.name, valueRead u.value⟩ } := by
  induction us with
  | nil => intro m; rw [List.map_nil, List.map_nil, List.append_nil]; exact does_nil f lb m
  | cons u us ih =>
    intro m
    have h1 := does_user f lb m u (hn u List.mem_cons_self) (hv u List.mem_cons_self)
    have h2 := ih (fun u hu => hn u (List.mem_cons_of_mem _ hu)) (fun u hu => hv u (List.mem_cons_of_mem _ hu))
      { m with userDefined := m.userDefined ++ [⟨u.name, valueRead u.value⟩] }
    have h3 := does_append h1 h2
    simp only [List.append_assoc, List.singleton_append] at h3
    exact h3

theorem second_iff (d : Int) : atLeastSecond d = true ↔ ¬ d < 10 ^ 9 := by
  unfold atLeastSecond
  rw [decide_eq_true_iff]
  constructor
  · intro h hlt
    by_cases hn : 0 ≤ d
    · rw [Int.tdiv_eq_ediv_of_nonneg hn, Int.ediv_eq_zero_of_lt hn (by simpa using hlt)] at h
      exact absurd h (by decide)
    · have h1 : 0 ≤ (-d).tdiv (10 ^ 9) := Int.tdiv_nonneg (by omega) (by decide)
      rw [Int.neg_tdiv] at h1
      omega
  · intro h
    have hn : 0 ≤ d := by have : (0 : Int) ≤ 10 ^ 9 := by decide
                          omega
    rw [Int.tdiv_eq_ediv_of_nonneg hn]
    have : (1 : Int) ≤ d / 10 ^ 9 := by
      rw [Int.le_ediv_iff_mul_le (by decide)]; omega
    omega

theorem cycles_set (m : Metadata) (n : Nat) (h : n < 2 ^ 32) :
    Field.set m (decNat n) .editingCycles = .ok { m with editingCycles := n } := by
  rw [Field.set]
  unfold orEmpty
  rw [if_neg (decNat_ne n)]
  simp only [C62_u32 n h]
  rfl

/-- What is read of all elements. -/
theorem does_all (f : Floats) (lb : Bool) (m : Metadata) (h : Readable f m) : Does f lb {} (metaDocs f m) (metaRead m) := by
  unfold metaDocs
  have e0 : Does f lb {} [.short false "meta:generator".toList m.generator] { generator := m.generator } :=
    does_short f lb false {} _ .generator m.generator rfl
  have e1 := does_append e0 (does_text f lb _ { generator := m.generator, title := m.title } .title m.title rfl
    (by intro h; rw [h]))
  have e2 := does_append e1 (does_text f lb _
    { generator := m.generator, title := m.title, description := m.description } .description m.description rfl
    (by intro h; rw [h]))
  have e3 := does_append e2 (does_text f lb _
    { generator := m.generator, title := m.title, description := m.description, subject := m.subject } .subject m.subject rfl
    (by intro h; rw [h]))
  have e4 := does_append e3 (does_text f lb _
    { generator := m.generator, title := m.title, description := m.description, subject := m.subject, keyword := m.keyword }
    .keyword m.keyword rfl (by intro h; rw [h]))
  have e5 := does_append e4 (does_text f lb _
    { generator := m.generator, title := m.title, description := m.description, subject := m.subject, keyword := m.keyword,
      initialCreator := m.initialCreator }
    .initialCreator m.initialCreator rfl (by intro h; rw [h]))
  have e6 := does_append e5 (does_text f lb _
    { generator := m.generator, title := m.title, description := m.description, subject := m.subject, keyword := m.keyword,
      initialCreator := m.initialCreator, creator := m.creator }
    .creator m.creator rfl (by intro h; rw [h]))
  have e7 := does_append e6 (does_text f lb _
    { generator := m.generator, title := m.title, description := m.description, subject := m.subject, keyword := m.keyword,
      initialCreator := m.initialCreator, creator := m.creator, printedBy := m.printedBy }
    .printedBy m.printedBy rfl (by intro h; rw [h]))
  have e8 := does_append e7 (dateDoc_does f lb _
    { generator := m.generator, title := m.title, description := m.description, subject := m.subject, keyword := m.keyword,
      initialCreator := m.initialCreator, creator := m.creator, printedBy := m.printedBy, creationDate := m.creationDate }
    .creationDate m.creationDate h.creationDate
    (by intro x hx; rw [Field.set, optDate_fmt x (h.creationDate x hx), hx]; rfl) (by intro h; rw [h]))
  have e9 := does_append e8 (dateDoc_does f lb _
    { generator := m.generator, title := m.title, description := m.description, subject := m.subject, keyword := m.keyword,
      initialCreator := m.initialCreator, creator := m.creator, printedBy := m.printedBy, creationDate := m.creationDate,
      date := m.date }
    .date m.date h.date
    (by intro x hx; rw [Field.set, optDate_fmt x (h.date x hx), hx]; rfl) (by intro h; rw [h]))
  have e10 := does_append e9 (dateDoc_does f lb _
    { generator := m.generator, title := m.title, description := m.description, subject := m.subject, keyword := m.keyword,
      initialCreator := m.initialCreator, creator := m.creator, printedBy := m.printedBy, creationDate := m.creationDate,
      date := m.date, printDate := m.printDate }
    .printDate m.printDate h.printDate
    (by intro x hx; rw [Field.set, optDate_fmt x (h.printDate x hx), hx]; rfl) (by intro h; rw [h]))
  have e11 := does_append e10 (does_text f lb _
    { generator := m.generator, title := m.title, description := m.description, subject := m.subject, keyword := m.keyword,
      initialCreator := m.initialCreator, creator := m.creator, printedBy := m.printedBy, creationDate := m.creationDate,
      date := m.date, printDate := m.printDate, language := m.language }
    .language m.language rfl (by intro h; rw [h]))
  have hc : Does f lb
      { generator := m.generator, title := m.title, description := m.description, subject := m.subject,
        keyword := m.keyword, initialCreator := m.initialCreator, creator := m.creator, printedBy := m.printedBy,
        creationDate := m.creationDate, date := m.date, printDate := m.printDate, language := m.language }
      (if 0 < m.editingCycles then [.short false "meta:editing-cycles".toList (decNat m.editingCycles)] else [])
      { generator := m.generator, title := m.title, description := m.description, subject := m.subject,
        keyword := m.keyword, initialCreator := m.initialCreator, creator := m.creator, printedBy := m.printedBy,
        creationDate := m.creationDate, date := m.date, printDate := m.printDate, language := m.language,
        editingCycles := m.editingCycles } := by
    split
    · exact does_short f lb false _ _ .editingCycles _ (cycles_set _ _ h.cycles)
    · rename_i hz
      have : m.editingCycles = 0 := by omega
      rw [this]; exact does_nil f lb _
  have e12 := does_append e11 hc
  have hd : Does f lb
      { generator := m.generator, title := m.title, description := m.description, subject := m.subject,
        keyword := m.keyword, initialCreator := m.initialCreator, creator := m.creator, printedBy := m.printedBy,
        creationDate := m.creationDate, date := m.date, printDate := m.printDate, language := m.language,
        editingCycles := m.editingCycles }
      (if atLeastSecond m.editingDuration then [.short false "meta:editing-duration".toList (fmtDuration m.editingDuration)]
        else [])
      { generator := m.generator, title := m.title, description := m.description, subject := m.subject,
        keyword := m.keyword, initialCreator := m.initialCreator, creator := m.creator, printedBy := m.printedBy,
        creationDate := m.creationDate, date := m.date, printDate := m.printDate, language := m.language,
        editingCycles := m.editingCycles,
        editingDuration := if m.editingDuration < 10 ^ 9 then 0 else durationRead m.editingDuration } := by
    by_cases hs : m.editingDuration < 10 ^ 9
    · rw [if_neg (fun hx => (second_iff _).1 hx hs), if_pos hs]; exact does_nil f lb _
    · rw [if_pos ((second_iff _).2 hs), if_neg hs]
      refine does_short f lb false _ _ .editingDuration _ ?_
      rw [Field.set]
      unfold orEmpty
      rw [if_neg (duration_ne _), duration_fmt _ (h.duration (by omega))]
      rfl
  have e13 := does_append e12 hd
  have ht : ∀ m0, Does f lb m0 (templateDoc m.template) m0 := by
    intro m0; unfold templateDoc; split
    · exact does_nil f lb m0
    · exact does_void f lb m0 _ _ _ _ _
  have hr : ∀ m0, Does f lb m0 (reloadDoc m.autoReload) m0 := by
    intro m0; unfold reloadDoc; split
    · exact does_nil f lb m0
    · exact does_void f lb m0 _ _ _ _ _
  have hh : ∀ m0, Does f lb m0 (hyperlinkDoc m.hyperlink) m0 := by
    intro m0; unfold hyperlinkDoc; split
    · exact does_nil f lb m0
    · exact does_void f lb m0 _ _ _ _ _
  have e14 := does_append (does_append (does_append (does_append e13 (ht _)) (hr _)) (hh _))
    (does_void f lb _ false "meta:document-statistic".toList _ none false :
      Does f lb _ [statisticDoc m.statistics] _)
  exact does_append e14 (does_users f lb m.userDefined h.names h.values _)

/-! ## The document can be written and read -/

theorem optAttr_ok (esc : Bool) (k : Str) (v : Option Str) (hk : Name k) (hv : ∀ s, v = some s → esc = false → Plain s) :
    AttrsOk (optAttr esc k v) := by
  cases v with
  | none => exact attrsOk_nil
  | some s => exact attrsOk_cons _ _ hk (hv s rfl) attrsOk_nil

theorem plain_nat (n : Nat) : Plain (decNat n) := plain_digits (decNat_digits n)

theorem plain_actuate (a : Actuate) : Plain a.text := by cases a <;> decide

theorem plain_show (a : LinkShow) : Plain a.text := by cases a <;> decide

theorem plain_type (a : LinkType) : Plain a.text := by cases a <;> decide

theorem map_plain {α : Type} (g : α → Str) (hg : ∀ a, Plain (g a)) (o : Option α) (esc : Bool) (s : Str)
    (h : o.map g = some s) (_ : esc = false) : Plain s := by
  cases o with
  | none => cases h
  | some a => injection h with h; rw [← h]; exact hg a

theorem textDoc_ok (k : Str) (s : Str) (hk : Name k) : DocsOk (textDoc k s) := by
  unfold textDoc
  split
  · trivial
  · exact ⟨⟨hk, by intro h; cases h⟩, trivial⟩

theorem dateDoc_ok (k : Str) (d : Option DateTime) (hk : Name k) : DocsOk (dateDoc k d) := by
  cases d with
  | none => trivial
  | some d => exact ⟨⟨hk, fun _ => plain_dateTime d⟩, trivial⟩

theorem userDoc_ok (f : Floats) (u : UserDefined) (hn : Plain u.name) (hv : ValueOk f u.value) : DocOk (userDoc f u) := by
  refine ⟨by decide +kernel, attrsOk_cons _ _ (by show Name "meta:name".toList; decide +kernel) (fun _ => hn) (optAttr_ok _ _ _ (by decide +kernel) ?_), ?_⟩
  · intro s hs _
    cases hu : u.value with
    | string t => rw [hu] at hs; cases hs
    | _ => rw [hu] at hs; injection hs with hs; rw [← hs]; decide +kernel
  · intro he
    cases hu : u.value with
    | string t => rw [hu] at he; cases he
    | boolean b => exact plain_bool b
    | datetime d => exact plain_dateTime d
    | time d => exact plain_duration d
    | float v => rw [hu] at hv; exact hv.1.1

theorem metaDocs_ok (f : Floats) (m : Metadata) (h : Readable f m) (ds : List Doc) (hds : metaDocs f m = ds) : DocsOk ds := by
  rw [← hds]
  unfold metaDocs
  simp only [docsOk_append]
  refine ⟨⟨⟨⟨⟨⟨⟨⟨⟨⟨⟨⟨⟨⟨⟨⟨⟨⟨?_, textDoc_ok _ _ (by decide +kernel)⟩, textDoc_ok _ _ (by decide +kernel)⟩,
    textDoc_ok _ _ (by decide +kernel)⟩, textDoc_ok _ _ (by decide +kernel)⟩, textDoc_ok _ _ (by decide +kernel)⟩,
    textDoc_ok _ _ (by decide +kernel)⟩, textDoc_ok _ _ (by decide +kernel)⟩, dateDoc_ok _ _ (by decide +kernel)⟩,
    dateDoc_ok _ _ (by decide +kernel)⟩, dateDoc_ok _ _ (by decide +kernel)⟩, textDoc_ok _ _ (by decide +kernel)⟩,
    ?_⟩, ?_⟩, ?_⟩, ?_⟩, ?_⟩, ?_⟩, ?_⟩
  · exact ⟨⟨by decide +kernel, fun _ => h.generator⟩, trivial⟩
  · split
    · exact ⟨⟨by decide +kernel, fun _ => plain_nat _⟩, trivial⟩
    · trivial
  · split
    · exact ⟨⟨by decide +kernel, fun _ => plain_duration _⟩, trivial⟩
    · trivial
  · unfold templateDoc
    split
    · trivial
    · refine ⟨⟨by decide +kernel, ?_⟩, trivial⟩
      exact attrsOk_append (attrsOk_append (attrsOk_append (attrsOk_append
        (optAttr_ok _ _ _ (by decide +kernel) (map_plain _ plain_dateTime _ _))
        (optAttr_ok _ _ _ (by decide +kernel) (map_plain _ plain_actuate _ _)))
        (optAttr_ok _ _ _ (by decide +kernel) (by intro s _ h; cases h)))
        (optAttr_ok _ _ _ (by decide +kernel) (by intro s _ h; cases h)))
        (optAttr_ok _ _ _ (by decide +kernel) (map_plain _ plain_type _ _))
  · unfold reloadDoc
    split
    · trivial
    · refine ⟨⟨by decide +kernel, ?_⟩, trivial⟩
      exact attrsOk_append (attrsOk_append (attrsOk_append (attrsOk_append
        (optAttr_ok _ _ _ (by decide +kernel) (map_plain _ plain_duration _ _))
        (optAttr_ok _ _ _ (by decide +kernel) (map_plain _ plain_actuate _ _)))
        (optAttr_ok _ _ _ (by decide +kernel) (by intro s _ h; cases h)))
        (optAttr_ok _ _ _ (by decide +kernel) (map_plain _ plain_show _ _)))
        (optAttr_ok _ _ _ (by decide +kernel) (map_plain _ plain_type _ _))
  · unfold hyperlinkDoc
    split
    · trivial
    · refine ⟨⟨by decide +kernel, ?_⟩, trivial⟩
      exact attrsOk_append
        (optAttr_ok _ _ _ (by decide +kernel) (by intro s _ h; cases h))
        (optAttr_ok _ _ _ (by decide +kernel) (map_plain _ plain_show _ _))
  · refine ⟨⟨by decide +kernel, ?_⟩, trivial⟩
    exact attrsOk_cons _ _ (by show Name _; simp only; decide +kernel) (fun _ => plain_nat _)
      (attrsOk_cons _ _ (by show Name _; simp only; decide +kernel) (fun _ => plain_nat _)
      (attrsOk_cons _ _ (by show Name _; simp only; decide +kernel) (fun _ => plain_nat _)
      (attrsOk_cons _ _ (by show Name _; simp only; decide +kernel) (fun _ => plain_nat _) attrsOk_nil)))
  · exact (docsOk_iff _).2 (by
      intro d hd
      obtain ⟨u, hu, rfl⟩ := List.mem_map.1 hd
      exact userDoc_ok f u (h.names u hu) (h.values u hu))

theorem metaDoc_ok (f : Floats) (m : Metadata) (h : Readable f m) : DocOk (metaDoc f m) := by
  unfold metaDoc
  rw [DocOk]
  refine ⟨by decide +kernel, attrsOk_nil, ?_⟩
  generalize hd : metaDocs f m = ds
  exact metaDocs_ok f m h ds hd

theorem file_text (f : Floats) (m : Metadata) (t : Str) (es : List Event) :
    run f ⟨.file, m⟩ (.text t :: es) = run f ⟨.file, m⟩ es := rfl

/-- The element with the metadata, in any place of a file. -/
theorem run_metaDoc (f : Floats) (lb : Bool) (m : Metadata) (h : Readable f m) :
    run f ⟨.file, {}⟩ (docEv lb (metaDoc f m)) = .ok ⟨.file, metaRead m⟩ := by
  rw [metaDoc, docEv, run]
  show run f ⟨.office, {}⟩ (docsEv lb (metaDocs f m) ++ .end "office:meta".toList :: nlEv lb) = _
  rw [run_append, does_all f lb m h]
  show run f ⟨.file, metaRead m⟩ (nlEv lb) = _
  cases lb <;> rfl

/-- **C63, exactly**: what is read of the file with the metadata. The texts, dates and counts are those that were
written. A duration is read with its milliseconds as the digits of a fraction, and as zero if it is less than a second. Of a
string of the user only the end is read. The template, the automatic reload, the behaviour of hyperlinks and the statistics
are not read at all. -/
theorem C63_exact (f : Floats) (lb : Bool) (as : List (Bool × Str × Str)) (has : AttrsOk as) (m : Metadata)
    (h : Readable f m) : readMeta f (output lb (writeMetaFile as f m)) = .ok (metaRead m) := by
  have hok : DocOk (.elem false "office:document-meta".toList as [metaDoc f m]) := by
    rw [DocOk, DocsOk, DocsOk]
    exact ⟨by decide +kernel, has, metaDoc_ok f m h, trivial⟩
  obtain ⟨ts, h1, h2⟩ := read_document lb "UTF-8".toList (by decide) false _ as _ hok
  generalize hd : [metaDoc f m] = ds at hok h1 h2
  unfold readMeta writeMetaFile
  rw [hd, h1]
  simp only [h2]
  subst hd
  rw [file_text, docEv, run]
  have h3 : step f ⟨.file, {}⟩ (.start "office:document-meta".toList (rawAttrs as)) = .ok ⟨.file, {}⟩ := by
    show (if "office:document-meta".toList = "office:meta".toList then (.ok ⟨.office, {}⟩ : Except Fault St)
      else .ok ⟨.file, {}⟩) = _
    rw [if_neg (by decide +kernel)]
  rw [h3]
  have h4 : run f ⟨.file, {}⟩ (docsEv lb [metaDoc f m] ++ .end "office:document-meta".toList :: nlEv lb)
      = .ok ⟨.file, metaRead m⟩ := by
    rw [run_append, docsEv, docsEv, List.append_nil, run_metaDoc f lb m h]
    cases lb <;> rfl
  simp only [h4]
  rfl

/-! ## The property -/

namespace Spec

/-- A duration that is written and read without loss (C28): whole milliseconds, and none or at least 100 of them besides the
seconds. -/
def DurationKept (d : Int) : Prop :=
  0 ≤ d ∧ d ≤ maxDuration ∧ d % 10 ^ 6 = 0 ∧ (d / 10 ^ 6 % 1000 = 0 ∨ 100 ≤ d / 10 ^ 6 % 1000)

/-- A value of the user without loss. -/
def ValueKept (f : Floats) : MetaValue → Prop
  | .boolean _ => True
  | .datetime d => DateOk d
  | .float v => FloatOk f v ∧ f.fmt v ≠ []
  | .time d => DurationKept d
  | .string s => Plain s

/-- Metadata without loss. -/
structure Kept (f : Floats) (m : Metadata) : Prop where
  creationDate : ∀ d, m.creationDate = some d → DateOk d
  date : ∀ d, m.date = some d → DateOk d
  printDate : ∀ d, m.printDate = some d → DateOk d
  cycles : m.editingCycles < 2 ^ 32
  duration : m.editingDuration = 0 ∨ (10 ^ 9 ≤ m.editingDuration ∧ DurationKept m.editingDuration)
  names : ∀ u ∈ m.userDefined, Plain u.name
  values : ∀ u ∈ m.userDefined, ValueKept f u.value

end Spec

theorem frac_kept (d : Int) (h : DurationKept d) : durationRead d = d := by
  obtain ⟨h1, _, h3, h4⟩ := h
  unfold durationRead
  obtain ⟨n, rfl⟩ := Int.eq_ofNat_of_zero_le h1
  rw [Int.toNat_natCast]
  have h3 : n % 10 ^ 6 = 0 := by omega
  have h4 : n / 10 ^ 6 % 1000 = 0 ∨ 100 ≤ n / 10 ^ 6 % 1000 := by omega
  have hs := C28_split n
  have : fracNanos (n / 10 ^ 6 % 1000) = n / 10 ^ 6 % 1000 * 10 ^ 6 := by
    unfold fracNanos
    rcases h4 with h4 | h4
    · rw [h4]; rfl
    · rw [if_neg (by omega), if_neg (by omega)]
  rw [this]
  omega

theorem durationKept_ok (d : Int) (h : DurationKept d) : DurationOk d :=
  ⟨h.1, h.2.1, by rw [frac_kept d h]; exact h.2.1⟩

/-- **The strings of the user that survive** are those without characters that have a meaning in XML. -/
theorem C63_string_iff (s : Str) : stringRead s = s ↔ Plain s := by
  by_cases hs : s = []
  · subst hs; exact ⟨fun _ => plain_nil, fun _ => rfl⟩
  · have hk := lastText_kept s
    unfold stringRead
    constructor
    · intro h
      cases hl : lastText none (textEv true s) with
      | none => rw [hl] at h; exact absurd h.symm hs
      | some t => rw [hl] at h; rw [show t = s from h] at hl; exact (hk.1 hl).2
    · intro h
      rw [hk.2 ⟨hs, h⟩]; rfl

theorem valueKept (f : Floats) (v : MetaValue) (h : ValueKept f v) : valueRead v = v ∧ ValueOk f v := by
  cases v with
  | boolean b => exact ⟨rfl, trivial⟩
  | datetime d => exact ⟨rfl, h⟩
  | float d => exact ⟨rfl, h⟩
  | time d => exact ⟨congrArg _ (frac_kept d h), durationKept_ok d h⟩
  | string s => exact ⟨congrArg _ ((C63_string_iff s).2 h), trivial⟩

/-- **C63, partly**: saving a workbook and reading the file gives the metadata of the workbook — its title, description,
subject, keyword, creators, printer, dates, language, number and duration of edits and the values of the user — for
metadata without the losses named in `Kept`. The generator is the library. What is missing: the template, the automatic
reload, the behaviour of hyperlinks and the statistics, which are never read. -/
theorem C63_metadata_partial (f : Floats) (lb : Bool) (as : List (Bool × Str × Str)) (has : AttrsOk as) (m : Metadata)
    (sheets : List Nat) (h : Kept f m) :
    ∃ m', readMeta f (output lb (writeMetaFile as f (calcMetadata m sheets))) = .ok m'
      ∧ m'.title = m.title ∧ m'.description = m.description ∧ m'.subject = m.subject ∧ m'.keyword = m.keyword
      ∧ m'.initialCreator = m.initialCreator ∧ m'.creator = m.creator ∧ m'.printedBy = m.printedBy
      ∧ m'.creationDate = m.creationDate ∧ m'.date = m.date ∧ m'.printDate = m.printDate ∧ m'.language = m.language
      ∧ m'.editingCycles = m.editingCycles ∧ m'.editingDuration = m.editingDuration ∧ m'.userDefined = m.userDefined
      ∧ m'.generator = "spreadsheet-ods 1.0.4".toList := by
  have hr : Readable f (calcMetadata m sheets) := {
    generator := by show Plain generatorName; decide +kernel
    creationDate := h.creationDate
    date := h.date
    printDate := h.printDate
    cycles := h.cycles
    duration := by
      intro hd
      rcases h.duration with h0 | ⟨_, h1⟩
      · exact absurd hd (by rw [show (calcMetadata m sheets).editingDuration = m.editingDuration from rfl, h0]; decide)
      · exact durationKept_ok _ h1
    names := h.names
    values := fun u hu => (valueKept f u.value (h.values u hu)).2 }
  refine ⟨_, C63_exact f lb as has _ hr, rfl, rfl, rfl, rfl, rfl, rfl, rfl, rfl, rfl, rfl, rfl, rfl, ?_, ?_, rfl⟩
  · show (if m.editingDuration < 10 ^ 9 then 0 else durationRead m.editingDuration) = m.editingDuration
    rcases h.duration with h0 | ⟨h1, h2⟩
    · rw [h0]; rfl
    · rw [if_neg (by omega), frac_kept _ h2]
  · show m.userDefined.map (fun u => (⟨u.name, valueRead u.value⟩ : UserDefined)) = m.userDefined
    have : ∀ u ∈ m.userDefined, (⟨u.name, valueRead u.value⟩ : UserDefined) = u := by
      intro u hu
      rw [(valueKept f u.value (h.values u hu)).1]
    have hm : m.userDefined.map (fun u => (⟨u.name, valueRead u.value⟩ : UserDefined)) = m.userDefined.map id :=
      List.map_congr_left this
    rw [hm, List.map_id]

/-- C63 fails for a template, whatever the rest is: it is written, and not read. -/
theorem C63_lost_counterexample (f : Floats) (lb : Bool) (as : List (Bool × Str × Str)) (has : AttrsOk as) (m : Metadata)
    (h : Readable f m) : ∃ m', readMeta f (output lb (writeMetaFile as f m)) = .ok m'
      ∧ m'.template = {} ∧ m'.autoReload = {} ∧ m'.hyperlink = {} ∧ m'.statistics = {} :=
  ⟨_, C63_exact f lb as has m h, rfl, rfl, rfl, rfl⟩

/-- The characters of a string of the user up to the last one that is escaped are lost. -/
theorem C63_string_counterexample :
    stringRead "Smith & Jones".toList = " Jones".toList ∧ stringRead "1 < 2 <".toList = " 2 ".toList
      ∧ stringRead "<>".toList = [] := by decide +kernel

/-- An editing time of less than a second is lost. -/
theorem C63_short_counterexample :
    (metaRead { editingDuration := 999 * 10 ^ 6 }).editingDuration = 0 := by decide +kernel

/-- Doubles as their bits. -/
def asBits : Floats := ⟨fun v => decNat v.bits.toNat, fun s => some ⟨BitVec.ofNat 64 (Refs.decVal s)⟩⟩

/-- A date after the year 9999 makes the file unreadable. -/
theorem C63_year_counterexample :
    (readMeta asBits (output false (writeMetaFile [] asBits { date := some ⟨10000, 1, 1, 0, 0, 0, 0⟩ }))).toOption = none := by
  decide +kernel

/-- The name of a value of the user is not escaped: with a quote in it the value gets another name. -/
theorem C63_name_counterexample :
    ((readMeta asBits (output false (writeMetaFile [] asBits { userDefined := [⟨"x\" meta:name=\"y".toList, .boolean true⟩] }))).toOption.map
      fun m => m.userDefined.map (·.name)) = some ["y".toList] := by
  decide +kernel

/-- A template, and a file of another program with it. -/
def demoTemplate : Template := { href := some "a.ots".toList, linkType := some .simple }

/-- A template that is written with two tags, as other programs may do, is read. -/
theorem C63_template_read :
    ((readMeta asBits ("<office:meta><meta:template xlink:href=\"a.ots\" xlink:type=\"simple\"></meta:template></office:meta>".toList)).toOption.map
      (·.template)) = some demoTemplate := by
  decide +kernel

/-- Metadata with something in each place. -/
def demo : Metadata :=
  { title := "a < b & \"c\"".toList, keyword := "x".toList, creationDate := some ⟨2024, 2, 29, 23, 59, 59, 5⟩
    editingCycles := 4294967295, editingDuration := 3600 * 10 ^ 9 + 250 * 10 ^ 6, template := demoTemplate
    userDefined := [⟨"one".toList, .boolean false⟩, ⟨"two".toList, .time (90 * 10 ^ 9)⟩, ⟨"three".toList, .string "hello".toList⟩,
      ⟨"four".toList, .float ⟨7#64⟩⟩] }

/-- **The hypotheses of C63 are met** by metadata with texts, a date, a duration and values of the user. -/
theorem C63_meets : Kept asBits demo := {
  creationDate := by intro d hd; injection hd with hd; rw [← hd]; unfold DateOk ValidDateTime; decide
  date := by intro d hd; cases hd
  printDate := by intro d hd; cases hd
  cycles := by decide
  duration := .inr (by unfold DurationKept; decide)
  names := by unfold demo; decide +kernel
  values := by
    intro u hu
    have h4 : ValueKept asBits (.float ⟨7#64⟩) := ⟨⟨by decide +kernel, by decide +kernel⟩, by decide +kernel⟩
    have h2 : ValueKept asBits (.time (90 * 10 ^ 9)) := by show DurationKept _; unfold DurationKept; decide
    have h3 : ValueKept asBits (.string "hello".toList) := by show Plain _; decide +kernel
    rcases List.mem_cons.1 hu with rfl | hu
    · trivial
    rcases List.mem_cons.1 hu with rfl | hu
    · exact h2
    rcases List.mem_cons.1 hu with rfl | hu
    · exact h3
    rcases List.mem_cons.1 hu with rfl | hu
    · exact h4
    · cases hu }

end Verif.Meta
