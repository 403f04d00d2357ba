import Verif.Fmt.Ready

/-!
# C85: the default styles of a workbook
-/

set_option autoImplicit false

namespace Verif.Fmt

open Xml Codec Book Style
open Book.AttrMap (specSet specClear lookup_set lookup_clear)

namespace Spec

/-- The style exists, names a format, and the format exists. -/
def Resolves (b : LBook) (style : Str) (k : Kind) (f : Format) : Prop :=
  ∃ s n, b.book.styles.get? .cell style = some s ∧ valueFormat s = some n ∧ b.book.formats.get? k n = some ⟨n, f⟩

/-- The style exists and names a format that does not exist. -/
def Dangles (b : LBook) (style : Str) : Prop :=
  ∃ s n, b.book.styles.get? .cell style = some s ∧ valueFormat s = some n ∧ ∀ k, b.book.formats.get? k n = none

/-- The names of the default styles. -/
def styleNames : List Str :=
  ["default-bool".toList, "default-num".toList, "default-percent".toList, "default-currency".toList,
    "default-date".toList, "default-datetime".toList, "default-time".toList, "default-interval".toList]

/-- The names of the default formats. -/
def formatNames : List Str :=
  ["bool1".toList, "num1".toList, "percent1".toList, "currency1".toList, "date1".toList, "datetime1".toList,
    "time1".toList, "interval1".toList]

/-- The locales with a table. -/
def Supported (ft : Features) (l : Locale) : Prop :=
  l = ⟨"en".toList, none, none, []⟩ ∨ (ft.csCz ∧ l = ⟨"cs".toList, none, some "CZ".toList, []⟩)
    ∨ (ft.deAt ∧ l = ⟨"de".toList, none, some "AT".toList, []⟩) ∨ (ft.enUs ∧ l = ⟨"en".toList, none, some "US".toList, []⟩)

/-- How the locale writes a date. -/
def localDate (l : Locale) (v : Shown) : Str :=
  if l.region = none then ymd v else if l.region = some "US".toList then mdy v else dmy v

/-- The currency of the locale. -/
def localSymbol (l : Locale) : Str :=
  if l.region = some "CZ".toList then "Kč".toList else if l.region = some "AT".toList then "€".toList else "$".toList

end Spec

open Spec

/-! ## The result -/

/-- A style is stored under its name. -/
def put {β : Type} (s : Stores β) (k : Kind) (n : Str) (x : β) : Stores β :=
  s.setStore k ((s.store k).insert n ⟨n, x⟩)

theorem put_get {β : Type} (s : Stores β) (k k' : Kind) (n n' : Str) (x : β) :
    (put s k n x).get? k' n' = if k = k' ∧ n = n' then some ⟨n, x⟩ else s.get? k' n' := by
  unfold put Stores.setStore Stores.get?
  by_cases hk : k = k'
  · subst hk
    simp only [if_true, true_and]
    rw [HMap.get?_insert]
  · simp only [if_neg (fun h : k' = k => hk h.symm), hk, false_and, if_false]

theorem addF_ok (k : Kind) (nf : Str × Format) (b : SBook) (h : nf.1 ≠ []) :
    addF k nf b = .ok { b with formats := put b.formats k nf.1 nf.2 } := by
  unfold addF SBook.addFormat Stores.add
  rw [if_neg h]
  rfl

theorem addStyle_ok (n f : Str) (b : SBook) (h : n ≠ []) :
    b.addStyle .cell (cellStyle n f) = .ok { b with styles := put b.styles .cell n { attr := specSet [] aDataStyle f } } := by
  unfold SBook.addStyle Stores.add
  rw [if_neg (show (cellStyle n f).name ≠ [] from h)]
  rfl

/-- The formats of a table. -/
def tableFormats (t : Table) (s : Stores Format) : Stores Format :=
  put (put (put (put (put (put (put (put s .fmtBoolean t.boolean.1 t.boolean.2) .fmtNumber t.number.1 t.number.2)
    .fmtPercentage t.percentage.1 t.percentage.2) .fmtCurrency t.currency.1 t.currency.2) .fmtDateTime t.date.1 t.date.2)
    .fmtDateTime t.datetime.1 t.datetime.2) .fmtDateTime t.timeOfDay.1 t.timeOfDay.2) .fmtTimeDuration t.interval.1
    t.interval.2

def defaultStyles (s : Stores Body) : Stores Body :=
  put (put (put (put (put (put (put (put s .cell sBool { attr := specSet [] aDataStyle fBool })
    .cell sNumber { attr := specSet [] aDataStyle fNumber }) .cell sPercent { attr := specSet [] aDataStyle fPercent })
    .cell sCurrency { attr := specSet [] aDataStyle fCurrency }) .cell sDate { attr := specSet [] aDataStyle fDate })
    .cell sDatetime { attr := specSet [] aDataStyle fDatetime }) .cell sTime { attr := specSet [] aDataStyle fTime })
    .cell sInterval { attr := specSet [] aDataStyle fInterval }

theorem addCellStyles_ok (b : SBook) : addCellStyles b = .ok { b with styles := defaultStyles b.styles } := by
  unfold addCellStyles
  rw [addStyle_ok _ _ _ (by decide)]
  simp only [bind, Except.bind]
  rw [addStyle_ok _ _ _ (by decide)]
  simp only
  rw [addStyle_ok _ _ _ (by decide)]
  simp only
  rw [addStyle_ok _ _ _ (by decide)]
  simp only
  rw [addStyle_ok _ _ _ (by decide)]
  simp only
  rw [addStyle_ok _ _ _ (by decide)]
  simp only
  rw [addStyle_ok _ _ _ (by decide)]
  simp only
  rw [addStyle_ok _ _ _ (by decide)]
  rfl

/-- The names in a table. -/
structure Named (t : Table) : Prop where
  boolean : t.boolean.1 = fBool
  number : t.number.1 = fNumber
  percentage : t.percentage.1 = fPercent
  currency : t.currency.1 = fCurrency
  date : t.date.1 = fDate
  datetime : t.datetime.1 = fDatetime
  timeOfDay : t.timeOfDay.1 = fDatetime ∨ t.timeOfDay.1 = fTime
  interval : t.interval.1 = fDatetime ∨ t.interval.1 = fInterval

theorem addFormats_ok (t : Table) (ht : Named t) (b : SBook) :
    addFormats t b = .ok { b with formats := tableFormats t b.formats } := by
  have h1 : t.timeOfDay.1 ≠ [] := by rcases ht.timeOfDay with h | h <;> rw [h] <;> decide
  have h2 : t.interval.1 ≠ [] := by rcases ht.interval with h | h <;> rw [h] <;> decide
  unfold addFormats
  rw [addF_ok _ _ _ (by rw [ht.boolean]; decide)]
  simp only [bind, Except.bind]
  rw [addF_ok _ _ _ (by rw [ht.number]; decide)]
  simp only
  rw [addF_ok _ _ _ (by rw [ht.percentage]; decide)]
  simp only
  rw [addF_ok _ _ _ (by rw [ht.currency]; decide)]
  simp only
  rw [addF_ok _ _ _ (by rw [ht.date]; decide)]
  simp only
  rw [addF_ok _ _ _ (by rw [ht.datetime]; decide)]
  simp only
  rw [addF_ok _ _ _ h1]
  simp only
  rw [addF_ok _ _ _ h2]
  rfl

theorem localized_named (ft : Features) (l : Locale) (t : Table) (h : localized ft l = some t) : Named t := by
  unfold localized at h
  split at h
  · cases h; exact ⟨rfl, rfl, rfl, rfl, rfl, rfl, .inl rfl, .inl rfl⟩
  · split at h
    · cases h; exact ⟨rfl, rfl, rfl, rfl, rfl, rfl, .inl rfl, .inl rfl⟩
    · split at h
      · cases h; exact ⟨rfl, rfl, rfl, rfl, rfl, rfl, .inl rfl, .inl rfl⟩
      · split at h
        · cases h; exact ⟨rfl, rfl, rfl, rfl, rfl, rfl, .inr rfl, .inr rfl⟩
        · cases h

/-- The formats after the settings. -/
def settled (ft : Features) (l : Locale) (s : Stores Format) : Stores Format :=
  match localized ft l with
  | some t => tableFormats t s
  | none => s

theorem settings_ok (ft : Features) (l : Locale) (b : LBook) :
    localeSettings ft l b
      = .ok (addDefs { b with book := { b.book with formats := settled ft l b.book.formats, styles := defaultStyles b.book.styles } }) := by
  unfold localeSettings settled
  cases h : localized ft l with
  | none =>
    simp only [bind, Except.bind]
    rw [addCellStyles_ok]
  | some t =>
    simp only [bind, Except.bind]
    rw [addFormats_ok t (localized_named ft l t h)]
    simp only
    rw [addCellStyles_ok]

theorem addDefs_book (b : LBook) : (addDefs b).book = b.book := rfl

theorem supported_iff (ft : Features) (l : Locale) : Supported ft l ↔ ∃ t, localized ft l = some t := by
  unfold Supported localized
  change (l = lEn ∨ (ft.csCz ∧ l = lCsCz) ∨ (ft.deAt ∧ l = lDeAt) ∨ (ft.enUs ∧ l = lEnUs)) ↔ _
  constructor
  · intro h
    by_cases h1 : l = lEn
    · exact ⟨_, if_pos h1⟩
    · rw [if_neg h1]
      by_cases h2 : ft.csCz ∧ l = lCsCz
      · exact ⟨_, if_pos h2⟩
      · rw [if_neg h2]
        by_cases h3 : ft.deAt ∧ l = lDeAt
        · exact ⟨_, if_pos h3⟩
        · rw [if_neg h3]
          by_cases h4 : ft.enUs ∧ l = lEnUs
          · exact ⟨_, if_pos h4⟩
          · rcases h with h | h | h | h
            · exact absurd h h1
            · exact absurd h h2
            · exact absurd h h3
            · exact absurd h h4
  · rintro ⟨t, h⟩
    split at h
    · rename_i hx; exact .inl hx
    · split at h
      · rename_i hx; exact .inr (.inl hx)
      · split at h
        · rename_i hx; exact .inr (.inr (.inl hx))
        · split at h
          · rename_i hx; exact .inr (.inr (.inr hx))
          · cases h

/-- The format a default style names. -/
theorem style_get (s : Stores Body) :
    ∀ e ∈ [(sBool, fBool), (sNumber, fNumber), (sPercent, fPercent), (sCurrency, fCurrency), (sDate, fDate),
        (sDatetime, fDatetime), (sTime, fTime), (sInterval, fInterval)],
      (defaultStyles s).get? .cell e.1 = some ⟨e.1, { attr := specSet [] aDataStyle e.2 }⟩ := by
  intro e he
  simp only [List.mem_cons, List.not_mem_nil, or_false] at he
  unfold defaultStyles
  simp only [put_get, true_and]
  rcases he with rfl | rfl | rfl | rfl | rfl | rfl | rfl | rfl
  · rw [if_neg (by decide), if_neg (by decide), if_neg (by decide), if_neg (by decide), if_neg (by decide),
      if_neg (by decide), if_neg (by decide), if_pos rfl]
  · rw [if_neg (by decide), if_neg (by decide), if_neg (by decide), if_neg (by decide), if_neg (by decide),
      if_neg (by decide), if_pos rfl]
  · rw [if_neg (by decide), if_neg (by decide), if_neg (by decide), if_neg (by decide), if_neg (by decide), if_pos rfl]
  · rw [if_neg (by decide), if_neg (by decide), if_neg (by decide), if_neg (by decide), if_pos rfl]
  · rw [if_neg (by decide), if_neg (by decide), if_neg (by decide), if_pos rfl]
  · rw [if_neg (by decide), if_neg (by decide), if_pos rfl]
  · rw [if_neg (by decide), if_pos rfl]
  · rw [if_pos rfl]

theorem style_frame (s : Stores Body) (k : Kind) (n : Str) (h : k ≠ .cell ∨ n ∉ styleNames) :
    (defaultStyles s).get? k n = s.get? k n := by
  have key : ∀ m ∈ styleNames, ¬ (Kind.cell = k ∧ m = n) := by
    rintro m hm ⟨rfl, rfl⟩
    rcases h with h | h
    · exact h rfl
    · exact h hm
  unfold defaultStyles
  simp only [put_get]
  rw [if_neg (key sInterval (by decide)), if_neg (key sTime (by decide)), if_neg (key sDatetime (by decide)),
    if_neg (key sDate (by decide)), if_neg (key sCurrency (by decide)), if_neg (key sPercent (by decide)),
    if_neg (key sNumber (by decide)), if_neg (key sBool (by decide))]

theorem format_frame (t : Table) (ht : Named t) (s : Stores Format) (k : Kind) (n : Str) (h : n ∉ formatNames) :
    (tableFormats t s).get? k n = s.get? k n := by
  have key : ∀ (k' : Kind) m, m ∈ formatNames → ¬ (k' = k ∧ m = n) := by
    rintro k' m hm ⟨rfl, rfl⟩
    exact h hm
  unfold tableFormats
  simp only [put_get]
  rw [if_neg (key _ _ (by rcases ht.interval with h | h <;> rw [h] <;> decide)),
    if_neg (key _ _ (by rcases ht.timeOfDay with h | h <;> rw [h] <;> decide)),
    if_neg (key _ _ (by rw [ht.datetime]; decide)), if_neg (key _ _ (by rw [ht.date]; decide)),
    if_neg (key _ _ (by rw [ht.currency]; decide)), if_neg (key _ _ (by rw [ht.percentage]; decide)),
    if_neg (key _ _ (by rw [ht.number]; decide)), if_neg (key _ _ (by rw [ht.boolean]; decide))]

theorem format_get (t : Table) (ht : Named t) (s : Stores Format) :
    (tableFormats t s).get? .fmtBoolean fBool = some ⟨fBool, t.boolean.2⟩
      ∧ (tableFormats t s).get? .fmtNumber fNumber = some ⟨fNumber, t.number.2⟩
      ∧ (tableFormats t s).get? .fmtPercentage fPercent = some ⟨fPercent, t.percentage.2⟩
      ∧ (tableFormats t s).get? .fmtCurrency fCurrency = some ⟨fCurrency, t.currency.2⟩
      ∧ (tableFormats t s).get? .fmtDateTime fDate = some ⟨fDate, t.date.2⟩
      ∧ (tableFormats t s).get? .fmtDateTime fDatetime
        = some ⟨fDatetime, if t.timeOfDay.1 = fDatetime then t.timeOfDay.2 else t.datetime.2⟩
      ∧ (t.timeOfDay.1 = fTime → (tableFormats t s).get? .fmtDateTime fTime = some ⟨fTime, t.timeOfDay.2⟩)
      ∧ (t.interval.1 = fInterval → (tableFormats t s).get? .fmtTimeDuration fInterval = some ⟨fInterval, t.interval.2⟩) := by
  unfold tableFormats
  simp only [put_get, ht.boolean, ht.number, ht.percentage, ht.currency, ht.date, ht.datetime, reduceCtorEq, false_and,
    if_false, true_and, if_true]
  have hd : t.timeOfDay.1 ≠ fDate := by rcases ht.timeOfDay with h | h <;> rw [h] <;> decide
  refine ⟨?_, ?_, ?_⟩
  · rw [if_neg hd, if_neg (by decide)]
  · by_cases h : t.timeOfDay.1 = fDatetime
    · rw [if_pos h, if_pos h, h]
    · rw [if_neg h, if_neg h]
  · exact ⟨fun h => by rw [if_pos h, h], fun h => by rw [if_pos h, h]⟩

/-- The five value types that have a format of their own in every table. -/
structure TableOk (l : Locale) (t : Table) : Prop where
  boolean : ∀ v, shows v t.boolean.2 = v.truth
  number : ∃ a, (∀ v, shows v t.number.2 = v.amount a) ∧ Asks a (some 2) none (some 1) false
  percentage : ∃ a, (∀ v, shows v t.percentage.2 = v.amount a ++ "%".toList) ∧ Asks a (some 2) none (some 1) false
  currency : ∃ a, (∀ v, shows v t.currency.2 = localSymbol l ++ " ".toList ++ v.amount a) ∧ Asks a (some 2) (some 2) (some 1) true
  date : ∀ v, shows v t.date.2 = localDate l v
  locale : ∀ f ∈ [t.boolean.2, t.number.2, t.percentage.2, t.currency.2, t.date.2], locale icu f.attr = some l

theorem number_ok (l : Locale) : ∃ a, (∀ v, shows v (tNumber l) = v.amount a) ∧ Asks a (some 2) none (some 1) false :=
  shows_asks (newLocalized l) _ _ _ _ _ rfl rfl rfl rfl rfl

theorem percentage_ok (l : Locale) :
    ∃ a, (∀ v, shows v (tPercentage l) = v.amount a ++ "%".toList) ∧ Asks a (some 2) none (some 1) false := by
  obtain ⟨a, h1, h2⟩ := number_ok l
  refine ⟨a, fun v => ?_, h2⟩
  unfold tPercentage
  rw [shows_text]
  exact congrArg (· ++ _) (h1 v)

theorem currency_ok (l : Locale) (s : Str) :
    ∃ a, (∀ v, shows v (tCurrency l s) = s ++ " ".toList ++ v.amount a) ∧ Asks a (some 2) (some 2) (some 1) true := by
  obtain ⟨a, h1, h2⟩ := shows_asks (textPart (currencyPart (newLocalized l) l s) " ".toList)
    [.minIntegerDigits 1, .decimalPlaces 2, .minDecimalPlaces 2, .grouping] (some 2) (some 2) (some 1) true
    rfl rfl rfl rfl rfl
  exact ⟨a, fun v => by unfold tCurrency; rw [h1, shows_text, shows_currency]; rfl, h2⟩

theorem localized_ok (ft : Features) (l : Locale) (t : Table) (h : localized ft l = some t) : TableOk l t := by
  unfold localized at h
  have hb : ∀ l v, shows v (plain (newLocalized l) .boolean) = v.truth := fun _ _ => List.append_nil _
  have key : ∀ (l : Locale) (t : Table), t.boolean.2 = plain (newLocalized l) .boolean → t.number.2 = tNumber l →
      t.percentage.2 = tPercentage l → t.currency.2 = tCurrency l (localSymbol l) →
      (∀ v, shows v t.date.2 = localDate l v) → t.date.2.attr = (newLocalized l).attr →
      locale icu (newLocalized l).attr = some l → TableOk l t := by
    intro l t h1 h2 h3 h4 h5 h6 h7
    refine ⟨fun v => h1 ▸ hb l v, h2 ▸ number_ok l, h3 ▸ percentage_ok l, h4 ▸ currency_ok l _, h5, ?_⟩
    intro f hf
    simp only [List.mem_cons, List.not_mem_nil, or_false] at hf
    rcases hf with rfl | rfl | rfl | rfl | rfl
    · rw [h1]; exact h7
    · rw [h2]; exact h7
    · rw [h3]; exact h7
    · rw [h4]; exact h7
    · rw [h6]; exact h7
  split at h
  · rename_i hl
    subst hl
    cases h
    exact key _ _ rfl rfl rfl rfl (fun v => by
      show shows v (datePart _ _ _ _ _) = _
      rw [shows_date]; rfl) rfl (by decide +kernel)
  · split at h
    · rename_i hl
      rw [hl.2]
      cases h
      exact key _ _ rfl rfl rfl rfl (fun v => by
        show shows v (datePart _ _ _ _ _) = _
        rw [shows_date]; rfl) rfl (by decide +kernel)
    · split at h
      · rename_i hl
        rw [hl.2]
        cases h
        exact key _ _ rfl rfl rfl rfl (fun v => by
          show shows v (datePart _ _ _ _ _) = _
          rw [shows_date]; rfl) rfl (by decide +kernel)
      · split at h
        · rename_i hl
          rw [hl.2]
          cases h
          exact key _ _ rfl rfl rfl rfl (fun v => by
            show shows v (datePart _ _ _ _ _) = _
            rw [shows_date]; rfl) rfl (by decide +kernel)
        · cases h

/-! ## The theorems -/

theorem resolves_of (b : LBook) (s : Stores Body) (hs : b.book.styles = defaultStyles s) (e : Str × Str)
    (he : e ∈ [(sBool, fBool), (sNumber, fNumber), (sPercent, fPercent), (sCurrency, fCurrency), (sDate, fDate),
        (sDatetime, fDatetime), (sTime, fTime), (sInterval, fInterval)]) (k : Kind) (f : Format)
    (hf : b.book.formats.get? k e.2 = some ⟨e.2, f⟩) : Resolves b e.1 k f := by
  refine ⟨_, e.2, by rw [hs]; exact style_get s e he, ?_, hf⟩
  show (specSet [] aDataStyle e.2).lookup aDataStyle = _
  rw [lookup_set, if_pos rfl]

/-- For a supported locale, whatever the workbook contains: the default styles for truth values, numbers, percentages,
amounts of money and dates lead to formats of this locale, which show the value as the locale does. -/
theorem C85_supported_partial (ft : Features) (l : Locale) (hl : Supported ft l) (b : LBook) :
    ∃ b', localeSettings ft l b = .ok b'
      ∧ (∃ f, Resolves b' "default-bool".toList .fmtBoolean f ∧ locale icu f.attr = some l ∧ ∀ v, shows v f = v.truth)
      ∧ (∃ f a, Resolves b' "default-num".toList .fmtNumber f ∧ locale icu f.attr = some l
          ∧ (∀ v, shows v f = v.amount a) ∧ Asks a (some 2) none (some 1) false)
      ∧ (∃ f a, Resolves b' "default-percent".toList .fmtPercentage f ∧ locale icu f.attr = some l
          ∧ (∀ v, shows v f = v.amount a ++ "%".toList) ∧ Asks a (some 2) none (some 1) false)
      ∧ (∃ f a, Resolves b' "default-currency".toList .fmtCurrency f ∧ locale icu f.attr = some l
          ∧ (∀ v, shows v f = localSymbol l ++ " ".toList ++ v.amount a) ∧ Asks a (some 2) (some 2) (some 1) true)
      ∧ (∃ f, Resolves b' "default-date".toList .fmtDateTime f ∧ locale icu f.attr = some l
          ∧ ∀ v, shows v f = localDate l v)
      ∧ ∃ f, Resolves b' "default-datetime".toList .fmtDateTime f := by
  obtain ⟨t, ht⟩ := (supported_iff ft l).1 hl
  have ok := localized_ok ft l t ht
  have g := format_get t (localized_named ft l t ht) b.book.formats
  have hf : settled ft l b.book.formats = tableFormats t b.book.formats := by
    unfold settled
    rw [ht]
  refine ⟨_, settings_ok ft l b, ?_⟩
  rw [hf]
  have r := fun e he k f hf => resolves_of (addDefs { b with book := { b.book with formats := tableFormats t b.book.formats, styles := defaultStyles b.book.styles } })
    b.book.styles rfl e he k f hf
  refine ⟨?_, ?_, ?_, ?_, ?_, ?_⟩
  · exact ⟨_, r (sBool, fBool) (by decide) _ _ g.1, ok.locale _ (by simp), ok.boolean⟩
  · obtain ⟨a, h⟩ := ok.number
    exact ⟨_, a, r (sNumber, fNumber) (by decide) _ _ g.2.1, ok.locale _ (by simp), h⟩
  · obtain ⟨a, h⟩ := ok.percentage
    exact ⟨_, a, r (sPercent, fPercent) (by decide) _ _ g.2.2.1, ok.locale _ (by simp), h⟩
  · obtain ⟨a, h⟩ := ok.currency
    exact ⟨_, a, r (sCurrency, fCurrency) (by decide) _ _ g.2.2.2.1, ok.locale _ (by simp), h⟩
  · exact ⟨_, r (sDate, fDate) (by decide) _ _ g.2.2.2.2.1, ok.locale _ (by simp), ok.date⟩
  · exact ⟨_, r (sDatetime, fDatetime) (by decide) _ _ g.2.2.2.2.2.1⟩

/-- For `en-US` the others too. -/
theorem C85_us (ft : Features) (hu : ft.enUs = true) (b : LBook) :
    ∃ b', localeSettings ft ⟨"en".toList, none, some "US".toList, []⟩ b = .ok b'
      ∧ (∃ f, Resolves b' "default-datetime".toList .fmtDateTime f ∧ ∀ v, shows v f = dmy v ++ " ".toList ++ hms v)
      ∧ (∃ f, Resolves b' "default-time".toList .fmtDateTime f ∧ ∀ v, shows v f = hms v ++ " ".toList ++ v.half)
      ∧ ∃ f, Resolves b' "default-interval".toList .fmtTimeDuration f ∧ (∀ v, shows v f = hms v)
          ∧ f.attr.lookup "number:truncate-on-overflow".toList = some "false".toList := by
  have ht : localized ft lEnUs = some tableEnUs := by
    unfold localized
    rw [if_neg (by decide), if_neg (by simp only [not_and]; intro _; decide), if_neg (by simp only [not_and]; intro _; decide),
      if_pos ⟨hu, rfl⟩]
  have g := format_get tableEnUs (localized_named ft lEnUs _ ht) b.book.formats
  have hf : settled ft lEnUs b.book.formats = tableFormats tableEnUs b.book.formats := by
    unfold settled
    rw [ht]
  refine ⟨_, settings_ok ft lEnUs b, ?_⟩
  rw [hf]
  have r := fun e he k f hf => resolves_of (addDefs { b with book := { b.book with formats := tableFormats tableEnUs b.book.formats, styles := defaultStyles b.book.styles } })
    b.book.styles rfl e he k f hf
  refine ⟨?_, ?_, ?_⟩
  · refine ⟨_, r (sDatetime, fDatetime) (by decide) _ _ g.2.2.2.2.2.1, fun v => ?_⟩
    rw [if_neg (by decide)]
    exact C84_loc_datetime_counterexample v lEnUs
  · refine ⟨_, r (sTime, fTime) (by decide) _ _ (g.2.2.2.2.2.2.1 rfl), fun v => ?_⟩
    show shows v (plain (textPart (clock _) _) _) = _
    rw [shows_plain, shows_text, shows_clock]
    rfl
  · exact ⟨_, r (sInterval, fInterval) (by decide) _ _ (g.2.2.2.2.2.2.2 rfl),
      fun v => (C84_loc_dates_partial v lEnUs).2.2.2.1, (C84_overflow lEnUs).2.1⟩

/-- For `en`, `cs-CZ` and `de-AT` the formats for times and intervals replace the one for date and time: in a new
workbook the default style of intervals names a format that does not exist, and date and time show the time only. -/
theorem C85_interval_counterexample (ft : Features) (l : Locale) (hl : Supported ft l)
    (hn : l ≠ ⟨"en".toList, none, some "US".toList, []⟩) :
    ∃ b', newBook ft l = .ok b' ∧ b'.defStyle .timeDuration = some "default-interval".toList
      ∧ Dangles b' "default-interval".toList ∧ Dangles b' "default-time".toList
      ∧ ∃ f, Resolves b' "default-datetime".toList .fmtDateTime f ∧ ∀ v, shows v f = hms v := by
  obtain ⟨t, ht⟩ := (supported_iff ft l).1 hl
  have hc : ∀ l v, shows v (clock (newLocalized l)) = hms v := by
    intro l v
    rw [shows_clock]
    rfl
  have h2 : t.timeOfDay.1 = fDatetime ∧ t.interval.1 = fDatetime ∧ ∀ v, shows v t.timeOfDay.2 = hms v := by
    unfold localized at ht
    split at ht
    · cases ht; exact ⟨rfl, rfl, hc _⟩
    · split at ht
      · cases ht; exact ⟨rfl, rfl, hc _⟩
      · split at ht
        · cases ht; exact ⟨rfl, rfl, hc _⟩
        · split at ht
          · rename_i hx
            exact absurd hx.2 hn
          · cases ht
  have hnm := localized_named ft l t ht
  have g := format_get t hnm {}
  have hf : settled ft l {} = tableFormats t {} := by
    unfold settled
    rw [ht]
  refine ⟨_, settings_ok ft l {}, ?_⟩
  show _ ∧ _ ∧ _ ∧ _
  have hf' : settled ft l ({} : LBook).book.formats = tableFormats t {} := hf
  rw [hf']
  have none_of : ∀ n, n ∈ [fTime, fInterval] → ∀ k, (tableFormats t {}).get? k n = none := by
    intro n hn k
    have key : ∀ (k' : Kind) m, m ∈ [fBool, fNumber, fPercent, fCurrency, fDate, fDatetime] → ¬ (k' = k ∧ m = n) := by
      rintro k' m hm ⟨rfl, rfl⟩
      revert hm
      revert m
      decide
    unfold tableFormats
    simp only [put_get]
    rw [if_neg (key _ _ (by rw [h2.2.1]; decide)), if_neg (key _ _ (by rw [h2.1]; decide)),
      if_neg (key _ _ (by rw [hnm.datetime]; decide)), if_neg (key _ _ (by rw [hnm.date]; decide)),
      if_neg (key _ _ (by rw [hnm.currency]; decide)), if_neg (key _ _ (by rw [hnm.percentage]; decide)),
      if_neg (key _ _ (by rw [hnm.number]; decide)), if_neg (key _ _ (by rw [hnm.boolean]; decide))]
    rfl
  refine ⟨rfl, ?_, ?_, ?_⟩
  · refine ⟨_, fInterval, style_get _ (sInterval, fInterval) (by decide), ?_, none_of _ (by simp)⟩
    show (specSet [] aDataStyle fInterval).lookup aDataStyle = _
    rw [lookup_set, if_pos rfl]
  · refine ⟨_, fTime, style_get _ (sTime, fTime) (by decide), ?_, none_of _ (by simp)⟩
    show (specSet [] aDataStyle fTime).lookup aDataStyle = _
    rw [lookup_set, if_pos rfl]
  · refine ⟨_, resolves_of _ _ rfl (sDatetime, fDatetime) (by decide) _ _ g.2.2.2.2.2.1, fun v => ?_⟩
    rw [if_pos h2.1]
    exact h2.2.2 v

/-- Which style is the default of which type of value. -/
theorem C85_defs (ft : Features) (l : Locale) (b b' : LBook) (h : localeSettings ft l b = .ok b') :
    b'.defStyle .boolean = some "default-bool".toList ∧ b'.defStyle .number = some "default-num".toList
      ∧ b'.defStyle .percentage = some "default-percent".toList ∧ b'.defStyle .currency = some "default-currency".toList
      ∧ b'.defStyle .dateTime = some "default-date".toList ∧ b'.defStyle .timeDuration = some "default-interval".toList
      ∧ b'.defStyle .text = b.defStyle .text ∧ b'.defStyle .textXml = b.defStyle .textXml
      ∧ b'.defStyle .empty = b.defStyle .empty := by
  rw [settings_ok] at h
  cases h
  simp only [LBook.defStyle, addDefs, LBook.addDef, HMap.get?_insert, reduceCtorEq, if_true, if_false, and_true, true_and]
  exact ⟨rfl, rfl, rfl, rfl, rfl, rfl⟩

/-- Nothing else changes, and without a table no format at all: the new styles then name formats that do not exist. -/
theorem C85_frame (ft : Features) (l : Locale) (b : LBook) :
    ∃ b', localeSettings ft l b = .ok b' ∧ b'.book.pages = b.book.pages ∧ b'.book.fonts = b.book.fonts
      ∧ (∀ k n, k ≠ .cell ∨ n ∉ styleNames → b'.book.styles.get? k n = b.book.styles.get? k n)
      ∧ (∀ k n, n ∉ formatNames → b'.book.formats.get? k n = b.book.formats.get? k n)
      ∧ (¬ Supported ft l → b'.book.formats = b.book.formats) := by
  refine ⟨_, settings_ok ft l b, rfl, rfl, fun k n h => style_frame _ k n h, fun k n h => ?_, fun h => ?_⟩
  · show (settled ft l b.book.formats).get? k n = _
    unfold settled
    cases ht : localized ft l with
    | none => rfl
    | some t => exact format_frame t (localized_named ft l t ht) _ k n h
  · show settled ft l b.book.formats = _
    unfold settled
    cases ht : localized ft l with
    | none => rfl
    | some t => exact absurd ((supported_iff ft l).2 ⟨t, ht⟩) h

/-- `create_default_styles` gives all of them a format. -/
theorem C85_create (b : LBook) :
    ∃ b', createDefaultStyles b = .ok b'
      ∧ (∃ f, Resolves b' "default-bool".toList .fmtBoolean f ∧ ∀ v, shows v f = v.truth)
      ∧ (∃ f a, Resolves b' "default-num".toList .fmtNumber f ∧ (∀ v, shows v f = v.amount a)
          ∧ Asks a (some 2) none none false)
      ∧ (∃ f a, Resolves b' "default-percent".toList .fmtPercentage f
          ∧ (∀ v, shows v f = v.amount a ++ "%".toList) ∧ Asks a (some 2) (some 2) none false)
      ∧ (∃ f a, Resolves b' "default-currency".toList .fmtCurrency f
          ∧ (∀ v, shows v f = "€".toList ++ " ".toList ++ v.amount a) ∧ Asks a (some 2) (some 2) none true)
      ∧ (∃ f, Resolves b' "default-date".toList .fmtDateTime f ∧ ∀ v, shows v f = dmy v)
      ∧ (∃ f, Resolves b' "default-datetime".toList .fmtDateTime f ∧ ∀ v, shows v f = ymd v ++ " ".toList ++ hms v)
      ∧ (∃ f, Resolves b' "default-time".toList .fmtTimeDuration f ∧ ∀ v, shows v f = hms v)
      ∧ ∃ f, Resolves b' "default-interval".toList .fmtTimeDuration f ∧ (∀ v, shows v f = hms v)
          ∧ f.attr.lookup "number:truncate-on-overflow".toList = some "false".toList := by
  have h : createDefaultStyles b = .ok (addDefs { b with book := { b.book with
      styles := defaultStyles b.book.styles
      formats := put (put (put (put (put (put (put (put b.book.formats .fmtBoolean fBool mkBoolean) .fmtNumber fNumber
        (mkNumber 2 false)) .fmtPercentage fPercent (mkPercentage 2)) .fmtCurrency fCurrency
        (mkCurrencyPrefix lDeAt "€".toList)) .fmtDateTime fDate mkDateDmy) .fmtDateTime fDatetime mkDatetime)
        .fmtTimeDuration fTime mkTimeOfDay) .fmtTimeDuration fInterval mkInterval } }) := by
    unfold createDefaultStyles
    rw [addF_ok _ _ _ (by decide)]
    simp only [bind, Except.bind]
    rw [addF_ok _ _ _ (by decide)]
    simp only
    rw [addF_ok _ _ _ (by decide)]
    simp only
    rw [addF_ok _ _ _ (by decide)]
    simp only
    rw [addF_ok _ _ _ (by decide)]
    simp only
    rw [addF_ok _ _ _ (by decide)]
    simp only
    rw [addF_ok _ _ _ (by decide)]
    simp only
    rw [addF_ok _ _ _ (by decide)]
    simp only
    rw [addCellStyles_ok]
  refine ⟨_, h, ?_⟩
  generalize hb : (addDefs _) = b2
  have hs : b2.book.styles = defaultStyles b.book.styles := by rw [← hb]; rfl
  have r := fun e he k f hf => resolves_of b2 _ hs e he k f hf
  have d := C84_dates
  have n := C84_numbers lDeAt 2 false
  have c := C84_currency_partial lDeAt lDeAt "€".toList
  refine ⟨?_, ?_, ?_, ?_, ?_, ?_, ?_, ?_⟩
  · exact ⟨_, r (sBool, fBool) (by decide) _ mkBoolean (by
      rw [← hb]
      show Stores.get? (put _ _ _ _) _ _ = _
      simp only [put_get, reduceCtorEq, false_and, if_false, true_and, if_true]), fun v => (d v).2.2.2.2.2.2⟩
  · obtain ⟨a, ha⟩ := n.1
    exact ⟨_, a, r (sNumber, fNumber) (by decide) _ (mkNumber 2 false) (by
      rw [← hb]
      show Stores.get? (put _ _ _ _) _ _ = _
      simp only [put_get, reduceCtorEq, false_and, if_false, true_and, if_true]), ha⟩
  · obtain ⟨a, ha⟩ := n.2.2.1
    exact ⟨_, a, r (sPercent, fPercent) (by decide) _ (mkPercentage 2) (by
      rw [← hb]
      show Stores.get? (put _ _ _ _) _ _ = _
      simp only [put_get, reduceCtorEq, false_and, if_false, true_and, if_true]), ha⟩
  · obtain ⟨a, ha⟩ := c.1
    exact ⟨_, a, r (sCurrency, fCurrency) (by decide) _ (mkCurrencyPrefix lDeAt "€".toList) (by
      rw [← hb]
      show Stores.get? (put _ _ _ _) _ _ = _
      simp only [put_get, reduceCtorEq, false_and, if_false, true_and, if_true]), ha⟩
  · exact ⟨_, r (sDate, fDate) (by decide) _ mkDateDmy (by
      rw [← hb]
      show Stores.get? (put _ _ _ _) _ _ = _
      simp only [put_get, reduceCtorEq, false_and, if_false, true_and, if_true]
      rw [if_neg (by decide)]), fun v => (d v).2.1⟩
  · exact ⟨_, r (sDatetime, fDatetime) (by decide) _ mkDatetime (by
      rw [← hb]
      show Stores.get? (put _ _ _ _) _ _ = _
      simp only [put_get, reduceCtorEq, false_and, if_false, true_and, if_true]), fun v => (d v).2.2.2.1⟩
  · exact ⟨_, r (sTime, fTime) (by decide) _ mkTimeOfDay (by
      rw [← hb]
      show Stores.get? (put _ _ _ _) _ _ = _
      simp only [put_get, true_and, if_true]
      rw [if_neg (by decide)]), fun v => (d v).2.2.2.2.1⟩
  · exact ⟨_, r (sInterval, fInterval) (by decide) _ mkInterval (by
      rw [← hb]
      show Stores.get? (put _ _ _ _) _ _ = _
      simp only [put_get, true_and, if_true]), fun v => (d v).2.2.2.2.2.1, rfl⟩

/-- Cases that meet the hypotheses: with all features, three locales beside `en-US`. -/
theorem C85_meets : Supported ⟨false, false, false⟩ lEn ∧ Supported ⟨true, true, true⟩ lDeAt ∧ lDeAt ≠ lEnUs
    ∧ ¬ Supported ⟨true, true, true⟩ ⟨"fr".toList, none, some "FR".toList, []⟩ := by
  refine ⟨.inl rfl, .inr (.inr (.inl ⟨rfl, rfl⟩)), by decide, ?_⟩
  rintro (h | ⟨_, h⟩ | ⟨_, h⟩ | ⟨_, h⟩) <;> exact absurd (congrArg Locale.language h) (by decide)

end Verif.Fmt
