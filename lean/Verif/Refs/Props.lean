import Verif.Refs.Lemmas

/-!
# Properties of references (C33 - C39)

`checked` is a build of the crate with overflow checks, `release` one without.
-/

set_option autoImplicit false

namespace Verif.Refs

open Spec

/-- A build with overflow checks (`cargo build`). -/
def checked : Ints := ⟨u32Max, false⟩

/-- A build without overflow checks (`cargo build --release`). -/
def release : Ints := ⟨u32Max, true⟩

theorem checked_max : checked.max = maxU32 := by decide
theorem release_max : release.max = maxU32 := by decide

/-! ## C33: column names -/

/-- A column name is one or more capital letters, at most seven for a `u32` (so the formatter's
buffer never overflows). -/
theorem C33_form (col : Nat) :
    fmtColName col ≠ [] ∧ (∀ c ∈ fmtColName col, Capital c) ∧
      (col ≤ maxU32 → (fmtColName col).length ≤ 7) := by
  refine ⟨fmtColName_ne_nil col, fun c hc => (capital_iff c).mpr (fmtColName_upper col c hc), ?_⟩
  intro h
  have := fmtColName_fits col (by rw [← maxU32_eq]; exact h)
  simpa [fmtColName] using this

/-- Different columns have different names. -/
theorem C33_injective (a b : Nat) (h : fmtColName a = fmtColName b) : a = b := fmtColName_inj a b h

/-- Every text of capital letters is the name of a column. -/
theorem C33_surjective (s : Str) (hs : s ≠ []) (hu : ∀ c ∈ s, Capital c) :
    ∃ col, fmtColName col = s :=
  fmtColName_surj s hs (fun c hc => (capital_iff c).mp (hu c hc))

/-- The name of a column parses to the column, for every `u32` but the last. -/
theorem C33_roundtrip_partial (m : Ints) (hm : m.max = maxU32) (col : Nat) (h : col < maxU32) :
    colFromName m (fmtColName col) = .ok col :=
  colFromName_fmt m col (by omega)

/-- What the parser accepts is the name of what it returns, in a build with overflow checks. -/
theorem C33_parse_exact (s : Str) (col : Nat) (h : colFromName checked s = .ok col) :
    fmtColName col = s := by
  have hall : ∀ (s : Str) (a v : Nat), colLoop checked a s = .ok v → ∀ c ∈ s, isUpper c = true := by
    intro s
    induction s with
    | nil => intro a v _ c hc; simp at hc
    | cons d s ih =>
      intro a v e c hc
      unfold colLoop at e
      split at e
      · cases e
      · rename_i v' hstep
        rcases List.mem_cons.mp hc with h | h
        · unfold colStep at hstep
          split at hstep
          · rw [h]; assumption
          · cases hstep
        · exact ih _ _ e c h
  unfold colFromName at h
  split at h
  · cases h
  · rename_i v hv
    split at h
    · cases h
    · rename_i hne
      have hs : s ≠ [] := by
        intro e; subst e
        simp only [colLoop] at hv
        exact hne (Except.ok.inj hv).symm
      obtain ⟨c, rfl⟩ := fmtColName_surj s hs (hall s 0 v hv)
      -- without overflow the loop computes `c + 1`
      have hlt : c < checked.max := by
        rcases Nat.lt_or_ge c checked.max with h1 | h1
        · exact h1
        · exfalso
          -- a value above the maximum panics at the latest in the last step
          have key : ∀ (ds : List Nat) (a : Nat), (∀ d ∈ ds, d < 26) → a ≤ checked.max →
              ∀ v, colLoop checked a (ds.map letterChar) = .ok v → beVal a ds ≤ checked.max := by
            intro ds
            induction ds with
            | nil => intro a _ ha v _; exact ha
            | cons d ds ih =>
              intro a hds ha v e
              have hd := hds d List.mem_cons_self
              simp only [List.map_cons, colLoop] at e
              by_cases hfit : a * 26 + d + 1 ≤ checked.max
              · rw [colStep_fits checked a d hd hfit] at e
                exact ih _ (fun x hx => hds x (List.mem_cons_of_mem _ hx)) hfit v e
              · exfalso
                have hst : colStep checked a (letterChar d) = .error .panic := by
                  unfold colStep
                  rw [if_pos (letter_upper d hd), letter_toNat d hd, show 65 + d - 65 = d by omega]
                  by_cases h25 : d = 25
                  · rw [if_pos h25]
                    unfold Ints.fit
                    by_cases h1 : a + 1 ≤ checked.max
                    · rw [if_pos h1]
                      simp only
                      rw [if_neg (show ¬ (a + 1) * 26 ≤ checked.max by omega)]
                      rfl
                    · rw [if_neg h1]; rfl
                  · rw [if_neg h25]
                    unfold Ints.fit
                    by_cases h1 : a * 26 ≤ checked.max
                    · rw [if_pos h1]
                      simp only
                      rw [if_neg (show ¬ a * 26 + (d + 1) ≤ checked.max by omega)]
                      rfl
                    · rw [if_neg h1]; rfl
                rw [hst] at e
                cases e
          rw [fmtColName_eq] at hv
          have := key _ 0 (fun d hd => colDigits_lt _ d (List.mem_reverse.mp hd)) (by omega) v hv
          rw [beVal_reverse, leVal_colDigits] at this
          omega
      have h2 := colFromName_fmt checked c hlt
      unfold colFromName at h2
      rw [hv] at h2
      simp only at h2
      rw [if_neg hne] at h2
      rw [Except.ok.inj h] at h2
      rw [Except.ok.inj h2]

/-- Names are ordered as columns are: shorter ones first, then by the alphabet. -/
theorem C33_order (a b : Nat) : a < b ↔ NameBefore (fmtColName a) (fmtColName b) := by
  have hlen : ∀ n, (fmtColName n).length = (colDigits (n + 1)).length := by
    intro n; rw [fmtColName_eq]; simp
  have hval : ∀ n, beVal 0 (colDigits (n + 1)).reverse = n + 1 := by
    intro n; rw [beVal_reverse, leVal_colDigits]
  have hlt : ∀ n, ∀ d ∈ (colDigits (n + 1)).reverse, d < 26 :=
    fun n d hd => colDigits_lt _ d (List.mem_reverse.mp hd)
  -- same length, earlier in the alphabet: smaller
  have alpha : ∀ (s t : List Nat) (acc : Nat), s.length = t.length → (∀ d ∈ s, d < 26) →
      (∀ d ∈ t, d < 26) → AlphaBefore (s.map letterChar) (t.map letterChar) →
      beVal acc s < beVal acc t := by
    intro s
    induction s with
    | nil => intro t acc _ _ _ h; simp [AlphaBefore] at h
    | cons d s ih =>
      intro t acc hl hs ht h
      cases t with
      | nil => simp at hl
      | cons e t =>
        have hd := hs d List.mem_cons_self
        have he := ht e List.mem_cons_self
        simp only [List.map_cons, AlphaBefore] at h
        show beVal (acc * 26 + d + 1) s < beVal (acc * 26 + e + 1) t
        rcases h with h | ⟨h, h'⟩
        · rw [char_lt, letter_toNat d hd, letter_toNat e he] at h
          exact beVal_lt s t _ _ (by simpa using hl) (fun x hx => hs x (List.mem_cons_of_mem _ hx))
            (by omega)
        · rw [char_eq_iff, letter_toNat d hd, letter_toNat e he] at h
          have : d = e := by omega
          subst this
          exact ih t _ (by simpa using hl) (fun x hx => hs x (List.mem_cons_of_mem _ hx))
            (fun x hx => ht x (List.mem_cons_of_mem _ hx)) h'
  have mono : ∀ x y, NameBefore (fmtColName x) (fmtColName y) → x < y := by
    intro x y h
    have hx := hval x
    have hy := hval y
    rcases h with h | ⟨h, h'⟩
    · have := beVal_shorter (colDigits (x + 1)).reverse (colDigits (y + 1)).reverse (hlt x)
        (by rw [hlen, hlen] at h; simpa using h)
      omega
    · rw [fmtColName_eq, fmtColName_eq] at h'
      have := alpha _ _ 0 (by rw [hlen, hlen] at h; simpa using h) (hlt x) (hlt y) h'
      omega
  -- any two different texts of the same length are comparable
  have total : ∀ s t : Str, s.length = t.length → AlphaBefore s t ∨ s = t ∨ AlphaBefore t s := by
    intro s
    induction s with
    | nil => intro t h; exact .inr (.inl (List.length_eq_zero_iff.mp h.symm).symm)
    | cons c s ih =>
      intro t h
      cases t with
      | nil => simp at h
      | cons d t =>
        simp only [AlphaBefore, char_lt, char_eq_iff c d, char_eq_iff d c, List.cons.injEq]
        rcases Nat.lt_trichotomy c.toNat d.toNat with h1 | h1 | h1
        · exact .inl (.inl h1)
        · rcases ih t (by simpa using h) with h2 | h2 | h2
          · exact .inl (.inr ⟨h1, h2⟩)
          · exact .inr (.inl ⟨h1, h2⟩)
          · exact .inr (.inr (.inr ⟨h1.symm, h2⟩))
        · exact .inr (.inr (.inl h1))
  constructor
  · intro h
    rcases Nat.lt_trichotomy (fmtColName a).length (fmtColName b).length with h1 | h1 | h1
    · exact .inl h1
    · rcases total _ _ h1 with h2 | h2 | h2
      · exact .inr ⟨h1, h2⟩
      · have := fmtColName_inj a b h2; omega
      · have := mono b a (.inr ⟨h1.symm, h2⟩); omega
    · have := mono b a (.inl h1); omega
  · exact mono a b

/-- The last column of a `u32` is the exception: its name is refused, and in a build with overflow
checks parsing it panics. -/
theorem C33_last_counterexample :
    colFromName checked (fmtColName maxU32) = .error .panic ∧
      colFromName release (fmtColName maxU32) = .error .other :=
  ⟨by rw [show maxU32 = checked.max by decide]; exact colFromName_max checked,
   by rw [show maxU32 = release.max by decide]; exact colFromName_max release⟩

/-- In a build without overflow checks longer texts are accepted and wrap around: two different
names give the same column. -/
theorem C33_wrap_counterexample :
    colFromName release "MWLQKWW".toList = colFromName release "A".toList ∧
      colFromName release "A".toList = .ok 0 := by
  constructor <;> decide

example : fmtColName 701 = "ZZ".toList ∧ fmtColName 702 = "AAA".toList
    ∧ fmtColName 16383 = "XFD".toList := by
  refine ⟨?_, ?_, ?_⟩ <;> · rw [fmtColName_eq]; simp [colDigits]; decide

/-! ## C34: row names -/

/-- A row name is the decimal number of the row counted from one: digits, without leading zero, at
most ten for a `u32` (so the formatter's buffer never overflows). -/
theorem C34_form (row : Nat) :
    (∀ c ∈ fmtRowName row, Digit c) ∧ decimal (fmtRowName row) = row + 1 ∧
      (fmtRowName row).head? ≠ some '0' ∧ (row ≤ maxU32 → (fmtRowName row).length ≤ 10) := by
  have hdec : ∀ (s : Str) (a : Nat), s.foldl (fun v c => v * 10 + (c.toNat - 48)) a
      = a * 10 ^ s.length + decimal s := by
    intro s
    induction s with
    | nil => intro a; simp [decimal]
    | cons c s ih =>
      intro a
      rw [List.foldl_cons, ih]
      show _ = a * 10 ^ (s.length + 1) + ((c.toNat - 48) * 10 ^ s.length + decimal s)
      rw [Nat.pow_succ, Nat.add_mul, Nat.mul_assoc, Nat.mul_comm 10, Nat.add_assoc]
  refine ⟨fun c hc => (digit_iff c).mpr (fmtRowName_digits row c hc), ?_, ?_, ?_⟩
  · have h1 := decVal_fmtRowName row
    unfold decVal at h1
    rw [hdec] at h1
    omega
  · intro h
    unfold fmtRowName at h
    rw [List.head?_reverse, List.getLast?_map] at h
    cases hl : (rowDigits (row + 1)).getLast? with
    | none => rw [hl] at h; simp at h
    | some d =>
      rw [hl] at h
      have h0 := rowDigits_last (row + 1) d (by rw [hl]; rfl)
      have h10 := rowDigits_lt (row + 1) d (List.mem_of_getLast? hl)
      have := digit_toNat d h10
      have h' : digitChar d = '0' := by simpa using h
      rw [h'] at this
      have : (48 : Nat) = 48 + d := this
      omega
  · intro h
    have := fmtRowName_fits row (by rw [← maxU32_eq]; exact h)
    simpa [fmtRowName] using this

/-- Different rows have different names. -/
theorem C34_injective (a b : Nat) (h : fmtRowName a = fmtRowName b) : a = b := fmtRowName_inj a b h

/-- What the parser does with a text of digits: the row before the number, if the number is not
zero and a `u32`, and an error otherwise. -/
theorem C34_parse (m : Ints) (hm : m.max = maxU32) (s : Str) :
    rowFromName m s =
      if 0 < decimal s ∧ decimal s ≤ maxU32 then .ok (decimal s - 1) else .error .other := by
  have hdec : ∀ (s : Str) (a : Nat), s.foldl (fun v c => v * 10 + (c.toNat - 48)) a
      = a * 10 ^ s.length + decimal s := by
    intro s
    induction s with
    | nil => intro a; simp [decimal]
    | cons c s ih =>
      intro a
      rw [List.foldl_cons, ih]
      show _ = a * 10 ^ (s.length + 1) + ((c.toNat - 48) * 10 ^ s.length + decimal s)
      rw [Nat.pow_succ, Nat.add_mul, Nat.mul_assoc, Nat.mul_comm 10, Nat.add_assoc]
  have h0 : decVal s = decimal s := by unfold decVal; rw [hdec]; omega
  unfold rowFromName
  rw [h0, hm]
  by_cases h1 : decimal s ≤ maxU32
  · by_cases h2 : 0 < decimal s
    · rw [if_pos h1, if_pos h2, if_pos ⟨h2, h1⟩]
    · rw [if_pos h1, if_neg h2, if_neg (fun h => h2 h.1)]
  · rw [if_neg h1, if_neg (fun h => h1 h.2)]

/-- The name of a row parses to the row, for every `u32` but the last; the last is refused, as its
name is a number beyond `u32`. -/
theorem C34_roundtrip (m : Ints) (hm : m.max = maxU32) (row : Nat) :
    rowFromName m (fmtRowName row) = if row < maxU32 then .ok row else .error .other := by
  rw [rowFromName_fmt, hm]

example : rowFromName checked "1048576".toList = .ok 1048575 ∧
    rowFromName checked "0".toList = .error .other ∧
    rowFromName checked "4294967296".toList = .error .other := by
  refine ⟨?_, ?_, ?_⟩ <;> decide

/-! ## C35: cell references -/

/-- A cell reference reads back from its text exactly if its sheet name is one that survives and it
does not refer to the last row or column of the `u32` range.  The IRI may be anything, and so may
the absolute markers.  The same in every build. -/
theorem C35_roundtrip_partial (m : Ints) (hm : m.max = maxU32) (r : CellRef) (hr : RefU32 r) :
    parseCellRef m (fmtCellRef r) = .ok r ↔ GoodRef r := by
  unfold parseCellRef
  rw [consumeAll_iff, ← List.append_nil (fmtCellRef r),
    pCellRef_fmt m r [] [] (by rw [hm]; exact hr.2) noHead_nil]
  unfold GoodRef
  rw [goodTable_iff, hm]
  constructor
  · rintro ⟨⟨h1, h2, h3⟩, _⟩; exact ⟨h1, h3, h2⟩
  · rintro ⟨h1, h2, h3⟩; exact ⟨⟨h1, h3, h2⟩, rfl⟩

/-- A reference with everything: an IRI with a quote, a sheet name with quote, dot and blank. -/
def sampleRef : CellRef :=
  { iri := some "file:///it's.ods".toList, table := some "it's v1. x".toList
    row := { abs := true, row := 41 }, col := { abs := false, col := 701 } }

example : GoodRef sampleRef ∧ RefU32 sampleRef := by
  refine ⟨⟨?_, by decide, by decide⟩, by decide, by decide⟩
  intro n hn
  cases hn
  exact ⟨by decide, .inl (.inl (by decide))⟩

example : parseCellRef checked (fmtCellRef sampleRef) = .ok sampleRef := by
  refine (C35_roundtrip_partial checked checked_max sampleRef ⟨by decide, by decide⟩).mpr ⟨?_, by decide, by decide⟩
  intro n hn
  cases hn
  exact ⟨by decide, .inl (.inl (by decide))⟩

/-- Sheet names with a hyphen are written without quotes, and refused when read. -/
theorem C35_hyphen_counterexample :
    parseCellRef checked ("Sheet-1.A1".toList) = .error .other ∧
      fmtTable (some "Sheet-1".toList) false = "Sheet-1".toList := by
  constructor <;> decide

/-- A sheet name with a leading dollar loses it. -/
theorem C35_dollar_counterexample :
    (parseCellRef checked ("$x.A1".toList)).toOption.map (·.table) = some (some "x".toList) ∧
      fmtTable (some "$x".toList) false = "$x".toList := by
  constructor <;> decide

/-! ## C36: ranges -/

theorem C36_cellrange_partial (m : Ints) (hm : m.max = maxU32) (r : CellRange) (hr : RangeU32 r) :
    parseCellRange m (fmtCellRange r) = .ok r ↔ GoodRange r := by
  obtain ⟨h1, h2, h3, h4⟩ := hr
  unfold parseCellRange
  rw [consumeAll_iff, ← List.append_nil (fmtCellRange r),
    pCellRange_fmt m r [] [] (by rw [hm]; exact h2) (by rw [hm]; exact h4) noHead_nil]
  unfold GoodRange
  rw [goodTable_iff, goodTable_iff, hm]
  constructor
  · rintro ⟨⟨a, b, c, d, e, f⟩, _⟩; exact ⟨a, b, d, c, f, e⟩
  · rintro ⟨a, b, d, c, f, e⟩; exact ⟨⟨a, b, c, d, e, f⟩, rfl⟩

theorem C36_colrange_partial (m : Ints) (hm : m.max = maxU32) (r : ColRange) (hr : ColRangeU32 r) :
    parseColRange m (fmtColRange r) = .ok r ↔ GoodColRange r := by
  obtain ⟨h1, h2⟩ := hr
  unfold parseColRange
  rw [consumeAll_iff, ← List.append_nil (fmtColRange r),
    pColRange_fmt m r [] [] (by rw [hm]; exact h1) (by rw [hm]; exact h2) noHead_nil]
  unfold GoodColRange
  rw [goodTable_iff, goodTable_iff, hm]
  exact ⟨fun h => h.1, fun h => ⟨h, rfl⟩⟩

theorem C36_rowrange_partial (m : Ints) (hm : m.max = maxU32) (r : RowRange) :
    parseRowRange m (fmtRowRange r) = .ok r ↔ GoodRowRange r := by
  unfold parseRowRange
  rw [consumeAll_iff, ← List.append_nil (fmtRowRange r),
    pRowRange_fmt m r [] [] noHead_nil]
  unfold GoodRowRange
  rw [goodTable_iff, goodTable_iff, hm]
  exact ⟨fun h => h.1, fun h => ⟨h, rfl⟩⟩

/-- A range over two sheets, with mixed markers. -/
def sampleRange : CellRange :=
  { iri := none, fromTable := some "Übersicht_1".toList, fromRow := { abs := false, row := 0 }
    fromCol := { abs := true, col := 0 }, toTable := some "a.b".toList
    toRow := { abs := true, row := 9 }, toCol := { abs := false, col := 26 } }

theorem sampleRange_good : GoodRange sampleRange ∧ RangeU32 sampleRange := by
  refine ⟨⟨?_, ?_, by decide, by decide, by decide, by decide⟩, by decide, by decide, by decide,
    by decide⟩
  · intro n hn
    cases hn
    refine ⟨by decide, .inr ?_⟩
    intro c hc
    rw [plain_iff]
    revert c
    decide
  · intro n hn
    cases hn
    exact ⟨by decide, .inl (.inr (.inr (by decide)))⟩

/-! ## C37: lists of ranges -/

theorem good_fits (m : Ints) (hm : m.max = maxU32) (r : CellRange) (h : GoodRange r) :
    RangeFits m r := by
  obtain ⟨a, b, d, c, f, e⟩ := h
  unfold RangeFits
  rw [← goodTable_iff, ← goodTable_iff, hm]
  exact ⟨a, b, c, d, e, f⟩

/-- A non-empty list of ranges reads back from its text. -/
theorem C37_roundtrip_partial (m : Ints) (hm : m.max = maxU32) (rs : List CellRange)
    (hne : rs ≠ []) (h : ∀ r ∈ rs, GoodRange r) :
    parseCellRanges m (fmtCellRanges rs) = .ok (some rs) := by
  cases rs with
  | nil => exact absurd rfl hne
  | cons r rs => exact parseCellRanges_fmt m r rs (fun x hx => good_fits m hm x (h x hx))

example : [sampleRange, sampleRange] ≠ [] ∧ ∀ r ∈ [sampleRange, sampleRange], GoodRange r := by
  refine ⟨by simp, ?_⟩
  intro r hr
  have : r = sampleRange := by simpa using hr
  rw [this]; exact sampleRange_good.1

/-- The empty list reads back as no list. -/
theorem C37_empty (m : Ints) : parseCellRanges m (fmtCellRanges []) = .ok none := rfl

/-- A list is cut at the first range that does not parse, without an error. -/
theorem C37_cut_counterexample :
    (parseCellRanges checked "A.A1:.B2 x-y.A1:.B2 C.A1:.B2".toList).toOption.map
      (fun o => o.map List.length) = some (some 1) ∧
    parseCellRanges checked "nonsense".toList = .ok none := by
  constructor <;> decide

/-! ## C38: formatting is injective -/

/-- Two cell references with good names and the same text are the same. -/
theorem C38_cellref (a b : CellRef) (ha : GoodTable a.table) (hb : GoodTable b.table)
    (h : fmtCellRef a = fmtCellRef b) : a = b := by
  rw [goodTable_iff] at ha hb
  let m : Ints := ⟨a.row.row + a.col.col + b.row.row + b.col.col + 1, true⟩
  have h1 := (pCellRef_fmt m a [] [] (by show _ ≤ _ + 1; omega) noHead_nil).mpr
    ⟨⟨ha, by show _ < _ + 1; omega, by show _ < _ + 1; omega⟩, rfl⟩
  have h2 := (pCellRef_fmt m b [] [] (by show _ ≤ _ + 1; omega) noHead_nil).mpr
    ⟨⟨hb, by show _ < _ + 1; omega, by show _ < _ + 1; omega⟩, rfl⟩
  rw [h, h2] at h1
  exact (Prod.mk.inj (Except.ok.inj h1)).1.symm

theorem C38_cellrange (a b : CellRange) (ha : GoodTable a.fromTable) (ha' : GoodTable a.toTable)
    (hb : GoodTable b.fromTable) (hb' : GoodTable b.toTable)
    (h : fmtCellRange a = fmtCellRange b) : a = b := by
  rw [goodTable_iff] at ha hb ha' hb'
  let m : Ints := ⟨a.fromRow.row + a.fromCol.col + a.toRow.row + a.toCol.col +
    (b.fromRow.row + b.fromCol.col + b.toRow.row + b.toCol.col) + 1, true⟩
  have h1 := pCellRange_ok m a []
    ⟨ha, ha', by show _ < _ + 1; omega, by show _ < _ + 1; omega, by show _ < _ + 1; omega,
      by show _ < _ + 1; omega⟩ noHead_nil
  have h2 := pCellRange_ok m b []
    ⟨hb, hb', by show _ < _ + 1; omega, by show _ < _ + 1; omega, by show _ < _ + 1; omega,
      by show _ < _ + 1; omega⟩ noHead_nil
  rw [h, h2] at h1
  exact (Prod.mk.inj (Except.ok.inj h1)).1.symm

theorem C38_colrange (a b : ColRange) (ha : GoodTable a.fromTable) (ha' : GoodTable a.toTable)
    (hb : GoodTable b.fromTable) (hb' : GoodTable b.toTable)
    (h : fmtColRange a = fmtColRange b) : a = b := by
  rw [goodTable_iff] at ha hb ha' hb'
  let m : Ints := ⟨a.fromCol.col + a.toCol.col + (b.fromCol.col + b.toCol.col) + 1, true⟩
  have h1 := (pColRange_fmt m a [] [] (by show _ ≤ _ + 1; omega) (by show _ ≤ _ + 1; omega)
    noHead_nil).mpr ⟨⟨ha, ha', by show _ < _ + 1; omega, by show _ < _ + 1; omega⟩, rfl⟩
  have h2 := (pColRange_fmt m b [] [] (by show _ ≤ _ + 1; omega) (by show _ ≤ _ + 1; omega)
    noHead_nil).mpr ⟨⟨hb, hb', by show _ < _ + 1; omega, by show _ < _ + 1; omega⟩, rfl⟩
  rw [h, h2] at h1
  exact (Prod.mk.inj (Except.ok.inj h1)).1.symm

theorem C38_rowrange (a b : RowRange) (ha : GoodTable a.fromTable) (ha' : GoodTable a.toTable)
    (hb : GoodTable b.fromTable) (hb' : GoodTable b.toTable)
    (h : fmtRowRange a = fmtRowRange b) : a = b := by
  rw [goodTable_iff] at ha hb ha' hb'
  let m : Ints := ⟨a.fromRow.row + a.toRow.row + (b.fromRow.row + b.toRow.row) + 1, true⟩
  have h1 := (pRowRange_fmt m a [] [] noHead_nil).mpr
    ⟨⟨ha, ha', by show _ < _ + 1; omega, by show _ < _ + 1; omega⟩, rfl⟩
  have h2 := (pRowRange_fmt m b [] [] noHead_nil).mpr
    ⟨⟨hb, hb', by show _ < _ + 1; omega, by show _ < _ + 1; omega⟩, rfl⟩
  rw [h, h2] at h1
  exact (Prod.mk.inj (Except.ok.inj h1)).1.symm

/-- Without the condition on the names it fails: the empty name is written like no name. -/
theorem C38_empty_counterexample :
    fmtCellRef { table := some [], row := { row := 0 }, col := { col := 0 } }
      = fmtCellRef { table := none, row := { row := 0 }, col := { col := 0 } } := rfl

/-! ## C39: no panics -/

/-- In a build without overflow checks no text makes a parser panic. -/
theorem C39_release (s : Str) :
    parseCellRef release s ≠ .error .panic ∧ parseCellRange release s ≠ .error .panic ∧
      parseColRange release s ≠ .error .panic ∧ parseRowRange release s ≠ .error .panic ∧
      ∃ o, parseCellRanges release s = .ok o := by
  have hno := not_overflows_wrap release s rfl
  refine ⟨fun e => hno (pCellRef_panic _ _ (consumeAll_panic _ _ e)),
    fun e => hno (pCellRange_panic _ _ (consumeAll_panic _ _ e)),
    fun e => hno (pColRange_panic _ _ (consumeAll_panic _ _ e)),
    fun e => pRowRange_panic _ _ (consumeAll_panic _ _ e), ?_⟩
  cases h : parseCellRanges release s with
  | ok o => exact ⟨o, rfl⟩
  | error e => exact absurd (parseCellRanges_panic _ _ _ h).2 hno

/-- In a build with overflow checks no text without seven letters in a row makes a parser panic,
and row ranges never do. -/
theorem C39_checked_partial (s : Str) (h : NoRun 7 s) :
    parseCellRef checked s ≠ .error .panic ∧ parseCellRange checked s ≠ .error .panic ∧
      parseColRange checked s ≠ .error .panic ∧
      ∃ o, parseCellRanges checked s = .ok o := by
  have hno := not_overflows_run checked s (by rw [checked_max]; exact Nat.le_refl _) h
  refine ⟨fun e => hno (pCellRef_panic _ _ (consumeAll_panic _ _ e)),
    fun e => hno (pCellRange_panic _ _ (consumeAll_panic _ _ e)),
    fun e => hno (pColRange_panic _ _ (consumeAll_panic _ _ e)), ?_⟩
  cases h : parseCellRanges checked s with
  | ok o => exact ⟨o, rfl⟩
  | error e => exact absurd (parseCellRanges_panic _ _ _ h).2 hno

theorem C39_rowrange (m : Ints) (s : Str) : parseRowRange m s ≠ .error .panic :=
  fun e => pRowRange_panic _ _ (consumeAll_panic _ _ e)

example : NoRun 7 ".ABCDEF1".toList := by
  intro t ht hl
  obtain ⟨a, b, hab⟩ := ht
  match a, hab with
  | [], hab =>
    match t, hl, hab with
    | c :: t, _, hab =>
      refine ⟨c, List.mem_cons_self, ?_⟩
      have : c = '.' := (List.cons.inj hab).1
      rw [this]
      unfold Letter Capital
      decide
  | x :: a, hab =>
    have hlen := congrArg List.length hab
    simp at hlen
    have ha : a = [] := List.length_eq_zero_iff.mp (by omega)
    have hb : b = [] := List.length_eq_zero_iff.mp (by omega)
    subst ha; subst hb
    have : t = ['A', 'B', 'C', 'D', 'E', 'F', '1'] := by
      simp at hab
      exact hab.2
    refine ⟨'1', by rw [this]; decide, ?_⟩
    unfold Letter Capital
    decide

/-- With overflow checks a column of eight letters panics instead of giving an error. -/
theorem C39_checked_counterexample :
    parseCellRef checked ".AAAAAAAA1".toList = .error .panic ∧
      parseCellRanges checked ".AAAAAAAA1:.A1".toList = .error .panic := by
  constructor <;> decide

end Verif.Refs
