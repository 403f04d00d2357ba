import Verif.Refs.Text
import Verif.Refs.Spec

/-!
# References: the whole parsers
-/

set_option autoImplicit false

namespace Verif.Refs

open Spec

theorem char_le (a b : Char) : a ≤ b ↔ a.toNat ≤ b.toNat := by
  show a.val ≤ b.val ↔ a.val.toNat ≤ b.val.toNat
  exact UInt32.le_iff_toNat_le

theorem char_lt (a b : Char) : a < b ↔ a.toNat < b.toNat := by
  show a.val < b.val ↔ a.val.toNat < b.val.toNat
  exact UInt32.lt_iff_toNat_lt

theorem capital_iff (c : Char) : Capital c ↔ isUpper c = true := by
  simp only [Capital, char_le, isUpper, Bool.and_eq_true, decide_eq_true_eq]
  exact Iff.rfl

theorem letter_iff (c : Char) : Letter c ↔ isAlpha c = true := by
  simp only [Letter, capital_iff, isAlpha, char_le, Bool.or_eq_true, Bool.and_eq_true,
    decide_eq_true_eq]
  exact Iff.rfl

theorem digit_iff (c : Char) : Digit c ↔ isDigit c = true := by
  simp only [Digit, char_le, isDigit, Bool.and_eq_true, decide_eq_true_eq]
  exact Iff.rfl

theorem char_eq_iff (a b : Char) : a = b ↔ a.toNat = b.toNat := by
  constructor
  · intro h; rw [h]
  · intro h
    rw [← Char.ofNat_toNat a, ← Char.ofNat_toNat b, h]

theorem plain_iff (c : Char) : PlainChar c ↔ isNameChar c = true := by
  simp only [PlainChar, letter_iff, digit_iff, isNameChar, Bool.or_eq_true, decide_eq_true_eq,
    char_eq_iff c '_', or_assoc]
  exact Iff.rfl

theorem quoted_iff (n : Str) : Quoted n ↔ needsQuote n = true := by
  unfold Quoted needsQuote
  rw [List.any_eq_true]
  constructor
  · rintro (h | h | h)
    · exact ⟨_, h, by decide⟩
    · exact ⟨_, h, by decide⟩
    · exact ⟨_, h, by decide⟩
  · rintro ⟨c, hc, h⟩
    simp only [Bool.or_eq_true, beq_iff_eq] at h
    rcases h with (h | h) | h
    · subst h; exact .inl hc
    · subst h; exact .inr (.inl hc)
    · subst h; exact .inr (.inr hc)

theorem goodName_iff (n : Str) : GoodName n ↔ NameOk n := by
  unfold GoodName NameOk
  rw [quoted_iff]
  simp only [plain_iff]

theorem goodTable_iff (t : Option Str) : GoodTable t ↔ TableOk t := by
  cases t with
  | none => simp [GoodTable, TableOk]
  | some n => simp [GoodTable, TableOk, goodName_iff]

theorem maxU32_eq : maxU32 = u32Max := by decide

/-! ## Parsers as chains of steps -/

theorem pCellRef_iff (m : Ints) (s rest : Str) (r : CellRef) :
    pCellRef m s = .ok (r, rest) ↔ ∃ s1 s2 s3, parseIri s = .ok (r.iri, s1) ∧
      parseSheetName s1 = .ok (r.table, s2) ∧ parseCol m s2 = .ok (r.col, s3) ∧
      parseRow m s3 = .ok (r.row, rest) := by
  constructor
  · intro h
    simp only [pCellRef, bind, Except.bind, pure, Except.pure] at h
    repeat' split at h
    all_goals first | cases h | skip
    rename_i h1 _ _ h2 _ _ h3 _ _ h4
    exact ⟨_, _, _, h1, h2, h3, h4⟩
  · rintro ⟨s1, s2, s3, h1, h2, h3, h4⟩
    simp only [pCellRef, bind, Except.bind, pure, Except.pure, h1, h2, h3, h4]

theorem pCellRange_iff (m : Ints) (s rest : Str) (r : CellRange) :
    pCellRange m s = .ok (r, rest) ↔ ∃ s1 s2 s3 s4 s5 s6 s7, parseIri s = .ok (r.iri, s1) ∧
      parseSheetName s1 = .ok (r.fromTable, s2) ∧ parseCol m s2 = .ok (r.fromCol, s3) ∧
      parseRow m s3 = .ok (r.fromRow, s4) ∧ tagC ':' .other s4 = .ok ((), s5) ∧
      parseSheetName s5 = .ok (r.toTable, s6) ∧ parseCol m s6 = .ok (r.toCol, s7) ∧
      parseRow m s7 = .ok (r.toRow, rest) := by
  constructor
  · intro h
    simp only [pCellRange, bind, Except.bind, pure, Except.pure] at h
    repeat' split at h
    all_goals first | cases h | skip
    rename_i h1 _ _ h2 _ _ h3 _ _ h4 _ _ h5 _ _ h6 _ _ h7 _ _ h8
    exact ⟨_, _, _, _, _, _, _, h1, h2, h3, h4, h5, h6, h7, h8⟩
  · rintro ⟨s1, s2, s3, s4, s5, s6, s7, h1, h2, h3, h4, h5, h6, h7, h8⟩
    simp only [pCellRange, bind, Except.bind, pure, Except.pure, h1, h2, h3, h4, h5, h6, h7, h8]

theorem pColRange_iff (m : Ints) (s rest : Str) (r : ColRange) :
    pColRange m s = .ok (r, rest) ↔ ∃ s1 s2 s3 s5 s6, parseIri s = .ok (r.iri, s1) ∧
      parseSheetName s1 = .ok (r.fromTable, s2) ∧ parseCol m s2 = .ok (r.fromCol, s3) ∧
      tagC ':' .other s3 = .ok ((), s5) ∧
      parseSheetName s5 = .ok (r.toTable, s6) ∧ parseCol m s6 = .ok (r.toCol, rest) := by
  constructor
  · intro h
    simp only [pColRange, bind, Except.bind, pure, Except.pure] at h
    repeat' split at h
    all_goals first | cases h | skip
    rename_i h1 _ _ h2 _ _ h3 _ _ h5 _ _ h6 _ _ h7
    exact ⟨_, _, _, _, _, h1, h2, h3, h5, h6, h7⟩
  · rintro ⟨s1, s2, s3, s5, s6, h1, h2, h3, h5, h6, h7⟩
    simp only [pColRange, bind, Except.bind, pure, Except.pure, h1, h2, h3, h5, h6, h7]

theorem pRowRange_iff (m : Ints) (s rest : Str) (r : RowRange) :
    pRowRange m s = .ok (r, rest) ↔ ∃ s1 s2 s3 s5 s6, parseIri s = .ok (r.iri, s1) ∧
      parseSheetName s1 = .ok (r.fromTable, s2) ∧ parseRow m s2 = .ok (r.fromRow, s3) ∧
      tagC ':' .other s3 = .ok ((), s5) ∧
      parseSheetName s5 = .ok (r.toTable, s6) ∧ parseRow m s6 = .ok (r.toRow, rest) := by
  constructor
  · intro h
    simp only [pRowRange, bind, Except.bind, pure, Except.pure] at h
    repeat' split at h
    all_goals first | cases h | skip
    rename_i h1 _ _ h2 _ _ h3 _ _ h5 _ _ h6 _ _ h7
    exact ⟨_, _, _, _, _, h1, h2, h3, h5, h6, h7⟩
  · rintro ⟨s1, s2, s3, s5, s6, h1, h2, h3, h5, h6, h7⟩
    simp only [pRowRange, bind, Except.bind, pure, Except.pure, h1, h2, h3, h5, h6, h7]

theorem consumeAll_iff {α : Type} (p : P α) (s : Str) (v : α) :
    consumeAll p s = .ok v ↔ p s = .ok (v, []) := by
  unfold consumeAll
  split
  · rename_i v' h
    rw [h]
    constructor
    · intro e; rw [Except.ok.inj e]
    · intro e; rw [(Prod.mk.inj (Except.ok.inj e)).1]
  · rename_i h
    rw [h]
    constructor
    · intro e; cases e
    · intro e; cases congrArg Prod.snd (Except.ok.inj e)
  · rename_i e h
    rw [h]
    constructor
    · intro e; cases e
    · intro e; cases e

/-! ## Reading back what was formatted -/

theorem noHead_colon {f : Char → Bool} (s : Str) (h : f ':' = false) : NoHead f (':' :: s) :=
  noHead_cons h

/-- The conditions under which a cell reference reads back from the start of a text. -/
theorem pCellRef_fmt (m : Ints) (r : CellRef) (rest rest' : Str) (hc : r.col.col ≤ m.max)
    (hr : NoHead isDigit rest) :
    pCellRef m (fmtCellRef r ++ rest) = .ok (r, rest') ↔
      (TableOk r.table ∧ r.col.col < m.max ∧ r.row.row < m.max) ∧ rest' = rest := by
  have hs : fmtCellRef r ++ rest = fmtIri r.iri ++
      (fmtTable r.table (r.iri.isSome || r.col.abs || r.row.abs) ++
        '.' :: (fmtCol r.col ++ (fmtRow r.row ++ rest))) := by
    simp [fmtCellRef]
  rw [hs, pCellRef_iff]
  constructor
  · rintro ⟨s1, s2, s3, h1, h2, h3, h4⟩
    rw [parseIri_fmt] at h1
    rw [← (Prod.mk.inj (Except.ok.inj h1)).2] at h2
    obtain ⟨ht, rfl⟩ := (parseSheetName_iff _ _ _ _).mp h2
    obtain ⟨hcol, rfl⟩ := (parseCol_iff m _ _ hc (noHead_fmtRow _ _) _).mp h3
    obtain ⟨hrow, hrest⟩ := (parseRow_iff m _ _ hr _).mp h4
    exact ⟨⟨ht, hcol, hrow⟩, hrest⟩
  · rintro ⟨⟨ht, hcol, hrow⟩, rfl⟩
    exact ⟨_, _, _, parseIri_fmt _ _ _ _, (parseSheetName_iff _ _ _ _).mpr ⟨ht, rfl⟩,
      (parseCol_iff m _ _ hc (noHead_fmtRow _ _) _).mpr ⟨hcol, rfl⟩,
      (parseRow_iff m _ _ hr _).mpr ⟨hrow, rfl⟩⟩

theorem tagC_self (c : Char) (e : PFail) (s s' : Str) : tagC c e (c :: s) = .ok ((), s') ↔ s' = s := by
  have : tagC c e (c :: s) = .ok ((), s) := by
    unfold tagC
    simp only
    rw [if_pos trivial]
  rw [this]
  constructor
  · intro h; exact (congrArg Prod.snd (Except.ok.inj h)).symm
  · rintro rfl; rfl

theorem pCellRange_fmt (m : Ints) (r : CellRange) (rest rest' : Str)
    (hc : r.fromCol.col ≤ m.max) (hc' : r.toCol.col ≤ m.max) (hr : NoHead isDigit rest) :
    pCellRange m (fmtCellRange r ++ rest) = .ok (r, rest') ↔
      (TableOk r.fromTable ∧ TableOk r.toTable ∧ r.fromCol.col < m.max ∧ r.fromRow.row < m.max ∧
        r.toCol.col < m.max ∧ r.toRow.row < m.max) ∧ rest' = rest := by
  have hs : fmtCellRange r ++ rest = fmtIri r.iri ++
      (fmtTable r.fromTable (CellRange.isAbs r) ++
        '.' :: (fmtCol r.fromCol ++ (fmtRow r.fromRow ++ ':' ::
          (fmtTable r.toTable (CellRange.isAbs r) ++
            '.' :: (fmtCol r.toCol ++ (fmtRow r.toRow ++ rest)))))) := by
    simp [fmtCellRange]
  rw [hs, pCellRange_iff]
  constructor
  · rintro ⟨s1, s2, s3, s4, s5, s6, s7, h1, h2, h3, h4, h5, h6, h7, h8⟩
    rw [parseIri_fmt] at h1
    rw [← (Prod.mk.inj (Except.ok.inj h1)).2] at h2
    obtain ⟨ht, rfl⟩ := (parseSheetName_iff _ _ _ _).mp h2
    obtain ⟨hcol, rfl⟩ := (parseCol_iff m _ _ hc (noHead_fmtRow _ _) _).mp h3
    obtain ⟨hrow, rfl⟩ := (parseRow_iff m _ _ (noHead_colon _ (by decide)) _).mp h4
    have h5' := (tagC_self _ _ _ _).mp h5
    rw [h5'] at h6
    obtain ⟨ht', rfl⟩ := (parseSheetName_iff _ _ _ _).mp h6
    obtain ⟨hcol', rfl⟩ := (parseCol_iff m _ _ hc' (noHead_fmtRow _ _) _).mp h7
    obtain ⟨hrow', hrest⟩ := (parseRow_iff m _ _ hr _).mp h8
    exact ⟨⟨ht, ht', hcol, hrow, hcol', hrow'⟩, hrest⟩
  · rintro ⟨⟨ht, ht', hcol, hrow, hcol', hrow'⟩, rfl⟩
    exact ⟨_, _, _, _, _, _, _, parseIri_fmt _ _ _ _, (parseSheetName_iff _ _ _ _).mpr ⟨ht, rfl⟩,
      (parseCol_iff m _ _ hc (noHead_fmtRow _ _) _).mpr ⟨hcol, rfl⟩,
      (parseRow_iff m _ _ (noHead_colon _ (by decide)) _).mpr ⟨hrow, rfl⟩,
      (tagC_self _ _ _ _).mpr rfl, (parseSheetName_iff _ _ _ _).mpr ⟨ht', rfl⟩,
      (parseCol_iff m _ _ hc' (noHead_fmtRow _ _) _).mpr ⟨hcol', rfl⟩,
      (parseRow_iff m _ _ hr _).mpr ⟨hrow', rfl⟩⟩

theorem pColRange_fmt (m : Ints) (r : ColRange) (rest rest' : Str)
    (hc : r.fromCol.col ≤ m.max) (hc' : r.toCol.col ≤ m.max) (hr : NoHead isAlpha rest) :
    pColRange m (fmtColRange r ++ rest) = .ok (r, rest') ↔
      (TableOk r.fromTable ∧ TableOk r.toTable ∧ r.fromCol.col < m.max ∧
        r.toCol.col < m.max) ∧ rest' = rest := by
  have hs : fmtColRange r ++ rest = fmtIri r.iri ++
      (fmtTable r.fromTable (r.iri.isSome || r.fromCol.abs || r.toCol.abs) ++
        '.' :: (fmtCol r.fromCol ++ ':' ::
          (fmtTable r.toTable (r.iri.isSome || r.fromCol.abs || r.toCol.abs) ++
            '.' :: (fmtCol r.toCol ++ rest)))) := by
    simp [fmtColRange]
  rw [hs, pColRange_iff]
  constructor
  · rintro ⟨s1, s2, s3, s5, s6, h1, h2, h3, h5, h6, h7⟩
    rw [parseIri_fmt] at h1
    rw [← (Prod.mk.inj (Except.ok.inj h1)).2] at h2
    obtain ⟨ht, rfl⟩ := (parseSheetName_iff _ _ _ _).mp h2
    obtain ⟨hcol, rfl⟩ := (parseCol_iff m _ _ hc (noHead_colon _ (by decide)) _).mp h3
    have h5' := (tagC_self _ _ _ _).mp h5
    rw [h5'] at h6
    obtain ⟨ht', rfl⟩ := (parseSheetName_iff _ _ _ _).mp h6
    obtain ⟨hcol', hrest⟩ := (parseCol_iff m _ _ hc' hr _).mp h7
    exact ⟨⟨ht, ht', hcol, hcol'⟩, hrest⟩
  · rintro ⟨⟨ht, ht', hcol, hcol'⟩, rfl⟩
    exact ⟨_, _, _, _, _, parseIri_fmt _ _ _ _, (parseSheetName_iff _ _ _ _).mpr ⟨ht, rfl⟩,
      (parseCol_iff m _ _ hc (noHead_colon _ (by decide)) _).mpr ⟨hcol, rfl⟩,
      (tagC_self _ _ _ _).mpr rfl, (parseSheetName_iff _ _ _ _).mpr ⟨ht', rfl⟩,
      (parseCol_iff m _ _ hc' hr _).mpr ⟨hcol', rfl⟩⟩

theorem pRowRange_fmt (m : Ints) (r : RowRange) (rest rest' : Str) (hr : NoHead isDigit rest) :
    pRowRange m (fmtRowRange r ++ rest) = .ok (r, rest') ↔
      (TableOk r.fromTable ∧ TableOk r.toTable ∧ r.fromRow.row < m.max ∧
        r.toRow.row < m.max) ∧ rest' = rest := by
  have hs : fmtRowRange r ++ rest = fmtIri r.iri ++
      (fmtTable r.fromTable (r.iri.isSome || r.fromRow.abs || r.toRow.abs) ++
        '.' :: (fmtRow r.fromRow ++ ':' ::
          (fmtTable r.toTable (r.iri.isSome || r.fromRow.abs || r.toRow.abs) ++
            '.' :: (fmtRow r.toRow ++ rest)))) := by
    simp [fmtRowRange]
  rw [hs, pRowRange_iff]
  constructor
  · rintro ⟨s1, s2, s3, s5, s6, h1, h2, h3, h5, h6, h7⟩
    rw [parseIri_fmt] at h1
    rw [← (Prod.mk.inj (Except.ok.inj h1)).2] at h2
    obtain ⟨ht, rfl⟩ := (parseSheetName_iff _ _ _ _).mp h2
    obtain ⟨hcol, rfl⟩ := (parseRow_iff m _ _ (noHead_colon _ (by decide)) _).mp h3
    have h5' := (tagC_self _ _ _ _).mp h5
    rw [h5'] at h6
    obtain ⟨ht', rfl⟩ := (parseSheetName_iff _ _ _ _).mp h6
    obtain ⟨hcol', hrest⟩ := (parseRow_iff m _ _ hr _).mp h7
    exact ⟨⟨ht, ht', hcol, hcol'⟩, hrest⟩
  · rintro ⟨⟨ht, ht', hcol, hcol'⟩, rfl⟩
    exact ⟨_, _, _, _, _, parseIri_fmt _ _ _ _, (parseSheetName_iff _ _ _ _).mpr ⟨ht, rfl⟩,
      (parseRow_iff m _ _ (noHead_colon _ (by decide)) _).mpr ⟨hcol, rfl⟩,
      (tagC_self _ _ _ _).mpr rfl, (parseSheetName_iff _ _ _ _).mpr ⟨ht', rfl⟩,
      (parseRow_iff m _ _ hr _).mpr ⟨hcol', rfl⟩⟩

/-! ## Lists -/

def RangeFits (m : Ints) (r : CellRange) : Prop :=
  TableOk r.fromTable ∧ TableOk r.toTable ∧ r.fromCol.col < m.max ∧ r.fromRow.row < m.max ∧
    r.toCol.col < m.max ∧ r.toRow.row < m.max

theorem pCellRange_ok (m : Ints) (r : CellRange) (rest : Str) (h : RangeFits m r)
    (hr : NoHead isDigit rest) : pCellRange m (fmtCellRange r ++ rest) = .ok (r, rest) :=
  (pCellRange_fmt m r rest rest (Nat.le_of_lt h.2.2.1) (Nat.le_of_lt h.2.2.2.2.1) hr).mpr ⟨h, rfl⟩

/-- The text of a list after its first range. -/
def fmtTail : List CellRange → Str
  | [] => []
  | r :: rs => ' ' :: (fmtCellRange r ++ fmtTail rs)

theorem fmtCellRanges_cons (r : CellRange) (rs : List CellRange) :
    fmtCellRanges (r :: rs) = fmtCellRange r ++ fmtTail rs := by
  induction rs generalizing r with
  | nil => simp [fmtCellRanges, fmtTail]
  | cons r' rs ih =>
    show fmtCellRange r ++ ' ' :: fmtCellRanges (r' :: rs) = _
    rw [ih]; rfl

theorem noHead_fmtTail (rs : List CellRange) : NoHead isDigit (fmtTail rs) := by
  cases rs with
  | nil => exact noHead_nil
  | cons r rs => exact noHead_cons (by decide)

theorem name_not_space (c : Char) (h : isNameChar c = true) : isSpace c = false := by
  cases hd : isSpace c
  · rfl
  · simp only [isSpace, Bool.or_eq_true, beq_iff_eq] at hd
    rcases hd with ((hd | hd) | hd) | hd <;> subst hd <;> exact absurd h (by decide)

theorem noHead_fmtCellRange (r : CellRange) (rest : Str) (hok : TableOk r.fromTable) :
    NoHead isSpace (fmtCellRange r ++ rest) := by
  have hs : fmtCellRange r ++ rest = fmtIri r.iri ++
      (fmtTable r.fromTable (CellRange.isAbs r) ++
        '.' :: (fmtCol r.fromCol ++ (fmtRow r.fromRow ++ ':' ::
          (fmtTable r.toTable (CellRange.isAbs r) ++
            '.' :: (fmtCol r.toCol ++ (fmtRow r.toRow ++ rest)))))) := by
    simp [fmtCellRange]
  rw [hs]
  cases r.iri with
  | some i => exact noHead_cons (by decide)
  | none =>
    show NoHead isSpace (fmtTable _ _ ++ _)
    cases ht : r.fromTable with
    | none => exact noHead_cons (by decide)
    | some n =>
      unfold fmtTable fmtTableName
      cases hab : CellRange.isAbs r with
      | true => exact noHead_cons (by decide)
      | false =>
        cases hq : needsQuote n with
        | true =>
          simp only [fmtAbs, hq, if_true, Bool.false_eq_true, if_false, List.nil_append]
          exact noHead_cons (by decide)
        | false =>
          simp only [fmtAbs, hq, Bool.false_eq_true, if_false, List.nil_append]
          rw [ht] at hok
          obtain ⟨hne, h | h⟩ := hok
          · rw [hq] at h; cases h
          · exact noHead_append hne (fun c hc => name_not_space c (h c hc))

theorem listLoop_fmt (m : Ints) (rs : List CellRange) (h : ∀ r ∈ rs, RangeFits m r) :
    ∀ fuel, rs.length ≤ fuel → listLoop m fuel (fmtTail rs) = .ok rs := by
  induction rs with
  | nil => intro fuel _; cases fuel <;> rfl
  | cons r rs ih =>
    intro fuel hf
    cases fuel with
    | zero => simp at hf
    | succ fuel =>
      have hr := h r List.mem_cons_self
      have hsp : takeWhile1 isSpace (fmtTail (r :: rs)) = .ok ([' '], fmtCellRange r ++ fmtTail rs) :=
        takeWhile1_append [' '] _ (by simp) (by simp [isSpace]) (noHead_fmtCellRange r _ hr.1)
      unfold listLoop
      rw [hsp]
      simp only
      rw [pCellRange_ok m r _ hr (noHead_fmtTail rs)]
      simp only
      rw [ih (fun x hx => h x (List.mem_cons_of_mem _ hx)) fuel (by simpa using hf)]

theorem fmtTail_length (rs : List CellRange) : rs.length ≤ (fmtTail rs).length := by
  induction rs with
  | nil => simp
  | cons r rs ih => simp only [List.length_cons, fmtTail, List.length_append]; omega

theorem parseCellRanges_fmt (m : Ints) (r : CellRange) (rs : List CellRange)
    (h : ∀ x ∈ r :: rs, RangeFits m x) :
    parseCellRanges m (fmtCellRanges (r :: rs)) = .ok (some (r :: rs)) := by
  rw [fmtCellRanges_cons]
  unfold parseCellRanges
  rw [pCellRange_ok m r _ (h r List.mem_cons_self) (noHead_fmtTail rs)]
  simp only
  rw [listLoop_fmt m rs (fun x hx => h x (List.mem_cons_of_mem _ hx)) _ (fmtTail_length rs)]

/-! ## Panics -/

theorem fit_no_panic (m : Ints) (n : Nat) (h : m.wrap = true) : m.fit n ≠ .error .panic := by
  unfold Ints.fit
  rw [h]
  split
  · simp
  · simp

theorem colStep_no_panic (m : Ints) (a : Nat) (c : Char) (h : m.wrap = true) :
    colStep m a c ≠ .error .panic := by
  intro e
  unfold colStep at e
  split at e
  · split at e
    · split at e
      · rename_i e' h1; rw [Except.error.inj e] at h1; exact fit_no_panic m _ h h1
      · split at e
        · rename_i e' h1; rw [Except.error.inj e] at h1; exact fit_no_panic m _ h h1
        · exact fit_no_panic m _ h e
    · split at e
      · rename_i e' h1; rw [Except.error.inj e] at h1; exact fit_no_panic m _ h h1
      · exact fit_no_panic m _ h e
  · cases e

theorem colLoop_no_panic (m : Ints) (s : Str) (h : m.wrap = true) :
    ∀ a, colLoop m a s ≠ .error .panic := by
  induction s with
  | nil => intro a e; cases e
  | cons c s ih =>
    intro a e
    unfold colLoop at e
    split at e
    · rename_i e' h1; rw [Except.error.inj e] at h1; exact colStep_no_panic m _ _ h h1
    · exact ih _ e

/-- With at most `26 ^ n`-sized values a name of at most `n` letters does not overflow. -/
theorem colLoop_short (m : Ints) (n : Nat) (hm : 2 * 26 ^ n ≤ m.max) (s : Str) :
    ∀ k a, k + s.length ≤ n → 25 * a + 26 ≤ 26 * 26 ^ k → colLoop m a s ≠ .error .panic := by
  induction s with
  | nil => intro k a _ _ e; cases e
  | cons c s ih =>
    intro k a hk ha e
    have hpow : 26 ^ (k + 1) ≤ 26 ^ n := Nat.pow_le_pow_right (by omega) (by simp at hk; omega)
    rw [Nat.pow_succ] at hpow
    unfold colLoop at e
    by_cases hu : isUpper c = true
    · have hc : c = letterChar (c.toNat - 65) := (letter_of_upper c hu).symm
      have hlt : c.toNat - 65 < 26 := by
        simp only [isUpper, Bool.and_eq_true, decide_eq_true_eq] at hu; omega
      have hst : colStep m a c = .ok (a * 26 + (c.toNat - 65) + 1) := by
        conv => lhs; rw [hc]
        exact colStep_fits m a _ hlt (by omega)
      rw [hst] at e
      simp only at e
      refine ih (k + 1) _ (by simp at hk ⊢; omega) ?_ e
      rw [Nat.pow_succ]
      omega
    · have hst : colStep m a c = .error .other := by
        unfold colStep; rw [if_neg hu]
      rw [hst] at e
      cases e

theorem colFromName_panic (m : Ints) (s : Str) (e : colFromName m s = .error .panic) :
    colLoop m 0 s = .error .panic := by
  unfold colFromName at e
  split at e
  · rename_i e' h; rw [Except.error.inj e] at h; exact h
  · split at e <;> cases e

/-! The pieces that cannot panic, and what they leave of the input. -/

theorem suffix_dropWhile (f : Char → Bool) (s : Str) : s.dropWhile f <:+ s := List.dropWhile_suffix f

theorem optDollar_suffix (s : Str) : (optDollar s).2 <:+ s := by
  rcases optDollar_cases s with h | ⟨r, h1, h2⟩
  · rw [h]; exact List.suffix_refl s
  · rw [h2, h1]; exact List.suffix_cons _ _

theorem takeWhile1_no_panic (f : Char → Bool) (s : Str) : takeWhile1 f s ≠ .error .panic := by
  intro e
  unfold takeWhile1 at e
  split at e <;> cases e

theorem tagC_no_panic (c : Char) (s : Str) : tagC c .other s ≠ .error .panic := by
  intro e
  unfold tagC at e
  split at e
  · split at e <;> cases e
  · cases e

theorem tagC_suffix (c : Char) (x : PFail) (s r : Str) (h : tagC c x s = .ok ((), r)) : r <:+ s := by
  unfold tagC at h
  split at h
  · split at h
    · rw [← (Prod.mk.inj (Except.ok.inj h)).2]; exact List.suffix_cons _ _
    · cases h
  · cases h

theorem quotedBody_suffix (s : Str) : (quotedBody s).2 <:+ s := by
  induction h : s.length using Nat.strongRecOn generalizing s with
  | _ n ih =>
    cases s with
    | nil => exact List.suffix_refl _
    | cons c s =>
      unfold quotedBody
      split
      · split
        · exact List.suffix_refl _
        · rename_i d s' 
          split
          · exact (ih s'.length (by simp at h; omega) s' rfl).trans
              ((List.suffix_cons _ _).trans (List.suffix_cons _ _))
          · exact List.suffix_refl _
      · exact (ih s.length (by simp at h; omega) s rfl).trans (List.suffix_cons _ _)

theorem singleQuoted_suffix (s n r : Str) (h : singleQuoted s = .ok (n, r)) : r <:+ s := by
  unfold singleQuoted at h
  split at h
  · split at h
    · rename_i s' _ rest hb
      rw [← (Prod.mk.inj (Except.ok.inj h)).2]
      exact ((List.suffix_cons '\'' rest).trans (hb ▸ quotedBody_suffix s')).trans (List.suffix_cons _ _)
    · cases h
  · cases h

theorem singleQuoted_no_panic (s : Str) : singleQuoted s ≠ .error .panic := by
  intro e
  unfold singleQuoted at e
  split at e
  · split at e <;> cases e
  · cases e

theorem parseIri_no_panic (s : Str) : parseIri s ≠ .error .panic := by
  intro e
  unfold parseIri at e
  split at e
  · split at e <;> cases e
  · cases e
  · rename_i e' h1 h
    rw [Except.error.inj e] at h
    exact singleQuoted_no_panic s h

theorem parseIri_suffix (s r : Str) (v : Option Str) (h : parseIri s = .ok (v, r)) : r <:+ s := by
  unfold parseIri at h
  split at h
  · rename_i iri rest h1
    split at h
    · rename_i rest' h2
      rw [← (Prod.mk.inj (Except.ok.inj h)).2]
      exact (tagC_suffix _ _ _ _ h2).trans (singleQuoted_suffix _ _ _ h1)
    · rw [← (Prod.mk.inj (Except.ok.inj h)).2]; exact List.suffix_refl _
  · rw [← (Prod.mk.inj (Except.ok.inj h)).2]; exact List.suffix_refl _
  · cases h

theorem optName_suffix (s : Str) : (optName s).2 <:+ s := by
  unfold optName
  split
  · rename_i h; exact singleQuoted_suffix _ _ _ h
  · split
    · rename_i n rest h
      have := (takeWhile1_all _ _ _ h).2.2
      rw [this]; exact suffix_dropWhile _ _
    · exact List.suffix_refl _

theorem parseSheetName_no_panic (s : Str) : parseSheetName s ≠ .error .panic := by
  intro e
  unfold parseSheetName at e
  split at e
  · cases e
  · rename_i e' h; rw [Except.error.inj e] at h; exact tagC_no_panic _ _ h

theorem parseSheetName_suffix (s r : Str) (v : Option Str) (h : parseSheetName s = .ok (v, r)) :
    r <:+ s := by
  unfold parseSheetName at h
  split at h
  · rename_i rest h1
    rw [← (Prod.mk.inj (Except.ok.inj h)).2]
    exact ((tagC_suffix _ _ _ _ h1).trans (optName_suffix _)).trans (optDollar_suffix _)
  · cases h

theorem parseRow_no_panic (m : Ints) (s : Str) : parseRow m s ≠ .error .panic := by
  intro e
  unfold parseRow at e
  split at e
  · split at e
    · cases e
    · rename_i e' h
      unfold rowFromName at h
      rw [Except.error.inj e] at h
      split at h
      · split at h <;> cases h
      · cases h
  · rename_i e' h; rw [Except.error.inj e] at h; exact takeWhile1_no_panic _ _ h

theorem parseRow_suffix (m : Ints) (s r : Str) (v : CRow) (h : parseRow m s = .ok (v, r)) :
    r <:+ s := by
  unfold parseRow at h
  split at h
  · rename_i ds rest h1
    split at h
    · rw [← (Prod.mk.inj (Except.ok.inj h)).2, (takeWhile1_all _ _ _ h1).2.2]
      exact (suffix_dropWhile _ _).trans (optDollar_suffix _)
    · cases h
  · cases h

theorem parseCol_suffix (m : Ints) (s r : Str) (v : CCol) (h : parseCol m s = .ok (v, r)) :
    r <:+ s := by
  unfold parseCol at h
  split at h
  · rename_i ds rest h1
    split at h
    · rw [← (Prod.mk.inj (Except.ok.inj h)).2, (takeWhile1_all _ _ _ h1).2.2]
      exact (suffix_dropWhile _ _).trans (optDollar_suffix _)
    · cases h
  · cases h

/-- Where a panic comes from: a run of letters in the input whose value overflows. -/
def Overflows (m : Ints) (s : Str) : Prop :=
  ∃ t, t <:+: s ∧ (∀ c ∈ t, isAlpha c = true) ∧ colLoop m 0 t = .error .panic

theorem Overflows.mono {m : Ints} {s t : Str} (h : Overflows m s) (hs : s <:+ t) : Overflows m t := by
  obtain ⟨u, h1, h2, h3⟩ := h
  exact ⟨u, h1.trans hs.isInfix, h2, h3⟩

theorem parseCol_panic (m : Ints) (s : Str) (e : parseCol m s = .error .panic) : Overflows m s := by
  unfold parseCol at e
  split at e
  · rename_i ds rest h1
    split at e
    · cases e
    · rename_i e' h
      rw [Except.error.inj e] at h
      obtain ⟨ha, hb, _⟩ := takeWhile1_all _ _ _ h1
      refine ⟨ds, ?_, ha, colFromName_panic m ds h⟩
      rw [hb]
      exact (List.takeWhile_prefix _).isInfix.trans (optDollar_suffix s).isInfix
  · rename_i e' h; rw [Except.error.inj e] at h; exact absurd h (takeWhile1_no_panic _ _)

theorem pCellRef_panic (m : Ints) (s : Str) (e : pCellRef m s = .error .panic) : Overflows m s := by
  simp only [pCellRef, bind, Except.bind, pure, Except.pure] at e
  split at e
  · rename_i h; rw [Except.error.inj e] at h; exact absurd h (parseIri_no_panic _)
  · rename_i v1 h1
    have k1 := parseIri_suffix _ _ _ h1
    split at e
    · rename_i h; rw [Except.error.inj e] at h; exact absurd h (parseSheetName_no_panic _)
    · rename_i v2 h2
      have k2 := (parseSheetName_suffix _ _ _ h2).trans k1
      split at e
      · rename_i h; rw [Except.error.inj e] at h; exact (parseCol_panic m _ h).mono k2
      · rename_i v3 h3
        split at e
        · rename_i h; rw [Except.error.inj e] at h; exact absurd h (parseRow_no_panic _ _)
        · cases e

theorem pCellRange_panic (m : Ints) (s : Str) (e : pCellRange m s = .error .panic) :
    Overflows m s := by
  simp only [pCellRange, bind, Except.bind, pure, Except.pure] at e
  split at e
  · rename_i h; rw [Except.error.inj e] at h; exact absurd h (parseIri_no_panic _)
  · rename_i v1 h1
    have k1 := parseIri_suffix _ _ _ h1
    split at e
    · rename_i h; rw [Except.error.inj e] at h; exact absurd h (parseSheetName_no_panic _)
    · rename_i v2 h2
      have k2 := (parseSheetName_suffix _ _ _ h2).trans k1
      split at e
      · rename_i h; rw [Except.error.inj e] at h; exact (parseCol_panic m _ h).mono k2
      · rename_i v3 h3
        have k3 := (parseCol_suffix _ _ _ _ h3).trans k2
        split at e
        · rename_i h; rw [Except.error.inj e] at h; exact absurd h (parseRow_no_panic _ _)
        · rename_i v4 h4
          have k4 := (parseRow_suffix _ _ _ _ h4).trans k3
          split at e
          · rename_i h; rw [Except.error.inj e] at h; exact absurd h (tagC_no_panic _ _)
          · rename_i v5 h5
            have k5 := (tagC_suffix _ _ _ _ h5).trans k4
            split at e
            · rename_i h; rw [Except.error.inj e] at h; exact absurd h (parseSheetName_no_panic _)
            · rename_i v6 h6
              have k6 := (parseSheetName_suffix _ _ _ h6).trans k5
              split at e
              · rename_i h; rw [Except.error.inj e] at h; exact (parseCol_panic m _ h).mono k6
              · rename_i v7 h7
                split at e
                · rename_i h; rw [Except.error.inj e] at h; exact absurd h (parseRow_no_panic _ _)
                · cases e

theorem pColRange_panic (m : Ints) (s : Str) (e : pColRange m s = .error .panic) :
    Overflows m s := by
  simp only [pColRange, bind, Except.bind, pure, Except.pure] at e
  split at e
  · rename_i h; rw [Except.error.inj e] at h; exact absurd h (parseIri_no_panic _)
  · rename_i v1 h1
    have k1 := parseIri_suffix _ _ _ h1
    split at e
    · rename_i h; rw [Except.error.inj e] at h; exact absurd h (parseSheetName_no_panic _)
    · rename_i v2 h2
      have k2 := (parseSheetName_suffix _ _ _ h2).trans k1
      split at e
      · rename_i h; rw [Except.error.inj e] at h; exact (parseCol_panic m _ h).mono k2
      · rename_i v3 h3
        have k4 := (parseCol_suffix _ _ _ _ h3).trans k2
        split at e
        · rename_i h; rw [Except.error.inj e] at h; exact absurd h (tagC_no_panic _ _)
        · rename_i v5 h5
          have k5 := (tagC_suffix _ _ _ _ h5).trans k4
          split at e
          · rename_i h; rw [Except.error.inj e] at h; exact absurd h (parseSheetName_no_panic _)
          · rename_i v6 h6
            have k6 := (parseSheetName_suffix _ _ _ h6).trans k5
            split at e
            · rename_i h; rw [Except.error.inj e] at h; exact (parseCol_panic m _ h).mono k6
            · cases e

theorem pRowRange_panic (m : Ints) (s : Str) : pRowRange m s ≠ .error .panic := by
  intro e
  simp only [pRowRange, bind, Except.bind, pure, Except.pure] at e
  split at e
  · rename_i h; rw [Except.error.inj e] at h; exact absurd h (parseIri_no_panic _)
  · split at e
    · rename_i h; rw [Except.error.inj e] at h; exact absurd h (parseSheetName_no_panic _)
    · split at e
      · rename_i h; rw [Except.error.inj e] at h; exact absurd h (parseRow_no_panic _ _)
      · split at e
        · rename_i h; rw [Except.error.inj e] at h; exact absurd h (tagC_no_panic _ _)
        · split at e
          · rename_i h; rw [Except.error.inj e] at h; exact absurd h (parseSheetName_no_panic _)
          · split at e
            · rename_i h; rw [Except.error.inj e] at h; exact absurd h (parseRow_no_panic _ _)
            · cases e

theorem pCellRange_suffix (m : Ints) (s r : Str) (v : CellRange) (h : pCellRange m s = .ok (v, r)) :
    r <:+ s := by
  obtain ⟨s1, s2, s3, s4, s5, s6, s7, h1, h2, h3, h4, h5, h6, h7, h8⟩ := (pCellRange_iff m s r v).mp h
  exact (parseRow_suffix _ _ _ _ h8).trans <| (parseCol_suffix _ _ _ _ h7).trans <|
    (parseSheetName_suffix _ _ _ h6).trans <| (tagC_suffix _ _ _ _ h5).trans <|
    (parseRow_suffix _ _ _ _ h4).trans <| (parseCol_suffix _ _ _ _ h3).trans <|
    (parseSheetName_suffix _ _ _ h2).trans (parseIri_suffix _ _ _ h1)

theorem listLoop_panic (m : Ints) (fuel : Nat) :
    ∀ s e, listLoop m fuel s = .error e → e = .panic ∧ Overflows m s := by
  induction fuel with
  | zero => intro s e h; cases h
  | succ fuel ih =>
    intro s e h
    unfold listLoop at h
    split at h
    · cases h
    · rename_i a s' hsp
      have k : s' <:+ s := by
        rw [(takeWhile1_all _ _ _ hsp).2.2]; exact suffix_dropWhile _ _
      split at h
      · rename_i hp
        cases h
        exact ⟨rfl, (pCellRange_panic m _ hp).mono k⟩
      · cases h
      · rename_i r s'' hp
        split at h
        · cases h
        · rename_i e' hl
          cases h
          obtain ⟨h1, h2⟩ := ih _ _ hl
          exact ⟨h1, (h2.mono (pCellRange_suffix m _ _ _ hp)).mono k⟩

theorem parseCellRanges_panic (m : Ints) (s : Str) (e : PFail) (h : parseCellRanges m s = .error e) :
    e = .panic ∧ Overflows m s := by
  unfold parseCellRanges at h
  split at h
  · rename_i hp
    cases h
    exact ⟨rfl, pCellRange_panic m _ hp⟩
  · cases h
  · rename_i r s'' hp
    split at h
    · cases h
    · rename_i e' hl
      cases h
      obtain ⟨h1, h2⟩ := listLoop_panic m _ _ _ hl
      exact ⟨h1, h2.mono (pCellRange_suffix m _ _ _ hp)⟩

theorem consumeAll_panic {α : Type} (p : P α) (s : Str) (e : consumeAll p s = .error .panic) :
    p s = .error .panic := by
  unfold consumeAll at e
  split at e
  · cases e
  · cases e
  · rename_i e' h; rw [Except.error.inj e] at h; exact h

theorem not_overflows_wrap (m : Ints) (s : Str) (h : m.wrap = true) : ¬ Overflows m s := by
  rintro ⟨t, _, _, e⟩
  exact colLoop_no_panic m t h 0 e

theorem not_overflows_run (m : Ints) (s : Str) (hm : maxU32 ≤ m.max) (h : NoRun 7 s) :
    ¬ Overflows m s := by
  rintro ⟨t, h1, h2, e⟩
  rcases Nat.lt_or_ge t.length 7 with hl | hl
  · refine colLoop_short m 6 ?_ t 0 0 (by omega) (by simp) e
    have : (2 : Nat) * 26 ^ 6 ≤ maxU32 := by decide
    omega
  · obtain ⟨c, hc, hn⟩ := h (t.take 7) ((List.take_prefix 7 t).isInfix.trans h1) (by simp; omega)
    exact hn ((letter_iff c).mpr (h2 c (List.mem_of_mem_take hc)))

end Verif.Refs
