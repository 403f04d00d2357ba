import Verif.Refs.Names

/-!
# Reading back what was formatted, piece by piece
-/

set_option autoImplicit false

namespace Verif.Refs

/-- `s` does not start with a character for which `f` holds. -/
def NoHead (f : Char → Bool) (s : Str) : Prop := ∀ c ∈ s.head?, f c = false

theorem noHead_cons {f : Char → Bool} {c : Char} {s : Str} (h : f c = false) : NoHead f (c :: s) := by
  intro d hd
  simp at hd
  subst hd; exact h

theorem noHead_nil {f : Char → Bool} : NoHead f [] := by intro d hd; simp at hd

theorem noHead_append {f : Char → Bool} {a b : Str} (hne : a ≠ []) (h : ∀ c ∈ a, f c = false) :
    NoHead f (a ++ b) := by
  cases a with
  | nil => exact absurd rfl hne
  | cons c a => exact noHead_cons (h c List.mem_cons_self)

theorem takeWhile_append {f : Char → Bool} (a b : Str) (ha : ∀ c ∈ a, f c = true)
    (hb : NoHead f b) : (a ++ b).takeWhile f = a ∧ (a ++ b).dropWhile f = b := by
  induction a with
  | nil =>
    cases b with
    | nil => exact ⟨rfl, rfl⟩
    | cons c b =>
      have := hb c (by simp)
      simp [List.takeWhile, List.dropWhile, this]
  | cons c a ih =>
    have hc := ha c List.mem_cons_self
    have := ih (fun x hx => ha x (List.mem_cons_of_mem _ hx))
    simp [List.takeWhile, List.dropWhile, hc, this]

theorem takeWhile1_append {f : Char → Bool} (a b : Str) (hne : a ≠ [])
    (ha : ∀ c ∈ a, f c = true) (hb : NoHead f b) : takeWhile1 f (a ++ b) = .ok (a, b) := by
  unfold takeWhile1
  obtain ⟨h1, h2⟩ := takeWhile_append a b ha hb
  rw [h1, h2]
  cases a with
  | nil => exact absurd rfl hne
  | cons c a => rfl

theorem takeWhile1_noHead {f : Char → Bool} (s : Str) (h : NoHead f s) :
    takeWhile1 f s = .error .other := by
  unfold takeWhile1
  cases s with
  | nil => rfl
  | cons c s =>
    have := h c (by simp)
    rw [List.takeWhile_cons_of_neg (by rw [this]; decide)]

theorem mem_takeWhile {f : Char → Bool} (s : Str) : ∀ c ∈ s.takeWhile f, f c = true := by
  induction s with
  | nil => intro c hc; simp at hc
  | cons d s ih =>
    intro c hc
    by_cases hd : f d = true
    · rw [List.takeWhile_cons_of_pos hd] at hc
      rcases List.mem_cons.mp hc with h | h
      · rw [h]; exact hd
      · exact ih c h
    · rw [List.takeWhile_cons_of_neg hd] at hc; simp at hc

theorem takeWhile1_all {f : Char → Bool} (s a b : Str) (h : takeWhile1 f s = .ok (a, b)) :
    (∀ c ∈ a, f c = true) ∧ a = s.takeWhile f ∧ b = s.dropWhile f := by
  unfold takeWhile1 at h
  split at h
  · cases h
  · have h' := Except.ok.inj h
    have h1 : s.takeWhile f = a := congrArg Prod.fst h'
    have h2 : s.dropWhile f = b := congrArg Prod.snd h'
    exact ⟨by rw [← h1]; exact mem_takeWhile s, h1.symm, h2.symm⟩

/-! ## Quotes -/

theorem undbl_quote (s : Str) : undbl ('\'' :: '\'' :: s) = '\'' :: undbl s := by
  conv => lhs; unfold undbl
  rfl

theorem undbl_cons (c : Char) (s : Str) (h : c ≠ '\'') : undbl (c :: s) = c :: undbl s := by
  conv => lhs; unfold undbl
  split
  · rename_i hx; exact absurd (List.cons.inj hx).1 h
  · rename_i hx
    rw [(List.cons.inj hx).1, (List.cons.inj hx).2]
  · rename_i hx; cases hx

theorem undbl_dbl (s : Str) : undbl (dbl s) = s := by
  induction s with
  | nil => rfl
  | cons c s ih =>
    unfold dbl
    split
    · rename_i h
      rw [undbl_quote, ih, h]
    · rename_i h
      rw [undbl_cons c _ h, ih]

theorem stripPre_quote (s : Str) : stripPre ('\'' :: s) = s := rfl

theorem unquote_quoted (b : Str) : unquoteSingle ('\'' :: b ++ ['\'']) = undbl b := by
  unfold unquoteSingle stripSuf
  show undbl (stripPre (b ++ ['\'']).reverse).reverse = _
  rw [List.reverse_append]
  show undbl (b.reverse).reverse = _
  rw [List.reverse_reverse]

def isQuote (c : Char) : Bool := c == '\''

theorem quotedBody_dbl (n rest : Str) (h : NoHead isQuote rest) :
    quotedBody (dbl n ++ '\'' :: rest) = (dbl n, '\'' :: rest) := by
  induction n with
  | nil =>
    show quotedBody ('\'' :: rest) = _
    unfold quotedBody
    rw [if_pos rfl]
    cases rest with
    | nil => rfl
    | cons d r =>
      have : d ≠ '\'' := by
        have := h d (by simp)
        simpa [isQuote] using this
      simp only
      rw [if_neg this]
      rfl
  | cons c n ih =>
    unfold dbl
    split
    · show quotedBody ('\'' :: '\'' :: (dbl n ++ '\'' :: rest)) = _
      conv => lhs; unfold quotedBody
      rw [if_pos rfl]
      simp only
      rw [if_pos True.intro, ih]
    · rename_i hc
      show quotedBody (c :: (dbl n ++ '\'' :: rest)) = _
      conv => lhs; unfold quotedBody
      rw [if_neg hc, ih]

theorem singleQuoted_dbl (n rest : Str) (h : NoHead isQuote rest) :
    singleQuoted ('\'' :: dbl n ++ '\'' :: rest) = .ok (n, rest) := by
  show (match (quotedBody (dbl n ++ '\'' :: rest)).2 with
    | '\'' :: rest' => Except.ok (unquoteSingle ('\'' :: (quotedBody (dbl n ++ '\'' :: rest)).1 ++ ['\'']), rest')
    | _ => Except.error PFail.other) = _
  rw [quotedBody_dbl n rest h]
  simp only
  rw [unquote_quoted, undbl_dbl]

theorem singleQuoted_noQuote (s : Str) (h : NoHead isQuote s) :
    singleQuoted s = .error .quoteStart := by
  cases s with
  | nil => rfl
  | cons c s =>
    have : c ≠ '\'' := by
      have := h c (by simp)
      simpa [isQuote] using this
    unfold singleQuoted
    split
    · rename_i hx; exact absurd (List.cons.inj hx).1 this
    · rfl

/-! ## The absolute marker -/

def isDollar (c : Char) : Bool := c == '$'

theorem optDollar_fmtAbs (abs : Bool) (s : Str) (h : NoHead isDollar s) :
    optDollar (fmtAbs abs ++ s) = (abs, s) := by
  cases abs with
  | true => rfl
  | false =>
    show optDollar s = _
    unfold optDollar
    split
    · have := h '$' (by simp)
      simp [isDollar] at this
    · rfl

/-! ## Columns and rows -/

theorem upper_alpha {c : Char} (h : isUpper c = true) : isAlpha c = true := by
  simp [isAlpha, h]

theorem upper_not_dollar {c : Char} (h : isUpper c = true) : isDollar c = false := by
  cases hd : isDollar c
  · rfl
  · simp only [isDollar, beq_iff_eq] at hd
    subst hd; exact absurd h (by decide)

theorem digit_not_dollar {c : Char} (h : isDigit c = true) : isDollar c = false := by
  cases hd : isDollar c
  · rfl
  · simp only [isDollar, beq_iff_eq] at hd
    subst hd; exact absurd h (by decide)

theorem digit_not_alpha {c : Char} (h : isDigit c = true) : isAlpha c = false := by
  simp only [isDigit, Bool.and_eq_true, decide_eq_true_eq] at h
  simp only [isAlpha, isUpper, Bool.or_eq_false_iff, Bool.and_eq_false_iff, decide_eq_false_iff_not]
  omega

theorem parseCol_fmt (m : Ints) (c : CCol) (rest : Str) (hrest : NoHead isAlpha rest) :
    parseCol m (fmtCol c ++ rest) =
      match colFromName m (fmtColName c.col) with
      | .ok v => .ok ({ abs := c.abs, col := v }, rest)
      | .error e => .error e := by
  have hd : optDollar (fmtCol c ++ rest) = (c.abs, fmtColName c.col ++ rest) := by
    unfold fmtCol
    rw [List.append_assoc]
    exact optDollar_fmtAbs _ _ (noHead_append (fmtColName_ne_nil _)
      (fun x hx => upper_not_dollar (fmtColName_upper _ x hx)))
  unfold parseCol
  rw [hd]
  simp only
  rw [takeWhile1_append _ _ (fmtColName_ne_nil _)
    (fun x hx => upper_alpha (fmtColName_upper _ x hx)) hrest]
  rfl

theorem parseCol_ok (m : Ints) (c : CCol) (rest : Str) (h : c.col < m.max)
    (hrest : NoHead isAlpha rest) : parseCol m (fmtCol c ++ rest) = .ok (c, rest) := by
  rw [parseCol_fmt m c rest hrest, colFromName_fmt m c.col h]

/-- The name of the largest column does not read back: the loop computes `max + 1`. -/
theorem colFromName_max (m : Ints) :
    colFromName m (fmtColName m.max) = .error (if m.wrap then .other else .panic) := by
  have hv : leVal (colDigits (m.max + 1)) = m.max + 1 := leVal_colDigits _
  unfold colFromName
  rw [fmtColName_eq]
  cases hd : colDigits (m.max + 1) with
  | nil => exact absurd hd (colDigits_ne_nil _ (by omega))
  | cons d ds =>
    rw [hd] at hv
    simp only [leVal] at hv
    have hall := colDigits_lt (m.max + 1)
    rw [hd] at hall
    have hd26 : d < 26 := hall d List.mem_cons_self
    have hds : ∀ x ∈ ds.reverse, x < 26 :=
      fun x hx => hall x (List.mem_cons_of_mem _ (List.mem_reverse.mp hx))
    have hb : beVal 0 ds.reverse = leVal ds := beVal_reverse ds
    have hpre := colLoop_fits m ds.reverse hds 0 (by rw [hb]; omega)
    rw [hb] at hpre
    have happ : ∀ (s : Str) (c : Char) (a : Nat), colLoop m a (s ++ [c]) =
        match colLoop m a s with
        | .error e => .error e
        | .ok v => colStep m v c := by
      intro s c
      induction s with
      | nil => intro a; simp only [List.nil_append, colLoop]; cases colStep m a c <;> rfl
      | cons x s ih =>
        intro a
        simp only [List.cons_append, colLoop]
        cases hx : colStep m a x with
        | error e => rfl
        | ok v => exact ih v
    rw [List.reverse_cons, List.map_append, List.map_cons, List.map_nil, happ, hpre]
    have hstep : colStep m (leVal ds) (letterChar d) =
        if m.wrap then .ok 0 else .error .panic := by
      unfold colStep
      rw [if_pos (letter_upper d hd26), letter_toNat d hd26, show 65 + d - 65 = d by omega]
      by_cases h25 : d = 25
      · rw [if_pos h25]
        unfold Ints.fit
        rw [if_pos (show leVal ds + 1 ≤ m.max by omega)]
        simp only
        rw [if_neg (show ¬ (leVal ds + 1) * 26 ≤ m.max by omega)]
        cases m.wrap with
        | true =>
          simp only [if_true]
          rw [show (leVal ds + 1) * 26 = m.max + 1 by omega, Nat.mod_self]
          simp
        | false => rfl
      · rw [if_neg h25]
        unfold Ints.fit
        rw [if_pos (show leVal ds * 26 ≤ m.max by omega)]
        simp only
        rw [if_neg (show ¬ leVal ds * 26 + (d + 1) ≤ m.max by omega)]
        cases m.wrap with
        | true =>
          simp only [if_true]
          rw [show leVal ds * 26 + (d + 1) = m.max + 1 by omega, Nat.mod_self]
        | false => rfl
    simp only
    rw [hstep]
    cases m.wrap <;> rfl

theorem parseCol_iff (m : Ints) (c : CCol) (rest : Str) (h : c.col ≤ m.max)
    (hrest : NoHead isAlpha rest) (rest' : Str) :
    parseCol m (fmtCol c ++ rest) = .ok (c, rest') ↔ c.col < m.max ∧ rest' = rest := by
  constructor
  · intro e
    rcases Nat.lt_or_ge c.col m.max with hlt | hge
    · rw [parseCol_ok m c rest hlt hrest] at e
      exact ⟨hlt, (congrArg Prod.snd (Except.ok.inj e)).symm⟩
    · rw [parseCol_fmt m c rest hrest, show c.col = m.max by omega, colFromName_max m] at e
      cases e
  · rintro ⟨hlt, rfl⟩
    exact parseCol_ok m c _ hlt hrest

theorem parseRow_fmt (m : Ints) (r : CRow) (rest : Str) (hrest : NoHead isDigit rest) :
    parseRow m (fmtRow r ++ rest) =
      if r.row < m.max then .ok (r, rest) else .error .other := by
  have hd : optDollar (fmtRow r ++ rest) = (r.abs, fmtRowName r.row ++ rest) := by
    unfold fmtRow
    rw [List.append_assoc]
    exact optDollar_fmtAbs _ _ (noHead_append (fmtRowName_ne_nil _)
      (fun x hx => digit_not_dollar (fmtRowName_digits _ x hx)))
  unfold parseRow
  rw [hd]
  simp only
  rw [takeWhile1_append _ _ (fmtRowName_ne_nil _) (fmtRowName_digits _) hrest]
  simp only
  rw [rowFromName_fmt]
  by_cases h : r.row < m.max
  · rw [if_pos h, if_pos h]
  · rw [if_neg h, if_neg h]

theorem parseRow_iff (m : Ints) (r : CRow) (rest : Str)
    (hrest : NoHead isDigit rest) (rest' : Str) :
    parseRow m (fmtRow r ++ rest) = .ok (r, rest') ↔ r.row < m.max ∧ rest' = rest := by
  rw [parseRow_fmt m r rest hrest]
  by_cases h : r.row < m.max
  · rw [if_pos h]
    constructor
    · intro e; exact ⟨h, (congrArg Prod.snd (Except.ok.inj e)).symm⟩
    · rintro ⟨_, rfl⟩; rfl
  · rw [if_neg h]
    constructor
    · intro e; cases e
    · intro e; exact absurd e.1 h

theorem noHead_fmtRow (r : CRow) (rest : Str) : NoHead isAlpha (fmtRow r ++ rest) := by
  unfold fmtRow fmtAbs
  cases r.abs with
  | true => exact noHead_cons (by decide)
  | false =>
    simp only [Bool.false_eq_true, if_false, List.nil_append]
    exact noHead_append (fmtRowName_ne_nil _) (fun x hx => digit_not_alpha (fmtRowName_digits _ x hx))

/-! ## Sheet names -/

/-- Names the formatter and the parser agree on. -/
def NameOk (n : Str) : Prop := n ≠ [] ∧ (needsQuote n = true ∨ ∀ c ∈ n, isNameChar c = true)

def TableOk : Option Str → Prop
  | none => True
  | some n => NameOk n

theorem isName_not (c : Char) (h : isNameChar c = true) : isQuote c = false ∧ isDollar c = false := by
  constructor
  · cases hd : isQuote c
    · rfl
    · simp only [isQuote, beq_iff_eq] at hd
      subst hd; exact absurd h (by decide)
  · cases hd : isDollar c
    · rfl
    · simp only [isDollar, beq_iff_eq] at hd
      subst hd; exact absurd h (by decide)

theorem not_needsQuote {n : Str} (h : needsQuote n = false) : ∀ c ∈ n, isQuote c = false := by
  intro c hc
  unfold needsQuote at h
  have := List.any_eq_false.mp h c hc
  cases hq : isQuote c
  · rfl
  · simp only [isQuote] at hq
    rw [hq] at this
    simp at this

theorem parseSheetName_none (abs : Bool) (rest : Str) :
    parseSheetName (fmtAbs abs ++ '.' :: rest) = .ok (none, rest) := by
  have hd : optDollar (fmtAbs abs ++ '.' :: rest) = (abs, '.' :: rest) :=
    optDollar_fmtAbs _ _ (noHead_cons (by decide))
  have hn : optName ('.' :: rest) = (none, '.' :: rest) := by
    unfold optName
    rw [singleQuoted_noQuote _ (noHead_cons (by decide))]
    simp only
    unfold unquotedName
    rw [takeWhile1_noHead _ (noHead_cons (by decide))]
  unfold parseSheetName
  rw [hd]
  simp only
  rw [hn]
  rfl

theorem parseSheetName_ok (t : Option Str) (abs : Bool) (rest : Str) (h : TableOk t) :
    parseSheetName (fmtTable t abs ++ '.' :: rest) = .ok (t, rest) := by
  cases t with
  | none => exact parseSheetName_none false rest
  | some n =>
    obtain ⟨hne, hok⟩ := h
    unfold fmtTable fmtTableName
    simp only
    rw [List.append_assoc]
    cases hq : needsQuote n with
    | true =>
      simp only [if_true]
      have hd : optDollar (fmtAbs abs ++ (('\'' :: dbl n ++ ['\'']) ++ '.' :: rest)) =
          (abs, '\'' :: dbl n ++ '\'' :: '.' :: rest) := by
        rw [List.append_assoc]
        exact optDollar_fmtAbs _ _ (noHead_cons (by decide))
      have hn : optName ('\'' :: dbl n ++ '\'' :: '.' :: rest) = (some n, '.' :: rest) := by
        unfold optName
        rw [singleQuoted_dbl n _ (noHead_cons (by decide))]
      unfold parseSheetName
      rw [hd]
      simp only
      rw [hn]
      rfl
    | false =>
      simp only [Bool.false_eq_true, if_false]
      have hall : ∀ c ∈ n, isNameChar c = true := by
        rcases hok with h | h
        · rw [hq] at h; cases h
        · exact h
      have hd : optDollar (fmtAbs abs ++ (n ++ '.' :: rest)) = (abs, n ++ '.' :: rest) :=
        optDollar_fmtAbs _ _ (noHead_append hne (fun c hc => (isName_not c (hall c hc)).2))
      have hn : optName (n ++ '.' :: rest) = (some n, '.' :: rest) := by
        unfold optName
        rw [singleQuoted_noQuote _ (noHead_append hne (fun c hc => (isName_not c (hall c hc)).1))]
        simp only
        unfold unquotedName
        rw [takeWhile1_append n _ hne hall (noHead_cons (by decide))]
      unfold parseSheetName
      rw [hd]
      simp only
      rw [hn]
      rfl

theorem optDollar_cases (s : Str) : (optDollar s).2 = s ∨ ∃ r, s = '$' :: r ∧ (optDollar s).2 = r := by
  unfold optDollar
  split
  · rename_i r; exact .inr ⟨r, rfl, rfl⟩
  · exact .inl rfl

theorem parseSheetName_only (n : Str) (abs : Bool) (rest rest' : Str)
    (e : parseSheetName (fmtTable (some n) abs ++ '.' :: rest) = .ok (some n, rest')) : NameOk n := by
  have hne : n ≠ [] := by
    intro h
    subst h
    have hs : fmtTable (some []) abs ++ '.' :: rest = fmtAbs abs ++ '.' :: rest := by
      simp [fmtTable, fmtTableName, needsQuote]
    rw [hs, parseSheetName_none] at e
    cases congrArg Prod.fst (Except.ok.inj e)
  refine ⟨hne, ?_⟩
  cases hq : needsQuote n with
  | true => exact .inl rfl
  | false =>
    right
    have hnq := not_needsQuote hq
    have hs : fmtTable (some n) abs ++ '.' :: rest = fmtAbs abs ++ (n ++ '.' :: rest) := by
      simp [fmtTable, fmtTableName, hq]
    rw [hs] at e
    -- the text after the optional `$` does not start with a quote
    have hno : NoHead isQuote (optDollar (fmtAbs abs ++ (n ++ '.' :: rest))).2 := by
      have key : ∀ s : Str, (∀ c ∈ s, isQuote c = false) → NoHead isQuote (s ++ '.' :: rest) := by
        intro s hs
        cases s with
        | nil => exact noHead_cons (by decide)
        | cons c s => exact noHead_cons (hs c List.mem_cons_self)
      cases abs with
      | true => exact key n hnq
      | false =>
        show NoHead isQuote (optDollar (n ++ '.' :: rest)).2
        rcases optDollar_cases (n ++ '.' :: rest) with h | ⟨r, h1, h2⟩
        · rw [h]; exact key n hnq
        · rw [h2]
          cases n with
          | nil => exact absurd rfl hne
          | cons c n' =>
            rw [List.cons_append] at h1
            rw [← (List.cons.inj h1).2]
            exact key n' (fun x hx => hnq x (List.mem_cons_of_mem _ hx))
    unfold parseSheetName at e
    split at e
    · have e1 := congrArg Prod.fst (Except.ok.inj e)
      simp only at e1
      unfold optName at e1
      rw [singleQuoted_noQuote _ hno] at e1
      simp only at e1
      split at e1
      · rename_i a b hu
        have := (takeWhile1_all _ _ _ hu).1
        rw [← Option.some.inj e1]; exact this
      · cases e1
    · cases e

theorem parseSheetName_iff (t : Option Str) (abs : Bool) (rest rest' : Str) :
    parseSheetName (fmtTable t abs ++ '.' :: rest) = .ok (t, rest') ↔ TableOk t ∧ rest' = rest := by
  constructor
  · intro e
    have hok : TableOk t := by
      cases t with
      | none => trivial
      | some n => exact parseSheetName_only n abs rest rest' e
    rw [parseSheetName_ok t abs rest hok] at e
    exact ⟨hok, (congrArg Prod.snd (Except.ok.inj e)).symm⟩
  · rintro ⟨hok, rfl⟩
    exact parseSheetName_ok t abs _ hok

/-! ## IRIs -/

theorem parseIri_fmt (iri : Option Str) (t : Option Str) (abs : Bool) (rest : Str) :
    parseIri (fmtIri iri ++ (fmtTable t abs ++ '.' :: rest)) =
      .ok (iri, fmtTable t abs ++ '.' :: rest) := by
  cases iri with
  | some i =>
    have hs : fmtIri (some i) ++ (fmtTable t abs ++ '.' :: rest)
        = '\'' :: dbl i ++ '\'' :: '#' :: (fmtTable t abs ++ '.' :: rest) := by
      simp [fmtIri]
    unfold parseIri
    rw [hs, singleQuoted_dbl i _ (noHead_cons (by decide))]
    rfl
  | none =>
    show parseIri (fmtTable t abs ++ '.' :: rest) = _
    cases hq : (fmtTable t abs ++ '.' :: rest).head? with
    | none => cases t <;> simp at hq
    | some c =>
      by_cases hc : c = '\''
      · -- only a quoted name starts with a quote
        have hform : ∃ n, fmtTable t abs ++ '.' :: rest = '\'' :: dbl n ++ '\'' :: '.' :: rest := by
          cases t with
          | none =>
            simp [fmtTable] at hq
            rw [← hq] at hc; exact absurd hc (by decide)
          | some n =>
            unfold fmtTable fmtTableName at hq ⊢
            simp only at hq ⊢
            cases abs with
            | true =>
              simp [fmtAbs] at hq
              rw [← hq] at hc; exact absurd hc (by decide)
            | false =>
              cases hn : needsQuote n with
              | true => exact ⟨n, by simp [fmtAbs]⟩
              | false =>
                simp only [hn, fmtAbs, Bool.false_eq_true, if_false, List.nil_append] at hq
                cases n with
                | nil => simp at hq; rw [← hq] at hc; exact absurd hc (by decide)
                | cons d n =>
                  have := not_needsQuote hn d List.mem_cons_self
                  simp at hq
                  rw [hq, hc] at this
                  exact absurd this (by decide)
        obtain ⟨n, hn⟩ := hform
        rw [hn]
        unfold parseIri
        rw [singleQuoted_dbl n _ (noHead_cons (by decide))]
        rfl
      · have : NoHead isQuote (fmtTable t abs ++ '.' :: rest) := by
          intro d hd
          rw [hq] at hd
          cases hd
          simpa [isQuote] using hc
        unfold parseIri
        rw [singleQuoted_noQuote _ this]

end Verif.Refs
