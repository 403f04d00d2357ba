import Verif.Xml.Lemmas
import Verif.Codec.Element

/-!
# What references stand for

The specification of the references of XML, and that the reader reads them that way.
-/

set_option autoImplicit false

namespace Verif.Xml

open Xml.Spec

/-! ## Specification -/

/-- The digits, in lower and upper case. -/
def lowerDigits : Str := "0123456789abcdef".toList
def upperDigits : Str := "0123456789ABCDEF".toList

/-- `c` is a digit with the value `d`. -/
def DigitIs (base : Nat) (c : Char) (d : Nat) : Prop :=
  d < base ∧ (lowerDigits[d]? = some c ∨ upperDigits[d]? = some c)

instance (base : Nat) (c : Char) (d : Nat) : Decidable (DigitIs base c d) := by unfold DigitIs; infer_instance

/-- The text is a number in a system of numbers, with any number of leading zeros. -/
inductive Numeral (base : Nat) : Str → Nat → Prop
  | one (c : Char) (d : Nat) : DigitIs base c d → Numeral base [c] d
  | snoc (s : Str) (n : Nat) (c : Char) (d : Nat) : Numeral base s n → DigitIs base c d →
    Numeral base (s ++ [c]) (n * base + d)

/-- The name of a reference, between `&` and `;`, and the character it stands for: the five names of XML, and the
numbers of all characters but NUL in the decimal and the hexadecimal system. -/
inductive RefIs : Str → Char → Prop
  | lt : RefIs "lt".toList '<'
  | gt : RefIs "gt".toList '>'
  | amp : RefIs "amp".toList '&'
  | apos : RefIs "apos".toList '\''
  | quot : RefIs "quot".toList '"'
  | dec (s : Str) (c : Char) : c.toNat ≠ 0 → Numeral 10 s c.toNat → RefIs ('#' :: s) c
  | hex (s : Str) (c : Char) : c.toNat ≠ 0 → Numeral 16 s c.toNat → RefIs ('#' :: 'x' :: s) c

/-- A text in a file and the text it stands for. -/
inductive Denotes : Str → Str → Prop
  | nil : Denotes [] []
  | chr (c : Char) (raw s : Str) : c ≠ '&' → Denotes raw s → Denotes (c :: raw) (c :: s)
  | ref (n : Str) (c : Char) (raw s : Str) : RefIs n c → Denotes raw s →
    Denotes ('&' :: (n ++ ';' :: raw)) (c :: s)

/-! ## Numbers -/

theorem digit_small (b : Nat) (c : Char) (d : Nat) (h : digitVal b c = some d) : c.toNat < 128 := by
  unfold digitVal at h
  have hz : ∀ x y : Char, x ≤ y → x.toNat ≤ y.toNat := fun x y h => h
  split at h
  · rename_i h'; exact Nat.lt_of_le_of_lt (hz _ _ h'.2.1) (by decide)
  · split at h
    · rename_i h'; exact Nat.lt_of_le_of_lt (hz _ _ h'.2.1) (by decide)
    · split at h
      · rename_i h'; exact Nat.lt_of_le_of_lt (hz _ _ h'.2.1) (by decide)
      · cases h

theorem digitIs_small (b : Nat) (hb : b ≤ 16) (c : Char) (d : Nat) (h : DigitIs b c d) : c.toNat < 128 := by
  have hall : ∀ x ∈ lowerDigits ++ upperDigits, x.toNat < 128 := by decide +kernel
  rcases h.2 with h | h
  · exact hall c (List.mem_append_left _ (List.mem_of_getElem? h))
  · exact hall c (List.mem_append_right _ (List.mem_of_getElem? h))

theorem digit_ascii10 : ∀ n < 128, ∀ d < 16, digitVal 10 (Char.ofNat n) = some d ↔ DigitIs 10 (Char.ofNat n) d := by
  decide +kernel

theorem digit_ascii16 : ∀ n < 128, ∀ d < 16, digitVal 16 (Char.ofNat n) = some d ↔ DigitIs 16 (Char.ofNat n) d := by
  decide +kernel

theorem digit_lt (b : Nat) (c : Char) (d : Nat) (h : digitVal b c = some d) : d < b := by
  unfold digitVal at h
  split at h
  · rename_i h'; cases h; exact h'.2.2
  · split at h
    · rename_i h'; cases h; exact h'.2.2
    · split at h
      · rename_i h'; cases h; exact h'.2.2
      · cases h

/-- A system of numbers that references use. -/
def Base (b : Nat) : Prop := b = 10 ∨ b = 16

theorem Base.le {b : Nat} (h : Base b) : b ≤ 16 := by rcases h with rfl | rfl <;> decide

theorem digit_iff (b : Nat) (hb : Base b) (c : Char) (d : Nat) : digitVal b c = some d ↔ DigitIs b c d := by
  have hc : Char.ofNat c.toNat = c := Char.ofNat_toNat c
  constructor
  · intro h
    have h1 := digit_small b c d h
    have h2 := digit_lt b c d h
    rcases hb with rfl | rfl
    · have := (digit_ascii10 c.toNat h1 d (by omega)).1 (by rw [hc]; exact h)
      rwa [hc] at this
    · have := (digit_ascii16 c.toNat h1 d h2).1 (by rw [hc]; exact h)
      rwa [hc] at this
  · intro h
    have h1 := digitIs_small b hb.le c d h
    have h2 := h.1
    rcases hb with rfl | rfl
    · have := (digit_ascii10 c.toNat h1 d (by omega)).2 (by rw [hc]; exact h)
      rwa [hc] at this
    · have := (digit_ascii16 c.toNat h1 d h2).2 (by rw [hc]; exact h)
      rwa [hc] at this

theorem radix_append (b : Nat) (s : Str) : ∀ (n : Nat) (t : Str),
    radixFrom b n (s ++ t) = (radixFrom b n s).bind fun m => radixFrom b m t := by
  induction s with
  | nil => intro n t; rfl
  | cons c s ih =>
    intro n t
    rw [List.cons_append, radixFrom, radixFrom]
    cases digitVal b c with
    | none => rfl
    | some d => exact ih _ t

theorem parse_append (b : Nat) (s : Str) (hs : s ≠ []) (c : Char) :
    parseRadix b (s ++ [c]) = (parseRadix b s).bind fun n => (digitVal b c).map fun d => n * b + d := by
  cases s with
  | nil => exact absurd rfl hs
  | cons a s =>
    rw [List.cons_append, parseRadix, parseRadix, ← List.cons_append, radix_append]
    cases radixFrom b 0 (a :: s) with
    | none => rfl
    | some m =>
      show radixFrom b m [c] = (digitVal b c).map _
      rw [radixFrom]
      cases digitVal b c with
      | none => rfl
      | some d => rfl

theorem parse_one (b : Nat) (c : Char) : parseRadix b [c] = digitVal b c := by
  rw [parseRadix, radixFrom]
  cases digitVal b c with
  | none => rfl
  | some d => simp [radixFrom]

theorem Numeral.nonempty {b : Nat} {s : Str} {n : Nat} (h : Numeral b s n) : s ≠ [] := by
  cases h <;> simp

/-- Numbers are read as numbers. -/
theorem parse_iff (b : Nat) (hb : Base b) (s : Str) (n : Nat) : parseRadix b s = some n ↔ Numeral b s n := by
  constructor
  · intro h
    have hlen : ∀ (k : Nat) (s : Str) (n : Nat), s.length = k → parseRadix b s = some n → Numeral b s n := by
      intro k
      induction k with
      | zero =>
        intro s n hs h
        rw [List.eq_nil_of_length_eq_zero hs] at h
        cases h
      | succ k ih =>
        intro s n hs h
        have hne : s ≠ [] := by intro h0; subst h0; cases hs
        rw [← List.dropLast_concat_getLast hne] at h ⊢
        by_cases hd : s.dropLast = []
        · rw [hd, List.nil_append, parse_one] at h
          rw [hd, List.nil_append]
          exact .one _ _ ((digit_iff b hb _ _).1 h)
        · rw [parse_append b _ hd] at h
          cases hp : parseRadix b s.dropLast with
          | none => rw [hp] at h; cases h
          | some m =>
            rw [hp] at h
            cases hv : digitVal b (s.getLast hne) with
            | none => rw [hv] at h; cases h
            | some d =>
              rw [hv] at h
              cases h
              exact .snoc _ _ _ _ (ih _ _ (by rw [List.length_dropLast, hs]; rfl) hp) ((digit_iff b hb _ _).1 hv)
    exact hlen _ s n rfl h
  · intro h
    induction h with
    | one c d h => rw [parse_one]; exact (digit_iff b hb c d).2 h
    | snoc s n c d hs h ih =>
      rw [parse_append b s hs.nonempty, ih]
      show (digitVal b c).map _ = _
      rw [(digit_iff b hb c d).2 h]
      rfl

theorem charOf_iff (n : Nat) (c : Char) : charOf n = some c ↔ c.toNat ≠ 0 ∧ n = c.toNat := by
  unfold charOf
  constructor
  · intro h
    split at h
    · cases h
    · split at h
      · rename_i h0 hv
        cases h
        have : (Char.ofNat n).toNat = n := by
          unfold Char.ofNat
          rw [dif_pos hv]
          rfl
        rw [this]
        exact ⟨h0, rfl⟩
      · cases h
  · rintro ⟨h0, rfl⟩
    rw [if_neg h0, if_pos (show c.toNat.isValidChar from c.valid), Char.ofNat_toNat]

/-! ## References -/

theorem charRef_iff (n : Str) (c : Char) : charRef n = some (some c) ↔
    c.toNat ≠ 0 ∧ ((∃ s, n = '#' :: s ∧ Numeral 10 s c.toNat) ∨ ∃ s, n = '#' :: 'x' :: s ∧ Numeral 16 s c.toNat) := by
  have hbind : ∀ (b : Nat), Base b → ∀ s : Str, (parseRadix b s).bind charOf = some c ↔ c.toNat ≠ 0 ∧ Numeral b s c.toNat := by
    intro b hb s
    rw [← parse_iff b hb]
    cases h : parseRadix b s with
    | none => simp
    | some m =>
      show charOf m = some c ↔ _
      rw [charOf_iff]
      constructor
      · rintro ⟨h1, rfl⟩; exact ⟨h1, rfl⟩
      · rintro ⟨h1, h2⟩; exact ⟨h1, Option.some.inj h2⟩
  have hx : ∀ s n, ¬ Numeral 10 ('x' :: s) n := by
    intro s n h
    rw [← parse_iff 10 (.inl rfl), parseRadix, radixFrom, show digitVal 10 'x' = none by decide] at h
    cases h
  cases n with
  | nil => simp [charRef]
  | cons a d =>
    rw [charRef]
    by_cases ha : a = '#'
    · subst ha
      rw [if_pos rfl]
      cases d with
      | nil =>
        rw [if_neg (by simp), Option.some.injEq, hbind 10 (.inl rfl)]
        simp
      | cons x s =>
        by_cases hx' : x = 'x'
        · subst hx'
          rw [if_pos (show ('x' :: s).head? = some 'x' from rfl), Option.some.injEq, List.tail_cons, hbind 16 (.inr rfl)]
          constructor
          · rintro ⟨h1, h2⟩; exact ⟨h1, .inr ⟨s, rfl, h2⟩⟩
          · rintro ⟨h1, ⟨s', h2, h3⟩ | ⟨s', h2, h3⟩⟩
            · cases h2; exact absurd h3 (hx _ _)
            · cases h2; exact ⟨h1, h3⟩
        · rw [if_neg (by simpa using hx'), Option.some.injEq, hbind 10 (.inl rfl)]
          constructor
          · rintro ⟨h1, h2⟩; exact ⟨h1, .inl ⟨_, rfl, h2⟩⟩
          · rintro ⟨h1, ⟨s', h2, h3⟩ | ⟨s', h2, h3⟩⟩
            · cases h2; exact ⟨h1, h3⟩
            · cases h2; exact absurd rfl hx'
    · rw [if_neg ha]
      constructor
      · intro h; cases h
      · rintro ⟨_, ⟨s, h, _⟩ | ⟨s, h, _⟩⟩ <;> cases h <;> exact absurd rfl ha

theorem refIs_iff (n : Str) (c : Char) : RefIs n c ↔
    (n = ['l', 't'] ∧ c = '<') ∨ (n = ['g', 't'] ∧ c = '>') ∨ (n = ['a', 'm', 'p'] ∧ c = '&')
      ∨ (n = ['a', 'p', 'o', 's'] ∧ c = '\'') ∨ (n = ['q', 'u', 'o', 't'] ∧ c = '"') ∨ charRef n = some (some c) := by
  rw [charRef_iff]
  constructor
  · intro h
    cases h with
    | lt => exact .inl ⟨rfl, rfl⟩
    | gt => exact .inr (.inl ⟨rfl, rfl⟩)
    | amp => exact .inr (.inr (.inl ⟨rfl, rfl⟩))
    | apos => exact .inr (.inr (.inr (.inl ⟨rfl, rfl⟩)))
    | quot => exact .inr (.inr (.inr (.inr (.inl ⟨rfl, rfl⟩))))
    | dec s c h1 h2 => exact .inr (.inr (.inr (.inr (.inr ⟨h1, .inl ⟨s, rfl, h2⟩⟩))))
    | hex s c h1 h2 => exact .inr (.inr (.inr (.inr (.inr ⟨h1, .inr ⟨s, rfl, h2⟩⟩))))
  · rintro (⟨rfl, rfl⟩ | ⟨rfl, rfl⟩ | ⟨rfl, rfl⟩ | ⟨rfl, rfl⟩ | ⟨rfl, rfl⟩ | ⟨h, ⟨s, rfl, h2⟩ | ⟨s, rfl, h2⟩⟩)
    · exact .lt
    · exact .gt
    · exact .amp
    · exact .apos
    · exact .quot
    · exact .dec s c h h2
    · exact .hex s c h h2

/-- What a reference in an attribute stands for. -/
theorem predefined_iff (n v : Str) : predefined n = some v ↔ ∃ c, v = [c] ∧ RefIs n c := by
  constructor
  · intro h
    unfold predefined at h
    split at h
    · rename_i hn; subst hn; cases h; exact ⟨_, rfl, .lt⟩
    · split at h
      · rename_i hn; subst hn; cases h; exact ⟨_, rfl, .gt⟩
      · split at h
        · rename_i hn; subst hn; cases h; exact ⟨_, rfl, .amp⟩
        · split at h
          · rename_i hn; subst hn; cases h; exact ⟨_, rfl, .apos⟩
          · split at h
            · rename_i hn; subst hn; cases h; exact ⟨_, rfl, .quot⟩
            · split at h
              · rename_i c hc; cases h
                exact ⟨c, rfl, (refIs_iff n c).2 (.inr (.inr (.inr (.inr (.inr hc)))))⟩
              · cases h
  · rintro ⟨c, rfl, h⟩
    rcases (refIs_iff n c).1 h with ⟨rfl, rfl⟩ | ⟨rfl, rfl⟩ | ⟨rfl, rfl⟩ | ⟨rfl, rfl⟩ | ⟨rfl, rfl⟩ | h
    · decide
    · decide
    · decide
    · decide
    · decide
    · unfold predefined
      have hne : ∀ x : Str, charRef x = none → n ≠ x := by intro x hx he; subst he; rw [hx] at h; cases h
      rw [if_neg (hne _ (by decide)), if_neg (hne _ (by decide)), if_neg (hne _ (by decide)), if_neg (hne _ (by decide)),
        if_neg (hne _ (by decide)), h]

/-- What a reference in a text stands for. -/
theorem entity_ref (n : Str) (c : Char) (h : RefIs n c) : entity n = [c] := by
  rcases (refIs_iff n c).1 h with ⟨rfl, rfl⟩ | ⟨rfl, rfl⟩ | ⟨rfl, rfl⟩ | ⟨rfl, rfl⟩ | ⟨rfl, rfl⟩ | h
  · decide
  · decide
  · decide
  · decide
  · decide
  · unfold entity
    have hne : ∀ x : Str, charRef x = none → n ≠ x := by intro x hx he; subst he; rw [hx] at h; cases h
    rw [if_neg (hne _ (by decide)), if_neg (hne _ (by decide)), if_neg (hne _ (by decide)), if_neg (hne _ (by decide)),
      if_neg (hne _ (by decide)), h]

theorem numeral_digits {b : Nat} {s : Str} {n : Nat} (h : Numeral b s n) :
    ∀ c ∈ s, c ∈ lowerDigits ++ upperDigits := by
  have hd : ∀ c d, DigitIs b c d → c ∈ lowerDigits ++ upperDigits := by
    intro c d h
    rcases h.2 with h | h
    · exact List.mem_append_left _ (List.mem_of_getElem? h)
    · exact List.mem_append_right _ (List.mem_of_getElem? h)
  induction h with
  | one c d h => intro x hx; rw [List.mem_singleton.1 hx]; exact hd _ _ h
  | snoc s n c d _ h ih =>
    intro x hx
    rcases List.mem_append.1 hx with hx | hx
    · exact ih x hx
    · rw [List.mem_singleton.1 hx]; exact hd _ _ h

/-- The characters in the names of references. -/
theorem refIs_chars (n : Str) (c : Char) (h : RefIs n c) : ∀ x ∈ n, x ≠ ';' ∧ x ≠ '<' ∧ x ≠ '&' := by
  have hd : ∀ x ∈ lowerDigits ++ upperDigits, x ≠ ';' ∧ x ≠ '<' ∧ x ≠ '&' := by decide +kernel
  cases h with
  | lt => decide +kernel
  | gt => decide +kernel
  | amp => decide +kernel
  | apos => decide +kernel
  | quot => decide +kernel
  | dec s c h1 h2 =>
    intro x hx
    rcases List.mem_cons.1 hx with rfl | hx
    · decide
    · exact hd x (numeral_digits h2 x hx)
  | hex s c h1 h2 =>
    intro x hx
    rcases List.mem_cons.1 hx with rfl | hx
    · decide
    · rcases List.mem_cons.1 hx with rfl | hx
      · decide
      · exact hd x (numeral_digits h2 x hx)

/-! ## Attributes -/

theorem unescape_ref (n : Str) (h : ';' ∉ n) : ∀ (acc rest : Str),
    unescapeFrom (some acc) (n ++ ';' :: rest)
      = (predefined (acc ++ n)).bind fun v => (unescapeFrom none rest).map (v ++ ·) := by
  induction n with
  | nil =>
    intro acc rest
    rw [List.nil_append, unescapeFrom, if_pos rfl, List.append_nil]
    cases predefined acc <;> rfl
  | cons c n ih =>
    intro acc rest
    rw [List.cons_append, unescapeFrom, if_neg (fun h' => h (by rw [h']; exact List.mem_cons_self)),
      ih (fun h' => h (List.mem_cons_of_mem _ h')), List.append_assoc]
    rfl

theorem unescape_open (s : Str) : ∀ (acc v : Str), unescapeFrom (some acc) s = some v →
    ∃ n rest, s = n ++ ';' :: rest ∧ ';' ∉ n := by
  induction s with
  | nil => intro acc v h; cases h
  | cons c s ih =>
    intro acc v h
    by_cases hc : c = ';'
    · subst hc; exact ⟨[], s, rfl, by simp⟩
    · rw [unescapeFrom, if_neg hc] at h
      obtain ⟨n, rest, rfl, hn⟩ := ih _ _ h
      exact ⟨c :: n, rest, rfl, by simp [hn, Ne.symm hc]⟩

end Verif.Xml
