import Verif.Xml.Spec

/-!
# The binary data of an image (src/draw.rs)

Bytes are numbers below 256.
-/

set_option autoImplicit false

namespace Verif.Codec

open Xml.Spec

/-- The alphabet `base64::alphabet::STANDARD` that is chosen in src/draw.rs:385-388, 401-404. -/
def alphabet : List Char :=
  "ABCDEFGHIJKLMNOPQRSTUVWXYZabcdefghijklmnopqrstuvwxyz0123456789+/".toList

/-- The character for a number below 64. -/
def sym (n : Nat) : Char := alphabet.getD n 'A'

/-- The number of a character. -/
def symVal (c : Char) : Option Nat := alphabet.findIdx? (· == c)

/-- `DrawImage::set_binary`, src/draw.rs:400-407: the encoding of the base64 crate, without padding
(`NO_PAD`). -/
def encode64 : List Nat → List Char
  | [] => []
  | [a] => [sym (a / 4), sym (a % 4 * 16)]
  | [a, b] => [sym (a / 4), sym (a % 4 * 16 + b / 16), sym (b % 16 * 4)]
  | a :: b :: c :: r =>
    sym (a / 4) :: sym (a % 4 * 16 + b / 16) :: sym (b % 16 * 4 + c / 64) :: sym (c % 64) :: encode64 r

/-- `DrawImage::get_binary`, src/draw.rs:384-395: the decoding of the base64 crate.  `NO_PAD` refuses padding, and
bits that are not used must be zero. -/
def decode64 : List Char → Option (List Nat)
  | [] => some []
  | [_] => none
  | [w, x] =>
    match symVal w, symVal x with
    | some a, some b => if b % 16 = 0 then some [a * 4 + b / 16] else none
    | _, _ => none
  | [w, x, y] =>
    match symVal w, symVal x, symVal y with
    | some a, some b, some c =>
      if c % 4 = 0 then some [a * 4 + b / 16, b % 16 * 16 + c / 4] else none
    | _, _, _ => none
  | w :: x :: y :: z :: r =>
    match symVal w, symVal x, symVal y, symVal z with
    | some a, some b, some c, some d =>
      (decode64 r).map fun l => (a * 4 + b / 16) :: (b % 16 * 16 + c / 4) :: (c % 4 * 64 + d) :: l
    | _, _, _, _ => none

/-- `get_binary` of an image, where nothing is set the data is empty. -/
def getBinary : Option (List Char) → Option (List Nat)
  | none => some []
  | some s => decode64 s

theorem sym_val (n : Nat) (h : n < 64) : symVal (sym n) = some n := by
  have : ∀ n : Fin 64, symVal (sym n.val) = some n.val := by decide +kernel
  exact this ⟨n, h⟩

theorem symVal_some (c : Char) (n : Nat) (h : symVal c = some n) : n < 64 ∧ sym n = c := by
  unfold symVal at h
  rw [List.findIdx?_eq_some_iff_getElem] at h
  obtain ⟨h1, h2, _⟩ := h
  have hl : alphabet.length = 64 := by decide
  refine ⟨by omega, ?_⟩
  unfold sym
  rw [List.getD_eq_getElem?_getD, List.getElem?_eq_getElem h1]
  simpa using h2

theorem sym_mem (n : Nat) : sym n ∈ alphabet := by
  unfold sym
  rw [List.getD_eq_getElem?_getD]
  cases h : alphabet[n]? with
  | none => decide
  | some c => exact List.mem_of_getElem? h

theorem sym_plain (n : Nat) : ¬ Markup (sym n) := by
  have : ∀ c ∈ alphabet, ¬ Markup c := by decide
  exact this _ (sym_mem n)

theorem encode64_plain (bs : List Nat) : Plain (encode64 bs) := by
  induction bs using encode64.induct with
  | case1 => intro c hc; cases hc
  | case2 a =>
    intro c hc
    simp only [encode64, List.mem_cons, List.not_mem_nil, or_false] at hc
    rcases hc with rfl | rfl <;> exact sym_plain _
  | case3 a b =>
    intro c hc
    simp only [encode64, List.mem_cons, List.not_mem_nil, or_false] at hc
    rcases hc with rfl | rfl | rfl <;> exact sym_plain _
  | case4 a b d r ih =>
    intro c hc
    simp only [encode64, List.mem_cons] at hc
    rcases hc with rfl | rfl | rfl | rfl | hc
    · exact sym_plain _
    · exact sym_plain _
    · exact sym_plain _
    · exact sym_plain _
    · exact ih c hc

/-- Bytes. -/
def Bytes (bs : List Nat) : Prop := ∀ b ∈ bs, b < 256

theorem decode_encode (bs : List Nat) (h : Bytes bs) : decode64 (encode64 bs) = some bs := by
  induction bs using encode64.induct with
  | case1 => rfl
  | case2 a =>
    have ha := h a (by simp)
    simp only [encode64, decode64]
    rw [sym_val _ (by omega), sym_val _ (by omega)]
    simp only
    rw [if_pos (by omega)]
    simp only [Option.some.injEq, List.cons.injEq, and_true]
    omega
  | case3 a b =>
    have ha := h a (by simp)
    have hb := h b (by simp)
    simp only [encode64, decode64]
    rw [sym_val _ (by omega), sym_val _ (by omega), sym_val _ (by omega)]
    simp only
    rw [if_pos (by omega)]
    simp only [Option.some.injEq, List.cons.injEq, and_true]
    omega
  | case4 a b d r ih =>
    have ha := h a (by simp)
    have hb := h b (by simp)
    have hd := h d (by simp)
    simp only [encode64, decode64]
    rw [sym_val _ (by omega), sym_val _ (by omega), sym_val _ (by omega), sym_val _ (by omega)]
    simp only
    rw [ih (fun x hx => h x (by simp [hx]))]
    simp only [Option.map_some, Option.some.injEq, List.cons.injEq, and_true]
    omega

theorem encode_decode (s : List Char) : ∀ bs, decode64 s = some bs → Bytes bs ∧ encode64 bs = s := by
  induction s using decode64.induct with
  | case1 =>
    intro bs h
    cases h
    exact ⟨(by intro b hb; cases hb), rfl⟩
  | case2 c => intro bs h; cases h
  | case3 w x a b hx hw hb =>
    intro bs h
    simp only [decode64, hw, hx] at h
    rw [if_pos hb] at h
    cases h
    obtain ⟨h1, h2⟩ := symVal_some w a hw
    obtain ⟨h3, h4⟩ := symVal_some x b hx
    refine ⟨?_, ?_⟩
    · intro y hy
      simp only [List.mem_cons, List.not_mem_nil, or_false] at hy
      omega
    · rw [encode64, ← h2, ← h4]
      simp only [List.cons.injEq, and_true]
      constructor <;> (congr 1; omega)
  | case4 w x a b hx hw hb =>
    intro bs h
    simp only [decode64, hw, hx] at h
    rw [if_neg hb] at h
    cases h
  | case5 w x hno =>
    intro bs h
    simp only [decode64] at h
    cases h
  | case6 w x y a b c hy hx hw hc =>
    intro bs h
    simp only [decode64, hw, hx, hy] at h
    rw [if_pos hc] at h
    cases h
    obtain ⟨h1, h2⟩ := symVal_some w a hw
    obtain ⟨h3, h4⟩ := symVal_some x b hx
    obtain ⟨h5, h6⟩ := symVal_some y c hy
    refine ⟨?_, ?_⟩
    · intro z hz
      simp only [List.mem_cons, List.not_mem_nil, or_false] at hz
      rcases hz with rfl | rfl <;> omega
    · rw [encode64, ← h2, ← h4, ← h6]
      simp only [List.cons.injEq, and_true]
      refine ⟨?_, ?_, ?_⟩ <;> (congr 1; omega)
  | case7 w x y a b c hy hx hw hc =>
    intro bs h
    simp only [decode64, hw, hx, hy] at h
    rw [if_neg hc] at h
    cases h
  | case8 w x y hno =>
    intro bs h
    simp only [decode64] at h
    cases h
  | case9 w x y z r a b c d hz hy hx hw ih =>
    intro bs h
    simp only [decode64, hw, hx, hy, hz] at h
    cases hr : decode64 r with
    | none => rw [hr] at h; cases h
    | some l =>
      rw [hr] at h
      cases h
      obtain ⟨h1, h2⟩ := symVal_some w a hw
      obtain ⟨h3, h4⟩ := symVal_some x b hx
      obtain ⟨h5, h6⟩ := symVal_some y c hy
      obtain ⟨h7, h8⟩ := symVal_some z d hz
      obtain ⟨i1, i2⟩ := ih l hr
      refine ⟨?_, ?_⟩
      · intro v hv
        simp only [List.mem_cons] at hv
        rcases hv with rfl | rfl | rfl | hv
        · omega
        · omega
        · omega
        · exact i1 v hv
      · rw [encode64, ← h2, ← h4, ← h6, ← h8, i2]
        simp only [List.cons.injEq, and_true]
        refine ⟨?_, ?_, ?_, ?_⟩ <;> (congr 1; omega)
  | case10 w x y z r hno =>
    intro bs h
    simp only [decode64] at h
    cases h

end Verif.Codec
