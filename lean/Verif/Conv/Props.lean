import Verif.Conv.Model
import Verif.Codec.NoteProps

/-!
# C69, C70, C71: values from and to the types of a program

-/

set_option autoImplicit false

namespace Verif.Conv

open Verif.Codec Xml Xml.Spec

/-! ## Specification -/

/-- The number is one of the type. -/
def InRange (t : IntType) (z : Int) : Prop := t.lo ≤ z ∧ z ≤ t.hi

/-- The value of a cell that holds only `v`, after writing and reading; nothing if the file cannot be read. -/
def stored (fl : Floats) (lb : Bool) (v : Value) : Option Value :=
  match readBack fl false none (cellXml fl (fun _ => none) { value := v } false 1 lb) with
  | some (_, some x) => some x.value
  | some (_, none) => some .empty
  | none => none

/-- The lines of a text, put together again. -/
def joinLines (ls : List Str) : Str := List.intercalate ['\n'] ls

/-! ## Whole numbers -/

theorem inRange_abs (t : IntType) (z : Int) (h : InRange t z) : z.natAbs ≤ 2 ^ 64 := by
  obtain ⟨h1, h2⟩ := h
  cases t <;> simp only [IntType.lo, IntType.hi] at h1 h2 <;> omega

theorem asInt_fromInt (t : IntType) (z : Int) (h : z.natAbs ≤ 2 ^ 64) :
    asInt t (fromInt z) = some (clamp t.lo t.hi (nearInt z)) :=
  congrArg some (toInt_ofInt t.lo t.hi z h)

theorem clamp_id (lo hi w : Int) (h1 : lo ≤ w) (h2 : w ≤ hi) : clamp lo hi w = w := by
  unfold clamp
  rw [if_neg (by omega), if_neg (by omega)]

theorem nearInt_id (z : Int) : nearInt z = z ↔ Exact z.natAbs := by
  rw [← near_id]
  unfold nearInt
  split <;> omega

/-- **C69**: a number of at most 32 bits that is put in a cell is the number that is got from the
cell.  (For the 64-bit types see `C69_long`.) -/
theorem C69_int (t : IntType) (ht : t ≠ .i64 ∧ t ≠ .u64) (z : Int) (h : InRange t z) :
    asInt t (fromInt z) = some z := by
  have hs : z.natAbs ≤ 2 ^ 53 := by
    obtain ⟨h1, h2⟩ := h
    cases t <;> simp only [IntType.lo, IntType.hi] at h1 h2 <;> first | omega | simp at ht
  rw [asInt_fromInt t z (by omega), (nearInt_id z).2 ((near_id _).1 (near_small _ hs))]
  exact congrArg some (clamp_id _ _ _ h.1 h.2)

/-- C69, for all types: the number comes back exactly if a double can hold it, or it is the greatest one of
its type. -/
theorem C69_long (t : IntType) (z : Int) (h : InRange t z) :
    asInt t (fromInt z) = some z ↔ Exact z.natAbs ∨ z = t.hi := by
  rw [asInt_fromInt t z (inRange_abs t z h)]
  constructor
  · intro he
    have he : clamp t.lo t.hi (nearInt z) = z := by injection he
    by_cases hz : z = t.hi
    · exact .inr hz
    refine .inl ((nearInt_id z).1 ?_)
    unfold clamp at he
    split at he
    · rename_i hlo
      -- the least number of each type can be held
      have hlo' : Exact z.natAbs := by
        rw [← he]
        cases t
        · exact ⟨1, 7, by decide, by decide⟩
        · exact ⟨1, 15, by decide, by decide⟩
        · exact ⟨1, 31, by decide, by decide⟩
        · exact ⟨1, 63, by decide, by decide⟩
        all_goals exact ⟨0, 0, by decide, by decide⟩
      exact (nearInt_id z).2 hlo'
    · split at he
      · exact absurd he.symm hz
      · exact he
  · rintro (hz | rfl)
    · rw [(nearInt_id z).2 hz, clamp_id _ _ _ h.1 h.2]
    · have : clamp t.lo t.hi (nearInt t.hi) = t.hi := by cases t <;> decide +kernel
      rw [this]

/-- C69: the number that comes back is the nearest a double can hold, or the greatest one of the type. -/
theorem C69_nearest (t : IntType) (z : Int) (h : InRange t z) : ∃ w, asInt t (fromInt z) = some w
    ∧ InRange t w ∧ ∀ x : Int, InRange t x → Exact x.natAbs → (w - z).natAbs ≤ (x - z).natAbs := by
  refine ⟨_, asInt_fromInt t z (inRange_abs t z h), ?_, ?_⟩
  · unfold clamp InRange
    have : t.lo ≤ t.hi := Int.le_trans h.1 h.2
    split
    · exact ⟨Int.le_refl _, this⟩
    · split
      · exact ⟨this, Int.le_refl _⟩
      · omega
  · intro x hx hex
    have hn := near_nearest z.natAbs x.natAbs hex
    have h0 : near 0 = 0 := by decide
    have hmono := near_nearest z.natAbs 0 ⟨0, 0, by decide, by decide⟩
    obtain ⟨hx1, hx2⟩ := hx
    obtain ⟨hz1, hz2⟩ := h
    unfold clamp nearInt
    split
    · split
      · omega
      · split <;> omega
    · split
      · omega
      · split <;> omega

/-- C69: the order of numbers is never turned around. -/
theorem C69_order (t : IntType) (y z : Int) (hy : InRange t y) (hz : InRange t z) (h : y ≤ z) :
    ∃ v w, asInt t (fromInt y) = some v ∧ asInt t (fromInt z) = some w ∧ v ≤ w := by
  refine ⟨_, _, asInt_fromInt t y (inRange_abs t y hy), asInt_fromInt t z (inRange_abs t z hz), ?_⟩
  have := nearInt_mono y z h
  have hl : t.lo ≤ t.hi := Int.le_trans hy.1 hy.2
  unfold clamp
  split <;> split <;> try split
  all_goals try split
  all_goals omega

/-- C69: a number that is got with a smaller type is cut to the range of that type; it does not wrap. -/
theorem C69_other_type (t t' : IntType) (z : Int) (h : InRange t z) (he : Exact z.natAbs) :
    asInt t' (fromInt z) = some (if z < t'.lo then t'.lo else if t'.hi < z then t'.hi else z) := by
  rw [asInt_fromInt t' z (inRange_abs t z h), (nearInt_id z).2 he]
  rfl

/-- C69: numbers are got from numbers, percentages and currencies, and from nothing else; no number is put
in as an empty value. -/
theorem C69_kinds (t : IntType) (v : Value) :
    (asInt t v).isSome = (asF64 v).isSome
    ∧ ((asF64 v).isSome = true ↔ Codec.Value.valueType v ∈ [.number, .percentage, .currency])
    ∧ fromOptInt none = .empty := by
  cases v <;> simp [asInt, asF64, Codec.Value.valueType, fromOptInt]

/-! ### Any double -/

/-- The absolute value of a finite double as a multiple of the least double above zero, which is 2^-1074 (IEEE 754). -/
def units (f : F64) : Nat :=
  let ex := f.bits.toNat / 2 ^ 52 % 2 ^ 11
  let m := f.bits.toNat % 2 ^ 52
  if ex = 0 then m else (2 ^ 52 + m) * 2 ^ (ex - 1)

/-- The sign bit. -/
def Negative (f : F64) : Prop := 2 ^ 63 ≤ f.bits.toNat

/-- No infinity and not NaN. -/
def Finite (f : F64) : Prop := f.bits.toNat / 2 ^ 52 % 2 ^ 11 ≠ 2047

instance (f : F64) : Decidable (Negative f) := inferInstanceAs (Decidable (_ ≤ _))
instance (f : F64) : Decidable (Finite f) := inferInstanceAs (Decidable (_ ≠ _))

/-- The least and the greatest number of a type with as many bits, with or without a sign. -/
def leastOf (signed : Bool) (bits : Nat) : Int := if signed then - (2 ^ (bits - 1)) else 0
def greatestOf (signed : Bool) (bits : Nat) : Int := if signed then 2 ^ (bits - 1) - 1 else 2 ^ bits - 1

/-- The sign and the size of the types. -/
def IntType.form : IntType → Bool × Nat
  | .i8 => (true, 8) | .i16 => (true, 16) | .i32 => (true, 32) | .i64 => (true, 64)
  | .u8 => (false, 8) | .u16 => (false, 16) | .u32 => (false, 32) | .u64 => (false, 64)

theorem whole_units (ex m : Nat) (hm : m < 2 ^ 52) :
    whole ex m = (if ex = 0 then m else (2 ^ 52 + m) * 2 ^ (ex - 1)) / 2 ^ 1074 := by
  unfold whole
  have hp : (2 : Nat) ^ 52 ≤ 2 ^ 1074 := Nat.pow_le_pow_right (by decide) (by decide)
  by_cases h0 : ex = 0
  · rw [if_pos (by omega), if_pos h0, Nat.div_eq_of_lt (by omega)]
  · rw [if_neg h0]
    by_cases h1 : ex < 1023
    · rw [if_pos h1, Nat.div_eq_of_lt]
      have h2 : 2 ^ (ex - 1) ≤ 2 ^ 1021 := Nat.pow_le_pow_right (by decide) (by omega)
      have h3 : (2 ^ 52 + m) * 2 ^ (ex - 1) ≤ (2 ^ 52 + m) * 2 ^ 1021 := Nat.mul_le_mul_left _ h2
      have h4 : (2 ^ 52 + m) * 2 ^ 1021 < 2 ^ 53 * 2 ^ 1021 := Nat.mul_lt_mul_of_pos_right (by omega) (Nat.two_pow_pos _)
      rw [← Nat.pow_add] at h4
      exact Nat.lt_of_le_of_lt h3 h4
    · rw [if_neg h1, show ex - 1 = (ex - 1023) + 1022 by omega, Nat.pow_add, ← Nat.mul_assoc,
        show (2 : Nat) ^ 1074 = 2 ^ 52 * 2 ^ 1022 by rw [← Nat.pow_add], Nat.mul_div_mul_right _ _ (Nat.two_pow_pos _)]

theorem C69_bounds (t : IntType) : t.lo = leastOf t.form.1 t.form.2 ∧ t.hi = greatestOf t.form.1 t.form.2 := by
  cases t <;> decide

/-- **C69, any double.** The number that is got from any double, whoever put it in: NaN gives 0; infinity gives the
least or the greatest number of the type; any other number is cut to a whole number towards zero and to the range of the
type. -/
theorem C69_double (t : IntType) (f : F64) :
    asInt t (.number f) = some (
      if Finite f then
        clamp (leastOf t.form.1 t.form.2) (greatestOf t.form.1 t.form.2)
          (if Negative f then - ((units f / 2 ^ 1074 : Nat) : Int) else ((units f / 2 ^ 1074 : Nat) : Int))
      else if f.bits.toNat % 2 ^ 52 = 0 then
        if Negative f then leastOf t.form.1 t.form.2 else greatestOf t.form.1 t.form.2
      else 0)
    ∧ (∀ c, asInt t (.currency f c) = asInt t (.number f)) ∧ asInt t (.percentage f) = asInt t (.number f) := by
  refine ⟨?_, fun _ => rfl, rfl⟩
  show some (toInt t.lo t.hi f) = _
  rw [(C69_bounds t).1, (C69_bounds t).2]
  congr 1
  have hb := f.bits.isLt
  have hneg : ((f.bits.toNat / 2 ^ 63 == 1) = true) ↔ Negative f := by
    unfold Negative
    rw [beq_iff_eq]
    omega
  have hw : whole (f.bits.toNat / 2 ^ 52 % 2048) (f.bits.toNat % 2 ^ 52) = units f / 2 ^ 1074 :=
    whole_units _ _ (Nat.mod_lt _ (by decide))
  unfold toInt
  simp only [hw, hneg]
  by_cases hf : f.bits.toNat / 2 ^ 52 % 2048 = 2047
  · rw [if_pos hf, if_neg (show ¬ Finite f from fun h => h hf)]
  · rw [if_neg hf, if_pos (show Finite f from hf)]
    rfl

/-- Not a trivial case: -2.75, infinity and NaN. -/
example : asInt .i8 (.number ⟨0xC006000000000000⟩) = some (-2) ∧ asInt .u8 (.number ⟨0xC006000000000000⟩) = some 0
    ∧ asInt .i16 (.number ⟨0x7FF0000000000000⟩) = some 32767 ∧ asInt .i16 (.number ⟨0x7FF8000000000000⟩) = some 0 := by
  decide +kernel

/-- 64-bit numbers of more than 53 bits do not come back: the number got is another one. -/
theorem C69_long_counterexample :
    asInt .i64 (fromInt 9007199254740993) = some 9007199254740992
    ∧ asInt .u64 (fromInt 18446744073709549569) = some 18446744073709549568
    ∧ asInt .i64 (fromInt (-9007199254740993)) = some (-9007199254740992) := by
  decide +kernel

example : InRange .i32 (-2147483648) ∧ asInt .i32 (fromInt (-2147483648)) = some (-2147483648)
    ∧ asInt .u8 (fromInt (-5)) = some 0 ∧ asInt .u8 (fromInt 300) = some 255
    ∧ asInt .i64 (fromInt 9223372036854775807) = some 9223372036854775807 := by
  unfold InRange; decide +kernel

/-! ## Through a file -/

theorem stored_back (fl : Floats) (lb : Bool) (v v' : Value) (h : ValueBack fl lb v v') :
    stored fl lb v = some v' := by
  have hc : CellOk lb { value := v } :=
    cellOk_plain lb _ rfl rfl noSpan noSpan
  obtain ⟨x, hx⟩ : ∃ x : CellContent, x = { ({ value := v } : CellData).toContent with value := v', style := outStyle (fun _ => none) { value := v }, «repeat» := 1 } :=
    ⟨_, rfl⟩
  have := cell_back fl (fun _ => none) { value := v } false 1 lb false none v' hc (by decide) (by decide) h x hx
  unfold stored
  have hxv : x.value = v' := by rw [hx]
  by_cases hb : Bare false none x
  · rw [this.1 hb]
    show some Value.empty = some v'
    rw [← hb.1, hxv]
  · rw [this.2 hb]
    show some x.value = some v'
    rw [hxv]

/-- C69, through a file: a number of at most 32 bits is the same after writing and reading. -/
theorem C69_file (fl : Floats) (lb : Bool) (t : IntType) (ht : t ≠ .i64 ∧ t ≠ .u64) (z : Int)
    (h : InRange t z) (hf : FloatOk fl (ofInt z)) :
    ∃ v, stored fl lb (fromInt z) = some v ∧ asInt t v = some z :=
  ⟨_, stored_back fl lb _ _ (back_kept fl lb (fromInt z) hf), C69_int t ht z h⟩

/-! ## C70: the text a user sees -/

theorem cowLoop_true (t : List Node) : ∀ buf, cowLoop buf true t
    = buf ++ (t.map fun x => '\n' :: extract x).flatten := by
  induction t with
  | nil => intro buf; simp [cowLoop]
  | cons x t ih => intro buf; rw [cowLoop, ih]; simp

theorem join_cons (l : Str) (ls : List Str) : joinLines (l :: ls) = l ++ (ls.map fun x => '\n' :: x).flatten := by
  unfold joinLines
  induction ls generalizing l with
  | nil => simp [List.intercalate]
  | cons m ls ih =>
    have h := ih m
    simp only [List.intercalate, List.intersperse, List.flatten_cons, List.map_cons] at h ⊢
    rw [h]
    simp

theorem cowLoop_join (t : List Node) : cowLoop [] false t = joinLines (t.map extract) := by
  cases t with
  | nil => rfl
  | cons x t =>
    rw [cowLoop, cowLoop_true, List.map_cons, join_cons]
    simp [List.map_map, Function.comp_def]

/-- The lines a content stands for. -/
def contentLines : TextContent → List Str
  | .empty => []
  | .text t => [t]
  | .xml f => [extract f.node]
  | .xmlVec l => l.map extract

theorem append_lines (new c c' : TextContent) (h : appendText new c = .ok c') :
    contentLines c' = contentLines c ++ contentLines new := by
  have hp : ∀ t, extract (textP t) = t := by intro t; simp [textP, extract, extracts]
  cases c <;> cases new <;> simp [appendText, pushContent, Except.map] at h <;> subst h
    <;> simp [contentLines, hp]

/-- The content came from at least one paragraph. -/
def Solid : TextContent → Prop
  | .xmlVec l => l ≠ []
  | _ => True

theorem append_solid (new c c' : TextContent) (h : appendText new c = .ok c') (hc : Solid c) (hn : Solid new) :
    Solid c' := by
  cases c <;> cases new <;> simp [appendText, pushContent, Except.map] at h <;> subst h
    <;> first | trivial | simp_all [Solid]

theorem shown_content (c : TextContent) (d : Str) (hc : Solid c) :
    asCowStrOr ((contentValue c).getD .empty) d
      = if contentLines c = [] then d else joinLines (contentLines c) := by
  cases c with
  | empty => rfl
  | text t => simp [contentValue, contentLines, asCowStrOr, joinLines, List.intercalate]
  | xml f => simp [contentValue, contentLines, asCowStrOr, cowLoop_join]
  | xmlVec l =>
    have : l ≠ [] := hc
    simp [contentValue, contentLines, asCowStrOr, cowLoop_join, this]

/-- The characters of some events. -/
def evText : List Ev → Str
  | [] => []
  | .chr c :: es => c :: evText es
  | _ :: es => evText es

theorem evText_append (a b : List Ev) : evText (a ++ b) = evText a ++ evText b := by
  induction a with
  | nil => rfl
  | cons e a ih => cases e <;> simp [evText, ih]

theorem evText_chars (s : Str) : evText (s.map Ev.chr) = s := by
  induction s with
  | nil => rfl
  | cons c s ih => simp [evText, ih]

theorem extracts_says : ∀ (k : Nat) (c : List Node), sizeOf c ≤ k → evText (treesSay c) = extracts c := by
  intro k
  induction k with
  | zero =>
    intro c hk
    cases c with
    | nil => rfl
    | cons x c => simp at hk
  | succ k ih =>
    intro c hk
    cases c with
    | nil => rfl
    | cons x c =>
      have hsz : sizeOf c ≤ k := by simp at hk; omega
      cases x with
      | text s => rw [treesSay, evText_append, ih c hsz, treeSays, evText_chars, extracts, extract]
      | tag n as c' =>
        have hsz' : sizeOf c' ≤ k := by simp at hk; omega
        rw [treesSay, evText_append, ih c hsz, treeSays, extracts, extract]
        show evText (treesSay c' ++ [.end n]) ++ _ = _
        rw [evText_append, ih c' hsz']
        simp [evText]

theorem extracts_norms (c : List Node) : extracts (norms c) = extracts c := by
  rw [← extracts_says _ (norms c) (Nat.le_refl _), norms_says _ c (Nat.le_refl _),
    extracts_says _ c (Nat.le_refl _)]

theorem extracts_append (a b : List Node) : extracts (a ++ b) = extracts a ++ extracts b := by
  induction a with
  | nil => rfl
  | cons x a ih => simp [extracts, ih]

/-- The lines after some nodes were added to a content. -/
theorem adds_lines (name : Str) (as : List (Str × Str)) (g : List Node) : ∀ c : TextContent,
    (∀ l, c ≠ .xmlVec l) → (g ≠ [] ∨ c ≠ .empty) →
    contentLines (TextContent.adds name as c g) = [(contentLines c).flatten ++ extracts g] := by
  induction g with
  | nil =>
    intro c hc hne
    cases c with
    | empty => simp at hne
    | text t => simp [TextContent.adds, contentLines, extracts]
    | xml f => simp [TextContent.adds, contentLines, extracts]
    | xmlVec l => exact absurd rfl (hc l)
  | cons x g ih =>
    intro c hc _
    show contentLines (TextContent.adds name as (TextContent.add1 name as c x) g) = _
    have h1 : ∀ l, TextContent.add1 name as c x ≠ .xmlVec l := by
      intro l
      cases c <;> cases x <;> simp [TextContent.add1]
      all_goals exact absurd rfl (hc _)
    have h2 : TextContent.add1 name as c x ≠ .empty := by
      cases c <;> cases x <;> simp [TextContent.add1]
    rw [ih _ h1 (.inr h2)]
    have h3 : (contentLines (TextContent.add1 name as c x)).flatten = (contentLines c).flatten ++ extract x := by
      cases c with
      | xmlVec l => exact absurd rfl (hc l)
      | empty => cases x <;> simp [TextContent.add1, contentLines, extract, extracts, Frame.node]
      | text t => cases x <;> simp [TextContent.add1, contentLines, extract, extracts, Frame.node]
      | xml f =>
        simp [TextContent.add1, contentLines, extract, extracts, Frame.node, Frame.add, extracts_append]
    rw [h3, extracts, List.append_assoc]

/-- A paragraph of which nothing is left: it has content, but this is made of empty texts only. -/
def vanishes : Node → Bool
  | .tag _ _ [] => false
  | .tag _ _ c => c.all fun x => decide (x = .text [])
  | .text _ => true

theorem norms_nil (c : List Node) : norms c = [] ↔ c.all (fun x => decide (x = .text [])) = true := by
  induction c with
  | nil => simp [norms]
  | cons x c ih =>
    cases x with
    | tag n as c' => simp [norms]
    | text s =>
      cases s with
      | nil => rw [norms, addText, ih]; simp
      | cons a s =>
        rw [norms]
        simp only [List.all_cons, Bool.and_eq_true, decide_eq_true_eq]
        constructor
        · intro h
          have := congrArg treesSay h
          rw [addText_says] at this
          simp [treesSay] at this
        · rintro ⟨h, _⟩
          simp at h

theorem node_lines (n : Str) (as : List (Str × Str)) (c : List Node) :
    contentLines (nodeContent (.tag n as c))
      = if vanishes (.tag n as c) = true then [] else [extract (.tag n as c)] := by
  cases c with
  | nil => simp [nodeContent, contentLines, vanishes, extract, extracts]
  | cons x c =>
    show contentLines (TextContent.adds n as .empty (norms (x :: c))) = _
    have hv : vanishes (.tag n as (x :: c)) = true ↔ norms (x :: c) = [] := (norms_nil (x :: c)).symm
    by_cases h : norms (x :: c) = []
    · rw [if_pos (hv.2 h), h]; rfl
    · rw [if_neg (fun hc => h (hv.1 hc)), adds_lines n as _ .empty (by intro l; simp) (.inl h)]
      rw [extracts_norms, extract]
      rfl

theorem adds_solid (name : Str) (as : List (Str × Str)) (g : List Node) : ∀ c : TextContent,
    Solid c → (∀ l, c ≠ .xmlVec l) → Solid (TextContent.adds name as c g)
      ∧ ∀ l, TextContent.adds name as c g ≠ .xmlVec l := by
  induction g with
  | nil => intro c h h'; exact ⟨h, h'⟩
  | cons x g ih =>
    intro c h h'
    have h1 : ∀ l, TextContent.add1 name as c x ≠ .xmlVec l := by
      intro l
      cases c <;> cases x <;> simp [TextContent.add1]
      all_goals exact absurd rfl (h' _)
    refine ih _ ?_ h1
    cases c <;> cases x <;> first | trivial | exact absurd rfl (h' _)

theorem node_single (n : Str) (as : List (Str × Str)) (c : List Node) :
    ∀ l, nodeContent (.tag n as c) ≠ .xmlVec l := by
  cases c with
  | nil => intro l; simp [nodeContent]
  | cons x c => exact (adds_solid n as (norms (x :: c)) .empty trivial (by intro l; simp)).2

/-- A paragraph without paragraphs in it. -/
def Para (x : Node) : Prop := ∃ as c, x = .tag pName as c ∧ AllWithout pName c

/-- The content after one more paragraph. -/
def addPara (c : TextContent) (x : Node) : TextContent := (appendText (nodeContent x) c).toOption.getD c

theorem pieces_any (tag : Str) (t : List Node) (h : ∀ x ∈ t, Para x) : ∀ c : TextContent, Solid c →
    Pieces tag (toks (nodesItems t)) c (t.foldl addPara c) ∧ Solid (t.foldl addPara c)
      ∧ contentLines (t.foldl addPara c) = contentLines c ++ ((t.filter fun x => !vanishes x).map extract) := by
  induction t with
  | nil => intro c hc; exact ⟨Pieces.nil c, hc, by simp⟩
  | cons x t ih =>
    intro c hc
    obtain ⟨as, k, rfl, hw⟩ := h x List.mem_cons_self
    have hsingle := node_single pName as k
    obtain ⟨c1, h1⟩ : ∃ c1, appendText (nodeContent (.tag pName as k)) c = .ok c1 := by
      generalize hn : nodeContent (.tag pName as k) = y at hsingle
      cases y with
      | xmlVec l => exact absurd rfl (hsingle l)
      | empty => cases c <;> exact ⟨_, rfl⟩
      | text t => cases c <;> exact ⟨_, rfl⟩
      | xml f => cases c <;> exact ⟨_, rfl⟩
    have hs : Solid (nodeContent (.tag pName as k)) := by
      generalize nodeContent (.tag pName as k) = y at hsingle
      cases y <;> first | trivial | exact absurd rfl (hsingle _)
    obtain ⟨h2, h3, h4⟩ := ih (fun y hy => h y (List.mem_cons_of_mem _ hy)) c1 (append_solid _ _ _ h1 hc hs)
    have hc1 : addPara c (.tag pName as k) = c1 := by unfold addPara; rw [h1]; rfl
    rw [List.foldl_cons, hc1]
    refine ⟨?_, h3, ?_⟩
    · rw [nodesItems, toks_append]
      exact Pieces.cons (piece_node tag as k hw) h1 h2
    · rw [h4, append_lines _ _ _ h1, node_lines]
      by_cases hv : vanishes (.tag pName as k) = true
      · rw [if_pos hv, List.filter_cons_of_neg (by simp [hv])]; simp
      · rw [if_neg hv, List.filter_cons_of_pos (by simp [hv])]; simp

/-- C70, for text with markup, exactly: the text of every paragraph that is not made of empty texts only is
shown after writing and reading, in order and with nothing else; the markup can change. -/
theorem C70_markup (fl : Floats) (t : List Node) (d : Str) (hn : AllNamesOk t) (h : ∀ x ∈ t, Para x) :
    ∃ v, stored fl false (fromTags t) = some v
      ∧ asCowStrOr v d = if t.all vanishes = true then d
          else joinLines ((t.filter fun x => !vanishes x).map extract) := by
  refine ⟨_, stored_back fl false (fromTags t) _ ⟨hn, fun tag =>
    ⟨t.foldl addPara .empty, _, (pieces_any tag t h .empty trivial).1, value_textXml fl t _, rfl,
      fun h => by cases h⟩⟩, ?_⟩
  obtain ⟨-, h2, h3⟩ := pieces_any [] t h .empty trivial
  rw [shown_content _ d h2, h3]
  have hall : t.all vanishes = true ↔ contentLines .empty ++ ((t.filter fun x => !vanishes x).map extract) = [] := by
    simp [contentLines, List.all_eq_true]
  by_cases ha : t.all vanishes = true
  · rw [if_pos ha, if_pos (hall.1 ha)]
  · rw [if_neg ha, if_neg (fun hc => ha (hall.2 hc))]
    rfl

/-- C70, for text with markup: the same text is shown before and after, if no paragraph is made of empty
texts only.  Missing: such paragraphs, and paragraphs in paragraphs. -/
theorem C70_markup_partial (fl : Floats) (t : List Node) (d : Str) (hn : AllNamesOk t) (h : ∀ x ∈ t, Para x)
    (hne : t ≠ []) (hv : ∀ x ∈ t, vanishes x = false) :
    ∃ v, stored fl false (fromTags t) = some v ∧ asCowStrOr v d = asCowStrOr (fromTags t) d := by
  obtain ⟨v, h1, h2⟩ := C70_markup fl t d hn h
  refine ⟨v, h1, ?_⟩
  have hall : ¬ t.all vanishes = true := by
    cases t with
    | nil => exact absurd rfl hne
    | cons x t => simp [hv x List.mem_cons_self]
  have hf : (t.filter fun x => !vanishes x) = t := List.filter_eq_self.2 (fun x hx => by simp [hv x hx])
  rw [h2, if_neg hall, hf, ← cowLoop_join]
  rfl

/-- C70, for text, exactly: the lines that are not blank are shown after writing and reading. -/
theorem C70_text (fl : Floats) (lb : Bool) (s d : Str) :
    ∃ v, stored fl lb (fromStr s) = some v
      ∧ asCowStrOr v d = if (splitLines s).all (fun l => l.isEmpty) = true then d
          else joinLines ((splitLines s).filter fun l => !l.isEmpty) := by
  refine ⟨_, stored_back fl lb (fromStr s) _ (back_text fl lb s), ?_⟩
  rw [← appendLines_value]
  have key : ∀ (ls : List Str) (c : TextContent), Solid c → Solid (appendLines c ls)
      ∧ contentLines (appendLines c ls) = contentLines c ++ (ls.filter fun l => !l.isEmpty) := by
    intro ls
    induction ls with
    | nil => intro c hc; exact ⟨hc, by simp [appendLines]⟩
    | cons l ls ih =>
      intro c hc
      have ha := append1_eq c l
      have hs : Solid (lineContent l) := by unfold lineContent; split <;> trivial
      obtain ⟨h1, h2⟩ := ih (append1 c l) (append_solid _ _ _ ha hc hs)
      refine ⟨h1, ?_⟩
      show contentLines (appendLines (append1 c l) ls) = _
      rw [h2, append_lines _ _ _ ha]
      cases l with
      | nil => simp [lineContent, contentLines]
      | cons a l => simp [lineContent, contentLines]
  obtain ⟨h1, h2⟩ := key (splitLines s) .empty trivial
  rw [shown_content _ d h1, h2]
  have hall : (splitLines s).all (fun l => l.isEmpty) = true ↔
      contentLines .empty ++ ((splitLines s).filter fun l => !l.isEmpty) = [] := by
    simp [contentLines, List.all_eq_true]
  by_cases ha : (splitLines s).all (fun l => l.isEmpty) = true
  · rw [if_pos ha, if_pos (hall.1 ha)]
  · rw [if_neg ha, if_neg (fun hc => ha (hall.2 hc))]
    rfl

/-- The number of characters of some lines, with a line break each. -/
def total (ls : List Str) : Nat := (ls.map fun l => l.length + 1).sum

theorem join_length (ls : List Str) (h : ls ≠ []) : (joinLines ls).length + 1 = total ls := by
  cases ls with
  | nil => exact absurd rfl h
  | cons l ls =>
    rw [join_cons]
    have : ∀ ls : List Str, ((ls.map fun x => '\n' :: x).flatten).length = total ls := by
      intro ls
      induction ls with
      | nil => rfl
      | cons m ls ih => simp only [List.map_cons, List.flatten_cons, List.length_append, ih, total,
          List.sum_cons, List.length_cons]
    rw [List.length_append, this]
    simp only [total, List.map_cons, List.sum_cons]
    omega

theorem total_filter (ls : List Str) : total (ls.filter fun l => !l.isEmpty) ≤ total ls
    ∧ (total (ls.filter fun l => !l.isEmpty) = total ls → ∀ l ∈ ls, l ≠ []) := by
  induction ls with
  | nil => exact ⟨Nat.le_refl _, fun _ l hl => by cases hl⟩
  | cons l ls ih =>
    cases l with
    | nil =>
      rw [List.filter_cons_of_neg (by simp)]
      have : total ([] :: ls) = 1 + total ls := by simp [total]
      constructor
      · omega
      · intro h; omega
    | cons a l =>
      rw [List.filter_cons_of_pos (by simp)]
      have : ∀ ks, total ((a :: l) :: ks) = l.length + 1 + 1 + total ks := by intro ks; simp [total]
      rw [this, this]
      refine ⟨by omega, fun h m hm => ?_⟩
      rcases List.mem_cons.1 hm with rfl | hm
      · simp
      · exact ih.2 (by omega) m hm

/-- **C70** (part): a text is shown the same after writing and reading exactly if it has no blank line.
Missing: texts with blank lines, which are lost. -/
theorem C70_text_partial (fl : Floats) (lb : Bool) (s d : Str) (hd : d ≠ s) :
    (stored fl lb (fromStr s)).map (fun v => asCowStrOr v d) = some s ↔ ∀ l ∈ splitLines s, l ≠ [] := by
  obtain ⟨v, h1, h2⟩ := C70_text fl lb s d
  have hj : joinLines (splitLines s) = s := (splitLines_join s).1
  have hn : splitLines s ≠ [] := (splitLines_join s).2.2
  rw [h1]
  show some (asCowStrOr v d) = some s ↔ _
  rw [h2]
  constructor
  · intro h
    have h : (if (splitLines s).all (fun l => l.isEmpty) = true then d
          else joinLines ((splitLines s).filter fun l => !l.isEmpty)) = s := by injection h
    split at h
    · exact absurd h hd
    · rename_i hall
      have hne : ((splitLines s).filter fun l => !l.isEmpty) ≠ [] := by
        intro hc
        apply hall
        simpa [List.all_eq_true] using hc
      apply (total_filter (splitLines s)).2
      rw [← join_length _ hne, ← join_length _ hn, h, hj]
  · intro h
    have hall : ¬ (splitLines s).all (fun l => l.isEmpty) = true := by
      cases hs : splitLines s with
      | nil => exact absurd hs hn
      | cons l ls =>
        have := h l (by rw [hs]; exact List.mem_cons_self)
        simp [this]
    have hf : ((splitLines s).filter fun l => !l.isEmpty) = splitLines s :=
      List.filter_eq_self.2 (fun l hl => by simp [h l hl])
    rw [if_neg hall, hf, hj]

/-- C70 fails for `as_str_opt`: a text of two lines is not a text any more. -/
theorem C70_str_counterexample :
    asStr (fromStr "a\nb".toList) = some "a\nb".toList
    ∧ (stored bitFloats false (fromStr "a\nb".toList)).map asStr = some none
    ∧ (stored bitFloats false (fromStr "a\nb".toList)).map (fun v => asCowStrOr v []) = some "a\nb".toList := by
  decide +kernel

/-- C70 fails for blank lines. -/
theorem C70_blank_counterexample :
    (stored bitFloats false (fromStr "a\n\nb".toList)).map (fun v => asCowStrOr v []) = some "a\nb".toList := by
  decide +kernel

/-- Two paragraphs with a span, markup characters and a line break in them. -/
def sampleMarkup : List Node :=
  [.tag pName [("text:style-name".toList, "P<1".toList)]
      [.text "a & ".toList, .tag "text:span".toList [] [.text "b<".toList], .tag "text:s".toList [] []],
    .tag pName [] [], .tag pName [] [.text "c".toList, .text "d".toList]]

example : AllNamesOk sampleMarkup ∧ (∀ x ∈ sampleMarkup, vanishes x = false)
    ∧ (stored bitFloats false (fromTags sampleMarkup)).map (fun v => asCowStrOr v []) = some "a & b<\n\ncd".toList := by
  refine ⟨?_, ?_, ?_⟩
  · simp only [sampleMarkup, AllNamesOk, NamesOk]; decide
  · decide
  · decide +kernel

example : ∀ x ∈ sampleMarkup, Para x := by
  intro x hx
  simp only [sampleMarkup, List.mem_cons, List.not_mem_nil, or_false] at hx
  rcases hx with rfl | rfl | rfl
  · refine ⟨_, _, rfl, ?_⟩; simp only [AllWithout, Without]; decide
  · refine ⟨_, _, rfl, ?_⟩; simp only [AllWithout]
  · refine ⟨_, _, rfl, ?_⟩; simp only [AllWithout, Without]; decide

/-! ## C71: each type with its getter -/

/-- **C71**: what is put in is what is got, for doubles, switches, texts, times, dates and spans of
time; a time is put on 30 December 1899. -/
theorem C71_same :
    (∀ f, asF64 (fromF64 f) = some f) ∧ (∀ f, asF64 (newPercentage f) = some f)
    ∧ (∀ c f, asF64 (newCurrency c f) = some f ∧ currencyOf (newCurrency c f) = c)
    ∧ (∀ b d, asBoolOr (fromBool b) d = b)
    ∧ (∀ s, asStr (fromStr s) = some s) ∧ (∀ s d, asCowStrOr (fromStr s) d = s)
    ∧ (∀ d, asDuration (fromDuration d) = some d)
    ∧ (∀ d, asDateTime (fromDateTime d) = some d)
    ∧ (∀ d, asDate (fromDate d) = some d)
    ∧ (∀ t, asDateTime (fromTime t) = some ⟨1899, 12, 30, t.hour, t.minute, t.second, t.nano⟩) :=
  ⟨fun _ => rfl, fun _ => rfl, fun _ _ => ⟨rfl, rfl⟩, fun _ _ => rfl, fun _ => rfl, fun _ _ => rfl,
    fun _ => rfl, fun _ => rfl, fun _ => rfl, fun _ => rfl⟩

/-- C71: a getter gives something only for the values of its type. -/
theorem C71_only (v : Value) :
    ((asStr v).isSome = true ↔ Codec.Value.valueType v = .text)
    ∧ ((asDuration v).isSome = true ↔ Codec.Value.valueType v = .timeDuration)
    ∧ ((asDateTime v).isSome = true ↔ Codec.Value.valueType v = .dateTime)
    ∧ ((asDate v).isSome = true ↔ Codec.Value.valueType v = .dateTime)
    ∧ ((∀ d, asBoolOr v d = d) ↔ Codec.Value.valueType v ≠ .boolean)
    ∧ ((∀ d, asCowStrOr v d = d) ↔ Codec.Value.valueType v ≠ .text ∧ Codec.Value.valueType v ≠ .textXml)
    ∧ (currencyOf v ≠ [] → Codec.Value.valueType v = .currency) := by
  have hbool : ∀ b : Bool, ¬ ∀ d, b = d := by intro b h; have := h (!b); cases b <;> cases this
  have hstr : ∀ s : Str, ¬ ∀ d, s = d := by
    intro s h
    have := congrArg List.length (h ('a' :: s))
    simp at this
  cases v <;> simp [asStr, asDuration, asDateTime, asDate, asBoolOr, asCowStrOr, currencyOf,
    Codec.Value.valueType, hbool, hstr]

/-- A date of the calendar that can be written and read. -/
def DateOk (d : Date) : Prop := ValidDateTime ⟨d.year, d.month, d.day, 0, 0, 0, 0⟩ ∧ d.year ≤ 9999

/-- C71, through a file: doubles, switches, texts of one line, dates and times are got as they were put in,
also after writing and reading. -/
theorem C71_file (fl : Floats) (lb : Bool) :
    (∀ f, FloatOk fl f → (stored fl lb (fromF64 f)).bind asF64 = some f
      ∧ (stored fl lb (newPercentage f)).bind asF64 = some f)
    ∧ (∀ c f, FloatOk fl f → Plain c → (stored fl lb (newCurrency c f)).bind asF64 = some f
      ∧ (stored fl lb (newCurrency c f)).map currencyOf = some c)
    ∧ (∀ b d, (stored fl lb (fromBool b)).map (fun v => asBoolOr v d) = some b)
    ∧ (∀ s, s ≠ [] → '\n' ∉ s → (stored fl lb (fromStr s)).bind asStr = some s)
    ∧ (∀ d, ValidDateTime d → d.year ≤ 9999 → (stored fl lb (fromDateTime d)).bind asDateTime = some d)
    ∧ (∀ d, DateOk d → (stored fl lb (fromDate d)).bind asDate = some d)
    ∧ (∀ n : Nat, n * 10 ^ 9 ≤ maxDuration →
        (stored fl lb (fromDuration (n * 10 ^ 9 : Nat))).bind asDuration = some ((n * 10 ^ 9 : Nat) : Int)) := by
  have h : ∀ v, ValueKept fl lb v → stored fl lb v = some v := fun v hv =>
    stored_back fl lb v v (back_kept fl lb v hv)
  refine ⟨fun f hf => ⟨?_, ?_⟩, fun c f hf hc => ⟨?_, ?_⟩, fun b d => ?_, fun s h1 h2 => ?_, fun d h1 h2 => ?_,
    fun d hd => ?_, fun n hn => ?_⟩
  · rw [h (fromF64 f) hf]; rfl
  · rw [h (newPercentage f) hf]; rfl
  · rw [h (newCurrency c f) ⟨hf, hc⟩]; rfl
  · rw [h (newCurrency c f) ⟨hf, hc⟩]; rfl
  · rw [h (fromBool b) trivial]; rfl
  · rw [h (fromStr s) ⟨h1, h2⟩]; rfl
  · rw [h (fromDateTime d) ⟨h1, h2⟩]; rfl
  · rw [h (fromDate d) hd]; rfl
  · rw [h (fromDuration _) ⟨n * 10 ^ 9, rfl, hn, by omega, by omega⟩]; rfl

example : DateOk ⟨2024, 2, 29⟩ := by unfold DateOk ValidDateTime; decide

end Verif.Conv
