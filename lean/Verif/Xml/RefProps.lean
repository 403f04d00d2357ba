import Verif.Xml.Spelling
import Verif.Codec.OtherContent

/-!
# C108: references in values and texts
-/

set_option autoImplicit false

namespace Verif.Codec

open Xml Xml.Spec

theorem denotes_of (k : Nat) : ∀ raw s : Str, raw.length ≤ k → unescape raw = some s → Denotes raw s := by
  induction k with
  | zero =>
    intro raw s hl h
    cases raw with
    | nil => have := Option.some.inj h; subst this; exact .nil
    | cons c raw => simp at hl
  | succ k ih =>
    intro raw s hl h
    cases raw with
    | nil => have := Option.some.inj h; subst this; exact .nil
    | cons c raw =>
      unfold unescape at h
      rw [unescapeFrom] at h
      by_cases hc : c = '&'
      · rw [if_pos hc] at h
        subst hc
        obtain ⟨n, rest, rfl, hn⟩ := unescape_open raw [] s h
        rw [unescape_ref n hn, List.nil_append] at h
        cases hp : predefined n with
        | none => rw [hp] at h; cases h
        | some v =>
          rw [hp] at h
          obtain ⟨c, rfl, hr⟩ := (predefined_iff n v).1 hp
          cases hu : unescapeFrom none rest with
          | none => rw [hu] at h; cases h
          | some s' =>
            rw [hu] at h
            have := Option.some.inj h
            subst this
            exact .ref n c rest s' hr (ih rest s' (by simp at hl; omega) hu)
      · rw [if_neg hc] at h
        cases hu : unescapeFrom none raw with
        | none => rw [hu] at h; cases h
        | some s' =>
          rw [hu] at h
          have := Option.some.inj h
          subst this
          exact .chr c raw s' hc (ih raw s' (by simp at hl; omega) hu)

theorem unescape_of {raw s : Str} (h : Denotes raw s) : unescape raw = some s := by
  induction h with
  | nil => rfl
  | chr c raw s hc _ ih =>
    unfold unescape at ih ⊢
    rw [unescapeFrom, if_neg hc, ih]
    rfl
  | ref n c raw s hr _ ih =>
    unfold unescape at ih ⊢
    rw [unescapeFrom, if_pos rfl, unescape_ref n (fun h => (refIs_chars n c hr _ h).1 rfl), List.nil_append,
      (predefined_iff n [c]).2 ⟨c, rfl, hr⟩, ih]
    rfl

/-- **C108** (exact): the value of an attribute is read as the text it stands for, with all references of XML, and
a value with any other reference is an error. -/
theorem C108_value (raw s : Str) : unescape raw = some s ↔ Denotes raw s :=
  ⟨denotes_of raw.length raw s (Nat.le_refl _), unescape_of⟩

theorem C108_error (raw : Str) : unescape raw = none ↔ ¬ ∃ s, Denotes raw s := by
  constructor
  · rintro h ⟨s, hs⟩
    rw [(C108_value raw s).2 hs] at h
    cases h
  · intro h
    cases hu : unescape raw with
    | none => rfl
    | some s => exact absurd ⟨s, (C108_value raw s).1 hu⟩ h

/-- A value stands for one text at most. -/
theorem C108_one (raw s s' : Str) (h : Denotes raw s) (h' : Denotes raw s') : s = s' :=
  Option.some.inj (((C108_value raw s).2 h).symm.trans ((C108_value raw s').2 h'))

theorem charRef_of {n : Str} {c : Char} (h : RefIs n c) : charRef n ≠ some none := by
  have hd : ∀ s c, RefIs ('#' :: s) c → charRef ('#' :: s) ≠ some none := by
    intro s c h hn
    have h1 := (predefined_iff _ [c]).2 ⟨c, rfl, h⟩
    unfold predefined at h1
    simp only [hn] at h1
    rw [if_neg (by simp), if_neg (by simp), if_neg (by simp), if_neg (by simp), if_neg (by simp)] at h1
    cases h1
  cases h with
  | lt => decide +kernel
  | gt => decide +kernel
  | amp => decide +kernel
  | apos => decide +kernel
  | quot => decide +kernel
  | dec s c h1 h2 => exact hd _ c (.dec s c h1 h2)
  | hex s c h1 h2 => exact hd _ c (.hex s c h1 h2)

/-- Characters, up to the first reference. -/
theorem denotes_split {raw s : Str} (h : Denotes raw s) (hlt : '<' ∉ raw) : ∃ c : List El, Spells c raw
    ∧ (∀ x ∈ c, x.isText = true) ∧ saidIn c = s
    ∧ ∀ d, d ≠ '&' → d ≠ '<' → ∃ c', Spells c' (d :: raw) ∧ (∀ x ∈ c', x.isText = true) ∧ saidIn c' = d :: s
      ∧ ∃ y l, c' = .text y :: l := by
  induction h with
  | nil =>
    refine ⟨[], .nil, (by simp), rfl, fun d h1 h2 => ⟨[.text [d]], ?_, (by simp [El.isText]), rfl, _, _, rfl⟩⟩
    exact .text [d] [] [] (by simp) (by simp [h1, h2]) (by intro c t h; cases h) .nil
  | chr c raw s hc _ ih =>
    obtain ⟨l, h1, h2, h3, h4⟩ := ih (fun h => hlt (List.mem_cons_of_mem _ h))
    have hlt' : c ≠ '<' := fun h => hlt (by rw [h]; exact List.mem_cons_self)
    obtain ⟨l', g1, g2, g3, y, k, rfl⟩ := h4 c hc hlt'
    refine ⟨_, g1, g2, g3, ?_⟩
    intro d hd hd'
    refine ⟨.text (d :: y) :: k, ?_, ?_, ?_, _, _, rfl⟩
    · obtain ⟨t, g4, g5, g6, g7, g8⟩ : ∃ t, c :: raw = y ++ t ∧ y ≠ [] ∧ (∀ x ∈ y, x ≠ '<' ∧ x ≠ '&') ∧ AtMarkup t
          ∧ Spells k t := by
        generalize hz : c :: raw = z at g1
        generalize hl : El.text y :: k = w at g1
        cases g1 with
        | nil => cases hz
        | text s c' t a b m n =>
          cases hl
          exact ⟨t, rfl, a, b, m, n⟩
        | ref => cases hl
        | comment =>
          exfalso
          exact hlt' (List.cons.inj hz).1
        | void => cases hl
        | elem => cases hl
      rw [g4]
      refine .text (d :: y) k t (by simp) ?_ g7 g8
      intro x hx
      rcases List.mem_cons.1 hx with rfl | hx
      · exact ⟨hd', hd⟩
      · exact g6 x hx
    · intro x hx
      rcases List.mem_cons.1 hx with rfl | hx
      · rfl
      · exact g2 x (List.mem_cons_of_mem _ hx)
    · rw [← g3]
      rfl
  | ref n c raw s hr _ ih =>
    obtain ⟨l, h1, h2, h3, h4⟩ := ih (fun h => hlt (by simp [h]))
    have hs : Spells (.ref n :: l) ('&' :: (n ++ ';' :: raw)) := .ref n l raw (refIs_chars n c hr) (charRef_of hr) h1
    have hsaid : saidIn (.ref n :: l) = c :: s := by
      show entity n ++ saidIn l = _
      rw [entity_ref n c hr, h3]
      rfl
    have htext : ∀ x ∈ El.ref n :: l, x.isText = true := by
      intro x hx
      rcases List.mem_cons.1 hx with rfl | hx
      · rfl
      · exact h2 x hx
    refine ⟨_, hs, htext, hsaid, ?_⟩
    intro d hd hd'
    refine ⟨.text [d] :: .ref n :: l, ?_, ?_, ?_, _, _, rfl⟩
    · refine .text [d] _ _ (by simp) ?_ ?_ hs
      · intro x hx
        rw [List.mem_singleton] at hx
        subst hx
        exact ⟨hd', hd⟩
      · intro c' t' h
        exact .inr (List.cons.inj h).1.symm
    · intro x hx
      rcases List.mem_cons.1 hx with rfl | hx
      · rfl
      · exact htext x hx
    · rw [← hsaid]
      rfl

/-- **C108**: a text without tags between tags is a content that says the text it stands for: the properties of contents
of other programs (C102, C104) are about it. -/
theorem C108_text (raw s : Str) (h : Denotes raw s) (hlt : '<' ∉ raw) :
    ∃ c : List El, Spells c raw ∧ (∀ x ∈ c, x.isText = true) ∧ saidIn c = s := by
  obtain ⟨c, h1, h2, h3, _⟩ := denotes_split h hlt
  exact ⟨c, h1, h2, h3⟩

theorem texts_clean (c : List El) (h : ∀ x ∈ c, x.isText = true) (n : Str) : CleanIn c ∧ NoStartIn n c := by
  induction c with
  | nil => exact ⟨trivial, trivial⟩
  | cons e c ih =>
    obtain ⟨h1, h2⟩ := ih fun x hx => h x (List.mem_cons_of_mem _ hx)
    have := h e List.mem_cons_self
    cases e <;> first | exact ⟨⟨trivial, h1⟩, ⟨trivial, h2⟩⟩ | cases this

/-- The text of a cell with one paragraph. -/
def paraCell (tag a raw : Str) : Str :=
  '<' :: (tag ++ (a ++ '>' :: (("<text:p>".toList ++ raw ++ "</text:p>".toList) ++ '<' :: '/' :: (tag ++ (([] : Str) ++ '>' :: [])))))

/-- **C108**: a cell of a file whose only paragraph has a text with any references: what they stand for is the text
of the cell. -/
theorem C108_cell (fl : Floats) (ie : Bool) (cs : Option String) (tag : Str) (htag : Name tag) (hp : tPara ≠ tag)
    (as : List (Str × Str)) (a : Str) (ha : SpellsAttrs as a)
    (hnd : (as.map Prod.fst).Nodup) (hok : ∀ a ∈ as, AttrReadable fl a.1 a.2) (raw s : Str)
    (h : Denotes raw s) (hlt : '<' ∉ raw) (hs : s ≠ []) (v : Value) (hv : meaning fl as (some (.text s)) = some v) :
    ∃ ts es r, tokenize (paraCell tag a raw) = some ts ∧ events ts = .start tag as :: es
      ∧ readTableCell fl ie cs tag as false es = .ok (r, [])
      ∧ (∀ x, r.cell = some x → x.value = v) ∧ (r.cell = none → v = .empty) := by
  obtain ⟨c, h1, h2, h3⟩ := C108_text raw s h hlt
  have hn : Name tPara := ⟨by decide +kernel, by decide +kernel⟩
  have hc : c ≠ [] := by rintro rfl; exact hs h3.symm
  have hsp : Spells [.elem tag as [.elem tPara [] c]] (paraCell tag a raw) := by
    refine .elem tag as a _ _ [] [] [] htag ha ?_ (by intro c hc; cases hc) .nil
    have := Spells.elem tPara [] [] c raw [] [] [] hn (.nil [] (by intro c hc; cases hc)) h1
      (by intro c hc; cases hc) .nil
    have he : "<text:p>".toList ++ raw ++ "</text:p>".toList
        = '<' :: (tPara ++ (([] : Str) ++ '>' :: (raw ++ '<' :: '/' :: (tPara ++ (([] : Str) ++ '>' :: []))))) := by
      rw [show "<text:p>".toList = '<' :: (tPara ++ ['>']) by decide +kernel,
        show "</text:p>".toList = '<' :: '/' :: (tPara ++ ['>']) by decide +kernel]
      simp
    rw [he]
    exact this
  obtain ⟨ts, g1, g2⟩ := spells_events hsp
  have hcl := texts_clean c h2 tPara
  have hpart : ∀ e ∈ [El.elem tPara [] c], CellPart tag e := by
    intro e he
    rw [List.mem_singleton] at he
    subst he
    refine ⟨hp, fun _ => ⟨by unfold Escaped; rfl, hcl.1, hcl.2⟩, fun h => absurd h (by decide +kernel),
      fun h => absurd h (by decide +kernel), fun h => absurd ?_ h⟩
    simp [cellNames]
  have hpar : cellText (parasIn [El.elem tPara [] c]) = some (.text s) := by
    have : parasIn [El.elem tPara [] c] = [.plain s] := by
      unfold parasIn
      rw [List.filterMap_cons]
      simp only
      rw [if_pos trivial, if_neg (by simpa using hc), if_pos (List.all_eq_true.2 h2), h3]
      rfl
    rw [this]
    rfl
  obtain ⟨r, k1, -, k3, k4⟩ := C104_cell fl ie cs tag as hnd hok [.elem tPara [] c] hpart v (by rw [hpar]; exact hv) []
  refine ⟨ts, _, r, g1, ?_, k1, fun x hx => (k3 x hx).1, fun hx => (k4 hx).1⟩
  rw [g2, evsOf, El.events, evsOf, List.append_nil]

/-- A cell with references of all kinds: `C108_cell` says that its text is `A<ä` and a line break. -/
example (fl : Floats) : ∃ ts es r, tokenize (paraCell "table:table-cell".toList " office:value-type = 'string'".toList
      "&#65;&lt;&#x00E4;&#xa;".toList) = some ts ∧ events ts = .start "table:table-cell".toList
        [("office:value-type".toList, "string".toList)] :: es
      ∧ readTableCell fl false none "table:table-cell".toList [("office:value-type".toList, "string".toList)] false es
        = .ok (r, [])
      ∧ (∀ x, r.cell = some x → x.value = .text "A<ä\n".toList) ∧ (r.cell = none → Value.text "A<ä\n".toList = .empty) := by
  refine C108_cell fl false none _ ⟨by decide +kernel, by decide +kernel⟩ (by decide +kernel) _ _ ?_ (by simp) ?_ _ "A<ä\n".toList
    ((C108_value _ _).1 (by decide +kernel)) (by decide +kernel) (by decide +kernel) _ ?_
  · have h := SpellsAttrs.cons [' '] "office:value-type".toList [' '] [' '] '\'' "string".toList [] []
      (by unfold Blank; decide +kernel) (by decide) ⟨by decide +kernel, by decide +kernel⟩ (by unfold Blank; decide +kernel)
      (by unfold Blank; decide +kernel) (.inr rfl) (by decide +kernel) (.nil [] (by intro c hc; cases hc))
    rw [show " office:value-type = 'string'".toList = [' '] ++ ("office:value-type".toList
      ++ ([' '] ++ '=' :: ([' '] ++ '\'' :: ("string".toList ++ '\'' :: [])))) by decide +kernel]
    exact h
  · apply (attrs_ok fl [("office:value-type".toList, "string".toList)] {}).1
    exact ⟨_, rfl⟩
  · have h1 : Codec.attrText [("office:value-type".toList, "string".toList)] "office:value-type"
        = some "string".toList := by decide +kernel
    unfold Codec.meaning
    rw [h1]
    simp only
    rw [if_neg (by decide +kernel), if_neg (by decide +kernel), if_neg (by decide +kernel), if_neg (by decide +kernel),
      if_neg (by decide +kernel), if_neg (by decide +kernel), if_pos trivial, show Codec.attrText
        [("office:value-type".toList, "string".toList)] "office:string-value" = none by decide +kernel]
    rfl

/-- Values with references that are none. -/
example : unescape "&#0;".toList = none ∧ unescape "&#xD800;".toList = none ∧ unescape "&#x110000;".toList = none
    ∧ unescape "&nbsp;".toList = none ∧ unescape "a & b".toList = none
    ∧ unescape "&#x10FFFF;".toList = some [Char.ofNat 0x10FFFF] := by
  decide +kernel

/-! ## CDATA sections -/

/-- The text of a CDATA section. -/
def CdataText (s : Str) : Prop := ∀ a b, s ≠ a ++ ']' :: ']' :: '>' :: b

theorem tok_cdata (s : Str) : ∀ rev : Str, CdataText (rev.reverse ++ s) →
    tokFrom (.cdata rev) s = some (.cdata (s.reverse ++ rev), []) := by
  induction s with
  | nil => intro rev _; rfl
  | cons c s ih =>
    intro rev h
    have hs : Xml.step (.cdata rev) c = some (.cdata (c :: rev), []) := by
      unfold Xml.step
      simp only
      rw [if_neg]
      rintro ⟨rfl, h2⟩
      match rev, h2 with
      | x :: y :: rev, h2 =>
        simp at h2
        obtain ⟨rfl, rfl⟩ := h2
        exact h rev.reverse s (by simp)
    have := tokFrom_cons hs s (ih (c :: rev) (by simpa using h))
    simpa using this

/-- A CDATA section. -/
def cdata (s : Str) : Str := "<![CDATA[".toList ++ (s ++ [']', ']', '>'])

/-- C108 fails for CDATA sections: what they stand for is their text, but none of the readers gets anything
of them.  A document is read as if they were not there. -/
theorem C108_cdata_counterexample (s : Str) (h : CdataText s) (c : List El) (t : Str) (ht : Spells c t) :
    ∃ ts, tokenize (cdata s ++ t) = some ts ∧ Spec.meaning ts = s.map Ev.chr ++ Spec.meaning (ts.drop 1)
      ∧ events ts = evsOf c := by
  obtain ⟨ts, h1, h2, -⟩ := tok_spells ht
  have g1 : tokFrom .text "<![CDATA[".toList = some (.cdata [], []) := by decide +kernel
  have g2 := tok_cdata s [] (by simpa using h)
  have g3 : tokFrom (.cdata (s.reverse ++ [])) [']', ']', '>'] = some (.text, [.skip s]) := by
    rw [List.append_nil]
    simp [tokFrom, Xml.step]
  refine ⟨.skip s :: ts, ?_, rfl, by rw [events, h2]⟩
  unfold tokenize cdata
  have := tokFrom_seq (tokFrom_seq g1 _ (tokFrom_seq g2 _ g3)) _ h1
  rw [this]
  rfl

end Verif.Codec
