import Verif.Style.Unnamed

/-!
# The parts of value formats (C53), default styles (C51), and cases in which the properties do not hold
-/

set_option autoImplicit false

namespace Verif.Style

open Xml Xml.Spec Codec Book Refs.Spec

namespace Spec

/-- A part whose texts are kept: texts are stored where the format has a place for them, are not empty, and a text
within a number has no character that must be escaped. -/
def TextsKept (p : Part) : Prop :=
  match p.type with
  | .text | .currencySymbol | .fillCharacter => p.position = none ∧ p.content ≠ some []
  | .number =>
    match p.position with
    | none => p.content = none
    | some _ => ∀ s, p.content = some s → s ≠ [] ∧ ∀ c ∈ s, c ∉ ['<', '>', '&', '"', '\'']
  | _ => p.position = none ∧ p.content = none

end Spec

open Spec

/-! ## Texts within numbers -/

theorem ref_events (n : Str) (ts : List Tok) (h : Tok.ref n ∈ ts) : Event.ref n ∈ events ts := by
  induction ts with
  | nil => cases h
  | cons t ts ih =>
    cases t with
    | chr c =>
      have ih := ih (by rcases List.mem_cons.1 h with h | h; cases h; exact h)
      rcases events_chr_cases c ts with h1 | ⟨s, es, h1, h2⟩
      · rw [h1]; exact List.mem_cons_of_mem _ ih
      · rw [h1] at ih
        rw [h2]
        rcases List.mem_cons.1 ih with ih | ih
        · cases ih
        · exact List.mem_cons_of_mem _ ih
    | skip s =>
      rw [events]
      exact ih (by rcases List.mem_cons.1 h with h | h; cases h; exact h)
    | ref m =>
      rcases List.mem_cons.1 h with h | h
      · cases h; exact List.mem_cons_self
      · exact List.mem_cons_of_mem _ (ih h)
    | start a b =>
      refine List.mem_cons_of_mem _ (ih ?_); rcases List.mem_cons.1 h with h | h; cases h; exact h
    | empty a b =>
      refine List.mem_cons_of_mem _ (ih ?_); rcases List.mem_cons.1 h with h | h; cases h; exact h
    | «end» a =>
      refine List.mem_cons_of_mem _ (ih ?_); rcases List.mem_cons.1 h with h | h; cases h; exact h

theorem entity_pos (n : Str) : 1 ≤ (entity n).length := by
  unfold entity
  split
  · simp
  · split
    · simp
    · split
      · simp
      · split
        · simp
        · split
          · simp
          · split <;> simp

theorem ref_pos (es : List Event) (n : Str) (h : Event.ref n ∈ es) : 1 ≤ (es.flatMap evText).length := by
  obtain ⟨as, bs, rfl⟩ := List.append_of_mem h
  rw [List.flatMap_append, List.flatMap_cons]
  have := entity_pos n
  simp only [evText, List.length_append]
  omega

theorem lastText_len (es : List Event) : ∀ (c : Option Str) (t : Str), lastText c es = some t →
    (c = some t ∧ ∀ s, Event.text s ∉ es) ∨ (t.length ≤ (es.flatMap evText).length
      ∧ ((∃ n, Event.ref n ∈ es) → t.length < (es.flatMap evText).length)) := by
  induction es with
  | nil => intro c t h; exact .inl ⟨h, by simp⟩
  | cons e es ih =>
    intro c t h
    rw [List.flatMap_cons]
    cases e with
    | text s =>
      rw [lastText] at h
      refine .inr ?_
      rcases ih (some s) t h with ⟨h1, _⟩ | ⟨h1, h2⟩
      · cases h1
        simp only [evText, List.length_append]
        refine ⟨by omega, ?_⟩
        rintro ⟨n, hn⟩
        have : Event.ref n ∈ es := by
          rcases List.mem_cons.1 hn with hn | hn
          · cases hn
          · exact hn
        have := ref_pos es n this
        omega
      · simp only [evText, List.length_append]
        refine ⟨by omega, ?_⟩
        rintro ⟨n, hn⟩
        have := h2 ⟨n, by
          rcases List.mem_cons.1 hn with hn | hn
          · cases hn
          · exact hn⟩
        omega
    | ref n =>
      rw [lastText] at h
      rcases ih c t h with ⟨h1, h1'⟩ | ⟨h1, h2⟩
      · refine .inl ⟨h1, fun s hs => ?_⟩
        rcases List.mem_cons.1 hs with hs | hs
        · cases hs
        · exact h1' s hs
      · have := entity_pos n
        simp only [evText, List.length_append]
        exact .inr ⟨by omega, fun _ => by omega⟩
      · exact (by simp)
    | start a b =>
      rw [lastText] at h
      rcases ih c t h with ⟨h1, h1'⟩ | ⟨h1, h2⟩
      · refine .inl ⟨h1, fun s hs => ?_⟩
        rcases List.mem_cons.1 hs with hs | hs
        · cases hs
        · exact h1' s hs
      · refine .inr ⟨by simp only [evText, List.length_append]; omega, ?_⟩
        rintro ⟨n, hn⟩
        have := h2 ⟨n, by
          rcases List.mem_cons.1 hn with hn | hn
          · cases hn
          · exact hn⟩
        simp only [evText, List.length_append]; omega
      · exact (by simp)
    | empty a b =>
      rw [lastText] at h
      rcases ih c t h with ⟨h1, h1'⟩ | ⟨h1, h2⟩
      · refine .inl ⟨h1, fun s hs => ?_⟩
        rcases List.mem_cons.1 hs with hs | hs
        · cases hs
        · exact h1' s hs
      · refine .inr ⟨by simp only [evText, List.length_append]; omega, ?_⟩
        rintro ⟨n, hn⟩
        have := h2 ⟨n, by
          rcases List.mem_cons.1 hn with hn | hn
          · cases hn
          · exact hn⟩
        simp only [evText, List.length_append]; omega
      · exact (by simp)
    | «end» a =>
      rw [lastText] at h
      rcases ih c t h with ⟨h1, h1'⟩ | ⟨h1, h2⟩
      · refine .inl ⟨h1, fun s hs => ?_⟩
        rcases List.mem_cons.1 hs with hs | hs
        · cases hs
        · exact h1' s hs
      · refine .inr ⟨by simp only [evText, List.length_append]; omega, ?_⟩
        rintro ⟨n, hn⟩
        have := h2 ⟨n, by
          rcases List.mem_cons.1 hn with hn | hn
          · cases hn
          · exact hn⟩
        simp only [evText, List.length_append]; omega
      · exact (by simp)

theorem events_chars (s : Str) (h : s ≠ []) : events (s.map Tok.chr) = [.text s] := by
  induction s with
  | nil => exact absurd rfl h
  | cons c s ih =>
    cases s with
    | nil => rfl
    | cons d s => rw [List.map_cons, events_chr _ _ rfl, ih (by simp)]

theorem lastText_kept (s : Str) : lastText none (textEv true s) = some s ↔ s ≠ [] ∧ Plain s := by
  constructor
  · intro h
    have h1 : s ≠ [] := by rintro rfl; cases h
    refine ⟨h1, fun c hc hm => ?_⟩
    rcases lastText_len _ _ _ h with ⟨h2, _⟩ | ⟨_, h2⟩
    · cases h2
    · rw [textEv_flat] at h2
      refine Nat.lt_irrefl _ (h2 ?_)
      obtain ⟨n, hn, _⟩ := escTok_markup c ((isMarkup_iff c).2 hm)
      exact ⟨n, ref_events n _ (List.mem_map.2 ⟨c, hc, hn⟩)⟩
  · rintro ⟨h1, h2⟩
    unfold textEv
    simp only [if_true]
    rw [escTok_plain_map s h2, events_chars s h1]
    rfl

theorem markup_iff (c : Char) : Markup c ↔ c ∈ ['<', '>', '&', '"', '\''] := by
  unfold Markup; simp

/-- **C53**, one part: in a package a part is read as it was written exactly if its texts are of the kind that is
kept. -/
theorem C53_part_iff (p : Part) : p.back false = p ↔ TextsKept p := by
  obtain ⟨t, a, pos, c⟩ := p
  have txt : ∀ t', ((⟨t', a, none, shown c⟩ : Part) = ⟨t', a, pos, c⟩) ↔ (pos = none ∧ c ≠ some []) := by
    intro t'
    rw [Part.mk.injEq]
    cases c with
    | none => simp [shown]; exact eq_comm
    | some s =>
      cases s with
      | nil => simp [shown]
      | cons x s => simp [shown]; exact eq_comm
  have other : ∀ t', ((⟨t', a, none, none⟩ : Part) = ⟨t', a, pos, c⟩) ↔ (pos = none ∧ c = none) := by
    intro t'
    rw [Part.mk.injEq]
    simp only [true_and]
    exact and_congr eq_comm eq_comm
  cases t with
  | text => exact txt .text
  | currencySymbol => exact txt .currencySymbol
  | fillCharacter => exact txt .fillCharacter
  | number =>
    cases pos with
    | none =>
      show (⟨.number, a, none, none⟩ : Part) = ⟨.number, a, none, c⟩ ↔ c = none
      rw [Part.mk.injEq]; simp only [true_and]; exact eq_comm
    | some z =>
      cases c with
      | none =>
        show (⟨.number, a, some z, none⟩ : Part) = ⟨.number, a, some z, none⟩ ↔ ∀ s, none = some s → _
        simp
      | some s =>
        show (⟨.number, a, some z, lastText none (textEv true s ++ [])⟩ : Part) = ⟨.number, a, some z, some s⟩
          ↔ ∀ s', some s = some s' → s' ≠ [] ∧ ∀ c ∈ s', c ∉ ['<', '>', '&', '"', '\'']
        rw [Part.mk.injEq, List.append_nil]
        simp only [true_and]
        rw [lastText_kept]
        unfold Plain
        simp only [markup_iff]
        constructor
        · rintro h s' he; cases he; exact h
        · intro h; exact h s rfl
  | _ => exact other _

/-- **C53** (part): after write and read of a package a value format has the same parts in the same order, with the same
types, attributes and texts, exactly if all its texts are of the kind that is kept. What is missing: other texts are
lost or cut, see the counterexamples; for flat files see `C53_flat_counterexample`. -/
theorem C53_package_partial (m : Refs.Ints) (hm : m.max = maxU32) (as as' : List (Bool × Str × Str)) (has : AttrsOk as)
    (has' : AttrsOk as') (b : SBook) (hb : BookOk b) (hc : b.count < 4294967296) :
    ∃ bk, readPackage m (output false (writeStylesFile as b)) (output false (writeContentFile as' b)) = .ok bk
      ∧ ∀ k n s, b.formats.get? k n = some s → (s.body.origin = .styles ∨ s.body.use = .automatic) →
          ∃ t, bk.formats.get? k n = some t ∧ (t.body.parts = s.body.parts ↔ ∀ p ∈ s.body.parts, TextsKept p) := by
  obtain ⟨bk, h, _, hs, _⟩ := package_back m hm as as' has has' b hb hc
  have := back_generic b.formats.store (fun s => InPackage s.body.origin s.body.use) (fun s => s.name)
    (fun k s => s.body.back false (sectionOf s.body.use))
    (formatsIn (packageOps b)) (mem_package_formats b hb) hb.formatKey hb.formatsMap (fun s => .inl rfl) bk.formats hs
  refine ⟨bk, h, fun k n s hg hp => ⟨_, this.1 k n s hg hp rfl, ?_⟩⟩
  show s.body.parts.map (Part.back false) = s.body.parts ↔ _
  generalize s.body.parts = l
  induction l with
  | nil => simp
  | cons p l ih =>
    rw [List.map_cons, List.cons.injEq, ih, C53_part_iff]
    simp

/-! ## Default styles -/

theorem addsAll_unnamed {β : Type} (ps : List (Kind × Style β)) (b b' : Stores β) (h : addsAll b ps = .ok b') (k : Kind)
    (x : β) (hx : (k, (⟨[], x⟩ : Style β)) ∈ ps)
    (hg : ∀ s, (k, s) ∈ ps → s.name ≠ [] → ¬ Generated k s.name) : ∃ n, b'.get? k n = some ⟨n, x⟩ := by
  obtain ⟨qs, q1, q2, _, q4, _, q6⟩ := addsAll_refs ps b b' h
  rw [← q1] at hx
  obtain ⟨q, hq, he⟩ := List.mem_map.1 hx
  obtain ⟨qb, qa, rfl⟩ := List.append_of_mem hq
  have h3 : q.1.2.name = [] := by rw [he]
  have := q6 qb q qa rfl ?_
  · rw [he] at this; exact ⟨_, this⟩
  · intro q' hq' hk'
    by_cases hn' : q'.1.2.name = []
    · obtain ⟨xs, ys, rfl⟩ := List.append_of_mem hq'
      have := q4 (qb ++ q :: xs) q' ys (by simp) hn' q (by simp) hk'.symm
      exact fun hx => this hx.symm
    · rw [(q2 q' (by simp [hq'])).1 hn']
      intro hx
      have h5 := (q2 q hq).2 h3
      rw [← hx] at h5
      have hk : q.1.1 = k := by rw [he]
      rw [hk] at h5 hk'
      refine hg q'.1.2 ?_ hn' h5
      rw [← q1, ← hk']
      exact List.mem_map.2 ⟨q', by simp [hq'], rfl⟩

/-- **C51** (part), default styles: if no style of the kind has a generated name (prefix and number), every default style
with the origin `Styles` is found after write and read, under a generated name. -/
theorem C51_default_partial (m : Refs.Ints) (hm : m.max = maxU32) (as as' : List (Bool × Str × Str)) (has : AttrsOk as)
    (has' : AttrsOk as') (b : SBook) (hb : BookOk b) (hc : b.count < 4294967296) :
    ∃ bk, readPackage m (output false (writeStylesFile as b)) (output false (writeContentFile as' b)) = .ok bk
      ∧ ∀ k n s, b.styles.get? k n = some s → s.body.use = .default → s.body.origin = .styles →
          (∀ n' s', b.styles.get? k n' = some s' → s'.body.use ≠ .default → ¬ Generated k n') →
          ∃ r t, bk.styles.get? k r = some t ∧ SameStyle { s with name := r } t := by
  obtain ⟨bk, h, hs, _⟩ := package_back m hm as as' has has' b hb hc
  refine ⟨bk, h, fun k n s hg hu ho hno => ?_⟩
  have hin : (k, (⟨[], s.body.back k⟩ : Style Body)) ∈ stylesIn (packageOps b) := by
    refine (mem_package_styles b hb k _).2 ⟨(n, s), HMap.get?_mem _ _ _ hg, .inl ho, ?_⟩
    simp only [nameRead, hu, if_true]
  have hgen : ∀ y, (k, y) ∈ stylesIn (packageOps b) → y.name ≠ [] → ¬ Generated k y.name := by
    intro y hy hyn
    obtain ⟨e, he, _, rfl⟩ := (mem_package_styles b hb k y).1 hy
    have hne : e.2.body.use ≠ .default := by
      intro hx
      exact hyn (by simp only [nameRead, hx, if_true])
    show ¬ Generated k (nameRead e.2)
    rw [nameRead_named _ hne, ← (hb.styleKey k e he).1]
    exact hno e.1 e.2 (HMap.get?_of_mem _ (hb.stylesMap k) _ _ he) hne
  obtain ⟨r, hr⟩ := addsAll_unnamed _ _ _ hs k _ hin hgen
  exact ⟨r, _, hr, back_same k { s with name := r }⟩

end Verif.Style
