import Verif.Attr.Lemmas

/-!
# C87: a style remembers what was last asked for

`Spec.asks` (in `Attr/Spec.lean`) says which attributes a call is about and which values it asks for, `Spec.Related`
which setters are about the same property, `Spec.refused` which calls are refused.
-/

set_option autoImplicit false

namespace Verif.Attr

open Xml Codec Book Width Enum Fmt
open Style (Attrs)
open Book.AttrMap (Op specRun lookup_run)

/-! ## Lemmas -/

theorem run_append (fl : Floats) (k : Kind) (cs ds : List Call) (m : Maps) :
    run fl k (cs ++ ds) m = (run fl k cs m).bind (run fl k ds) := by
  induction cs generalizing m with
  | nil => rfl
  | cons c cs ih =>
    rw [List.cons_append, run, run]
    cases step fl k c m with
    | none => rfl
    | some m' => exact ih m'

theorem step_some (fl : Floats) (k : Kind) (c : Call) (m m' : Maps) (h : step fl k c m = some m') :
    ∃ p, k.part c = some p ∧ m' p = specRun (m p) ((Spec.asks fl c).map toOp) ∧ ∀ q, q ≠ p → m' q = m q := by
  unfold step at h
  cases hp : k.part c with
  | none => rw [hp] at h; cases h
  | some p =>
    rw [hp] at h
    cases ho : c.ops fl with
    | none => rw [ho] at h; cases h
    | some os =>
      rw [ho] at h
      injection h with h
      subst h
      rw [ops_asks fl c os ho]
      exact ⟨p, rfl, by simp, fun q hq => by simp [hq]⟩

/-- What is left of an attribute. -/
def after (k : Str) : Option Str → List (String × Option Str) → Option Str
  | r, [] => r
  | r, (a, v) :: l => after k (if a.toList = k then v else r) l

theorem lookup_after (l : Attrs) (as : List (String × Option Str)) (k : Str) :
    (specRun l (as.map toOp)).lookup k = after k (l.lookup k) as := by
  rw [lookup_run]
  generalize l.lookup k = r
  induction as generalizing r with
  | nil => rfl
  | cons x as ih =>
    obtain ⟨a, v⟩ := x
    rw [List.map_cons, List.foldl_cons, after, ← ih]
    cases v <;> rfl

theorem after_none (k : Str) (as : List (String × Option Str)) (r : Option Str) (h : ∀ a ∈ as, a.1.toList ≠ k) :
    after k r as = r := by
  induction as generalizing r with
  | nil => rfl
  | cons x as ih =>
    obtain ⟨a, v⟩ := x
    rw [after, if_neg (h (a, v) (List.mem_cons_self ..)), ih _ fun a ha => h a (List.mem_cons_of_mem _ ha)]

theorem after_mem (as : List (String × Option Str)) (hn : (as.map fun a => a.1).Nodup) (r : Option Str) (a : String)
    (v : Option Str) (h : (a, v) ∈ as) : after a.toList r as = v := by
  induction as generalizing r with
  | nil => cases h
  | cons x as ih =>
    obtain ⟨b, w⟩ := x
    rw [List.map_cons, List.nodup_cons] at hn
    rw [after]
    rcases List.mem_cons.1 h with h | h
    · injection h with h1 h2
      subst h1 h2
      rw [if_pos rfl]
      refine after_none _ _ _ fun x hx he => hn.1 ?_
      exact List.mem_map.2 ⟨x, hx, String.toList_inj.1 he⟩
    · exact ih hn.2 _ h

theorem tags_nodup (x y z : String) (l : Locale) (h : [x, y, z].Nodup) : ((Spec.tags x y z l).map fun a => a.1).Nodup := by
  unfold Spec.tags
  split <;> exact h

theorem font_nodup (x y z : String) (v : Str) (b i : Bool) (h : [x, y, z].Nodup) :
    (((x, some v) :: (Spec.boldIf y b ++ Spec.italicIf z i)).map fun a => a.1).Nodup := by
  cases b <;> cases i <;> simp_all [Spec.boldIf, Spec.italicIf]

theorem asks_nodup (fl : Floats) (c : Call) : ((Spec.asks fl c).map fun a => a.1).Nodup := by
  have one : ∀ (k : String) (v : Option Str), (([(k, v)] : List (String × Option Str)).map fun a => a.1).Nodup := by
    intro k v; simp
  cases c
  all_goals first
    | exact one _ _
    | exact tags_nodup _ _ _ _ (by decide +kernel)
    | exact font_nodup _ _ _ _ _ _ (by decide +kernel)

/-- No kind of style has both vertical alignments in one map. -/
def apart (k : Kind) : Bool :=
  match k.macros.lookup .style_vertical_align, k.macros.lookup .style_vertical_align_para with
  | some p, some q => p != q
  | _, _ => true

theorem apart_all (k : Kind) : apart k = true := by
  cases k <;> decide +kernel

theorem disjoint (fl : Floats) (k : Kind) (c d : Call) (p : Part) (hc : k.part c = some p) (hd : k.part d = some p)
    (h : ¬ Spec.Related c d) (a : String) (v : Option Str) (ha : (a, v) ∈ Spec.asks fl c) :
    ∀ b ∈ Spec.asks fl d, b.1.toList ≠ a.toList := by
  intro b hb he
  have he := String.toList_inj.1 he
  obtain ⟨e, e1, e2, e3, e4⟩ := entry_of fl c
  obtain ⟨f, f1, f2, f3, f4⟩ := entry_of fl d
  have hk := apart_all k
  unfold apart at hk
  unfold Kind.part at hc hd
  rcases shared e f e1 f1 a (e4 _ ha) (he ▸ f4 _ hb) with hs | ⟨h1, h2⟩ | ⟨h1, h2⟩
  · rw [e3, f3] at hs
    exact h hs
  · rw [← e2, h1] at hc
    rw [← f2, h2] at hd
    simp [hc, hd] at hk
  · rw [← e2, h1] at hc
    rw [← f2, h2] at hd
    simp [hc, hd] at hk

/-! ## C87 -/

theorem frame_step (fl : Floats) (k : Kind) (cs : List Call) (m m' : Maps) (h : run fl k cs m = some m') (p : Part) (a : Str)
    (hf : ∀ c ∈ cs, k.part c = some p → ∀ b ∈ Spec.asks fl c, b.1.toList ≠ a) : (m' p).lookup a = (m p).lookup a := by
  induction cs generalizing m with
  | nil => injection h with h; subst h; rfl
  | cons c cs ih =>
    rw [run] at h
    cases hs : step fl k c m with
    | none => rw [hs] at h; cases h
    | some m1 =>
      rw [hs] at h
      rw [ih m1 h fun c hc => hf c (List.mem_cons_of_mem _ hc)]
      obtain ⟨q, hq, h1, h2⟩ := step_some fl k c m m1 hs
      by_cases hpq : p = q
      · subst hpq
        rw [h1, lookup_after, after_none _ _ _ (hf c (List.mem_cons_self ..) hq)]
      · rw [h2 p hpq]

/-- **C87**: after any history of calls, what a call asked for is there as long as no later call is about the same
property; whatever other properties were set before or after. Partial because what `set_font_attr` asks for has to be read
as in `Spec.boldIf`: without its flags it asks for nothing, see `C87_font_attr_counterexample`. -/
theorem C87_last_partial (fl : Floats) (k : Kind) (before later : List Call) (c : Call) (m m' : Maps)
    (h : run fl k (before ++ c :: later) m = some m') (hl : ∀ d ∈ later, ¬ Spec.Related c d) :
    ∃ p, k.part c = some p ∧ ∀ a v, (a, v) ∈ Spec.asks fl c → (m' p).lookup a.toList = v := by
  rw [run_append] at h
  cases hb : run fl k before m with
  | none => rw [hb] at h; cases h
  | some m1 =>
    rw [hb] at h
    change (step fl k c m1).bind (run fl k later) = some m' at h
    cases hs : step fl k c m1 with
    | none => rw [hs] at h; cases h
    | some m2 =>
      rw [hs] at h
      obtain ⟨p, hp, h1, -⟩ := step_some fl k c m1 m2 hs
      refine ⟨p, hp, fun a v ha => ?_⟩
      rw [frame_step fl k later m2 m' h p a.toList
        fun d hd hpd => disjoint fl k c d p hp hpd (hl d hd) a v ha, h1, lookup_after,
        after_mem _ (asks_nodup fl c) _ a v ha]

/-- **C87**: attributes no call of the history is about keep their values. -/
theorem C87_frame (fl : Floats) (k : Kind) (cs : List Call) (m m' : Maps) (h : run fl k cs m = some m') (p : Part) (a : Str)
    (hf : ∀ c ∈ cs, k.part c = some p → ∀ b v, (b, v) ∈ Spec.asks fl c → b.toList ≠ a) :
    (m' p).lookup a = (m p).lookup a :=
  frame_step fl k cs m m' h p a fun c hc hp b hb => hf c hc hp b.1 b.2 hb

/-- **C87**: a history goes through exactly if the style has all the setters and none of the calls has a size, a margin
or a padding below zero. -/
theorem C87_refused (fl : Floats) (k : Kind) (cs : List Call) (m : Maps) :
    (run fl k cs m).isSome = true ↔ ∀ c ∈ cs, (k.part c).isSome = true ∧ ¬ Spec.refused c := by
  induction cs generalizing m with
  | nil => simp [run]
  | cons c cs ih =>
    rw [run, List.forall_mem_cons]
    have hr := ops_refused fl c
    unfold step
    cases hp : k.part c with
    | none => simp
    | some p =>
      cases ho : c.ops fl with
      | none => simp [hr.1 ho]
      | some os =>
        have : ¬ Spec.refused c := fun h => by rw [hr.2 h] at ho; cases ho
        simp [this, ih]

/-- Making text neither bold nor italic with `set_font_attr` does not: text that was bold stays bold, text that was
italic stays italic. -/
theorem C87_font_attr_counterexample (fl : Floats) (k : Kind) (size : LengthPercent) (m m' : Maps)
    (h : run fl k [.font_bold, .font_italic, .font_attr size false false] m = some m') :
    ∃ p, k.part .font_bold = some p ∧ (m' p).lookup "fo:font-weight".toList = some "bold".toList
      ∧ ∃ q, k.part .font_italic = some q ∧ (m' q).lookup "fo:font-style".toList = some "italic".toList := by
  have key : ∀ (p : Part) (a : String), a ≠ "fo:font-size" → ∀ c ∈ [Call.font_attr size false false], k.part c = some p →
      ∀ b ∈ Spec.asks fl c, b.1.toList ≠ a.toList := by
    intro p a ha c hc _ b hb
    simp only [List.mem_singleton] at hc
    subst hc
    simp only [Spec.asks, Spec.boldIf, Spec.italicIf, Bool.false_eq_true, if_false, List.append_nil, List.mem_singleton] at hb
    subst hb
    exact fun he => ha (String.toList_inj.1 he).symm
  cases h1 : step fl k .font_bold m with
  | none => rw [run, h1] at h; cases h
  | some m1 =>
    rw [run, h1] at h
    change run fl k [.font_italic, .font_attr size false false] m1 = some m' at h
    cases h2 : step fl k .font_italic m1 with
    | none => rw [run, h2] at h; cases h
    | some m2 =>
      have h' := h
      rw [run, h2] at h
      change run fl k [.font_attr size false false] m2 = some m' at h
      obtain ⟨p, hp, a1, -⟩ := step_some fl k _ m m1 h1
      obtain ⟨q, hq, b1, b2⟩ := step_some fl k _ m1 m2 h2
      refine ⟨p, hp, ?_, q, hq, ?_⟩
      · rw [frame_step fl k _ m1 m' h' p _ ?_, a1, lookup_after]
        · exact after_mem _ (asks_nodup fl .font_bold) _ "fo:font-weight" _ (List.mem_singleton.2 rfl)
        · intro c hc hpc b hb
          rcases List.mem_cons.1 hc with rfl | hc
          · simp only [Spec.asks, List.mem_singleton] at hb
            subst hb
            exact fun he => absurd (String.toList_inj.1 he) (by decide +kernel)
          · exact key p "fo:font-weight" (by decide +kernel) c hc hpc b hb
      · rw [frame_step fl k _ m2 m' h q _ (key q "fo:font-style" (by decide +kernel)), b1, lookup_after]
        exact after_mem _ (asks_nodup fl .font_italic) _ "fo:font-style" _ (List.mem_singleton.2 rfl)

/-- A number printer for the examples: the bits in decimal. -/
def bits : Floats := ⟨fun v => decNat v.bits.toNat, fun _ => none⟩

/-- A history on a cell style: both vertical alignments, a border twice, a font. -/
def demo : List Call :=
  [.border_left (.pt ⟨1⟩) .solid ⟨255, 0, 16⟩, .vertical_align .top, .font_attr (.percent (.percent ⟨5⟩)) true false,
   .vertical_align_para .bottom, .border_left (.pt ⟨2⟩) .dashed ⟨0, 0, 0⟩, .locale ⟨"de".toList, none, some "AT".toList, []⟩,
   .padding (.mm ⟨3⟩), .font_style .oblique]

/-- The hypotheses are met: this history goes through on an empty style, the setters are unrelated where they should be,
and a padding below zero is refused. -/
theorem C87_meets : (run bits .cell demo fun _ => []).isSome = true
    ∧ ¬ Spec.Related (.vertical_align .top) (.vertical_align_para .bottom)
    ∧ ¬ Spec.Related (.font_bold) (.font_style .oblique)
    ∧ Spec.refused (.padding (.mm ⟨0x8000000000000001⟩))
    ∧ ¬ Spec.refused (.padding (.mm ⟨0x8000000000000000⟩))
    ∧ Kind.part .cell (.vertical_align .top) = some .own
    ∧ Kind.part .cell (.vertical_align_para .top) = some .paragraph := by
  refine ⟨?_, by unfold Spec.Related; decide +kernel, by unfold Spec.Related; decide +kernel, ?_, ?_, by decide +kernel,
    by decide +kernel⟩
  · decide +kernel
  · exact .inr (by unfold Spec.Negative; decide)
  · rintro (⟨h, -⟩ | h)
    · revert h; decide +kernel
    · revert h; unfold Spec.Negative; decide +kernel

end Verif.Attr
