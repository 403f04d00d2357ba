import Verif.Text.Spec
import Verif.Xml.TreeLemmas
import Verif.Conv.Model

/-!
# C91: texts and trees that are built are those that were asked for
-/

set_option autoImplicit false

namespace Verif.Text

open Xml Xml.Spec Codec Spec
open Conv (extract extracts)

/-! ## Attributes -/

theorem lookup_setFirst (k v j : Str) (l : List (Str × Str)) :
    (setFirst k v l).lookup j = if k = j then some v else l.lookup j := by
  induction l with
  | nil =>
    rw [setFirst]
    by_cases h : k = j
    · rw [if_pos h, h]; simp [List.lookup]
    · rw [if_neg h]
      have hb : (j == k) = false := by simpa using Ne.symm h
      simp [List.lookup, hb]
  | cons p l ih =>
    obtain ⟨a, b⟩ := p
    rw [setFirst]
    by_cases ha : a = k
    · rw [if_pos ha]
      subst ha
      by_cases h : a = j
      · rw [if_pos h, h]; simp [List.lookup]
      · rw [if_neg h]
        have hb : (j == a) = false := by simpa using Ne.symm h
        rw [List.lookup, hb, List.lookup, hb]
    · rw [if_neg ha, List.lookup, List.lookup]
      cases hb : j == a with
      | true =>
        have : j = a := by simpa using hb
        subst this
        simp only
        rw [if_neg (Ne.symm ha)]
      | false => exact ih

theorem keys_setFirst (k v : Str) (l : List (Str × Str)) :
    (setFirst k v l).map Prod.fst = if k ∈ l.map Prod.fst then l.map Prod.fst else l.map Prod.fst ++ [k] := by
  induction l with
  | nil => rw [setFirst, if_neg (by simp)]; rfl
  | cons p l ih =>
    obtain ⟨a, b⟩ := p
    rw [setFirst]
    by_cases ha : a = k
    · subst ha
      rw [if_pos rfl, if_pos (by simp)]
      rfl
    · rw [if_neg ha, List.map_cons, ih, List.map_cons]
      by_cases hm : k ∈ l.map Prod.fst
      · rw [if_pos hm, if_pos (List.mem_cons_of_mem _ hm)]
      · rw [if_neg hm, if_neg (by rw [List.mem_cons, not_or]; exact ⟨Ne.symm ha, hm⟩)]
        rfl

theorem nodup_setFirst (k v : Str) (l : List (Str × Str)) (h : (l.map Prod.fst).Nodup) :
    ((setFirst k v l).map Prod.fst).Nodup := by
  rw [keys_setFirst]
  split
  · exact h
  · rename_i hm
    rw [List.nodup_append]
    refine ⟨h, by simp, ?_⟩
    intro a ha b hb
    rw [List.mem_singleton.1 hb]
    intro he
    exact hm (he ▸ ha)

theorem lookup_absent (l : List (Str × Str)) (k : Str) (h : k ∉ l.map Prod.fst) : l.lookup k = none := by
  induction l with
  | nil => rfl
  | cons p l ih =>
    obtain ⟨a, b⟩ := p
    rw [List.map_cons, List.mem_cons, not_or] at h
    have hb : (k == a) = false := by simpa using h.1
    rw [List.lookup, hb]
    exact ih h.2

theorem keys_clearFirst (k : Str) (l : List (Str × Str)) (h : (l.map Prod.fst).Nodup) :
    (clearFirst k l).map Prod.fst = (l.map Prod.fst).filter (· ≠ k) := by
  induction l with
  | nil => rfl
  | cons p l ih =>
    obtain ⟨a, b⟩ := p
    rw [List.map_cons, List.nodup_cons] at h
    rw [clearFirst]
    by_cases ha : a = k
    · subst ha
      rw [if_pos rfl, List.map_cons, List.filter_cons_of_neg (by simp)]
      exact (List.filter_eq_self.2 (by intro x hx; simpa using fun he : x = a => h.1 (he ▸ hx))).symm
    · rw [if_neg ha, List.map_cons, List.map_cons, List.filter_cons_of_pos (by simpa using ha), ih h.2]

theorem lookup_clearFirst (k j : Str) (l : List (Str × Str)) (h : (l.map Prod.fst).Nodup) :
    (clearFirst k l).lookup j = if k = j then none else l.lookup j := by
  induction l with
  | nil => simp [clearFirst, List.lookup]
  | cons p l ih =>
    obtain ⟨a, b⟩ := p
    rw [List.map_cons, List.nodup_cons] at h
    rw [clearFirst]
    by_cases ha : a = k
    · subst ha
      rw [if_pos rfl]
      by_cases hj : a = j
      · subst hj
        rw [if_pos rfl]
        exact lookup_absent l a h.1
      · rw [if_neg hj]
        have hb : (j == a) = false := by simpa using Ne.symm hj
        rw [List.lookup, hb]
    · rw [if_neg ha, List.lookup, List.lookup]
      cases hb : j == a with
      | true =>
        have : j = a := by simpa using hb
        subst this
        simp only
        rw [if_neg (Ne.symm ha)]
      | false => exact ih h.2

theorem lookup_append (a b : List (Str × Str)) (k : Str) : (a ++ b).lookup k = (a.lookup k).or (b.lookup k) := by
  induction a with
  | nil => rfl
  | cons p a ih =>
    obtain ⟨x, y⟩ := p
    rw [List.cons_append, List.lookup, List.lookup]
    cases k == x with
    | true => rfl
    | false => exact ih

/-! ## XmlTag -/

theorem xrun_name (cs : List XCall) : ∀ t : Tag, (xrun t cs).name = lastName t.name cs := by
  induction cs with
  | nil => intro t; rfl
  | cons c cs ih => intro t; cases c <;> exact ih _

theorem xrun_content (cs : List XCall) : ∀ t : Tag, (xrun t cs).content = t.content ++ xpieces cs := by
  induction cs with
  | nil => intro t; exact (List.append_nil _).symm
  | cons c cs ih =>
    intro t
    rw [xrun, ih]
    cases c <;> simp [XCall.on, xpieces]

theorem fresh_congr (cs : List XCall) : ∀ ks ks' : List Str, (∀ k, k ∈ ks ↔ k ∈ ks') → Fresh ks cs → Fresh ks' cs := by
  induction cs with
  | nil => intro _ _ _ _; trivial
  | cons c cs ih =>
    intro ks ks' h hf
    cases c with
    | name n => exact ih ks ks' h hf
    | tag t => exact ih ks ks' h hf
    | text s => exact ih ks ks' h hf
    | attr k v => exact ih _ _ (by intro x; rw [List.mem_cons, List.mem_cons, h x]) hf
    | clear k => exact ih _ _ (by intro x; rw [List.mem_filter, List.mem_filter, h x]) hf
    | slice kvs =>
      obtain ⟨h1, h2, h3⟩ := hf
      refine ⟨h1, fun p hp hk => h2 p hp ((h _).2 hk), ih _ _ ?_ h3⟩
      intro x
      rw [List.mem_append, List.mem_append, h x]

theorem xrun_attrs (cs : List XCall) : ∀ t : Tag, (t.attrs.map Prod.fst).Nodup → Fresh (t.attrs.map Prod.fst) cs →
    ((xrun t cs).attrs.map Prod.fst).Nodup ∧ ∀ k, (xrun t cs).get k = lastValue k (t.get k) cs := by
  induction cs with
  | nil => intro t h _; exact ⟨h, fun _ => rfl⟩
  | cons c cs ih =>
    intro t h hf
    cases c with
    | name n => exact ih { t with name := n } h hf
    | tag x => exact ih { t with content := t.content ++ [x] } h hf
    | text s => exact ih { t with content := t.content ++ [.text s] } h hf
    | attr k v =>
      obtain ⟨h1, h2⟩ := ih { t with attrs := setFirst k v t.attrs } (nodup_setFirst k v _ h)
        (fresh_congr cs _ _ (by
          intro x
          show _ ↔ x ∈ (setFirst k v t.attrs).map Prod.fst
          rw [keys_setFirst]
          split
          · rename_i hm
            rw [List.mem_cons]
            exact ⟨fun h => h.elim (fun h => h ▸ hm) id, .inr⟩
          · rw [List.mem_cons, List.mem_append, List.mem_singleton, or_comm]) hf)
      refine ⟨h1, fun j => ?_⟩
      have := h2 j
      rw [show ({ t with attrs := setFirst k v t.attrs } : Tag).get j = _ from lookup_setFirst k v j t.attrs] at this
      exact this
    | clear k =>
      have hk : (clearFirst k t.attrs).map Prod.fst = (t.attrs.map Prod.fst).filter (· ≠ k) := keys_clearFirst k _ h
      obtain ⟨h1, h2⟩ := ih { t with attrs := clearFirst k t.attrs }
        (by show ((clearFirst k t.attrs).map Prod.fst).Nodup; rw [hk]; exact h.filter _)
        (by show Fresh ((clearFirst k t.attrs).map Prod.fst) cs; rw [hk]; exact hf)
      refine ⟨h1, fun j => ?_⟩
      have := h2 j
      rw [show ({ t with attrs := clearFirst k t.attrs } : Tag).get j = _ from lookup_clearFirst k j t.attrs h] at this
      exact this
    | slice kvs =>
      obtain ⟨ha, hb, hc⟩ := hf
      obtain ⟨h1, h2⟩ := ih { t with attrs := t.attrs ++ kvs }
        (by
          show ((t.attrs ++ kvs).map Prod.fst).Nodup
          rw [List.map_append, List.nodup_append]
          refine ⟨h, ha, ?_⟩
          intro a haa b hbb he
          obtain ⟨p, hp, rfl⟩ := List.mem_map.1 hbb
          exact hb p hp (he ▸ haa))
        (by show Fresh ((t.attrs ++ kvs).map Prod.fst) cs; rw [List.map_append]; exact hc)
      refine ⟨h1, fun j => ?_⟩
      have := h2 j
      rw [show ({ t with attrs := t.attrs ++ kvs } : Tag).get j = _ from lookup_append t.attrs kvs j] at this
      show _ = lastValue j ((kvs.lookup j).or (t.get j)) cs
      rw [show (xrun t (.slice kvs :: cs)).get j = (xrun { t with attrs := t.attrs ++ kvs } cs).get j from rfl, this]
      congr 1
      show (t.attrs.lookup j).or (kvs.lookup j) = (kvs.lookup j).or (t.attrs.lookup j)
      by_cases hj : j ∈ t.attrs.map Prod.fst
      · have : kvs.lookup j = none := by
          apply lookup_absent
          intro hm
          obtain ⟨p, hp, rfl⟩ := List.mem_map.1 hm
          exact hb p hp hj
        rw [this, Option.or_none, Option.none_or]
      · rw [lookup_absent _ _ hj, Option.none_or, Option.or_none]

theorem extracts_append (a b : List Node) : extracts (a ++ b) = extracts a ++ extracts b := by
  induction a with
  | nil => rfl
  | cons x a ih => rw [List.cons_append, extracts, extracts, ih, List.append_assoc]

/-- **C91, trees** (part): after any chain of calls the element has the name that was asked for last, the elements and texts that
were added, in this order, no attribute twice, and for each attribute the value that was asked for last — if slices of
attributes only bring new ones. -/
theorem C91_tree_partial (n : Str) (cs : List XCall) (hf : Fresh [] cs) :
    (xbuild n cs).name = lastName n cs
      ∧ (xbuild n cs).content = xpieces cs
      ∧ ((xbuild n cs).attrs.map Prod.fst).Nodup
      ∧ ∀ k, (xbuild n cs).get k = lastValue k none cs := by
  obtain ⟨h1, h2⟩ := xrun_attrs cs { name := n } .nil hf
  exact ⟨xrun_name cs _, xrun_content cs _, h1, h2⟩

/-- A slice with an attribute that is there: the attribute is there twice, and the old value counts. -/
theorem C91_slice_counterexample (n k v w : Str) :
    (xbuild n [.attr k v, .slice [(k, w)]]).attrs = [(k, v), (k, w)]
      ∧ (xbuild n [.attr k v, .slice [(k, w)]]).get k = some v := by
  refine ⟨rfl, ?_⟩
  show ([(k, v), (k, w)] : List (Str × Str)).lookup k = _
  simp [List.lookup]

/-! ## Texts -/

theorem trun_eq (cs : List TCall) : ∀ t : Tag, trun t cs = xrun t (cs.map fun
    | .tag x => .tag x
    | .text s => .text s
    | .set s => .attr s.sets.1 s.sets.2) := by
  induction cs with
  | nil => intro t; rfl
  | cons c cs ih => intro t; cases c <;> exact ih _

theorem trun_name (cs : List TCall) : ∀ t : Tag, (trun t cs).name = t.name := by
  induction cs with
  | nil => intro t; rfl
  | cons c cs ih => intro t; cases c <;> exact ih _

theorem trun_content (cs : List TCall) : ∀ t : Tag, (trun t cs).content = t.content ++ pieces cs := by
  induction cs with
  | nil => intro t; exact (List.append_nil _).symm
  | cons c cs ih =>
    intro t
    rw [trun, ih]
    cases c <;> simp [TCall.on, XCall.on, pieces]

theorem trun_nodup (cs : List TCall) : ∀ t : Tag, (t.attrs.map Prod.fst).Nodup → ((trun t cs).attrs.map Prod.fst).Nodup := by
  induction cs with
  | nil => intro t h; exact h
  | cons c cs ih =>
    intro t h
    cases c with
    | tag x => exact ih _ h
    | text s => exact ih _ h
    | set s => exact ih { t with attrs := _ } (nodup_setFirst _ _ _ h)

theorem wordsFrom_class (ns : List Str) (h : ∀ n ∈ ns, n ≠ [] ∧ ' ' ∉ n) : words (classText ns) = ns := by
  have hw : ∀ (a w s : Str), ' ' ∉ a → wordsFrom w (a ++ s) = wordsFrom (w ++ a) s := by
    intro a
    induction a with
    | nil => intro w s _; rw [List.nil_append, List.append_nil]
    | cons c a ih =>
      intro w s ha
      rw [List.mem_cons, not_or] at ha
      rw [List.cons_append, wordsFrom, if_neg (Ne.symm ha.1), ih _ _ ha.2, List.append_assoc]
      rfl
  induction ns with
  | nil => rfl
  | cons n ns ih =>
    obtain ⟨h1, h2⟩ := h n List.mem_cons_self
    unfold words at *
    rw [classText, hw n [] _ h2, List.nil_append, wordsFrom, if_pos rfl, if_neg h1,
      ih (fun m hm => h m (List.mem_cons_of_mem _ hm))]

theorem number_means (n : Nat) : IsNumber (decNat n) n := ⟨decNat_ne n, decNat_digits n, decVal_decNat n⟩

/-- The value that a call sets says what was asked for. -/
theorem sets_means (s : Setter) : Means s.sets.2 s := by
  cases s with
  | classNames ns => exact wordsFrom_class ns
  | listHeader b => cases b <;> rfl
  | restartNumbering b => cases b <;> rfl
  | outlineLevel n => exact number_means n
  | startValue n => exact number_means n
  | count n => exact number_means n
  | tabRef n => exact number_means n
  | _ => rfl

theorem sets_name (s : Setter) (h : ¬ Misnamed s) : s.sets.1 = attrName s := by
  cases s <;> first | rfl | exact absurd trivial h

theorem trun_get (cs : List TCall) (hm : ∀ s, TCall.set s ∈ cs → ¬ Misnamed s) (k : Str) : ∀ (t : Tag) (r : Option Setter),
    t.get k = r.map (·.sets.2) → (trun t cs).get k = (lastSetter k r cs).map (·.sets.2) := by
  induction cs with
  | nil => intro t r h; exact h
  | cons c cs ih =>
    have ih := ih (fun s hs => hm s (List.mem_cons_of_mem _ hs))
    intro t r h
    cases c with
    | tag x => exact ih _ r h
    | text s => exact ih _ r h
    | set s =>
      refine ih { t with attrs := setFirst s.sets.1 s.sets.2 t.attrs } (if attrName s = k then some s else r) ?_
      show (setFirst s.sets.1 s.sets.2 t.attrs).lookup k = _
      rw [lookup_setFirst, sets_name s (hm s List.mem_cons_self)]
      split
      · rfl
      · exact h

/-- The value that is in the element, and the call that asked for it. -/
def Says (v : Option Str) (s : Option Setter) : Prop :=
  match s with
  | none => v = none
  | some s => ∃ w, v = some w ∧ Means w s

/-- **C91, texts** (part): after any chain of calls a text is the element of the standard that it is named after, with the elements
and texts that were added, in this order; its plain text is theirs, joined; no attribute is there twice; and each attribute of
the standard says what the last call about it asked for, and is not there if there was none. The calls for conditional
styles and outline levels are not among them. -/
theorem C91_text_partial (k : Kind) (cs : List TCall) (hm : ∀ s, TCall.set s ∈ cs → ¬ Misnamed s) :
    (build k cs).name = element k
      ∧ (build k cs).content = pieces cs
      ∧ extract (build k cs).node = ((pieces cs).map extract).flatten
      ∧ ((build k cs).attrs.map Prod.fst).Nodup
      ∧ ∀ a, Says ((build k cs).get a) (lastSetter a none cs) := by
  have hc : (build k cs).content = pieces cs := trun_content cs _
  refine ⟨?_, hc, ?_, trun_nodup cs _ .nil, ?_⟩
  · rw [show (build k cs).name = k.tag from trun_name cs _]
    cases k <;> rfl
  · show extracts (build k cs).content = _
    rw [hc]
    induction pieces cs with
    | nil => rfl
    | cons x l ih => rw [extracts, ih]; rfl
  · intro a
    have := trun_get cs hm a { name := k.tag } none rfl
    rw [show (build k cs).get a = (trun { name := k.tag } cs).get a from rfl, this]
    cases lastSetter a none cs with
    | none => rfl
    | some s => exact ⟨_, rfl, sets_means s⟩

theorem setter_allowed (k : Kind) (s : Setter) (h : s.has k = true) (hm : ¬ Misnamed s) :
    s.sets.1 ∈ (allowed k).map String.toList := by
  have ok : ∀ (a : String), a ∈ allowed k → a.toList ∈ (allowed k).map String.toList :=
    fun a ha => List.mem_map.2 ⟨a, ha, rfl⟩
  cases s with
  | condstyleName n => exact absurd trivial hm
  | outlineLevel n => exact absurd trivial hm
  | classNames ns =>
    refine ok "text:class-names" ?_
    simp only [Setter.has, Bool.or_eq_true, decide_eq_true_eq] at h
    rcases h with (rfl | rfl) | rfl <;> decide
  | id n =>
    refine ok "text:id" ?_
    simp only [Setter.has, Bool.or_eq_true, decide_eq_true_eq] at h
    rcases h with rfl | rfl <;> decide
  | styleName n =>
    refine ok "text:style-name" ?_
    simp only [Setter.has, Bool.or_eq_true, decide_eq_true_eq] at h
    rcases h with ((rfl | rfl) | rfl) | rfl <;> decide
  | xmlId n =>
    refine ok "xml:id" ?_
    simp only [Setter.has, Bool.or_eq_true, decide_eq_true_eq] at h
    rcases h with rfl | rfl <;> decide
  | listHeader n =>
    refine ok "text:is-list-header" ?_
    rw [show k = .textH from of_decide_eq_true h]
    decide
  | restartNumbering n =>
    refine ok "text:restart-numbering" ?_
    rw [show k = .textH from of_decide_eq_true h]
    decide
  | startValue n =>
    refine ok "text:start-value" ?_
    rw [show k = .textH from of_decide_eq_true h]
    decide
  | visitedStyleName n =>
    refine ok "text:visited-style-name" ?_
    rw [show k = .textA from of_decide_eq_true h]
    decide
  | href n =>
    refine ok "xlink:href" ?_
    rw [show k = .textA from of_decide_eq_true h]
    decide
  | count n =>
    refine ok "text:c" ?_
    rw [show k = .textS from of_decide_eq_true h]
    decide
  | tabRef n =>
    refine ok "text:tab-ref" ?_
    rw [show k = .textTab from of_decide_eq_true h]
    decide

/-- The attributes that are set. -/
def setKeys : List Str :=
  ["text:class-names", "text:condstyle-name", "text:id", "text:is-list-header", "text:outlinelevel", "text:restart-numbering",
   "text:start-value", "text:style-name", "xml:id", "text:visited-style-name", "xlink:href", "text:c", "text:tab-ref"].map
    String.toList

theorem sets_mem (s : Setter) : s.sets.1 ∈ setKeys := by
  cases s with
  | classNames n => exact List.mem_of_getElem? (i := 0) rfl
  | condstyleName n => exact List.mem_of_getElem? (i := 1) rfl
  | id n => exact List.mem_of_getElem? (i := 2) rfl
  | listHeader n => exact List.mem_of_getElem? (i := 3) rfl
  | outlineLevel n => exact List.mem_of_getElem? (i := 4) rfl
  | restartNumbering n => exact List.mem_of_getElem? (i := 5) rfl
  | startValue n => exact List.mem_of_getElem? (i := 6) rfl
  | styleName n => exact List.mem_of_getElem? (i := 7) rfl
  | xmlId n => exact List.mem_of_getElem? (i := 8) rfl
  | visitedStyleName n => exact List.mem_of_getElem? (i := 9) rfl
  | href n => exact List.mem_of_getElem? (i := 10) rfl
  | count n => exact List.mem_of_getElem? (i := 11) rfl
  | tabRef n => exact List.mem_of_getElem? (i := 12) rfl

theorem trun_keys (cs : List TCall) : ∀ (t : Tag), ∀ a ∈ (trun t cs).attrs.map Prod.fst,
    a ∈ t.attrs.map Prod.fst ∨ ∃ s, TCall.set s ∈ cs ∧ s.sets.1 = a := by
  induction cs with
  | nil => intro t a ha; exact .inl ha
  | cons c cs ih =>
    intro t a ha
    rcases ih _ a ha with h | ⟨s, hs, he⟩
    · cases c with
      | tag x => exact .inl h
      | text s => exact .inl h
      | set s =>
        have h : a ∈ (setFirst s.sets.1 s.sets.2 t.attrs).map Prod.fst := h
        rw [keys_setFirst] at h
        split at h
        · exact .inl h
        · rcases List.mem_append.1 h with h | h
          · exact .inl h
          · exact .inr ⟨s, List.mem_cons_self, (List.mem_singleton.1 h).symm⟩
    · exact .inr ⟨s, List.mem_cons_of_mem _ hs, he⟩

/-- **C91, attributes** (part): all attributes of a text are attributes that the standard has for the element. -/
theorem C91_allowed_partial (k : Kind) (cs : List TCall) (ha : Available k cs)
    (hm : ∀ s, TCall.set s ∈ cs → ¬ Misnamed s) : ∀ a ∈ (build k cs).attrs.map Prod.fst, a ∈ (allowed k).map String.toList := by
  intro a h
  rcases trun_keys cs _ a h with h | ⟨s, hs, rfl⟩
  · cases h
  · exact setter_allowed k s (ha s hs) (hm s hs)

/-- No chain of calls gives a heading the outline level that the standard requires; nor anything a conditional style. -/
theorem C91_missing_counterexample (k : Kind) (cs : List TCall) :
    (build k cs).get "text:outline-level".toList = none ∧ (build k cs).get "text:cond-style-name".toList = none := by
  have h : ∀ a : Str, (∀ s : Setter, s.sets.1 ≠ a) → (build k cs).get a = none := by
    intro a ha
    apply lookup_absent
    intro hk
    rcases trun_keys cs _ a hk with h | ⟨s, _, he⟩
    · cases h
    · exact ha s he
  constructor
  · exact h _ fun s he => absurd (sets_mem s) (he ▸ by decide +kernel)
  · exact h _ fun s he => absurd (sets_mem s) (he ▸ by decide +kernel)

/-- What is set instead is not an attribute of the standard. -/
theorem C91_misnamed_counterexample (l : Nat) (n : Str) :
    (build .textH [.set (.outlineLevel l)]).attrs = [("text:outlinelevel".toList, decNat l)]
      ∧ "text:outlinelevel" ∉ allowed .textH
      ∧ (build .textP [.set (.condstyleName n)]).attrs = [("text:condstyle-name".toList, n)]
      ∧ "text:condstyle-name" ∉ allowed .textP :=
  ⟨rfl, by decide, rfl, by decide⟩

/-- **C91, vectors**: a text that is added to a vector of elements is a paragraph with this text, at its end. -/
theorem C91_vec (v : List Node) (s : Str) (t : Node) :
    vecText v s = v ++ [.tag "text:p".toList [] [.text s]] ∧ vecTag v t = v ++ [t] := ⟨rfl, rfl⟩

theorem setKeys_names : ∀ k ∈ setKeys, Name k := by decide +kernel

theorem sets_names (s : Setter) : Name s.sets.1 := setKeys_names _ (sets_mem s)

theorem allNames_iff (l : List Node) : AllNamesOk l ↔ ∀ x ∈ l, NamesOk x := by
  induction l with
  | nil => simp [AllNamesOk]
  | cons x l ih => rw [AllNamesOk, ih]; simp

/-- **C91, names**: what is built has only XML names in it, if the elements that are added have. So C32 applies to it: it
comes back from a file. -/
theorem C91_names (k : Kind) (cs : List TCall) (h : ∀ t, TCall.tag t ∈ cs → NamesOk t) : NamesOk (build k cs).node := by
  unfold Tag.node
  rw [NamesOk]
  refine ⟨?_, ?_, ?_⟩
  · rw [show (build k cs).name = k.tag from trun_name cs _]
    cases k <;> decide +kernel
  · intro a ha
    rcases trun_keys cs _ a.1 (List.mem_map.2 ⟨a, ha, rfl⟩) with h | ⟨s, _, he⟩
    · cases h
    · exact he ▸ sets_names s
  · rw [show (build k cs).content = pieces cs from trun_content cs _, allNames_iff]
    intro x hx
    induction cs with
    | nil => cases hx
    | cons c cs ih =>
      have ih := ih (fun t ht => h t (List.mem_cons_of_mem _ ht))
      cases c with
      | set s => exact ih hx
      | tag t =>
        rcases List.mem_cons.1 hx with rfl | hx
        · exact h x List.mem_cons_self
        · exact ih hx
      | text s =>
        rcases List.mem_cons.1 hx with rfl | hx
        · trivial
        · exact ih hx

/-! ## Display -/

theorem showAttrs_eq (as : List (Str × Str)) : showAttrs as = (as.map fun a => (false, a.1, a.2)).flatMap attrText := by
  induction as with
  | nil => rfl
  | cons a as ih =>
    obtain ⟨k, v⟩ := a
    rw [showAttrs, ih, List.map_cons, List.flatMap_cons]
    simp [attrText]

theorem tok_tag (n : Str) (as : List (Str × Str)) (hn : Name n) (ha : ∀ a ∈ as, Name a.1 ∧ Plain a.2) :
    ∃ st, tokFrom .text ('<' :: n ++ showAttrs as) = some (st, []) ∧ InTag n as st := by
  obtain ⟨st, h1, h2⟩ := tok_attrs n (as.map fun a => (false, a.1, a.2)) [] (.name n) (.inl ⟨rfl, rfl⟩) (by
    intro x hx
    obtain ⟨a, h, rfl⟩ := List.mem_map.1 hx
    exact ⟨(ha a h).1, fun _ => (ha a h).2⟩)
  refine ⟨st, ?_, ?_⟩
  · rw [showAttrs_eq]
    exact tokFrom_seq (tok_open n hn) _ h1
  · have : rawAttrs (as.map fun a => (false, a.1, a.2)) = as := by
      unfold rawAttrs
      rw [List.map_map]
      exact (List.map_congr_left (fun a _ => rfl)).trans (List.map_id as)
    rw [List.nil_append, this] at h2
    exact h2

theorem attrsMean_plain (as : List (Str × Str)) (ha : ∀ a ∈ as, Name a.1 ∧ Plain a.2) : attrsMean as = attrsSay as :=
  List.map_congr_left fun a h => by rw [unescape_plain _ (ha a h).2]

theorem tok_chars (s : Str) (h : Plain s) : tokFrom .text s = some (.text, s.map Tok.chr) :=
  tok_plain s fun c hc => ⟨fun he => h c hc (.inl he), fun he => h c hc (.inr (.inr (.inl he)))⟩

theorem tok_line : tokFrom .text ['\n'] = some (.text, [Tok.chr '\n']) := by decide

mutual

theorem tok_shown : ∀ x : Node, PlainTree x → ∃ ts, tokFrom .text (shown x) = some (.text, ts) ∧ meaning ts = lines x
  | .text s, h => by
    refine ⟨s.map Tok.chr ++ [Tok.chr '\n'], ?_, ?_⟩
    · rw [shown]
      exact tokFrom_seq (tok_chars s h) _ tok_line
    · rw [meaning_append, meaning_chr, lines]; rfl
  | .tag n as [], h => by
    rw [PlainTree] at h
    obtain ⟨st, h1, h2⟩ := tok_tag n as h.1 h.2.1
    refine ⟨[.empty n as, .chr '\n'], ?_, ?_⟩
    · have := tokFrom_seq (tokFrom_seq h1 _ (inTag_slash h2)) _ tok_line
      rw [shown]
      simpa using this
    · rw [meaning, meaning, meaning, attrsMean_plain as h.2.1, lines]
  | .tag n as (x :: c), h => by
    rw [PlainTree, PlainTrees] at h
    obtain ⟨st, h1, h2⟩ := tok_tag n as h.1 h.2.1
    obtain ⟨t1, h3, h4⟩ := tok_shown x h.2.2.1
    obtain ⟨t2, h5, h6⟩ := tok_showns c h.2.2.2
    refine ⟨.start n as :: .chr '\n' :: (t1 ++ t2 ++ [.end n, .chr '\n']), ?_, ?_⟩
    · have := tokFrom_seq (tokFrom_seq (tokFrom_seq (tokFrom_seq (tokFrom_seq (tokFrom_seq h1 _ (inTag_gt h2)) _ tok_line) _ h3) _ h5)
        _ (tok_end n h.1)) _ tok_line
      rw [shown, showns]
      simpa using this
    · rw [meaning, meaning, meaning_append, meaning_append, attrsMean_plain as h.2.1, h4, h6, lines]
      rfl

theorem tok_showns : ∀ c : List Node, PlainTrees c → ∃ ts, tokFrom .text (showns c) = some (.text, ts) ∧ meaning ts = liness c
  | [], _ => ⟨[], rfl, rfl⟩
  | x :: c, h => by
    rw [PlainTrees] at h
    obtain ⟨t1, h3, h4⟩ := tok_shown x h.1
    obtain ⟨t2, h5, h6⟩ := tok_showns c h.2
    refine ⟨t1 ++ t2, ?_, ?_⟩
    · rw [showns]; exact tokFrom_seq h3 _ h5
    · rw [meaning_append, h4, h6, liness]

end

/-- **C91, printing** (part): what `Display` prints is XML with the tags and characters of the tree, and a line break after each —
if there is nothing in it to be escaped. -/
theorem C91_display_partial (t : Node) (h : PlainTree t) :
    ∃ ts, tokenize (shown t) = some ts ∧ meaning ts = lines t := by
  obtain ⟨ts, h1, h2⟩ := tok_shown t h
  refine ⟨ts, ?_, h2⟩
  unfold tokenize
  rw [h1]

/-- What is printed is not escaped: a text can be read as a tag, and a value as another attribute. -/
theorem C91_display_counterexample :
    (tokenize (shown (.tag "a".toList [] [.text "<b/>".toList]))).map meaning
        = (tokenize (shown (.tag "a".toList [] [.tag "b".toList [] []]))).map meaning
      ∧ (tokenize (shown (.tag "a".toList [("x".toList, "1\" y=\"2".toList)] []))).map meaning
        = (tokenize (shown (.tag "a".toList [("x".toList, "1".toList), ("y".toList, "2".toList)] []))).map meaning := by
  decide +kernel

/-- The example of the documentation, src/text.rs:9-24, with some attributes. -/
def demo : List TCall :=
  [.set (.styleName "p1".toList), .text "some text".toList, .tag (build .metaAuthorName []).node,
   .tag (build .textS [.set (.count 3)]).node, .set (.classNames ["a".toList, "b".toList]), .text "whatever".toList,
   .set (.styleName "p2".toList)]

/-- **The hypotheses of C91 are met** by the example of the documentation, and by a tree with attributes. -/
theorem C91_meets :
    (∀ s, TCall.set s ∈ demo → ¬ Misnamed s) ∧ Available .textP demo ∧ (∀ t, TCall.tag t ∈ demo → NamesOk t)
      ∧ (build .textP demo).attrs = [("text:style-name".toList, "p2".toList), ("text:class-names".toList, "a b ".toList)]
      ∧ PlainTree (build .textP demo).node
      ∧ Fresh [] [.slice [("a".toList, []), ("b".toList, [])], .clear "a".toList, .slice [("a".toList, [])], .attr "b".toList []] := by
  refine ⟨?_, ?_, ?_, by decide +kernel, ?_, ?_⟩
  · intro s h
    simp only [demo, List.mem_cons, TCall.set.injEq, reduceCtorEq, List.not_mem_nil, or_false, false_or] at h
    rcases h with rfl | rfl | rfl <;> exact id
  · intro s h
    simp only [demo, List.mem_cons, TCall.set.injEq, reduceCtorEq, List.not_mem_nil, or_false, false_or] at h
    rcases h with rfl | rfl | rfl <;> rfl
  · intro t h
    simp only [demo, List.mem_cons, TCall.tag.injEq, reduceCtorEq, List.not_mem_nil, or_false, false_or] at h
    rcases h with rfl | rfl <;> exact C91_names _ _ (by simp)
  · show PlainTree (.tag "text:p".toList [("text:style-name".toList, "p2".toList), ("text:class-names".toList, "a b ".toList)]
      [.text "some text".toList, .tag "text:author-name".toList [] [], .tag "text:s".toList [("text:c".toList, "3".toList)] [],
       .text "whatever".toList])
    simp only [PlainTree, PlainTrees]
    decide +kernel
  · simp only [Fresh]; decide

end Verif.Text
