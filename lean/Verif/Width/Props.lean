import Verif.Width.Cols

/-!
# Lengths and column widths over write and read (C61, C57)
-/

set_option autoImplicit false

namespace Verif.Width

open Xml Xml.Spec Codec Book Style Style.Spec OMap Refs.Spec

namespace Spec

/-- The style is one that is written in a package and read under its name, see C51. -/
def Kept (t : Style Body) : Prop := t.body.use ≠ .default ∧ (t.body.origin = .styles ∨ t.body.use = .automatic)

/-- Two headers of columns of the workbook. -/
def IsHeader (ss : List TSheet) (h : ColHeader) : Prop := ∃ s ∈ ss, ∃ c, (c, h) ∈ s.colHeader

/-- The styles of the columns can carry the widths: they are stored and kept in the file, columns that share a style share
the width, and a style for a width does not say that the width is computed from the content. -/
structure WidthsFit (b : Stores Body) (ss : List TSheet) : Prop where
  stored : ∀ h n, IsHeader ss h → h.style = some n → ∃ t, b.get? .col n.toList = some t ∧ Kept t
    ∧ (h.width ≠ .default → flagOr (val "style:use-optimal-column-width".toList t.body.main) = some false)
  shared : ∀ h h' n, IsHeader ss h → IsHeader ss h' → h.style = some n → h'.style = some n → h.width = h'.width

end Spec

open Spec

/-! ## C61 -/

/-- **C61**, partial: every length that is not the default is parsed to the same length with the same unit.

Missing: the default length, which is written as an empty text (`C61_default_counterexample`). -/
theorem C61_length_partial (f : Floats) (l : Length) (hf : LengthOk f l) (hl : l ≠ .default) :
    parseLength f (fmtLength f l) = some l := parse_fmt f l hl hf

/-- **C61**, the negative: the default length is written as an empty text, which is refused. -/
theorem C61_default_counterexample (f : Floats) : fmtLength f .default = [] ∧ parseLength f [] = none := ⟨rfl, rfl⟩

/-- Different lengths have different texts. -/
theorem C61_injective (f : Floats) (l l' : Length) (hf : LengthOk f l) (hf' : LengthOk f l') (hl : l ≠ .default) (hl' : l' ≠ .default)
    (h : fmtLength f l = fmtLength f l') : l = l' := by
  have := C61_length_partial f l hf hl
  rw [h, C61_length_partial f l' hf' hl'] at this
  exact (Option.some.inj this).symm

/-! ## The stores -/

/-- What `BookOk` says of the styles. -/
structure StoresOk (b : Stores Body) : Prop where
  key : ∀ k, ∀ e ∈ b.store k, e.1 = e.2.name ∧ e.2.name ≠ []
  body : ∀ k, ∀ e ∈ b.store k, BodyOk k e.2.body
  map : ∀ k, HMap.Distinct (b.store k)

/-- The number of styles. -/
def total (b : Stores Body) : Nat := (styleKinds.map fun k => (b.store k).length).sum

theorem new_ok (d : Dim) (hk : d.kind = .col ∨ d.kind = .row) : BodyOk d.kind {} := by
  refine ⟨⟨?_, fun _ => rfl, fun _ => rfl, fun _ => rfl, fun _ => rfl, fun _ => rfl⟩, ?_, ?_, ?_, ?_, ?_, ?_⟩
  · rcases hk with h | h <;> rw [h] <;> decide
  all_goals intro a h; cases h

theorem total_set (b : Stores Body) (k : Kind) (m : HMap Str (Style Body)) (n : Nat) (h : m.length ≤ (b.store k).length + n) :
    total (b.setStore k m) ≤ total b + n := by
  unfold total
  have hnd := styleKinds_nodup
  generalize styleKinds = l at hnd ⊢
  have hout : ∀ l : List Kind, k ∉ l → (l.map fun k' => ((b.setStore k m).store k').length) = l.map fun k' => (b.store k').length := by
    intro l hl
    refine List.map_congr_left fun k' hk' => ?_
    rw [get_setStore, if_neg fun e => hl (by rw [← e]; exact hk')]
  induction l with
  | nil => exact Nat.zero_le _
  | cons a l ih =>
    have hn := List.nodup_cons.1 hnd
    rw [List.map_cons, List.map_cons, List.sum_cons, List.sum_cons]
    by_cases ha : a = k
    · subst ha
      rw [hout l hn.1, get_setStore, if_pos rfl]
      omega
    · have := ih hn.2
      rw [get_setStore, if_neg ha]
      omega

theorem modify_ok (d : Dim) (hd : d.Ok) (hk : d.kind = .col ∨ d.kind = .row) (f : Floats) (b : Stores Body) (hb : StoresOk b) (n : Str) (w : Length) :
    StoresOk (b.modify d.kind n (toBody d f w)) ∧ total (b.modify d.kind n (toBody d f w)) ≤ total b := by
  have hmem : ∀ e ∈ (b.store d.kind).modify n (toBody d f w), ∃ e' ∈ b.store d.kind, e = e' ∨ (e'.1 = n ∧ e = (n, toBody d f w e'.2)) := by
    intro e he
    obtain ⟨e', he', rfl⟩ := List.mem_map.1 he
    refine ⟨e', he', ?_⟩
    by_cases h : e'.1 = n
    · rw [if_pos h]; exact .inr ⟨h, rfl⟩
    · rw [if_neg h]; exact .inl rfl
  have hbody : ∀ s : Style Body, BodyOk d.kind s.body → BodyOk d.kind (toBody d f w s).body := by
    intro s hs
    refine ⟨⟨hs.shape.kind, ?_, hs.shape.para, hs.shape.text, hs.shape.maps, hs.shape.tabs⟩, hs.attr, ?_, hs.para, hs.text,
      hs.maps, hs.tabs⟩
    · intro h
      rcases hk with hk | hk <;> rw [hk] at h <;> exact absurd h (by decide)
    · exact keys_toStyle d hd f w _ hs.main
  refine ⟨⟨?_, ?_, ?_⟩, ?_⟩
  · intro k e he
    unfold Stores.modify at he
    rw [get_setStore] at he
    split at he
    · obtain ⟨e', he', rfl | ⟨h1, rfl⟩⟩ := hmem e he
      · exact hb.key _ _ he'
      · have := hb.key _ _ he'
        exact ⟨by rw [← h1]; exact this.1, this.2⟩
    · exact hb.key _ _ he
  · intro k e he
    unfold Stores.modify at he
    rw [get_setStore] at he
    split at he
    · rename_i hk'
      rw [hk']
      obtain ⟨e', he', rfl | ⟨h1, rfl⟩⟩ := hmem e he
      · exact hb.body _ _ he'
      · exact hbody _ (hb.body _ _ he')
    · exact hb.body _ _ he
  · intro k
    unfold Stores.modify
    rw [get_setStore]
    split
    · have : HMap.keys ((b.store d.kind).modify n (toBody d f w)) = HMap.keys (b.store d.kind) := by
        unfold HMap.keys HMap.modify
        rw [List.map_map]
        refine List.map_congr_left fun e _ => ?_
        simp only [Function.comp]
        split
        · rename_i h; exact h.symm
        · rfl
      unfold HMap.Distinct
      rw [this]
      exact hb.map _
    · exact hb.map _
  · have := total_set b d.kind ((b.store d.kind).modify n (toBody d f w)) 0 (by unfold HMap.modify; simp)
    exact this

theorem prefix_ne (k : Kind) (l : Str) : k.prefix ++ l ≠ [] :=
  List.append_ne_nil_of_left_ne_nil (by cases k <;> decide +kernel) _

theorem add_ok (d : Dim) (hk : d.kind = .col ∨ d.kind = .row) (b b' : Stores Body) (hb : StoresOk b) (n : Str)
    (h : b.add d.kind ⟨[], {}⟩ = .ok (b', n)) : StoresOk b' ∧ total b' ≤ total b + 1 := by
  unfold Stores.add autoName at h
  rw [if_pos rfl] at h
  simp only at h
  cases hs : searchName d.kind.prefix (fun n => (b.store d.kind).contains n) ((b.store d.kind).length + 1)
      (startCount b.autonum d.kind.prefix) with
  | error e => rw [hs] at h; cases h
  | ok c =>
    rw [hs] at h
    simp only at h
    cases h
    have hpre := prefix_ne d.kind (decNat c)
    generalize d.kind.prefix ++ decNat c = nm at hpre
    have hmem : ∀ e ∈ (b.store d.kind).insert nm (⟨nm, {}⟩ : Style Body), e = (nm, ⟨nm, {}⟩) ∨ e ∈ b.store d.kind := by
      intro e he
      rcases List.mem_cons.1 he with h | h
      · exact .inl h
      · exact .inr (List.mem_filter.1 h).1
    refine ⟨⟨?_, ?_, ?_⟩, ?_⟩
    · intro k e he
      rw [get_setStore] at he
      split at he
      · rcases hmem e he with rfl | h
        · exact ⟨rfl, hpre⟩
        · exact hb.key _ _ h
      · exact hb.key _ _ he
    · intro k e he
      rw [get_setStore] at he
      split at he
      · rename_i hk'
        rw [hk']
        rcases hmem e he with rfl | h
        · exact new_ok d hk
        · exact hb.body _ _ h
      · exact hb.body _ _ he
    · intro k
      rw [get_setStore]
      split
      · exact HMap.distinct_insert _ _ _ (hb.map _)
      · exact hb.map _
    · refine total_set { b with autonum := b.autonum.insert d.kind.prefix c } d.kind _ 1 ?_
      show (HMap.remove (b.store d.kind) nm).length + 1 ≤ (b.store d.kind).length + 1
      exact Nat.succ_le_succ (List.length_filter_le _ _)

theorem step_ok (d : Dim) (hd : d.Ok) (hk : d.kind = .col ∨ d.kind = .row) (f : Floats) (b b' : Stores Body) (hb : StoresOk b) (st st' : Option String)
    (w : Length) (h : sizeStep d f b st w = .ok (b', st')) : StoresOk b' ∧ total b' ≤ total b + 1 := by
  unfold sizeStep at h
  cases st with
  | some n =>
    simp only [reduceCtorEq, and_false, if_false] at h
    cases h
    have := modify_ok d hd hk f b hb n.toList w
    exact ⟨this.1, Nat.le_succ_of_le this.2⟩
  | none =>
    by_cases hw : w = .default
    · rw [if_neg fun h => h.1 hw] at h
      cases h
      exact ⟨hb, Nat.le_succ _⟩
    · rw [if_pos ⟨hw, rfl⟩] at h
      cases hadd : b.add d.kind ⟨[], {}⟩ with
      | error e => rw [hadd] at h; cases h
      | ok r =>
        obtain ⟨b1, n⟩ := r
        rw [hadd] at h
        simp only at h
        cases h
        have h1 := add_ok d hk b b1 hb n hadd
        have h2 := modify_ok d hd hk f b1 h1.1 (String.ofList n).toList w
        exact ⟨h2.1, Nat.le_trans h2.2 h1.2⟩

theorem run_ok (d : Dim) (hd : d.Ok) (hk : d.kind = .col ∨ d.kind = .row) (f : Floats) (l : List (Option String × Length)) : ∀ (b b' : Stores Body) (ns : List (Option String)),
    sizesRun d f b l = .ok (b', ns) → StoresOk b → StoresOk b' ∧ total b' ≤ total b + l.length := by
  induction l with
  | nil => intro b b' ns h hb; cases h; exact ⟨hb, Nat.le_refl _⟩
  | cons p l ih =>
    obtain ⟨st, w⟩ := p
    intro b b' ns h hb
    rw [sizesRun] at h
    cases hs : sizeStep d f b st w with
    | error e => rw [hs] at h; cases h
    | ok r =>
      obtain ⟨b1, st'⟩ := r
      rw [hs] at h
      simp only at h
      cases hr : sizesRun d f b1 l with
      | error e => rw [hr] at h; cases h
      | ok r =>
        obtain ⟨b2, ns2⟩ := r
        rw [hr] at h
        simp only at h
        have hb2 : b2 = b' := by injection h with h; injection h
        subst hb2
        have h1 := step_ok d hd hk f b b1 hb st st' w hs
        have h2 := ih b1 b2 ns2 hr h1.1
        refine ⟨h2.1, ?_⟩
        have := h2.2
        have := h1.2
        simp only [List.length_cons]
        omega

theorem book_ok (b : SBook) (hb : BookOk b) (st : Stores Body) (h : StoresOk st) : BookOk { b with styles := st } :=
  ⟨h.key, h.body, h.map, hb.formatKey, hb.format, hb.formatsMap, hb.pageKey, hb.page, hb.pagesMap, hb.fontKey, hb.font, hb.fontsMap⟩

/-! ## Gaps -/

/-- A header before and after, with respect to the names stored before. -/
def Done (old : Str → Prop) (p : (Nat × ColHeader) × Option String) : Prop :=
  (∃ n, p.1.2.style = some n ∧ p.2 = some n ∧ old n.toList)
  ∨ (p.1.2.style = none ∧ p.1.2.width = .default ∧ p.2 = none)
  ∨ (p.1.2.style = none ∧ p.1.2.width ≠ .default ∧ ∃ n, p.2 = some (String.ofList n) ∧ ¬ old n)

/-- New styles have one header each. -/
def Apart (p q : (Nat × ColHeader) × Option String) : Prop := p.1.2.style = none → p.2 ≠ none → p.2 ≠ q.2

/-- Headers with the same style afterwards had the same style before, unless they are one. -/
theorem same_before (old : Str → Prop) (p q : (Nat × ColHeader) × Option String) (hp : Done old p) (hq : Done old q)
    (h1 : Apart p q) (h2 : Apart q p) (he : p.2 = q.2) : p.1.2.style = q.1.2.style := by
  rcases hp with ⟨n, a1, a2, _⟩ | ⟨a1, _, a2⟩ | ⟨a1, _, n, a2, _⟩
  · rcases hq with ⟨n', b1, b2, _⟩ | ⟨b1, _, b2⟩ | ⟨b1, _, n', b2, _⟩
    · rw [a1, b1, ← a2, ← b2, he]
    · rw [a2, b2] at he; cases he
    · exact absurd he.symm (h2 b1 (by rw [b2]; simp))
  · rcases hq with ⟨n', b1, b2, _⟩ | ⟨b1, _, b2⟩ | ⟨b1, _, n', b2, _⟩
    · rw [a2, b2] at he; cases he
    · rw [a1, b1]
    · rw [a2, b2] at he; cases he
  · exact absurd he (h1 a1 (by rw [a2]; simp))

theorem restyle_noGap (old : Str → Prop) : ∀ (m : ColHeaders) (ns : List (Option String)), ns.length = m.length →
    (∀ p ∈ m.zip ns, Done old p) → ((m.zip ns).Pairwise fun p q => Apart p q ∧ Apart q p) →
    m.NoGap → (restyle m ns).NoGap
  | [], ns, hl, _, _, _ => by simp [restyle, ColHeaders.NoGap]
  | [p], [], hl, _, _, _ => by cases hl
  | [p], [n], hl, _, _, _ => by simp [restyle, ColHeaders.NoGap]
  | [p], n :: n' :: ns, hl, _, _, _ => by cases hl
  | p :: q :: m, [], hl, _, _, _ => by cases hl
  | p :: q :: m, [n], hl, _, _, _ => by cases hl
  | p :: q :: m, n :: n' :: ns, hl, hd, hp, hg => by
    have ih := restyle_noGap old (q :: m) (n' :: ns) (by simpa using hl)
      (fun x hx => hd x (List.mem_cons_of_mem _ hx)) (List.Pairwise.of_cons hp) hg.2
    refine ⟨?_, ih⟩
    intro he
    refine hg.1 ?_
    have hap := (List.pairwise_cons.1 hp).1 (q, n') List.mem_cons_self
    have h1 := hd (p, n) List.mem_cons_self
    have h2 := hd (q, n') (List.mem_cons_of_mem _ List.mem_cons_self)
    unfold ColHeader.limitedEq at he ⊢
    simp only [Bool.and_eq_true, decide_eq_true_eq] at he ⊢
    exact ⟨⟨⟨same_before old (p, n) (q, n') h1 h2 hap.1 hap.2 he.1.1.1, he.1.1.2⟩, he.1.2⟩, he.2⟩

theorem mem_pairwise {α : Type} (R : α → α → Prop) (l : List α) (h : l.Pairwise fun a b => R a b ∧ R b a) (a b : α) (ha : a ∈ l)
    (hb : b ∈ l) : a = b ∨ (R a b ∧ R b a) := by
  induction l with
  | nil => cases ha
  | cons x l ih =>
    have hx := List.pairwise_cons.1 h
    rcases List.mem_cons.1 ha with ha' | ha'
    · rcases List.mem_cons.1 hb with hb' | hb'
      · exact .inl (ha'.trans hb'.symm)
      · rw [ha']; exact .inr (hx.1 b hb')
    · rcases List.mem_cons.1 hb with hb' | hb'
      · rw [hb']; exact .inr ⟨(hx.1 a ha').2, (hx.1 a ha').1⟩
      · exact ih hx.2 ha' hb'

theorem restyle_noHole (old : Str → Prop) (m : ColHeaders) (ns : List (Option String)) (hl : ns.length = m.length) (hw : m.WF)
    (hd : ∀ p ∈ m.zip ns, Done old p) (hp : (m.zip ns).Pairwise fun p q => Apart p q ∧ Apart q p) (hn : m.NoHole) :
    (restyle m ns).NoHole := by
  intro i k hik heq hne hall
  have hattr : ∀ j, (m.valid j = none ∧ (restyle m ns).valid j = none ∧ (restyle m ns).attrs j = {} ∧ m.attrs j = {})
      ∨ ∃ p st, (p, st) ∈ m.zip ns ∧ p.1 ≤ j ∧ j < p.1 + p.2.span
        ∧ (restyle m ns).attrs j = ⟨st, p.2.cellstyle, p.2.visible⟩ ∧ m.attrs j = ⟨p.2.style, p.2.cellstyle, p.2.visible⟩ := by
    intro j
    rcases restyle_valid m ns hl hw j with ⟨h1, h2⟩ | ⟨p, st, h1, h2, h3, h4, h5⟩
    · refine .inl ⟨h1, h2, ?_, ?_⟩
      · unfold ColHeaders.attrs ColHeaders.colstyle ColHeaders.colCellstyle ColHeaders.colVisible; rw [h2]
      · unfold ColHeaders.attrs ColHeaders.colstyle ColHeaders.colCellstyle ColHeaders.colVisible; rw [h1]
    · refine .inr ⟨p, st, h1, h2, h3, ?_, ?_⟩
      · unfold ColHeaders.attrs ColHeaders.colstyle ColHeaders.colCellstyle ColHeaders.colVisible; rw [h5]
      · unfold ColHeaders.attrs ColHeaders.colstyle ColHeaders.colCellstyle ColHeaders.colVisible; rw [h4]
  -- columns without attributes afterwards had none before
  have hback : ∀ j, (restyle m ns).attrs j = {} → m.attrs j = {} := by
    intro j hj
    rcases hattr j with ⟨_, _, _, h⟩ | ⟨p, st, h1, _, _, h4, h5⟩
    · exact h
    · rw [h4] at hj
      have e1 : st = none := congrArg ColAttr.style hj
      have e2 : p.2.cellstyle = none := congrArg ColAttr.cellstyle hj
      have e3 : p.2.visible = .visible := congrArg ColAttr.visible hj
      rw [h5, e2, e3]
      rcases hd _ h1 with ⟨n, _, a2, _⟩ | ⟨a1, _, _⟩ | ⟨_, _, n, a2, _⟩
      · simp only at a2; rw [e1] at a2; cases a2
      · simp only at a1; rw [a1]
      · simp only at a2; rw [e1] at a2; cases a2
  rcases hattr i with ⟨_, _, h, _⟩ | ⟨p, st, p1, p2, p3, p4, p5⟩
  · exact hne h
  · rcases hattr k with ⟨_, _, h, _⟩ | ⟨q, st', q1, q2, q3, q4, q5⟩
    · exact hne (heq.trans h)
    · rw [p4, q4] at heq
      have e1 : st = st' := congrArg ColAttr.style heq
      have e2 : p.2.cellstyle = q.2.cellstyle := congrArg ColAttr.cellstyle heq
      have e3 : p.2.visible = q.2.visible := congrArg ColAttr.visible heq
      rcases mem_pairwise Apart _ hp (p, st) (q, st') p1 q1 with he | ⟨ha, hb⟩
      · -- one header: the columns between have its attributes
        have he1 : p = q := congrArg Prod.fst he
        subst he1
        have hb := hall (i + 1) (by omega) hik
        rcases hattr (i + 1) with ⟨hv, _, _, _⟩ | ⟨r, st2, r1, r2, r3, r4, _⟩
        · have : m.valid (i + 1) = some p.2 := hw.valid_some.mpr ⟨p.1,
            (get?_eq_some_iff hw.sorted).mpr (List.of_mem_zip (a := p) (b := st) p1).1, by omega, by omega⟩
          rw [hv] at this; cases this
        · have hrp : r = p := by
            have g1 := (get?_eq_some_iff hw.sorted).mpr (List.of_mem_zip (a := p) (b := st) p1).1
            have g2 := (get?_eq_some_iff hw.sorted).mpr (List.of_mem_zip (a := r) (b := st2) r1).1
            have hk1 : r.1 = p.1 := by
              rcases Nat.lt_trichotomy r.1 p.1 with h | h | h
              · have := hw.disj g2 g1 h; omega
              · exact h
              · have := hw.disj g1 g2 h; omega
            rw [hk1, g1] at g2
            exact Prod.ext hk1 (Option.some.inj g2).symm
          subst hrp
          -- the same entry has the same new style
          have hst : st2 = st := by
            have v1 := restyle_valid m ns hl hw (i + 1)
            have hw2 := restyle_wf m ns hl hw
            have m1 : (r.1, { r.2 with style := st }) ∈ restyle m ns := List.mem_map.2 ⟨_, p1, rfl⟩
            have m2 : (r.1, { r.2 with style := st2 }) ∈ restyle m ns := List.mem_map.2 ⟨_, r1, rfl⟩
            have k1 := (get?_eq_some_iff hw2.sorted).mpr m1
            have k2 := (get?_eq_some_iff hw2.sorted).mpr m2
            rw [k1] at k2
            exact congrArg ColHeader.style (Option.some.inj k2).symm
          rw [r4, hst, ← p4] at hb
          exact hne hb
      · have hs := same_before old (p, st) (q, st') (hd _ p1) (hd _ q1) ha hb e1
        simp only at hs
        refine hn i k hik (by rw [p5, q5, hs, e2, e3]) ?_ fun x h1 h2 => hback x (hall x h1 h2)
        intro he
        rw [p5] at he
        have e4 : p.2.style = none := congrArg ColAttr.style he
        rcases hd _ p1 with ⟨n, a1, _, _⟩ | ⟨a1, _, a2⟩ | ⟨a1, _, n, a2, _⟩
        · simp only at a1; rw [e4] at a1; cases a1
        · simp only at a2
          rw [p4] at hne
          refine hne ?_
          rw [a2]
          rw [e4] at he
          exact he
        · exact ha e4 (by rw [a2]; simp) e1

/-! ## C57 -/

theorem says_derived (d : Dim) (f : Floats) (b : Stores Body) (n : String) (t : Style Body) (w : Length)
    (h : b.get? d.kind n.toList = some t) : derived d f b (some n) w = says d f t.body.main := by
  unfold derived says
  simp only [h]
  cases flagOr (val d.optimal t.body.main) with
  | none => rfl
  | some b => cases b <;> rfl

theorem all_last {α : Type} (ws : List α) (w : α) (h : ∀ x ∈ ws, x = w) (hne : ws ≠ []) : ws.getLast? = some w := by
  rw [List.getLast?_eq_some_getLast hne, h _ (List.getLast_mem hne)]

theorem says_users (d : Dim) (hd : d.Ok) (f : Floats) (ws : List Length) (w : Length) (hf : LengthOk f w) (m : Attrs)
    (h : ∀ x ∈ ws, x = w) (hne : ws ≠ []) (hfl : w ≠ .default → flagOr (val d.optimal m) = some false) :
    says d f (toStyleAll d f ws m) = some w := by
  rw [says_all d hd f ws fun x hx => by rw [h x hx]; exact hf]
  obtain ⟨x, hx⟩ := List.exists_mem_of_ne_nil ws hne
  by_cases hw : w = .default
  · rw [if_pos (by rw [← hw, ← h x hx]; exact hx), hw]
  · rw [if_neg fun hm => hw (h _ hm).symm, hfl hw, all_last ws w h hne]

theorem headers_length (ss : List TSheet) :
    (ss.flatMap fun s => pairs s.colHeader).length = (ss.map fun s => s.colHeader.length).sum := by
  rw [List.length_flatMap]
  congr 1
  refine List.map_congr_left fun s _ => ?_
  unfold pairs
  rw [List.length_map]

theorem colWidth_of_valid (m : ColHeaders) (k : Nat) : m.colWidth k = ((m.valid k).map ColHeader.width).getD .default := by
  unfold ColHeaders.colWidth
  cases m.valid k <;> rfl

/-- The columns of the sheet that C19 speaks of: up to the last used column, the last column group and the header columns. -/
def Spec.Reached (s : TSheet) (k : Nat) : Prop :=
  (∃ r c, s.data.isEmpty r c = false ∧ k ≤ c) ∨ (∃ g ∈ s.groupCols, k ≤ g.to) ∨ (∃ x, s.headerCols = some x ∧ k ≤ x.to)

/-- What `calcSheets` does to the columns of each sheet. -/
theorem calcSheets_done (f : Floats) (b st : Stores Body) (ss ss' : List TSheet)
    (hfit : WidthsFit b ss) (hcalc : calcSheets f b ss = .ok (st, ss')) (p : TSheet × TSheet) (hp : p ∈ ss.zip ss') :
    ∃ ns', ns'.length = p.1.colHeader.length ∧ p.2 = { p.1 with colHeader := restyle p.1.colHeader ns' }
      ∧ (∀ q ∈ p.1.colHeader.zip ns', Done (fun n => b.get? .col n ≠ none) q)
      ∧ (p.1.colHeader.zip ns').Pairwise fun p q => Apart p q ∧ Apart q p := by
  obtain ⟨ns, hrun, hlen, hlen', hsheets⟩ := calcSheets_run f ss b st ss' hcalc
  have hpre : ∀ p ∈ ss.flatMap fun s => pairs s.colHeader, ∀ n, p.1 = some n → b.get? colDim.kind n.toList ≠ none := by
    intro p hp n hn hx
    obtain ⟨s, hs, hp⟩ := List.mem_flatMap.1 hp
    obtain ⟨q, hq, rfl⟩ := List.mem_map.1 hp
    obtain ⟨t, ht, _⟩ := hfit.stored q.2 n ⟨s, hs, q.1, hq⟩ hn
    rw [show colDim.kind = .col from rfl, ht] at hx
    cases hx
  obtain ⟨_, hdone, hold, _, _, hpair⟩ := run_spec colDim f _ b st ns hrun hpre
  obtain ⟨ns', hnl, hp2, hsub⟩ := hsheets p hp
  refine ⟨ns', hnl, hp2, ?_, ?_⟩
  · intro q hq
    have hmem := hsub.subset (mem_pairs (p := q.1) (st := q.2) hq)
    rcases hdone _ hmem with ⟨n', h1, h2⟩ | ⟨h1, h2, h3⟩ | ⟨h1, hw, n', h2, h3, h4⟩
    · exact .inl ⟨n', h1, h2, hpre _ (List.of_mem_zip hmem).1 n' h1⟩
    · exact .inr (.inl ⟨h1, h2, h3⟩)
    · exact .inr (.inr ⟨h1, hw, n', h2, fun h => h h3⟩)
  · have := hpair.sublist hsub
    unfold pairs at this
    rw [List.zip_map_left, List.pairwise_map] at this
    exact this

/-- The widths come back, if the styles do: `bk` are the styles that were read. -/
theorem widths_core (f : Floats) (b st : Stores Body) (ss ss' : List TSheet) (bk : Stores Body)
    (hf : ∀ h, IsHeader ss h → LengthOk f h.width) (hfit : WidthsFit b ss) (hcalc : calcSheets f b ss = .ok (st, ss'))
    (hfound : ∀ n s, st.get? .col n = some s → s.body.use ≠ .default →
      (s.body.origin = .styles ∨ s.body.use = .automatic) → ∃ t, bk.get? .col n = some t ∧ t.body.main = s.body.main) :
    ∀ p ∈ ss.zip ss', p.1.CellsOK → p.1.colHeader.WF → p.1.colHeader.NoGap → p.1.colHeader.NoHole →
      ∀ o evs s', writeSheet p.2 = .ok evs → readTable o evs = some s' →
        ∃ cols, deriveCols f bk s'.colHeader = some cols
          ∧ ∀ k, Reached p.1 k → cols.colWidth k = p.1.colHeader.colWidth k := by
  obtain ⟨ns, hrun, hlen, hlen', hsheets⟩ := calcSheets_run f ss b st ss' hcalc
  have hstored : ∀ p ∈ ss.flatMap fun s => pairs s.colHeader, ∃ h, IsHeader ss h ∧ p = (h.style, h.width) := by
    intro p hp
    obtain ⟨s, hs, hp⟩ := List.mem_flatMap.1 hp
    obtain ⟨q, hq, rfl⟩ := List.mem_map.1 hp
    exact ⟨q.2, ⟨s, hs, q.1, hq⟩, rfl⟩
  have hpre : ∀ p ∈ ss.flatMap fun s => pairs s.colHeader, ∀ n, p.1 = some n → b.get? colDim.kind n.toList ≠ none := by
    intro p hp n hn
    obtain ⟨h, hh, rfl⟩ := hstored p hp
    obtain ⟨t, ht, _⟩ := hfit.stored h n hh hn
    intro hx
    rw [show colDim.kind = .col from rfl, ht] at hx
    cases hx
  obtain ⟨_, hdone, hold, _, _, hpair⟩ := run_spec colDim f _ b st ns hrun hpre
  intro p hp hcells hwf hgap hhole o evs s' hwrite hrd
  obtain ⟨ns', hnl, hp2, hsub⟩ := hsheets p hp
  have hps : p.1 ∈ ss := (List.of_mem_zip (a := p.1) (b := p.2) hp).1
  -- the width of a header after reading
  have hwidth : ∀ q n, (q, some n) ∈ p.1.colHeader.zip ns' → derived colDim f bk (some n) .default = some q.2.width := by
    intro q n hq
    have hmem := hsub.subset (mem_pairs hq)
    have hqh : IsHeader ss q.2 := ⟨p.1, hps, q.1, (List.of_mem_zip hq).1⟩
    rcases hdone _ hmem with ⟨n', h1, h2⟩ | ⟨_, _, h2⟩ | ⟨h1, hw, n', h2, h3, h4⟩
    · simp only [Option.some.injEq] at h1 h2
      subst h2
      obtain ⟨t, ht, hk, hfl⟩ := hfit.stored q.2 n hqh h1
      have ht' := hold n.toList t ht
      obtain ⟨t2, hg, hsame⟩ := hfound n.toList _ ht' hk.1 hk.2
      rw [says_derived colDim f bk n t2 _ hg, hsame]
      refine says_users colDim colDim_ok f _ _ (hf _ hqh) _ ?_ ?_ hfl
      · intro x hx
        unfold users at hx
        obtain ⟨y, hy, hyx⟩ := List.mem_filterMap.1 hx
        obtain ⟨h, hh, rfl⟩ := hstored y hy
        simp only at hyx
        split at hyx
        · rename_i hst
          injection hyx with hyx
          rw [← hyx]
          refine hfit.shared h q.2 n hh hqh ?_ h1
          cases hs : h.style with
          | none => rw [hs] at hst; cases hst
          | some x => rw [hs] at hst; simp only [Option.map_some, Option.some.injEq, String.toList_inj] at hst; rw [hst]
        · cases hyx
      · intro hnil
        have : q.2.width ∈ users n.toList (ss.flatMap fun s => pairs s.colHeader) := by
          refine List.mem_filterMap.2 ⟨(q.2.style, q.2.width), (List.of_mem_zip hmem).1, ?_⟩
          rw [h1]
          exact if_pos rfl
        rw [hnil] at this
        cases this
    · cases h2
    · injection h2 with h2
      have hn : n.toList = n' := by rw [h2, String.toList_ofList]
      obtain ⟨t2, hg, hsame⟩ := hfound n' _ h4 (fun h => by cases h) (.inr rfl)
      rw [says_derived colDim f bk n t2 _ (by rw [hn]; exact hg), hsame]
      exact says_users colDim colDim_ok f [q.2.width] q.2.width (hf _ hqh) [] (by simp) (by simp) fun _ => rfl
  have hdone' : ∀ q ∈ p.1.colHeader.zip ns', Done (fun n => b.get? .col n ≠ none) q := by
    intro q hq
    have hmem := hsub.subset (mem_pairs (p := q.1) (st := q.2) hq)
    rcases hdone _ hmem with ⟨n', h1, h2⟩ | ⟨h1, h2, h3⟩ | ⟨h1, hw, n', h2, h3, h4⟩
    · exact .inl ⟨n', h1, h2, hpre _ (List.of_mem_zip hmem).1 n' h1⟩
    · exact .inr (.inl ⟨h1, h2, h3⟩)
    · exact .inr (.inr ⟨h1, hw, n', h2, fun h => h h3⟩)
  have hpair' : (p.1.colHeader.zip ns').Pairwise fun p q => Apart p q ∧ Apart q p := by
    have := hpair.sublist hsub
    unfold pairs at this
    rw [List.zip_map_left, List.pairwise_map] at this
    exact this
  have hwf2 := restyle_wf p.1.colHeader ns' hnl hwf
  have hgap2 := restyle_noGap _ p.1.colHeader ns' hnl hdone' hpair' hgap
  have hhole2 := restyle_noHole _ p.1.colHeader ns' hnl hwf hdone' hpair' hhole
  have hcells2 : p.2.CellsOK := by rw [hp2]; exact ⟨hcells.sorted, hcells.rows, hcells.rep, hcells.spans⟩
  have hch : p.2.colHeader = restyle p.1.colHeader ns' := by rw [hp2]
  obtain ⟨hwf', hback⟩ := read_columns p.2 s' o evs hcells2 (by rw [hch]; exact hwf2) (by rw [hch]; exact hgap2)
    (by rw [hch]; exact hhole2) hwrite hrd
  have hattrs := C19_columns_partial p.2 s' o evs hcells2 (by rw [hch]; exact hwf2) (by rw [hch]; exact hgap2)
    (by rw [hch]; exact hhole2) hwrite hrd
  let g : ColHeader → Length := fun x => match x.style with
    | none => .default
    | some n => (derived colDim f bk (some n) .default).getD .default
  have hall : ∀ q ∈ s'.colHeader, derived colDim f bk q.2.style q.2.width = some (g q.2) := by
    intro q hq
    obtain ⟨hd, hst⟩ := hback q.1 q.2 hq
    rw [hd]
    cases hs : q.2.style with
    | none => simp only [g, hs]; rfl
    | some n =>
      obtain ⟨c', y, hy, hyn⟩ := hst n hs
      rw [hch] at hy
      obtain ⟨z, hz, hzy⟩ := List.mem_map.1 hy
      injection hzy with _ hzy
      have hz2 : z.2 = some n := by rw [← hyn, ← hzy]
      have := hwidth z.1 n (by rw [← hz2]; exact hz)
      simp only [g, hs, this, Option.getD_some]
  refine ⟨_, deriveCols_map f bk g s'.colHeader hall, ?_⟩
  intro k hk
  have ha := hattrs k (by rw [hp2]; exact hk)
  have hstyle : s'.colHeader.colstyle k = p.2.colHeader.colstyle k := congrArg ColAttr.style ha
  rw [hch] at hstyle
  unfold ColHeaders.colstyle at hstyle
  rw [colWidth_of_valid, valid_map s'.colHeader hwf' (fun x => { x with width := g x }) (fun _ => rfl) k, Option.map_map]
  rw [colWidth_of_valid]
  have hnone : (s'.colHeader.colstyle k = none) → (Option.map (ColHeader.width ∘ fun x => { x with width := g x }) (s'.colHeader.valid k)).getD .default = .default := by
    intro hn
    unfold ColHeaders.colstyle at hn
    cases hv : s'.colHeader.valid k with
    | none => rfl
    | some x =>
      rw [hv] at hn
      simp only at hn
      simp only [Option.map_some, Option.getD_some, Function.comp, g, hn]
  rcases restyle_valid p.1.colHeader ns' hnl hwf k with ⟨h1, h2⟩ | ⟨q, sty, h1, _, _, h4, h5⟩
  · rw [h2] at hstyle
    rw [hnone hstyle, h1]
    rfl
  · rw [h5] at hstyle
    simp only at hstyle
    rw [h4]
    simp only [Option.map_some, Option.getD_some]
    cases sty with
    | none =>
      rw [hnone hstyle]
      rcases hdone' _ h1 with ⟨n, _, a2, _⟩ | ⟨_, a2, _⟩ | ⟨_, _, n, a2, _⟩
      · cases a2
      · exact a2.symm
      · cases a2
    | some n =>
      cases hv : s'.colHeader.valid k with
      | none => rw [hv] at hstyle; cases hstyle
      | some x =>
        rw [hv] at hstyle
        simp only at hstyle
        simp only [Option.map_some, Option.getD_some, Function.comp, g, hstyle, hwidth q n h1]

/-- **C57**, partial: a workbook is saved as a package and read again. The widths of all covered columns of all sheets are
the same as before.

`calcSheets` moves the widths to the styles, the styles are written to the two files and the tables to the second one; all
is read and `deriveCols` takes the widths from the styles that were read.

Missing: columns that share a style and do not share the width, styles that are missing, not written, or say that the width
is computed (`C57_shared_counterexample`, `C57_missing_counterexample`, `C57_optimal_counterexample`), and the columns
that C19 does not cover. -/
theorem C57_widths_partial (ints : Refs.Ints) (hm : ints.max = maxU32) (as as' : List (Bool × Str × Str))
    (has : AttrsOk as) (has' : AttrsOk as') (f : Floats) (b : SBook) (hb : BookOk b) (ss ss' : List TSheet)
    (hf : ∀ h, IsHeader ss h → LengthOk f h.width)
    (st : Stores Body) (hfit : WidthsFit b.styles ss) (hcalc : calcSheets f b.styles ss = .ok (st, ss'))
    (hcount : b.count + (ss.map fun s => s.colHeader.length).sum < 4294967296) :
    ∃ bk, readPackage ints (output false (writeStylesFile as { b with styles := st }))
        (output false (writeContentFile as' { b with styles := st })) = .ok bk
      ∧ ∀ p ∈ ss.zip ss', p.1.CellsOK → p.1.colHeader.WF → p.1.colHeader.NoGap → p.1.colHeader.NoHole →
        ∀ o evs s', writeSheet p.2 = .ok evs → readTable o evs = some s' →
          ∃ cols, deriveCols f bk.styles s'.colHeader = some cols
            ∧ ∀ k, Reached p.1 k → cols.colWidth k = p.1.colHeader.colWidth k := by
  obtain ⟨ns, hrun, hlen, hlen', hsheets⟩ := calcSheets_run f ss b.styles st ss' hcalc
  have hsok : StoresOk b.styles := ⟨hb.styleKey, hb.style, hb.stylesMap⟩
  obtain ⟨hok, htot⟩ := run_ok colDim colDim_ok (.inl rfl) f _ b.styles st ns hrun hsok
  have hbk := book_ok b hb st hok
  have hcount' : ({ b with styles := st } : SBook).count < 4294967296 := by
    rw [headers_length] at htot
    have h1 : ({ b with styles := st } : SBook).count = total st := rfl
    have h2 : b.count = total b.styles := rfl
    omega
  obtain ⟨bk, hread, hfound, _⟩ := C51_package_partial ints hm as as' has has' { b with styles := st } hbk hcount'
  refine ⟨bk, hread, widths_core f b.styles st ss ss' bk.styles hf hfit hcalc ?_⟩
  intro n s h1 h2 h3
  obtain ⟨t, h4, h5⟩ := hfound .col n s h1 h2 h3
  exact ⟨t, h4, h5.main⟩

end Verif.Width
