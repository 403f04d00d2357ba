import Verif.Width.Lemmas

/-!
# Widths of columns over write and read: the parts
-/

set_option autoImplicit false

namespace Verif.Width

open Xml Codec Book Style OMap

/-! ## The columns that are read -/

/-- Every column header that is read has the default width, and a style that a written header has. -/
theorem read_columns (s s' : TSheet) (o : ReadOpts) (evs : List TEv) (hc : s.CellsOK)
    (hw : s.colHeader.WF) (hg : s.colHeader.NoGap) (hn : s.colHeader.NoHole)
    (h : writeSheet s = .ok evs) (hr : readTable o evs = some s') :
    s'.colHeader.WF ∧ ∀ c x, (c, x) ∈ s'.colHeader → x.width = .default
      ∧ ∀ n, x.style = some n → ∃ c' y, (c', y) ∈ s.colHeader ∧ y.style = some n := by
  have hobs := (C58_prepare_partial s.colHeader hw s.groupCols s.headerCols).2 hg
  obtain ⟨_, cols, _, _, _, raw, e0, _, _, _, _, _, _, _, e1, _, cc, hcc, hl⟩ :=
    readTable_tiles { s with colHeader := prepareCols s.groupCols s.headerCols s.colHeader } s' o evs
      hc.sorted hc.rows hc.rep (prepare_wf _ hw _ _) h hr
  have hwp := prepare_wf s.colHeader hw s.groupCols s.headerCols
  have hnp : (prepareCols s.groupCols s.headerCols s.colHeader).NoHole := by
    intro i k
    rw [attrs_of_observe (hobs i), attrs_of_observe (hobs k)]
    intro h1 h2 h3 h4
    refine hn i k h1 h2 h3 (fun x a b => ?_)
    rw [← attrs_of_observe (hobs x)]
    exact h4 x a b
  have hgap := noGap_read hwp hl hnp
  have hcol : s'.colHeader = cols.dedup := by
    rw [e0, ← e1]
    split <;> rfl
  have hwc := hl.wf hwp
  have hwd := ColHeaders.dedup_wf cols hwc
  rw [hcol]
  refine ⟨hwd, ?_⟩
  intro c x hx
  have hval : cols.dedup.valid c = some x :=
    hwd.valid_some.mpr ⟨c, (get?_eq_some_iff hwd.sorted).mpr hx, Nat.le_refl _, by
      have := hwd.pos ((get?_eq_some_iff hwd.sorted).mpr hx); omega⟩
  have hob := C17_merge_partial cols hl.sorted hgap c
  rw [ColHeaders.observe_eq, ColHeaders.observe_eq, hval] at hob
  cases hv : cols.valid c with
  | none =>
    rw [hv] at hob
    have h1 : x.width = .default := congrArg ColObs.width hob
    have h2 : x.style = none := congrArg ColObs.style hob
    exact ⟨h1, fun n hn => by rw [h2] at hn; cases hn⟩
  | some y =>
    rw [hv] at hob
    have h1 : x.width = y.width := congrArg ColObs.width hob
    have h2 : x.style = y.style := congrArg ColObs.style hob
    obtain ⟨b, hb, _, _⟩ := hwc.valid_some.mp hv
    rw [hl.get] at hb
    split at hb
    · simp only [Option.map_eq_some_iff, Option.filter_eq_some_iff] at hb
      obtain ⟨z, ⟨hz, _⟩, rfl⟩ := hb
      refine ⟨h1, fun n hn => ?_⟩
      rw [h2] at hn
      have hpv : (prepareCols s.groupCols s.headerCols s.colHeader).valid b = some z :=
        hwp.valid_some.mpr ⟨b, hz, Nat.le_refl _, by have := hwp.pos hz; omega⟩
      have ho := hobs b
      rw [ColHeaders.observe_eq, ColHeaders.observe_eq, hpv] at ho
      cases hm : s.colHeader.valid b with
      | none =>
        rw [hm] at ho
        have ho : z.style = none := congrArg ColObs.style ho
        have hn : z.style = some n := hn
        rw [ho] at hn; cases hn
      | some w =>
        rw [hm] at ho
        have ho : z.style = w.style := congrArg ColObs.style ho
        obtain ⟨b', hb', _, _⟩ := hw.valid_some.mp hm
        have hn : z.style = some n := hn
        exact ⟨b', w, (get?_eq_some_iff hw.sorted).mp hb', by rw [← ho]; exact hn⟩
    · cases hb

/-! ## The widths after reading -/

theorem deriveCols_map (f : Floats) (b : Stores Body) (g : ColHeader → Length) (m : ColHeaders)
    (h : ∀ p ∈ m, derived colDim f b p.2.style p.2.width = some (g p.2)) :
    deriveCols f b m = some (m.map fun p => (p.1, { p.2 with width := g p.2 })) := by
  induction m with
  | nil => rfl
  | cons p m ih =>
    obtain ⟨c, x⟩ := p
    have h1 : derived colDim f b x.style x.width = some (g x) := h (c, x) List.mem_cons_self
    rw [deriveCols, h1]
    simp only
    rw [ih fun p hp => h p (List.mem_cons_of_mem _ hp)]
    rfl

theorem sorted_map (m : ColHeaders) (g : Nat × ColHeader → ColHeader) (h : Sorted m) :
    Sorted (m.map fun p => (p.1, g p)) := by
  unfold Sorted
  rw [List.pairwise_map]
  exact h

theorem get?_map (m : ColHeaders) (g : ColHeader → ColHeader) (c : Nat) :
    get? (m.map fun p => (p.1, g p.2)) c = (get? m c).map g := by
  induction m with
  | nil => rfl
  | cons p m ih =>
    rw [List.map_cons, get?_cons, get?_cons, ih]
    simp only
    split <;> rfl

/-- A change that keeps the spans. -/
theorem valid_map (m : ColHeaders) (hw : m.WF) (g : ColHeader → ColHeader) (hg : ∀ x, (g x).span = x.span) (c : Nat) :
    ColHeaders.valid (m.map fun p => (p.1, g p.2)) c = (m.valid c).map g := by
  have hw2 : ColHeaders.WF (m.map fun p => (p.1, g p.2)) := by
    refine ⟨sorted_map m (fun p => g p.2) hw.sorted, ?_, ?_⟩
    · intro p hp
      obtain ⟨q, hq, rfl⟩ := List.mem_map.1 hp
      rw [hg]
      exact hw.2.1 q hq
    · rw [List.pairwise_map]
      refine hw.2.2.imp ?_
      intro p q h
      rw [hg]
      exact h
  apply Option.ext
  intro x
  rw [hw2.valid_some]
  constructor
  · rintro ⟨b, h1, h2, h3⟩
    rw [get?_map] at h1
    obtain ⟨y, hy, rfl⟩ := Option.map_eq_some_iff.1 h1
    rw [hg] at h3
    exact Option.map_eq_some_iff.2 ⟨y, hw.valid_some.mpr ⟨b, hy, h2, h3⟩, rfl⟩
  · intro hx
    obtain ⟨y, hy, rfl⟩ := Option.map_eq_some_iff.1 hx
    obtain ⟨b, h1, h2, h3⟩ := hw.valid_some.mp hy
    exact ⟨b, by rw [get?_map, h1]; rfl, h2, by rw [hg]; exact h3⟩

/-! ## The headers before writing -/

/-- New styles for headers. -/
def restyle (m : ColHeaders) (ns : List (Option String)) : ColHeaders :=
  (m.zip ns).map fun p => (p.1.1, { p.1.2 with style := p.2 })

/-- Style and width of the headers. -/
def pairs (m : ColHeaders) : List (Option String × Length) := m.map fun p => (p.2.style, p.2.width)

theorem mem_pairs {m : ColHeaders} {ns : List (Option String)} {p : Nat × ColHeader} {st : Option String}
    (h : (p, st) ∈ m.zip ns) : ((p.2.style, p.2.width), st) ∈ (pairs m).zip ns := by
  unfold pairs
  rw [List.zip_map_left]
  exact List.mem_map.2 ⟨_, h, rfl⟩

theorem calcCols_run (f : Floats) (m : ColHeaders) : ∀ (b b' : Stores Body) (m' : ColHeaders),
    calcCols f b m = .ok (b', m') →
    ∃ ns, sizesRun colDim f b (pairs m) = .ok (b', ns) ∧ ns.length = m.length ∧ m' = restyle m ns := by
  induction m with
  | nil => intro b b' m' h; cases h; exact ⟨[], rfl, rfl, rfl⟩
  | cons p m ih =>
    obtain ⟨c, x⟩ := p
    intro b b' m' h
    rw [calcCols] at h
    cases hs : sizeStep colDim f b x.style x.width with
    | error e => rw [hs] at h; cases h
    | ok r =>
      obtain ⟨b1, st⟩ := r
      rw [hs] at h
      simp only at h
      cases hr : calcCols f b1 m with
      | error e => rw [hr] at h; cases h
      | ok r =>
        obtain ⟨b2, m2⟩ := r
        rw [hr] at h
        simp only at h
        obtain ⟨ns, h1, h2, h3⟩ := ih b1 b2 m2 hr
        have hb : b2 = b' := by injection h with h; injection h
        have hm : (c, { x with style := st }) :: m2 = m' := by injection h with h; injection h
        subst hb hm
        refine ⟨st :: ns, ?_, by simp [h2], ?_⟩
        · unfold pairs
          rw [List.map_cons, sizesRun]
          simp only
          rw [hs]
          simp only
          unfold pairs at h1
          rw [h1]
        · rw [h3]; rfl

theorem sizesRun_append (d : Dim) (f : Floats) (l l' : List (Option String × Length)) : ∀ (b b1 b2 : Stores Body) (ns ns' : List (Option String)),
    sizesRun d f b l = .ok (b1, ns) → sizesRun d f b1 l' = .ok (b2, ns') → sizesRun d f b (l ++ l') = .ok (b2, ns ++ ns') := by
  induction l with
  | nil => intro b b1 b2 ns ns' h h'; cases h; exact h'
  | cons p l ih =>
    obtain ⟨st, w⟩ := p
    intro b b1 b2 ns ns' h h'
    rw [sizesRun] at h
    rw [List.cons_append, sizesRun]
    cases hs : sizeStep d f b st w with
    | error e => rw [hs] at h; cases h
    | ok r =>
      obtain ⟨b3, st'⟩ := r
      rw [hs] at h
      simp only at h ⊢
      cases hr : sizesRun d f b3 l with
      | error e => rw [hr] at h; cases h
      | ok r =>
        obtain ⟨b4, ns4⟩ := r
        rw [hr] at h
        cases h
        rw [ih b3 b1 b2 ns4 ns' hr h']
        rfl

theorem calcSheets_run (f : Floats) (ss : List TSheet) : ∀ (b b' : Stores Body) (ss' : List TSheet),
    calcSheets f b ss = .ok (b', ss') →
    ∃ ns, sizesRun colDim f b (ss.flatMap fun s => pairs s.colHeader) = .ok (b', ns)
      ∧ ns.length = (ss.flatMap fun s => pairs s.colHeader).length ∧ ss'.length = ss.length
      ∧ ∀ p ∈ ss.zip ss', ∃ ns', ns'.length = p.1.colHeader.length
          ∧ p.2 = { p.1 with colHeader := restyle p.1.colHeader ns' }
          ∧ ((pairs p.1.colHeader).zip ns').Sublist ((ss.flatMap fun s => pairs s.colHeader).zip ns) := by
  induction ss with
  | nil => intro b b' ss' h; cases h; exact ⟨[], rfl, rfl, rfl, fun p hp => by cases hp⟩
  | cons s ss ih =>
    intro b b' ss' h
    rw [calcSheets] at h
    cases hs : calcCols f b s.colHeader with
    | error e => rw [hs] at h; cases h
    | ok r =>
      obtain ⟨b1, m1⟩ := r
      rw [hs] at h
      simp only at h
      cases hr : calcSheets f b1 ss with
      | error e => rw [hr] at h; cases h
      | ok r =>
        obtain ⟨b2, ss2⟩ := r
        rw [hr] at h
        simp only at h
        have hb : b2 = b' := by injection h with h; injection h
        have hm : { s with colHeader := m1 } :: ss2 = ss' := by injection h with h; injection h
        subst hb hm
        obtain ⟨ns1, g1, g2, g3⟩ := calcCols_run f s.colHeader b b1 m1 hs
        obtain ⟨ns2, i1, i2, i3, i4⟩ := ih b1 b2 ss2 hr
        have hlen : (pairs s.colHeader).length = ns1.length := by unfold pairs; rw [List.length_map, g2]
        refine ⟨ns1 ++ ns2, ?_, ?_, by simp [i3], ?_⟩
        · rw [List.flatMap_cons]
          exact sizesRun_append colDim f _ _ b b1 b2 ns1 ns2 g1 i1
        · rw [List.flatMap_cons, List.length_append, List.length_append, hlen, i2]
        · intro p hp
          rw [List.flatMap_cons, List.zip_append hlen]
          rcases List.mem_cons.1 hp with rfl | hp
          · exact ⟨ns1, g2, by rw [g3], List.sublist_append_left _ _⟩
          · obtain ⟨ns', a1, a2, a3⟩ := i4 p hp
            exact ⟨ns', a1, a2, a3.trans (List.sublist_append_right _ _)⟩

/-! ## Columns with new styles -/

section Restyle

variable (m : ColHeaders) (ns : List (Option String)) (hl : ns.length = m.length) (hw : m.WF)

include hl in
theorem zip_fst : (m.zip ns).map Prod.fst = m := List.map_fst_zip (by omega)

include hl hw in
theorem restyle_wf : (restyle m ns).WF := by
  have hz := zip_fst m ns hl
  have hs : ((m.zip ns).map Prod.fst).Pairwise (fun a b => Key.lt a.1 b.1 = true) := by rw [hz]; exact hw.sorted
  have hp : ((m.zip ns).map Prod.fst).Pairwise (fun p q => p.1 + p.2.span ≤ q.1) := by rw [hz]; exact hw.2.2
  rw [List.pairwise_map] at hs hp
  refine ⟨?_, ?_, ?_⟩
  · unfold restyle Sorted
    rw [List.pairwise_map]
    exact hs
  · intro p hp
    obtain ⟨q, hq, rfl⟩ := List.mem_map.1 hp
    exact hw.2.1 q.1 (List.of_mem_zip (a := q.1) (b := q.2) hq).1
  · unfold restyle
    rw [List.pairwise_map]
    exact hp

include hl hw in
/-- A column before and after. -/
theorem restyle_valid (k : Nat) : (m.valid k = none ∧ (restyle m ns).valid k = none)
    ∨ ∃ p st, (p, st) ∈ m.zip ns ∧ p.1 ≤ k ∧ k < p.1 + p.2.span ∧ m.valid k = some p.2
        ∧ (restyle m ns).valid k = some { p.2 with style := st } := by
  have hw2 := restyle_wf m ns hl hw
  cases hv : m.valid k with
  | none =>
    refine .inl ⟨rfl, ?_⟩
    cases hv2 : (restyle m ns).valid k with
    | none => rfl
    | some x =>
      obtain ⟨b, h1, h2, h3⟩ := hw2.valid_some.mp hv2
      obtain ⟨q, hq, he⟩ := List.mem_map.1 ((get?_eq_some_iff hw2.sorted).mp h1)
      have h1' : q.1.1 = b := congrArg Prod.fst he
      have h2' : { q.1.2 with style := q.2 } = x := congrArg Prod.snd he
      have h3' : q.1.2.span = x.span := by rw [← h2']
      have hq1 : (q.1.1, q.1.2) ∈ m := (List.of_mem_zip (a := q.1) (b := q.2) hq).1
      have : m.valid k = some q.1.2 := hw.valid_some.mpr ⟨q.1.1, (get?_eq_some_iff hw.sorted).mpr hq1, by omega, by omega⟩
      rw [hv] at this
      cases this
  | some x =>
    obtain ⟨b, h1, h2, h3⟩ := hw.valid_some.mp hv
    have hm := (get?_eq_some_iff hw.sorted).mp h1
    rw [← zip_fst m ns hl] at hm
    obtain ⟨q, hq, he⟩ := List.mem_map.1 hm
    obtain ⟨p, st⟩ := q
    simp only at he
    subst he
    refine .inr ⟨(b, x), st, hq, h2, h3, rfl, ?_⟩
    exact hw2.valid_some.mpr ⟨b, (get?_eq_some_iff hw2.sorted).mpr (List.mem_map.2 ⟨_, hq, rfl⟩), h2, h3⟩

end Restyle

end Verif.Width
