import Verif.Width.Props
import Verif.Grid.Again

/-!
# Heights of rows over write and read: the parts
-/

set_option autoImplicit false

namespace Verif.Width

open Xml Xml.Spec Codec Refs Book Style Style.Spec OMap Refs.Spec Spec

/-! ## The rows that are read -/

/-- A header as the reader makes it: without height, with a style that a header of `m` has. -/
def FromTag (m : RowHeaders) (x : RowHeader) : Prop :=
  x.height = .default ∧ ∀ n, x.style = some n → ∃ r y, (r, y) ∈ m ∧ y.style = some n

theorem valid_mem (m : RowHeaders) (r : Nat) (x : RowHeader) (h : m.valid r = some x) : ∃ b, (b, x) ∈ m := by
  unfold RowHeaders.valid at h
  cases hl : lastLe m r with
  | none => rw [hl] at h; cases h
  | some q =>
    rw [hl] at h
    simp only at h
    split at h
    · injection h with h
      subst h
      refine ⟨q.1, ?_⟩
      unfold lastLe at hl
      exact (List.mem_filter.1 (List.mem_of_getLast? hl)).1
    · cases h

theorem tag_from (s : TSheet) (t : Tile) (h : t.OK s) : FromTag s.rowHeader t.tag.hdr := by
  refine ⟨rfl, ?_⟩
  intro n hn
  have h2 := h.2.1
  have hn : t.tag.style = some n := hn
  cases hv : s.rowHeader.valid t.row with
  | none =>
    rw [hv] at h2
    rw [h2] at hn
    cases hn
  | some y =>
    rw [hv] at h2
    rw [h2] at hn
    obtain ⟨b, hb⟩ := valid_mem _ _ _ hv
    exact ⟨b, y, hb, hn⟩

theorem hdr_from (s : TSheet) (o : ReadOpts) (cols : ColHeaders) (l : List Tile) :
    ∀ (m m' : RowHeaders) (a b : Nat), HInv m a → TileChain a l b → (∀ t ∈ l, t.OK s) →
    hdrTiles o cols m l = some m' → (∀ k h, get? m k = some h → FromTag s.rowHeader h) →
    Sorted m' ∧ ∀ k h, get? m' k = some h → FromTag s.rowHeader h := by
  induction l with
  | nil =>
    intro m m' a b hI _ _ h hm
    simp only [hdrTiles, Option.some.injEq] at h
    subst h; exact ⟨hI.sorted, hm⟩
  | cons t l ih =>
    intro m m' a b hI hc hok h hm
    simp only [hdrTiles] at h
    split at h
    · rename_i m1 h1
      obtain ⟨c1, c2, c3⟩ := hc
      subst c1
      have ht := hok t (by simp)
      obtain ⟨g1, g2⟩ := hdrTile_spec o cols m m1 t hI ht.1 c2 h1
      refine ih m1 m' _ b g1 c3 (fun x hx => hok x (by simp [hx])) h ?_
      intro k x hk
      rw [g2] at hk
      have hf := tag_from s t ht
      unfold hdrAfter at hk
      split at hk
      · split at hk
        · injection hk with hk
          rw [← hk]
          split
          · exact hf
          · exact ⟨rfl, fun n hn => by cases hn⟩
        · split at hk
          · injection hk with hk
            rw [← hk]; exact hf
          · exact hm k x hk
      · split at hk
        · injection hk with hk
          rw [← hk]; exact hf
        · exact hm k x hk
    · cases h

theorem clamp_from (m m0 : RowHeaders) (h : ∀ p ∈ m, FromTag m0 p.2) : ∀ p ∈ clampLast m, FromTag m0 p.2 := by
  intro p hp
  unfold clampLast at hp
  rcases List.mem_append.mp hp with hp | hp
  · exact h p (List.mem_of_mem_take hp)
  · obtain ⟨q, hq, e⟩ := List.mem_map.mp hp
    have hq := h q (List.mem_of_mem_drop hq)
    split at e
    · rw [← e]; exact hq
    · rw [← e]; exact hq

/-- Every row header that is read has the default height, and a style that a written header has. -/
theorem read_rows (s s' : TSheet) (o : ReadOpts) (evs : List TEv) (hc : s.CellsOK) (hw : s.colHeader.WF)
    (h : writeSheet s = .ok evs) (hr : readTable o evs = some s') :
    ∀ p ∈ s'.rowHeader, FromTag s.rowHeader p.2 := by
  obtain ⟨_, cols, tiles, b, m, raw, e0, h1, h2, _, h4, h5, _⟩ :=
    readTable_tiles { s with colHeader := prepareCols s.groupCols s.headerCols s.colHeader } s' o evs
      hc.sorted hc.rows hc.rep (prepare_wf _ hw _ _) h hr
  have hm := hdr_from s o cols tiles [] m 0 b (hinv_nil 0) h1 h2 h4 (by simp)
  have hall : ∀ p ∈ m, FromTag s.rowHeader p.2 := fun p hp => hm.2 p.1 p.2 ((get?_eq_some_iff hm.1).mpr hp)
  rw [← h5] at hall
  have hcl := clamp_from _ _ hall
  intro p hp
  rw [e0] at hp
  split at hp
  · exact hcl p hp
  · obtain ⟨q, hq, rfl⟩ := List.mem_map.1 hp
    exact hcl q hq

/-! ## The heights after reading -/

theorem deriveRows_map (f : Floats) (b : Stores Body) (g : RowHeader → Length) (m : RowHeaders)
    (h : ∀ p ∈ m, derived rowDim f b p.2.style p.2.height = some (g p.2)) :
    deriveRows f b m = some (m.map fun p => (p.1, { p.2 with height := g p.2 })) := by
  induction m with
  | nil => rfl
  | cons p m ih =>
    obtain ⟨c, x⟩ := p
    have h1 : derived rowDim f b x.style x.height = some (g x) := h (c, x) List.mem_cons_self
    rw [deriveRows, h1]
    simp only
    rw [ih fun p hp => h p (List.mem_cons_of_mem _ hp)]
    rfl

theorem lastLe_map (m : RowHeaders) (g : RowHeader → RowHeader) (r : Nat) :
    lastLe (m.map fun p => (p.1, g p.2)) r = (lastLe m r).map fun p => (p.1, g p.2) := by
  induction m with
  | nil => rfl
  | cons p m ih =>
    rw [List.map_cons, lastLe_cons, lastLe_cons, ih]
    cases lastLe m r with
    | some q => rfl
    | none =>
      simp only [Option.map_none]
      split <;> rfl

/-- A change that keeps the spans. -/
theorem rowValid_map (m : RowHeaders) (g : RowHeader → RowHeader) (hg : ∀ x, (g x).span = x.span) (r : Nat) :
    RowHeaders.valid (m.map fun p => (p.1, g p.2)) r = (m.valid r).map g := by
  unfold RowHeaders.valid
  rw [lastLe_map]
  cases lastLe m r with
  | none => rfl
  | some q =>
    simp only [Option.map_some, hg]
    split <;> rfl

/-! ## The headers before writing -/

/-- New styles for headers. -/
def restyleRows (m : RowHeaders) (ns : List (Option String)) : RowHeaders :=
  (m.zip ns).map fun p => (p.1.1, { p.1.2 with style := p.2 })

/-- Style and height of the headers. -/
def rowPairs (m : RowHeaders) : List (Option String × Length) := m.map fun p => (p.2.style, p.2.height)

theorem mem_rowPairs {m : RowHeaders} {ns : List (Option String)} {p : Nat × RowHeader} {st : Option String}
    (h : (p, st) ∈ m.zip ns) : ((p.2.style, p.2.height), st) ∈ (rowPairs m).zip ns := by
  unfold rowPairs
  rw [List.zip_map_left]
  exact List.mem_map.2 ⟨_, h, rfl⟩

theorem calcRows_run (f : Floats) (m : RowHeaders) : ∀ (b b' : Stores Body) (m' : RowHeaders),
    calcRows f b m = .ok (b', m') →
    ∃ ns, sizesRun rowDim f b (rowPairs m) = .ok (b', ns) ∧ ns.length = m.length ∧ m' = restyleRows m ns := by
  induction m with
  | nil => intro b b' m' h; cases h; exact ⟨[], rfl, rfl, rfl⟩
  | cons p m ih =>
    obtain ⟨c, x⟩ := p
    intro b b' m' h
    rw [calcRows] at h
    cases hs : sizeStep rowDim f b x.style x.height with
    | error e => rw [hs] at h; cases h
    | ok r =>
      obtain ⟨b1, st⟩ := r
      rw [hs] at h
      simp only at h
      cases hr : calcRows f b1 m with
      | error e => rw [hr] at h; cases h
      | ok r =>
        obtain ⟨b2, m2⟩ := r
        rw [hr] at h
        simp only at h
        obtain ⟨ns, h1, h2, h3⟩ := ih b1 b2 m2 hr
        have hb : b2 = b' := by injection h with h; injection h
        have hm : (c, { x with style := st }) :: m2 = m' := by injection h with h; injection h
        subst hb hm
        refine ⟨st :: ns, ?_, by simp [h2], ?_⟩
        · unfold rowPairs
          rw [List.map_cons, sizesRun]
          simp only
          rw [hs]
          simp only
          unfold rowPairs at h1
          rw [h1]
        · rw [h3]; rfl

theorem calcRowSheets_run (f : Floats) (ss : List TSheet) : ∀ (b b' : Stores Body) (ss' : List TSheet),
    calcRowSheets f b ss = .ok (b', ss') →
    ∃ ns, sizesRun rowDim f b (ss.flatMap fun s => rowPairs s.rowHeader) = .ok (b', ns)
      ∧ ns.length = (ss.flatMap fun s => rowPairs s.rowHeader).length ∧ ss'.length = ss.length
      ∧ ∀ p ∈ ss.zip ss', ∃ ns', ns'.length = p.1.rowHeader.length
          ∧ p.2 = { p.1 with rowHeader := restyleRows p.1.rowHeader ns' }
          ∧ ((rowPairs p.1.rowHeader).zip ns').Sublist ((ss.flatMap fun s => rowPairs s.rowHeader).zip ns) := by
  induction ss with
  | nil => intro b b' ss' h; cases h; exact ⟨[], rfl, rfl, rfl, fun p hp => by cases hp⟩
  | cons s ss ih =>
    intro b b' ss' h
    rw [calcRowSheets] at h
    cases hs : calcRows f b s.rowHeader with
    | error e => rw [hs] at h; cases h
    | ok r =>
      obtain ⟨b1, m1⟩ := r
      rw [hs] at h
      simp only at h
      cases hr : calcRowSheets f b1 ss with
      | error e => rw [hr] at h; cases h
      | ok r =>
        obtain ⟨b2, ss2⟩ := r
        rw [hr] at h
        simp only at h
        have hb : b2 = b' := by injection h with h; injection h
        have hm : { s with rowHeader := m1 } :: ss2 = ss' := by injection h with h; injection h
        subst hb hm
        obtain ⟨ns1, g1, g2, g3⟩ := calcRows_run f s.rowHeader b b1 m1 hs
        obtain ⟨ns2, i1, i2, i3, i4⟩ := ih b1 b2 ss2 hr
        have hlen : (rowPairs s.rowHeader).length = ns1.length := by unfold rowPairs; rw [List.length_map, g2]
        refine ⟨ns1 ++ ns2, ?_, ?_, by simp [i3], ?_⟩
        · rw [List.flatMap_cons]
          exact sizesRun_append rowDim f _ _ b b1 b2 ns1 ns2 g1 i1
        · rw [List.flatMap_cons, List.length_append, List.length_append, hlen, i2]
        · intro p hp
          rw [List.flatMap_cons, List.zip_append hlen]
          rcases List.mem_cons.1 hp with rfl | hp
          · exact ⟨ns1, g2, by rw [g3], List.sublist_append_left _ _⟩
          · obtain ⟨ns', a1, a2, a3⟩ := i4 p hp
            exact ⟨ns', a1, a2, a3.trans (List.sublist_append_right _ _)⟩

/-! ## Rows with new styles -/

theorem restyleRows_last (r : Nat) : ∀ (m : RowHeaders) (ns : List (Option String)), ns.length = m.length →
    (lastLe m r = none ∧ lastLe (restyleRows m ns) r = none)
    ∨ ∃ p st, (p, st) ∈ m.zip ns ∧ lastLe m r = some p
        ∧ lastLe (restyleRows m ns) r = some (p.1, { p.2 with style := st }) := by
  intro m
  induction m with
  | nil => intro ns hl; exact .inl ⟨rfl, by cases ns <;> rfl⟩
  | cons q m ih =>
    intro ns hl
    cases ns with
    | nil => cases hl
    | cons st ns =>
      have hr : restyleRows (q :: m) (st :: ns) = (q.1, { q.2 with style := st }) :: restyleRows m ns := rfl
      rw [hr, lastLe_cons, lastLe_cons]
      rcases ih ns (by simpa using hl) with ⟨h1, h2⟩ | ⟨p, st', h1, h2, h3⟩
      · rw [h1, h2]
        simp only
        by_cases hq : q.1 ≤ r
        · rw [if_pos hq, if_pos hq]
          exact .inr ⟨q, st, by simp, rfl, rfl⟩
        · rw [if_neg hq, if_neg hq]
          exact .inl ⟨rfl, rfl⟩
      · rw [h2, h3]
        exact .inr ⟨p, st', by simp [h1], rfl, rfl⟩

/-- A row before and after. -/
theorem restyleRows_valid (m : RowHeaders) (ns : List (Option String)) (hl : ns.length = m.length) (r : Nat) :
    (m.valid r = none ∧ (restyleRows m ns).valid r = none)
    ∨ ∃ p st, (p, st) ∈ m.zip ns ∧ m.valid r = some p.2 ∧ (restyleRows m ns).valid r = some { p.2 with style := st } := by
  unfold RowHeaders.valid
  rcases restyleRows_last r m ns hl with ⟨h1, h2⟩ | ⟨p, st, h1, h2, h3⟩
  · rw [h1, h2]; exact .inl ⟨rfl, rfl⟩
  · rw [h2, h3]
    simp only
    by_cases hc : p.1 ≤ r ∧ r < p.1 + p.2.span
    · rw [if_pos hc, if_pos hc]
      exact .inr ⟨p, st, h1, rfl, rfl⟩
    · rw [if_neg hc, if_neg hc]
      exact .inl ⟨rfl, rfl⟩

theorem restyleRows_get (r : Nat) : ∀ (m : RowHeaders) (ns : List (Option String)), ns.length = m.length →
    (get? (restyleRows m ns) r).map RowHeader.repeat = (get? m r).map RowHeader.repeat := by
  intro m
  induction m with
  | nil => intro ns hl; cases ns <;> rfl
  | cons q m ih =>
    intro ns hl
    cases ns with
    | nil => cases hl
    | cons st ns =>
      have hr : restyleRows (q :: m) (st :: ns) = (q.1, { q.2 with style := st }) :: restyleRows m ns := rfl
      rw [hr, get?_cons, get?_cons]
      simp only
      split
      · rfl
      · exact ih ns (by simpa using hl)

/-! ## Sizes that come back -/

/-- What the styles say after reading, for the styles of all headers. -/
theorem size_back (d : Dim) (hd : d.Ok) (f : Floats) (b st : Stores Body) (ns : List (Option String))
    (l : List (Option String × Length)) (bk : Stores Body) (hrun : sizesRun d f b l = .ok (st, ns))
    (hf : ∀ p ∈ l, LengthOk f p.2)
    (hfit : ∀ p ∈ l, ∀ n, p.1 = some n → ∃ t, b.get? d.kind n.toList = some t ∧ Kept t
      ∧ (p.2 ≠ .default → flagOr (val d.optimal t.body.main) = some false))
    (hsh : ∀ p ∈ l, ∀ q ∈ l, ∀ n, p.1 = some n → q.1 = some n → p.2 = q.2)
    (hfound : ∀ n s, st.get? d.kind n = some s → s.body.use ≠ .default →
          (s.body.origin = .styles ∨ s.body.use = .automatic) → ∃ t, bk.get? d.kind n = some t ∧ t.body.main = s.body.main) :
    (∀ p ∈ l.zip ns, (∃ n, p.1.1 = some n ∧ p.2 = some n) ∨ (p.1.1 = none ∧ p.1.2 = .default ∧ p.2 = none)
      ∨ (p.1.1 = none ∧ p.1.2 ≠ .default ∧ p.2 ≠ none))
    ∧ ∀ p n w, (p, some n) ∈ l.zip ns → derived d f bk (some n) w = some p.2 := by
  have hpre : ∀ p ∈ l, ∀ n, p.1 = some n → b.get? d.kind n.toList ≠ none := by
    intro p hp n hn hx
    obtain ⟨t, ht, _⟩ := hfit p hp n hn
    rw [ht] at hx
    cases hx
  obtain ⟨_, hdone, hold, _, _, _⟩ := run_spec d f _ b st ns hrun hpre
  refine ⟨?_, ?_⟩
  · intro p hp
    rcases hdone p hp with h | h | ⟨h1, h2, n, h3, _⟩
    · exact .inl h
    · exact .inr (.inl h)
    · exact .inr (.inr ⟨h1, h2, by rw [h3]; simp⟩)
  · intro q n w hq
    have hql := (List.of_mem_zip hq).1
    rcases hdone _ hq with ⟨n', h1, h2⟩ | ⟨_, _, h2⟩ | ⟨h1, hw, n', h2, h3, h4⟩
    · simp only [Option.some.injEq] at h1 h2
      subst h2
      obtain ⟨t, ht, hk, hfl⟩ := hfit q hql n h1
      obtain ⟨t2, hg, hsame⟩ := hfound n.toList _ (hold n.toList t ht) hk.1 hk.2
      rw [says_derived d f bk n t2 _ hg, hsame]
      refine says_users d hd f _ _ (hf q hql) _ ?_ ?_ hfl
      · intro x hx
        unfold users at hx
        obtain ⟨y, hy, hyx⟩ := List.mem_filterMap.1 hx
        split at hyx
        · rename_i hst
          injection hyx with hyx
          rw [← hyx]
          refine hsh y hy q hql n ?_ h1
          cases hs : y.1 with
          | none => rw [hs] at hst; cases hst
          | some x => rw [hs] at hst; simp only [Option.map_some, Option.some.injEq, String.toList_inj] at hst; rw [hst]
        · cases hyx
      · intro hnil
        have : q.2 ∈ users n.toList l := by
          refine List.mem_filterMap.2 ⟨q, hql, ?_⟩
          rw [h1]
          exact if_pos rfl
        rw [hnil] at this
        cases this
    · cases h2
    · injection h2 with h2
      have hn : n.toList = n' := by rw [h2, String.toList_ofList]
      obtain ⟨t2, hg, hsame⟩ := hfound n' _ h4 (fun h => by cases h) (.inr rfl)
      rw [says_derived d f bk n t2 _ (by rw [hn]; exact hg), hsame]
      exact says_users d hd f [q.2] q.2 (hf q hql) [] (by simp) (by simp) fun _ => rfl

end Verif.Width
