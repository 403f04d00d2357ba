import Verif.Grid.RowAttrs
import Verif.Grid.TableProps

/-!
# Row attributes survive writing and reading (C20)
-/

set_option autoImplicit false

namespace Verif

open OMap

theorem clampLast_same (m : RowHeaders) (h : ∀ p ∈ m, p.2.repeat ≤ 1000) : clampLast m = m := by
  unfold clampLast
  have : (m.drop (m.length - 5)).map (fun p => if 1000 < p.2.repeat then (p.1, { p.2 with «repeat» := 1 }) else p)
      = (m.drop (m.length - 5)).map id := by
    refine List.map_congr_left ?_
    intro p hp
    have := h p (List.mem_of_mem_drop hp)
    rw [if_neg (by omega)]
    rfl
  rw [this, List.map_id, List.take_append_drop]

/-- The repeat counts of the headers are those of the tiles. -/
theorem hdr_repeats (o : ReadOpts) (cols : ColHeaders) (n : Nat) (hn : 1 ≤ n) (l : List Tile) :
    ∀ (m m' : RowHeaders) (a b : Nat), HInv m a → TileChain a l b → (∀ t ∈ l, t.tag.repeated.getD 1 = t.rep) →
    hdrTiles o cols m l = some m' → (∀ k h, get? m k = some h → h.repeat ≤ n) →
    (∀ t ∈ l, (t.has o cols || t.tag.styled) = true → t.rep ≤ n) →
    ∀ k h, get? m' k = some h → h.repeat ≤ n := by
  induction l with
  | nil =>
    intro m m' a b _ _ _ h hm _
    simp only [hdrTiles, Option.some.injEq] at h
    subst h; exact hm
  | cons t l ih =>
    intro m m' a b hI hc htag h hm hl
    simp only [hdrTiles] at h
    split at h
    · rename_i m1 h1
      obtain ⟨c1, c2, c3⟩ := hc
      subst c1
      have ht := htag t (by simp)
      obtain ⟨g1, g2⟩ := hdrTile_spec o cols m m1 t hI ht c2 h1
      refine ih m1 m' _ b g1 c3 (fun x hx => htag x (by simp [hx])) h ?_ (fun x hx => hl x (by simp [hx]))
      intro k x hk
      rw [g2] at hk
      have hl := hl t (by simp)
      unfold hdrAfter at hk
      split at hk
      · split at hk
        · rename_i hh
          injection hk with hk
          rw [← hk]; exact hl (by rw [hh]; rfl)
        · split at hk
          · rename_i hs
            injection hk with hk
            rw [← hk]
            show t.tag.repeated.getD 1 ≤ n
            rw [ht]; exact hl (by rw [hs, Bool.or_true])
          · exact hm _ _ hk
      · split at hk
        · rename_i hs
          injection hk with hk
          rw [← hk]
          show t.tag.repeated.getD 1 ≤ n
          rw [ht]; exact hl (by rw [hs.2.1]; rfl)
        · exact hm _ _ hk
    · cases h

/-- The tile of a row. -/
theorem TileChain.cover {a b : Nat} {l : List Tile} (h : TileChain a l b) (r : Nat) (h1 : a ≤ r) (h2 : r < b) :
    ∃ t ∈ l, t.row ≤ r ∧ r < t.row + t.rep := by
  induction l generalizing a with
  | nil => simp only [TileChain] at h; omega
  | cons t l ih =>
    obtain ⟨c1, c2, c3⟩ := h
    by_cases hr : r < a + t.rep
    · exact ⟨t, by simp, by omega, by omega⟩
    · obtain ⟨x, x1, x2⟩ := ih c3 (by omega)
      exact ⟨x, by simp [x1], x2⟩

theorem tag_attrs (s : TSheet) (t : Tile) (h : t.OK s) : t.tag.attrs = s.rowHeader.attrs t.row := by
  rw [h.2.1]
  cases hv : s.rowHeader.valid t.row with
  | none => rw [attrs_of_none hv]; rfl
  | some x =>
    rw [attrs_of_some hv]
    unfold rowTag RowTag.attrs
    by_cases hx : x.visible = .visible
    · simp only [hx, if_true]; rfl
    · simp only [if_neg hx]; rfl

theorem tag_styled (s : TSheet) (t : Tile) (h : t.OK s) : t.tag.styled = true ↔ s.rowHeader.attrs t.row ≠ {} := by
  rw [← tag_attrs s t h]
  constructor
  · intro hs e
    have h2 := h.2.1
    generalize s.rowHeader.valid t.row = v at h2
    unfold RowTag.attrs at e
    injection e with e1 e2 e3
    have hv : t.tag.visibility ≠ some .visible := by
      rw [h2]
      cases v with
      | none => intro x; cases x
      | some x =>
        unfold rowTag
        by_cases hx : x.visible = .visible
        · simp only [hx, if_true]; intro y; cases y
        · simp only [if_neg hx]; intro y; injection y with y; exact hx y
    unfold RowTag.styled at hs
    rw [e1, e2] at hs
    cases hvis : t.tag.visibility with
    | none => rw [hvis] at hs; cases hs
    | some w => rw [hvis] at e3 hv; exact hv (by rw [← show w = Visibility.visible from e3])
  · intro e
    cases hs : t.tag.styled with
    | true => rfl
    | false => exact absurd (unstyled_attrs _ hs) e

/-- No tile is empty. -/
theorem TileChain.pos {a b : Nat} {l : List Tile} (h : TileChain a l b) : ∀ t ∈ l, 1 ≤ t.rep := by
  induction l generalizing a with
  | nil => intro t ht; cases ht
  | cons t l ih =>
    obtain ⟨_, c2, c3⟩ := h
    intro x hx
    rcases List.mem_cons.mp hx with e | e
    · rw [e]; exact c2
    · exact ih c3 x e

/-- The headers of the rows of a tile with cells have its repeat count. -/
theorem hdr_inside (o : ReadOpts) (cols : ColHeaders) (l : List Tile) :
    ∀ (m m' : RowHeaders) (a b : Nat), HInv m a → TileChain a l b → (∀ t ∈ l, t.tag.repeated.getD 1 = t.rep) →
    hdrTiles o cols m l = some m' →
    ∀ t ∈ l, t.has o cols = true → ∀ k h, t.row ≤ k → k < t.row + t.rep → get? m' k = some h → h.repeat = t.rep := by
  induction l with
  | nil => intro _ _ _ _ _ _ _ _ t ht; cases ht
  | cons t l ih =>
    intro m m' a b hI hc htag h x hx hh k y k1 k2 hk
    simp only [hdrTiles] at h
    cases h1 : hdrTile o cols m t with
    | none => rw [h1] at h; cases h
    | some m1 =>
      rw [h1] at h
      simp only at h
      obtain ⟨c1, c2, c3⟩ := hc
      subst c1
      have ht := htag t List.mem_cons_self
      obtain ⟨g1, g2⟩ := hdrTile_spec o cols m m1 t hI ht c2 h1
      have htl : ∀ x ∈ l, x.tag.repeated.getD 1 = x.rep := fun x hx => htag x (List.mem_cons_of_mem _ hx)
      rcases List.mem_cons.1 hx with rfl | hx
      · rw [(hdrTiles_spec o cols l m1 m' _ b g1 c3 htl h).2.1 k k2, g2] at hk
        unfold hdrAfter at hk
        rw [hh] at hk
        by_cases e : k = x.row
        · rw [if_pos e, if_pos rfl] at hk
          rw [← Option.some.inj hk]
        · rw [if_neg e] at hk
          by_cases e' : k = x.row + 1 ∧ true = true ∧ x.tag.styled = true
          · rw [if_pos e'] at hk
            rw [← Option.some.inj hk]
            exact ht
          · rw [if_neg e'] at hk
            have := hI.le hk
            omega
      · exact ih m1 m' _ b g1 c3 htl h x hx hh k y k1 k2 hk

/-- Clearing long repeats does not change a row whose own header has a short one. -/
theorem clamp_attrs (m : RowHeaders) (hm : Sorted m) (r : Nat)
    (h : ∀ b x, get? m b = some x → b ≤ r → (∀ j, b < j → j ≤ r → get? m j = none) → x.repeat ≤ 1000) :
    (swapAll (clampLast m)).attrs r = (swapAll m).attrs r := by
  have hk : (clampLast m).map Prod.fst = m.map Prod.fst := by
    unfold clampLast
    rw [List.map_append, List.map_map]
    have : (Prod.fst ∘ fun p : Nat × RowHeader => if 1000 < p.2.repeat then (p.1, { p.2 with «repeat» := 1 }) else p)
        = Prod.fst := by
      funext p
      simp only [Function.comp]
      split <;> rfl
    rw [this, ← List.map_append, List.take_append_drop]
  have hs : Sorted (clampLast m) := by
    have : (m.map Prod.fst).Pairwise (fun a b => Key.lt a b = true) := List.pairwise_map.2 hm
    rw [← hk] at this
    exact List.pairwise_map.1 this
  have hmem : ∀ q ∈ clampLast m, q ∈ m ∨ ∃ x, (q.1, x) ∈ m ∧ 1000 < x.repeat := by
    intro q hq
    unfold clampLast at hq
    rcases List.mem_append.1 hq with hq | hq
    · exact .inl (List.mem_of_mem_take hq)
    · obtain ⟨p, hp, rfl⟩ := List.mem_map.1 hq
      have hp := List.mem_of_mem_drop hp
      by_cases hb : 1000 < p.2.repeat
      · rw [if_pos hb]
        exact .inr ⟨p.2, hp, hb⟩
      · rw [if_neg hb]
        exact .inl hp
  have hnone : ∀ j, get? (clampLast m) j = none ↔ get? m j = none := by
    have some_ : ∀ l l' : RowHeaders, Sorted l → Sorted l' → l.map Prod.fst = l'.map Prod.fst →
        ∀ j, get? l j = none → get? l' j = none := by
      intro l l' h1 h2 he j hj
      cases hg : get? l' j with
      | none => rfl
      | some x =>
        have hx : j ∈ l'.map Prod.fst := List.mem_map.2 ⟨_, (get?_eq_some_iff h2).1 hg, rfl⟩
        rw [← he] at hx
        obtain ⟨p, hp, e⟩ := List.mem_map.1 hx
        have := (get?_eq_some_iff h1).2 (show (j, p.2) ∈ l by rw [← e]; exact hp)
        rw [hj] at this
        cases this
    intro j
    exact ⟨some_ _ _ hs hm hk j, some_ _ _ hm hs hk.symm j⟩
  have hback : ∀ b x, get? m b = some x → x.repeat ≤ 1000 → get? (clampLast m) b = some x := by
    intro b x hb hx
    cases hc : get? (clampLast m) b with
    | none => rw [(hnone b).1 hc] at hb; cases hb
    | some y =>
      rcases hmem _ ((get?_eq_some_iff hs).1 hc) with hy | ⟨z, hz, hz2⟩
      · rw [← (get?_eq_some_iff hm).2 hy, hb]
      · have := (get?_eq_some_iff hm).2 hz
        rw [hb] at this
        have := Option.some.inj this
        subst this
        omega
  refine attrs_of_eq ?_
  have key : ∀ x, (swapAll (clampLast m)).valid r = some x ↔ (swapAll m).valid r = some x := by
    intro x
    rw [look_some hs, look_some hm]
    constructor
    · rintro ⟨b, h0, h1, h2, h3, h4, h5⟩
      have h6 : ∀ j, b < j → j ≤ r → get? m j = none := fun j a c => (hnone j).1 (h5 j a c)
      cases hb : get? m b with
      | none => rw [(hnone b).2 hb] at h1; cases h1
      | some y =>
        have := hback b y hb (h b y hb h3 h6)
        rw [h1] at this
        have := Option.some.inj this
        subst this
        exact ⟨b, h0, hb, h2, h3, h4, h6⟩
    · rintro ⟨b, h0, h1, h2, h3, h4, h5⟩
      exact ⟨b, h0, hback b h0 h1 (h b h0 h1 h3 h5), h2, h3, h4, fun j a c => (hnone j).2 (h5 j a c)⟩
  cases h1 : (swapAll (clampLast m)).valid r with
  | some x => exact ((key x).1 h1).symm
  | none =>
    cases h2 : (swapAll m).valid r with
    | none => rfl
    | some x => rw [(key x).2 h2] at h1; cases h1

/-- Everything C20 needs, from the tiles, but for the clearing of long repeats. -/
theorem row_tiles0 (s s' : TSheet) (o : ReadOpts) (evs : List TEv) (hc : s.CellsOK) (hcw : s.colHeader.WF)
    (ho : o.useRepeat = false) (hw : writeTable s = .ok evs) (hr : readTable o evs = some s') :
    ∃ (cols : ColHeaders) (tiles : List Tile) (b : Nat) (m : RowHeaders), TileChain 0 tiles b ∧ (∀ t ∈ tiles, t.OK s)
      ∧ (∀ t ∈ tiles, t.plan ≠ [] → s.DataRow t.row ∧ t.rep = s.repeatOf t.row)
      ∧ (∀ r, s.DataRow r → ∃ t ∈ tiles, t.row = r ∧ t.plan ≠ [])
      ∧ (∀ t ∈ tiles, ∃ r1, s.DataRow r1 ∧ t.row ≤ r1)
      ∧ (∀ t ∈ tiles, ∀ c d x, s.data.get? (t.row, c) = some d → o.dec d = some x → x.isEmpty = false →
          t.has o cols = true)
      ∧ (∀ t ∈ tiles, t.has o cols = true → t.plan ≠ [])
      ∧ hdrTiles o cols [] tiles = some m ∧ s'.rowHeader = swapAll (clampLast m)
      ∧ RowOutcome o cols (fun r => (swapAll m).attrs r) {} tiles := by
  obtain ⟨_, cols, tiles, b, m, raw, e0, h1, h2, h3, h4, h5, _, _, _, h8, _⟩ :=
    readTable_tiles s s' o evs hc.sorted hc.rows hc.rep hcw hw hr
  rw [ho] at e0
  simp only [Bool.false_eq_true, if_false] at e0
  have hdata : ∀ t ∈ tiles, t.plan ≠ [] → s.DataRow t.row ∧ t.rep = s.repeatOf t.row := by
    intro t ht hp
    obtain ⟨p, hpm⟩ := List.exists_mem_of_ne_nil _ hp
    have hmem := mem_plan_stored h3 ht hpm
    exact ⟨⟨_, _, (get?_eq_some_iff hc.sorted).mpr hmem⟩, by
      rw [(h2 t ht).2.2.1 hp, repeatOf_eq (hc.rows _ hmem)]⟩
  have hrow : ∀ r, s.DataRow r → ∃ t ∈ tiles, t.row = r ∧ t.plan ≠ [] := by
    rintro r ⟨c, d, hg⟩
    obtain ⟨t, ht, e, p, hp, _⟩ := mem_plan_of_stored hc.sorted h3 hg
    exact ⟨t, ht, e, by intro x; rw [x] at hp; cases hp⟩
  have hlast : ∀ t ∈ tiles, ∃ r1, s.DataRow r1 ∧ t.row ≤ r1 := by
    intro t ht
    obtain ⟨q, hq, hle⟩ := h8 t ht
    exact ⟨q.1.1, ⟨q.1.2, q.2, (get?_eq_some_iff hc.sorted).mpr hq⟩, hle⟩
  have hhas : ∀ t ∈ tiles, ∀ c d x, s.data.get? (t.row, c) = some d → o.dec d = some x → x.isEmpty = false →
      t.has o cols = true := by
    intro t ht c d x hg hx hne
    obtain ⟨t', ht', e, p, hp, hpe⟩ := mem_plan_of_stored hc.sorted h3 hg
    have : t' = t := (h1.row_inj t' ht' t ht).2 e
    subst this
    have hrepd := hc.rep _ ((get?_eq_some_iff hc.sorted).mp hg)
    obtain ⟨a, ha, _, _⟩ := ((h2 t' ht).2.2.2.1 p hp).cover c (by rw [hpe]; exact Nat.le_refl _)
      (by rw [hpe]; simp only at hrepd ⊢; omega)
    have hmem : ((t'.row, a.1), { x with «repeat» := a.2 }) ∈ rawTiles o cols [t'] := by
      rw [mem_rawTiles]
      exact ⟨t', by simp, p, hp, a.2, ha, rfl, x, by rw [hpe]; exact hx, ignoreCell_of_content hne _, rfl⟩
    simp only [rawTiles, List.flatMap_cons, List.flatMap_nil, List.append_nil] at hmem
    unfold Tile.has
    cases hrr : rawRow o cols t'.row t'.plan with
    | nil => rw [hrr] at hmem; cases hmem
    | cons _ _ => rfl
  have hplan : ∀ t ∈ tiles, t.has o cols = true → t.plan ≠ [] := by
    intro t _ hh e
    unfold Tile.has at hh
    rw [e] at hh
    cases hh
  have htags : ∀ t ∈ tiles, t.tag.repeated.getD 1 = t.rep := fun t ht => (h2 t ht).1
  refine ⟨cols, tiles, b, m, h1, h2, hdata, hrow, hlast, hhas, hplan, h4, ?_,
    (tiles_outcome o cols tiles [] m 0 b {} ⟨hinv_nil 0, rfl, fun _ _ => rfl⟩ h1 htags h4).2⟩
  rw [e0]
  show (clampLast raw.rowHeader).map _ = _
  rw [h5]
  rfl

/-- Everything C20 needs, from the tiles. -/
theorem row_tiles (s s' : TSheet) (o : ReadOpts) (evs : List TEv) (hc : s.CellsOK)
    (hbig : ∀ r, s.DataRow r → s.repeatOf r ≤ 1000) (hcw : s.colHeader.WF)
    (hlong : ∀ r, s.rowHeader.attrs r ≠ {} → s.InTable (r + 1000) → ∃ i, i ≤ 1000 ∧ ¬ s.EmptyRow (r + i))
    (ho : o.useRepeat = false) (hw : writeTable s = .ok evs) (hr : readTable o evs = some s') :
    ∃ (cols : ColHeaders) (tiles : List Tile) (b : Nat), TileChain 0 tiles b ∧ (∀ t ∈ tiles, t.OK s)
      ∧ (∀ t ∈ tiles, t.plan ≠ [] → s.DataRow t.row ∧ t.rep = s.repeatOf t.row)
      ∧ (∀ r, s.DataRow r → ∃ t ∈ tiles, t.row = r ∧ t.plan ≠ [])
      ∧ (∀ t ∈ tiles, ∃ r1, s.DataRow r1 ∧ t.row ≤ r1)
      ∧ (∀ t ∈ tiles, ∀ c d x, s.data.get? (t.row, c) = some d → o.dec d = some x → x.isEmpty = false →
          t.has o cols = true)
      ∧ (∀ t ∈ tiles, t.has o cols = true → t.plan ≠ [])
      ∧ RowOutcome o cols (fun r => s'.rowHeader.attrs r) {} tiles := by
  obtain ⟨cols, tiles, b, m, h1, h2, hdata, hrow, hlast, hhas, hplan, h4, hfin, hout⟩ :=
    row_tiles0 s s' o evs hc hcw ho hw hr
  have htags : ∀ t ∈ tiles, t.tag.repeated.getD 1 = t.rep := fun t ht => (h2 t ht).1
  refine ⟨cols, tiles, b, h1, h2, hdata, hrow, hlast, hhas, hplan, ?_⟩
  obtain ⟨i1, _, _⟩ := hdrTiles_spec o cols tiles [] m 0 b (hinv_nil 0) h1 htags h4
  have hreps := hdr_repeats o cols 1000 (by omega) tiles [] m 0 b (hinv_nil 0) h1 htags h4 (by simp) (by
    intro t ht hst
    by_cases hp : t.plan = []
    · by_cases hle : t.rep ≤ 1000
      · exact hle
      · exfalso
        have hnh : t.has o cols = false := by
          cases hh : t.has o cols with
          | false => rfl
          | true => exact absurd hp (hplan t ht hh)
        rw [hnh, Bool.false_or] at hst
        obtain ⟨r1, d1, hle1⟩ := hlast t ht
        obtain ⟨t1, ht1, e1, hp1⟩ := hrow r1 d1
        have hlt : t.row + t.rep ≤ t1.row := by
          rcases Nat.lt_trichotomy t.row t1.row with x | x | x
          · exact (h1.row_inj t ht t1 ht1).1 x
          · have := (h1.row_inj t ht t1 ht1).2 x
            subst this; exact absurd hp hp1
          · omega
        obtain ⟨i, hi, hne⟩ := hlong t.row ((tag_styled s t (h2 t ht)).mp hst)
          ⟨r1, d1, by omega⟩
        apply hne
        rintro r0 ⟨d0, hr0, hr0'⟩
        obtain ⟨t0, ht0, e0', hp0⟩ := hrow r0 d0
        have hrep0 := (hdata t0 ht0 hp0).2
        rw [e0'] at hrep0
        rcases Nat.lt_trichotomy t0.row t.row with x | x | x
        · have := (h1.row_inj t0 ht0 t ht).1 x; omega
        · have := (h1.row_inj t0 ht0 t ht).2 x
          subst this; exact hp0 hp
        · have := (h1.row_inj t ht t0 ht0).1 x; omega
    · obtain ⟨d1, d2⟩ := hdata t ht hp
      rw [d2]; exact hbig _ d1)
  have hclamp : clampLast m = m := clampLast_same m (by
    rintro ⟨k, h⟩ hk
    exact hreps k h ((get?_eq_some_iff i1.sorted).mpr hk))
  rw [hclamp] at hfin
  rw [hfin]
  exact hout

/-- **C20 (partial).** Writing and reading keeps the style, the default cell style and the visibility of all rows up to
the last row with cells: those of rows with cells, of their copies, and of empty rows. Missing (`_partial`), besides the
sheets excluded in C12:
* an empty row without attributes below a row with attributes (`hleak`, `C20_leak_counterexample`);
* neighbouring empty rows with different attributes in sheets without row groups and header rows (`huni`,
  `C20_gap_counterexample`);
* more than 1000 empty rows in sequence that have attributes (`hlong`). -/
theorem C20_rows_partial (s s' : TSheet) (o : ReadOpts) (evs : List TEv) (hc : s.CellsOK)
    (hbig : ∀ r, s.DataRow r → s.repeatOf r ≤ 1000) (hcw : s.colHeader.WF)
    (hlong : ∀ r, s.rowHeader.attrs r ≠ {} → s.InTable (r + 1000) → ∃ i, i ≤ 1000 ∧ ¬ s.EmptyRow (r + i))
    (huni : s.groupRows = [] → s.headerRows = none → ∀ r, s.EmptyRow r → s.EmptyRow (r + 1) → s.InTable (r + 1) →
      s.rowHeader.attrs (r + 1) = s.rowHeader.attrs r)
    (hleak : ∀ r, s.DataRow r → s.rowHeader.attrs r ≠ {} → s.InTable (r + s.repeatOf r) →
      s.rowHeader.attrs (r + s.repeatOf r) = {} →
      ∃ c d x, s.data.get? (r + s.repeatOf r, c) = some d ∧ o.dec d = some x ∧ x.isEmpty = false)
    (ho : o.useRepeat = false) (hw : writeSheet s = .ok evs) (hr : readTable o evs = some s') :
    (∀ r r0, s.CopyOf r r0 → s'.rowHeader.attrs r = s.rowHeader.attrs r0)
    ∧ (∀ r, s.EmptyRow r → s.InTable r → s'.rowHeader.attrs r = s.rowHeader.attrs r) := by
  have hwf : (prepareCols s.groupCols s.headerCols s.colHeader).WF :=
    ColHeaders.splitAt_wf _ _ (ColHeaders.dedup_wf _ hcw)
  obtain ⟨cols, tiles, b, h1, h2, hdata, hrow, hlast, hhas, hplan, hout⟩ := row_tiles
    { s with colHeader := prepareCols s.groupCols s.headerCols s.colHeader } s' o evs
    ⟨hc.sorted, hc.rows, hc.rep, hc.spans⟩ hbig hwf hlong ho hw hr
  have h2 : ∀ t ∈ tiles, t.OK s := h2
  have hdata : ∀ t ∈ tiles, t.plan ≠ [] → s.DataRow t.row ∧ t.rep = s.repeatOf t.row := hdata
  have hrow : ∀ r, s.DataRow r → ∃ t ∈ tiles, t.row = r ∧ t.plan ≠ [] := hrow
  have hlast : ∀ t ∈ tiles, ∃ r1, s.DataRow r1 ∧ t.row ≤ r1 := hlast
  have hhas : ∀ t ∈ tiles, ∀ c d x, s.data.get? (t.row, c) = some d → o.dec d = some x → x.isEmpty = false →
      t.has o cols = true := hhas
  have hdisj : ∀ t ∈ tiles, ∀ t' ∈ tiles, ∀ r, t.row ≤ r → r < t.row + t.rep → t'.row ≤ r →
      r < t'.row + t'.rep → t = t' := by
    intro t ht t' ht' r a1 a2 a3 a4
    rcases Nat.lt_trichotomy t.row t'.row with x | x | x
    · have := (h1.row_inj t ht t' ht').1 x; omega
    · exact (h1.row_inj t ht t' ht').2 x
    · have := (h1.row_inj t' ht' t ht).1 x; omega
  -- every row of a tile has the attributes of the tile
  have key : ∀ t ∈ tiles, ∀ r, t.row ≤ r → r < t.row + t.rep → s'.rowHeader.attrs r = s.rowHeader.attrs t.row := by
    intro t ht r r1 r2
    obtain ⟨L, l1, l2⟩ := outcome_at o cols _ tiles {} 0 b h1 hout t ht
    have e := l1 r r1 r2
    show s'.rowHeader.attrs r = _
    have e : s'.rowHeader.attrs r = _ := e
    rw [e, ← tag_attrs s t (h2 t ht)]
    by_cases hst : (t.has o cols || t.tag.styled) = true
    · rw [if_pos hst]
    · rw [if_neg hst]
      have hst : t.has o cols = false ∧ t.tag.styled = false := by simpa using hst
      rw [unstyled_attrs _ hst.2]
      by_cases er : r = t.row
      · rw [if_pos er]
        rcases l2 with ⟨_, l2⟩ | ⟨p, hp, p1, p2⟩
        · exact l2
        · rw [p2]
          unfold Tile.leak
          by_cases hps : (p.has o cols && p.tag.styled) = true
          · exfalso
            rw [Bool.and_eq_true] at hps
            obtain ⟨d1, d2⟩ := hdata p hp (hplan p hp hps.1)
            obtain ⟨ra, da, hra⟩ := hlast t ht
            have hin : s.InTable (p.row + s.repeatOf p.row) := by
              refine ⟨ra, da, ?_⟩
              have : 1 ≤ s.repeatOf ra := by unfold TSheet.repeatOf; omega
              omega
            have hatt : s.rowHeader.attrs (p.row + s.repeatOf p.row) = {} := by
              rw [← d2, p1]
              cases hn : decide (s.rowHeader.attrs t.row = {}) with
              | true => exact of_decide_eq_true hn
              | false =>
                have := (tag_styled s t (h2 t ht)).mpr (of_decide_eq_false hn)
                rw [hst.2] at this; cases this
            obtain ⟨c, d, x, g1, g2, g3⟩ := hleak p.row d1 ((tag_styled s p (h2 p hp)).mp hps.2) hin hatt
            rw [← d2, p1] at g1
            have := hhas t ht c d x g1 g2 g3
            rw [hst.1] at this; cases this
          · rw [if_neg hps]
      · rw [if_neg er]
  refine ⟨?_, ?_⟩
  · rintro r r0 ⟨d0, q1, q2⟩
    obtain ⟨t, ht, e, hp⟩ := hrow r0 d0
    have := (hdata t ht hp).2
    subst e
    exact key t ht r q1 (by omega)
  · rintro r hemp ⟨r1, d1, hr1⟩
    obtain ⟨t1, ht1, e1, hp1⟩ := hrow r1 d1
    have hrep1 := (hdata t1 ht1 hp1).2
    have hb := (TileChain.mem h1 ht1).2
    rw [e1] at hrep1
    obtain ⟨t, ht, q1, q2⟩ := h1.cover r (by omega) (by omega)
    rw [key t ht r q1 q2]
    have hp : t.plan = [] := by
      cases hpl : t.plan with
      | nil => rfl
      | cons x l =>
        have hne : t.plan ≠ [] := by rw [hpl]; intro y; cases y
        obtain ⟨a1, a2⟩ := hdata t ht hne
        exact absurd ⟨a1, q1, by omega⟩ (hemp t.row)
    by_cases hg : (!s.groupRows.isEmpty || s.headerRows.isSome) = true
    · have := (h2 t ht).2.2.2.2 hp hg
      have : r = t.row := by omega
      rw [this]
    · have hg : s.groupRows = [] ∧ s.headerRows = none := by simpa using hg
      have hempt : ∀ i, t.row ≤ i → i < t.row + t.rep → s.EmptyRow i := by
        rintro i i1 i2 r0 ⟨d0, hr0, hr0'⟩
        obtain ⟨t0, ht0, e0', hp0⟩ := hrow r0 d0
        have hrep0 := (hdata t0 ht0 hp0).2
        rw [e0'] at hrep0
        have := hdisj t ht t0 ht0 i i1 i2 (by omega) (by omega)
        subst this; exact hp0 hp
      have hin : ∀ i, t.row ≤ i → i < t.row + t.rep → s.InTable i := by
        intro i i1 i2
        refine ⟨r1, d1, ?_⟩
        rcases Nat.lt_trichotomy t.row t1.row with x | x | x
        · have := (h1.row_inj t ht t1 ht1).1 x; omega
        · have := (h1.row_inj t ht t1 ht1).2 x
          subst this; exact absurd hp hp1
        · have := (h1.row_inj t1 ht1 t ht).1 x; omega
      have hall : ∀ n, t.row + n < t.row + t.rep → s.rowHeader.attrs (t.row + n) = s.rowHeader.attrs t.row := by
        intro n
        induction n with
        | zero => intro _; rfl
        | succ n ih =>
          intro hn
          rw [← ih (by omega), ← Nat.add_assoc]
          exact huni hg.1 hg.2 _ (hempt _ (by omega) (by omega)) (hempt _ (by omega) (by omega))
            (hin _ (by omega) (by omega))
      have := hall (r - t.row) (by omega)
      rw [show t.row + (r - t.row) = r by omega] at this
      exact this.symm

/-- The row shows something: a cell that is read as more than an empty cell without style and spans. -/
def TSheet.HasContent (s : TSheet) (o : ReadOpts) (r : Nat) : Prop :=
  ∃ c d x, s.data.get? (r, c) = some d ∧ o.dec d = some x ∧ x.isEmpty = false

/-- **C20, rows with content.** Such a row, and each of its copies, has the same attributes after writing and reading,
however the rows around it look: none are lost, and a row without attributes gets none. -/
theorem C20_content_partial (s s' : TSheet) (o : ReadOpts) (evs : List TEv) (hc : s.CellsOK)
    (hbig : ∀ r, s.DataRow r → s.repeatOf r ≤ 1000) (hcw : s.colHeader.WF)
    (ho : o.useRepeat = false) (hw : writeSheet s = .ok evs) (hr : readTable o evs = some s') :
    ∀ r r0, s.CopyOf r r0 → s.HasContent o r0 → s'.rowHeader.attrs r = s.rowHeader.attrs r0 := by
  have hwf : (prepareCols s.groupCols s.headerCols s.colHeader).WF :=
    ColHeaders.splitAt_wf _ _ (ColHeaders.dedup_wf _ hcw)
  obtain ⟨cols, tiles, b, m, h1, h2, hdata, hrow, _, hhas, _, h4, hfin, hout⟩ := row_tiles0
    { s with colHeader := prepareCols s.groupCols s.headerCols s.colHeader } s' o evs
    ⟨hc.sorted, hc.rows, hc.rep, hc.spans⟩ hwf ho hw hr
  have htags : ∀ t ∈ tiles, t.tag.repeated.getD 1 = t.rep := fun t ht => (h2 t ht).1
  obtain ⟨i1, _, i3⟩ := hdrTiles_spec o cols tiles [] m 0 b (hinv_nil 0) h1 htags h4
  rintro r r0 ⟨d0, q1, q2⟩ ⟨c, d, x, g1, g2, g3⟩
  obtain ⟨t, ht, e, hp⟩ := hrow r0 d0
  have hrep : t.rep = s.repeatOf t.row := (hdata t ht hp).2
  subst e
  have hh := hhas t ht c d x g1 g2 g3
  obtain ⟨L, l1, _⟩ := outcome_at o cols _ tiles {} 0 b h1 hout t ht
  have e : (swapAll m).attrs r = _ := l1 r q1 (by omega)
  rw [hfin, clamp_attrs m i1.sorted r, e, if_pos (by rw [hh]; rfl)]
  · exact tag_attrs s t (h2 t ht)
  · intro k y hk hle hnone
    have hk1 : t.row ≤ k := by
      rcases Nat.lt_or_ge k t.row with h | h
      · have := hnone t.row h q1
        rw [i3 t ht hh] at this
        cases this
      · exact h
    rw [hdr_inside o cols tiles [] m 0 b (hinv_nil 0) h1 htags h4 t ht hh k y hk1 (by omega) hk, hrep]
    exact hbig _ d0

/-- **C20, where it fails.** `C20_leak_counterexample` is no accident of one sheet: whenever a row with content has
attributes and the row below it and its copies is an empty row without attributes, that row gets the attributes of the row
with content. So `hleak` in `C20_rows_partial` excludes no more than it must (for empty rows). -/
theorem C20_leak (s s' : TSheet) (o : ReadOpts) (evs : List TEv) (hc : s.CellsOK)
    (hbig : ∀ r, s.DataRow r → s.repeatOf r ≤ 1000) (hcw : s.colHeader.WF)
    (hlong : ∀ r, s.rowHeader.attrs r ≠ {} → s.InTable (r + 1000) → ∃ i, i ≤ 1000 ∧ ¬ s.EmptyRow (r + i))
    (ho : o.useRepeat = false) (hw : writeSheet s = .ok evs) (hr : readTable o evs = some s')
    (r : Nat) (hd : s.DataRow r) (hs : s.HasContent o r) (ha : s.rowHeader.attrs r ≠ {})
    (he : s.EmptyRow (r + s.repeatOf r)) (hi : s.InTable (r + s.repeatOf r))
    (hn : s.rowHeader.attrs (r + s.repeatOf r) = {}) :
    s'.rowHeader.attrs (r + s.repeatOf r) = s.rowHeader.attrs r := by
  have hwf : (prepareCols s.groupCols s.headerCols s.colHeader).WF :=
    ColHeaders.splitAt_wf _ _ (ColHeaders.dedup_wf _ hcw)
  obtain ⟨cols, tiles, b, h1, h2, hdata, hrow, _, hhas, hplan, hout⟩ := row_tiles
    { s with colHeader := prepareCols s.groupCols s.headerCols s.colHeader } s' o evs
    ⟨hc.sorted, hc.rows, hc.rep, hc.spans⟩ hbig hwf hlong ho hw hr
  have h2 : ∀ t ∈ tiles, t.OK s := h2
  have hdata : ∀ t ∈ tiles, t.plan ≠ [] → s.DataRow t.row ∧ t.rep = s.repeatOf t.row := hdata
  have hrow : ∀ r, s.DataRow r → ∃ t ∈ tiles, t.row = r ∧ t.plan ≠ [] := hrow
  obtain ⟨p, hp, ep, hpp⟩ := hrow r hd
  have hrep := (hdata p hp hpp).2
  subst ep
  obtain ⟨r1, d1, hr1⟩ := hi
  obtain ⟨t1, ht1, e1, hp1'⟩ := hrow r1 d1
  have hrep1 := (hdata t1 ht1 hp1').2
  have hb := (h1.mem ht1).2
  rw [e1] at hrep1
  obtain ⟨t, ht, q1, q2⟩ := h1.cover (p.row + s.repeatOf p.row) (by omega) (by omega)
  have hrow_t : t.row = p.row + s.repeatOf p.row := by
    rcases Nat.lt_trichotomy t.row p.row with x | x | x
    · have := (h1.row_inj t ht p hp).1 x; omega
    · have := (h1.row_inj t ht p hp).2 x
      subst this; omega
    · have := (h1.row_inj p hp t ht).1 x; omega
  have hte : t.plan = [] := by
    cases hpl : t.plan with
    | nil => rfl
    | cons x l =>
      have hne : t.plan ≠ [] := by rw [hpl]; intro y; cases y
      obtain ⟨a1, a2⟩ := hdata t ht hne
      exact absurd ⟨a1, q1, by omega⟩ (he t.row)
  obtain ⟨L, l1, l2⟩ := outcome_at o cols _ tiles {} 0 b h1 hout t ht
  have e : s'.rowHeader.attrs (p.row + s.repeatOf p.row) = _ := l1 _ q1 q2
  have hnh : t.has o cols = false := by
    cases hh : t.has o cols with
    | false => rfl
    | true => exact absurd hte (hplan t ht hh)
  have hns : t.tag.styled = false := by
    cases hh : t.tag.styled with
    | false => rfl
    | true =>
      have := (tag_styled s t (h2 t ht)).mp hh
      rw [hrow_t] at this
      exact absurd hn this
  rw [e, hnh, hns, if_neg (by simp), if_pos hrow_t.symm]
  have hpp1 := h1.pos p hp
  rcases l2 with ⟨l2, _⟩ | ⟨p', hp', e', l2⟩
  · omega
  · have hpe : p' = p := by
      have := h1.pos p' hp'
      rcases Nat.lt_trichotomy p'.row p.row with x | x | x
      · have := (h1.row_inj p' hp' p hp).1 x; omega
      · exact (h1.row_inj p' hp' p hp).2 x
      · have := (h1.row_inj p hp p' hp').1 x; omega
    subst hpe
    obtain ⟨c, d, x, g1, g2, g3⟩ := hs
    rw [l2]
    unfold Tile.leak
    rw [hhas p' hp' c d x g1 g2 g3, (tag_styled s p' (h2 p' hp')).mpr ha, Bool.and_self, if_pos rfl]
    exact tag_attrs s p' (h2 p' hp')

/-! ### A sheet that meets the hypotheses -/

/-- Row 0 has a style and a repeat count, row 2 has cells and no attributes, rows 3 and 4 are empty and hidden, row 5 has a
default cell style. -/
def rowsSheet : TSheet :=
  (sheetOf [put 0 0, put 2 1, put 5 0]
    [.setRepeat 0 2, .setStyle 0 "a", .setVisible 3 .collapsed, .setVisible 4 .collapsed, .setCellstyle 5 "b"] []).getD {}

theorem rowsSheet_cells : rowsSheet.CellsOK :=
  ⟨by unfold Sorted; decide, by unfold RowOK; decide, by decide, by unfold CellData.SpansOK; decide⟩

theorem rowsSheet_data (r : Nat) : rowsSheet.DataRow r ↔ r = 0 ∨ r = 2 ∨ r = 5 := by
  constructor
  · rintro ⟨c, d, hg⟩
    have hm := get?_mem_keys _ rowsSheet_cells.sorted hg
    have : ∀ p ∈ rowsSheet.data, p.1.1 = 0 ∨ p.1.1 = 2 ∨ p.1.1 = 5 := by decide
    exact this _ hm
  · rintro (h | h | h) <;> subst h
    · exact ⟨0, { value := .boolean true }, by decide⟩
    · exact ⟨1, { value := .boolean true }, by decide⟩
    · exact ⟨0, { value := .boolean true }, by decide⟩

theorem rowsSheet_repeat : rowsSheet.repeatOf 0 = 2 ∧ rowsSheet.repeatOf 2 = 1 ∧ rowsSheet.repeatOf 5 = 1 := by decide

theorem rowsSheet_in (r : Nat) : rowsSheet.InTable r ↔ r < 6 := by
  obtain ⟨e0, e2, e5⟩ := rowsSheet_repeat
  constructor
  · rintro ⟨r1, h1, h2⟩
    rcases (rowsSheet_data r1).mp h1 with h | h | h <;> subst h <;> omega
  · intro h
    exact ⟨5, (rowsSheet_data 5).mpr (by omega), by omega⟩

theorem rowsSheet_empty (r : Nat) : rowsSheet.EmptyRow r ↔ r = 3 ∨ r = 4 ∨ 6 ≤ r := by
  obtain ⟨e0, e2, e5⟩ := rowsSheet_repeat
  constructor
  · intro h
    have h0 := h 0; have h2 := h 2; have h5 := h 5
    unfold TSheet.CopyOf at h0 h2 h5
    rw [e0] at h0; rw [e2] at h2; rw [e5] at h5
    have d0 := (rowsSheet_data 0).mpr (by omega)
    have d2 := (rowsSheet_data 2).mpr (by omega)
    have d5 := (rowsSheet_data 5).mpr (by omega)
    simp only [d0, d2, d5, true_and] at h0 h2 h5
    omega
  · rintro h r0 ⟨h1, h2, h3⟩
    rcases (rowsSheet_data r0).mp h1 with x | x | x <;> subst x <;> omega

/-- The sheet meets the hypotheses of `C20_rows_partial`, and the rows come back as they were set. -/
example (evs : List TEv) (hw : writeSheet rowsSheet = .ok evs) (s' : TSheet) (hr : readTable {} evs = some s') :
    s'.rowHeader.attrs 1 = { style := some "a" } ∧ s'.rowHeader.attrs 2 = {}
    ∧ s'.rowHeader.attrs 4 = { visible := .collapsed } ∧ s'.rowHeader.attrs 5 = { cellstyle := some "b" } := by
  obtain ⟨e0, e2, e5⟩ := rowsSheet_repeat
  have h := C20_rows_partial rowsSheet s' {} evs rowsSheet_cells
    (by intro r h; rcases (rowsSheet_data r).mp h with x | x | x <;> subst x <;> omega)
    ⟨by unfold Sorted; decide, by decide, by decide⟩
    (by intro r _ h; have := (rowsSheet_in _).mp h; omega)
    (by
      intro _ _ r h1 h2 h3
      have h1 := (rowsSheet_empty r).mp h1
      have h2 := (rowsSheet_empty _).mp h2
      have h3 := (rowsSheet_in _).mp h3
      have : r = 3 := by omega
      subst this; decide)
    (by
      intro r h1 h2 h3 h4
      rcases (rowsSheet_data r).mp h1 with x | x | x
      · subst x; exact ⟨1, { value := .boolean true }, { value := .boolean true }, by decide, rfl, by decide⟩
      · subst x; exact absurd (by decide) h2
      · subst x; have := (rowsSheet_in _).mp h3; omega)
    rfl hw hr
  refine ⟨?_, ?_, ?_, ?_⟩
  · rw [h.1 1 0 ⟨(rowsSheet_data 0).mpr (by omega), by omega, by omega⟩]; decide
  · rw [h.1 2 2 ⟨(rowsSheet_data 2).mpr (by omega), by omega, by omega⟩]; decide
  · rw [h.2 4 ((rowsSheet_empty 4).mpr (by omega)) ((rowsSheet_in 4).mpr (by omega))]; decide
  · rw [h.1 5 5 ⟨(rowsSheet_data 5).mpr (by omega), by omega, by omega⟩]; decide

/-- And it is written and read. -/
example : (rewrite rowsSheet).isSome = true := by decide

/-- `C20_leak` applies to the sheet of `C20_leak_counterexample`. -/
example : ((sheetOf [put 0 0, put 2 0] [.setStyle 0 "a"] []).bind rewrite).map (·.rowHeader.attrs 1)
    = some { style := some "a" } := by decide

end Verif
