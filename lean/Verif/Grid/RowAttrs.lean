import Verif.Grid.Props

/-!
# Row attributes over writing and reading (C20)
-/

set_option autoImplicit false

namespace Verif

open OMap

/-! ### Specification -/

/-- What the getters report of a row: style, default cell style, visibility. -/
structure RowAttrs where
  style : Option String := none
  cellstyle : Option String := none
  visible : Visibility := .visible
  deriving DecidableEq

/-- The row getters `rowstyle`, `row_cellstyle`, `row_visible`. -/
def RowHeaders.attrs (m : RowHeaders) (r : Nat) : RowAttrs := ⟨m.rowstyle r, m.rowCellstyle r, m.rowVisible r⟩

/-- The row has cells. -/
def TSheet.DataRow (s : TSheet) (r : Nat) : Prop := ∃ c d, s.data.get? (r, c) = some d

/-- Row `r` is the data row `r0` or one of the copies its repeat count stands for. -/
def TSheet.CopyOf (s : TSheet) (r r0 : Nat) : Prop := s.DataRow r0 ∧ r0 ≤ r ∧ r < r0 + s.repeatOf r0

/-- Row `r` has no cells, nor is it a copy of a row with cells. -/
def TSheet.EmptyRow (s : TSheet) (r : Nat) : Prop := ∀ r0, ¬ s.CopyOf r r0

/-- Row `r` is not behind the last data row and its copies. -/
def TSheet.InTable (s : TSheet) (r : Nat) : Prop := ∃ r1, s.DataRow r1 ∧ r < r1 + s.repeatOf r1

/-! ### Lookups in the headers after their repeat counts have become spans -/

/-- `mem::swap` of repeat and span, src/io/read.rs:580-584. -/
def swapHdr (h : RowHeader) : RowHeader := { h with «repeat» := h.span, span := h.repeat }

/-- The same for all headers. -/
def swapAll (m : RowHeaders) : RowHeaders := m.map (fun p => (p.1, swapHdr p.2))

theorem swapAll_get? (m : RowHeaders) (k : Nat) : get? (swapAll m) k = (get? m k).map swapHdr := by
  unfold swapAll
  induction m with
  | nil => rfl
  | cons p m ih =>
    obtain ⟨a, h⟩ := p
    simp only [List.map_cons, get?]
    split
    · rfl
    · exact ih

theorem swapAll_sorted (m : RowHeaders) (hm : Sorted m) : Sorted (swapAll m) := by
  unfold swapAll Sorted at *
  rw [List.pairwise_map]
  exact hm

theorem look_some {m : RowHeaders} (hm : Sorted m) {r : Nat} {h : RowHeader} :
    (swapAll m).valid r = some h ↔ ∃ b h0, get? m b = some h0 ∧ h = swapHdr h0 ∧ b ≤ r ∧ r < b + h0.repeat
      ∧ ∀ j, b < j → j ≤ r → get? m j = none := by
  rw [RowHeaders.valid_some (swapAll_sorted m hm)]
  constructor
  · rintro ⟨b, h1, h2, h3, h4⟩
    rw [swapAll_get?] at h1
    cases hg : get? m b with
    | none => rw [hg] at h1; cases h1
    | some h0 =>
      rw [hg] at h1
      injection h1 with h1
      refine ⟨b, h0, hg, h1.symm, h2, ?_, ?_⟩
      · rw [← h1] at h3; exact h3
      · intro j j1 j2
        have := h4 j j1 j2
        rw [swapAll_get?] at this
        cases hj : get? m j with
        | none => rfl
        | some x => rw [hj] at this; cases this
  · rintro ⟨b, h0, h1, h2, h3, h4, h5⟩
    subst h2
    refine ⟨b, by rw [swapAll_get?, h1]; rfl, h3, h4, ?_⟩
    intro j j1 j2
    rw [swapAll_get?, h5 j j1 j2]; rfl

theorem look_none {m : RowHeaders} (hm : Sorted m) {r : Nat}
    (h : ∀ b h0, get? m b = some h0 → b ≤ r → (∀ j, b < j → j ≤ r → get? m j = none) → b + h0.repeat ≤ r) :
    (swapAll m).valid r = none := by
  cases hv : (swapAll m).valid r with
  | none => rfl
  | some x =>
    obtain ⟨b, h0, h1, _, h3, h4, h5⟩ := (look_some hm).mp hv
    have := h b h0 h1 h3 h5
    omega

theorem look_congr {m m' : RowHeaders} (hm : Sorted m) (hm' : Sorted m') {r : Nat}
    (h : ∀ k, k ≤ r → get? m' k = get? m k) : (swapAll m').valid r = (swapAll m).valid r := by
  have key : ∀ x, (swapAll m').valid r = some x ↔ (swapAll m).valid r = some x := by
    intro x
    rw [look_some hm, look_some hm']
    constructor
    · rintro ⟨b, h0, h1, h2, h3, h4, h5⟩
      exact ⟨b, h0, by rw [← h b h3]; exact h1, h2, h3, h4, fun j j1 j2 => by rw [← h j j2]; exact h5 j j1 j2⟩
    · rintro ⟨b, h0, h1, h2, h3, h4, h5⟩
      exact ⟨b, h0, by rw [h b h3]; exact h1, h2, h3, h4, fun j j1 j2 => by rw [h j j2]; exact h5 j j1 j2⟩
  cases h1 : (swapAll m').valid r with
  | some x => exact ((key x).mp h1).symm
  | none =>
    cases h2 : (swapAll m).valid r with
    | none => rfl
    | some x => rw [(key x).mpr h2] at h1; cases h1

/-! ### Tile by tile -/

/-- The attributes of a row element. -/
def RowTag.attrs (t : RowTag) : RowAttrs := ⟨t.style, t.cellstyle, t.visibility.getD .visible⟩

theorem attrs_of_some {m : RowHeaders} {r : Nat} {h : RowHeader} (hv : m.valid r = some h) :
    m.attrs r = ⟨h.style, h.cellstyle, h.visible⟩ := by
  unfold RowHeaders.attrs RowHeaders.rowstyle RowHeaders.rowCellstyle RowHeaders.rowVisible
  rw [hv]

theorem attrs_of_none {m : RowHeaders} {r : Nat} (hv : m.valid r = none) : m.attrs r = {} := by
  unfold RowHeaders.attrs RowHeaders.rowstyle RowHeaders.rowCellstyle RowHeaders.rowVisible
  rw [hv]

theorem attrs_of_eq {m m' : RowHeaders} {r : Nat} (hv : m'.valid r = m.valid r) : m'.attrs r = m.attrs r := by
  unfold RowHeaders.attrs RowHeaders.rowstyle RowHeaders.rowCellstyle RowHeaders.rowVisible
  rw [hv]

theorem unstyled_attrs (t : RowTag) (h : t.styled = false) : t.attrs = {} := by
  unfold RowTag.styled at h
  obtain ⟨a, b, c, d⟩ := t
  cases b <;> cases c <;> cases d <;> first | rfl | cases h

/-- What a tile leaves for the row behind it. -/
def Tile.leak (o : ReadOpts) (cols : ColHeaders) (t : Tile) : RowAttrs :=
  if t.has o cols && t.tag.styled then t.tag.attrs else {}

/-- The attributes of the rows of each tile, if `L` was left by the tile before. -/
def RowOutcome (o : ReadOpts) (cols : ColHeaders) (f : Nat → RowAttrs) : RowAttrs → List Tile → Prop
  | _, [] => True
  | L, t :: l => (∀ r, t.row ≤ r → r < t.row + t.rep →
      f r = if t.has o cols || t.tag.styled then t.tag.attrs else if r = t.row then L else {})
      ∧ RowOutcome o cols f (t.leak o cols) l

/-- Headers at a boundary: `L` is what the row at the boundary would get. -/
def Pending (m : RowHeaders) (a : Nat) (L : RowAttrs) : Prop :=
  HInv m a ∧ (swapAll m).attrs a = L ∧ ∀ r, a < r → (swapAll m).valid r = none

theorem tile_outcome (o : ReadOpts) (cols : ColHeaders) (m m' : RowHeaders) (t : Tile) (L : RowAttrs)
    (hm : Pending m t.row L) (ht : t.tag.repeated.getD 1 = t.rep) (hr : 1 ≤ t.rep) (h : hdrTile o cols m t = some m') :
    Pending m' (t.row + t.rep) (t.leak o cols)
    ∧ (∀ r, r < t.row → (swapAll m').attrs r = (swapAll m).attrs r)
    ∧ ∀ r, t.row ≤ r → r < t.row + t.rep →
      (swapAll m').attrs r = if t.has o cols || t.tag.styled then t.tag.attrs else if r = t.row then L else {} := by
  obtain ⟨hI, hL, hnone⟩ := hm
  obtain ⟨hI', hg⟩ := hdrTile_spec o cols m m' t hI ht hr h
  have hlow : ∀ r, r < t.row → (swapAll m').attrs r = (swapAll m).attrs r := by
    intro r hr
    refine attrs_of_eq (look_congr hI.sorted hI'.sorted ?_)
    intro k hk
    rw [hg]
    unfold hdrAfter
    rw [if_neg (by omega), if_neg (by omega)]
  have habove : ∀ k, t.row < k → get? m k = none := by
    intro k hk
    cases hk2 : get? m k with
    | none => rfl
    | some x => have := hI.le hk2; omega
  by_cases hh : t.has o cols = true
  · by_cases hs : t.tag.styled = true
    · -- content and attributes: a header for the row and one for the next
      have g0 : get? m' t.row = some { t.tag.hdr with «repeat» := t.rep } := by
        rw [hg]; unfold hdrAfter; rw [if_pos rfl, if_pos hh, if_pos hs]
      have g1 : get? m' (t.row + 1) = some { t.tag.hdr with span := 0 } := by
        rw [hg]; unfold hdrAfter; rw [if_neg (by omega), if_pos ⟨rfl, hh, hs⟩]
      have g2 : ∀ k, t.row + 1 < k → get? m' k = none := by
        intro k hk
        rw [hg]; unfold hdrAfter; rw [if_neg (by omega), if_neg (by omega)]; exact habove k (by omega)
      have v1 : ∀ r, t.row + 1 ≤ r → r < t.row + 1 + t.rep → (swapAll m').attrs r = t.tag.attrs := by
        intro r r1 r2
        rw [attrs_of_some ((look_some hI'.sorted).mpr ⟨t.row + 1, _, g1, rfl, r1, ?_, ?_⟩)]
        · rfl
        · show r < t.row + 1 + t.tag.repeated.getD 1
          omega
        · intro j j1 j2; exact g2 j j1
      refine ⟨⟨hI', ?_, ?_⟩, hlow, ?_⟩
      · unfold Tile.leak
        rw [hh, hs]
        exact v1 _ (by omega) (by omega)
      · intro r hlt
        refine look_none hI'.sorted ?_
        intro b h0 hb hle hj
        by_cases hb1 : b = t.row + 1
        · subst hb1
          rw [g1] at hb
          injection hb with hb
          rw [← hb]
          show t.row + 1 + t.tag.repeated.getD 1 ≤ r
          omega
        · by_cases hb2 : b < t.row + 1
          · have := hj (t.row + 1) hb2 (by omega)
            rw [g1] at this; cases this
          · rw [g2 b (by omega)] at hb; cases hb
      · intro r r1 r2
        rw [hh, Bool.true_or, if_pos rfl]
        by_cases e : r = t.row
        · subst e
          rw [attrs_of_some ((look_some hI'.sorted).mpr ⟨t.row, _, g0, rfl, Nat.le_refl _, r2, ?_⟩)]
          · rfl
          · intro j j1 j2; omega
        · exact v1 r (by omega) (by omega)
    · -- content only
      have hs' : t.tag.styled = false := by simpa using hs
      have g0 : get? m' t.row = some { ({} : RowHeader) with «repeat» := t.rep } := by
        rw [hg]; unfold hdrAfter; rw [if_pos rfl, if_pos hh, hs']; rfl
      have g2 : ∀ k, t.row < k → get? m' k = none := by
        intro k hk
        rw [hg]; unfold hdrAfter; rw [if_neg (by omega), hs']
        rw [if_neg (by rintro ⟨_, _, x⟩; cases x)]; exact habove k hk
      have vn : ∀ r, t.row + t.rep ≤ r → (swapAll m').valid r = none := by
        intro r hle
        refine look_none hI'.sorted ?_
        intro b h0 hb hb' hj
        by_cases hb1 : b = t.row
        · subst hb1
          rw [g0] at hb
          injection hb with hb
          rw [← hb]; exact hle
        · by_cases hb2 : b < t.row
          · have := hj t.row hb2 (by omega)
            rw [g0] at this; cases this
          · rw [g2 b (by omega)] at hb; cases hb
      refine ⟨⟨hI', ?_, fun r hlt => vn r (by omega)⟩, hlow, ?_⟩
      · unfold Tile.leak
        rw [hh, hs', attrs_of_none (vn _ (Nat.le_refl _))]; rfl
      · intro r r1 r2
        rw [hh, Bool.true_or, if_pos rfl, unstyled_attrs _ hs']
        rw [attrs_of_some ((look_some hI'.sorted).mpr ⟨t.row, _, g0, rfl, r1, r2, ?_⟩)]
        · rfl
        · intro j j1 j2; exact g2 j j1
  · have hh' : t.has o cols = false := by simpa using hh
    by_cases hs : t.tag.styled = true
    · -- attributes only
      have g0 : get? m' t.row = some t.tag.hdr := by
        rw [hg]; unfold hdrAfter; rw [if_pos rfl, if_neg hh, if_pos hs]
      have g2 : ∀ k, t.row < k → get? m' k = none := by
        intro k hk
        rw [hg]; unfold hdrAfter; rw [if_neg (by omega), if_neg (by rintro ⟨_, x, _⟩; exact hh x)]
        exact habove k hk
      have vn : ∀ r, t.row + t.rep ≤ r → (swapAll m').valid r = none := by
        intro r hle
        refine look_none hI'.sorted ?_
        intro b h0 hb hb' hj
        by_cases hb1 : b = t.row
        · subst hb1
          rw [g0] at hb
          injection hb with hb
          rw [← hb]
          show t.row + t.tag.repeated.getD 1 ≤ r
          omega
        · by_cases hb2 : b < t.row
          · have := hj t.row hb2 (by omega)
            rw [g0] at this; cases this
          · rw [g2 b (by omega)] at hb; cases hb
      refine ⟨⟨hI', ?_, fun r hlt => vn r (by omega)⟩, hlow, ?_⟩
      · unfold Tile.leak
        rw [hh', attrs_of_none (vn _ (Nat.le_refl _))]; rfl
      · intro r r1 r2
        rw [hs, Bool.or_true, if_pos rfl]
        rw [attrs_of_some ((look_some hI'.sorted).mpr ⟨t.row, _, g0, rfl, r1, ?_, ?_⟩)]
        · rfl
        · show r < t.row + t.tag.repeated.getD 1
          omega
        · intro j j1 j2; exact g2 j j1
    · -- nothing
      have hs' : t.tag.styled = false := by simpa using hs
      have hsame : ∀ k, get? m' k = get? m k := by
        intro k
        rw [hg]; unfold hdrAfter
        rw [hh', hs']
        by_cases e : k = t.row
        · rw [if_pos e]; rfl
        · rw [if_neg e, if_neg (by rintro ⟨_, x, _⟩; cases x)]
      have hv : ∀ r, (swapAll m').valid r = (swapAll m).valid r := fun r =>
        look_congr hI.sorted hI'.sorted (fun k _ => hsame k)
      refine ⟨⟨hI', ?_, ?_⟩, hlow, ?_⟩
      · unfold Tile.leak
        rw [hh', attrs_of_none (by rw [hv]; exact hnone _ (by omega))]; rfl
      · intro r hlt; rw [hv]; exact hnone r (by omega)
      · intro r r1 r2
        rw [hh', hs']
        simp only [Bool.or_false, Bool.false_eq_true, if_false]
        by_cases e : r = t.row
        · rw [if_pos e, e, attrs_of_eq (hv t.row), hL]
        · rw [if_neg e, attrs_of_none (by rw [hv]; exact hnone r (by omega))]

theorem outcome_congr (o : ReadOpts) (cols : ColHeaders) (f f' : Nat → RowAttrs) (l : List Tile) :
    ∀ (L : RowAttrs) (a b : Nat), TileChain a l b → (∀ r, a ≤ r → f' r = f r) → RowOutcome o cols f L l →
      RowOutcome o cols f' L l := by
  induction l with
  | nil => intro _ _ _ _ _ _; trivial
  | cons t l ih =>
    intro L a b hc hf h
    obtain ⟨c1, c2, c3⟩ := hc
    refine ⟨?_, ih _ _ b c3 (fun r hr => hf r (by omega)) h.2⟩
    intro r r1 r2
    rw [hf r (by omega)]
    exact h.1 r r1 r2

theorem tiles_outcome (o : ReadOpts) (cols : ColHeaders) (l : List Tile) :
    ∀ (m m' : RowHeaders) (a b : Nat) (L : RowAttrs), Pending m a L → TileChain a l b →
    (∀ t ∈ l, t.tag.repeated.getD 1 = t.rep) → hdrTiles o cols m l = some m' →
    (∀ r, r < a → (swapAll m').attrs r = (swapAll m).attrs r) ∧ RowOutcome o cols (fun r => (swapAll m').attrs r) L l := by
  induction l with
  | nil =>
    intro m m' a b L hm hc _ h
    simp only [hdrTiles, Option.some.injEq] at h
    subst h
    exact ⟨fun _ _ => rfl, trivial⟩
  | cons t l ih =>
    intro m m' a b L hm hc htag h
    simp only [hdrTiles] at h
    split at h
    · rename_i m1 h1
      obtain ⟨c1, c2, c3⟩ := hc
      subst c1
      obtain ⟨p1, p2, p3⟩ := tile_outcome o cols m m1 t L hm (htag t (by simp)) c2 h1
      obtain ⟨i1, i2⟩ := ih m1 m' _ b _ p1 c3 (fun x hx => htag x (by simp [hx])) h
      refine ⟨fun r hr => by rw [i1 r (by omega), p2 r hr], ?_, i2⟩
      intro r r1 r2
      show (swapAll m').attrs r = _
      rw [i1 r (by omega), p3 r r1 r2]
    · cases h

/-- The tile before a tile. -/
theorem outcome_at (o : ReadOpts) (cols : ColHeaders) (f : Nat → RowAttrs) (l : List Tile) :
    ∀ (L : RowAttrs) (a b : Nat), TileChain a l b → RowOutcome o cols f L l → ∀ t ∈ l, ∃ L',
      (∀ r, t.row ≤ r → r < t.row + t.rep →
        f r = if t.has o cols || t.tag.styled then t.tag.attrs else if r = t.row then L' else {})
      ∧ ((t.row = a ∧ L' = L) ∨ ∃ p ∈ l, p.row + p.rep = t.row ∧ L' = p.leak o cols) := by
  induction l with
  | nil => intro _ _ _ _ _ t ht; cases ht
  | cons p l ih =>
    intro L a b hc h t ht
    obtain ⟨c1, c2, c3⟩ := hc
    rcases List.mem_cons.mp ht with e | e
    · subst e
      exact ⟨L, h.1, Or.inl ⟨c1, rfl⟩⟩
    · obtain ⟨L', k1, k2⟩ := ih _ _ b c3 h.2 t e
      refine ⟨L', k1, Or.inr ?_⟩
      rcases k2 with ⟨k2, k3⟩ | ⟨q, hq, k2, k3⟩
      · exact ⟨p, by simp, by omega, k3⟩
      · exact ⟨q, by simp [hq], k2, k3⟩

end Verif
