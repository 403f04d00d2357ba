import Verif.Grid.Tiles

/-!
# Expanding the repeats after reading

What `calcCloned` makes of the cells, as a lookup.
-/

set_option autoImplicit false

namespace Verif

open OMap

/-! ### Inserting a list -/

theorem insertAll_sorted (l : List ((Nat × Nat) × CellData)) (m : Cells) (hm : Sorted m) :
    Sorted (insertAll m l) := by
  unfold insertAll
  induction l generalizing m with
  | nil => exact hm
  | cons p l ih => exact ih _ (hm.insert p.1 p.2)

theorem insertAll_get? (l : List ((Nat × Nat) × CellData)) (m : Cells)
    (hc : ∀ p ∈ l, ∀ q ∈ l, p.1 = q.1 → p.2 = q.2) (k : Nat × Nat) (v : CellData) :
    get? (insertAll m l) k = some v
      ↔ (k, v) ∈ l ∨ ((∀ p ∈ l, p.1 ≠ k) ∧ get? m k = some v) := by
  induction l generalizing m with
  | nil => simp [insertAll]
  | cons p l ih =>
    have : insertAll m (p :: l) = insertAll (OMap.insert m p.1 p.2) l := rfl
    rw [this, ih _ (fun a ha b hb => hc a (by simp [ha]) b (by simp [hb])), OMap.get?_insert]
    constructor
    · rintro (h | ⟨h1, h2⟩)
      · exact Or.inl (by simp [h])
      · by_cases e : k = p.1
        · rw [if_pos e] at h2
          simp only [Option.some.injEq] at h2
          left
          rw [e, ← h2]
          simp
        · rw [if_neg e] at h2
          right
          refine ⟨?_, h2⟩
          intro q hq
          rcases List.mem_cons.mp hq with x | x
          · subst x; exact fun e' => e e'.symm
          · exact h1 q x
    · rintro (h | ⟨h1, h2⟩)
      · rcases List.mem_cons.mp h with x | x
        · by_cases hl : (k, v) ∈ l
          · exact Or.inl hl
          · right
            refine ⟨?_, ?_⟩
            · intro q hq e
              apply hl
              have h2 : q.2 = v := hc q (by simp [hq]) (k, v) h e
              rw [← e, ← h2]
              exact hq
            · rw [← x, if_pos rfl]
        · exact Or.inl x
      · right
        refine ⟨fun q hq => h1 q (by simp [hq]), ?_⟩
        rw [if_neg]
        · exact h2
        · intro e
          exact h1 p (by simp) e.symm

/-! ### Rows -/

/-- Repeat of a row in a header map. -/
def hdrRep (m : RowHeaders) (row : Nat) : Nat :=
  match m.get? row with
  | some h => h.repeat
  | none => 1

theorem mem_rowClones (m : RowHeaders) (hm : Sorted m) (data : Cells) (r c : Nat) (v : CellData) :
    ((r, c), v) ∈ rowClones m data
      ↔ ∃ r0, ((r0, c), v) ∈ data ∧ r0 < r ∧ r < r0 + hdrRep m r0 := by
  unfold rowClones
  simp only [List.mem_flatMap, List.mem_filter, List.mem_map, List.mem_range'_1, decide_eq_true_eq,
    Prod.mk.injEq]
  constructor
  · rintro ⟨⟨b, h⟩, ⟨hp, _⟩, ⟨⟨qr, qc⟩, qd⟩, ⟨hq, hqr⟩, i, hi, ⟨e1, e2⟩, e3⟩
    simp only at *
    subst hqr; subst e3; subst e2
    refine ⟨qr, hq, by omega, ?_⟩
    unfold hdrRep
    rw [(get?_eq_some_iff hm).mpr hp]
    simp only
    omega
  · rintro ⟨r0, hd, h1, h2⟩
    unfold hdrRep at h2
    cases hg : OMap.get? m r0 with
    | none => rw [hg] at h2; simp only at h2; omega
    | some h =>
      rw [hg] at h2
      simp only at h2
      refine ⟨(r0, h), ⟨mem_of_get?_eq_some hg, by simp only; omega⟩, ((r0, c), v), ⟨hd, rfl⟩,
        r - r0, by simp only; omega, ⟨by simp only; omega, rfl⟩, rfl⟩

/-- No data row lies in the repeat of another one. -/
def RepDisj (m : RowHeaders) (data : Cells) : Prop :=
  ∀ p ∈ data, ∀ q ∈ data, p.1.1 < q.1.1 → p.1.1 + hdrRep m p.1.1 ≤ q.1.1

theorem rowClones_get? (m : RowHeaders) (hm : Sorted m) (data : Cells) (hd : Sorted data)
    (hdis : RepDisj m data) (r c : Nat) (v : CellData) :
    get? (insertAll data (rowClones m data)) (r, c) = some v
      ↔ ∃ r0, get? data (r0, c) = some v ∧ r0 ≤ r ∧ (r = r0 ∨ r < r0 + hdrRep m r0) := by
  rw [insertAll_get?]
  · rw [mem_rowClones m hm]
    constructor
    · rintro (⟨r0, h1, h2, h3⟩ | ⟨_, h⟩)
      · exact ⟨r0, (get?_eq_some_iff hd).mpr h1, by omega, Or.inr h3⟩
      · exact ⟨r, h, Nat.le_refl r, Or.inl rfl⟩
    · rintro ⟨r0, h1, h2, h3⟩
      by_cases e : r = r0
      · subst e
        right
        refine ⟨?_, h1⟩
        rintro ⟨⟨r', c'⟩, v'⟩ hq e
        simp only [Prod.mk.injEq] at e
        obtain ⟨e1, e2⟩ := e
        subst e1; subst e2
        obtain ⟨r0, q1, q2, q3⟩ := (mem_rowClones m hm data _ _ _).mp hq
        have := hdis _ q1 _ (mem_of_get?_eq_some h1) q2
        simp only at this
        omega
      · left
        exact ⟨r0, mem_of_get?_eq_some h1, by omega, by omega⟩
  · rintro ⟨⟨r1, c1⟩, v1⟩ h1 ⟨⟨r2, c2⟩, v2⟩ h2 e
    simp only [Prod.mk.injEq] at e
    obtain ⟨e1, e2⟩ := e
    subst e1; subst e2
    obtain ⟨a, a1, a2, a3⟩ := (mem_rowClones m hm data _ _ _).mp h1
    obtain ⟨b, b1, b2, b3⟩ := (mem_rowClones m hm data _ _ _).mp h2
    have : a = b := by
      rcases Nat.lt_trichotomy a b with h | h | h
      · have := hdis _ a1 _ b1 h; simp only at this; omega
      · exact h
      · have := hdis _ b1 _ a1 h; simp only at this; omega
    subst this
    have := (get?_eq_some_iff hd).mpr a1
    rw [(get?_eq_some_iff hd).mpr b1] at this
    simp only [Option.some.injEq] at this
    exact this.symm

/-! ### Cells -/

/-- A repeated cell without content that is the last of its row. -/
def Droppable (data : Cells) (r c : Nat) (d : CellData) : Prop :=
  1 < d.repeat ∧ d.isEmpty = true ∧ ∀ q ∈ data, q.1.1 = r → q.1.2 ≤ c

theorem lastInRow_iff (r c : Nat) (d : CellData) (rest : Cells) (hs : Sorted (((r, c), d) :: rest)) :
    lastInRow r rest = true ↔ ∀ q ∈ ((r, c), d) :: rest, q.1.1 = r → q.1.2 ≤ c := by
  cases rest with
  | nil => simp [lastInRow]
  | cons p rest =>
    obtain ⟨⟨r', c'⟩, d'⟩ := p
    have h1 := hs.head_lt ((r', c'), d') (by simp)
    rw [Key.lt_pair] at h1
    simp only at h1
    unfold lastInRow
    simp only [decide_eq_true_eq]
    constructor
    · intro hne q hq e
      rcases List.mem_cons.mp hq with x | x
      · rw [x]; simp
      rcases List.mem_cons.mp x with x | x
      · rw [x] at e; exact absurd e.symm hne
      · have h2 := hs.tail.head_lt q x
        rw [Key.lt_pair] at h2
        simp only at h2
        omega
    · intro h e
      have := h ((r', c'), d') (by simp) e.symm
      simp only at this
      omega

theorem mem_droppedCells (data : Cells) (hs : Sorted data) (r c : Nat) :
    (r, c) ∈ droppedCells data ↔ ∃ d, ((r, c), d) ∈ data ∧ Droppable data r c d := by
  suffices h : ∀ (pre l : Cells), Sorted (pre ++ l) →
      ((r, c) ∈ droppedCells l ↔ ∃ d, ((r, c), d) ∈ l ∧ Droppable (pre ++ l) r c d) from
    h [] data hs
  intro pre l
  induction l generalizing pre with
  | nil => intro _; simp [droppedCells]
  | cons p rest ih =>
    obtain ⟨⟨pr, pc⟩, pd⟩ := p
    intro hsl
    have hi := ih (pre ++ [((pr, pc), pd)]) (by simpa using hsl)
    simp only [List.append_assoc, List.cons_append, List.nil_append] at hi
    have hsuf : Sorted (((pr, pc), pd) :: rest) := (List.pairwise_append.mp hsl).2.1
    have hpre : ∀ q ∈ pre, q.1.1 < pr ∨ (q.1.1 = pr ∧ q.1.2 < pc) := by
      intro q hq
      have := (List.pairwise_append.mp hsl).2.2 q hq ((pr, pc), pd) (by simp)
      rwa [Key.lt_pair] at this
    have hdrop : (1 < pd.repeat ∧ lastInRow pr rest = true ∧ pd.isEmpty = true)
        ↔ Droppable (pre ++ ((pr, pc), pd) :: rest) pr pc pd := by
      rw [lastInRow_iff pr pc pd rest hsuf]
      unfold Droppable
      constructor
      · rintro ⟨a, b, e⟩
        refine ⟨a, e, ?_⟩
        intro q hq e
        rcases List.mem_append.mp hq with x | x
        · have := hpre q x; omega
        · exact b q x e
      · rintro ⟨a, e, b⟩
        exact ⟨a, fun q hq e => b q (List.mem_append_right _ hq) e, e⟩
    have hne : ∀ d, ((r, c), d) ∈ rest → ¬ (r = pr ∧ c = pc) := by
      rintro d hd ⟨rfl, rfl⟩
      have := hsuf.head_lt _ hd
      simp [Key.lt_irrefl] at this
    simp only [droppedCells]
    by_cases hd : 1 < pd.repeat ∧ lastInRow pr rest = true ∧ pd.isEmpty = true
    · rw [if_pos hd]
      simp only [List.mem_cons, Prod.mk.injEq, hi]
      constructor
      · rintro (⟨rfl, rfl⟩ | ⟨d, h1, h2⟩)
        · exact ⟨pd, Or.inl ⟨⟨rfl, rfl⟩, rfl⟩, hdrop.mp hd⟩
        · exact ⟨d, Or.inr h1, h2⟩
      · rintro ⟨d, (⟨⟨rfl, rfl⟩, rfl⟩ | h1), h2⟩
        · exact Or.inl ⟨rfl, rfl⟩
        · exact Or.inr ⟨d, h1, h2⟩
    · rw [if_neg hd]
      simp only [List.mem_cons, Prod.mk.injEq, hi]
      constructor
      · rintro ⟨d, h1, h2⟩; exact ⟨d, Or.inr h1, h2⟩
      · rintro ⟨d, (⟨⟨rfl, rfl⟩, rfl⟩ | h1), h2⟩
        · exact absurd (hdrop.mpr h2) hd
        · exact ⟨d, h1, h2⟩

theorem mem_cellClones (data : Cells) (hs : Sorted data) (r c : Nat) (v : CellData) :
    ((r, c), v) ∈ cellClones data
      ↔ ∃ c0 d, ((r, c0), d) ∈ data ∧ c0 < c ∧ c < c0 + d.repeat ∧ ¬ Droppable data r c0 d
          ∧ v = { d with «repeat» := 1 } := by
  suffices h : ∀ (pre l : Cells), Sorted (pre ++ l) →
      (((r, c), v) ∈ cellClones l
      ↔ ∃ c0 d, ((r, c0), d) ∈ l ∧ c0 < c ∧ c < c0 + d.repeat ∧ ¬ Droppable (pre ++ l) r c0 d
          ∧ v = { d with «repeat» := 1 }) from
    h [] data hs
  intro pre l
  induction l generalizing pre with
  | nil => intro _; simp [cellClones]
  | cons p rest ih =>
    obtain ⟨⟨pr, pc⟩, pd⟩ := p
    intro hsl
    have hi := ih (pre ++ [((pr, pc), pd)]) (by simpa using hsl)
    simp only [List.append_assoc, List.cons_append, List.nil_append] at hi
    have hsuf : Sorted (((pr, pc), pd) :: rest) := (List.pairwise_append.mp hsl).2.1
    have hpre : ∀ q ∈ pre, q.1.1 < pr ∨ (q.1.1 = pr ∧ q.1.2 < pc) := by
      intro q hq
      have := (List.pairwise_append.mp hsl).2.2 q hq ((pr, pc), pd) (by simp)
      rwa [Key.lt_pair] at this
    have hdrop : (1 < pd.repeat ∧ lastInRow pr rest = true ∧ pd.isEmpty = true)
        ↔ Droppable (pre ++ ((pr, pc), pd) :: rest) pr pc pd := by
      rw [lastInRow_iff pr pc pd rest hsuf]
      unfold Droppable
      constructor
      · rintro ⟨a, b, e⟩
        refine ⟨a, e, ?_⟩
        intro q hq e
        rcases List.mem_append.mp hq with x | x
        · have := hpre q x; omega
        · exact b q x e
      · rintro ⟨a, e, b⟩
        exact ⟨a, fun q hq e => b q (List.mem_append_right _ hq) e, e⟩
    have hskip : (1 < pd.repeat → Droppable (pre ++ ((pr, pc), pd) :: rest) pr pc pd) →
        ((∃ c0 d, ((r, c0), d) ∈ rest ∧ c0 < c ∧ c < c0 + d.repeat
            ∧ ¬ Droppable (pre ++ ((pr, pc), pd) :: rest) r c0 d ∧ v = { d with «repeat» := 1 })
          ↔ ∃ c0 d, ((r, c0), d) ∈ ((pr, pc), pd) :: rest ∧ c0 < c ∧ c < c0 + d.repeat
            ∧ ¬ Droppable (pre ++ ((pr, pc), pd) :: rest) r c0 d ∧ v = { d with «repeat» := 1 }) := by
      intro hz
      constructor
      · rintro ⟨c0, d, h1, h2⟩; exact ⟨c0, d, by simp [h1], h2⟩
      · rintro ⟨c0, d, h1, h2, h3, h4, h5⟩
        rcases List.mem_cons.mp h1 with x | x
        · simp only [Prod.mk.injEq] at x
          obtain ⟨⟨rfl, rfl⟩, rfl⟩ := x
          exact absurd (hz (by omega)) h4
        · exact ⟨c0, d, x, h2, h3, h4, h5⟩
    simp only [cellClones]
    by_cases h1 : 1 < pd.repeat
    · rw [if_pos h1]
      by_cases h2 : lastInRow pr rest = true ∧ pd.isEmpty = true
      · rw [if_pos h2, hi]
        exact hskip (fun _ => hdrop.mp ⟨h1, h2.1, h2.2⟩)
      · rw [if_neg h2, List.mem_append, hi]
        have hnd : ¬ Droppable (pre ++ ((pr, pc), pd) :: rest) pr pc pd := by
          intro h; have := hdrop.mpr h; exact h2 ⟨this.2.1, this.2.2⟩
        simp only [List.mem_map, List.mem_range'_1, Prod.mk.injEq]
        constructor
        · rintro (⟨i, hi', ⟨rfl, rfl⟩, rfl⟩ | ⟨c0, d, h3, h4⟩)
          · have b1 : pc < pc + i := by clear hi; omega
            have b2 : pc + i < pc + pd.repeat := by clear hi; omega
            exact ⟨pc, pd, by simp, b1, b2, hnd, rfl⟩
          · exact ⟨c0, d, by simp [h3], h4⟩
        · rintro ⟨c0, d, h3, h4, h5, h6, h7⟩
          rcases List.mem_cons.mp h3 with x | x
          · simp only [Prod.mk.injEq] at x
            obtain ⟨⟨rfl, rfl⟩, rfl⟩ := x
            left
            exact ⟨c - c0, by omega, ⟨rfl, by omega⟩, h7.symm⟩
          · exact Or.inr ⟨c0, d, x, h4, h5, h6, h7⟩
    · rw [if_neg h1, hi]
      exact hskip (fun h => absurd h h1)

/-- No cell lies in the repeat of another one of its row. -/
def CellDisj (data : Cells) : Prop :=
  ∀ p ∈ data, ∀ q ∈ data, p.1.1 = q.1.1 → p.1.2 < q.1.2 → p.1.2 + p.2.repeat ≤ q.1.2

theorem eraseAll_get? (l : List (Nat × Nat)) (m : Cells) (hm : Sorted m) (k : Nat × Nat) :
    get? (l.foldl (fun (m : Cells) k => OMap.erase m k) m) k
      = if k ∈ l then none else get? m k := by
  induction l generalizing m with
  | nil => simp
  | cons a l ih =>
    simp only [List.foldl_cons]
    rw [ih _ (hm.erase a), OMap.get?_erase hm]
    by_cases h : k ∈ l
    · simp [h]
    · by_cases e : k = a
      · simp [e]
      · simp [h, e]

theorem eraseAll_sorted (l : List (Nat × Nat)) (m : Cells) (hm : Sorted m) :
    Sorted (l.foldl (fun (m : Cells) k => OMap.erase m k) m) := by
  induction l generalizing m with
  | nil => exact hm
  | cons a l ih => exact ih _ (hm.erase a)

theorem map_get? (f : CellData → CellData) (m : Cells) (k : Nat × Nat) :
    get? (m.map (fun p => (p.1, f p.2))) k = (get? m k).map f := by
  induction m with
  | nil => rfl
  | cons p m ih =>
    simp only [List.map_cons, get?_cons]
    split
    · rfl
    · exact ih

theorem map_sorted (f : CellData → CellData) (m : Cells) (hm : Sorted m) :
    Sorted (m.map (fun p => (p.1, f p.2))) := by
  unfold Sorted at *
  rw [List.pairwise_map]
  exact hm

theorem unrepeat_eq (d : CellData) (h : 1 ≤ d.repeat) : unrepeat d = { d with «repeat» := 1 } := by
  unfold unrepeat
  split
  · rfl
  · have : d.repeat = 1 := by omega
    cases d
    simp only at this
    subst this
    rfl

/-- The second half of `calcCloned`. -/
theorem cellClones_get? (data : Cells) (hs : Sorted data) (hdis : CellDisj data)
    (hrep : ∀ q ∈ data, 1 ≤ q.2.repeat) (r c : Nat) (v : CellData) :
    get? (insertAll ((droppedCells data).foldl (fun (m : Cells) k => OMap.erase m k)
        (data.map (fun p => (p.1, unrepeat p.2)))) (cellClones data)) (r, c) = some v
      ↔ ∃ c0 d, get? data (r, c0) = some d ∧ c0 ≤ c ∧ c < c0 + d.repeat
          ∧ ¬ Droppable data r c0 d ∧ v = { d with «repeat» := 1 } := by
  rw [insertAll_get?]
  · rw [mem_cellClones data hs, eraseAll_get? _ _ (map_sorted unrepeat data hs), map_get?]
    constructor
    · rintro (⟨c0, d, h1, h2, h3, h4, h5⟩ | ⟨h1, h2⟩)
      · exact ⟨c0, d, (get?_eq_some_iff hs).mpr h1, by omega, h3, h4, h5⟩
      · split at h2
        · simp at h2
        rename_i hnd
        rw [Option.map_eq_some_iff] at h2
        obtain ⟨d, hd, he⟩ := h2
        have hm := mem_of_get?_eq_some hd
        have hr := hrep _ hm
        simp only at hr
        refine ⟨c, d, hd, Nat.le_refl c, by omega, ?_, ?_⟩
        · intro hdr
          exact hnd ((mem_droppedCells data hs r c).mpr ⟨d, hm, hdr⟩)
        · rw [← he, unrepeat_eq d hr]
    · rintro ⟨c0, d, h1, h2, h3, h4, h5⟩
      by_cases e : c = c0
      · subst e
        right
        refine ⟨?_, ?_⟩
        · rintro ⟨⟨r', c'⟩, v'⟩ hq e
          simp only [Prod.mk.injEq] at e
          obtain ⟨rfl, rfl⟩ := e
          obtain ⟨c1, d1, q1, q2, q3, _, _⟩ := (mem_cellClones data hs _ _ _).mp hq
          have := hdis _ q1 _ (mem_of_get?_eq_some h1) rfl q2
          simp only at this
          omega
        · rw [if_neg, h1]
          · have hr := hrep _ (mem_of_get?_eq_some h1)
            simp only [Option.map_some, Option.some.injEq]
            rw [h5]
            exact unrepeat_eq d hr
          · intro hin
            obtain ⟨d', q1, q2⟩ := (mem_droppedCells data hs r c).mp hin
            rw [(get?_eq_some_iff hs).mpr q1] at h1
            simp only [Option.some.injEq] at h1
            subst h1
            exact h4 q2
      · left
        exact ⟨c0, d, mem_of_get?_eq_some h1, by omega, h3, h4, h5⟩
  · rintro ⟨⟨r1, c1⟩, v1⟩ h1 ⟨⟨r2, c2⟩, v2⟩ h2 e
    simp only [Prod.mk.injEq] at e
    obtain ⟨rfl, rfl⟩ := e
    obtain ⟨a, d, a1, a2, a3, _, a5⟩ := (mem_cellClones data hs _ _ _).mp h1
    obtain ⟨b, d', b1, b2, b3, _, b5⟩ := (mem_cellClones data hs _ _ _).mp h2
    have : a = b := by
      rcases Nat.lt_trichotomy a b with h | h | h
      · have := hdis _ a1 _ b1 rfl h; simp only at this; omega
      · exact h
      · have := hdis _ b1 _ a1 rfl h; simp only at this; omega
    subst this
    rw [get?_eq_some_iff hs |>.mpr a1 |>.symm.trans (get?_eq_some_iff hs |>.mpr b1)
      |> Option.some.inj] at a5
    simp only
    rw [a5, b5]

end Verif
