import Verif.Header.Lemmas

/-! Lemmas about splitting column headers at borders and merging them again. -/

set_option autoImplicit false

namespace Verif

open OMap

namespace ColHeaders

/-- `splitLoop` without the accumulator. -/
def pieces (isSplit : Nat → Bool) (col : Nat) (h : ColHeader) (cc : Nat) :
    Nat → List (Nat × ColHeader)
  | 0 => [(col, h)]
  | n + 1 =>
    if isSplit cc then
      (if 0 < cc - col then [(col, { h with span := cc - col })] else [])
        ++ pieces isSplit cc { h with span := h.span - (cc - col) } (cc + 1) n
    else pieces isSplit col h (cc + 1) n

/-- The headers cover the columns from `a` to `b` without gap. -/
def Tiles (l : List (Nat × ColHeader)) (a b : Nat) : Prop :=
  match l with
  | [] => a = b
  | p :: l => p.1 = a ∧ 1 ≤ p.2.span ∧ Tiles l (a + p.2.span) b

theorem Tiles.mem {l : List (Nat × ColHeader)} {a b : Nat} (h : Tiles l a b) :
    a ≤ b ∧ ∀ p ∈ l, a ≤ p.1 ∧ 1 ≤ p.2.span ∧ p.1 + p.2.span ≤ b := by
  induction l generalizing a with
  | nil => exact ⟨Nat.le_of_eq h, by simp⟩
  | cons p l ih =>
    obtain ⟨h1, h2, h3⟩ := h
    obtain ⟨i1, i2⟩ := ih h3
    refine ⟨by omega, ?_⟩
    intro q hq
    rcases List.mem_cons.mp hq with e | e
    · subst e; omega
    · have := i2 q e; omega

theorem pieces_spec (isSplit : Nat → Bool) (col : Nat) (h : ColHeader) (cc n : Nat)
    (h1 : col ≤ cc) (h2 : cc + n = col + h.span) (h3 : 1 ≤ h.span)
    (h4 : ∀ c, col < c → c < cc → isSplit c = false) :
    Tiles (pieces isSplit col h cc n) col (col + h.span)
    ∧ (∀ p ∈ pieces isSplit col h cc n, p.2.obs = h.obs)
    ∧ (∀ p ∈ pieces isSplit col h cc n, ∀ c, isSplit c = true → ¬ (p.1 < c ∧ c < p.1 + p.2.span)) := by
  induction n generalizing col h cc with
  | zero =>
    refine ⟨⟨rfl, h3, rfl⟩, by simp [pieces], ?_⟩
    intro p hp c hc
    simp only [pieces, List.mem_singleton] at hp
    subst hp
    rintro ⟨a, b⟩
    simp only at a b
    have := h4 c a (by omega)
    rw [this] at hc; simp at hc
  | succ n ih =>
    unfold pieces
    split
    · rename_i hsp
      by_cases hz : 0 < cc - col
      · rw [if_pos hz]
        obtain ⟨i1, i2, i3⟩ := ih cc { h with span := h.span - (cc - col) } (cc + 1) (by omega)
          (by simp only; omega) (by simp only; omega) (by intro c _ _; omega)
        refine ⟨⟨rfl, by simp only; omega, ?_⟩, ?_, ?_⟩
        · simp only at i1 ⊢
          rw [show cc + (h.span - (cc - col)) = col + h.span by omega] at i1
          rw [show col + (cc - col) = cc by omega]
          exact i1
        · intro p hp
          rcases List.mem_append.mp hp with e | e
          · simp only [List.mem_singleton] at e; rw [e]; rfl
          · rw [i2 p e]; rfl
        · intro p hp c hc
          rcases List.mem_append.mp hp with e | e
          · simp only [List.mem_singleton] at e
            subst e
            rintro ⟨a, b⟩
            simp only at a b
            have := h4 c a (by omega)
            rw [this] at hc; simp at hc
          · exact i3 p e c hc
      · rw [if_neg hz]
        have hcc : cc = col := by omega
        subst hcc
        obtain ⟨i1, i2, i3⟩ := ih cc { h with span := h.span - (cc - cc) } (cc + 1) (by omega)
          (by simp only; omega) (by simp only; omega) (by intro c _ _; omega)
        simp only [List.nil_append]
        refine ⟨?_, i2, i3⟩
        simp only [Nat.sub_self, Nat.sub_zero] at i1 ⊢
        exact i1
    · rename_i hsp
      exact ih col h (cc + 1) (by omega) (by omega) h3 (by
        intro c c1 c2
        by_cases e : c = cc
        · subst e; simpa using hsp
        · exact h4 c c1 (by omega))

theorem splitLoop_eq (isSplit : Nat → Bool) (col : Nat) (h : ColHeader) (cc n : Nat)
    (acc : ColHeaders) (hacc : ∀ q ∈ acc, q.1 < col) (h1 : col ≤ cc) :
    splitLoop isSplit col h cc n acc = acc ++ pieces isSplit col h cc n := by
  induction n generalizing col h cc acc with
  | zero => exact insert_last hacc
  | succ n ih =>
    unfold splitLoop pieces
    split
    · simp only
      by_cases hz : 0 < cc - col
      · rw [if_pos hz, if_pos hz, insert_last hacc, ih]
        · simp
        · intro q hq
          rcases List.mem_append.mp hq with e | e
          · have := hacc q e; omega
          · simp only [List.mem_singleton] at e; rw [e]; simp only; omega
        · omega
      · have : cc = col := by omega
        subst this
        rw [if_neg hz, if_neg hz, ih]
        · simp
        · exact hacc
        · omega
    · exact ih col h (cc + 1) acc hacc (by omega)

/-- The pieces of one header. -/
def piecesOf (isSplit : Nat → Bool) (p : Nat × ColHeader) : List (Nat × ColHeader) :=
  pieces isSplit p.1 p.2 p.1 p.2.span

theorem piecesOf_spec (isSplit : Nat → Bool) (p : Nat × ColHeader) (hp : 1 ≤ p.2.span) :
    Tiles (piecesOf isSplit p) p.1 (p.1 + p.2.span)
    ∧ (∀ q ∈ piecesOf isSplit p, q.2.obs = p.2.obs)
    ∧ (∀ q ∈ piecesOf isSplit p, ∀ c, isSplit c = true → ¬ (q.1 < c ∧ c < q.1 + q.2.span)) :=
  pieces_spec isSplit p.1 p.2 p.1 p.2.span (Nat.le_refl _) rfl hp (by intro c _ _; omega)

theorem WF.tail {p : Nat × ColHeader} {m : ColHeaders} (h : WF (p :: m)) : WF m :=
  ⟨h.1.tail, fun q hq => h.2.1 q (by simp [hq]), (List.pairwise_cons.mp h.2.2).2⟩

theorem WF.head {p : Nat × ColHeader} {m : ColHeaders} (h : WF (p :: m)) :
    1 ≤ p.2.span ∧ ∀ q ∈ m, p.1 + p.2.span ≤ q.1 :=
  ⟨h.2.1 p (by simp), (List.pairwise_cons.mp h.2.2).1⟩

theorem WF.cons {p : Nat × ColHeader} {m : ColHeaders} (h : WF m) (h1 : 1 ≤ p.2.span)
    (h2 : ∀ q ∈ m, p.1 + p.2.span ≤ q.1) : WF (p :: m) := by
  refine ⟨List.pairwise_cons.mpr ⟨fun q hq => ?_, h.1⟩, ?_, List.pairwise_cons.mpr ⟨h2, h.2.2⟩⟩
  · have := h2 q hq; simp; omega
  · intro q hq
    rcases List.mem_cons.mp hq with e | e
    · rw [e]; exact h1
    · exact h.2.1 q e

theorem WF.nil : WF [] := ⟨List.Pairwise.nil, by simp, List.Pairwise.nil⟩

theorem foldl_split (isSplit : Nat → Bool) (m : ColHeaders) (acc : ColHeaders) (hm : WF m)
    (hacc : ∀ q ∈ acc, ∀ p ∈ m, q.1 < p.1) :
    m.foldl (fun acc p => splitLoop isSplit p.1 p.2 p.1 p.2.span acc) acc
      = acc ++ m.flatMap (piecesOf isSplit) := by
  induction m generalizing acc with
  | nil => simp
  | cons p m ih =>
    obtain ⟨hp1, hp2⟩ := hm.head
    rw [List.foldl_cons, splitLoop_eq _ _ _ _ _ _ (fun q hq => hacc q hq p (by simp)) (Nat.le_refl _)]
    rw [ih _ hm.tail]
    · simp [piecesOf]
    · intro q hq r hr
      rcases List.mem_append.mp hq with e | e
      · exact hacc q e r (by simp [hr])
      · have h1 := (piecesOf_spec isSplit p hp1).1.mem.2 q e
        have h2 := hp2 r hr
        omega

theorem splitAt_eq (isSplit : Nat → Bool) (m : ColHeaders) (hm : WF m) :
    m.splitAt isSplit = m.flatMap (piecesOf isSplit) := by
  have := foldl_split isSplit m [] hm (by simp)
  simpa [splitAt] using this

theorem WF.append_tiles {l m : List (Nat × ColHeader)} {a b : Nat} (ht : Tiles l a b)
    (hm : WF m) (hb : ∀ q ∈ m, b ≤ q.1) : WF (l ++ m) := by
  induction l generalizing a with
  | nil => exact hm
  | cons p l ih =>
    obtain ⟨h1, h2, h3⟩ := ht
    apply WF.cons (ih h3) h2
    intro q hq
    rcases List.mem_append.mp hq with e | e
    · have := h3.mem.2 q e; omega
    · have := hb q e; have := h3.mem.1; omega

theorem flatMap_key_ge (isSplit : Nat → Bool) (m : ColHeaders) (hm : WF m) (b : Nat)
    (hb : ∀ q ∈ m, b ≤ q.1) : ∀ q ∈ m.flatMap (piecesOf isSplit), b ≤ q.1 := by
  intro q hq
  obtain ⟨p, hp, hq⟩ := List.mem_flatMap.mp hq
  have h1 := (piecesOf_spec isSplit p (hm.2.1 p hp)).1.mem.2 q hq
  have h2 := hb p hp
  omega

theorem splitAt_wf (isSplit : Nat → Bool) (m : ColHeaders) (hm : WF m) :
    WF (m.splitAt isSplit) := by
  rw [splitAt_eq _ _ hm]
  induction m with
  | nil => exact WF.nil
  | cons p m ih =>
    rw [List.flatMap_cons]
    exact WF.append_tiles (piecesOf_spec isSplit p hm.head.1).1 (ih hm.tail)
      (flatMap_key_ge _ _ hm.tail _ hm.head.2)

theorem splitAt_uncrossed (isSplit : Nat → Bool) (m : ColHeaders) (hm : WF m) :
    Uncrossed (m.splitAt isSplit) isSplit := by
  rw [splitAt_eq _ _ hm]
  intro q hq
  obtain ⟨p, hp, hq⟩ := List.mem_flatMap.mp hq
  exact (piecesOf_spec isSplit p (hm.2.1 p hp)).2.2 q hq

theorem valid_tiles {l : List (Nat × ColHeader)} {a b : Nat} (ht : Tiles l a b) {o : ColObs}
    (ho : ∀ p ∈ l, p.2.obs = o) (j : Nat) :
    (ColHeaders.valid l j).map ColHeader.obs = (if a ≤ j ∧ j < b then some o else none)
    ∧ (a < b → (lastLe l j = none ↔ j < a)) := by
  induction l generalizing a with
  | nil =>
    have : a = b := ht
    subst this
    refine ⟨?_, fun h => by omega⟩
    rw [if_neg (by omega)]; rfl
  | cons p l ih =>
    obtain ⟨h1, h2, h3⟩ := ht
    obtain ⟨i1, i2⟩ := ih h3 (fun q hq => ho q (by simp [hq]))
    have hab := h3.mem.1
    have hop := ho p (by simp)
    rw [valid_eq, lastLe_cons]
    rw [valid_eq] at i1
    cases hl : lastLe l j with
    | some q =>
      rw [hl] at i1
      simp only at i1 ⊢
      have hjge : a + p.2.span ≤ j := by
        have hmem : q ∈ l ∧ q.1 ≤ j := by
          unfold lastLe at hl
          have := List.mem_filter.mp (List.mem_of_getLast? hl)
          simpa using this
        have := h3.mem.2 q hmem.1
        omega
      refine ⟨?_, fun _ => by simp; omega⟩
      rw [i1]
      by_cases c : j < b
      · rw [if_pos (by omega), if_pos (by omega)]
      · rw [if_neg (by omega), if_neg (by omega)]
    | none =>
      rw [hl] at i1
      simp only
      by_cases c1 : p.1 ≤ j
      · rw [if_pos c1]
        refine ⟨?_, fun _ => by simp; omega⟩
        simp only
        by_cases c2 : j < p.1 + p.2.span
        · rw [if_pos ⟨c1, c2⟩, if_pos (by omega)]
          simp [hop]
        · rw [if_neg (by omega)]
          simp only [Option.map_none] at i1 ⊢
          by_cases c3 : j < b
          · rw [if_pos (by omega)] at i1; simp at i1
          · rw [if_neg (by omega)]
      · rw [if_neg c1]
        refine ⟨?_, fun _ => by simp; omega⟩
        rw [if_neg (by omega)]; rfl

theorem splitAt_validObs (isSplit : Nat → Bool) (m : ColHeaders) (hm : WF m) (j : Nat) :
    ((m.splitAt isSplit).valid j).map ColHeader.obs = (m.valid j).map ColHeader.obs := by
  rw [splitAt_eq _ _ hm]
  suffices h : ((valid (m.flatMap (piecesOf isSplit)) j).map ColHeader.obs
      = (valid m j).map ColHeader.obs)
      ∧ (lastLe (m.flatMap (piecesOf isSplit)) j = none ↔ lastLe m j = none) from h.1
  induction m with
  | nil => exact ⟨rfl, Iff.rfl⟩
  | cons p m ih =>
    obtain ⟨i1, i2⟩ := ih hm.tail
    obtain ⟨t1, t2, _⟩ := piecesOf_spec isSplit p hm.head.1
    obtain ⟨v1, v2⟩ := valid_tiles t1 t2 j
    have v2 := v2 (by have := hm.head.1; omega)
    rw [List.flatMap_cons, valid_eq, valid_eq (p :: m), lastLe_append, lastLe_cons]
    rw [valid_eq, valid_eq m] at i1
    rw [valid_eq] at v1
    cases hl : lastLe m j with
    | some q =>
      cases hl' : lastLe (m.flatMap (piecesOf isSplit)) j with
      | none => rw [i2.mp hl'] at hl; simp at hl
      | some q' =>
        rw [hl, hl'] at i1
        exact ⟨i1, by simp⟩
    | none =>
      rw [i2.mpr hl]
      simp only
      refine ⟨?_, ?_⟩
      · rw [v1]
        by_cases c1 : p.1 ≤ j
        · rw [if_pos c1]
          simp only
          by_cases c2 : j < p.1 + p.2.span
          · rw [if_pos ⟨c1, c2⟩, if_pos ⟨c1, c2⟩]; rfl
          · rw [if_neg (by omega), if_neg (by omega)]; rfl
        · rw [if_neg c1, if_neg (by omega)]; rfl
      · rw [v2]
        by_cases c1 : p.1 ≤ j
        · rw [if_pos c1]; simp; omega
        · rw [if_neg c1]; simp; omega

theorem splitAt_obs (isSplit : Nat → Bool) (m : ColHeaders) (hm : WF m) (j : Nat) :
    (m.splitAt isSplit).observe j = m.observe j := by
  rw [observe_eq, observe_eq, splitAt_validObs _ _ hm]

/-! ### Merging undoes splitting -/

/-- Neighbouring headers differ. -/
def Deduped : List (Nat × ColHeader) → Prop
  | p :: q :: m => p.2.obs ≠ q.2.obs ∧ Deduped (q :: m)
  | _ => True

theorem dedupL_head (cur : Nat × ColHeader) (rest : List (Nat × ColHeader)) :
    ∃ q l, dedupL cur rest = q :: l ∧ q.2.obs = cur.2.obs ∧ q.1 = cur.1 := by
  induction rest generalizing cur with
  | nil => exact ⟨cur, [], rfl, rfl, rfl⟩
  | cons p rest ih =>
    unfold dedupL
    split
    · obtain ⟨q, l, h1, h2, h3⟩ := ih (cur.1, { cur.2 with span := cur.2.span + p.2.span })
      exact ⟨q, l, h1, h2, h3⟩
    · exact ⟨cur, _, rfl, rfl, rfl⟩

theorem dedupL_deduped (cur : Nat × ColHeader) (rest : List (Nat × ColHeader)) :
    Deduped (dedupL cur rest) := by
  induction rest generalizing cur with
  | nil => trivial
  | cons p rest ih =>
    unfold dedupL
    split
    · exact ih _
    · rename_i hne
      have h := ih p
      obtain ⟨q, l, h1, h2, h3⟩ := dedupL_head p rest
      rw [h1] at h ⊢
      refine ⟨?_, h⟩
      rw [h2]
      intro e
      exact hne ((ColHeader.limitedEq_iff _ _).mpr e)

theorem dedup_deduped (m : ColHeaders) (hm : Sorted m) : Deduped m.dedup := by
  cases m with
  | nil => trivial
  | cons p m => rw [dedup_cons _ _ hm]; exact dedupL_deduped p m

theorem dedupL_keys (cur : Nat × ColHeader) (rest : List (Nat × ColHeader)) :
    ∀ q ∈ dedupL cur rest, q.1 = cur.1 ∨ ∃ p ∈ rest, q.1 = p.1 := by
  induction rest generalizing cur with
  | nil => intro q hq; simp [dedupL] at hq; left; rw [hq]
  | cons p rest ih =>
    unfold dedupL
    intro q hq
    split at hq
    · rcases ih _ q hq with h | ⟨r, hr, e⟩
      · exact Or.inl h
      · exact Or.inr ⟨r, by simp [hr], e⟩
    · rcases List.mem_cons.mp hq with e | e
      · left; rw [e]
      · rcases ih _ q e with h | ⟨r, hr, e⟩
        · exact Or.inr ⟨p, by simp, h⟩
        · exact Or.inr ⟨r, by simp [hr], e⟩

theorem dedupL_wf (cur : Nat × ColHeader) (rest : List (Nat × ColHeader)) (h : WF (cur :: rest)) :
    WF (dedupL cur rest) := by
  induction rest generalizing cur with
  | nil => exact h
  | cons p rest ih =>
    have hc := h.head
    have hp := h.tail.head
    have hcp := hc.2 p (by simp)
    unfold dedupL
    split
    · apply ih
      apply WF.cons h.tail.tail
      · simp only; omega
      · intro q hq; have := hp.2 q hq; simp only; omega
    · apply WF.cons (ih p h.tail) hc.1
      intro q hq
      rcases dedupL_keys p rest q hq with e | ⟨r, hr, e⟩
      · omega
      · have := hp.2 r hr; omega

theorem dedup_wf (m : ColHeaders) (hm : WF m) : WF m.dedup := by
  cases m with
  | nil => exact WF.nil
  | cons p m => rw [dedup_cons _ _ hm.sorted]; exact dedupL_wf p m hm

/-- Equal attributes and spans: equal headers. -/
theorem _root_.Verif.ColHeader.ext_obs {a b : ColHeader} (h : a.obs = b.obs) (hs : a.span = b.span) :
    a = b := by
  cases a; cases b
  simp only [ColHeader.obs, ColObs.mk.injEq] at h
  simp only at hs
  obtain ⟨rfl, rfl, rfl, rfl⟩ := h
  subst hs
  rfl

theorem dedupL_merge (l : List (Nat × ColHeader)) (cur : Nat × ColHeader)
    (rest : List (Nat × ColHeader)) (a b : Nat) (ht : Tiles l a b)
    (ho : ∀ p ∈ l, p.2.obs = cur.2.obs) :
    dedupL cur (l ++ rest)
      = dedupL (cur.1, { cur.2 with span := cur.2.span + (b - a) }) rest := by
  induction l generalizing cur a with
  | nil =>
    have : a = b := ht
    subst this
    simp
  | cons p l ih =>
    obtain ⟨h1, h2, h3⟩ := ht
    have hb := h3.mem.1
    rw [List.cons_append]
    rw [show dedupL cur (p :: (l ++ rest))
      = dedupL (cur.1, { cur.2 with span := cur.2.span + p.2.span }) (l ++ rest) from by
        conv => lhs; unfold dedupL
        rw [if_pos ((ColHeader.limitedEq_iff _ _).mpr (ho p (by simp)).symm)]]
    refine (ih (cur.1, { cur.2 with span := cur.2.span + p.2.span }) _ h3
      (fun q hq => ho q (by simp [hq]))).trans ?_
    congr 2
    apply ColHeader.ext_obs
    · rfl
    · simp only
      omega

theorem dedupL_pieces (isSplit : Nat → Bool) (p : Nat × ColHeader) (hp : 1 ≤ p.2.span) :
    ∃ q l, piecesOf isSplit p = q :: l ∧ q.2.obs = p.2.obs
      ∧ ∀ rest, dedupL q (l ++ rest) = dedupL p rest := by
  obtain ⟨t1, t2, _⟩ := piecesOf_spec isSplit p hp
  cases hl : piecesOf isSplit p with
  | nil => rw [hl] at t1; have : p.1 = p.1 + p.2.span := t1; omega
  | cons q l =>
    rw [hl] at t1 t2
    refine ⟨q, l, rfl, t2 q (by simp), ?_⟩
    intro rest
    obtain ⟨h1, h2, h3⟩ := t1
    rw [dedupL_merge l q rest _ _ h3 (fun r hr => by rw [t2 r (by simp [hr]), t2 q (by simp)])]
    congr 1
    obtain ⟨p1, p2⟩ := p
    simp only [Prod.mk.injEq]
    refine ⟨h1, ?_⟩
    apply ColHeader.ext_obs
    · exact t2 q (by simp)
    · have := h3.mem.1
      simp only at this ⊢
      omega

theorem dedup_flatMap (isSplit : Nat → Bool) (m : ColHeaders) (hm : WF m) (hd : Deduped m) :
    ∀ p rest, m = p :: rest →
      ∀ q l, piecesOf isSplit p = q :: l →
        dedupL q (l ++ rest.flatMap (piecesOf isSplit)) = m := by
  induction m with
  | nil => intro p rest h; simp at h
  | cons p m ih =>
    intro p' rest he q l hql
    simp only [List.cons.injEq] at he
    obtain ⟨rfl, rfl⟩ := he
    obtain ⟨q', l', e1, e2, e3⟩ := dedupL_pieces isSplit p hm.head.1
    rw [e1] at hql
    simp only [List.cons.injEq] at hql
    obtain ⟨rfl, rfl⟩ := hql
    rw [e3]
    cases m with
    | nil => rfl
    | cons r m =>
      obtain ⟨q2, l2, f1, f2, f3⟩ := dedupL_pieces isSplit r hm.tail.head.1
      rw [List.flatMap_cons, f1, List.cons_append]
      conv => lhs; unfold dedupL
      have hne : ¬ p.2.limitedEq q2.2 = true := by
        rw [ColHeader.limitedEq_iff, f2]; exact hd.1
      rw [if_neg hne]
      congr 1
      exact ih hm.tail hd.2 r m rfl q2 l2 f1

theorem dedup_splitAt (isSplit : Nat → Bool) (m : ColHeaders) (hm : WF m) (hd : Deduped m) :
    (m.splitAt isSplit).dedup = m := by
  have hw := splitAt_wf isSplit m hm
  rw [splitAt_eq _ _ hm] at hw ⊢
  cases m with
  | nil => rfl
  | cons p m =>
    obtain ⟨q, l, e1, _, _⟩ := dedupL_pieces isSplit p hm.head.1
    rw [List.flatMap_cons, e1, List.cons_append] at hw ⊢
    rw [dedup_cons _ _ hw.sorted]
    exact dedup_flatMap isSplit (p :: m) hm hd p m rfl q l e1

end ColHeaders

end Verif
