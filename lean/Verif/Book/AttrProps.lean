import Verif.Book.AttrMap

/-!
# C44: attribute maps are maps
-/

set_option autoImplicit false

namespace Verif.Book.AttrMap

/-! ## Specification: a list of pairs without duplicate keys -/

/-- Setting a key keeps its place, or appends it. -/
def specSet (l : List (Str × Str)) (k v : Str) : List (Str × Str) :=
  if k ∈ l.map Prod.fst then l.map (fun p => if p.1 = k then (k, v) else p) else l ++ [(k, v)]

/-- Clearing removes the key. -/
def specClear (l : List (Str × Str)) (k : Str) : List (Str × Str) := l.filter (fun p => p.1 ≠ k)

def specRun (l : List (Str × Str)) : List Op → List (Str × Str)
  | [] => l
  | .set k v :: os => specRun (specSet l k v) os
  | .clear k :: os => specRun (specClear l k) os

/-- The value set last, if it was not cleared afterwards. -/
def lastSet (os : List Op) (k : Str) : Option Str :=
  os.foldl (fun r o => match o with
    | .set k' v => if k' = k then some v else r
    | .clear k' => if k' = k then none else r) none

/-! ## Lemmas -/

/-- The map with this content. -/
def ofPairs (l : List (Str × Str)) : AttrMap := { keys := l.map Prod.fst, values := l.map Prod.snd }

def Nodup (l : List (Str × Str)) : Prop := (l.map Prod.fst).Nodup

theorem findFrom_none (k : Str) (ks : List Str) : findFrom k ks = none ↔ k ∉ ks := by
  induction ks with
  | nil => simp [findFrom]
  | cons x xs ih =>
    unfold findFrom
    split
    · rename_i h; simp [h]
    · rename_i h
      rw [Option.map_eq_none_iff, ih]
      simp [Ne.symm h]

theorem iter_pairs (l : List (Str × Str)) : iter (l.map Prod.fst) (l.map Prod.snd) = some l := by
  induction l with
  | nil => rfl
  | cons p l ih => simp [iter, ih]

theorem notMem_map {l : List (Str × Str)} {k : Str} (h : k ∉ l.map Prod.fst) (v : Str) :
    l.map (fun p => if p.1 = k then (k, v) else p) = l := by
  induction l with
  | nil => rfl
  | cons p l ih =>
    simp only [List.map_cons, List.mem_cons, not_or] at h
    rw [List.map_cons, ih h.2, if_neg (Ne.symm h.1)]

theorem notMem_filter {l : List (Str × Str)} {k : Str} (h : k ∉ l.map Prod.fst) :
    l.filter (fun p => decide (p.1 ≠ k)) = l := by
  induction l with
  | nil => rfl
  | cons p l ih =>
    simp only [List.map_cons, List.mem_cons, not_or] at h
    rw [List.filter_cons_of_pos (by simpa using Ne.symm h.1), ih h.2]

/-- With the index of a key: what `set`, `eraseIdx` and the lookup do. -/
theorem found (l : List (Str × Str)) (hn : Nodup l) (k : Str) (i : Nat)
    (h : findFrom k (l.map Prod.fst) = some i) (v : Str) :
    k ∈ l.map Prod.fst
    ∧ (l.map Prod.fst).set i k = (l.map (fun p => if p.1 = k then (k, v) else p)).map Prod.fst
    ∧ (l.map Prod.snd).set i v = (l.map (fun p => if p.1 = k then (k, v) else p)).map Prod.snd
    ∧ (l.map Prod.fst).eraseIdx i = (specClear l k).map Prod.fst
    ∧ (l.map Prod.snd).eraseIdx i = (specClear l k).map Prod.snd
    ∧ ∃ w, (l.map Prod.snd)[i]? = some w ∧ l.lookup k = some w := by
  induction l generalizing i with
  | nil => cases h
  | cons p l ih =>
    obtain ⟨a, b⟩ := p
    unfold Nodup at hn
    simp only [List.map_cons, List.nodup_cons] at hn
    simp only [List.map_cons, findFrom] at h
    by_cases hk : a = k
    · subst hk
      rw [if_pos rfl] at h
      obtain rfl := Option.some.inj h
      refine ⟨by simp, ?_, ?_, ?_, ?_, b, rfl, by simp [List.lookup]⟩
      · simp only [List.map_cons, List.set_cons_zero]; rw [notMem_map hn.1]; simp
      · simp only [List.map_cons, List.set_cons_zero]; rw [notMem_map hn.1]; simp
      · unfold specClear; rw [List.filter_cons_of_neg (by simp), notMem_filter hn.1]; rfl
      · unfold specClear; rw [List.filter_cons_of_neg (by simp), notMem_filter hn.1]; rfl
    · rw [if_neg hk] at h
      cases hf : findFrom k (l.map Prod.fst) with
      | none => rw [hf] at h; cases h
      | some j =>
        rw [hf] at h
        obtain rfl := Option.some.inj h
        obtain ⟨h1, h2, h3, h4, h5, w, h6, h7⟩ := ih hn.2 j hf
        have hc : specClear ((a, b) :: l) k = (a, b) :: specClear l k := by
          unfold specClear; rw [List.filter_cons_of_pos (by simpa using hk)]
        refine ⟨List.mem_cons_of_mem _ h1, ?_, ?_, ?_, ?_, w, ?_, ?_⟩
        · simp only [List.map_cons, List.set_cons_succ, if_neg hk]; rw [h2]
        · simp only [List.map_cons, List.set_cons_succ, if_neg hk]; rw [h3]
        · rw [hc]; simp only [List.map_cons, List.eraseIdx_cons_succ]; rw [h4]
        · rw [hc]; simp only [List.map_cons, List.eraseIdx_cons_succ]; rw [h5]
        · simpa using h6
        · rw [List.lookup]
          have : (k == a) = false := by simpa using Ne.symm hk
          rw [this]; exact h7

theorem lookup_none (l : List (Str × Str)) (k : Str) (h : k ∉ l.map Prod.fst) : l.lookup k = none := by
  induction l with
  | nil => rfl
  | cons p l ih =>
    obtain ⟨a, b⟩ := p
    simp only [List.map_cons, List.mem_cons, not_or] at h
    have : (k == a) = false := by simpa using h.1
    rw [List.lookup, this]; exact ih h.2

theorem step_spec (l : List (Str × Str)) (hn : Nodup l) (o : Op) :
    (ofPairs l).step o = some (ofPairs (specRun l [o])) := by
  cases o with
  | set k v =>
    show some ((ofPairs l).setAttr k v) = some (ofPairs (specSet l k v))
    congr 1
    unfold setAttr findIdx specSet
    show (match findFrom k (l.map Prod.fst) with | some i => _ | none => _) = _
    cases hf : findFrom k (l.map Prod.fst) with
    | none =>
      rw [if_neg ((findFrom_none k _).1 hf)]
      simp [pushAttr, ofPairs]
    | some i =>
      obtain ⟨h1, h2, h3, _⟩ := found l hn k i hf v
      rw [if_pos h1]
      simp only [ofPairs]
      rw [h2, h3]
  | clear k =>
    show ((ofPairs l).clearAttr k).map (·.1) = some (ofPairs (specClear l k))
    unfold clearAttr findIdx
    show Option.map _ (match findFrom k (l.map Prod.fst) with | some i => _ | none => _) = _
    cases hf : findFrom k (l.map Prod.fst) with
    | none =>
      unfold specClear
      rw [notMem_filter ((findFrom_none k _).1 hf)]; rfl
    | some i =>
      obtain ⟨_, _, _, h4, h5, w, h6, _⟩ := found l hn k i hf []
      have h6' : (ofPairs l).values[i]? = some w := h6
      simp only
      rw [h6']
      show some _ = _
      simp only [ofPairs]
      rw [h4, h5]

theorem map_fst_set (l : List (Str × Str)) (k v : Str) :
    (l.map (fun p => if p.1 = k then (k, v) else p)).map Prod.fst = l.map Prod.fst := by
  rw [List.map_map]
  apply List.map_congr_left
  intro p _
  show Prod.fst (if p.1 = k then (k, v) else p) = p.1
  split
  · rename_i h; exact h.symm
  · rfl

theorem nodup_step (l : List (Str × Str)) (hn : Nodup l) (o : Op) : Nodup (specRun l [o]) := by
  cases o with
  | set k v =>
    show ((specSet l k v).map Prod.fst).Nodup
    unfold specSet
    split
    · rw [map_fst_set]; exact hn
    · rename_i h
      rw [List.map_append, List.nodup_append]
      refine ⟨hn, by simp, ?_⟩
      intro a ha b hb
      have : b = k := by simpa using hb
      subst this
      intro e
      exact h (by rw [← e]; exact ha)
  | clear k =>
    show ((specClear l k).map Prod.fst).Nodup
    exact List.Sublist.nodup (List.Sublist.map _ List.filter_sublist) hn

theorem specRun_append (l : List (Str × Str)) (os os' : List Op) :
    specRun l (os ++ os') = specRun (specRun l os) os' := by
  induction os generalizing l with
  | nil => rfl
  | cons o os ih => cases o <;> exact ih _

theorem run_spec (os : List Op) : ∀ l : List (Str × Str), Nodup l →
    (ofPairs l).run os = some (ofPairs (specRun l os)) ∧ Nodup (specRun l os) := by
  induction os with
  | nil => intro l hn; exact ⟨rfl, hn⟩
  | cons o os ih =>
    intro l hn
    obtain ⟨h1, h2⟩ := ih _ (nodup_step l hn o)
    have he : specRun l (o :: os) = specRun (specRun l [o]) os := specRun_append l [o] os
    rw [he]
    refine ⟨?_, h2⟩
    show ((ofPairs l).step o).bind _ = _
    rw [step_spec l hn o]
    exact h1

theorem attr_spec (l : List (Str × Str)) (hn : Nodup l) (k : Str) :
    (ofPairs l).attr k = some (l.lookup k) := by
  unfold attr findIdx
  show (match findFrom k (l.map Prod.fst) with | some i => _ | none => _) = _
  cases hf : findFrom k (l.map Prod.fst) with
  | none => rw [lookup_none l k ((findFrom_none k _).1 hf)]
  | some i =>
    obtain ⟨_, _, _, _, _, w, h6, h7⟩ := found l hn k i hf []
    have h6' : (ofPairs l).values[i]? = some w := h6
    simp only
    rw [h6', h7]

theorem lookup_set (l : List (Str × Str)) (k v j : Str) :
    (specSet l k v).lookup j = if k = j then some v else l.lookup j := by
  unfold specSet
  split
  · rename_i h
    induction l with
    | nil => cases h
    | cons p l ih =>
      obtain ⟨a, b⟩ := p
      rw [List.map_cons]
      by_cases ha : a = k
      · subst ha
        rw [if_pos rfl]
        by_cases hj : a = j
        · subst hj; rw [if_pos rfl]; simp [List.lookup]
        · rw [if_neg hj]
          have hb : (j == a) = false := by simpa using Ne.symm hj
          rw [List.lookup, hb, List.lookup, hb]
          simp only
          by_cases hm : a ∈ l.map Prod.fst
          · rw [ih hm, if_neg hj]
          · rw [notMem_map hm]
      · simp only [if_neg ha]
        have hm : k ∈ l.map Prod.fst := by
          rcases List.mem_cons.1 h with h | h
          · exact absurd h.symm ha
          · exact h
        rw [List.lookup, List.lookup]
        cases hb : j == a with
        | true =>
          have : j = a := by simpa using hb
          subst this
          simp only
          rw [if_neg (Ne.symm ha)]
        | false => exact ih hm
  · rename_i h
    induction l with
    | nil =>
      by_cases hj : k = j
      · subst hj; simp [List.lookup]
      · have hb : (j == k) = false := by simpa using Ne.symm hj
        simp [List.lookup, hb, hj]
    | cons p l ih =>
      obtain ⟨a, b⟩ := p
      simp only [List.map_cons, List.mem_cons, not_or] at h
      rw [List.cons_append, List.lookup, List.lookup]
      cases hb : j == a with
      | true =>
        have : j = a := by simpa using hb
        subst this
        simp only
        rw [if_neg h.1]
      | false => exact ih h.2

theorem lookup_clear (l : List (Str × Str)) (k j : Str) :
    (specClear l k).lookup j = if k = j then none else l.lookup j := by
  induction l with
  | nil => simp [specClear, List.lookup]
  | cons p l ih =>
    obtain ⟨a, b⟩ := p
    unfold specClear at *
    by_cases ha : a = k
    · rw [List.filter_cons_of_neg (by simpa using ha), ih]
      subst ha
      split
      · rfl
      · rename_i hj
        have hb : (j == a) = false := by simpa using Ne.symm hj
        rw [List.lookup, hb]
    · rw [List.filter_cons_of_pos (by simpa using ha), List.lookup, List.lookup]
      cases hb : j == a with
      | true =>
        have : j = a := by simpa using hb
        subst this
        simp only
        rw [if_neg (Ne.symm ha)]
      | false => exact ih

theorem lookup_run (os : List Op) (l : List (Str × Str)) (k : Str) :
    (specRun l os).lookup k = os.foldl (fun r o => match o with
      | .set k' v => if k' = k then some v else r
      | .clear k' => if k' = k then none else r) (l.lookup k) := by
  induction os generalizing l with
  | nil => rfl
  | cons o os ih =>
    cases o with
    | set k' v =>
      show (specRun (specSet l k' v) os).lookup k = _
      rw [ih, lookup_set]; rfl
    | clear k' =>
      show (specRun (specClear l k') os).lookup k = _
      rw [ih, lookup_clear]; rfl

/-! ## C44 -/

/-- **C44**: after any history of `set_attr` and `clear_attr` there was no panic; `iter` gives the pairs of
the specification, in the order of insertion, without a duplicate key; and `attr` gives the value set
last. -/
theorem C44_map (os : List Op) : ∃ m, run {} os = some m
    ∧ iter m.keys m.values = some (specRun [] os)
    ∧ m.keys.Nodup
    ∧ (∀ k, m.attr k = some (lastSet os k))
    ∧ (∀ k d, m.attrDef k d = some ((lastSet os k).getD d))
    ∧ m.len = (specRun [] os).length := by
  obtain ⟨h1, h2⟩ := run_spec os [] (by simp [Nodup])
  have hattr : ∀ k, (ofPairs (specRun [] os)).attr k = some (lastSet os k) := by
    intro k
    rw [attr_spec _ h2, lookup_run]; rfl
  refine ⟨_, h1, iter_pairs _, h2, hattr, ?_, by simp [len, ofPairs]⟩
  intro k d
  have := hattr k
  unfold attr at this
  unfold attrDef
  cases hf : (ofPairs (specRun [] os)).findIdx k with
  | none =>
    rw [hf] at this
    rw [← Option.some.inj this]; rfl
  | some i =>
    rw [hf] at this
    simp only at this ⊢
    cases hv : (ofPairs (specRun [] os)).values[i]? with
    | none => rw [hv] at this; cases this
    | some w =>
      rw [hv] at this
      rw [← Option.some.inj this]; rfl

/-- C44: `clear_attr` gives back the value that was there. -/
theorem C44_clear (os : List Op) (m : AttrMap) (h : run {} os = some m) (k : Str) :
    (m.clearAttr k).map (·.2) = some (lastSet os k) := by
  obtain ⟨m', h1, _, _, h4, _⟩ := C44_map os
  rw [h] at h1
  obtain rfl := Option.some.inj h1
  have := h4 k
  unfold attr at this
  unfold clearAttr
  cases hf : m.findIdx k with
  | none => rw [hf] at this; simpa using this
  | some i =>
    rw [hf] at this
    simp only at this ⊢
    cases hv : m.values[i]? with
    | none => rw [hv] at this; cases this
    | some w => rw [hv] at this; simpa using this

/-- C44: setting an attribute that is there keeps the order of the keys; a new one comes last. -/
theorem C44_order (os : List Op) (k v : Str) :
    (specRun [] (os ++ [.set k v])).map Prod.fst
      = if (lastSet os k).isSome then (specRun [] os).map Prod.fst else (specRun [] os).map Prod.fst ++ [k] := by
  rw [specRun_append]
  show (specSet (specRun [] os) k v).map Prod.fst = _
  have hl := lookup_run os [] k
  have : (lastSet os k).isSome = true ↔ k ∈ (specRun [] os).map Prod.fst := by
    have : lastSet os k = (specRun [] os).lookup k := hl.symm
    rw [this]
    constructor
    · intro h
      refine Decidable.byContradiction fun hn => ?_
      rw [lookup_none _ _ hn] at h; cases h
    · intro h
      cases hf : findFrom k ((specRun [] os).map Prod.fst) with
      | none => exact absurd h ((findFrom_none k _).1 hf)
      | some i =>
        obtain ⟨_, _, _, _, _, w, _, h7⟩ := found _ (run_spec os [] (by simp [Nodup])).2 k i hf []
        rw [h7]; rfl
  unfold specSet
  by_cases hm : k ∈ (specRun [] os).map Prod.fst
  · rw [if_pos hm, if_pos (this.2 hm), map_fst_set]
  · rw [if_neg hm, if_neg (fun h => hm (this.1 h))]; simp

/-- Concrete case. -/
example : specRun [] [.set "a".toList "1".toList, .set "b".toList "2".toList, .set "a".toList "3".toList,
    .clear "b".toList, .set "c".toList "4".toList] = [("a".toList, "3".toList), ("c".toList, "4".toList)] := by
  decide

/-- With `add_all`, which the other calls of the crate use for attributes read from a file, there can be
duplicate keys: `clear_attr` then shows the hidden value. -/
theorem C44_addAll_counterexample :
    ((({} : AttrMap).addAll [("a".toList, "1".toList), ("a".toList, "2".toList)]).clearAttr "a".toList).map
      (fun r => r.1.attr "a".toList) = some (some (some "2".toList)) := by
  decide

end Verif.Book.AttrMap
