import Verif.Book.Sheets

/-!
# C42, C43: detached sheets, and the list of sheets
-/

set_option autoImplicit false

namespace Verif.Book

variable {S : Type}

/-! ## Specification: a plain list of sheets -/

/-- One call on a plain list; `none` is out of bounds. -/
def listStep (l : List S) : SheetOp S → Option (List S)
  | .push s => some (l ++ [s])
  | .insert i s => if i ≤ l.length then some (l.take i ++ s :: l.drop i) else none
  | .remove n => if n < l.length then some (l.take n ++ l.drop (n + 1)) else none
  | .modify n f => if n < l.length then some (l.modify n f) else none

def listRun (l : List S) : List (SheetOp S) → Option (List S)
  | [] => some l
  | o :: os => (listStep l o).bind (fun l => listRun l os)

/-! ## Lemmas -/

theorem insertAt_eq {α : Type} (a : α) (n : Nat) : ∀ l : List α,
    insertAt a n l = if n ≤ l.length then some (l.take n ++ a :: l.drop n) else none := by
  induction n with
  | zero => intro l; simp [insertAt]
  | succ n ih =>
    intro l
    cases l with
    | nil => simp [insertAt]
    | cons x l =>
      rw [insertAt, ih]
      by_cases h : n ≤ l.length
      · rw [if_pos h, if_pos (by simpa using h)]; simp
      · rw [if_neg h, if_neg (by simpa using h)]; rfl

theorem set_map (l : List S) (n : Nat) (s : S) : (l.map some).set n (some s) = (l.set n s).map some := by
  simp

theorem step_list (l : List S) (o : SheetOp S) : sheetStep (l.map some) o = (listStep l o).map (·.map some) := by
  cases o with
  | push s => simp [sheetStep, pushSheet, listStep]
  | insert i s =>
    show insertAt (some s) i (l.map some) = _
    rw [insertAt_eq]
    unfold listStep
    simp only [List.length_map]
    split
    · simp
    · rfl
  | remove n =>
    unfold sheetStep removeSheet listStep
    simp only
    by_cases h : n < l.length
    · rw [List.getElem?_map, List.getElem?_eq_getElem h, if_pos h]
      simp [List.eraseIdx_eq_take_drop_succ]
    · rw [List.getElem?_map, List.getElem?_eq_none (by omega), if_neg h]
      rfl
  | modify n f =>
    unfold sheetStep modifySheet listStep
    simp only
    by_cases h : n < l.length
    · rw [List.getElem?_map, List.getElem?_eq_getElem h, if_pos h]
      simp only [Option.map_some]
      congr 1
      apply List.ext_getElem?
      intro i
      simp only [List.getElem?_set, List.getElem?_map, List.getElem?_modify, List.length_map]
      by_cases hi : n = i
      · subst hi; simp [h]
      · simp [hi]
    · rw [List.getElem?_map, List.getElem?_eq_none (by omega), if_neg h]
      rfl

theorem run_list (os : List (SheetOp S)) : ∀ l : List S,
    sheetRun (l.map some) os = (listRun l os).map (·.map some) := by
  induction os with
  | nil => intro l; rfl
  | cons o os ih =>
    intro l
    unfold sheetRun listRun
    rw [step_list]
    cases listStep l o with
    | none => rfl
    | some l' => exact ih l'

theorem sheetIdx_eq [DecidableEq S] (name : S → Str) (n : Str) (l : List S) :
    sheetIdx name n (l.map some) = some (l.findIdx? (fun s => decide (name s = n))) := by
  induction l with
  | nil => rfl
  | cons s l ih =>
    rw [List.map_cons, sheetIdx, List.findIdx?_cons, ih]
    by_cases h : name s = n
    · simp [h]
    · simp [h]

theorem iterSheets_eq (l : List S) : iterSheets (l.map some) = some l := by
  induction l with
  | nil => rfl
  | cons s l ih => rw [List.map_cons, iterSheets, ih]; rfl

/-! ## C43 -/

/-- **C43**: after any history of calls the sheets are those of a plain list with the same calls (and there
is a panic exactly if an index is out of bounds); `num_sheets`, `sheet`, `iter_sheets` and `remove_sheet` give
its length and its elements. -/
theorem C43_list (os : List (SheetOp S)) (b : Sheets S) :
    sheetRun [] os = some b ↔ ∃ l, listRun [] os = some l ∧ b = l.map some := by
  have h := run_list os ([] : List S)
  rw [show ([] : Sheets S) = ([] : List S).map some from rfl, h]
  cases listRun [] os with
  | none => simp
  | some l => simp [eq_comm]

/-- C43, the functions that look at the list. -/
theorem C43_getters (l : List S) :
    numSheets (l.map some) = l.length ∧ (∀ n, sheet (l.map some) n = l[n]?)
    ∧ iterSheets (l.map some) = some l
    ∧ ∀ n, (removeSheet (l.map some) n).map (·.2) = l[n]? := by
  refine ⟨by simp [numSheets], ?_, iterSheets_eq l, ?_⟩
  · intro n
    unfold sheet
    rw [List.getElem?_map]
    cases l[n]? <;> rfl
  · intro n
    unfold removeSheet
    rw [List.getElem?_map]
    cases l[n]? <;> rfl

/-- C43: `sheet_idx` gives the first index with this name, and nothing if there is none. -/
theorem C43_idx [DecidableEq S] (name : S → Str) (n : Str) (l : List S) :
    ∃ r, sheetIdx name n (l.map some) = some r
      ∧ match r with
        | some i => ∃ s, l[i]? = some s ∧ name s = n ∧ ∀ j s', j < i → l[j]? = some s' → name s' ≠ n
        | none => ∀ s ∈ l, name s ≠ n := by
  refine ⟨_, sheetIdx_eq name n l, ?_⟩
  cases h : l.findIdx? (fun s => decide (name s = n)) with
  | none =>
    simp only
    rw [List.findIdx?_eq_none_iff] at h
    intro s hs
    simpa using h s hs
  | some i =>
    simp only
    rw [List.findIdx?_eq_some_iff_getElem] at h
    obtain ⟨h1, h2, h3⟩ := h
    refine ⟨l[i], List.getElem?_eq_getElem h1, by simpa using h2, ?_⟩
    intro j s' hj hs'
    have hjl : j < l.length := by omega
    rw [List.getElem?_eq_getElem hjl] at hs'
    have := h3 j hj
    rw [Option.some.inj hs'] at this
    simpa using this

/-- Concrete case. -/
example : sheetRun ([] : Sheets Nat) [.push 1, .push 2, .insert 1 3, .modify 0 (· + 10), .remove 2]
    = some [some 11, some 3] := by decide

/-! ## C42 -/

/-- Calls that leave the slots up to `n` where they are, and do not touch slot `n`. -/
def Apart (n : Nat) : SheetOp S → Prop
  | .push _ => True
  | .insert i _ => n < i
  | .remove m => n < m
  | .modify m _ => m ≠ n

theorem set_take_drop {α : Type} (b : List α) (i n : Nat) (x a : α) (h : n < i) (hi : i ≤ b.length) :
    (b.set n x).take i ++ a :: (b.set n x).drop i = (b.take i ++ a :: b.drop i).set n x := by
  rw [List.set_append_left _ _ (by rw [List.length_take]; omega), List.take_set, List.drop_set_of_lt h]

theorem set_eraseIdx {α : Type} (b : List α) (m n : Nat) (x : α) (h : n < m) :
    (b.set n x).eraseIdx m = (b.eraseIdx m).set n x := by
  apply List.ext_getElem?
  intro i
  simp only [List.getElem?_eraseIdx, List.getElem?_set, List.length_eraseIdx]
  repeat' split
  all_goals first | rfl | omega | skip
  all_goals (try (simp_all)); try omega

/-- A call apart from slot `n` does the same whatever is in that slot. -/
theorem step_apart (b : Sheets S) (n : Nat) (x : Option S) (o : SheetOp S) (ho : Apart n o)
    (hn : n < b.length) :
    sheetStep (b.set n x) o = (sheetStep b o).map (·.set n x) := by
  cases o with
  | push s =>
    unfold sheetStep pushSheet
    simp only [Option.map_some]
    congr 1
    rw [List.set_append_left _ _ hn]
  | insert i s =>
    show insertAt (some s) i (b.set n x) = (insertAt (some s) i b).map _
    rw [insertAt_eq, insertAt_eq, List.length_set]
    split
    · rename_i hi
      rw [Option.map_some, set_take_drop b i n x (some s) ho hi]
    · rfl
  | remove m =>
    unfold sheetStep removeSheet
    simp only
    rw [List.getElem?_set_ne (by have : n < m := ho; omega)]
    cases h : b[m]? with
    | none => rfl
    | some v =>
      cases v with
      | none => rfl
      | some s => simp only [Option.map_some]; rw [set_eraseIdx b m n x ho]
  | modify m f =>
    unfold sheetStep modifySheet
    simp only
    have hm : m ≠ n := ho
    rw [List.getElem?_set_ne (Ne.symm hm)]
    cases h : b[m]? with
    | none => rfl
    | some v =>
      cases v with
      | none => rfl
      | some s => simp only [Option.map_some]; rw [List.set_comm _ _ hm]

theorem step_length (b b' : Sheets S) (n : Nat) (o : SheetOp S) (ho : Apart n o) (hn : n < b.length)
    (h : sheetStep b o = some b') : n < b'.length ∧ b'[n]? = b[n]? := by
  cases o with
  | push s =>
    obtain rfl := Option.some.inj h
    unfold pushSheet
    exact ⟨by rw [List.length_append]; omega, by rw [List.getElem?_append_left hn]⟩
  | insert i s =>
    have ho : n < i := ho
    have h : insertAt (some s) i b = some b' := h
    rw [insertAt_eq] at h
    split at h
    · rename_i hi
      obtain rfl := Option.some.inj h
      refine ⟨by simp only [List.length_append, List.length_take, List.length_cons, List.length_drop]; omega, ?_⟩
      rw [List.getElem?_append_left (by rw [List.length_take]; omega), List.getElem?_take_of_lt ho]
    · cases h
  | remove m =>
    have ho : n < m := ho
    unfold sheetStep removeSheet at h
    simp only at h
    cases hm : b[m]? with
    | none => rw [hm] at h; cases h
    | some v =>
      cases v with
      | none => rw [hm] at h; cases h
      | some s =>
        rw [hm] at h
        obtain rfl := Option.some.inj h
        have hml : m < b.length := (List.getElem?_eq_some_iff.1 hm).1
        simp only
        exact ⟨by rw [List.length_eraseIdx]; split <;> omega, by rw [List.getElem?_eraseIdx_of_lt ho]⟩
  | modify m f =>
    have ho : m ≠ n := ho
    unfold sheetStep modifySheet at h
    simp only at h
    cases hm : b[m]? with
    | none => rw [hm] at h; cases h
    | some v =>
      cases v with
      | none => rw [hm] at h; cases h
      | some s =>
        rw [hm] at h
        obtain rfl := Option.some.inj h
        exact ⟨by rw [List.length_set]; exact hn, by rw [List.getElem?_set_ne ho]⟩

/-- Calls, detaching and attaching apart from slot `n`. -/
def SlotApart (n : Nat) : SlotOp S → Prop
  | .call o => Apart n o
  | .detach m => m ≠ n
  | .attach d => d.key ≠ n

theorem slotStep_apart (b : Sheets S) (n : Nat) (x : Option S) (o : SlotOp S) (ho : SlotApart n o)
    (hn : n < b.length) : slotStep (b.set n x) o = (slotStep b o).map (·.set n x) := by
  cases o with
  | call o => exact step_apart b n x o ho hn
  | detach m =>
    have ho : m ≠ n := ho
    unfold slotStep detachSheet
    simp only
    rw [List.getElem?_set_ne (Ne.symm ho)]
    cases h : b[m]? with
    | none => rfl
    | some v =>
      cases v with
      | none => rfl
      | some s => simp only [Option.map_some]; rw [List.set_comm _ _ ho]
  | attach d =>
    have ho : d.key ≠ n := ho
    unfold slotStep attachSheet
    simp only [List.length_set]
    split
    · simp only [Option.map_some]; rw [List.set_comm _ _ ho]
    · rfl

theorem slotStep_length (b b' : Sheets S) (n : Nat) (o : SlotOp S) (ho : SlotApart n o) (hn : n < b.length)
    (h : slotStep b o = some b') : n < b'.length ∧ b'[n]? = b[n]? := by
  cases o with
  | call o => exact step_length b b' n o ho hn h
  | detach m =>
    have ho : m ≠ n := ho
    unfold slotStep detachSheet at h
    simp only at h
    cases hm : b[m]? with
    | none => rw [hm] at h; cases h
    | some v =>
      cases v with
      | none => rw [hm] at h; cases h
      | some s =>
        rw [hm] at h
        obtain rfl := Option.some.inj h
        exact ⟨by rw [List.length_set]; exact hn, by rw [List.getElem?_set_ne ho]⟩
  | attach d =>
    have ho : d.key ≠ n := ho
    unfold slotStep attachSheet at h
    simp only at h
    split at h
    · obtain rfl := Option.some.inj h
      exact ⟨by rw [List.length_set]; exact hn, by rw [List.getElem?_set_ne ho]⟩
    · cases h

theorem slotRun_apart (os : List (SlotOp S)) (n : Nat) (x : Option S) (ho : ∀ o ∈ os, SlotApart n o) :
    ∀ b : Sheets S, n < b.length →
      slotRun (b.set n x) os = (slotRun b os).map (·.set n x)
      ∧ ∀ b', slotRun b os = some b' → n < b'.length ∧ b'[n]? = b[n]? := by
  induction os with
  | nil =>
    intro b hn
    refine ⟨rfl, ?_⟩
    intro b' h
    obtain rfl := Option.some.inj h
    exact ⟨hn, rfl⟩
  | cons o os ih =>
    intro b hn
    have ho1 := ho o List.mem_cons_self
    have ho2 := fun o' h => ho o' (List.mem_cons_of_mem _ h)
    unfold slotRun
    rw [slotStep_apart b n x o ho1 hn]
    cases hs : slotStep b o with
    | none => exact ⟨rfl, fun b' h => by cases h⟩
    | some b1 =>
      obtain ⟨h1, h2⟩ := slotStep_length b b1 n o ho1 hn hs
      obtain ⟨h3, h4⟩ := ih ho2 b1 h1
      refine ⟨h3, ?_⟩
      intro b' h
      obtain ⟨h5, h6⟩ := h4 b' h
      exact ⟨h5, by rw [h6, h2]⟩

/-- **C42** (part): between detaching a sheet and attaching it again — changed or not — any calls on other
slots can happen, also detaching and attaching others, as long as they do not insert or remove sheets in front
of it.  Then there is no additional panic, and the workbook is the one the same calls give without detaching,
with the changed sheet in its slot, and every other sheet as it is there.  Missing: inserting and removing in
front. -/
theorem C42_attach_partial (b : Sheets S) (n : Nat) (s s' : S) (hb : b[n]? = some (some s))
    (os : List (SlotOp S)) (ho : ∀ o ∈ os, SlotApart n o) :
    ∃ b1, detachSheet b n = some (b1, ⟨n, s⟩)
      ∧ (slotRun b1 os = none ↔ slotRun b os = none)
      ∧ ∀ b2, slotRun b1 os = some b2 → ∃ b0, slotRun b os = some b0 ∧ b0[n]? = some (some s)
          ∧ attachSheet b2 ⟨n, s'⟩ = some (b0.set n (some s')) := by
  have hn : n < b.length := (List.getElem?_eq_some_iff.1 hb).1
  obtain ⟨h1, h2⟩ := slotRun_apart os n none ho b hn
  refine ⟨b.set n none, by unfold detachSheet; rw [hb], by rw [h1]; simp, ?_⟩
  intro b2 hb2
  rw [h1] at hb2
  cases hr : slotRun b os with
  | none => rw [hr] at hb2; cases hb2
  | some b0 =>
    rw [hr] at hb2
    obtain rfl := Option.some.inj hb2
    obtain ⟨h3, h4⟩ := h2 b0 hr
    refine ⟨b0, rfl, by rw [h4, hb], ?_⟩
    unfold attachSheet
    simp only [List.length_set, if_pos h3, List.set_set]

/-- C42: right after detaching. -/
theorem C42_immediately (b : Sheets S) (n : Nat) (s : S) (hb : b[n]? = some (some s)) :
    ∃ b1, detachSheet b n = some (b1, ⟨n, s⟩) ∧ attachSheet b1 ⟨n, s⟩ = some b := by
  obtain ⟨b1, h1, _, h3⟩ := C42_attach_partial b n s s hb [] (by intro o h; cases h)
  obtain ⟨b0, h4, h5, h6⟩ := h3 b1 rfl
  obtain rfl := Option.some.inj h4
  refine ⟨b1, h1, ?_⟩
  rw [h6]
  congr 1
  apply List.ext_getElem?
  intro i
  rw [List.getElem?_set]
  split
  · rename_i hi
    subst hi
    rw [if_pos (List.getElem?_eq_some_iff.1 hb).1, hb]
  · rfl

/-- Concrete case: sheets are pushed, removed, changed and detached in between. -/
example : ∀ o ∈ ([.call (.push 7), .detach 0, .call (.remove 2), .attach ⟨0, 9⟩, .call (.insert 2 5)] : List (SlotOp Nat)),
    SlotApart 1 o := by
  intro o ho
  simp only [List.mem_cons, List.not_mem_nil, or_false] at ho
  rcases ho with rfl | rfl | rfl | rfl | rfl
  · trivial
  · exact (by decide : (0 : Nat) ≠ 1)
  · exact (by decide : (1 : Nat) < 2)
  · exact (by decide : (0 : Nat) ≠ 1)
  · exact (by decide : (1 : Nat) < 2)

/-- C42 fails if a sheet is inserted in front meanwhile: the new sheet is overwritten, and the slot the
sheet came from stays without sheet. -/
theorem C42_insert_counterexample :
    (detachSheet [some 1, some 2] 0).map (fun p =>
      (insertSheet p.1 0 9).map (fun b => attachSheet b p.2)) = some (some (some [some 1, none, some 2])) := by
  decide

/-- C42 fails if a sheet in front is removed meanwhile: another sheet is overwritten, or there is a panic. -/
theorem C42_remove_counterexample :
    (detachSheet [some 1, some 2, some 3] 1).map (fun p =>
      (removeSheet p.1 0).map (fun b => attachSheet b.1 p.2)) = some (some (some [none, some 2]))
    ∧ (detachSheet [some 1, some 2] 1).map (fun p =>
      (removeSheet p.1 0).map (fun b => (attachSheet b.1 p.2).isNone)) = some (some true) := by
  decide

/-- C43 while a sheet is detached: `sheet_idx` panics if it meets it. -/
theorem C42_idx_counterexample :
    sheetIdx (fun n : Nat => if n = 2 then "b".toList else []) "b".toList [none, some 2] = none := rfl

end Verif.Book
