import Verif.Grid.Spec
import Verif.Header.Spec

/-!
# Group tags: a stack machine

Writing groups means pushing the groups that start at a position and popping as many as end at it.
-/

set_option autoImplicit false

namespace Verif

/-- Groups that do not cross, with their bounds in order, an outer group before an inner one that
starts at the same position. -/
structure GroupsOK (gs : List Grouped) : Prop where
  le : ∀ g ∈ gs, g.frm ≤ g.to
  laminar : ∀ g ∈ gs, ∀ g' ∈ gs, ¬ Crossing g g'
  outer : gs.Pairwise (fun a b => a.frm = b.frm → b.to ≤ a.to)

theorem laminar_cases {a b : Grouped} (ha : a.frm ≤ a.to) (hb : b.frm ≤ b.to)
    (h : ¬ Crossing a b) : (a.frm ≤ b.frm ∧ b.to ≤ a.to) ∨ (b.frm ≤ a.frm ∧ a.to ≤ b.to)
      ∨ a.to < b.frm ∨ b.to < a.frm := by
  by_cases h1 : a.frm ≤ b.frm ∧ b.to ≤ a.to
  · exact Or.inl h1
  by_cases h2 : b.frm ≤ a.frm ∧ a.to ≤ b.to
  · exact Or.inr (Or.inl h2)
  by_cases h3 : a.to < b.frm
  · exact Or.inr (Or.inr (Or.inl h3))
  by_cases h4 : b.to < a.frm
  · exact Or.inr (Or.inr (Or.inr h4))
  exfalso
  apply h
  refine ⟨⟨max a.frm b.frm, by omega, by omega, by omega, by omega⟩, ?_, ?_⟩
  · by_cases h5 : a.frm < b.frm
    · exact ⟨a.frm, by omega, by omega, by omega⟩
    · exact ⟨a.to, by omega, by omega, by omega⟩
  · by_cases h5 : b.frm < a.frm
    · exact ⟨b.frm, by omega, by omega, by omega⟩
    · exact ⟨b.to, by omega, by omega, by omega⟩

/-- Forget the end of a group (the reader does not know it while the group is open). -/
def openGroup (g : Grouped) : Grouped := { g with to := 0 }

/-- The groups open at position `c` are on the stack, the innermost on top; those that end before `c`
are done. -/
def GInv (gs : List Grouped) (c : Nat) (stack done : List Grouped) : Prop :=
  ∃ L : List Grouped, stack = L.map openGroup
    ∧ L.Perm (gs.filter (fun g => decide (g.frm < c) && decide (c ≤ g.to)))
    ∧ L.Pairwise (fun a b => a.to ≤ b.to)
    ∧ done.Perm (gs.filter (fun g => decide (g.to < c)))

theorem ginv_zero (gs : List Grouped) : GInv gs 0 [] [] := by
  refine ⟨[], rfl, ?_, List.Pairwise.nil, ?_⟩
  · rw [List.filter_eq_nil_iff.mpr (by simp)]
  · rw [List.filter_eq_nil_iff.mpr (by simp)]

theorem filter_length_count {α : Type} (p : α → Bool) (l : List α) :
    (l.filter p).length = l.countP p := (List.countP_eq_length_filter).symm

/-- A sorted list whose elements are at least `e`: the elements equal to `e` come first. -/
theorem sorted_prefix (e : Nat) (L : List Grouped) (hs : L.Pairwise (fun a b => a.to ≤ b.to))
    (hge : ∀ g ∈ L, e ≤ g.to) :
    L.take (L.filter (fun g => decide (g.to = e))).length = L.filter (fun g => decide (g.to = e))
    ∧ L.drop (L.filter (fun g => decide (g.to = e))).length
      = L.filter (fun g => decide (e < g.to)) := by
  induction L with
  | nil => simp
  | cons g L ih =>
    obtain ⟨hs1, hs2⟩ := List.pairwise_cons.mp hs
    obtain ⟨i1, i2⟩ := ih hs2 (fun x hx => hge x (by simp [hx]))
    by_cases h : g.to = e
    · have h' : ¬ e < g.to := by omega
      simp [h, i1, i2]
    · have hgt : e < g.to := by have := hge g (by simp); omega
      have hn : L.filter (fun g => decide (g.to = e)) = [] := by
        rw [List.filter_eq_nil_iff]
        intro x hx
        have := hs1 x hx
        simp; omega
      have ha : L.filter (fun g => decide (e < g.to)) = L := by
        rw [List.filter_eq_self]
        intro x hx
        have := hs1 x hx
        simp; omega
      simp [h, hgt, hn, ha]

/-- One position: the groups starting at `c` are pushed, those ending at `c + n - 1` popped. -/
theorem GInv.step {gs : List Grouped} (hg : GroupsOK gs) {c n : Nat} {stack done : List Grouped}
    (h : GInv gs c stack done) (hn : 1 ≤ n)
    (hfrm : ∀ g ∈ gs, c < g.frm → c + n ≤ g.frm)
    (hto : ∀ g ∈ gs, c ≤ g.to → c + n - 1 ≤ g.to) :
    let pushed := ((gs.filter (fun g => decide (g.frm = c))).map openGroup).reverse ++ stack
    let k := (gs.filter (fun g => decide (g.to = c + n - 1))).length
    k ≤ pushed.length
    ∧ GInv gs (c + n) (pushed.drop k)
      (done ++ (pushed.take k).map (fun g => { g with to := c + n - 1 })) := by
  obtain ⟨L, h1, h2, h3, h4⟩ := h
  have hmemL : ∀ g ∈ L, g ∈ gs ∧ g.frm < c ∧ c ≤ g.to := by
    intro g hgL
    have := h2.mem_iff.mp hgL
    simp only [List.mem_filter, Bool.and_eq_true, decide_eq_true_eq] at this
    exact this
  -- the stack after pushing
  let L' := (gs.filter (fun g => decide (g.frm = c))).reverse ++ L
  have hpush : ((gs.filter (fun g => decide (g.frm = c))).map openGroup).reverse ++ stack
      = L'.map openGroup := by
    simp only [L', h1, List.map_append, List.map_reverse]
  have hmem' : ∀ g ∈ L', g ∈ gs ∧ g.frm ≤ c ∧ c ≤ g.to := by
    intro g hgL
    rcases List.mem_append.mp hgL with x | x
    · rw [List.mem_reverse] at x
      simp only [List.mem_filter, decide_eq_true_eq] at x
      have := hg.le g x.1
      exact ⟨x.1, by omega, by omega⟩
    · have := hmemL g x
      exact ⟨this.1, by omega, this.2.2⟩
  have hsort : L'.Pairwise (fun a b => a.to ≤ b.to) := by
    rw [List.pairwise_append]
    refine ⟨?_, h3, ?_⟩
    · rw [List.pairwise_reverse]
      have := hg.outer.filter (fun g => decide (g.frm = c))
      refine List.Pairwise.imp_of_mem ?_ this
      intro a b ha hb hab
      simp only [List.mem_filter, decide_eq_true_eq] at ha hb
      exact hab (by omega)
    · intro a ha b hb
      rw [List.mem_reverse] at ha
      simp only [List.mem_filter, decide_eq_true_eq] at ha
      obtain ⟨hb1, hb2, hb3⟩ := hmemL b hb
      have := laminar_cases (hg.le a ha.1) (hg.le b hb1) (hg.laminar a ha.1 b hb1)
      have := hg.le a ha.1
      omega
  have hperm' : L'.Perm (gs.filter (fun g => decide (g.frm ≤ c) && decide (c ≤ g.to))) := by
    have e1 : L'.Perm (gs.filter (fun g => decide (g.frm = c))
        ++ gs.filter (fun g => decide (g.frm < c) && decide (c ≤ g.to))) :=
      (List.reverse_perm _).append h2
    refine e1.trans ?_
    have e2 := List.filter_append_perm (fun g => decide (g.frm = c))
      (gs.filter (fun g => decide (g.frm ≤ c) && decide (c ≤ g.to)))
    rw [List.filter_filter, List.filter_filter] at e2
    have e3 : gs.filter (fun g => decide (g.frm = c))
        = gs.filter (fun g => decide (g.frm = c) && (decide (g.frm ≤ c) && decide (c ≤ g.to))) := by
      apply List.filter_congr
      intro g hgm
      have := hg.le g hgm
      rw [Bool.eq_iff_iff]
      simp only [Bool.and_eq_true, decide_eq_true_eq]
      omega
    have e4 : gs.filter (fun g => decide (g.frm < c) && decide (c ≤ g.to))
        = gs.filter (fun g => (!decide (g.frm = c)) && (decide (g.frm ≤ c) && decide (c ≤ g.to))) := by
      apply List.filter_congr
      intro g hgm
      have := hg.le g hgm
      rw [Bool.eq_iff_iff]
      simp only [Bool.and_eq_true, decide_eq_true_eq, Bool.not_eq_true', decide_eq_false_iff_not]
      omega
    rw [e3, e4]
    exact e2
  have hge : ∀ g ∈ L', c + n - 1 ≤ g.to := by
    intro g hgL
    have := hmem' g hgL
    exact hto g this.1 this.2.2
  obtain ⟨s1, s2⟩ := sorted_prefix (c + n - 1) L' hsort hge
  -- the groups to pop are all on the stack
  have hend : (L'.filter (fun g => decide (g.to = c + n - 1))).Perm
      (gs.filter (fun g => decide (g.to = c + n - 1))) := by
    refine (hperm'.filter _).trans ?_
    rw [List.filter_filter]
    apply List.Perm.of_eq
    apply List.filter_congr
    intro g hgm
    have h5 := hg.le g hgm
    have h6 := hfrm g hgm
    rw [Bool.eq_iff_iff]
    simp only [Bool.and_eq_true, decide_eq_true_eq]
    omega
  have hk : (gs.filter (fun g => decide (g.to = c + n - 1))).length
      = (L'.filter (fun g => decide (g.to = c + n - 1))).length := hend.length_eq.symm
  intro pushed k
  have hp : pushed = L'.map openGroup := hpush
  refine ⟨?_, ?_⟩
  · rw [hp, List.length_map]
    show (gs.filter _).length ≤ _
    rw [hk]
    exact List.length_filter_le _ _
  · have hkk : k = (L'.filter (fun g => decide (g.to = c + n - 1))).length := hk
    rw [hp, hkk]
    refine ⟨L'.filter (fun g => decide (c + n - 1 < g.to)), ?_, ?_, ?_, ?_⟩
    · rw [← List.map_drop, s2]
    · refine (hperm'.filter _).trans ?_
      rw [List.filter_filter]
      apply List.Perm.of_eq
      apply List.filter_congr
      intro g hgm
      have h5 := hg.le g hgm
      have h6 := hfrm g hgm
      have h7 := hto g hgm
      rw [Bool.eq_iff_iff]
      simp only [Bool.and_eq_true, decide_eq_true_eq]
      omega
    · exact hsort.filter _
    · rw [← List.map_take, s1, List.map_map]
      have e0 : (L'.filter (fun g => decide (g.to = c + n - 1))).map
          ((fun g => { g with to := c + n - 1 }) ∘ openGroup)
          = L'.filter (fun g => decide (g.to = c + n - 1)) := by
        conv => rhs; rw [← List.map_id (L'.filter (fun g => decide (g.to = c + n - 1)))]
        apply List.map_congr_left
        intro g hgm
        simp only [List.mem_filter, decide_eq_true_eq] at hgm
        cases g
        simp only [Function.comp, openGroup, id] at *
        rw [hgm.2]
      rw [e0]
      refine (h4.append hend).trans ?_
      have e2 := List.filter_append_perm (fun g : Grouped => decide (g.to < c))
        (gs.filter (fun g => decide (g.to < c + n)))
      rw [List.filter_filter, List.filter_filter] at e2
      have e3 : gs.filter (fun g => decide (g.to < c))
          = gs.filter (fun g => decide (g.to < c) && decide (g.to < c + n)) := by
        apply List.filter_congr
        intro g hgm
        rw [Bool.eq_iff_iff]
        simp only [Bool.and_eq_true, decide_eq_true_eq]
        omega
      have e4 : gs.filter (fun g => decide (g.to = c + n - 1))
          = gs.filter (fun g => (!decide (g.to < c)) && decide (g.to < c + n)) := by
        apply List.filter_congr
        intro g hgm
        have h7 := hto g hgm
        rw [Bool.eq_iff_iff]
        simp only [Bool.and_eq_true, decide_eq_true_eq, Bool.not_eq_true', decide_eq_false_iff_not]
        omega
      rw [e3, e4]
      exact e2

/-- After the last position everything is done. -/
theorem GInv.final {gs : List Grouped} {c : Nat} {stack done : List Grouped}
    (h : GInv gs c stack done) (hc : ∀ g ∈ gs, g.to < c) : stack = [] ∧ done.Perm gs := by
  obtain ⟨L, h1, h2, _, h4⟩ := h
  rw [List.filter_eq_nil_iff.mpr (by
    intro g hg
    have := hc g hg
    simp; omega)] at h2
  rw [List.perm_nil] at h2
  subst h2
  rw [List.filter_eq_self.mpr (by
    intro g hg
    have := hc g hg
    simpa using this)] at h4
  exact ⟨h1, h4⟩

end Verif
