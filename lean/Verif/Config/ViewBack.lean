import Verif.Config.ViewProps

/-!
# The view settings in a configuration

As in C47, for a configuration as it comes back from the file: without its empty texts.
-/

set_option autoImplicit false

namespace Verif.Config

open Xml Xml.Spec Codec

/-- The value at each path of a configuration without its empty texts. -/
theorem value_drop {ok : CValue → Prop} (m : List (Str × CItem)) (h : GoodConfig ok m) (q : List Str) :
    getValueRec q (.node .set (dropAll m)) = (getValueRec q (.node .set m)).filter (fun v => !v.isEmpty) := by
  have := getValue_drop (.node .set m) q (.node .set m h.1 (by intro p hp; rw [h.2.1 p hp]; decide)
    (fun p hp => good_mono (fun _ _ => trivial) (h.2.2 p hp))) rfl
  rwa [dropEmpty] at this

theorem itype_drop (x : CItem) : (dropEmpty x).itype = x.itype := by cases x <;> rfl

theorem mem_dropAll (m : List (Str × CItem)) (p : Str × CItem) (h : p ∈ dropAll m) :
    ∃ x, (p.1, x) ∈ m ∧ x.isEmptyText = false ∧ p.2 = dropEmpty x := by
  rw [dropAll_map] at h
  obtain ⟨q, hq, rfl⟩ := List.mem_map.1 h
  obtain ⟨hq, he⟩ := List.mem_filter.1 hq
  exact ⟨q.2, hq, by simpa using he, rfl⟩

theorem keys_dropAll (m : List (Str × CItem)) : ((dropAll m).map (·.1)).Sublist (m.map (·.1)) := by
  rw [dropAll_map, List.map_map]
  exact List.Sublist.map _ List.filter_sublist

theorem distinct_dropAll (m : List (Str × CItem)) (h : Distinct m) : Distinct (dropAll m) := by
  unfold Distinct at h ⊢
  exact h.sublist (keys_dropAll m)

theorem dropAll_full (m : List (Str × CItem)) (h : ∀ p ∈ m, p.2.isEmptyText = false) :
    (dropAll m).map (·.1) = m.map (·.1) := by
  rw [dropAll_map, List.filter_eq_self.2 (by intro p hp; rw [h p hp]; rfl), List.map_map]
  rfl

/-- Without its empty texts a configuration is still as the format allows it. -/
theorem good_drop {ok : CValue → Prop} {x : CItem} (h : Good ok x) : Good ok (dropEmpty x) := by
  induction h with
  | value v hv => rw [dropEmpty]; exact .value v hv
  | node k m hd hk hs ih =>
    rw [dropEmpty]
    refine .node k _ (distinct_dropAll m hd) ?_ ?_
    · have hty : ∀ p ∈ dropAll m, ∃ q ∈ m, p.2.itype = q.2.itype := by
        intro p hp
        obtain ⟨x, hx, _, e⟩ := mem_dropAll m p hp
        exact ⟨_, hx, by rw [e, itype_drop]⟩
      cases k with
      | set => intro p hp; obtain ⟨q, hq, e⟩ := hty p hp; rw [e]; exact hk q hq
      | entry => intro p hp; obtain ⟨q, hq, e⟩ := hty p hp; rw [e]; exact hk q hq
      | map => intro p hp; obtain ⟨q, hq, e⟩ := hty p hp; rw [e]; exact hk q hq
      | vec =>
        refine ⟨by intro p hp; obtain ⟨q, hq, e⟩ := hty p hp; rw [e]; exact hk.1 q hq, ?_⟩
        have hf := dropAll_full m (by
          intro p hp
          have := hk.1 p hp
          cases hx : p.2 with
          | value v => rw [hx] at this; cases this
          | node _ _ => rfl)
        have hl := congrArg List.length hf
        simp only [List.length_map] at hl
        rw [hf, hl]
        exact hk.2
    · intro p hp
      obtain ⟨x, hx, _, e⟩ := mem_dropAll m p hp
      rw [e]
      exact ih _ hx

theorem goodConfig_drop {ok : CValue → Prop} {m : List (Str × CItem)} (h : GoodConfig ok m) : GoodConfig ok (dropAll m) := by
  refine ⟨distinct_dropAll m h.1, ?_, ?_⟩
  · intro p hp
    obtain ⟨x, hx, _, e⟩ := mem_dropAll m p hp
    rw [e, itype_drop]
    exact h.2.1 _ hx
  · intro p hp
    obtain ⟨x, hx, _, e⟩ := mem_dropAll m p hp
    rw [e]
    exact good_drop (h.2.2 _ hx)

theorem emptyText_drop (x : CItem) : (dropEmpty x).isEmptyText = x.isEmptyText := by cases x <;> rfl

mutual
theorem dropEmpty_twice : ∀ x : CItem, dropEmpty (dropEmpty x) = dropEmpty x
  | .value v => by rw [dropEmpty, dropEmpty]
  | .node k m => by rw [dropEmpty, dropEmpty, dropAll_twice m]
/-- The empty texts are dropped once. -/
theorem dropAll_twice : ∀ m : List (Str × CItem), dropAll (dropAll m) = dropAll m
  | [] => by rw [dropAll, dropAll]
  | (n, x) :: m => by
    rw [dropAll]
    split
    · exact dropAll_twice m
    · rename_i h
      rw [dropAll, emptyText_drop, if_neg h, dropEmpty_twice x, dropAll_twice m]
end

/-- What is stored with the view can be read from the configuration. -/
theorem view_back (fl : Floats) (b b' : BookConfig) (sheets : List (Str × SheetConfig)) (hd : Distinct sheets)
    (hr : ∀ s ∈ sheets, s.2.InRange) (hne : ∀ s ∈ sheets, s.1 ≠ []) (m : List (Str × CItem))
    (hm : GoodConfig (ValueOk fl) m) (t : CItem)
    (h : calcConfig b sheets (.node .set m) = some (b', t)) :
    ∃ m1, t = .node .set m1 ∧ GoodConfig (ValueOk fl) m1 ∧ fixActive sheets b = some b'
      ∧ (∀ d, deriveBook (.node .set (dropAll m1)) d = b')
      ∧ (∀ s ∈ sheets, ∀ d, deriveSheet (.node .set (dropAll m1)) s.1 d
          = .ok { s.2 with pageViewZoomValue := d.pageViewZoomValue })
      ∧ ∀ q, (∀ a ∈ assigns b' sheets, ¬ a.full <+: q) →
          getValueRec q (.node .set (dropAll m1)) = (getValueRec q (.node .set m)).filter (fun v => !v.isEmpty) := by
  unfold calcConfig at h
  cases hfix : fixActive sheets b with
  | none => rw [hfix] at h; cases h
  | some b1 =>
    rw [hfix] at h
    simp only at h
    cases hset : setAll (assigns b1 sheets) (.node .set m) with
    | none => rw [hset] at h; cases h
    | some t1 =>
      rw [hset] at h
      simp only [Option.map_some, Option.some.injEq, Prod.mk.injEq] at h
      obtain ⟨rfl, rfl⟩ := h
      obtain ⟨m1, rfl, hg1⟩ := goodConfig_setAll (ValueOk fl) _ (assigns_good fl b1 sheets hr) m t1 hm hset
      have hact : b1.activeTable ≠ [] := by
        unfold fixActive at hfix
        split at hfix
        · cases sheets with
          | nil => cases hfix
          | cons s ss =>
            simp only [Option.some.injEq] at hfix
            rw [← hfix]
            exact hne s List.mem_cons_self
        · rename_i hh; cases hfix; exact hh
      have hvals : ∀ a ∈ assigns b1 sheets, a.value.isEmpty = false := by
        have hstr : ∀ s : Str, s ≠ [] → (CValue.string s).isEmpty = false := by
          intro s hs
          cases s with
          | nil => exact absurd rfl hs
          | cons _ _ => rfl
        intro a ha
        unfold assigns at ha
        rcases List.mem_append.1 ha with ha | ha
        · unfold bookAssigns at ha
          simp only [List.mem_cons, List.not_mem_nil, or_false] at ha
          rcases ha with rfl | rfl | rfl | rfl
          · exact hstr _ hact
          · rfl
          · rfl
          · rfl
        · obtain ⟨s, hs, ha⟩ := List.mem_flatMap.1 ha
          unfold sheetAssigns at ha
          rcases List.mem_append.1 ha with ha | ha
          · obtain ⟨k, _, rfl⟩ := List.mem_map.1 ha
            exact skey_not_empty s.2 k
          · rcases List.mem_cons.1 ha with rfl | ha
            · exact hstr _ (hne s hs)
            · cases ha
      have hall : ∀ a ∈ assigns b1 sheets, getValueRec a.full (.node .set (dropAll m1)) = some a.value := by
        intro a ha
        rw [value_drop m1 hg1, setAll_get _ (assigns_apart b1 sheets hd) _ _ hset a ha]
        simp [Option.filter, hvals a ha]
      refine ⟨m1, rfl, hg1, rfl, ?_, ?_, ?_⟩
      · have hbook : ∀ a ∈ bookAssigns b1, getValueRec a.full (.node .set (dropAll m1)) = some a.value := fun a hab =>
          hall a (by unfold assigns; exact List.mem_append.2 (.inl hab))
        intro d
        have e1 := hbook _ (List.mem_of_getElem? (i := 0) rfl)
        have e2 := hbook _ (List.mem_of_getElem? (i := 1) rfl)
        have e3 := hbook _ (List.mem_of_getElem? (i := 2) rfl)
        have e4 := hbook _ (List.mem_of_getElem? (i := 3) rfl)
        rw [full_book] at e1 e2 e3 e4
        unfold deriveBook
        rw [e1, e2, e3, e4]
      · intro s hs d
        refine deriveSheet_eq _ s.1 s.2 d (hr s hs) (fun k => ?_)
        have hmem : (⟨sheetPath s.1, k.name, s.2.value k⟩ : Assign) ∈ assigns b1 sheets := by
          unfold assigns
          refine List.mem_append.2 (.inr (List.mem_flatMap.2 ⟨s, hs, ?_⟩))
          unfold sheetAssigns
          refine List.mem_append.2 (.inl (List.mem_map.2 ⟨k, ?_, rfl⟩))
          cases k <;> decide
        have h1 := hall _ hmem
        rw [full_sheet] at h1
        exact h1
      · intro q hq
        rw [value_drop m1 hg1, setAll_other _ q hq _ _ hset]

end Verif.Config
