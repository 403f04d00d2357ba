import Verif.Config.View
import Verif.Config.SettingsProps

/-!
# What is kept of the view settings (C47)
-/

set_option autoImplicit false

namespace Verif.Config

open Xml Xml.Spec Codec

/-! ## Setting values -/

/-- The whole path of an assignment. -/
def Assign.full (a : Assign) : List Str := a.path.map (·.1) ++ [a.name]

theorem setAll_other (as : List Assign) (q : List Str) (h : ∀ a ∈ as, ¬ a.full <+: q) : ∀ t t', setAll as t = some t' →
    getValueRec q t' = getValueRec q t := by
  induction as with
  | nil => intro t t' hs; cases hs; rfl
  | cons a as ih =>
    intro t t' hs
    rw [setAll] at hs
    cases h1 : setAt a.path a.name (.value a.value) t with
    | none => rw [h1] at hs; cases hs
    | some t1 =>
      rw [h1] at hs
      rw [ih (fun b hb => h b (List.mem_cons_of_mem _ hb)) t1 t' hs]
      exact C45_get_other _ _ _ q t t1 h1 (h a List.mem_cons_self)

theorem setAll_get (as : List Assign) (hp : as.Pairwise fun a b => ¬ b.full <+: a.full) : ∀ t t', setAll as t = some t' →
    ∀ a ∈ as, getValueRec a.full t' = some a.value := by
  induction as with
  | nil => intro t t' _ a ha; cases ha
  | cons a as ih =>
    intro t t' hs b hb
    rw [setAll] at hs
    obtain ⟨hp1, hp2⟩ := List.pairwise_cons.1 hp
    cases h1 : setAt a.path a.name (.value a.value) t with
    | none => rw [h1] at hs; cases hs
    | some t1 =>
      rw [h1] at hs
      rcases List.mem_cons.1 hb with rfl | hb
      · rw [setAll_other as b.full (fun c hc => hp1 c hc) t1 t' hs]
        exact C45_value _ _ _ t t1 h1
      · exact ih hp2 t1 t' hs b hb

/-- Two paths ask for the same kinds. -/
def Agree : List (Str × IType) → List (Str × IType) → Prop
  | (a, s) :: p, (b, t) :: q => a = b → s = t ∧ Agree p q
  | _, _ => True

/-- Only maps on the path. -/
def NoValue (p : List (Str × IType)) : Prop := ∀ x ∈ p, x.2 ≠ none

theorem pathFits_new (k : Kind) (q : List (Str × IType)) (h : NoValue q) : PathFits q (.node k []) := by
  cases q with
  | nil => trivial
  | cons p q => obtain ⟨n, t⟩ := p; simp only [PathFits, lookup]; exact h

theorem createPath_step (f : CItem → Option CItem) (a : Str) (ty : IType) (p : List (Str × IType)) (k : Kind)
    (m : List (Str × CItem)) (t' : CItem) (h : createPath f ((a, ty) :: p) (.node k m) = some t') :
    ∃ x x', (lookup m a = some x ∨ (lookup m a = none ∧ newItem ty = some x)) ∧ x.itype = ty
      ∧ createPath f p x = some x' ∧ t' = .node k (put m a x') := by
  simp only [createPath] at h
  cases hl : lookup m a with
  | some x =>
    rw [hl] at h
    simp only at h
    split at h
    · rename_i hx
      cases hc : createPath f p x with
      | none => rw [hc] at h; cases h
      | some x' => rw [hc] at h; cases h; exact ⟨x, x', .inl rfl, hx, hc, rfl⟩
    · cases h
  | none =>
    rw [hl] at h
    simp only at h
    cases hn : newItem ty with
    | none => rw [hn] at h; cases h
    | some x =>
      rw [hn] at h
      simp only at h
      split at h
      · rename_i hx
        cases hc : createPath f p x with
        | none => rw [hc] at h; cases h
        | some x' => rw [hc] at h; cases h; exact ⟨x, x', .inr ⟨rfl, rfl⟩, hx, hc, rfl⟩
      · cases h

theorem createPath_kind (f : CItem → Option CItem) (hf : ∀ k m x, f (.node k m) = some x → x.itype = some k)
    (p : List (Str × IType)) (k : Kind) (m : List (Str × CItem)) (x : CItem)
    (h : createPath f p (.node k m) = some x) : x.itype = some k := by
  cases p with
  | nil => exact hf k m x h
  | cons a p =>
    obtain ⟨n, t⟩ := a
    obtain ⟨_, _, _, _, _, rfl⟩ := createPath_step f n t p k m x h
    rfl

/-- Setting a value keeps the paths that agree with it. -/
theorem fits_setAt (p : List (Str × IType)) (n : Str) (v : CValue) : ∀ (q : List (Str × IType)) (t t' : CItem),
    setAt p n (.value v) t = some t' → NoValue q → Agree (p ++ [(n, none)]) q → PathFits q t → PathFits q t' := by
  unfold setAt
  induction p with
  | nil =>
    intro q t t' hs hq ha hf
    cases t with
    | value w => simp [createPath] at hs
    | node k m =>
      simp only [createPath, CItem.insert, Option.some.injEq] at hs
      subst hs
      cases q with
      | nil => trivial
      | cons b q =>
        obtain ⟨b, tb⟩ := b
        have hne : n ≠ b := by
          intro he
          have := (ha he).1
          exact hq (b, tb) List.mem_cons_self this.symm
        simp only [PathFits, lookup_put, if_neg hne] at hf ⊢
        exact hf
  | cons a p ih =>
    intro q t t' hs hq ha hf
    obtain ⟨a, ty⟩ := a
    cases t with
    | value w => simp [createPath] at hs
    | node k m =>
      obtain ⟨x, x', hx, hxt, hc, rfl⟩ := createPath_step _ a ty p k m t' hs
      cases q with
      | nil => trivial
      | cons b q =>
        obtain ⟨b, tb⟩ := b
        simp only [PathFits, lookup_put] at hf ⊢
        by_cases hb : a = b
        · subst hb
          rw [if_pos rfl]
          simp only
          obtain ⟨h1, h2⟩ := ha rfl
          have hq' : NoValue q := fun y hy => hq y (List.mem_cons_of_mem _ hy)
          have hkind : x'.itype = x.itype := by
            cases x with
            | value w => cases p <;> simp [createPath, CItem.insert] at hc
            | node k' m' =>
              exact createPath_kind _ (by
                intro k m x h
                simp only [CItem.insert, Option.some.injEq] at h
                subst h; rfl) p k' m' x' hc
          refine ⟨by rw [hkind, hxt]; exact h1, ih q x x' hc hq' h2 ?_⟩
          rcases hx with hl | ⟨hl, hx⟩
          · rw [hl] at hf
            exact hf.2
          · cases ty with
            | none => cases hx
            | some k' =>
              simp only [newItem, Option.some.injEq] at hx
              subst hx
              exact pathFits_new k' q hq'
        · rw [if_neg hb]
          exact hf

/-- If the paths agree with each other and fit into the tree, all values can be set. -/
theorem setAll_some (as : List Assign) (hn : ∀ a ∈ as, NoValue a.path)
    (ha : ∀ a ∈ as, ∀ b ∈ as, Agree (a.path ++ [(a.name, none)]) b.path) : ∀ t, (∀ a ∈ as, PathFits a.path t) →
    ∃ t', setAll as t = some t' := by
  induction as with
  | nil => intro t _; exact ⟨t, rfl⟩
  | cons a as ih =>
    intro t hf
    have h1 : (setAt a.path a.name (.value a.value) t).isSome = true :=
      (C45_set_iff _ _ _ t).2 (hf a List.mem_cons_self)
    cases h2 : setAt a.path a.name (.value a.value) t with
    | none => rw [h2] at h1; cases h1
    | some t1 =>
      obtain ⟨t', ht⟩ := ih (fun b hb => hn b (List.mem_cons_of_mem _ hb))
        (fun b hb c hc => ha b (List.mem_cons_of_mem _ hb) c (List.mem_cons_of_mem _ hc)) t1
        (fun b hb => fits_setAt _ _ _ _ t t1 h2 (hn b (List.mem_cons_of_mem _ hb))
          (ha a List.mem_cons_self b (List.mem_cons_of_mem _ hb)) (hf b (List.mem_cons_of_mem _ hb)))
      exact ⟨t', by rw [setAll, h2]; exact ht⟩

/-! ## The values of the view settings -/

theorem bkey_tables (k : BKey) : k.name ≠ kTables := by cases k <;> decide +kernel
theorem skey_inj (a b : SKey) (h : a.name = b.name) : a = b := by
  revert h; cases a <;> cases b <;> first | (intro _; rfl) | (intro h; exact absurd h (by decide +kernel))
theorem bkey_inj (a b : BKey) (h : a.name = b.name) : a = b := by
  revert h; cases a <;> cases b <;> first | (intro _; rfl) | (intro h; exact absurd h (by decide +kernel))
theorem view_ne : kView ≠ kConf := by decide +kernel

/-- Each value that is set: one of the book, one of a sheet, or the name of a sheet. -/
theorem mem_assigns (b : BookConfig) (sheets : List (Str × SheetConfig)) (a : Assign) (h : a ∈ assigns b sheets) :
    (∃ (k : BKey) (v : CValue), a = ⟨viewPath, k.name, v⟩)
      ∨ (∃ s ∈ sheets, ∃ k : SKey, a = ⟨sheetPath s.1, k.name, s.2.value k⟩)
      ∨ ∃ s ∈ sheets, a = ⟨scriptPath s.1, kCodeName, .string s.1⟩ := by
  unfold assigns at h
  rcases List.mem_append.1 h with h | h
  · left
    unfold bookAssigns at h
    rcases List.mem_cons.1 h with rfl | h
    · exact ⟨_, _, rfl⟩
    rcases List.mem_cons.1 h with rfl | h
    · exact ⟨_, _, rfl⟩
    rcases List.mem_cons.1 h with rfl | h
    · exact ⟨_, _, rfl⟩
    rcases List.mem_cons.1 h with rfl | h
    · exact ⟨_, _, rfl⟩
    cases h
  · right
    obtain ⟨s, hs, h⟩ := List.mem_flatMap.1 h
    unfold sheetAssigns at h
    rcases List.mem_append.1 h with h | h
    · left
      obtain ⟨k, _, rfl⟩ := List.mem_map.1 h
      exact ⟨s, hs, k, rfl⟩
    · right
      rcases List.mem_cons.1 h with rfl | h
      · exact ⟨s, hs, rfl⟩
      · cases h

theorem full_book (k : BKey) (v : CValue) : (⟨viewPath, k.name, v⟩ : Assign).full = [kView, kViews, kZero, k.name] := rfl
theorem full_sheet (n : Str) (k : SKey) (v : CValue) :
    (⟨sheetPath n, k.name, v⟩ : Assign).full = [kView, kViews, kZero, kTables, n, k.name] := rfl
theorem full_script (n : Str) (v : CValue) : (⟨scriptPath n, kCodeName, v⟩ : Assign).full = [kConf, kScript, n, kCodeName] := rfl

/-- The paths are those of maps. -/
theorem assigns_noValue (b : BookConfig) (sheets : List (Str × SheetConfig)) :
    ∀ a ∈ assigns b sheets, NoValue a.path := by
  intro a ha
  rcases mem_assigns b sheets a ha with ⟨k, v, rfl⟩ | ⟨s, _, k, rfl⟩ | ⟨s, _, rfl⟩
  · intro x hx; simp only [viewPath, List.mem_cons, List.not_mem_nil, or_false] at hx
    rcases hx with rfl | rfl | rfl <;> (intro h; cases h)
  · intro x hx
    simp only [sheetPath, viewPath, List.cons_append, List.nil_append, List.mem_cons, List.not_mem_nil, or_false] at hx
    rcases hx with rfl | rfl | rfl | rfl | rfl <;> (intro h; cases h)
  · intro x hx; simp only [scriptPath, List.mem_cons, List.not_mem_nil, or_false] at hx
    rcases hx with rfl | rfl | rfl <;> (intro h; cases h)

/-- They agree with each other. -/
theorem assigns_agree (b : BookConfig) (sheets : List (Str × SheetConfig)) :
    ∀ a ∈ assigns b sheets, ∀ c ∈ assigns b sheets, Agree (a.path ++ [(a.name, none)]) c.path := by
  intro a ha c hc
  have hv := view_ne
  rcases mem_assigns b sheets a ha with ⟨k, v, rfl⟩ | ⟨s, _, k, rfl⟩ | ⟨s, _, rfl⟩ <;>
    rcases mem_assigns b sheets c hc with ⟨k', v', rfl⟩ | ⟨s', _, k', rfl⟩ | ⟨s', _, rfl⟩
  · exact fun _ => ⟨rfl, fun _ => ⟨rfl, fun _ => ⟨rfl, trivial⟩⟩⟩
  · exact fun _ => ⟨rfl, fun _ => ⟨rfl, fun _ => ⟨rfl, fun h => absurd h (bkey_tables k)⟩⟩⟩
  · exact fun h => absurd h hv
  · exact fun _ => ⟨rfl, fun _ => ⟨rfl, fun _ => ⟨rfl, trivial⟩⟩⟩
  · exact fun _ => ⟨rfl, fun _ => ⟨rfl, fun _ => ⟨rfl, fun _ => ⟨rfl, fun _ => ⟨rfl, trivial⟩⟩⟩⟩⟩
  · exact fun h => absurd h hv
  · exact fun h => absurd h.symm hv
  · exact fun h => absurd h.symm hv
  · exact fun _ => ⟨rfl, fun _ => ⟨rfl, fun _ => ⟨rfl, trivial⟩⟩⟩

theorem pairwise_map_inj {α β : Type} (f : α → β) (R : β → β → Prop) (l : List α) (hn : l.Nodup)
    (h : ∀ a b, a ≠ b → R (f a) (f b)) : (l.map f).Pairwise R := by
  rw [List.pairwise_map]
  exact List.Pairwise.imp (fun hab => h _ _ hab) hn

/-- No value is overwritten, if the sheets have different names. -/
theorem assigns_apart (b : BookConfig) (sheets : List (Str × SheetConfig)) (hd : Distinct sheets) :
    (assigns b sheets).Pairwise fun a c => ¬ c.full <+: a.full := by
  have hlen : ∀ {p q : List Str}, p.length = q.length → p <+: q → p = q := by
    intro p q hl h
    exact h.eq_of_length hl
  have hv := view_ne
  have hsheets : ∀ (sheets : List (Str × SheetConfig)), Distinct sheets →
      (sheets.flatMap fun s => sheetAssigns s.1 s.2).Pairwise fun a c => ¬ c.full <+: a.full := by
    intro sheets
    induction sheets with
    | nil => intro _; exact List.Pairwise.nil
    | cons s sheets ih =>
      intro hd
      unfold Distinct at hd
      rw [List.map_cons, List.nodup_cons] at hd
      rw [List.flatMap_cons]
      refine List.pairwise_append.2 ⟨?_, ih hd.2, ?_⟩
      · unfold sheetAssigns
        refine List.pairwise_append.2 ⟨?_, List.pairwise_singleton _ _, ?_⟩
        · refine pairwise_map_inj _ _ _ (by decide) (fun k k' hkk hp => ?_)
          have := hlen (by rfl) hp
          rw [full_sheet, full_sheet] at this
          simp only [List.cons.injEq, and_true, true_and] at this
          exact hkk (skey_inj _ _ this.symm)
        · intro a ha c hc hp
          obtain ⟨k, _, rfl⟩ := List.mem_map.1 ha
          rcases List.mem_cons.1 hc with rfl | hc
          · rw [full_script, full_sheet] at hp
            exact hv ((List.cons_prefix_cons.1 hp).1).symm
          · cases hc
      · intro a ha c hc hp
        obtain ⟨s', hs', hc⟩ := List.mem_flatMap.1 hc
        have hne : s'.1 ≠ s.1 := fun he => hd.1 (he ▸ List.mem_map_of_mem hs')
        unfold sheetAssigns at ha hc
        rcases List.mem_append.1 ha with ha | ha <;> rcases List.mem_append.1 hc with hc | hc
        · obtain ⟨k, _, rfl⟩ := List.mem_map.1 ha
          obtain ⟨k', _, rfl⟩ := List.mem_map.1 hc
          have := hlen (by rfl) hp
          rw [full_sheet, full_sheet] at this
          simp only [List.cons.injEq, and_true, true_and] at this
          exact hne this.1
        · obtain ⟨k, _, rfl⟩ := List.mem_map.1 ha
          rcases List.mem_cons.1 hc with rfl | hc
          · rw [full_script, full_sheet] at hp
            exact hv ((List.cons_prefix_cons.1 hp).1).symm
          · cases hc
        · obtain ⟨k, _, rfl⟩ := List.mem_map.1 hc
          rcases List.mem_cons.1 ha with rfl | ha
          · rw [full_script, full_sheet] at hp
            exact hv (List.cons_prefix_cons.1 hp).1
          · cases ha
        · rcases List.mem_cons.1 ha with rfl | ha
          · rcases List.mem_cons.1 hc with rfl | hc
            · have := hlen (by rfl) hp
              rw [full_script, full_script] at this
              simp only [List.cons.injEq, and_true, true_and] at this
              exact hne this
            · cases hc
          · cases ha
  unfold assigns
  refine List.pairwise_append.2 ⟨?_, hsheets sheets hd, ?_⟩
  · unfold bookAssigns
    have hkk : ∀ (k k' : BKey) (v v' : CValue), k ≠ k' →
        ¬ (⟨viewPath, k'.name, v'⟩ : Assign).full <+: (⟨viewPath, k.name, v⟩ : Assign).full := by
      intro k k' v v' hne hp
      have := hlen (by rfl) hp
      rw [full_book, full_book] at this
      simp only [List.cons.injEq, and_true, true_and] at this
      exact hne (bkey_inj _ _ this.symm)
    simp only [List.pairwise_cons, List.mem_cons, List.not_mem_nil, or_false]
    refine ⟨?_, ?_, ?_, ?_, List.Pairwise.nil⟩
    · rintro a (rfl | rfl | rfl) <;> exact hkk _ _ _ _ (by decide)
    · rintro a (rfl | rfl) <;> exact hkk _ _ _ _ (by decide)
    · rintro a rfl; exact hkk _ _ _ _ (by decide)
    · intro a h; cases h
  · intro a ha c hc hp
    have ha' := mem_assigns b [] a (by unfold assigns; rw [List.flatMap_nil, List.append_nil]; exact ha)
    rcases ha' with ⟨k, v, rfl⟩ | ⟨s, hs, _⟩ | ⟨s, hs, _⟩
    · have hc' := mem_assigns b sheets c (by unfold assigns; exact List.mem_append.2 (.inr hc))
      obtain ⟨s, hs, hc⟩ := List.mem_flatMap.1 hc
      unfold sheetAssigns at hc
      rcases List.mem_append.1 hc with hc | hc
      · obtain ⟨k', _, rfl⟩ := List.mem_map.1 hc
        rw [full_sheet, full_book] at hp
        have := hp.length_le
        simp at this
      · rcases List.mem_cons.1 hc with rfl | hc
        · rw [full_script, full_book] at hp
          exact hv ((List.cons_prefix_cons.1 hp).1).symm
        · cases hc
    · cases hs
    · cases hs

theorem getValueRec_append (p q : List Str) : ∀ t x, getRec p t = some x → getValueRec (p ++ q) t = getValueRec q x := by
  induction p with
  | nil => intro t x h; cases h; rfl
  | cons n p ih =>
    intro t x h
    cases t with
    | value v => cases h
    | node k m =>
      simp only [getRec] at h
      rw [List.cons_append]
      simp only [getValueRec]
      cases hl : lookup m n with
      | none => rw [hl] at h; cases h
      | some y => rw [hl] at h; exact ih y x h

theorem getRec_of_value (p q : List Str) : ∀ t v, getValueRec (p ++ q) t = some v → ∃ x, getRec p t = some x := by
  induction p with
  | nil => intro t v _; exact ⟨t, rfl⟩
  | cons n p ih =>
    intro t v h
    cases t with
    | value w => cases h
    | node k m =>
      rw [List.cons_append] at h
      simp only [getValueRec] at h
      simp only [getRec]
      cases hl : lookup m n with
      | none => rw [hl] at h; cases h
      | some y => rw [hl] at h; exact ih y v h

/-! ## C47 -/

/-- The fields are values of their types. -/
def SheetConfig.InRange (c : SheetConfig) : Prop :=
  c.cursorX < 2 ^ 32 ∧ c.cursorY < 2 ^ 32 ∧ c.horSplitPos < 2 ^ 32 ∧ c.vertSplitPos < 2 ^ 32
    ∧ (-32768 ≤ c.activeSplitRange ∧ c.activeSplitRange < 32768) ∧ c.positionLeft < 2 ^ 32
    ∧ c.positionRight < 2 ^ 32 ∧ c.positionTop < 2 ^ 32 ∧ c.positionBottom < 2 ^ 32
    ∧ (-32768 ≤ c.zoomType ∧ c.zoomType < 32768) ∧ (-2147483648 ≤ c.zoomValue ∧ c.zoomValue < 2147483648)
    ∧ (-2147483648 ≤ c.pageViewZoomValue ∧ c.pageViewZoomValue < 2147483648)

theorem toU32_toI32 (n : Nat) (h : n < 2 ^ 32) : toU32 (toI32 n) = n := by
  unfold toU32 toI32
  split <;> omega

theorem toI32_range (n : Nat) (h : n < 2 ^ 32) : -2147483648 ≤ toI32 n ∧ toI32 n < 2147483648 := by
  unfold toI32
  split <;> omega

theorem ofCode_code (m : SplitMode) : SplitMode.ofCode m.code = .ok m := by cases m <;> rfl

/-- If the tree has the values of a sheet, they are read. -/
theorem deriveSheet_eq (t : CItem) (n : Str) (c d : SheetConfig) (hr : c.InRange)
    (h : ∀ k : SKey, getValueRec [kView, kViews, kZero, kTables, n, k.name] t = some (c.value k)) :
    deriveSheet t n d = .ok { c with pageViewZoomValue := d.pageViewZoomValue } := by
  obtain ⟨cc, hcc⟩ := getRec_of_value [kView, kViews, kZero, kTables, n] [SKey.showGrid.name] t _ (h .showGrid)
  have hk : ∀ k : SKey, getValueRec [k.name] cc = some (c.value k) := by
    intro k
    rw [← getValueRec_append _ [k.name] t cc hcc]
    exact h k
  unfold deriveSheet
  rw [hcc]
  obtain ⟨h1, h2, h3, h4, h5, h6, h7, h8, h9, h10, h11, h12⟩ := hr
  simp only [getMode, getU32, getI16, getI32, getBool, hk, SheetConfig.value, ofCode_code, toU32_toI32 _ h1,
    toU32_toI32 _ h2, toU32_toI32 _ h3, toU32_toI32 _ h4, toU32_toI32 _ h6, toU32_toI32 _ h7, toU32_toI32 _ h8,
    toU32_toI32 _ h9]

/-! ### The shape of the tree -/

/-- A step from a map of kind `k` to one of kind `t` with the name `n`. -/
def Allowed (k : Kind) (n : Str) (t : IType) : Prop :=
  match k with
  | .set | .entry => t ≠ some .entry
  | .map => t = some .entry
  | .vec => t = some .entry ∧ n = decNat 0

/-- A path of such steps. -/
def PathAllowed : Kind → List (Str × IType) → Prop
  | _, [] => True
  | k, (n, t) :: p => Allowed k n t ∧ match t with | none => p = [] | some k' => PathAllowed k' p

theorem put_keys_mem (m : List (Str × CItem)) (n : Str) (x : CItem) (h : n ∈ m.map (·.1)) :
    (put m n x).map (·.1) = m.map (·.1) := by
  rw [put_keys, if_pos h]

theorem good_put (ok : CValue → Prop) (k : Kind) (m : List (Str × CItem)) (n : Str) (x : CItem)
    (h : Good ok (.node k m)) (hx : Good ok x) (ha : Allowed k n x.itype) : Good ok (.node k (put m n x)) := by
  cases h with
  | node _ _ hd hk hs =>
    refine .node _ _ (distinct_put m n x hd) ?_ ?_
    · have hent : ∀ P : CItem → Prop, (∀ p ∈ m, P p.2) → P x → ∀ p ∈ put m n x, P p.2 := by
        intro P h1 h2 p hp
        rcases mem_put m n x p hp with hp | rfl
        · exact h1 p hp
        · exact h2
      cases k with
      | set => exact hent (fun x => x.itype ≠ some .entry) hk ha
      | entry => exact hent (fun x => x.itype ≠ some .entry) hk ha
      | map => exact hent (fun x => x.itype = some .entry) hk ha
      | vec =>
        refine ⟨hent (fun x => x.itype = some .entry) hk.1 ha.1, ?_⟩
        obtain ⟨_, rfl⟩ := ha
        cases m with
        | nil => rfl
        | cons p m =>
          have hz : decNat 0 ∈ (p :: m).map (·.1) := by
            rw [hk.2]
            exact List.mem_map_of_mem (by simp)
          have hl : (put (p :: m) (decNat 0) x).length = (p :: m).length := by
            have := congrArg List.length (put_keys_mem (p :: m) (decNat 0) x hz)
            simpa using this
          rw [put_keys_mem _ _ _ hz, hk.2, hl]
    · intro p hp
      rcases mem_put m n x p hp with hp | rfl
      · exact hs p hp
      · exact hx

theorem good_new (ok : CValue → Prop) (k : Kind) : Good ok (.node k []) := by
  refine .node _ _ List.nodup_nil ?_ (fun _ h => by cases h)
  cases k
  · intro p h; cases h
  · exact ⟨(fun p h => by cases h), rfl⟩
  · intro p h; cases h
  · intro p h; cases h

/-- Setting a value at an allowed path keeps the shape. -/
theorem good_setAt (ok : CValue → Prop) (n : Str) (v : CValue) (hv : ok v) (p : List (Str × IType)) :
    ∀ (k : Kind) (m : List (Str × CItem)) (t' : CItem), Good ok (.node k m) → PathAllowed k (p ++ [(n, none)]) →
    setAt p n (.value v) (.node k m) = some t' → Good ok t' := by
  unfold setAt
  induction p with
  | nil =>
    intro k m t' hg ha hs
    simp only [createPath, CItem.insert, Option.some.injEq] at hs
    subst hs
    exact good_put ok k m n _ hg (.value v hv) ha.1
  | cons a p ih =>
    intro k m t' hg ha hs
    obtain ⟨a, ty⟩ := a
    obtain ⟨x, x', hx, hxt, hc, rfl⟩ := createPath_step _ a ty p k m t' hs
    obtain ⟨ha1, ha2⟩ := ha
    have hgx : Good ok x := by
      rcases hx with hl | ⟨hl, hx⟩
      · cases hg with
        | node _ _ hd hk hs => exact hs _ (lookup_mem m a x hl)
      · cases ty with
        | none => cases hx
        | some k' => cases hx; exact good_new ok k'
    cases x with
    | value w => cases p <;> simp [createPath, CItem.insert] at hc
    | node k' m' =>
      have hty : ty = some k' := hxt.symm
      subst hty
      have hkind : x'.itype = some k' := createPath_kind _ (by
        intro k m x h
        simp only [CItem.insert, Option.some.injEq] at h
        subst h; rfl) p k' m' x' hc
      exact good_put ok k m a x' hg (ih k' m' x' hgx ha2 hc) (by rw [hkind]; exact ha1)

/-- The same at the top of the configuration. -/
theorem goodConfig_setAt (ok : CValue → Prop) (n : Str) (v : CValue) (hv : ok v) (a : Str) (p : List (Str × IType))
    (m : List (Str × CItem)) (t' : CItem) (hg : GoodConfig ok m) (ha : PathAllowed .set (p ++ [(n, none)]))
    (hs : setAt ((a, some .set) :: p) n (.value v) (.node .set m) = some t') :
    ∃ m', t' = .node .set m' ∧ GoodConfig ok m' := by
  unfold setAt at hs
  obtain ⟨x, x', hx, hxt, hc, rfl⟩ := createPath_step _ a _ p .set m t' hs
  have hgx : Good ok x := by
    rcases hx with hl | ⟨hl, hx⟩
    · exact hg.2.2 _ (lookup_mem m a x hl)
    · cases hx
      exact good_new ok .set
  cases x with
  | value w => cases hxt
  | node k' m' =>
    cases hxt
    have hkind : x'.itype = some .set := createPath_kind _ (by
      intro k m x h
      simp only [CItem.insert, Option.some.injEq] at h
      subst h; rfl) p .set m' x' hc
    have hgx' := good_setAt ok n v hv p .set m' x' hgx ha hc
    refine ⟨_, rfl, distinct_put m a x' hg.1, ?_, ?_⟩
    · intro q hq
      rcases mem_put m a x' q hq with hq | rfl
      · exact hg.2.1 q hq
      · exact hkind
    · intro q hq
      rcases mem_put m a x' q hq with hq | rfl
      · exact hg.2.2 q hq
      · exact hgx'

theorem goodConfig_setAll (ok : CValue → Prop) (as : List Assign)
    (h : ∀ a ∈ as, ok a.value ∧ ∃ n p, a.path = (n, some .set) :: p ∧ PathAllowed .set (p ++ [(a.name, none)])) :
    ∀ (m : List (Str × CItem)) (t' : CItem), GoodConfig ok m → setAll as (.node .set m) = some t' →
    ∃ m', t' = .node .set m' ∧ GoodConfig ok m' := by
  induction as with
  | nil => intro m t' hg hs; cases hs; exact ⟨m, rfl, hg⟩
  | cons a as ih =>
    intro m t' hg hs
    rw [setAll] at hs
    obtain ⟨hv, n, p, hp, ha⟩ := h a List.mem_cons_self
    cases h1 : setAt a.path a.name (.value a.value) (.node .set m) with
    | none => rw [h1] at hs; cases hs
    | some t1 =>
      rw [h1] at hs
      rw [hp] at h1
      obtain ⟨m1, rfl, hg1⟩ := goodConfig_setAt ok a.name a.value hv n p m t1 hg ha h1
      exact ih (fun b hb => h b (List.mem_cons_of_mem _ hb)) m1 t' hg1 hs

theorem code_range (m : SplitMode) : -32768 ≤ m.code ∧ m.code < 32768 := by cases m <;> decide

/-- The values of a sheet can be written. -/
theorem value_ok (fl : Floats) (c : SheetConfig) (h : c.InRange) (k : SKey) : ValueOk fl (c.value k) := by
  obtain ⟨h1, h2, h3, h4, h5, h6, h7, h8, h9, h10, h11, h12⟩ := h
  cases k
  · exact toI32_range _ h1
  · exact toI32_range _ h2
  · exact code_range _
  · exact code_range _
  · exact toI32_range _ h3
  · exact toI32_range _ h4
  · exact h5
  · exact toI32_range _ h6
  · exact toI32_range _ h7
  · exact toI32_range _ h8
  · exact toI32_range _ h9
  · exact h10
  · exact h11
  · exact h12
  · trivial

theorem skey_not_empty (c : SheetConfig) (k : SKey) : (c.value k).isEmpty = false := by cases k <;> rfl

/-- The values of the book. -/
theorem bookAssigns_ok (fl : Floats) (b : BookConfig) : ∀ a ∈ bookAssigns b, ValueOk fl a.value := by
  intro a ha
  unfold bookAssigns at ha
  rcases List.mem_cons.1 ha with rfl | ha
  · trivial
  rcases List.mem_cons.1 ha with rfl | ha
  · trivial
  rcases List.mem_cons.1 ha with rfl | ha
  · trivial
  rcases List.mem_cons.1 ha with rfl | ha
  · trivial
  cases ha

theorem assigns_good (fl : Floats) (b : BookConfig) (sheets : List (Str × SheetConfig))
    (hr : ∀ s ∈ sheets, s.2.InRange) : ∀ a ∈ assigns b sheets,
    ValueOk fl a.value ∧ ∃ n p, a.path = (n, some .set) :: p ∧ PathAllowed .set (p ++ [(a.name, none)]) := by
  intro a ha
  have hval : ValueOk fl a.value := by
    have ha2 := ha
    unfold assigns at ha2
    rcases List.mem_append.1 ha2 with h | h
    · exact bookAssigns_ok fl b a h
    · obtain ⟨s, hs, h⟩ := List.mem_flatMap.1 h
      unfold sheetAssigns at h
      rcases List.mem_append.1 h with h | h
      · obtain ⟨k, _, rfl⟩ := List.mem_map.1 h
        exact value_ok fl s.2 (hr s hs) k
      · rcases List.mem_cons.1 h with rfl | h
        · trivial
        · cases h
  refine ⟨hval, ?_⟩
  have hz : kZero = decNat 0 := by decide
  rcases mem_assigns b sheets a ha with ⟨k, v, rfl⟩ | ⟨s, _, k, rfl⟩ | ⟨s, _, rfl⟩
  · exact ⟨kView, _, rfl, by simp [Allowed], ⟨rfl, hz⟩, by simp [Allowed], rfl⟩
  · exact ⟨kView, _, rfl, by simp [Allowed], ⟨rfl, hz⟩, by simp [Allowed], rfl, by simp [Allowed], rfl⟩
  · exact ⟨kConf, _, rfl, by simp [Allowed], rfl, by simp [Allowed], rfl⟩

/-- **C47** (part): the view settings of the workbook and of every sheet are the same after write and read,
whatever was in the configuration before; only the zoom of the page view is lost.
`d` are the settings a sheet has while it is read, the defaults.  Missing: that zoom, see
`C47_page_zoom_counterexample`; sheets with the same name, see `C47_same_name_counterexample`. -/
theorem C47_roundtrip_partial (fl : Floats) (lb : Bool) (atts : List (Bool × Str × Str)) (ha : AttrsOk atts)
    (b b' : BookConfig) (sheets : List (Str × SheetConfig)) (hd : Distinct sheets) (hr : ∀ s ∈ sheets, s.2.InRange)
    (hne : ∀ s ∈ sheets, s.1 ≠ []) (m : List (Str × CItem)) (hm : GoodConfig (ValueOk fl) m) (t : CItem)
    (h : calcConfig b sheets (.node .set m) = some (b', t)) :
    ∃ m1 calls m2, t = .node .set m1 ∧ writeSettingsDoc fl atts m1 = some calls
      ∧ readFile fl (output lb calls) = .ok m2
      ∧ (∀ d, deriveBook (.node .set m2) d = b')
      ∧ ∀ s ∈ sheets, ∀ d, deriveSheet (.node .set m2) s.1 d
          = .ok { s.2 with pageViewZoomValue := d.pageViewZoomValue } := by
  unfold calcConfig at h
  cases hfix : fixActive sheets b with
  | none => rw [hfix] at h; cases h
  | some b1 =>
    rw [hfix] at h
    simp only at h
    cases hset : setAll (assigns b1 sheets) (.node .set m) with
    | none => rw [hset] at h; cases h
    | some t1 =>
      rw [hset] at h
      simp only [Option.map_some, Option.some.injEq, Prod.mk.injEq] at h
      obtain ⟨rfl, rfl⟩ := h
      obtain ⟨m1, rfl, hg1⟩ := goodConfig_setAll (ValueOk fl) _ (assigns_good fl b1 sheets hr) m t1 hm hset
      obtain ⟨calls, m2, hw, hread, hval⟩ := C46_value_partial fl lb atts ha m1 hg1
      refine ⟨m1, calls, m2, rfl, hw, hread, ?_, ?_⟩
      · have hbook : ∀ a ∈ bookAssigns b1, getValueRec a.full (.node .set m2) = some a.value := by
          intro a hab
          have h1 := setAll_get _ (assigns_apart b1 sheets hd) _ _ hset a
            (by unfold assigns; exact List.mem_append.2 (.inl hab))
          rw [hval, h1]
          have hact : b1.activeTable ≠ [] := by
            unfold fixActive at hfix
            split at hfix
            · cases sheets with
              | nil => cases hfix
              | cons s ss =>
                simp only [Option.some.injEq] at hfix
                rw [← hfix]
                exact hne s List.mem_cons_self
            · rename_i hh; cases hfix; exact hh
          have : a.value.isEmpty = false := by
            unfold bookAssigns at hab
            rcases List.mem_cons.1 hab with rfl | hab
            · show b1.activeTable.isEmpty = false
              cases hb : b1.activeTable with
              | nil => exact absurd hb hact
              | cons _ _ => rfl
            rcases List.mem_cons.1 hab with rfl | hab
            · rfl
            rcases List.mem_cons.1 hab with rfl | hab
            · rfl
            rcases List.mem_cons.1 hab with rfl | hab
            · rfl
            cases hab
          simp [Option.filter, this]
        intro d
        have e1 := hbook _ (List.mem_of_getElem? (i := 0) rfl)
        have e2 := hbook _ (List.mem_of_getElem? (i := 1) rfl)
        have e3 := hbook _ (List.mem_of_getElem? (i := 2) rfl)
        have e4 := hbook _ (List.mem_of_getElem? (i := 3) rfl)
        rw [full_book] at e1 e2 e3 e4
        unfold deriveBook
        rw [e1, e2, e3, e4]
      · intro s hs d
        refine deriveSheet_eq _ s.1 s.2 d (hr s hs) (fun k => ?_)
        have hmem : (⟨sheetPath s.1, k.name, s.2.value k⟩ : Assign) ∈ assigns b1 sheets := by
          unfold assigns
          refine List.mem_append.2 (.inr (List.mem_flatMap.2 ⟨s, hs, ?_⟩))
          unfold sheetAssigns
          refine List.mem_append.2 (.inl (List.mem_map.2 ⟨k, ?_, rfl⟩))
          cases k <;> decide
        have h1 := setAll_get _ (assigns_apart b1 sheets hd) _ _ hset _ hmem
        rw [full_sheet] at h1
        rw [hval, h1]
        simp [Option.filter, skey_not_empty]

/-- **C47**: the settings can be stored whenever the maps on the way are of the right kinds, … -/
theorem C47_no_panic (b : BookConfig) (sheets : List (Str × SheetConfig)) (hs : sheets ≠ []) (t : CItem)
    (hf : ∀ s ∈ sheets, PathFits viewPath t ∧ PathFits (sheetPath s.1) t ∧ PathFits (scriptPath s.1) t) :
    (calcConfig b sheets t).isSome = true := by
  unfold calcConfig
  have : ∃ b1, fixActive sheets b = some b1 := by
    unfold fixActive
    split
    · cases sheets with
      | nil => exact absurd rfl hs
      | cons s ss => exact ⟨_, rfl⟩
    · exact ⟨_, rfl⟩
  obtain ⟨b1, hb1⟩ := this
  rw [hb1]
  obtain ⟨t', ht⟩ := setAll_some (assigns b1 sheets) (assigns_noValue b1 sheets) (assigns_agree b1 sheets) t (by
    intro a ha
    rcases mem_assigns b1 sheets a ha with ⟨k, v, rfl⟩ | ⟨s, hs, k, rfl⟩ | ⟨s, hs, rfl⟩
    · cases sheets with
      | nil => exact absurd rfl hs
      | cons s ss => exact (hf s List.mem_cons_self).1
    · exact (hf s hs).2.1
    · exact (hf s hs).2.2)
  simp only [ht]
  rfl

/-- … and in particular in a new workbook. -/
theorem C47_new (b : BookConfig) (sheets : List (Str × SheetConfig)) (hs : sheets ≠ []) :
    (calcConfig b sheets (.node .set [])).isSome = true := by
  refine C47_no_panic b sheets hs _ (fun s hs => ?_)
  have h := assigns_noValue b sheets
  have h1 := h ⟨viewPath, _, _⟩ (by unfold assigns; exact List.mem_append.2 (.inl (List.mem_of_getElem? (i := 0) rfl)))
  have h2 : NoValue (sheetPath s.1) := h ⟨sheetPath s.1, SKey.cursorX.name, s.2.value .cursorX⟩ (by
    unfold assigns
    refine List.mem_append.2 (.inr (List.mem_flatMap.2 ⟨s, hs, ?_⟩))
    exact List.mem_append.2 (.inl (List.mem_map.2 ⟨.cursorX, by decide, rfl⟩)))
  have h3 : NoValue (scriptPath s.1) := h ⟨scriptPath s.1, kCodeName, .string s.1⟩ (by
    unfold assigns
    refine List.mem_append.2 (.inr (List.mem_flatMap.2 ⟨s, hs, ?_⟩))
    exact List.mem_append.2 (.inr List.mem_cons_self))
  exact ⟨pathFits_new _ _ h1, pathFits_new _ _ h2, pathFits_new _ _ h3⟩

/-- A sheet with a heading, as an example for the theorems. -/
def demoSheet : SheetConfig :=
  { cursorX := 4294967295, horSplitMode := .heading, horSplitPos := 3, zoomValue := -7, showGrid := false }

example : demoSheet.InRange ∧ ((SheetConfig.splitColHeader {} 2).isSome = true) := by
  unfold SheetConfig.InRange; decide

/-- C47 fails for the zoom of the page view: it is written but not read. -/
theorem C47_page_zoom_counterexample (fl : Floats) :
    ∃ b' m1 calls m2, calcConfig {} [("A".toList, { pageViewZoomValue := 80 })] (.node .set []) = some (b', .node .set m1)
      ∧ writeSettingsDoc fl [] m1 = some calls ∧ readFile fl (output false calls) = .ok m2
      ∧ deriveSheet (.node .set m2) "A".toList {} = .ok {} := by
  have h1 := C47_new {} [("A".toList, { pageViewZoomValue := 80 })] (by simp)
  cases hc : calcConfig {} [("A".toList, { pageViewZoomValue := 80 })] (.node .set []) with
  | none => rw [hc] at h1; cases h1
  | some r =>
    obtain ⟨b', t⟩ := r
    obtain ⟨m1, calls, m2, rfl, h2, h3, _, h5⟩ := C47_roundtrip_partial fl false [] (by intro a h; cases h) {} b' _
      (by unfold Distinct; decide) (by
        intro s hs
        simp only [List.mem_cons, List.not_mem_nil, or_false] at hs
        subst hs
        unfold SheetConfig.InRange; decide) (by
        intro s hs
        simp only [List.mem_cons, List.not_mem_nil, or_false] at hs
        subst hs; decide) [] ⟨List.nodup_nil, (fun _ h => by cases h), (fun _ h => by cases h)⟩ t hc
    exact ⟨b', m1, calls, m2, rfl, h2, h3, h5 _ List.mem_cons_self {}⟩

/-- C47 fails for two sheets with one name: both have the settings of the last one. -/
theorem C47_same_name_counterexample :
    (calcConfig {} [("A".toList, { cursorX := 1 }), ("A".toList, { cursorX := 2 })] (.node .set [])).map
        (fun r => (deriveSheet r.2 "A".toList {}).toOption.map (·.cursorX))
      = some (some 2) := by decide +kernel

/-- C47: a configuration that was read from a file can make the save panic. -/
theorem C47_panic_counterexample :
    (calcConfig {} [("A".toList, {})] (.node .set [(kView, .node .set [(kViews, .node .map [])])])).isSome = false
      ∧ GoodConfig ReadOk [(kView, .node .set [(kViews, .node .map [])])] := by
  refine ⟨by decide +kernel, by unfold Distinct; decide +kernel, ?_, ?_⟩
  · intro p hp
    simp only [List.mem_cons, List.not_mem_nil, or_false] at hp
    subst hp; rfl
  · intro p hp
    simp only [List.mem_cons, List.not_mem_nil, or_false] at hp
    subst hp
    refine .node _ _ (by unfold Distinct; decide +kernel) ?_ ?_
    · intro p hp
      simp only [List.mem_cons, List.not_mem_nil, or_false] at hp
      subst hp; simp [CItem.itype]
    · intro p hp
      simp only [List.mem_cons, List.not_mem_nil, or_false] at hp
      subst hp; exact good_new _ _

/-- C47 fails without the first condition: the active table of a workbook whose sheets have empty names is lost
(it is written as an empty text). -/
theorem C47_empty_name_counterexample :
    ((calcConfig {} [([], {})] (.node .set [])).bind fun r => match r.2 with
        | .node .set m => (writeSettingsDoc ⟨fun _ => [], fun _ => none⟩ [] m).map fun calls =>
            (readFile ⟨fun _ => [], fun _ => none⟩ (output false calls)).toOption.map fun m =>
              getValueRec [kView, kViews, kZero, BKey.activeTable.name] (.node .set m)
        | _ => none)
      = some (some none) := by decide +kernel

end Verif.Config
