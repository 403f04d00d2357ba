import Verif.Config.ViewBack

/-!
# The settings of a new workbook (src/io/read.rs `default_settings`)
-/

set_option autoImplicit false

namespace Verif.Config

open Xml Xml.Spec Codec

/-- The visible area, src/io/read.rs:3677-3681. -/
def areaDefaults : List (Str × CValue) := [
  ("VisibleAreaTop".toList, .int 0), ("VisibleAreaLeft".toList, .int 0), ("VisibleAreaWidth".toList, .int 2540),
  ("VisibleAreaHeight".toList, .int 1270)]

/-- The first setting of the view, src/io/read.rs:3683-3688. -/
def idDefaults : List (Str × CValue) := [
  ("ViewId".toList, .string "view1".toList)]

/-- The other settings of the view, src/io/read.rs:3695-3722. -/
def viewDefaults : List (Str × CValue) := [
  ("ActiveTable".toList, .string []), ("HorizontalScrollbarWidth".toList, .int 702), ("ZoomType".toList, .short 0),
  ("ZoomValue".toList, .int 100), ("PageViewZoomValue".toList, .int 60),
  ("ShowPageBreakPreview".toList, .boolean false), ("ShowZeroValues".toList, .boolean true),
  ("ShowNotes".toList, .boolean true), ("ShowGrid".toList, .boolean true), ("GridColor".toList, .int 12632256),
  ("ShowPageBreaks".toList, .boolean false), ("HasColumnRowHeaders".toList, .boolean true),
  ("HasSheetTabs".toList, .boolean true), ("IsOutlineSymbolsSet".toList, .boolean true),
  ("IsValueHighlightingEnabled".toList, .boolean false), ("IsSnapToRaster".toList, .boolean false),
  ("RasterIsVisible".toList, .boolean false), ("RasterResolutionX".toList, .int 1000),
  ("RasterResolutionY".toList, .int 1000), ("RasterSubdivisionX".toList, .int 1),
  ("RasterSubdivisionY".toList, .int 1), ("IsRasterAxisSynchronized".toList, .boolean true),
  ("AnchoredTextOverflowLegacy".toList, .boolean false)]

/-- The settings of the document, src/io/read.rs:3724-3760. -/
def confDefaults : List (Str × CValue) := [
  ("HasSheetTabs".toList, .boolean true), ("ShowNotes".toList, .boolean true),
  ("EmbedComplexScriptFonts".toList, .boolean true), ("ShowZeroValues".toList, .boolean true),
  ("ShowGrid".toList, .boolean true), ("GridColor".toList, .int 12632256), ("ShowPageBreaks".toList, .boolean false),
  ("IsKernAsianPunctuation".toList, .boolean false), ("LinkUpdateMode".toList, .short 3),
  ("HasColumnRowHeaders".toList, .boolean true), ("EmbedLatinScriptFonts".toList, .boolean true),
  ("IsOutlineSymbolsSet".toList, .boolean true), ("EmbedLatinScriptFonts".toList, .boolean true),
  ("IsOutlineSymbolsSet".toList, .boolean true), ("IsSnapToRaster".toList, .boolean false),
  ("RasterIsVisible".toList, .boolean false), ("RasterResolutionX".toList, .int 1000),
  ("RasterResolutionY".toList, .int 1000), ("RasterSubdivisionX".toList, .int 1),
  ("RasterSubdivisionY".toList, .int 1), ("IsRasterAxisSynchronized".toList, .boolean true),
  ("AutoCalculate".toList, .boolean true), ("ApplyUserData".toList, .boolean true),
  ("PrinterName".toList, .string []), ("PrinterSetup".toList, .base64 []), ("SaveThumbnail".toList, .boolean true),
  ("CharacterCompressionType".toList, .short 0), ("SaveVersionOnClose".toList, .boolean false),
  ("UpdateFromTemplate".toList, .boolean true), ("AllowPrintJobCancel".toList, .boolean true),
  ("LoadReadonly".toList, .boolean false), ("IsDocumentShared".toList, .boolean false),
  ("EmbedFonts".toList, .boolean false), ("EmbedOnlyUsedFonts".toList, .boolean false),
  ("EmbedAsianScriptFonts".toList, .boolean true), ("SyntaxStringRef".toList, .short 7)]

/-- `create_path` and the `insert`s that follow.  Simplification: the path is created again for each `insert`, which gives
the same. -/
def defaultsAt (path : List (Str × IType)) (l : List (Str × CValue)) : List Assign := l.map fun e => ⟨path, e.1, e.2⟩

/-- `default_settings`, src/io/read.rs:3675-3762; `none` is a panic.  The path to the tables is created without a value. -/
def defaultSettings : Option CItem :=
  ((setAll (defaultsAt [(kView, some .set)] areaDefaults ++ defaultsAt viewPath idDefaults) (.node .set [])).bind
    (createPath some (viewPath ++ [(kTables, some .map)]))).bind
    (setAll (defaultsAt viewPath viewDefaults ++ defaultsAt [(kConf, some .set)] confDefaults))

/-- The entries at the top. -/
def newConfig : List (Str × CItem) :=
  match defaultSettings with
  | some (.node _ m) => m
  | _ => []

/-! ## A path without a value -/

theorem create_kind (p : List (Str × IType)) (k : Kind) (m : List (Str × CItem)) (t : CItem)
    (h : createPath some p (.node k m) = some t) : t.itype = some k :=
  createPath_kind some (by intro k m x h; cases h; rfl) p k m t h

theorem good_create (ok : CValue → Prop) (p : List (Str × IType)) : ∀ (k : Kind) (m : List (Str × CItem)) (t : CItem),
    Good ok (.node k m) → PathAllowed k p → createPath some p (.node k m) = some t → Good ok t := by
  induction p with
  | nil => intro k m t hg _ hs; cases hs; exact hg
  | cons a p ih =>
    intro k m t hg ha hs
    obtain ⟨a, ty⟩ := a
    obtain ⟨x, x', hx, hxt, hc, rfl⟩ := createPath_step _ a ty p k m t hs
    obtain ⟨ha1, ha2⟩ := ha
    have hgx : Good ok x := by
      rcases hx with hl | ⟨hl, hx⟩
      · cases hg with
        | node _ _ hd hk hs => exact hs _ (lookup_mem m a x hl)
      · cases ty with
        | none => cases hx
        | some k' => cases hx; exact good_new ok k'
    cases x with
    | value w => cases p <;> simp [createPath] at hc
    | node k' m' =>
      have hty : ty = some k' := hxt.symm
      subst hty
      exact good_put ok k m a x' hg (ih k' m' x' hgx ha2 hc) (by rw [create_kind p k' m' x' hc]; exact ha1)

theorem goodConfig_create (ok : CValue → Prop) (a : Str) (p : List (Str × IType)) (m : List (Str × CItem)) (t : CItem)
    (hg : GoodConfig ok m) (ha : PathAllowed .set p) (hs : createPath some ((a, some .set) :: p) (.node .set m) = some t) :
    ∃ m', t = .node .set m' ∧ GoodConfig ok m' := by
  obtain ⟨x, x', hx, hxt, hc, rfl⟩ := createPath_step _ a _ p .set m t hs
  have hgx : Good ok x := by
    rcases hx with hl | ⟨hl, hx⟩
    · exact hg.2.2 _ (lookup_mem m a x hl)
    · cases hx
      exact good_new ok .set
  cases x with
  | value w => cases hxt
  | node k' m' =>
    cases hxt
    refine ⟨_, rfl, distinct_put m a x' hg.1, ?_, ?_⟩
    · intro q hq
      rcases mem_put m a x' q hq with hq | rfl
      · exact hg.2.1 q hq
      · exact create_kind p .set m' x' hc
    · intro q hq
      rcases mem_put m a x' q hq with hq | rfl
      · exact hg.2.2 q hq
      · exact good_create ok p .set m' x' hgx ha hc

/-- Creating a path keeps the paths that agree with it. -/
theorem fits_create (p : List (Str × IType)) : ∀ (q : List (Str × IType)) (t t' : CItem),
    createPath some p t = some t' → NoValue q → Agree p q → PathFits q t → PathFits q t' := by
  induction p with
  | nil =>
    intro q t t' hs hq ha hf
    cases t with
    | value w => simp [createPath] at hs
    | node k m => cases hs; exact hf
  | cons a p ih =>
    intro q t t' hs hq ha hf
    obtain ⟨a, ty⟩ := a
    cases t with
    | value w => simp [createPath] at hs
    | node k m =>
      obtain ⟨x, x', hx, hxt, hc, rfl⟩ := createPath_step _ a ty p k m t' hs
      cases q with
      | nil => trivial
      | cons b q =>
        obtain ⟨b, tb⟩ := b
        simp only [PathFits, lookup_put] at hf ⊢
        by_cases hb : a = b
        · subst hb
          rw [if_pos rfl]
          simp only
          obtain ⟨h1, h2⟩ := ha rfl
          have hq' : NoValue q := fun y hy => hq y (List.mem_cons_of_mem _ hy)
          have hkind : x'.itype = x.itype := by
            cases x with
            | value w => cases p <;> simp [createPath] at hc
            | node k' m' => exact create_kind p k' m' x' hc
          refine ⟨by rw [hkind, hxt]; exact h1, ih q x x' hc hq' h2 ?_⟩
          rcases hx with hl | ⟨hl, hx⟩
          · rw [hl] at hf
            exact hf.2
          · cases ty with
            | none => cases hx
            | some k' =>
              simp only [newItem, Option.some.injEq] at hx
              subst hx
              exact pathFits_new k' q hq'
        · rw [if_neg hb]
          exact hf

theorem create_some (p : List (Str × IType)) (hp : NoValue p) : ∀ t, PathFits p t → ∃ t', createPath some p t = some t' := by
  induction p with
  | nil =>
    intro t h
    cases t with
    | value w => cases h
    | node k m => exact ⟨_, rfl⟩
  | cons a p ih =>
    intro t h
    obtain ⟨a, ty⟩ := a
    have hp' : NoValue p := fun y hy => hp y (List.mem_cons_of_mem _ hy)
    cases t with
    | value w => cases h
    | node k m =>
      rw [PathFits] at h
      rw [createPath]
      cases hl : lookup m a with
      | some x =>
        rw [hl] at h
        obtain ⟨t', ht⟩ := ih hp' x h.2
        exact ⟨.node k (put m a t'), by simp only [if_pos h.1, ht]⟩
      | none =>
        cases ty with
        | none => exact absurd rfl (hp _ List.mem_cons_self)
        | some k' =>
          obtain ⟨t', ht⟩ := ih hp' (.node k' []) (pathFits_new k' p hp')
          exact ⟨.node k (put m a t'), by simp [newItem, CItem.itype, ht]⟩

theorem fits_setAll (q : List (Str × IType)) (hq : NoValue q) (as : List Assign)
    (ha : ∀ a ∈ as, Agree (a.path ++ [(a.name, none)]) q) : ∀ t t', setAll as t = some t' → PathFits q t → PathFits q t' := by
  induction as with
  | nil => intro t t' h hf; cases h; exact hf
  | cons a as ih =>
    intro t t' h hf
    rw [setAll] at h
    cases h1 : setAt a.path a.name (.value a.value) t with
    | none => rw [h1] at h; cases h
    | some t1 =>
      rw [h1] at h
      exact ih (fun b hb => ha b (List.mem_cons_of_mem _ hb)) t1 t' h
        (fits_setAt _ _ _ q t t1 h1 hq (ha a List.mem_cons_self) hf)

/-! ## The settings of a new workbook -/

theorem view_noValue : NoValue viewPath := by
  intro x hx
  simp only [viewPath, List.mem_cons, List.not_mem_nil, or_false] at hx
  rcases hx with rfl | rfl | rfl <;> simp

theorem sheet_noValue (n : Str) : NoValue (sheetPath n) := by
  intro x hx
  simp only [sheetPath, viewPath, List.cons_append, List.nil_append, List.mem_cons, List.not_mem_nil, or_false] at hx
  rcases hx with rfl | rfl | rfl | rfl | rfl <;> simp

theorem script_noValue (n : Str) : NoValue (scriptPath n) := by
  intro x hx
  simp only [scriptPath, List.mem_cons, List.not_mem_nil, or_false] at hx
  rcases hx with rfl | rfl | rfl <;> simp

/-- The steps of `default_settings` in which values are set. -/
def firstDefaults : List Assign := defaultsAt [(kView, some .set)] areaDefaults ++ defaultsAt viewPath idDefaults

def lastDefaults : List Assign := defaultsAt viewPath viewDefaults ++ defaultsAt [(kConf, some .set)] confDefaults

theorem mem_defaults (a : Assign) (h : a ∈ firstDefaults ∨ a ∈ lastDefaults) :
    (∃ e ∈ areaDefaults, a = ⟨[(kView, some .set)], e.1, e.2⟩)
    ∨ (∃ e, (e ∈ idDefaults ∨ e ∈ viewDefaults) ∧ a = ⟨viewPath, e.1, e.2⟩)
    ∨ ∃ e ∈ confDefaults, a = ⟨[(kConf, some .set)], e.1, e.2⟩ := by
  unfold firstDefaults lastDefaults defaultsAt at h
  simp only [List.mem_append, List.mem_map] at h
  rcases h with (⟨e, he, rfl⟩ | ⟨e, he, rfl⟩) | (⟨e, he, rfl⟩ | ⟨e, he, rfl⟩)
  · exact .inl ⟨e, he, rfl⟩
  · exact .inr (.inl ⟨e, .inl he, rfl⟩)
  · exact .inr (.inl ⟨e, .inr he, rfl⟩)
  · exact .inr (.inr ⟨e, he, rfl⟩)

theorem area_names : ∀ e ∈ areaDefaults, e.1 ≠ kViews := by decide +kernel
theorem id_names : ∀ e ∈ idDefaults, e.1 ≠ kTables := by decide +kernel
theorem view_names : ∀ e ∈ viewDefaults, e.1 ≠ kTables := by decide +kernel
theorem conf_names : ∀ e ∈ confDefaults, e.1 ≠ kScript := by decide +kernel

/-- The paths of the settings agree with those of the view. -/
theorem defaults_agree (a : Assign) (h : a ∈ firstDefaults ∨ a ∈ lastDefaults) (q : List (Str × IType))
    (hq : q = viewPath ∨ q = [(kView, some .set)] ∨ q = [(kConf, some .set)] ∨ q = viewPath ++ [(kTables, some .map)]
      ∨ (∃ n, q = sheetPath n) ∨ ∃ n, q = scriptPath n) :
    Agree (a.path ++ [(a.name, none)]) q := by
  have hvc := view_ne
  rcases mem_defaults a h with ⟨e, he, rfl⟩ | ⟨e, he, rfl⟩ | ⟨e, he, rfl⟩
  · have h1 := area_names e he
    rcases hq with rfl | rfl | rfl | rfl | ⟨n, rfl⟩ | ⟨n, rfl⟩
    · exact fun _ => ⟨rfl, fun h => absurd h h1⟩
    · exact fun _ => ⟨rfl, trivial⟩
    · exact fun h => absurd h hvc
    · exact fun _ => ⟨rfl, fun h => absurd h h1⟩
    · exact fun _ => ⟨rfl, fun h => absurd h h1⟩
    · exact fun h => absurd h hvc
  · have h1 : e.1 ≠ kTables := by
      rcases he with he | he
      · exact id_names e he
      · exact view_names e he
    rcases hq with rfl | rfl | rfl | rfl | ⟨n, rfl⟩ | ⟨n, rfl⟩
    · exact fun _ => ⟨rfl, fun _ => ⟨rfl, fun _ => ⟨rfl, trivial⟩⟩⟩
    · exact fun _ => ⟨rfl, trivial⟩
    · exact fun h => absurd h hvc
    · exact fun _ => ⟨rfl, fun _ => ⟨rfl, fun _ => ⟨rfl, fun h => absurd h h1⟩⟩⟩
    · exact fun _ => ⟨rfl, fun _ => ⟨rfl, fun _ => ⟨rfl, fun h => absurd h h1⟩⟩⟩
    · exact fun h => absurd h hvc
  · have h1 := conf_names e he
    rcases hq with rfl | rfl | rfl | rfl | ⟨n, rfl⟩ | ⟨n, rfl⟩
    · exact fun h => absurd h.symm hvc
    · exact fun h => absurd h.symm hvc
    · exact fun _ => ⟨rfl, trivial⟩
    · exact fun h => absurd h.symm hvc
    · exact fun h => absurd h.symm hvc
    · exact fun _ => ⟨rfl, fun h => absurd h h1⟩

theorem defaults_ok (fl : Floats) (a : Assign) (h : a ∈ firstDefaults ∨ a ∈ lastDefaults) :
    ValueOk fl a.value ∧ ∃ n p, a.path = (n, some .set) :: p ∧ PathAllowed .set (p ++ [(a.name, none)]) := by
  have hval : ∀ l : List (Str × CValue), (l = areaDefaults ∨ l = idDefaults ∨ l = viewDefaults ∨ l = confDefaults) →
      ∀ e ∈ l, ValueOk fl e.2 := by
    have hb : ∀ l : List (Str × CValue), (l = areaDefaults ∨ l = idDefaults ∨ l = viewDefaults ∨ l = confDefaults) →
        ∀ e ∈ l, (match e.2 with
          | .base64 s => s = []
          | .int z => -2147483648 ≤ z ∧ z < 2147483648
          | .short z => -32768 ≤ z ∧ z < 32768
          | .boolean _ => True
          | .string _ => True
          | _ => False) := by
      intro l hl e he
      rcases hl with rfl | rfl | rfl | rfl <;>
        simp only [areaDefaults, idDefaults, viewDefaults, confDefaults, List.mem_cons, List.not_mem_nil, or_false] at he <;>
        revert e <;> simp
    intro l hl e he
    have h := hb l hl e he
    cases hv : e.2 with
    | base64 s => rw [hv] at h; simp only at h; subst h; intro c hc; cases hc
    | int z => rw [hv] at h; exact h
    | short z => rw [hv] at h; exact h
    | boolean b => trivial
    | string s => trivial
    | double f => rw [hv] at h; cases h
    | dateTime d => rw [hv] at h; cases h
    | long z => rw [hv] at h; cases h
  rcases mem_defaults a h with ⟨e, he, rfl⟩ | ⟨e, he, rfl⟩ | ⟨e, he, rfl⟩
  · exact ⟨hval _ (.inl rfl) e he, _, _, rfl, ⟨nofun, rfl⟩⟩
  · refine ⟨?_, _, _, rfl, ⟨nofun, ⟨rfl, (by decide +kernel)⟩, nofun, rfl⟩⟩
    rcases he with he | he
    · exact hval _ (.inr (.inl rfl)) e he
    · exact hval _ (.inr (.inr (.inl rfl))) e he
  · exact ⟨hval _ (.inr (.inr (.inr rfl))) e he, _, _, rfl, ⟨nofun, rfl⟩⟩

theorem new_tree : ∃ t1 t2 t3, setAll firstDefaults (.node .set []) = some t1
    ∧ createPath some (viewPath ++ [(kTables, some .map)]) t1 = some t2 ∧ setAll lastDefaults t2 = some t3 := by
  have hpath : ∀ a, a ∈ firstDefaults ∨ a ∈ lastDefaults →
      a.path = viewPath ∨ a.path = [(kView, some .set)] ∨ a.path = [(kConf, some .set)] := by
    intro a ha
    rcases mem_defaults a ha with ⟨e, _, rfl⟩ | ⟨e, _, rfl⟩ | ⟨e, _, rfl⟩
    · exact .inr (.inl rfl)
    · exact .inl rfl
    · exact .inr (.inr rfl)
  have hnv : ∀ a, a ∈ firstDefaults ∨ a ∈ lastDefaults → NoValue a.path := by
    intro a ha
    rcases hpath a ha with h | h | h <;> rw [h]
    · exact view_noValue
    · intro x hx; cases hx with | head => simp | tail _ h => cases h
    · intro x hx; cases hx with | head => simp | tail _ h => cases h
  have hag : ∀ a, a ∈ firstDefaults ∨ a ∈ lastDefaults → ∀ b, b ∈ firstDefaults ∨ b ∈ lastDefaults →
      Agree (a.path ++ [(a.name, none)]) b.path := by
    intro a ha b hb
    exact defaults_agree a ha _ (by rcases hpath b hb with h | h | h <;> rw [h] <;> simp)
  have htab : NoValue (viewPath ++ [(kTables, some .map)]) := by
    intro x hx
    simp only [viewPath, List.cons_append, List.nil_append, List.mem_cons, List.not_mem_nil, or_false] at hx
    rcases hx with rfl | rfl | rfl | rfl <;> simp
  obtain ⟨t1, h1⟩ := setAll_some firstDefaults (fun a ha => hnv a (.inl ha)) (fun a ha b hb => hag a (.inl ha) b (.inl hb))
    (.node .set []) (fun a ha => pathFits_new .set a.path (hnv a (.inl ha)))
  have f1 : ∀ q, NoValue q → (∀ a ∈ firstDefaults, Agree (a.path ++ [(a.name, none)]) q) → PathFits q t1 :=
    fun q hq ha => fits_setAll q hq _ ha _ _ h1 (pathFits_new .set q hq)
  obtain ⟨t2, h2⟩ := create_some _ htab t1 (f1 _ htab fun a ha => defaults_agree a (.inl ha) _ (by simp))
  obtain ⟨t3, h3⟩ := setAll_some lastDefaults (fun a ha => hnv a (.inr ha)) (fun a ha b hb => hag a (.inr ha) b (.inr hb)) t2
    (fun b hb => fits_create _ b.path t1 t2 h2 (hnv b (.inr hb))
      (by
        rcases hpath b (.inr hb) with h | h | h <;> rw [h]
        · exact fun _ => ⟨rfl, fun _ => ⟨rfl, fun _ => ⟨rfl, trivial⟩⟩⟩
        · exact fun _ => ⟨rfl, trivial⟩
        · exact fun h => absurd h view_ne)
      (f1 _ (hnv b (.inr hb)) fun a ha => hag a (.inl ha) b (.inr hb)))
  exact ⟨t1, t2, t3, h1, h2, h3⟩

/-- The settings of a new workbook are a configuration as C46 wants it, and those of the view can be stored in it. -/
theorem new_config (fl : Floats) : defaultSettings = some (.node .set newConfig) ∧ GoodConfig (ValueOk fl) newConfig
    ∧ PathFits viewPath (.node .set newConfig) ∧ (∀ n, PathFits (sheetPath n) (.node .set newConfig))
    ∧ ∀ n, PathFits (scriptPath n) (.node .set newConfig) := by
  obtain ⟨t1, t2, t3, h1, h2, h3⟩ := new_tree
  have hd : defaultSettings = some t3 := by
    show ((setAll firstDefaults (.node .set [])).bind _).bind (setAll lastDefaults) = _
    rw [h1, Option.bind_some, h2, Option.bind_some, h3]
  obtain ⟨m1, rfl, g1⟩ := goodConfig_setAll (ValueOk fl) firstDefaults (fun a ha => defaults_ok fl a (.inl ha)) [] t1
    ⟨List.Pairwise.nil, nofun, nofun⟩ h1
  obtain ⟨m2, rfl, g2⟩ := goodConfig_create (ValueOk fl) kView [(kViews, some .vec), (decNat 0, some .entry), (kTables, some .map)] m1 t2 g1
    ⟨nofun, ⟨rfl, (by decide +kernel)⟩, nofun, trivial⟩ h2
  obtain ⟨m3, rfl, g3⟩ := goodConfig_setAll (ValueOk fl) lastDefaults (fun a ha => defaults_ok fl a (.inr ha)) m2 t3 g2 h3
  have hn : newConfig = m3 := by unfold newConfig; rw [hd]
  have hfit : ∀ q, NoValue q → Agree (viewPath ++ [(kTables, some .map)]) q →
      (∀ a, a ∈ firstDefaults ∨ a ∈ lastDefaults → Agree (a.path ++ [(a.name, none)]) q) → PathFits q (.node .set m3) :=
    fun q hq ht ha => fits_setAll q hq _ (fun a h => ha a (.inr h)) _ _ h3
      (fits_create _ q _ _ h2 hq ht (fits_setAll q hq _ (fun a h => ha a (.inl h)) _ _ h1 (pathFits_new .set q hq)))
  rw [hn]
  refine ⟨hd, g3, hfit _ view_noValue ?_ (fun a ha => defaults_agree a ha _ (by simp)),
    fun n => hfit _ (sheet_noValue n) ?_ (fun a ha => defaults_agree a ha _ (.inr (.inr (.inr (.inr (.inl ⟨n, rfl⟩)))))),
    fun n => hfit _ (script_noValue n) ?_ (fun a ha => defaults_agree a ha _ (.inr (.inr (.inr (.inr (.inr ⟨n, rfl⟩))))))⟩
  · exact fun _ => ⟨rfl, fun _ => ⟨rfl, fun _ => ⟨rfl, trivial⟩⟩⟩
  · exact fun _ => ⟨rfl, fun _ => ⟨rfl, fun _ => ⟨rfl, fun _ => ⟨rfl, trivial⟩⟩⟩⟩
  · exact fun h => absurd h view_ne

/-- A setting of a new workbook, with the names that lead to it. -/
theorem new_values : ∀ a ∈ firstDefaults ++ lastDefaults, getValueRec a.full (.node .set newConfig) = some a.value := by
  decide +kernel

end Verif.Config
