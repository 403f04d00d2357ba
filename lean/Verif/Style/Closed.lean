import Verif.Style.Props

/-!
# What was read can be written

The styles, formats, page layouts and fonts that a reader stores are again ones that can be written.
-/

set_option autoImplicit false

namespace Verif.Style

open Xml Xml.Spec Codec Book Refs.Spec

variable {β : Type}

/-! ## Stores -/

/-- Each entry is stored under its name, which is not empty, each name is there once, and the bodies are good. -/
structure StoreOk (P : Kind → β → Prop) (b : Stores β) : Prop where
  key : ∀ k, ∀ e ∈ b.store k, e.1 = e.2.name ∧ e.2.name ≠ []
  body : ∀ k, ∀ e ∈ b.store k, P k e.2.body
  map : ∀ k, HMap.Distinct (b.store k)

theorem storeOk_nil (P : Kind → β → Prop) : StoreOk P ({} : Stores β) :=
  ⟨fun _ _ h => (by cases h), fun _ _ h => (by cases h), fun _ => (by
    show HMap.Distinct []
    simp [HMap.Distinct, HMap.keys])⟩

theorem storeOk_insert {P : Kind → β → Prop} {b : Stores β} (h : StoreOk P b) (an : HMap Str Nat) (k : Kind) (s : Style β)
    (hn : s.name ≠ []) (hs : P k s.body) :
    StoreOk P ({ b with autonum := an }.setStore k ((b.store k).insert s.name s)) := by
  have hmem : ∀ k' e, e ∈ (({ b with autonum := an }.setStore k ((b.store k).insert s.name s)).store k') →
      (k' = k ∧ e = (s.name, s)) ∨ e ∈ b.store k' := by
    intro k' e he
    rw [get_setStore] at he
    split at he
    · rename_i hk
      subst hk
      unfold HMap.insert HMap.remove at he
      rcases List.mem_cons.1 he with he | he
      · exact .inl ⟨rfl, he⟩
      · exact .inr (List.mem_filter.1 he).1
    · exact .inr he
  refine ⟨fun k' e he => ?_, fun k' e he => ?_, fun k' => ?_⟩
  · rcases hmem k' e he with ⟨rfl, rfl⟩ | he
    · exact ⟨rfl, hn⟩
    · exact h.key k' e he
  · rcases hmem k' e he with ⟨rfl, rfl⟩ | he
    · exact hs
    · exact h.body k' e he
  · rw [get_setStore]
    split
    · exact HMap.distinct_insert _ _ _ (h.map k)
    · exact h.map k'

theorem autoName_ne (an : HMap Str Nat) (pre : Str) (m : HMap Str (Style β)) (hp : pre ≠ []) (an' : HMap Str Nat) (n : Str)
    (h : autoName an pre m = .ok (an', n)) : n ≠ [] := by
  unfold autoName at h
  revert h
  generalize searchName pre (fun n => m.contains n) (m.length + 1) (startCount an pre) = r
  cases r with
  | error e => intro h; cases h
  | ok c =>
    intro h
    have h : pre ++ decNat c = n := congrArg Prod.snd (Except.ok.inj h)
    rw [← h]
    intro he
    exact hp (List.append_eq_nil_iff.1 he).1

theorem prefix_ne (k : Kind) : k.prefix ≠ [] := by
  cases k <;> decide +kernel

theorem storeOk_add {P : Kind → β → Prop} {b b' : Stores β} (h : StoreOk P b) (k : Kind) (s : Style β) (r : Str)
    (hs : P k s.body) (hb : b.add k s = .ok (b', r)) : StoreOk P b' := by
  unfold Stores.add at hb
  split at hb
  · cases ha : autoName b.autonum k.prefix (b.store k) with
    | error e => rw [ha] at hb; cases hb
    | ok r =>
      obtain ⟨an, n⟩ := r
      rw [ha] at hb
      cases hb
      have hn : r ≠ [] := by
        exact autoName_ne _ _ _ (prefix_ne k) _ _ ha
      exact storeOk_insert h an k { s with name := r } hn hs
  · rename_i hn
    cases hb
    exact storeOk_insert h b.autonum k s hn hs

theorem storeOk_adds {P : Kind → β → Prop} (ps : List (Kind × Style β)) (hp : ∀ p ∈ ps, P p.1 p.2.body) :
    ∀ (b b' : Stores β), StoreOk P b → addsAll b ps = .ok b' → StoreOk P b' := by
  induction ps with
  | nil => intro b b' h hb; cases hb; exact h
  | cons p ps ih =>
    intro b b' h hb
    rw [addsAll] at hb
    cases h1 : b.add p.1 p.2 with
    | error e => rw [h1] at hb; cases hb
    | ok r =>
      obtain ⟨b1, r⟩ := r
      rw [h1] at hb
      exact ih (fun q hq => hp q (List.mem_cons_of_mem _ hq)) b1 b' (storeOk_add h p.1 p.2 r (hp p List.mem_cons_self) h1) hb

/-- The number of entries of all stores of a list. -/
def size (ks : List Kind) (b : Stores β) : Nat := (ks.map fun k => (b.store k).length).sum

theorem size_set (k : Kind) (m : HMap Str (Style β)) (b : Stores β) (hm : m.length ≤ (b.store k).length + 1) :
    ∀ ks : List Kind, ks.Nodup → size ks (b.setStore k m) ≤ size ks b + (if k ∈ ks then 1 else 0) := by
  intro ks
  induction ks with
  | nil => intro _; simp [size]
  | cons j ks ih =>
    intro hnd
    have hnd := List.nodup_cons.1 hnd
    have h1 := ih hnd.2
    unfold size at h1 ⊢
    simp only [List.map_cons, List.sum_cons, get_setStore] at h1 ⊢
    by_cases hj : j = k
    · subst hj
      rw [if_neg hnd.1] at h1
      simp only [if_true, List.mem_cons, true_or]
      omega
    · rw [if_neg hj]
      have : (k ∈ j :: ks) ↔ k ∈ ks := by simp [Ne.symm hj]
      simp only [this]
      omega

theorem insert_length (m : HMap Str (Style β)) (n : Str) (s : Style β) : (m.insert n s).length ≤ m.length + 1 := by
  unfold HMap.insert HMap.remove
  rw [List.length_cons]
  have := List.length_filter_le (fun e => decide (e.1 ≠ n)) m
  omega

theorem size_add (ks : List Kind) (hnd : ks.Nodup) (b b' : Stores β) (k : Kind) (s : Style β) (r : Str)
    (hb : b.add k s = .ok (b', r)) : size ks b' ≤ size ks b + 1 := by
  unfold Stores.add at hb
  split at hb
  · cases ha : autoName b.autonum k.prefix (b.store k) with
    | error e => rw [ha] at hb; cases hb
    | ok r =>
      obtain ⟨an, n⟩ := r
      rw [ha] at hb
      cases hb
      have := size_set k ((b.store k).insert r { s with name := r }) { b with autonum := an } (insert_length _ _ _) ks hnd
      have e : size ks { b with autonum := an } = size ks b := rfl
      rw [e] at this
      split at this <;> omega
  · cases hb
    have := size_set k ((b.store k).insert s.name s) b (insert_length _ _ _) ks hnd
    split at this <;> omega

theorem size_adds (ks : List Kind) (hnd : ks.Nodup) (ps : List (Kind × Style β)) : ∀ (b b' : Stores β),
    addsAll b ps = .ok b' → size ks b' ≤ size ks b + ps.length := by
  induction ps with
  | nil => intro b b' hb; cases hb; simp
  | cons p ps ih =>
    intro b b' hb
    rw [addsAll] at hb
    cases h1 : b.add p.1 p.2 with
    | error e => rw [h1] at hb; cases hb
    | ok r =>
      obtain ⟨b1, r⟩ := r
      rw [h1] at hb
      have := ih b1 b' hb
      have := size_add ks hnd b b1 p.1 p.2 r h1
      rw [List.length_cons]
      omega

/-! ## What is read is good -/

theorem keep_mem {α : Type} (o : Option (List α)) (l : List α) (h : keepList o = some l) : o = some l := by
  unfold keepList at h
  split at h
  · cases h
  · exact h

theorem family_name : Name aFamily := by decide +kernel

theorem back_ok (k : Kind) (b : Body) (h : BodyOk k b) : BodyOk k (b.back k) := by
  refine ⟨⟨h.shape.kind, h.shape.main, h.shape.para, h.shape.text, ?_, ?_⟩, ?_, h.main, h.para, h.text, ?_, ?_⟩
  · intro hk
    show keepList b.maps = none
    rw [h.shape.maps hk]; rfl
  · intro hk
    show (if b.para = [] then none else keepList b.tabs) = none
    rw [h.shape.tabs hk]
    split <;> rfl
  · intro a ha
    rcases List.mem_cons.1 ha with rfl | ha
    · exact family_name
    · exact h.attr a (List.mem_filter.1 ha).1
  · intro l hl
    exact h.maps l (keep_mem _ _ hl)
  · intro l hl
    have hl : (if b.para = [] then none else keepList b.tabs) = some l := hl
    split at hl
    · cases hl
    · exact h.tabs l (keep_mem _ _ hl)

theorem part_ok (lb : Bool) (p : Part) (h : PartOk p) : PartOk (p.back lb) := by
  unfold Part.back
  split
  · exact ⟨h.attr, fun z hz => by cases hz⟩
  · exact ⟨h.attr, fun z hz => by cases hz⟩
  · exact ⟨h.attr, fun z hz => by cases hz⟩
  · split
    · split
      · exact ⟨h.attr, h.position⟩
      · exact ⟨h.attr, h.position⟩
    · exact ⟨h.attr, h.position⟩
  · exact ⟨h.attr, fun z hz => by cases hz⟩

theorem format_ok (k : Kind) (lb : Bool) (sc : Section) (f : Format) (h : FormatOk k f) : FormatOk k (f.back lb sc) := by
  refine ⟨h.kind, h.attr, h.noName, h.text, ?_⟩
  intro p hp
  obtain ⟨q, hq, rfl⟩ := List.mem_map.1 hp
  exact part_ok lb q (h.parts q hq)

/-- An operation with a good style, format, page layout or font. -/
def OpOk : Op → Prop
  | .style k s => BodyOk k s.body
  | .format k s => FormatOk k s.body
  | .page s => PageOk s.body
  | .font f => FontOk f

section Ops

variable {b : SBook} (hb : BookOk b)

include hb

theorem styleOps_ok (o : Origin) (u : Use) : ∀ p ∈ styleOps b o u, OpOk p := by
  intro p hp
  obtain ⟨k, _, hp⟩ := List.mem_flatMap.1 hp
  obtain ⟨s, hs, rfl⟩ := List.mem_map.1 hp
  obtain ⟨⟨e, he, rfl⟩, _⟩ := (mem_chosen _ _ _ _).1 hs
  exact back_ok k _ (hb.style k e he)

theorem formatOps_ok (lb : Bool) (sc : Section) (o : Origin) (u : Use) : ∀ p ∈ formatOps lb sc b o u, OpOk p := by
  intro p hp
  obtain ⟨k, _, hp⟩ := List.mem_flatMap.1 hp
  obtain ⟨s, hs, rfl⟩ := List.mem_map.1 hp
  obtain ⟨⟨e, he, rfl⟩, _⟩ := (mem_chosenFormats _ _ _ _).1 hs
  exact format_ok k lb sc _ (hb.format k e he)

theorem pageOps_ok : ∀ p ∈ pageOps b, OpOk p := by
  intro p hp
  obtain ⟨s, hs, rfl⟩ := List.mem_map.1 hp
  obtain ⟨e, he, rfl⟩ := List.mem_map.1 hs
  exact hb.page e he

theorem fontOps_ok (o : Origin) : ∀ p ∈ fontOps b o, OpOk p := by
  have key : ∀ (l : List Font) (o : Origin), (∀ f ∈ l, FontOk f) → ∀ f ∈ fontsRead o l, FontOk f := by
    intro l
    induction l with
    | nil => intro o _ f hf; cases hf
    | cons g l ih =>
      intro o h f hf
      rcases List.mem_cons.1 hf with rfl | hf
      · exact ⟨(h g List.mem_cons_self).attr, (h g List.mem_cons_self).noName⟩
      · exact ih .content (fun f hf => h f (List.mem_cons_of_mem _ hf)) f hf
  intro p hp
  obtain ⟨f, hf, rfl⟩ := List.mem_map.1 hp
  exact key _ _ (fonts_ok b hb o) f hf

theorem officeOps_ok (lb : Bool) (o : Origin) : ∀ p ∈ officeOps lb b o, OpOk p := by
  intro p hp
  simp only [officeOps, List.mem_append] at hp
  rcases hp with ((hp | hp) | hp) | hp
  · exact styleOps_ok hb _ _ p hp
  · exact styleOps_ok hb _ _ p hp
  · exact formatOps_ok hb _ _ _ _ p hp
  · exact formatOps_ok hb _ _ _ _ p hp

theorem autoOps_ok (lb : Bool) (o : Origin) : ∀ p ∈ autoOps lb b o, OpOk p := by
  intro p hp
  simp only [autoOps, List.mem_append] at hp
  rcases hp with (hp | hp) | hp
  · exact pageOps_ok hb p hp
  · exact styleOps_ok hb _ _ p hp
  · exact formatOps_ok hb _ _ _ _ p hp

theorem packageOps_ok : ∀ p ∈ packageOps b, OpOk p := by
  intro p hp
  simp only [packageOps, stylesOps, contentOps, List.mem_append] at hp
  rcases hp with ((hp | hp) | hp) | (hp | hp)
  · exact fontOps_ok hb _ p hp
  · exact officeOps_ok hb _ _ p hp
  · exact autoOps_ok hb _ _ p hp
  · exact fontOps_ok hb _ p hp
  · exact autoOps_ok hb _ _ p hp

theorem flatOps_ok (lb : Bool) : ∀ p ∈ flatOps lb b, OpOk p := by
  intro p hp
  simp only [flatOps, List.mem_append] at hp
  rcases hp with (hp | hp) | hp
  · exact fontOps_ok hb _ p hp
  · exact officeOps_ok hb _ _ p hp
  · exact autoOps_ok hb _ _ p hp

end Ops

/-! ## Reading keeps the workbook good -/

theorem bookOk_new : BookOk {} := by
  refine ⟨?_, ?_, ?_, ?_, ?_, ?_, ?_, ?_, ?_, ?_, ?_, ?_⟩
  · exact (storeOk_nil BodyOk).key
  · exact (storeOk_nil BodyOk).body
  · exact (storeOk_nil BodyOk).map
  · exact (storeOk_nil FormatOk).key
  · exact (storeOk_nil FormatOk).body
  · exact (storeOk_nil FormatOk).map
  · exact (storeOk_nil (fun _ => PageOk)).key .page
  · exact (storeOk_nil (fun _ => PageOk)).body .page
  · exact (storeOk_nil (fun _ => PageOk)).map .page
  · intro e he; cases he
  · intro e he; cases he
  · show HMap.Distinct []; simp [HMap.Distinct, HMap.keys]

theorem lift_ok {γ : Type} (r : Except NameFail (Stores β × Str)) (f : Stores β → γ) (g : γ) (h : liftAdd r f = .ok g) :
    ∃ b n, r = .ok (b, n) ∧ g = f b := by
  unfold liftAdd at h
  split at h
  · cases h; exact ⟨_, _, rfl, rfl⟩
  · cases h

theorem apply_ok (p : Op) (b b' : SBook) (hb : BookOk b) (hp : OpOk p) (h : b.apply p = .ok b') : BookOk b' := by
  cases p with
  | style k s =>
    obtain ⟨st, n, h1, rfl⟩ := lift_ok _ _ _ h
    have := storeOk_add ⟨hb.styleKey, hb.style, hb.stylesMap⟩ k s n hp h1
    exact { hb with styleKey := this.key, style := this.body, stylesMap := this.map }
  | format k s =>
    obtain ⟨st, n, h1, rfl⟩ := lift_ok _ _ _ h
    have := storeOk_add ⟨hb.formatKey, hb.format, hb.formatsMap⟩ k s n hp h1
    exact { hb with formatKey := this.key, format := this.body, formatsMap := this.map }
  | page s =>
    obtain ⟨st, n, h1, rfl⟩ := lift_ok _ _ _ h
    -- only the store of the page layouts is used
    let only : Stores Page := { store := fun k => if k = .page then b.pages.store .page else [], autonum := b.pages.autonum }
    have h0 : StoreOk (fun _ => PageOk) only := by
      refine ⟨fun k e he => ?_, fun k e he => ?_, fun k => ?_⟩
      · simp only [only] at he
        split at he
        · exact hb.pageKey e he
        · cases he
      · simp only [only] at he
        split at he
        · exact hb.page e he
        · cases he
      · simp only [only]
        split
        · exact hb.pagesMap
        · simp [HMap.Distinct, HMap.keys]
    have h2 : ∃ st', only.add .page s = .ok (st', n) ∧ st'.store .page = st.store .page := by
      unfold Stores.add at h1 ⊢
      split at h1
      · rename_i hn
        rw [if_pos hn]
        have e : autoName only.autonum (Kind.prefix .page) (only.store .page)
            = autoName b.pages.autonum (Kind.prefix .page) (b.pages.store .page) := rfl
        rw [e]
        split at h1
        · cases h1
        · rename_i an m ha
          cases h1
          exact ⟨_, rfl, rfl⟩
      · rename_i hn
        rw [if_neg hn]
        cases h1
        exact ⟨_, rfl, rfl⟩
    obtain ⟨st', h3, h4⟩ := h2
    have := storeOk_add h0 .page s n hp h3
    exact { hb with
      pageKey := by have t := this.key .page; rw [h4] at t; exact t
      page := by have t := this.body .page; rw [h4] at t; exact t
      pagesMap := by have t := this.map .page; rw [h4] at t; exact t }
  | font f =>
    cases h
    have hm : ∀ e ∈ b.fonts.insert f.name f, e = (f.name, f) ∨ e ∈ b.fonts := by
      intro e he
      unfold HMap.insert HMap.remove at he
      rcases List.mem_cons.1 he with he | he
      · exact .inl he
      · exact .inr (List.mem_filter.1 he).1
    refine { hb with fontKey := ?_, font := ?_, fontsMap := ?_ }
    · intro e he
      rcases hm e he with rfl | he
      · rfl
      · exact hb.fontKey e he
    · intro e he
      rcases hm e he with rfl | he
      · exact hp
      · exact hb.font e he
    · exact HMap.distinct_insert _ _ _ hb.fontsMap

theorem applyAll_ok (ps : List Op) (hp : ∀ p ∈ ps, OpOk p) : ∀ (b b' : SBook), BookOk b → b.applyAll ps = .ok b' → BookOk b' := by
  induction ps with
  | nil => intro b b' hb h; cases h; exact hb
  | cons p ps ih =>
    intro b b' hb h
    rw [SBook.applyAll] at h
    cases h1 : b.apply p with
    | error e => rw [h1] at h; cases h
    | ok b1 =>
      rw [h1] at h
      exact ih (fun q hq => hp q (List.mem_cons_of_mem _ hq)) b1 b' (apply_ok p b b1 hb (hp p List.mem_cons_self) h1) h

theorem applyAll_count (ps : List Op) : ∀ (b b' : SBook), b.applyAll ps = .ok b' →
    b'.count ≤ b.count + (stylesIn ps).length := by
  induction ps with
  | nil => intro b b' h; cases h; exact Nat.le_refl _
  | cons p ps ih =>
    intro b b' h
    rw [SBook.applyAll] at h
    cases h1 : b.apply p with
    | error e => rw [h1] at h; cases h
    | ok b1 =>
      rw [h1] at h
      have h2 := ih b1 b' h
      cases p with
      | style k s =>
        obtain ⟨st, n, h3, rfl⟩ := lift_ok _ _ _ h1
        have h4 := size_add styleKinds (by decide) _ _ k s n h3
        have e1 : SBook.count { b with styles := st } = size styleKinds st := rfl
        have e2 : b.count = size styleKinds b.styles := rfl
        have e3 : (stylesIn (.style k s :: ps)).length = (stylesIn ps).length + 1 := rfl
        omega
      | format k s =>
        obtain ⟨st, n, h3, rfl⟩ := lift_ok _ _ _ h1
        exact h2
      | page s =>
        obtain ⟨st, n, h3, rfl⟩ := lift_ok _ _ _ h1
        exact h2
      | font f =>
        cases h1
        exact h2

/-- What is read of the styles of a package can be written again. -/
theorem package_closed (b bk : SBook) (hb : BookOk b) (h : ({} : SBook).applyAll (packageOps b) = .ok bk) :
    BookOk bk ∧ bk.count ≤ b.count := by
  refine ⟨applyAll_ok _ (packageOps_ok hb) _ _ bookOk_new h, ?_⟩
  have h1 := applyAll_count _ _ _ h
  have h2 := package_count b
  have h3 : SBook.count {} = 0 := rfl
  omega

/-- The same for a flat file. -/
theorem flat_closed (lb : Bool) (b bk : SBook) (hb : BookOk b) (h : ({} : SBook).applyAll (flatOps lb b) = .ok bk) :
    BookOk bk ∧ bk.count ≤ b.count := by
  refine ⟨applyAll_ok _ (flatOps_ok hb lb) _ _ bookOk_new h, ?_⟩
  have h1 := applyAll_count _ _ _ h
  have h2 := flat_count b lb
  have h3 : SBook.count {} = 0 := rfl
  omega

end Verif.Style
