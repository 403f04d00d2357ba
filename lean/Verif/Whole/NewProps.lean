import Verif.Whole.New
import Verif.Whole.CycleProps
import Verif.Style.Closed
import Verif.Fmt.Defaults

/-!
# A workbook that a program makes: the theorems

C100.  The theorem about saving and loading, C94, is about a workbook whose parts are as they must be.  Here the workbook
is made by `WorkBook::new` and any calls, and its parts are as they must be, because each call keeps them so.
-/

set_option autoImplicit false

namespace Verif.Whole

open Xml Codec Xml.Spec
open Verif.Book (Stores StoreOp HMap)
open Verif.Sheets (Sheet)
open Verif.Sheets.Spec
open Verif.Book.AttrMap (specSet)

/-! ## The specification -/

namespace Spec

/-- The sheets as a list of their names when they were made and of the calls of each, after the calls on the workbook. -/
def histStep (h : List (Str × List Sheets.Call)) : BookCall → List (Str × List Sheets.Call)
  | .pushSheet n cs => h ++ [(n, cs)]
  | .insertSheet i n cs => h.take i ++ (n, cs) :: h.drop i
  | .removeSheet i => h.eraseIdx i
  | .sheet i c => h.modify i fun q => (q.1, q.2 ++ [c])
  | _ => h

/-- The same for many calls on a workbook without sheets. -/
def histories (calls : List BookCall) : List (Str × List Sheets.Call) := calls.foldl histStep []

/-- A call on a store that keeps what is stored as it must be: what is added is good, and a change leaves the name and
what is good. -/
def StoreCallOk {β : Type} (P : Book.Kind → β → Prop) : StoreOp β → Prop
  | .add k s => P k s.body
  | .remove _ _ => True
  | .modify k _ f => ∀ s, P k s.body → (f s).name = s.name ∧ P k (f s).body

/-- A master page as C72 wants it. -/
def GoodMaster (lb : Bool) (_ : Book.Kind) (m : Master.Master) : Prop :=
  (∀ s, Master.HFOk lb (m.slot s)) ∧ ∀ s, Master.Keeps (m.slot s)

/-- A validation as C70 wants it. -/
def GoodValid (_ : Book.Kind) (v : Valid.Body) : Prop := ∀ n : Str, n ≠ [] → Valid.Ok ⟨n, v⟩

/-- A call that keeps the workbook one that can be saved.  A flat file has no validations (C65). -/
def CallOk (fl : Floats) (lb : Bool) : BookCall → Prop
  | .style o => StoreCallOk Style.BodyOk o
  | .format o => StoreCallOk Style.FormatOk o
  | .page o => StoreCallOk (fun _ => Style.PageOk) o
  | .master o => StoreCallOk (GoodMaster lb) o
  | .validation o => lb = false ∧ StoreCallOk GoodValid o
  | .addFont f => Style.FontOk f
  | .changeFont _ f => ∀ x, Style.FontOk x → (f x).name = x.name ∧ Style.FontOk (f x)
  | .metadata f => ∀ m, Meta.Spec.Kept fl m → Meta.Spec.Kept fl (f m)
  | _ => True

/-- The sheets, by their histories, as a file can hold them. -/
structure SheetsOk (fl : Floats) (lb : Bool) (hist : List (Str × List Sheets.Call)) : Prop where
  some : hist ≠ []
  saveable : ∀ q ∈ hist, Saveable fl lb q.2
  typed : ∀ q ∈ hist, ViewTyped q.2
  named : ∀ q ∈ hist, lastWish wishName q.1 q.2 ≠ []
  unique : (hist.map fun q => lastWish wishName q.1 q.2).Nodup

end Spec

open Spec

/-! ## Stores -/

section Stores

variable {β : Type} {P : Book.Kind → β → Prop}

/-- A store made by at most `n` calls. -/
structure StoreInv (P : Book.Kind → β → Prop) (n : Nat) (b : Stores β) : Prop where
  ok : Style.StoreOk P b
  made : ∃ os rs, ({} : Stores β).run os = .ok (b, rs) ∧ os.length ≤ n
  size : ∀ ks : List Book.Kind, ks.Nodup → Style.size ks b ≤ n

theorem storeInv_new : StoreInv P 0 ({} : Stores β) :=
  ⟨Style.storeOk_nil P, ⟨[], [], rfl, Nat.le_refl _⟩, fun ks _ => by
    unfold Style.size
    have key : ∀ ks : List Book.Kind, (ks.map fun k => (({} : Stores β).store k).length).sum = 0 := by
      intro ks
      induction ks with
      | nil => rfl
      | cons k ks ih => rw [List.map_cons, List.sum_cons, ih]; rfl
    rw [key ks]
    exact Nat.le_refl _⟩

theorem storeInv_mono {n m : Nat} {b : Stores β} (h : StoreInv P n b) (hn : n ≤ m) : StoreInv P m b := by
  obtain ⟨os, rs, h1, h2⟩ := h.made
  exact ⟨h.ok, ⟨os, rs, h1, by omega⟩, fun ks hk => Nat.le_trans (h.size ks hk) hn⟩

theorem run_snoc (os : List (StoreOp β)) (o : StoreOp β) : ∀ (b b1 b2 : Stores β) (rs : List (Option Str)) (r : Option Str),
    b.run os = .ok (b1, rs) → b1.step o = .ok (b2, r) → b.run (os ++ [o]) = .ok (b2, rs ++ [r]) := by
  induction os with
  | nil =>
    intro b b1 b2 rs r h1 h2
    cases h1
    simp only [List.nil_append, Stores.run, h2]
  | cons p os ih =>
    intro b b1 b2 rs r h1 h2
    rw [Stores.run] at h1
    rw [List.cons_append, Stores.run]
    cases h3 : b.step p with
    | error e => rw [h3] at h1; cases h1
    | ok q =>
      obtain ⟨b3, r3⟩ := q
      rw [h3] at h1
      simp only at h1 ⊢
      cases h4 : b3.run os with
      | error e => rw [h4] at h1; cases h1
      | ok q =>
        obtain ⟨b4, r4⟩ := q
        rw [h4] at h1
        simp only [Except.ok.injEq, Prod.mk.injEq] at h1
        obtain ⟨rfl, rfl⟩ := h1
        rw [ih b3 b4 b2 r4 r h4 h2]
        rfl

theorem step_storeOk {b b' : Stores β} (h : Style.StoreOk P b) (o : StoreOp β) (ho : StoreCallOk P o) (r : Option Str)
    (hs : b.step o = .ok (b', r)) : Style.StoreOk P b' := by
  cases o with
  | add k s =>
    rw [Stores.step] at hs
    cases h1 : b.add k s with
    | error e => rw [h1] at hs; cases hs
    | ok q =>
      obtain ⟨b1, n⟩ := q
      rw [h1] at hs
      cases hs
      exact Style.storeOk_add h k s n ho h1
  | remove k n =>
    cases hs
    have hmem : ∀ k' e, e ∈ (b.setStore k ((b.store k).remove n)).store k' → e ∈ b.store k' := by
      intro k' e he
      rw [Book.get_setStore] at he
      split at he
      · rename_i hk; subst hk; exact (List.mem_filter.1 he).1
      · exact he
    refine ⟨fun k' e he => h.key k' e (hmem k' e he), fun k' e he => h.body k' e (hmem k' e he), fun k' => ?_⟩
    show HMap.Distinct ((b.setStore k ((b.store k).remove n)).store k')
    rw [Book.get_setStore]
    split
    · exact HMap.distinct_remove _ _ (h.map k)
    · exact h.map k'
  | modify k n f =>
    cases hs
    have hmem : ∀ k' e, e ∈ (b.modify k n f).store k' → e ∈ b.store k' ∨ (k' = k ∧ ∃ s, (n, s) ∈ b.store k ∧ e = (n, f s)) := by
      intro k' e he
      unfold Stores.modify at he
      rw [Book.get_setStore] at he
      split at he
      · rename_i hk
        subst hk
        obtain ⟨x, hx, rfl⟩ := List.mem_map.1 he
        split
        · rename_i hn
          refine .inr ⟨rfl, x.2, ?_, rfl⟩
          rw [← hn]
          exact hx
        · exact .inl hx
      · exact .inl he
    refine ⟨fun k' e he => ?_, fun k' e he => ?_, fun k' => ?_⟩
    · rcases hmem k' e he with he | ⟨rfl, s, hs, rfl⟩
      · exact h.key k' e he
      · have h1 := h.key k' _ hs
        have h2 := ho s (h.body k' _ hs)
        exact ⟨h1.1.trans h2.1.symm, by show (f s).name ≠ []; rw [h2.1]; exact h1.2⟩
    · rcases hmem k' e he with he | ⟨rfl, s, hs, rfl⟩
      · exact h.body k' e he
      · exact (ho s (h.body k' _ hs)).2
    · unfold Stores.modify
      rw [Book.get_setStore]
      split
      · unfold HMap.Distinct
        rw [HMap.keys_modify]
        exact h.map k
      · exact h.map k'

theorem step_size {b b' : Stores β} (o : StoreOp β) (r : Option Str) (hs : b.step o = .ok (b', r)) (ks : List Book.Kind)
    (hk : ks.Nodup) : Style.size ks b' ≤ Style.size ks b + 1 := by
  have hset : ∀ (k : Book.Kind) (m : HMap Str (Book.Style β)), m.length ≤ (b.store k).length →
      Style.size ks (b.setStore k m) ≤ Style.size ks b + 1 := by
    intro k m hm
    have := Style.size_set k m b (by omega) ks hk
    split at this <;> omega
  cases o with
  | add k s =>
    rw [Stores.step] at hs
    cases h1 : b.add k s with
    | error e => rw [h1] at hs; cases hs
    | ok q =>
      obtain ⟨b1, n⟩ := q
      rw [h1] at hs
      cases hs
      exact Style.size_add ks hk _ _ k s n h1
  | remove k n =>
    cases hs
    exact hset k _ (List.length_filter_le _ _)
  | modify k n f =>
    cases hs
    exact hset k _ (by unfold HMap.modify; rw [List.length_map]; exact Nat.le_refl _)

/-- A call on a store does not fail, and keeps it. -/
theorem storeInv_step {n : Nat} {b : Stores β} (h : StoreInv P n b) (hn : n < 4294967296) (o : StoreOp β)
    (ho : StoreCallOk P o) : ∃ b' r, b.step o = .ok (b', r) ∧ StoreInv P (n + 1) b' := by
  obtain ⟨os, rs, h1, h2⟩ := h.made
  obtain ⟨b1, rs1, E, e1, e2, e3⟩ := Book.run_seen os {} (fun _ => []) 0 (Book.new_seen (β := β)) (fun _ => Nat.le_refl _)
    (by unfold Book.u32Max1; omega)
  cases h1.symm.trans e1
  obtain ⟨b', r, _, s1, _, _⟩ := Book.step_seen b E e2 o os.length (fun k => by have := e3 k; omega)
    (by unfold Book.u32Max1; omega)
  refine ⟨b', r, s1, step_storeOk h.ok o ho r s1, ⟨os ++ [o], rs ++ [r], run_snoc os o _ _ _ _ _ h1 s1, by simp; omega⟩, ?_⟩
  intro ks hk
  have := step_size o r s1 ks hk
  have := h.size ks hk
  omega

theorem storeInv_put {n : Nat} {b : Stores β} (h : StoreInv P n b) (hn : n < 4294967296) (k : Book.Kind) (m : Str) (x : β)
    (hm : m ≠ []) (hx : P k x) : StoreInv P (n + 1) (Fmt.put b k m x) := by
  obtain ⟨b', r, h1, h2⟩ := storeInv_step h hn (.add k ⟨m, x⟩) hx
  have : b.step (.add k ⟨m, x⟩) = .ok (Fmt.put b k m x, some m) := by
    rw [Stores.step, Stores.add, if_neg (show (⟨m, x⟩ : Book.Style β).name ≠ [] from hm)]
    rfl
  cases h1.symm.trans this
  exact h2

end Stores

/-! ## The styles of a new workbook -/

theorem table_ok (t : Fmt.Table) (ht : t = Fmt.tableEn ∨ t = Fmt.tableCsCz ∨ t = Fmt.tableDeAt ∨ t = Fmt.tableEnUs) :
    ∀ q ∈ [(Book.Kind.fmtBoolean, t.boolean), (.fmtNumber, t.number), (.fmtPercentage, t.percentage), (.fmtCurrency, t.currency),
      (.fmtDateTime, t.date), (.fmtDateTime, t.datetime), (.fmtDateTime, t.timeOfDay), (.fmtTimeDuration, t.interval)],
      q.2.1 ≠ [] ∧ Style.FormatOk q.1 q.2.2 := by
  have key : ∀ q ∈ [(Book.Kind.fmtBoolean, t.boolean), (.fmtNumber, t.number), (.fmtPercentage, t.percentage),
      (.fmtCurrency, t.currency), (.fmtDateTime, t.date), (.fmtDateTime, t.datetime), (.fmtDateTime, t.timeOfDay),
      (.fmtTimeDuration, t.interval)],
      q.2.1 ≠ [] ∧ q.1 ∈ Style.Spec.formatFamilies ∧ (∀ a ∈ q.2.2.attr, Name a.1) ∧ (∀ a ∈ q.2.2.attr, a.1 ≠ Style.aName)
        ∧ (∀ a ∈ q.2.2.text, Name a.1) ∧ ∀ p ∈ q.2.2.parts, (∀ a ∈ p.attr, Name a.1) ∧ p.position = none := by
    rcases ht with rfl | rfl | rfl | rfl <;> decide +kernel
  intro q hq
  obtain ⟨h0, h1, h2, h3, h4, h5⟩ := key q hq
  exact ⟨h0, h1, h2, h3, h4, fun p hp => ⟨(h5 p hp).1, fun z hz => by rw [(h5 p hp).2] at hz; cases hz⟩⟩

theorem localized_table (ft : Fmt.Features) (l : Fmt.Locale) (t : Fmt.Table) (h : Fmt.localized ft l = some t) :
    t = Fmt.tableEn ∨ t = Fmt.tableCsCz ∨ t = Fmt.tableDeAt ∨ t = Fmt.tableEnUs := by
  unfold Fmt.localized at h
  split at h
  · cases h; exact .inl rfl
  · split at h
    · cases h; exact .inr (.inl rfl)
    · split at h
      · cases h; exact .inr (.inr (.inl rfl))
      · split at h
        · cases h; exact .inr (.inr (.inr rfl))
        · cases h

theorem cell_ok (f : Str) : Style.BodyOk .cell { attr := specSet [] Fmt.aDataStyle f } := by
  have ha : Style.KeysOk (specSet [] Fmt.aDataStyle f) := by
    have hn : Name Fmt.aDataStyle := by decide +kernel
    intro a h
    have : specSet ([] : List (Str × Str)) Fmt.aDataStyle f = [(Fmt.aDataStyle, f)] := rfl
    rw [this] at h
    cases h with
    | head => exact hn
    | tail _ h => cases h
  refine ⟨⟨by decide, fun _ => rfl, fun _ => rfl, fun _ => rfl, fun _ => rfl, fun _ => rfl⟩, ha, ?_, ?_, ?_, ?_, ?_⟩
  · intro a h; cases h
  · intro a h; cases h
  · intro a h; cases h
  · intro l h; cases h
  · intro l h; cases h

theorem defaultStyles_inv {n : Nat} {s : Stores Style.Body} (h : StoreInv Style.BodyOk n s) (hn : n + 8 < 4294967296) :
    StoreInv Style.BodyOk (n + 8) (Fmt.defaultStyles s) := by
  unfold Fmt.defaultStyles
  have hp : ∀ {m : Nat} {b : Stores Style.Body} (x f : Str), StoreInv Style.BodyOk m b → m < 4294967296 → x ≠ [] →
      StoreInv Style.BodyOk (m + 1) (Fmt.put b .cell x { attr := specSet [] Fmt.aDataStyle f }) :=
    fun x f hb hm hx => storeInv_put hb hm .cell x _ hx (cell_ok f)
  have h1 := hp Fmt.sBool Fmt.fBool h (by omega) (by decide)
  have h2 := hp Fmt.sNumber Fmt.fNumber h1 (by omega) (by decide)
  have h3 := hp Fmt.sPercent Fmt.fPercent h2 (by omega) (by decide)
  have h4 := hp Fmt.sCurrency Fmt.fCurrency h3 (by omega) (by decide)
  have h5 := hp Fmt.sDate Fmt.fDate h4 (by omega) (by decide)
  have h6 := hp Fmt.sDatetime Fmt.fDatetime h5 (by omega) (by decide)
  have h7 := hp Fmt.sTime Fmt.fTime h6 (by omega) (by decide)
  exact hp Fmt.sInterval Fmt.fInterval h7 (by omega) (by decide)

theorem settled_inv (ft : Fmt.Features) (l : Fmt.Locale) {n : Nat} {s : Stores Style.Format}
    (h : StoreInv Style.FormatOk n s) (hn : n + 8 < 4294967296) : StoreInv Style.FormatOk (n + 8) (Fmt.settled ft l s) := by
  unfold Fmt.settled
  cases ht : Fmt.localized ft l with
  | none => exact storeInv_mono h (by omega)
  | some t =>
    have hk := table_ok t (localized_table ft l t ht)
    simp only [List.mem_cons, List.not_mem_nil, or_false, forall_eq_or_imp, forall_eq] at hk
    obtain ⟨k1, k2, k3, k4, k5, k6, k7, k8⟩ := hk
    have h1 := storeInv_put h (by omega) _ _ _ k1.1 k1.2
    have h2 := storeInv_put h1 (by omega) _ _ _ k2.1 k2.2
    have h3 := storeInv_put h2 (by omega) _ _ _ k3.1 k3.2
    have h4 := storeInv_put h3 (by omega) _ _ _ k4.1 k4.2
    have h5 := storeInv_put h4 (by omega) _ _ _ k5.1 k5.2
    have h6 := storeInv_put h5 (by omega) _ _ _ k6.1 k6.2
    have h7 := storeInv_put h6 (by omega) _ _ _ k7.1 k7.2
    exact storeInv_put h7 (by omega) _ _ _ k8.1 k8.2

/-! ## The workbook -/

/-- The fonts are stored under their names. -/
structure FontsOk (m : HMap Str Style.Font) : Prop where
  key : ∀ e ∈ m, e.1 = e.2.name
  font : ∀ e ∈ m, Style.FontOk e.2
  map : HMap.Distinct m

/-- What each call keeps: all but the sheets is as C94 wants it, and was made by at most `n` calls. -/
structure BookInv (fl : Floats) (lb : Bool) (n : Nat) (b : Workbook) : Prop where
  ns : b.ns = {}
  metadata : Meta.Spec.Kept fl b.metadata
  config : b.config = Config.newConfig
  styles : StoreInv Style.BodyOk n b.styles.book.styles
  formats : StoreInv Style.FormatOk n b.styles.book.formats
  pages : StoreInv (fun _ => Style.PageOk) n b.styles.book.pages
  fonts : FontsOk b.styles.book.fonts
  masters : StoreInv (GoodMaster lb) n b.masters
  valid : StoreInv GoodValid n b.valid
  flat : lb = true → b.valid = {}

theorem kept_new (fl : Floats) : Meta.Spec.Kept fl {} := by
  refine ⟨nofun, nofun, nofun, by decide, .inl rfl, nofun, nofun⟩

theorem inv_mono {fl : Floats} {lb : Bool} {n m : Nat} {b : Workbook} (h : BookInv fl lb n b) (hn : n ≤ m) :
    BookInv fl lb m b :=
  { h with
    styles := storeInv_mono h.styles hn
    formats := storeInv_mono h.formats hn
    pages := storeInv_mono h.pages hn
    masters := storeInv_mono h.masters hn
    valid := storeInv_mono h.valid hn }

theorem inv_empty (fl : Floats) (lb : Bool) : BookInv fl lb 0 Workbook.newEmpty where
  ns := rfl
  metadata := kept_new fl
  config := rfl
  styles := storeInv_new
  formats := storeInv_new
  pages := storeInv_new
  fonts := ⟨nofun, nofun, List.Pairwise.nil⟩
  masters := storeInv_new
  valid := storeInv_new
  flat := fun _ => rfl

theorem inv_locale {fl : Floats} {lb : Bool} {n : Nat} {b : Workbook} (h : BookInv fl lb n b) (hn : n + 8 < 4294967296)
    (ft : Fmt.Features) (l : Fmt.Locale) :
    ∃ s, Fmt.localeSettings ft l b.styles = .ok s ∧ BookInv fl lb (n + 8) { b with styles := s } := by
  refine ⟨_, Fmt.settings_ok ft l b.styles, ?_⟩
  have h' := inv_mono h (show n ≤ n + 8 by omega)
  exact { h' with styles := defaultStyles_inv h.styles hn, formats := settled_inv ft l h.formats hn }

/-- **C100, new.** A workbook can be made, with any locale. -/
theorem new_inv (fl : Floats) (lb : Bool) (ft : Fmt.Features) (l : Fmt.Locale) :
    ∃ b, Workbook.new ft l = some b ∧ BookInv fl lb 8 b ∧ b.sheets = [] ∧ b.view = {} := by
  obtain ⟨s, h1, h2⟩ := inv_locale (inv_empty fl lb) (by decide) ft l
  exact ⟨_, by unfold Workbook.new; rw [h1], h2, rfl, rfl⟩

theorem fonts_step {m : HMap Str Style.Font} (h : FontsOk m) :
    (∀ f, Style.FontOk f → FontsOk (m.insert f.name f)) ∧ (∀ n, FontsOk (m.remove n))
    ∧ ∀ n f, (∀ x, Style.FontOk x → (f x).name = x.name ∧ Style.FontOk (f x)) → FontsOk (m.modify n f) := by
  refine ⟨fun f hf => ⟨?_, ?_, HMap.distinct_insert _ _ _ h.map⟩, fun n => ⟨?_, ?_, HMap.distinct_remove _ _ h.map⟩,
    fun n f hf => ⟨?_, ?_, ?_⟩⟩
  · intro e he
    rcases List.mem_cons.1 he with rfl | he
    · rfl
    · exact h.key e (List.mem_filter.1 he).1
  · intro e he
    rcases List.mem_cons.1 he with rfl | he
    · exact hf
    · exact h.font e (List.mem_filter.1 he).1
  · exact fun e he => h.key e (List.mem_filter.1 he).1
  · exact fun e he => h.font e (List.mem_filter.1 he).1
  · intro e he
    obtain ⟨x, hx, rfl⟩ := List.mem_map.1 he
    split
    · rename_i hn
      rw [(hf x.2 (h.font x hx)).1, ← h.key x hx, hn]
    · exact h.key x hx
  · intro e he
    obtain ⟨x, hx, rfl⟩ := List.mem_map.1 he
    split
    · exact (hf x.2 (h.font x hx)).2
    · exact h.font x hx
  · unfold HMap.Distinct
    rw [HMap.keys_modify]
    exact h.map

/-- The calls that are not about sheets. -/
def Spec.NoSheet : BookCall → Prop
  | .pushSheet _ _ | .insertSheet _ _ _ | .removeSheet _ | .sheet _ _ => False
  | _ => True

theorem inv_call {fl : Floats} {lb : Bool} {n : Nat} {b : Workbook} (h : BookInv fl lb n b) (hn : n + 8 < 4294967296)
    (c : BookCall) (hc : CallOk fl lb c) :
    (NoSheet c → ∃ b', b.call c = some b') ∧ ∀ b', b.call c = some b' → BookInv fl lb (n + 8) b' := by
  have h' := inv_mono h (show n ≤ n + 8 by omega)
  cases c with
  | style o =>
    obtain ⟨s, r, h1, h2⟩ := storeInv_step h.styles (by omega) o hc
    have e : b.call (.style o) = some { b with styles := { b.styles with book := { b.styles.book with styles := s } } } := by
      rw [Workbook.call, h1]
    exact ⟨fun _ => ⟨_, e⟩, fun b' hb => by cases e.symm.trans hb; exact { h' with styles := storeInv_mono h2 (by omega) }⟩
  | format o =>
    obtain ⟨s, r, h1, h2⟩ := storeInv_step h.formats (by omega) o hc
    have e : b.call (.format o) = some { b with styles := { b.styles with book := { b.styles.book with formats := s } } } := by
      rw [Workbook.call, h1]
    exact ⟨fun _ => ⟨_, e⟩, fun b' hb => by cases e.symm.trans hb; exact { h' with formats := storeInv_mono h2 (by omega) }⟩
  | page o =>
    obtain ⟨s, r, h1, h2⟩ := storeInv_step h.pages (by omega) o hc
    have e : b.call (.page o) = some { b with styles := { b.styles with book := { b.styles.book with pages := s } } } := by
      rw [Workbook.call, h1]
    exact ⟨fun _ => ⟨_, e⟩, fun b' hb => by cases e.symm.trans hb; exact { h' with pages := storeInv_mono h2 (by omega) }⟩
  | master o =>
    obtain ⟨s, r, h1, h2⟩ := storeInv_step h.masters (by omega) o hc
    have e : b.call (.master o) = some { b with masters := s } := by rw [Workbook.call, h1]
    exact ⟨fun _ => ⟨_, e⟩, fun b' hb => by cases e.symm.trans hb; exact { h' with masters := storeInv_mono h2 (by omega) }⟩
  | validation o =>
    obtain ⟨s, r, h1, h2⟩ := storeInv_step h.valid (by omega) o hc.2
    have e : b.call (.validation o) = some { b with valid := s } := by rw [Workbook.call, h1]
    exact ⟨fun _ => ⟨_, e⟩, fun b' hb => by
      cases e.symm.trans hb
      exact { h' with valid := storeInv_mono h2 (by omega), flat := fun hl => by rw [hc.1] at hl; cases hl }⟩
  | addFont f => exact ⟨fun _ => ⟨_, rfl⟩, fun b' hb => by cases hb; exact { h' with fonts := (fonts_step h.fonts).1 f hc }⟩
  | removeFont m => exact ⟨fun _ => ⟨_, rfl⟩, fun b' hb => by cases hb; exact { h' with fonts := (fonts_step h.fonts).2.1 m }⟩
  | changeFont m f => exact ⟨fun _ => ⟨_, rfl⟩, fun b' hb => by cases hb; exact { h' with fonts := (fonts_step h.fonts).2.2 m f hc }⟩
  | addDefStyle t s => exact ⟨fun _ => ⟨_, rfl⟩, fun b' hb => by cases hb; exact { h' with }⟩
  | localeSettings ft l =>
    obtain ⟨s, h1, h2⟩ := inv_locale h hn ft l
    have e : b.call (.localeSettings ft l) = some { b with styles := s } := by rw [Workbook.call, h1]
    exact ⟨fun _ => ⟨_, e⟩, fun b' hb => by cases e.symm.trans hb; exact h2⟩
  | metadata f => exact ⟨fun _ => ⟨_, rfl⟩, fun b' hb => by cases hb; exact { h' with metadata := hc _ h.metadata }⟩
  | view f => exact ⟨fun _ => ⟨_, rfl⟩, fun b' hb => by cases hb; exact { h' with }⟩
  | pushSheet m cs =>
    refine ⟨fun h => h.elim, fun b' hb => ?_⟩
    rw [Workbook.call] at hb
    split at hb
    · cases hb; exact { h' with }
    · cases hb
  | insertSheet i m cs =>
    refine ⟨fun h => h.elim, fun b' hb => ?_⟩
    rw [Workbook.call] at hb
    split at hb
    · split at hb
      · cases hb; exact { h' with }
      · cases hb
    · cases hb
  | removeSheet i =>
    refine ⟨fun h => h.elim, fun b' hb => ?_⟩
    rw [Workbook.call] at hb
    split at hb
    · cases hb; exact { h' with }
    · cases hb
  | sheet i c =>
    refine ⟨fun h => h.elim, fun b' hb => ?_⟩
    rw [Workbook.call] at hb
    split at hb
    · split at hb
      · cases hb; exact { h' with }
      · cases hb
    · cases hb

theorem inv_run {fl : Floats} {lb : Bool} (calls : List BookCall) (hc : ∀ c ∈ calls, CallOk fl lb c) :
    ∀ (n : Nat) (b : Workbook), BookInv fl lb n b → n + 8 * calls.length < 4294967296 →
    ((∀ c ∈ calls, NoSheet c) → ∃ b', b.run calls = some b')
    ∧ ∀ b', b.run calls = some b' → BookInv fl lb (n + 8 * calls.length) b' := by
  induction calls with
  | nil =>
    intro n b h _
    exact ⟨fun _ => ⟨b, rfl⟩, fun b' hb => by cases hb; exact h⟩
  | cons c calls ih =>
    intro n b h hn
    rw [List.length_cons] at hn ⊢
    obtain ⟨h1, h2⟩ := inv_call h (by omega) c (hc c List.mem_cons_self)
    have hrest := ih (fun x hx => hc x (List.mem_cons_of_mem _ hx))
    constructor
    · intro hs
      obtain ⟨b1, e1⟩ := h1 (hs c List.mem_cons_self)
      obtain ⟨b2, e2⟩ := (hrest (n + 8) b1 (h2 b1 e1) (by omega)).1 fun x hx => hs x (List.mem_cons_of_mem _ hx)
      exact ⟨b2, by rw [Workbook.run, e1]; exact e2⟩
    · intro b' hb
      rw [Workbook.run] at hb
      cases e1 : b.call c with
      | none => rw [e1] at hb; cases hb
      | some b1 =>
        rw [e1] at hb
        have := (hrest (n + 8) b1 (h2 b1 e1) (by omega)).2 b' hb
        rwa [show n + 8 * (calls.length + 1) = n + 8 + 8 * calls.length by omega]

/-! ## The sheets -/

theorem sheet_run_snoc (cs : List Sheets.Call) (c : Sheets.Call) : ∀ (s s1 s2 : Sheet), s.run cs = some s1 →
    s1.call c = some s2 → s.run (cs ++ [c]) = some s2 := by
  induction cs with
  | nil => intro s s1 s2 h1 h2; cases h1; rw [List.nil_append, Sheet.run, h2]; rfl
  | cons d cs ih =>
    intro s s1 s2 h1 h2
    rw [Sheet.run] at h1
    rw [List.cons_append, Sheet.run]
    cases h3 : s.call d with
    | none => rw [h3] at h1; cases h1
    | some s3 =>
      rw [h3] at h1
      exact ih s3 s1 s2 h1 h2

theorem insertAt_eq {α : Type} (a : α) : ∀ (i : Nat) (l l' : List α), Book.insertAt a i l = some l' →
    l' = l.take i ++ a :: l.drop i := by
  intro i
  induction i with
  | zero => intro l l' h; rw [Book.insertAt] at h; cases h; simp
  | succ i ih =>
    intro l l' h
    cases l with
    | nil => cases h
    | cons x l =>
      rw [Book.insertAt] at h
      obtain ⟨r, h1, rfl⟩ := Option.map_eq_some_iff.1 h
      rw [ih l r h1]
      simp

theorem map_erase {α γ : Type} (f : α → γ) (l : List α) : ∀ i, (l.eraseIdx i).map f = (l.map f).eraseIdx i := by
  induction l with
  | nil => intro i; rfl
  | cons x l ih =>
    intro i
    cases i with
    | zero => rfl
    | succ i => simp [ih]

theorem made_call {hist : List (Str × List Sheets.Call)} {b b' : Workbook} (h : Made hist b.sheets) (c : BookCall)
    (hb : b.call c = some b') : Made (histStep hist c) b'.sheets := by
  unfold Made at h ⊢
  cases c with
  | pushSheet n cs =>
    rw [Workbook.call] at hb
    split at hb
    · rename_i s hs
      cases hb
      simp only [histStep, List.map_append, h, List.map_cons, hs, List.map_nil]
    · cases hb
  | insertSheet i n cs =>
    rw [Workbook.call] at hb
    split at hb
    · rename_i s hs
      split at hb
      · rename_i l hl
        cases hb
        rw [insertAt_eq s i _ _ hl]
        simp only [histStep, List.map_append, List.map_cons, hs, List.map_take, List.map_drop, h]
      · cases hb
    · cases hb
  | removeSheet i =>
    rw [Workbook.call] at hb
    split at hb
    · cases hb
      simp only [histStep, map_erase, h]
    · cases hb
  | sheet i c =>
    rw [Workbook.call] at hb
    split at hb
    · rename_i s hs
      split at hb
      · rename_i s' hs'
        cases hb
        apply List.ext_getElem?
        intro j
        have hj := congrArg (fun l => l[j]?) h
        simp only [List.getElem?_map] at hj ⊢
        simp only [histStep, List.getElem?_modify, List.getElem?_set]
        by_cases hij : i = j
        · subst hij
          rw [hs] at hj
          have hlt : i < b.sheets.length := (List.getElem?_eq_some_iff.1 hs).1
          rw [if_pos rfl, if_pos hlt]
          cases hq : hist[i]? with
          | none => rw [hq] at hj; cases hj
          | some q =>
            rw [hq] at hj
            simp only [Option.map_some, Option.some.injEq, if_true, Option.map_eq_map] at hj ⊢
            exact sheet_run_snoc q.2 c _ s s' hj hs'
        · simp only [if_neg hij]
          simpa using hj
      · cases hb
    · cases hb
  | style o | format o | page o | master o | validation o | localeSettings ft l =>
    rw [Workbook.call] at hb
    split at hb
    · cases hb; exact h
    · cases hb
  | addFont f | removeFont n | changeFont n f | addDefStyle t s | metadata f | view f => cases hb; exact h

theorem made_run (calls : List BookCall) : ∀ (hist : List (Str × List Sheets.Call)) (b b' : Workbook), Made hist b.sheets →
    b.run calls = some b' → Made (calls.foldl histStep hist) b'.sheets := by
  induction calls with
  | nil => intro hist b b' h hb; cases hb; exact h
  | cons c calls ih =>
    intro hist b b' h hb
    rw [Workbook.run] at hb
    cases e : b.call c with
    | none => rw [e] at hb; cases hb
    | some b1 =>
      rw [e] at hb
      exact ih _ b1 b' (made_call h c e) hb

/-! ## The parts -/

theorem names_once {β : Type} {P : Book.Kind → β → Prop} {b : Stores β} (h : Style.StoreOk P b) (k : Book.Kind) :
    (((b.store k).map Prod.snd).map (·.name)).Nodup := by
  have : ((b.store k).map Prod.snd).map (·.name) = HMap.keys (b.store k) := by
    unfold HMap.keys
    rw [List.map_map]
    apply List.map_congr_left
    intro e he
    exact (h.key k e he).1.symm
  rw [this]
  exact h.map k

theorem inv_parts {fl : Floats} {lb : Bool} {n : Nat} {b : Workbook} (h : BookInv fl lb n b) (hn : 2 * n < 4294967296) :
    GoodParts fl lb b.doc.rest where
  ns := ⟨[], nofun, by show Ns.runOps {} [] = .ok b.ns; rw [h.ns]; rfl⟩
  metadata := h.metadata
  config := by show Config.GoodConfig _ b.config; rw [h.config]; exact (Config.new_config fl).2.1
  scripts := rfl
  styles :=
    { styleKey := h.styles.ok.key, style := h.styles.ok.body, stylesMap := h.styles.ok.map
      formatKey := h.formats.ok.key, format := h.formats.ok.body, formatsMap := h.formats.ok.map
      pageKey := h.pages.ok.key .page, page := h.pages.ok.body .page, pagesMap := h.pages.ok.map .page
      fontKey := h.fonts.key, font := h.fonts.font, fontsMap := h.fonts.map }
  styleCount := by
    have := h.styles.size Style.styleKinds (by decide)
    show Style.size Style.styleKinds b.styles.book.styles < _
    omega
  masters := by
    intro q hq
    obtain ⟨e, he, rfl⟩ := List.mem_map.1 hq
    exact (h.masters.ok.body .masterPage e he).1
  masterNames := by
    intro q hq
    obtain ⟨e, he, rfl⟩ := List.mem_map.1 hq
    exact (h.masters.ok.key .masterPage e he).2
  masterOnce := names_once h.masters.ok .masterPage
  masterKeeps := by
    intro q hq
    obtain ⟨e, he, rfl⟩ := List.mem_map.1 hq
    exact (h.masters.ok.body .masterPage e he).2
  body :=
    { flat := by
        cases lb with
        | false => exact .inl rfl
        | true =>
          refine .inr ⟨rfl, ?_⟩
          show (b.valid.store .validation).map Prod.snd = []
          rw [h.flat rfl]
          rfl
      extra := nofun
      valid := by
        intro v hv
        obtain ⟨e, he, rfl⟩ := List.mem_map.1 hv
        exact h.valid.ok.body .validation e he e.2.name (h.valid.ok.key .validation e he).2
      names := names_once h.valid.ok .validation
      count := by
        have := h.valid.size [.validation] (by decide)
        have e : Style.size [.validation] b.valid = (b.valid.store .validation).length := by simp [Style.size]
        show 2 * ((b.valid.store .validation).map Prod.snd).length < _
        rw [List.length_map]
        omega }

/-! ## C100 -/

section

variable (ft : Fmt.Features) (l : Fmt.Locale)

/-- **C100, calls.** A workbook can be made with any locale, and no call about styles, formats, pages, fonts, master
pages, validations, metadata or the view fails. -/
theorem C100_calls (fl : Floats) (lb : Bool) (calls : List BookCall) (hc : ∀ c ∈ calls, CallOk fl lb c)
    (hs : ∀ c ∈ calls, NoSheet c) (hn : 8 * (calls.length + 1) < 4294967296) :
    ∃ b0 b, Workbook.new ft l = some b0 ∧ b0.run calls = some b := by
  obtain ⟨b0, h1, h2, _⟩ := new_inv fl lb ft l
  obtain ⟨b, hb⟩ := (inv_run calls hc 8 b0 h2 (by omega)).1 hs
  exact ⟨b0, b, h1, hb⟩

variable {ft l}

theorem made_cyclic {fl : Floats} {lb : Bool} {calls : List BookCall} {b0 b : Workbook} (hnew : Workbook.new ft l = some b0)
    (hrun : b0.run calls = some b) (hc : ∀ c ∈ calls, CallOk fl lb c) (hs : SheetsOk fl lb (histories calls))
    (hz : SizesFit fl b.styles.book.styles (histories calls))
    (hn : 16 * (calls.length + 1)
      + 4 * ((histories calls).map fun q => (rowCalls [] q.2).length + (colCalls [] q.2).length).sum < 4294967296) :
    Cyclic fl lb (histories calls) b.doc
    ∧ ∃ os rs, ({} : Stores Style.Body).run os = .ok (b.doc.rest.styles.styles, rs)
      ∧ os.length + 4 * ((histories calls).map fun q => (rowCalls [] q.2).length + (colCalls [] q.2).length).sum ≤ 4294967296 := by
  obtain ⟨b0', e0, hi, hsh, _⟩ := new_inv fl lb ft l
  cases hnew.symm.trans e0
  have h := (inv_run calls hc 8 b0 hi (by omega)).2 b hrun
  have hm := made_run calls [] b0 b (by rw [hsh]; rfl) hrun
  obtain ⟨os, rs, o1, o2⟩ := h.styles.made
  refine ⟨⟨inv_parts h (by omega), hm, hs.some, hs.saveable, hs.typed, hs.named, hs.unique, hz, ?_⟩, os, rs, o1, by omega⟩
  have := h.styles.size Style.styleKinds (by decide)
  show Style.size Style.styleKinds b.styles.book.styles + _ < _
  omega

theorem made_config {fl : Floats} {lb : Bool} {calls : List BookCall} {b0 b : Workbook} (hnew : Workbook.new ft l = some b0)
    (hrun : b0.run calls = some b) (hc : ∀ c ∈ calls, CallOk fl lb c) (hn : 8 * (calls.length + 1) < 4294967296) :
    b.config = Config.newConfig := by
  obtain ⟨b0', e0, hi, _⟩ := new_inv fl lb ft l
  cases hnew.symm.trans e0
  exact ((inv_run calls hc 8 b0 hi (by omega)).2 b hrun).config

/-- **C100, packages (partial).** A workbook is made with any locale, and changed by any calls, as long as what they store
can be written.  It can be saved, and the package can be loaded.  Then the view, the sheets in their order with all that
their calls asked for, the other settings, the metadata, the page styles, the master pages, the validations, the other
styles, the formats and the fonts are what they were.

Missing (`_partial`): as for C94 the limits of the sheets; scripts and additional files. -/
theorem C100_package_partial {e : Env} (hm : e.ints.max = Refs.Spec.maxU32) (ho : e.opts.useRepeat = false)
    (calls : List BookCall) (b0 b : Workbook) (hnew : Workbook.new ft l = some b0) (hrun : b0.run calls = some b)
    (hc : ∀ c ∈ calls, CallOk e.fl false c) (hs : SheetsOk e.fl false (histories calls))
    (hz : SizesFit e.fl b.styles.book.styles (histories calls))
    (hn : 16 * (calls.length + 1)
      + 4 * ((histories calls).map fun q => (rowCalls [] q.2).length + (colCalls [] q.2).length).sum < 4294967296) :
    ∃ z w, b.save e.fl = some z ∧ load e z = .ok w
      ∧ w.view = bookView b.view ((histories calls).map fun q => lastWish wishName q.1 q.2)
      ∧ w.sheets.length = (histories calls).length
      ∧ (∀ (i : Nat) n cs, (histories calls)[i]? = some (n, cs) → ∃ s, w.sheets[i]? = some s
          ∧ SheetLoaded e.opts.ignoreEmpty b.defStyle n cs s)
      ∧ SettingsBack ((histories calls).map fun q => lastWish wishName q.1 q.2) b.doc.rest w.file
      ∧ OthersBack b.doc.rest w.file ∧ OtherStyles b.styles.book w.file.styles := by
  obtain ⟨hd, os, rs, o1, o2⟩ := made_cyclic hnew hrun hc hs hz hn
  obtain ⟨_, _, p1, p2, p3⟩ := Config.new_config e.fl
  obtain ⟨z, h1⟩ := (C94_saves hm ho b.defStyle (histories calls) b.doc os rs o1 o2 (by
    intro q _
    have : b.doc.rest.config = Config.newConfig := made_config hnew hrun hc (by omega)
    rw [this]
    exact ⟨p1, p2 _, p3 _⟩)).1 hd
  obtain ⟨w, h2⟩ := C94_package_partial hm ho b.defStyle (histories calls) b.doc hd z h1
  exact ⟨z, w, h1, h2⟩

/-- **C100, flat files (partial).** The same for flat files, without validations. -/
theorem C100_flat_partial {e : Env} (hm : e.ints.max = Refs.Spec.maxU32) (ho : e.opts.useRepeat = false)
    (calls : List BookCall) (b0 b : Workbook) (hnew : Workbook.new ft l = some b0) (hrun : b0.run calls = some b)
    (hc : ∀ c ∈ calls, CallOk e.fl true c) (hs : SheetsOk e.fl true (histories calls))
    (hz : SizesFit e.fl b.styles.book.styles (histories calls))
    (hn : 16 * (calls.length + 1)
      + 4 * ((histories calls).map fun q => (rowCalls [] q.2).length + (colCalls [] q.2).length).sum < 4294967296) :
    ∃ z w, b.saveFlat e.fl = some z ∧ loadFlat e z = .ok w
      ∧ w.view = bookView b.view ((histories calls).map fun q => lastWish wishName q.1 q.2)
      ∧ w.sheets.length = (histories calls).length
      ∧ (∀ (i : Nat) n cs, (histories calls)[i]? = some (n, cs) → ∃ s, w.sheets[i]? = some s
          ∧ SheetLoaded e.opts.ignoreEmpty b.defStyle n cs s)
      ∧ SettingsBack ((histories calls).map fun q => lastWish wishName q.1 q.2) b.doc.rest w.file
      ∧ OthersBack b.doc.rest w.file ∧ OtherFlatStyles b.styles.book w.file.styles := by
  obtain ⟨hd, os, rs, o1, o2⟩ := made_cyclic hnew hrun hc hs hz hn
  obtain ⟨_, _, p1, p2, p3⟩ := Config.new_config e.fl
  obtain ⟨z, h1⟩ := (C94_saves hm ho b.defStyle (histories calls) b.doc os rs o1 o2 (by
    intro q _
    have : b.doc.rest.config = Config.newConfig := made_config hnew hrun hc (by omega)
    rw [this]
    exact ⟨p1, p2 _, p3 _⟩)).2 hd
  obtain ⟨w, h2⟩ := C94_flat_partial hm ho b.defStyle (histories calls) b.doc hd z h1
  exact ⟨z, w, h1, h2⟩

theorem conf_mem (n : Str) (v : Config.CValue) (h : (n, v) ∈ Config.confDefaults) :
    (⟨[(Config.kConf, some .set)], n, v⟩ : Config.Assign) ∈ Config.firstDefaults ++ Config.lastDefaults := by
  refine List.mem_append.2 (.inr (List.mem_append.2 (.inr ?_)))
  exact List.mem_map.2 ⟨(n, v), h, rfl⟩

/-- **C100, settings.** In a workbook that was made and not loaded, and then saved and loaded as above, each of the
settings that the library sets is there, but for those of the view, which are those of the workbook, and the empty ones.
The name and the setup of the printer are among these: they are set before, and then they are not. -/
theorem C100_settings {names : List Str} (b : Workbook) (hb : b.config = Config.newConfig) (t : Target)
    (ht : SettingsBack names b.doc.rest t) :
    (∀ a ∈ Config.firstDefaults ++ Config.lastDefaults, (a.path = Config.viewPath → ∀ k : Config.BKey, a.name ≠ k.name) →
      Config.getValueRec a.full (.node .set b.config) = some a.value
      ∧ Config.getValueRec a.full (.node .set t.config) = if a.value.isEmpty then none else some a.value)
    ∧ Config.getValueRec ["ooo:configuration-settings".toList, "PrinterName".toList] (.node .set b.config) = some (.string [])
    ∧ Config.getValueRec ["ooo:configuration-settings".toList, "PrinterName".toList] (.node .set t.config) = none
    ∧ Config.getValueRec ["ooo:configuration-settings".toList, "PrinterSetup".toList] (.node .set b.config) = some (.base64 [])
    ∧ Config.getValueRec ["ooo:configuration-settings".toList, "PrinterSetup".toList] (.node .set t.config) = none := by
  have key : ∀ a ∈ Config.firstDefaults ++ Config.lastDefaults, (a.path = Config.viewPath → ∀ k : Config.BKey, a.name ≠ k.name) →
      Config.getValueRec a.full (.node .set b.config) = some a.value
      ∧ Config.getValueRec a.full (.node .set t.config) = if a.value.isEmpty then none else some a.value := by
    intro a ha hv
    have h1 : Config.getValueRec a.full (.node .set b.config) = some a.value := by rw [hb]; exact Config.new_values a ha
    refine ⟨h1, ?_⟩
    rw [ht a.full ?_]
    · show (Config.getValueRec a.full (.node .set b.config)).filter _ = _
      rw [h1]
      simp only [Option.filter_some]
      cases a.value.isEmpty <;> rfl
    · intro p hp hpre
      have hlen := hpre.length_le
      rcases Config.mem_defaults a (List.mem_append.1 ha) with ⟨e, he, rfl⟩ | ⟨e, he, rfl⟩ | ⟨e, he, rfl⟩
      · cases hp <;> simp [Config.Assign.full] at hlen
      · cases hp with
        | book k =>
          have := hpre.eq_of_length rfl
          simp only [Config.Assign.full, Config.viewPath, List.map_cons, List.map_nil, List.cons_append, List.nil_append, List.cons.injEq] at this
          exact hv rfl k this.2.2.2.1.symm
        | sheet n h k => simp [Config.Assign.full, Config.viewPath] at hlen
        | script n h =>
          simp only [Config.Assign.full, Config.viewPath, List.map_cons, List.cons_append] at hpre
          obtain ⟨r, hr⟩ := hpre
          injection hr with hr
          exact absurd hr.symm Config.view_ne
      · cases hp <;> simp [Config.Assign.full] at hlen
  refine ⟨key, ?_⟩
  have h1 := key ⟨[(Config.kConf, some .set)], "PrinterName".toList, .string []⟩ (conf_mem _ _ (by decide +kernel)) (by intro h; cases h)
  have h2 := key ⟨[(Config.kConf, some .set)], "PrinterSetup".toList, .base64 []⟩ (conf_mem _ _ (by decide +kernel)) (by intro h; cases h)
  exact ⟨h1.1, h1.2, h2.1, h2.2⟩

end

end Verif.Whole
