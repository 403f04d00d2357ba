import Verif.Whole.Model
import Verif.Ns.Props
import Verif.Xml.DocTags
import Verif.Style.Props
import Verif.Meta.Props
import Verif.Config.SettingsProps

/-!
# Whole files: the loop
-/

set_option autoImplicit false

namespace Verif.Whole

open Xml Codec Xml.Spec
open Verif.Book (Stores HMap)
open Verif.Ns (Part NsBook)

variable (e : Env) (p : Part)

/-- The loop reaches the state `x'` in front of `es'`. -/
def Goes (x : State) (es : List Event) (x' : State) (es' : List Event) : Prop :=
  ∃ n, n + es'.length ≤ es.length ∧ ∀ k, loop e p (k + n) x es = loop e p k x' es'

variable {e : Env} {p : Part}

theorem Goes.refl (x : State) (es : List Event) : Goes e p x es x es := ⟨0, by omega, fun _ => rfl⟩

theorem Goes.trans {x y z : State} {a b c : List Event} (h1 : Goes e p x a y b) (h2 : Goes e p y b z c) :
    Goes e p x a z c := by
  obtain ⟨n, hn, h1⟩ := h1
  obtain ⟨l, hl, h2⟩ := h2
  refine ⟨l + n, by omega, fun k => ?_⟩
  rw [← Nat.add_assoc, h1, h2]

theorem goes_step {x x' : State} {ev : Event} {es es' : List Event} (h : step e p x ev es = .ok (x', es'))
    (hl : es'.length ≤ es.length) : Goes e p x (ev :: es) x' es' := by
  refine ⟨1, by rw [List.length_cons]; omega, fun k => ?_⟩
  rw [loop, h]

/-- The names of the start tags that no part of the file has to itself. -/
def Free (p : Part) (n : Str) : Prop := special p n = none

theorem plain_styled (hp : styled p = true) (md : Style.Mode) (b : Target) (ev : Event) :
    plain e p md b ev = (Style.step e.ints (origin p) ⟨md, b.styles⟩ ev).map fun st =>
      ⟨.style st.mode, { b with styles := st.book }⟩ := by
  unfold plain; rw [if_pos hp]

/-- A step of the styles. -/
theorem step_style (hp : styled p = true) (md : Style.Mode) (b : Target) (ev : Event) (es : List Event)
    (hs : ∀ n as, ev = .start n as → Free p n) (st : Style.State)
    (h : Style.step e.ints (origin p) ⟨md, b.styles⟩ ev = .ok st) :
    step e p ⟨.style md, b⟩ ev es = .ok (⟨.style st.mode, { b with styles := st.book }⟩, es) := by
  have hpl : plain e p md b ev = .ok ⟨.style st.mode, { b with styles := st.book }⟩ := by
    rw [plain_styled hp, h]; rfl
  cases md with
  | doc =>
    cases ev with
    | start n as =>
      have hf : special p n = none := hs n as rfl
      unfold step
      simp only [hf, hpl]
      rfl
    | _ => unfold step; simp only [hpl]; rfl
  | _ => unfold step; simp only [hpl]; rfl

/-- The styles. -/
theorem goes_style (hp : styled p = true) (r : List Event) (evs : List Event) (hs : StartsOk (Free p) evs) :
    ∀ (md md' : Style.Mode) (b : Target) (sb : Style.SBook),
    Style.run e.ints (origin p) ⟨md, b.styles⟩ evs = .ok ⟨md', sb⟩ →
    Goes e p ⟨.style md, b⟩ (evs ++ r) ⟨.style md', { b with styles := sb }⟩ r := by
  induction evs with
  | nil => intro md md' b sb h; cases h; exact Goes.refl _ _
  | cons ev evs ih =>
    intro md md' b sb h
    rw [Style.run] at h
    split at h
    · cases h
    · rename_i st hst
      have h1 := step_style (es := evs ++ r) hp md b ev (fun n as he => hs n as (by rw [he]; exact List.mem_cons_self)) st hst
      have h2 := ih (fun n as hm => hs n as (List.mem_cons_of_mem _ hm)) st.mode md' { b with styles := st.book } sb h
      exact Goes.trans (goes_step h1 (Nat.le_refl _)) h2

/-- A line break. -/
theorem goes_nl (lb : Bool) (b : Target) (r : List Event) :
    Goes e p ⟨.style .doc, b⟩ (nlEv lb ++ r) ⟨.style .doc, b⟩ r := by
  cases lb with
  | false => exact Goes.refl _ _
  | true =>
    refine goes_step (x' := ⟨.style .doc, b⟩) (ev := .text ['\n']) ?_ (Nat.le_refl _)
    unfold step plain
    simp only
    split <;> rfl

/-- A section that is read by a function of its own. -/
theorem goes_enter (n : Str) (as : List (Str × Str)) (s : Sect) (hs : special p n = some s) (b : Target) (x : State)
    (es es' : List Event) (h : enter e p b as es s = .ok (x, es')) (hl : es'.length ≤ es.length) :
    Goes e p ⟨.style .doc, b⟩ (.start n as :: es) x es' := by
  refine goes_step ?_ hl
  unfold step
  simp only [hs]
  exact h

/-- What stands behind an end tag is not longer than what stands behind the first event. -/
theorem rest_le (lb : Bool) (items : List Item) (v : Bool) (n : Str) (r : List Tok) (ev : Event) (es : List Event)
    (h : events ((items ++ [Item.end v n]).flatMap (itemToks lb) ++ r) = ev :: es) :
    (events ((nl lb).map Tok.chr ++ r)).length ≤ es.length := by
  have h1 : (items ++ [Item.end v n]).flatMap (itemToks lb) ++ r
      = items.flatMap (itemToks lb) ++ .end n :: ((nl lb).map Tok.chr ++ r) := by
    rw [List.flatMap_append]
    simp [itemToks]
  rw [h1, events_append _ _ (noChr_end n _), events_end] at h
  have := congrArg List.length h
  simp only [List.length_append, List.length_cons] at this
  omega

/-! ## The sections of the styles -/

theorem goes_doc (hp : styled p = true) (lb : Bool) (d : Doc) (ht : DocTags (Free p) d) (ps : List Style.Op)
    (hd : Style.Does e.ints (origin p) .doc (docEv lb d) ps) (b : Target) (sb : Style.SBook)
    (hb : b.styles.applyAll ps = .ok sb) (r : List Tok) (hr : NoChr r) :
    Goes e p ⟨.style .doc, b⟩ (events ((docItems d).flatMap (itemToks lb) ++ r))
      ⟨.style .doc, { b with styles := sb }⟩ (events r) := by
  rw [show (docItems d).flatMap (itemToks lb) = itemsToks lb (docItems d) from rfl, events_doc lb d r hr]
  refine goes_style hp _ _ (startsOk_doc _ lb d ht) _ _ _ _ ?_
  rw [hd b.styles, hb]
  rfl

/-! ## The metadata -/

theorem map_ok {ε α β : Type} {x : Except ε α} {g : α → β} {y : β} (h : x.map g = .ok y) : ∃ a, x = .ok a ∧ g a = y := by
  cases x with
  | error e => cases h
  | ok a => cases h; exact ⟨a, rfl, rfl⟩

theorem meta_stays (f : Floats) (st st' : Meta.St) (ev : Event) (h : Meta.step f st ev = .ok st')
    (he : ∀ n, ev = .end n → n ≠ tMeta) (hm : st.mode ≠ .file) : st'.mode ≠ .file := by
  obtain ⟨md, m⟩ := st
  cases md with
  | file => exact absurd rfl hm
  | office =>
    cases ev with
    | «end» n =>
      unfold Meta.step at h
      simp only at h
      have := he n rfl
      rw [show tMeta = "office:meta".toList from rfl] at this
      rw [if_neg this] at h
      cases h; exact hm
    | start n as =>
      unfold Meta.step at h
      simp only at h
      repeat' split at h
      all_goals (first
        | (cases h; first | exact hm | (intro hh; cases hh))
        | (obtain ⟨a, _, rfl⟩ := map_ok h; intro hh; cases hh))
    | empty n as => unfold Meta.step at h; cases h; exact hm
    | text s => unfold Meta.step at h; cases h; exact hm
    | ref s => unfold Meta.step at h; cases h; exact hm
  | value k s =>
    unfold Meta.step at h
    simp only at h
    repeat' split at h
    all_goals (first
      | (cases h; first | exact hm | (intro hh; cases hh))
      | (obtain ⟨a, _, rfl⟩ := map_ok h; intro hh; cases hh))
  | user u ty =>
    unfold Meta.step at h
    simp only at h
    repeat' split at h
    all_goals (first
      | (cases h; first | exact hm | (intro hh; cases hh))
      | (obtain ⟨a, _, rfl⟩ := map_ok h; intro hh; cases hh))

theorem step_meta (md : Meta.Mode) (b : Target) (ev : Event) (es : List Event) (st : Meta.St)
    (h : Meta.step e.fl ⟨md, b.metadata⟩ ev = .ok st) (hm : st.mode ≠ .file) :
    step e p ⟨.metadata md, b⟩ ev es = .ok (⟨.metadata st.mode, { b with metadata := st.m }⟩, es) := by
  unfold step
  simp only [h, ofMeta, Except.map]

/-- Within the metadata. -/
theorem goes_meta (r : List Event) (evs : List Event) (hs : EndsOk (· ≠ tMeta) evs) :
    ∀ (md : Meta.Mode) (st : Meta.St) (b : Target), md ≠ .file → Meta.run e.fl ⟨md, b.metadata⟩ evs = .ok st →
    Goes e p ⟨.metadata md, b⟩ (evs ++ r) ⟨.metadata st.mode, { b with metadata := st.m }⟩ r := by
  induction evs with
  | nil => intro md st b _ h; cases h; exact Goes.refl _ _
  | cons ev evs ih =>
    intro md st b hmd h
    rw [Meta.run] at h
    split at h
    · cases h
    · rename_i st1 hst
      have hne := meta_stays e.fl _ _ _ hst (fun n he => hs n (by rw [he]; exact List.mem_cons_self)) hmd
      have h1 := step_meta (p := p) (es := evs ++ r) md b ev st1 hst hne
      have h2 := ih (fun n hm => hs n (List.mem_cons_of_mem _ hm)) st1.mode st { b with metadata := st1.m } hne h
      exact Goes.trans (goes_step h1 (Nat.le_refl _)) h2

theorem textDoc_tags (P : Str → Prop) (k s : Str) (h : P k) : DocsTags P (Meta.textDoc k s) := by
  unfold Meta.textDoc
  split
  · trivial
  · exact ⟨h, trivial⟩

theorem dateDoc_tags (P : Str → Prop) (k : Str) (d : Option DateTime) (h : P k) : DocsTags P (Meta.dateDoc k d) := by
  cases d with
  | none => trivial
  | some d => exact ⟨h, trivial⟩

theorem tags_void {P : Str → Prop} {v : Bool} {n : Str} {as : List (Bool × Str × Str)} {t : Option Bool}
    {ne : Bool} (h : P n) :
    DocsTags P [.void v n as t ne] := ⟨h, trivial⟩

theorem tags_short {P : Str → Prop} {v : Bool} {n s : Str} (h : P n) : DocsTags P [.short v n s] := ⟨h, trivial⟩

theorem tags_leaf {P : Str → Prop} {v ee : Bool} {n s : Str} {as : List (Bool × Str × Str)} (h : P n) :
    DocTags P (.leaf v n as ee s) := h

theorem metaDocs_tags (f : Floats) (m : Meta.Metadata) (ds : List Doc) (hds : Meta.metaDocs f m = ds) :
    DocsTags (· ≠ tMeta) ds := by
  rw [← hds]
  unfold Meta.metaDocs
  simp only [docsTags_append]
  refine ⟨⟨⟨⟨⟨⟨⟨⟨⟨⟨⟨⟨⟨⟨⟨⟨⟨⟨?_, textDoc_tags _ _ _ (by decide +kernel)⟩, textDoc_tags _ _ _ (by decide +kernel)⟩,
    textDoc_tags _ _ _ (by decide +kernel)⟩, textDoc_tags _ _ _ (by decide +kernel)⟩, textDoc_tags _ _ _ (by decide +kernel)⟩,
    textDoc_tags _ _ _ (by decide +kernel)⟩, textDoc_tags _ _ _ (by decide +kernel)⟩, dateDoc_tags _ _ _ (by decide +kernel)⟩,
    dateDoc_tags _ _ _ (by decide +kernel)⟩, dateDoc_tags _ _ _ (by decide +kernel)⟩, textDoc_tags _ _ _ (by decide +kernel)⟩,
    ?_⟩, ?_⟩, ?_⟩, ?_⟩, ?_⟩, ?_⟩, ?_⟩
  · exact tags_short (P := (· ≠ tMeta)) (by decide +kernel)
  · split
    · exact tags_short (P := (· ≠ tMeta)) (by decide +kernel)
    · trivial
  · split
    · exact tags_short (P := (· ≠ tMeta)) (by decide +kernel)
    · trivial
  · unfold Meta.templateDoc
    split
    · trivial
    · exact tags_void (P := (· ≠ tMeta)) (by decide +kernel)
  · unfold Meta.reloadDoc
    split
    · trivial
    · exact tags_void (P := (· ≠ tMeta)) (by decide +kernel)
  · unfold Meta.hyperlinkDoc
    split
    · trivial
    · exact tags_void (P := (· ≠ tMeta)) (by decide +kernel)
  · exact tags_void (P := (· ≠ tMeta)) (by decide +kernel)
  · exact docsTags_map _ _ _ (fun u _ => tags_leaf (P := (· ≠ tMeta)) (by decide +kernel))

theorem goes_metaEvs (hp : special p tMeta = some .metadata) (lb : Bool) (ds : List Doc) (m' : Meta.Metadata)
    (ht : DocsTags (· ≠ tMeta) ds) (hd : Meta.run e.fl ⟨.office, {}⟩ (docsEv lb ds) = .ok ⟨.office, m'⟩)
    (b : Target) (hb : b.metadata = {}) (r : List Event) :
    Goes e p ⟨.style .doc, b⟩ (docEv lb (.elem false tMeta [] ds) ++ r)
      ⟨.style .doc, { b with metadata := m' }⟩ r := by
  rw [docEv]
  simp only [List.cons_append, List.append_assoc]
  refine Goes.trans (goes_enter _ _ _ hp b ⟨.metadata .office, b⟩ _ _ rfl (Nat.le_refl _)) ?_
  refine Goes.trans (goes_meta (e := e) (p := p) (.end tMeta :: (nlEv lb ++ r)) _
    (endsOk_docs _ lb _ ht) .office _ b (by intro hh; cases hh) (by rw [hb]; exact hd)) ?_
  refine Goes.trans (goes_step (x' := ⟨.style .doc, { b with metadata := m' }⟩) (es' := nlEv lb ++ r)
    ?_ (Nat.le_refl _)) (goes_nl lb _ _)
  have hs : Meta.step e.fl ⟨.office, m'⟩ (.end tMeta) = .ok ⟨.file, m'⟩ := by
    unfold Meta.step
    exact if_pos rfl
  unfold step
  simp only [hs, ofMeta, Except.map]

/-- The section with the metadata. -/
theorem goes_metaDoc (hp : special p tMeta = some .metadata) (lb : Bool) (m : Meta.Metadata) (h : Meta.Spec.Readable e.fl m)
    (b : Target) (hb : b.metadata = {}) (r : List Tok) (hr : NoChr r) :
    Goes e p ⟨.style .doc, b⟩ (events (itemsToks lb (docItems (Meta.metaDoc e.fl m)) ++ r))
      ⟨.style .doc, { b with metadata := Meta.Spec.metaRead m }⟩ (events r) := by
  generalize hds : Meta.metaDocs e.fl m = ds
  have h1 : Meta.Does e.fl lb {} ds (Meta.Spec.metaRead m) := by rw [← hds]; exact Meta.does_all e.fl lb m h
  have h2 : DocsTags (· ≠ tMeta) ds := metaDocs_tags e.fl m ds hds
  have h3 : Meta.metaDoc e.fl m = .elem false tMeta [] ds := by rw [← hds]; rfl
  rw [h3, events_doc lb _ r hr]
  exact goes_metaEvs hp lb ds _ h2 h1 b hb _

/-! ## The settings -/

/-- The outermost function is the one that reads the settings. -/
def InSettings (fs : List Config.Frame) : Prop := ∃ m, fs.getLast? = some (.settings m)

theorem inSettings_ne {fs : List Config.Frame} (h : InSettings fs) : fs.isEmpty = false := by
  obtain ⟨m, h⟩ := h
  cases fs with
  | nil => cases h
  | cons f fs => rfl

theorem inSettings_cons {f : Config.Frame} {fs : List Config.Frame} (h : InSettings fs) : InSettings (f :: fs) := by
  obtain ⟨m, h⟩ := h
  refine ⟨m, ?_⟩
  cases fs with
  | nil => cases h
  | cons g fs => rw [List.getLast?_cons_cons]; exact h

theorem inSettings_swap {f f' : Config.Frame} {fs : List Config.Frame} (h : InSettings (f :: fs))
    (hs : ∀ m, f = .settings m → ∃ m', f' = .settings m') : InSettings (f' :: fs) := by
  obtain ⟨m, h⟩ := h
  cases fs with
  | nil =>
    obtain ⟨m', rfl⟩ := hs m (by simpa using h)
    exact ⟨m', rfl⟩
  | cons g fs =>
    refine ⟨m, ?_⟩
    rw [List.getLast?_cons_cons] at h ⊢
    exact h

theorem inSettings_tail {f : Config.Frame} {fs : List Config.Frame} (h : InSettings (f :: fs))
    (hf : f.tag ≠ Config.tSettings) : InSettings fs := by
  obtain ⟨m, h⟩ := h
  cases fs with
  | nil =>
    have : f = .settings m := by simpa using h
    subst this
    exact absurd rfl hf
  | cons g fs =>
    rw [List.getLast?_cons_cons] at h
    exact ⟨m, h⟩

theorem add_settings {n : Option Str} {x : Config.CItem} {f g : Config.Frame} (h : f.add n x = .ok g) :
    ∀ m, f = .settings m → ∃ m', g = .settings m' := by
  intro m hf
  subst hf
  unfold Config.Frame.add at h
  cases n with
  | none => cases h
  | some n => cases h; exact ⟨_, rfl⟩

theorem settings_stays (f : Floats) (st st' : Config.State) (ev : Event) (h : Config.step f st ev = .ok st')
    (he : ∀ n, ev = .end n → n ≠ Config.tSettings) (hm : InSettings st.frames) : InSettings st'.frames := by
  cases ev with
  | empty n as => cases h; exact hm
  | text s =>
    cases h
    unfold Config.State.text
    split
    · rename_i heq; rw [heq] at hm; exact inSettings_swap hm (by intro m hh; cases hh)
    · exact hm
  | ref s =>
    cases h
    unfold Config.State.text
    split
    · rename_i heq; rw [heq] at hm; exact inSettings_swap hm (by intro m hh; cases hh)
    · exact hm
  | start n as =>
    unfold Config.step at h
    simp only at h
    split at h
    · cases h; exact hm
    · obtain ⟨a, _, rfl⟩ := map_ok h; exact inSettings_cons hm
  | «end» n =>
    have hn := he n rfl
    unfold Config.step at h
    simp only at h
    split at h
    · cases h
    · split at h
      · cases h
      · split at h
        · rename_i heq; rw [heq] at hm; obtain ⟨m, hm⟩ := hm; cases hm
        · rename_i g fs heq
          rw [heq] at hm
          split at h
          · rename_i htag
            obtain ⟨q, hq, rfl⟩ := map_ok h
            have ht := inSettings_tail hm (htag ▸ hn)
            unfold Config.closeFrame at hq
            split at hq
            · exact absurd htag hn
            · obtain ⟨g', hg, rfl⟩ := map_ok hq
              exact inSettings_swap ht (add_settings hg)
            · split at hq
              · cases hq
              · obtain ⟨g', hg, rfl⟩ := map_ok hq
                exact inSettings_swap ht (add_settings hg)
            · cases hq
          · cases h; rw [heq] at *; exact hm

/-- Within the settings. -/
theorem goes_settings (b : Target) (r : List Event) (evs : List Event) (hs : EndsOk (· ≠ Config.tSettings) evs) :
    ∀ st st' : Config.State, InSettings st.frames → Config.run e.fl st evs = .ok st' →
    Goes e p ⟨.settings st, b⟩ (evs ++ r) ⟨.settings st', b⟩ r := by
  induction evs with
  | nil => intro st st' _ h; cases h; exact Goes.refl _ _
  | cons ev evs ih =>
    intro st st' hi h
    rw [Config.run] at h
    split at h
    · cases h
    · rename_i st1 hst
      have hne := settings_stays e.fl _ _ _ hst (fun n he => hs n (by rw [he]; exact List.mem_cons_self)) hi
      have h2 := ih (fun n hm => hs n (List.mem_cons_of_mem _ hm)) st1 st' hne h
      refine Goes.trans (goes_step (x' := ⟨.settings st1, b⟩) (es' := evs ++ r) ?_ (Nat.le_refl _)) h2
      unfold step
      simp only [hst, Except.map, inSettings_ne hne]
      rfl

theorem valueDoc_tags (f : Floats) (n : Str) (v : Config.CValue) : DocTags (· ≠ Config.tSettings) (Config.valueDoc f n v) := by
  unfold Config.valueDoc
  split <;> (show Config.tItem ≠ Config.tSettings; decide +kernel)

mutual
theorem itemDoc_tags (f : Floats) : ∀ (x : Config.CItem) (n : Option Str), DocTags (· ≠ Config.tSettings) (Config.itemDoc f n x)
  | .value v, n => by rw [Config.itemDoc]; exact valueDoc_tags f _ v
  | .node k m, n => by
    rw [Config.itemDoc]
    refine ⟨?_, itemDocs_tags f m _⟩
    cases k <;> decide +kernel
theorem itemDocs_tags (f : Floats) : ∀ (m : List (Str × Config.CItem)) (vec : Bool),
    DocsTags (· ≠ Config.tSettings) (Config.itemDocs f vec m)
  | [], _ => by rw [Config.itemDocs]; trivial
  | (n, x) :: m, vec => by
    rw [Config.itemDocs]
    exact ⟨itemDoc_tags f x _, itemDocs_tags f m vec⟩
end

/-- The section with the settings. -/
theorem goes_settingsDoc (hp : special p Config.tSettings = some .settings) (lb : Bool) (m : List (Str × Config.CItem))
    (h : Config.GoodConfig (Config.ValueOk e.fl) m) (b : Target) (r : List Tok) (hr : NoChr r) :
    Goes e p ⟨.style .doc, b⟩ (events (itemsToks lb (docItems (Config.settingsDoc e.fl m)) ++ r))
      ⟨.style .doc, { b with config := Config.dropAll m }⟩ (events r) := by
  rw [events_doc lb _ r hr, Config.settingsDoc, docEv]
  simp only [List.cons_append, List.append_assoc]
  refine Goes.trans (goes_enter _ _ _ hp b _ _ _ rfl (Nat.le_refl _)) ?_
  have h1 := Config.run_named e.fl lb [Config.tSettings] [] b.config (fun m' => .settings m') (fun _ _ _ => rfl) (fun _ => rfl) m
    (fun m' p hp => h.2.1 p hp) (fun p hp => Config.reads_good e.fl lb (h.2.2 p hp)) h.1 [] (fun _ _ h => by cases h)
  refine Goes.trans (goes_settings (e := e) (p := p) b (.end Config.tSettings :: (nlEv lb ++ events r)) _
    (endsOk_docs _ lb _ (itemDocs_tags e.fl m false)) _ _ ⟨[], rfl⟩ h1) ?_
  refine Goes.trans (goes_step (x' := ⟨.style .doc, { b with config := Config.dropAll m }⟩) (es' := nlEv lb ++ events r)
    ?_ (Nat.le_refl _)) (goes_nl lb _ _)
  unfold step
  have hs3 : Config.step e.fl ⟨[Config.tSettings], [.settings (Config.dropAll m)], b.config⟩ (.end Config.tSettings)
      = .ok ⟨[], [], Config.dropAll m⟩ := by
    unfold Config.step
    simp only [ne_eq, not_true_eq_false, if_false, Config.Frame.tag, if_true, Config.closeFrame]
    rfl
  simp only [List.nil_append, hs3, Except.map]
  rfl

end Verif.Whole
