import Verif.Ns.Model
import Verif.Xml.Fragment

/-!
# C75, C76: namespaces and the version
-/

set_option autoImplicit false

namespace Verif.Ns

open Xml Xml.Spec Verif.Book

/-! ## Specification -/

/-- What happens to a workbook: the root element of a file is read, or a file is written. -/
inductive Op where
  | read (p : Part) (as : List (Str × Str))
  | write (p : Part)

/-- One step. -/
def Op.run (b : NsBook) : Op → Except Fault NsBook
  | .read p as => readRoot p b as
  | .write p => .ok (writeRoot p b).1

/-- All steps. -/
def runOps : NsBook → List Op → Except Fault NsBook
  | b, [] => .ok b
  | b, o :: os =>
    match o.run b with
    | .error e => .error e
    | .ok b => runOps b os

/-- The attributes that are read have XML names. -/
def Op.Ok : Op → Prop
  | .read _ as => ∀ a ∈ as, Name a.1
  | .write _ => True

/-- A workbook as it is after any sequence of reading and writing. -/
def Reachable (b : NsBook) : Prop := ∃ os : List Op, (∀ o ∈ os, o.Ok) ∧ runOps {} os = .ok b

/-- The text of a file: the declaration, the root element, and anything in it. -/
def fileText (lb : Bool) (p : Part) (b : NsBook) (body : List Item) : Str :=
  output lb (.dtd "UTF-8".toList :: ((writeRoot p b).2 ++ (body.flatMap Item.calls ++ [.endElem p.root])))

/-- The root element of a text: its name, and its attributes with their values. -/
def rootOf (text : Str) : Option (Str × List (Str × Str)) :=
  match tokenize text with
  | none => none
  | some ts =>
    ts.findSome? fun t =>
      match t with
      | .start n as => (unescapeAttrs as).map fun as => (n, as)
      | _ => none

/-! ## The map -/

theorem get_put (o : Bool) (m : NsMap) (k j v : Str) :
    HMap.get? (m.put o k v) j = if k = j then some (((HMap.get? m k).map (·.1)).getD o, v) else HMap.get? m j := by
  unfold NsMap.put
  rw [HMap.get?_insert]

/-- A map that can be written. -/
structure MapOk (m : NsMap) : Prop where
  distinct : HMap.Distinct m
  names : ∀ e ∈ m, Name e.1 ∧ xmlnsPrefix.isPrefixOf e.1 = true
  plain : ∀ e ∈ m, e.2.1 = false → Plain e.2.2

theorem mapOk_nil : MapOk [] where
  distinct := List.nodup_nil
  names := by intro e he; cases he
  plain := by intro e he; cases he

theorem mem_put (o : Bool) (m : NsMap) (k v : Str) (e : Str × Bool × Str) (h : e ∈ m.put o k v) :
    e ∈ m ∨ (e.1 = k ∧ e.2.2 = v ∧ (e.2.1 = false → o = false ∨ ∃ w, (k, false, w) ∈ m)) := by
  unfold NsMap.put HMap.insert at h
  rcases List.mem_cons.1 h with rfl | h
  · refine .inr ⟨rfl, rfl, fun hf => ?_⟩
    cases hg : HMap.get? m k with
    | none => rw [hg] at hf; exact .inl hf
    | some x =>
      rw [hg] at hf
      obtain ⟨f, w⟩ := x
      have hf : f = false := hf
      subst hf
      exact .inr ⟨w, HMap.get?_mem _ _ _ hg⟩
  · exact .inl (List.mem_filter.1 h).1

theorem mapOk_insertStr (m : NsMap) (h : MapOk m) (k v : Str) (hk : Name k) (hx : xmlnsPrefix.isPrefixOf k = true)
    (hv : Plain v) : MapOk (m.insertStr k v) where
  distinct := HMap.distinct_insert _ _ _ h.distinct
  names := by
    intro e he
    rcases mem_put _ _ _ _ _ he with he | ⟨h1, _, _⟩
    · exact h.names e he
    · rw [h1]; exact ⟨hk, hx⟩
  plain := by
    intro e he hf
    rcases mem_put _ _ _ _ _ he with he | ⟨_, h2, _⟩
    · exact h.plain e he hf
    · rw [h2]; exact hv

/-- A table of the crate: prefixes that are XML names, and values that need no escaping. -/
def TableOk (t : List (Str × Str)) : Prop :=
  ∀ e ∈ t, Name e.1 ∧ xmlnsPrefix.isPrefixOf e.1 = true ∧ Plain e.2

instance (t : List (Str × Str)) : Decidable (TableOk t) := by unfold TableOk; infer_instance

theorem table_ok (p : Part) : TableOk p.table := by cases p <;> decide +kernel

theorem table_nodup (p : Part) : (p.table.map Prod.fst).Nodup := by cases p <;> decide +kernel

theorem mapOk_declare (t : List (Str × Str)) (ht : TableOk t) : ∀ m : NsMap, MapOk m → MapOk (m.declare t) := by
  induction t with
  | nil => intro m h; exact h
  | cons e t ih =>
    intro m h
    obtain ⟨h1, h2, h3⟩ := ht e List.mem_cons_self
    exact ih (fun e he => ht e (List.mem_cons_of_mem _ he)) _ (mapOk_insertStr m h _ _ h1 h2 h3)

/-- The value under a key. -/
def val (m : NsMap) (k : Str) : Option Str := (HMap.get? m k).map (·.2)

theorem val_put (o : Bool) (m : NsMap) (k j v : Str) : val (m.put o k v) j = if k = j then some v else val m j := by
  unfold val
  rw [get_put]
  split <;> rfl

theorem val_declare_other (t : List (Str × Str)) (k : Str) (h : k ∉ t.map Prod.fst) : ∀ m : NsMap,
    val (m.declare t) k = val m k := by
  induction t with
  | nil => intro m; rfl
  | cons e t ih =>
    intro m
    rw [List.map_cons, List.mem_cons, not_or] at h
    show val (NsMap.declare (m.insertStr e.1 e.2) t) k = _
    rw [ih h.2, NsMap.insertStr, val_put, if_neg (fun x => h.1 x.symm)]

theorem val_declare_own (t : List (Str × Str)) (hn : (t.map Prod.fst).Nodup) : ∀ (m : NsMap), ∀ e ∈ t,
    val (m.declare t) e.1 = some e.2 := by
  induction t with
  | nil => intro m e he; cases he
  | cons x t ih =>
    intro m e he
    rw [List.map_cons, List.nodup_cons] at hn
    show val (NsMap.declare (m.insertStr x.1 x.2) t) e.1 = _
    rcases List.mem_cons.1 he with rfl | he
    · rw [val_declare_other t _ hn.1, NsMap.insertStr, val_put, if_pos rfl]
    · exact ih hn.2 _ e he

/-! ## Reading -/

/-- Everything that was read is escaped when it is written. -/
structure Owned (m : NsMap) : Prop where
  distinct : HMap.Distinct m
  names : ∀ e ∈ m, Name e.1 ∧ xmlnsPrefix.isPrefixOf e.1 = true
  owned : ∀ e ∈ m, e.2.1 = true

theorem Owned.ok {m : NsMap} (h : Owned m) : MapOk m where
  distinct := h.distinct
  names := h.names
  plain := by
    intro e he hf
    rw [h.owned e he] at hf
    cases hf

theorem owned_nil : Owned [] where
  distinct := List.nodup_nil
  names := by intro e he; cases he
  owned := by intro e he; cases he

theorem owned_insert (m : NsMap) (h : Owned m) (k v : Str) (hk : Name k) (hx : xmlnsPrefix.isPrefixOf k = true) :
    Owned (m.insert k v) where
  distinct := HMap.distinct_insert _ _ _ h.distinct
  names := by
    intro e he
    rcases mem_put _ _ _ _ _ he with he | ⟨h1, _, _⟩
    · exact h.names e he
    · rw [h1]; exact ⟨hk, hx⟩
  owned := by
    intro e he
    rcases mem_put _ _ _ _ _ he with he | ⟨_, _, h3⟩
    · exact h.owned e he
    · cases hf : e.2.1 with
      | true => rfl
      | false =>
        rcases h3 hf with h3 | ⟨w, hw⟩
        · cases h3
        · exact absurd (h.owned _ hw) (by simp)

theorem readNs_owned (as : List (Str × Str)) (hn : ∀ a ∈ as, Name a.1) : ∀ (ver : Option Str) (m : NsMap)
    (r : Option Str × NsMap), Owned m → readNs ver m as = .ok r → Owned r.2 := by
  induction as with
  | nil =>
    intro ver m r h hr
    cases hr
    exact h
  | cons a as ih =>
    intro ver m r h hr
    obtain ⟨k, v⟩ := a
    have ih := ih (fun a ha => hn a (List.mem_cons_of_mem _ ha))
    rw [readNs] at hr
    split at hr
    · split at hr
      · cases hr
      · exact ih _ _ _ h hr
    · split at hr
      · rename_i hx
        split at hr
        · cases hr
        · exact ih _ _ _ (owned_insert m h _ _ (hn _ List.mem_cons_self) hx) hr
      · split at hr
        · split at hr
          · cases hr
          · split at hr
            · cases hr
            · exact ih _ _ _ h hr
        · exact ih _ _ _ h hr

/-- What is read under a prefix that is declared once. -/
theorem readNs_val_other (as : List (Str × Str)) (k : Str) (hk : k ∉ as.map Prod.fst) :
    ∀ (ver : Option Str) (m : NsMap) (r : Option Str × NsMap), readNs ver m as = .ok r → val r.2 k = val m k := by
  induction as with
  | nil => intro ver m r hr; cases hr; rfl
  | cons a as ih =>
    intro ver m r hr
    obtain ⟨j, v⟩ := a
    rw [List.map_cons, List.mem_cons, not_or] at hk
    have ih := ih hk.2
    rw [readNs] at hr
    split at hr
    · split at hr
      · cases hr
      · exact ih _ _ _ hr
    · split at hr
      · split at hr
        · cases hr
        · rw [ih _ _ _ hr, NsMap.insert, val_put, if_neg (fun e => hk.1 e.symm)]
      · split at hr
        · split at hr
          · cases hr
          · split at hr
            · cases hr
            · exact ih _ _ _ hr
        · exact ih _ _ _ hr

theorem version_noXmlns : xmlnsPrefix.isPrefixOf aVersion = false := by decide

theorem readNs_val (as : List (Str × Str)) (hd : (as.map Prod.fst).Nodup) :
    ∀ (ver : Option Str) (m : NsMap) (r : Option Str × NsMap), readNs ver m as = .ok r →
    ∀ k v, (k, v) ∈ as → xmlnsPrefix.isPrefixOf k = true → val r.2 k = unescape v ∧ (unescape v).isSome := by
  induction as with
  | nil => intro ver m r hr k v hkv; cases hkv
  | cons a as ih =>
    intro ver m r hr k v hkv hx
    obtain ⟨j, w⟩ := a
    rw [List.map_cons, List.nodup_cons] at hd
    have ih := fun ver m r hr => ih hd.2 ver m r hr k v
    rw [readNs] at hr
    by_cases hjk : (k, v) = (j, w)
    · cases hjk
      rw [if_neg, if_pos hx] at hr
      · split at hr
        · cases hr
        · rename_i u hu
          have := readNs_val_other as k hd.1 _ _ _ hr
          rw [NsMap.insert, val_put, if_pos rfl] at this
          rw [this, hu]
          exact ⟨rfl, rfl⟩
      · intro e
        rw [e, version_noXmlns] at hx
        cases hx
    · have hkv : (k, v) ∈ as := by
        rcases List.mem_cons.1 hkv with e | e
        · exact absurd e hjk
        · exact e
      split at hr
      · split at hr
        · cases hr
        · exact ih _ _ _ hr hkv hx
      · split at hr
        · split at hr
          · cases hr
          · exact ih _ _ _ hr hkv hx
        · split at hr
          · split at hr
            · cases hr
            · split at hr
              · cases hr
              · exact ih _ _ _ hr hkv hx
          · exact ih _ _ _ hr hkv hx

/-! ## The invariant -/

/-- All maps of a workbook can be written. -/
def BookOk (b : NsBook) : Prop := ∀ k m, b.xmlns.get? k = some m → MapOk m

theorem stored_ok (b : NsBook) (h : BookOk b) (k : Str) : MapOk ((b.xmlns.get? k).getD []) := by
  cases hg : b.xmlns.get? k with
  | none => exact mapOk_nil
  | some m => exact h k m hg

theorem bookOk_insert (b : NsBook) (h : BookOk b) (k : Str) (m : NsMap) (hm : MapOk m) (ver : Str) :
    BookOk { xmlns := b.xmlns.insert k m, version := ver } := by
  intro j x hj
  rw [show ({ xmlns := b.xmlns.insert k m, version := ver } : NsBook).xmlns = b.xmlns.insert k m from rfl,
    HMap.get?_insert] at hj
  split at hj
  · cases hj; exact hm
  · exact h j x hj

theorem bookOk_write (p : Part) (b : NsBook) (h : BookOk b) : BookOk (writeRoot p b).1 :=
  bookOk_insert b h _ _ (mapOk_declare _ (table_ok p) _ (stored_ok b h _)) _

theorem bookOk_read (p : Part) (b b' : NsBook) (as : List (Str × Str)) (hn : ∀ a ∈ as, Name a.1) (h : BookOk b)
    (hr : readRoot p b as = .ok b') : BookOk b' := by
  unfold readRoot at hr
  split at hr
  · cases hr
  · rename_i ver m he
    cases hr
    exact bookOk_insert b h _ _ (readNs_owned as hn _ _ _ owned_nil he).ok _

theorem bookOk_run (os : List Op) (hos : ∀ o ∈ os, o.Ok) : ∀ b b', BookOk b → runOps b os = .ok b' → BookOk b' := by
  induction os with
  | nil => intro b b' h hr; cases hr; exact h
  | cons o os ih =>
    intro b b' h hr
    rw [runOps] at hr
    split at hr
    · cases hr
    · rename_i b1 he
      refine ih (fun o ho => hos o (List.mem_cons_of_mem _ ho)) b1 b' ?_ hr
      cases o with
      | read p as => exact bookOk_read p b b1 as (hos _ List.mem_cons_self) h he
      | write p => cases he; exact bookOk_write p b h

theorem bookOk_new : BookOk {} := by intro k m h; cases h

theorem reachable_ok (b : NsBook) (h : Reachable b) : BookOk b := by
  obtain ⟨os, h1, h2⟩ := h
  exact bookOk_run os h1 _ _ bookOk_new h2

/-! ## Writing -/

/-- The map that is written. -/
def written (p : Part) (b : NsBook) : NsMap := NsMap.declare ((b.xmlns.get? p.writeKey).getD []) p.table

theorem written_ok (p : Part) (b : NsBook) (h : BookOk b) : MapOk (written p b) :=
  mapOk_declare _ (table_ok p) _ (stored_ok b h _)

/-- The attributes of the root element. -/
def rootAtts (p : Part) (b : NsBook) : List (Bool × Str × Str) :=
  (written p b).map (fun e => (e.2.1, e.1, e.2.2))
    ++ ((true, aVersion, b.version) :: if p = .flat then [(true, aMime, mime)] else [])

theorem writeRoot_calls (p : Part) (b : NsBook) :
    (writeRoot p b).2 = Item.calls (.start false p.root (rootAtts p b)) := by
  have h : ∀ m : NsMap, writeXmlns m = (m.map (fun e => (e.2.1, e.1, e.2.2))).map attrCall := by
    intro m
    unfold writeXmlns
    rw [List.map_map]
    apply List.map_congr_left
    intro e _
    obtain ⟨k, o, v⟩ := e
    cases o <;> rfl
  have h1 : (writeRoot p b).2 = .elem p.root :: (writeXmlns (written p b) ++ (.attrEsc aVersion b.version
    :: if p = .flat then [.attrEsc aMime mime] else [])) := rfl
  rw [h1, h, Item.calls, rootAtts, List.map_append, List.map_cons]
  cases p <;> rfl

theorem rootAtts_ok (p : Part) (b : NsBook) (h : BookOk b) : AttrsOk (rootAtts p b) := by
  intro a ha
  unfold rootAtts at ha
  rcases List.mem_append.1 ha with ha | ha
  · obtain ⟨e, he, rfl⟩ := List.mem_map.1 ha
    exact ⟨((written_ok p b h).names e he).1, (written_ok p b h).plain e he⟩
  · rcases List.mem_cons.1 ha with rfl | ha
    · exact ⟨(by decide : Name aVersion), by intro h; cases h⟩
    · split at ha
      · cases ha with
        | head => exact ⟨(by decide : Name aMime), by intro h; cases h⟩
        | tail _ h => cases h
      · cases ha

theorem root_name (p : Part) : Name p.root := by cases p <;> decide

/-- The root element of the text that is written. -/
theorem rootOf_file (lb : Bool) (p : Part) (b : NsBook) (h : BookOk b) (body : List Item) (hb : ∀ i ∈ body, i.Valid) :
    rootOf (fileText lb p b body) = some (p.root, (rootAtts p b).map (·.2)) := by
  have hc : (writeRoot p b).2 ++ (body.flatMap Item.calls ++ [.endElem p.root])
      = (.start false p.root (rootAtts p b) :: (body ++ [.end false p.root])).flatMap Item.calls := by
    rw [writeRoot_calls, List.flatMap_cons, List.flatMap_append]
    rfl
  unfold fileText rootOf
  rw [hc, tok_document lb _ (by decide) _ ?_ ?_]
  · have hf : ∀ (s : Str) (r : List Tok) (f : Tok → Option (Str × List (Str × Str))), (∀ c, f (.chr c) = none) →
        (s.map Tok.chr ++ r).findSome? f = r.findSome? f := by
      intro s r f hf
      induction s with
      | nil => rfl
      | cons c s ih => rw [List.map_cons, List.cons_append, List.findSome?_cons, hf c]; exact ih
    show (Tok.chr '\n' :: ((nl lb).map Tok.chr ++ _)).findSome? _ = _
    rw [List.findSome?_cons]
    simp only
    rw [hf _ _ _ (fun _ => rfl), List.flatMap_cons]
    show (Tok.start p.root (rawAttrs (rootAtts p b)) :: _).findSome? _ = _
    rw [List.findSome?_cons]
    simp only [rawAttrs_unescape _ (rootAtts_ok p b h), Option.map_some]
  · intro i hi
    apply tok_item
    rcases List.mem_cons.1 hi with rfl | hi
    · exact ⟨root_name p, rootAtts_ok p b h⟩
    · rcases List.mem_append.1 hi with hi | hi
      · exact hb i hi
      · cases hi with
        | head => exact root_name p
        | tail _ h => cases h
  · intro i hi
    rw [← List.cons_append, List.getLast?_append] at hi
    have hi : i = .end false p.root := by simpa using hi.symm
    subst hi
    exact id

theorem mem_of_val (p : Part) (b : NsBook) (k v : Str) (h : val (written p b) k = some v) :
    (k, v) ∈ (rootAtts p b).map (·.2) := by
  unfold val at h
  cases hg : HMap.get? (written p b) k with
  | none => rw [hg] at h; cases h
  | some e =>
    rw [hg] at h
    obtain ⟨o, w⟩ := e
    have h : w = v := Option.some.inj h
    subst h
    refine List.mem_map.2 ⟨(o, k, w), ?_, rfl⟩
    exact List.mem_append.2 (.inl (List.mem_map.2 ⟨_, HMap.get?_mem _ _ _ hg, rfl⟩))

theorem rootAtts_keys (p : Part) (b : NsBook) : ((rootAtts p b).map (·.2)).map Prod.fst
    = HMap.keys (written p b) ++ (aVersion :: if p = .flat then [aMime] else []) := by
  unfold rootAtts HMap.keys
  rw [List.map_append, List.map_append, List.map_map, List.map_map]
  cases p <;> rfl

/-! ## C75 -/

/-- The prefixes of the crate: those of the file `p`. -/
def own (p : Part) (k : Str) : Prop := ∃ u, (k, u) ∈ p.table

instance (p : Part) (k : Str) : Decidable (own p k) :=
  decidable_of_iff (k ∈ p.table.map Prod.fst) (by
    constructor
    · intro h
      obtain ⟨e, he, rfl⟩ := List.mem_map.1 h
      exact ⟨e.2, he⟩
    · rintro ⟨u, hu⟩
      exact List.mem_map.2 ⟨_, hu, rfl⟩)

theorem not_own (p : Part) (k : Str) (h : ¬ own p k) : k ∉ p.table.map Prod.fst := by
  intro hm
  obtain ⟨e, he, rfl⟩ := List.mem_map.1 hm
  exact h ⟨e.2, he⟩

theorem rootAtts_nodup (p : Part) (b : NsBook) (hok : BookOk b) : (((rootAtts p b).map (·.2)).map Prod.fst).Nodup := by
  rw [rootAtts_keys]
  have hx : ∀ k ∈ HMap.keys (written p b), xmlnsPrefix.isPrefixOf k = true := by
    intro k hk
    obtain ⟨e, he, rfl⟩ := List.mem_map.1 hk
    exact ((written_ok p b hok).names e he).2
  refine List.nodup_append.2 ⟨(written_ok p b hok).distinct, by cases p <;> decide, ?_⟩
  intro a ha c hc e
  subst e
  have := hx a ha
  have hc : a = aVersion ∨ a = aMime := by
    rcases List.mem_cons.1 hc with hc | hc
    · exact .inl hc
    · split at hc
      · exact .inr (by simpa using hc)
      · cases hc
  rcases hc with rfl | rfl
  · rw [version_noXmlns] at this; cases this
  · exact absurd this (by decide)

/-- **C75**: after any history, in each file that is written no attribute of the root element occurs twice, and each
prefix of the crate is bound to its namespace. -/
theorem C75_own (lb : Bool) (p : Part) (b : NsBook) (h : Reachable b) (body : List Item) (hb : ∀ i ∈ body, i.Valid) :
    ∃ as, rootOf (fileText lb p b body) = some (p.root, as)
      ∧ (as.map Prod.fst).Nodup
      ∧ ∀ e ∈ p.table, e ∈ as := by
  have hok := reachable_ok b h
  refine ⟨_, rootOf_file lb p b hok body hb, rootAtts_nodup p b hok, fun e he => ?_⟩
  · exact mem_of_val p b _ _ (val_declare_own p.table (table_nodup p) _ e he)

/-- What may happen between reading a file of a package and writing it. -/
def Op.other (p : Part) : Op → Prop
  | .read q _ => q ≠ p
  | .write q => q ≠ .flat

theorem key_inj (p q : Part) (hp : p ≠ .flat) (h : q.readKey = p.writeKey) : q = p := by
  cases p <;> cases q <;> first | rfl | exact absurd rfl hp | (exfalso; revert h; decide)

theorem write_inj (p q : Part) (hp : p ≠ .flat) (hq : q ≠ .flat) (h : q.writeKey = p.writeKey) : q = p := by
  cases p <;> cases q <;> first | rfl | exact absurd rfl hp | exact absurd rfl hq | (exfalso; revert h; decide)

/-- The value of a foreign prefix in the store of a file. -/
def stored (p : Part) (b : NsBook) (k : Str) : Option Str := val ((b.xmlns.get? p.writeKey).getD []) k

theorem stored_op (p : Part) (hp : p ≠ .flat) (k : Str) (hk : ¬ own p k) (o : Op) (ho : o.other p) (b b' : NsBook)
    (hr : o.run b = .ok b') : stored p b' k = stored p b k := by
  unfold stored
  cases o with
  | read q as =>
    have hr : readRoot q b as = .ok b' := hr
    unfold readRoot at hr
    split at hr
    · cases hr
    · cases hr
      simp only
      rw [HMap.get?_insert, if_neg (fun e => ho (key_inj p q hp e))]
  | write q =>
    cases hr
    show val ((HMap.get? (b.xmlns.insert q.writeKey (written q b)) p.writeKey).getD []) k = _
    rw [HMap.get?_insert]
    split
    · rename_i e
      obtain rfl := write_inj p q hp ho e
      exact val_declare_other _ _ (not_own _ _ hk) _
    · rfl

theorem stored_run (p : Part) (hp : p ≠ .flat) (k : Str) (hk : ¬ own p k) (os : List Op) (ho : ∀ o ∈ os, o.other p) :
    ∀ b b', runOps b os = .ok b' → stored p b' k = stored p b k := by
  induction os with
  | nil => intro b b' h; cases h; rfl
  | cons o os ih =>
    intro b b' h
    rw [runOps] at h
    split at h
    · cases h
    · rename_i b1 h1
      rw [ih (fun o ho' => ho o (List.mem_cons_of_mem _ ho')) b1 b' h,
        stored_op p hp k hk o (ho o List.mem_cons_self) b b1 h1]

/-- **C75 (partial).** A file of a package is read, then other files are read, and files are written any number of
times.  When the file is written, each prefix that is not one of the crate is bound to the namespace it was bound to.

Missing (`_partial`): prefixes of the crate are bound to the namespace of the crate (`C75_own`), whatever the file
said; the default namespace (`C75_default_counterexample`); flat files (`C75_flat_counterexample`). -/
theorem C75_foreign_partial (lb : Bool) (p : Part) (hp : p ≠ .flat) (b b1 b2 : NsBook) (h : Reachable b)
    (as : List (Str × Str)) (hn : ∀ a ∈ as, Name a.1) (hd : (as.map Prod.fst).Nodup)
    (hr : readRoot p b as = .ok b1) (os : List Op) (hos : ∀ o ∈ os, o.other p ∧ o.Ok) (h2 : runOps b1 os = .ok b2)
    (body : List Item) (hb : ∀ i ∈ body, i.Valid) :
    ∃ as', rootOf (fileText lb p b2 body) = some (p.root, as')
      ∧ ∀ k v, (k, v) ∈ as → xmlnsPrefix.isPrefixOf k = true → ¬ own p k →
        ∃ u, unescape v = some u ∧ (k, u) ∈ as' := by
  have hok := bookOk_run os (fun o ho => (hos o ho).2) b1 b2 (bookOk_read p b b1 as hn (reachable_ok b h) hr) h2
  refine ⟨_, rootOf_file lb p b2 hok body hb, fun k v hkv hx hk => ?_⟩
  have hs := stored_run p hp k hk os (fun o ho => (hos o ho).1) b1 b2 h2
  unfold readRoot at hr
  split at hr
  · cases hr
  · rename_i ver m he
    obtain ⟨h3, h4⟩ := readNs_val as hd _ _ _ he k v hkv hx
    cases hr
    obtain ⟨u, hu⟩ := Option.isSome_iff_exists.1 h4
    refine ⟨u, hu, mem_of_val p b2 k u ?_⟩
    unfold written
    rw [val_declare_other _ _ (not_own _ _ hk)]
    have : stored p b2 k = some u := by
      rw [hs]
      unfold stored
      simp only
      rw [show p.readKey = p.writeKey by cases p <;> first | rfl | exact absurd rfl hp, HMap.get?_insert, if_pos rfl,
        ← hu, ← h3]
      rfl
    exact this

/-- **C75**: of a flat file no foreign prefix is kept: it is read to one place and written from another.  Whatever the
file declares, what is written has only the prefixes of the crate. -/
theorem C75_flat_counterexample (lb : Bool) (as : List (Str × Str)) (b : NsBook) (hn : ∀ a ∈ as, Name a.1)
    (hr : readRoot .flat {} as = .ok b) (body : List Item) (hb : ∀ i ∈ body, i.Valid) :
    ∃ as', rootOf (fileText lb .flat b body) = some (Part.flat.root, as')
      ∧ ∀ k u, (k, u) ∈ as' → xmlnsPrefix.isPrefixOf k = true → own .flat k := by
  have hok := bookOk_read .flat {} b as hn bookOk_new hr
  refine ⟨_, rootOf_file lb .flat b hok body hb, fun k u hku hx => ?_⟩
  have hk : k ∈ ((rootAtts .flat b).map (·.2)).map Prod.fst := List.mem_map.2 ⟨_, hku, rfl⟩
  rw [rootAtts_keys] at hk
  rcases List.mem_append.1 hk with hk | hk
  · refine Decidable.byContradiction fun ho => ?_
    have hc := (HMap.mem_keys _ _).1 hk
    have hv : val (written .flat b) k = none := by
      unfold written
      rw [val_declare_other _ _ (not_own _ _ ho)]
      unfold readRoot at hr
      split at hr
      · cases hr
      · cases hr
        rfl
    unfold HMap.contains at hc
    unfold val at hv
    rw [Option.map_eq_none_iff] at hv
    rw [hv] at hc
    cases hc
  · rcases List.mem_cons.1 hk with rfl | hk
    · rw [version_noXmlns] at hx; cases hx
    · have hk : k = aMime := by simpa using hk
      subst hk
      exact absurd hx (by decide)

/-- **C75**: the default namespace of a root element is not kept: no file that is written has one, after any
history. -/
theorem C75_default_counterexample (lb : Bool) (p : Part) (b : NsBook) (h : Reachable b) (body : List Item)
    (hb : ∀ i ∈ body, i.Valid) :
    ∃ as, rootOf (fileText lb p b body) = some (p.root, as) ∧ ∀ u, ("xmlns".toList, u) ∉ as := by
  have hok := reachable_ok b h
  refine ⟨_, rootOf_file lb p b hok body hb, fun u hu => ?_⟩
  have hk : "xmlns".toList ∈ ((rootAtts p b).map (·.2)).map Prod.fst := List.mem_map.2 ⟨_, hu, rfl⟩
  rw [rootAtts_keys] at hk
  rcases List.mem_append.1 hk with hk | hk
  · obtain ⟨e, he, hk⟩ := List.mem_map.1 hk
    have := ((written_ok p b hok).names e he).2
    rw [hk] at this
    exact absurd this (by decide)
  · revert hk
    cases p <;> decide

/-! ## C76 -/

/-- **C76**: after any history, all files that are written have the version of the workbook. -/
theorem C76_written (lb : Bool) (p : Part) (b : NsBook) (h : Reachable b) (body : List Item) (hb : ∀ i ∈ body, i.Valid) :
    ∃ as, rootOf (fileText lb p b body) = some (p.root, as) ∧ (aVersion, b.version) ∈ as
      ∧ ∀ v, (aVersion, v) ∈ as → v = b.version := by
  have hok := reachable_ok b h
  refine ⟨_, rootOf_file lb p b hok body hb, ?_, fun v hv => ?_⟩
  · exact List.mem_map.2 ⟨_, List.mem_append.2 (.inr List.mem_cons_self), rfl⟩
  · obtain ⟨a, ha, hv⟩ := List.mem_map.1 hv
    rcases List.mem_append.1 ha with ha | ha
    · obtain ⟨e, he, rfl⟩ := List.mem_map.1 ha
      have h1 := ((written_ok p b hok).names e he).2
      have hv : e.1 = aVersion := congrArg Prod.fst hv
      rw [hv, version_noXmlns] at h1
      cases h1
    · rcases List.mem_cons.1 ha with rfl | ha
      · cases hv; rfl
      · split at ha
        · obtain rfl : a = (true, aMime, mime) := by simpa using ha
          exact absurd (congrArg Prod.fst hv) (by decide : aMime ≠ aVersion)
        · cases ha

/-- The version that is read. -/
theorem readNs_version (as : List (Str × Str)) (hd : (as.map Prod.fst).Nodup) :
    ∀ (ver : Option Str) (m : NsMap) (r : Option Str × NsMap), readNs ver m as = .ok r →
    (∀ v, (aVersion, v) ∈ as → r.1 = unescape v ∧ (unescape v).isSome) ∧ (aVersion ∉ as.map Prod.fst → r.1 = ver) := by
  induction as with
  | nil =>
    intro ver m r hr
    cases hr
    exact ⟨(by intro v hv; cases hv), fun _ => rfl⟩
  | cons a as ih =>
    intro ver m r hr
    obtain ⟨k, w⟩ := a
    rw [List.map_cons, List.nodup_cons] at hd
    have ih := ih hd.2
    rw [readNs] at hr
    have other : ∀ m', k ≠ aVersion → readNs ver m' as = .ok r →
        (∀ v, (aVersion, v) ∈ (k, w) :: as → r.1 = unescape v ∧ (unescape v).isSome) ∧ (aVersion ∉ ((k, w) :: as).map Prod.fst → r.1 = ver) := by
      intro m' hk hr
      obtain ⟨h1, h2⟩ := ih _ _ _ hr
      refine ⟨fun v hv => ?_, fun hv => ?_⟩
      · rcases List.mem_cons.1 hv with e | hv
        · cases e; exact absurd rfl hk
        · exact h1 v hv
      · rw [List.map_cons, List.mem_cons, not_or] at hv
        exact h2 hv.2
    split at hr
    · rename_i hk
      subst hk
      split at hr
      · cases hr
      · rename_i u hu
        obtain ⟨h1, h2⟩ := ih _ _ _ hr
        refine ⟨fun v hv => ?_, fun hv => ?_⟩
        · rcases List.mem_cons.1 hv with e | hv
          · cases e
            rw [h2 hd.1, hu]
            exact ⟨rfl, rfl⟩
          · exact absurd (List.mem_map.2 ⟨_, hv, rfl⟩) hd.1
        · exact absurd List.mem_cons_self hv
    · rename_i hk
      split at hr
      · split at hr
        · cases hr
        · exact other _ hk hr
      · split at hr
        · split at hr
          · cases hr
          · split at hr
            · cases hr
            · exact other _ hk hr
        · exact other _ hk hr

/-- What does not change the version: writing, and reading the other files. -/
def Op.keeps : Op → Prop
  | .read q _ => q.versioned = false
  | .write _ => True

theorem version_run (os : List Op) (ho : ∀ o ∈ os, o.keeps) : ∀ b b', runOps b os = .ok b' → b'.version = b.version := by
  induction os with
  | nil => intro b b' h; cases h; rfl
  | cons o os ih =>
    intro b b' h
    rw [runOps] at h
    split at h
    · cases h
    · rename_i b1 h1
      rw [ih (fun o ho' => ho o (List.mem_cons_of_mem _ ho')) b1 b' h]
      cases o with
      | write p => cases h1; rfl
      | read q as =>
        have h1 : readRoot q b as = .ok b1 := h1
        unfold readRoot at h1
        split at h1
        · cases h1
        · cases h1
          simp only
          rw [show q.versioned = false from ho _ List.mem_cons_self]
          rfl

/-- **C76**: the version in `content.xml` or in a flat file is the version of all files that are written later, also
when the other files of the package said something else; without a version there the workbook keeps the one it
had. -/
theorem C76_version (lb : Bool) (p q : Part) (hp : p.versioned = true) (b b1 b2 : NsBook) (h : Reachable b)
    (as : List (Str × Str)) (hn : ∀ a ∈ as, Name a.1) (hd : (as.map Prod.fst).Nodup)
    (hr : readRoot p b as = .ok b1) (os : List Op) (hos : ∀ o ∈ os, o.keeps ∧ o.Ok) (h2 : runOps b1 os = .ok b2)
    (body : List Item) (hb : ∀ i ∈ body, i.Valid) :
    ∃ as', rootOf (fileText lb q b2 body) = some (q.root, as')
      ∧ (∀ v, (aVersion, v) ∈ as → ∃ u, unescape v = some u ∧ (aVersion, u) ∈ as')
      ∧ (aVersion ∉ as.map Prod.fst → (aVersion, b.version) ∈ as') := by
  have hok := bookOk_run os (fun o ho => (hos o ho).2) b1 b2 (bookOk_read p b b1 as hn (reachable_ok b h) hr) h2
  have hmem : (aVersion, b2.version) ∈ (rootAtts q b2).map (·.2) :=
    List.mem_map.2 ⟨_, List.mem_append.2 (.inr List.mem_cons_self), rfl⟩
  rw [version_run os (fun o ho => (hos o ho).1) b1 b2 h2] at hmem
  unfold readRoot at hr
  split at hr
  · cases hr
  · rename_i ver m he
    obtain ⟨h3, h4⟩ := readNs_version as hd _ _ _ he
    cases hr
    simp only [hp, if_true] at hmem
    refine ⟨_, rootOf_file lb q b2 hok body hb, fun v hv => ?_, fun hv => ?_⟩
    · obtain ⟨h5, h6⟩ := h3 v hv
      obtain ⟨u, hu⟩ := Option.isSome_iff_exists.1 h6
      simp only at h5
      rw [h5, hu] at hmem
      exact ⟨u, hu, hmem⟩
    · have := h4 hv
      simp only at this
      rw [this] at hmem
      exact hmem

/-- **C76**: a file with another media type is refused. -/
theorem C76_mimetype (p : Part) (b : NsBook) (as : List (Str × Str)) (v u : Str) (hv : (aMime, v) ∈ as)
    (hu : unescape v = some u) (h : u ≠ mime) (b' : NsBook) : readRoot p b as ≠ .ok b' := by
  have : ∀ (as : List (Str × Str)) ver m r, (aMime, v) ∈ as → readNs ver m as ≠ .ok r := by
    intro as
    induction as with
    | nil => intro ver m r h; cases h
    | cons a as ih =>
      intro ver m r hm hr
      obtain ⟨k, w⟩ := a
      rw [readNs] at hr
      rcases List.mem_cons.1 hm with e | hm
      · cases e
        rw [if_neg (by decide), if_neg (by decide), if_pos rfl, hu] at hr
        simp only [if_pos h] at hr
        cases hr
      · split at hr
        · split at hr
          · cases hr
          · exact ih _ _ _ hm hr
        · split at hr
          · split at hr
            · cases hr
            · exact ih _ _ _ hm hr
          · split at hr
            · split at hr
              · cases hr
              · split at hr
                · cases hr
                · exact ih _ _ _ hm hr
            · exact ih _ _ _ hm hr
  intro hr
  unfold readRoot at hr
  split at hr
  · cases hr
  · rename_i he
    exact this as _ _ _ hv he

/-! ## Concrete cases -/

/-- The root element of `content.xml` of another program: a prefix the crate does not know, one it does, the default
namespace and a version. -/
def foreignRoot : List (Str × Str) :=
  [("xmlns".toList, "urn:d".toList), ("xmlns:my".toList, "http://x/?a&amp;b".toList),
   ("xmlns:office".toList, "urn:other".toList), (aVersion, "1.2".toList)]

theorem foreignRoot_names : ∀ a ∈ foreignRoot, Name a.1 := by decide

theorem foreignRoot_nodup : (foreignRoot.map Prod.fst).Nodup := by decide

/-- It is read, and the prefix and the version are written again. -/
example : ∃ b as', readRoot .content {} foreignRoot = .ok b
    ∧ rootOf (fileText false .content b []) = some (Part.content.root, as')
    ∧ ("xmlns:my".toList, "http://x/?a&b".toList) ∈ as' := by
  have hr : ∃ b, readRoot .content {} foreignRoot = .ok b := ⟨_, rfl⟩
  obtain ⟨b, hr⟩ := hr
  obtain ⟨as', h1, h2⟩ := C75_foreign_partial false .content (by decide) {} b b ⟨[], (by intro o ho; cases ho), rfl⟩
    foreignRoot foreignRoot_names foreignRoot_nodup hr [] (by intro o ho; cases ho) rfl [] (by intro i hi; cases hi)
  obtain ⟨u, hu, hm⟩ := h2 "xmlns:my".toList "http://x/?a&amp;b".toList (by decide) (by decide) (by decide +kernel)
  have : u = "http://x/?a&b".toList := by
    have h : unescape "http://x/?a&amp;b".toList = some "http://x/?a&b".toList := by decide +kernel
    rw [h] at hu
    exact (Option.some.inj hu).symm
  subst this
  exact ⟨b, as', hr, h1, hm⟩

end Verif.Ns
