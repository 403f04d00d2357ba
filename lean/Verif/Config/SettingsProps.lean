import Verif.Config.Codec
import Verif.Codec.CellProps
import Verif.Xml.Doc

/-!
# C46: the configuration after write and read
-/

set_option autoImplicit false

namespace Verif.Config

open Xml Xml.Spec Codec

/-! ## Specification -/

/-- What each kind of map contains. -/
def KidsOk (k : Kind) (m : List (Str × CItem)) : Prop :=
  match k with
  | .set | .entry => ∀ p ∈ m, p.2.itype ≠ some .entry
  | .map => ∀ p ∈ m, p.2.itype = some .entry
  | .vec => (∀ p ∈ m, p.2.itype = some .entry) ∧ m.map (·.1) = (List.range m.length).map decNat

/-- A configuration as the format allows it: sets and entries contain values, sets and maps; maps contain
entries; the entries of an indexed map are numbered; the values satisfy `ok`. -/
inductive Good (ok : CValue → Prop) : CItem → Prop where
  | value (v : CValue) (h : ok v) : Good ok (.value v)
  | node (k : Kind) (m : List (Str × CItem)) (hd : Distinct m) (hk : KidsOk k m) (hs : ∀ p ∈ m, Good ok p.2) :
    Good ok (.node k m)

/-- The configuration of a workbook: the items at the top are sets. -/
def GoodConfig (ok : CValue → Prop) (m : List (Str × CItem)) : Prop :=
  Distinct m ∧ (∀ p ∈ m, p.2.itype = some .set) ∧ ∀ p ∈ m, Good ok p.2

/-- The values that come back: what is written without escaping needs none; the years have four digits; the
integers are of their type. -/
def ValueOk (fl : Floats) : CValue → Prop
  | .base64 s => Plain s
  | .dateTime d => ValidDateTime d ∧ d.year ≤ 9999
  | .double f => FloatOk fl f
  | .int z => -2147483648 ≤ z ∧ z < 2147483648
  | .long z => -9223372036854775808 ≤ z ∧ z < 9223372036854775808
  | .short z => -32768 ≤ z ∧ z < 32768
  | _ => True

/-- An empty text. -/
def CItem.isEmptyText : CItem → Bool
  | .value v => v.isEmpty
  | .node _ _ => false

mutual
/-- The configuration without empty texts. -/
def dropEmpty : CItem → CItem
  | .value v => .value v
  | .node k m => .node k (dropAll m)
/-- The same for the entries of a map. -/
def dropAll : List (Str × CItem) → List (Str × CItem)
  | [] => []
  | (n, x) :: m => if x.isEmptyText then dropAll m else (n, dropEmpty x) :: dropAll m
end

/-! ## Writing -/

theorem renderAll_map (fl : Floats) (m : List (Str × CItem)) :
    renderAll fl m = m.map fun p => (p.1, render fl p.2) := by
  induction m with
  | nil => rfl
  | cons p m ih => obtain ⟨n, x⟩ := p; rw [renderAll, ih]; rfl

theorem dropAll_map (m : List (Str × CItem)) :
    dropAll m = (m.filter fun p => !p.2.isEmptyText).map fun p => (p.1, dropEmpty p.2) := by
  induction m with
  | nil => rfl
  | cons p m ih =>
    obtain ⟨n, x⟩ := p
    rw [dropAll, ih, List.filter_cons]
    cases h : x.isEmptyText <;> simp

/-- The document of a value. -/
def valueDoc (fl : Floats) (n : Str) (v : CValue) : Doc :=
  if v.isEmpty then .void true tItem [(true, aName, n), (false, aType, v.vtype.name)] (some (textOf fl v).1) true
  else .leaf true tItem [(true, aName, n), (false, aType, v.vtype.name)] (textOf fl v).1 (textOf fl v).2

mutual
/-- The document of an item. -/
def itemDoc (fl : Floats) (n : Option Str) : CItem → Doc
  | .value v => valueDoc fl (n.getD []) v
  | .node k m => .elem false (tagOf k) (optA aName n) (itemDocs fl (decide (k = .vec)) m)
/-- The documents of the entries of a map. -/
def itemDocs (fl : Floats) (vec : Bool) : List (Str × CItem) → List Doc
  | [] => []
  | (n, x) :: m => itemDoc fl (if vec then none else some n) x :: itemDocs fl vec m
end

theorem docsCalls_cons (d : Doc) (ds : List Doc) : docsCalls (d :: ds) = docCalls d ++ docsCalls ds := by
  unfold docsCalls docCalls
  rw [docsItems, List.flatMap_append]

theorem docCalls_elem (n : Str) (as : List (Bool × Str × Str)) (kids : List Doc) :
    docCalls (.elem false n as kids) = .elem n :: as.map attrCall ++ docsCalls kids ++ [.endElem n] := by
  unfold docCalls docsCalls
  rw [docItems]
  simp [Item.calls]

theorem empty_text (fl : Floats) (v : CValue) (h : v.isEmpty = true) : (textOf fl v).2 = [] := by
  cases v <;> simp_all [CValue.isEmpty, textOf]

theorem writeValue_doc (fl : Floats) (n : Str) (v : CValue) : writeValue fl n v = docCalls (valueDoc fl n v) := by
  unfold writeValue valueDoc docCalls
  cases h : v.isEmpty with
  | true =>
    have := empty_text fl v h
    cases v <;> simp_all [CValue.isEmpty, textOf, docItems, Item.calls, attrCall, textCall]
  | false =>
    cases v <;> simp [textOf, docItems, Item.calls, attrCall, textCall]

/-- The loop over an indexed map. -/
theorem vecLoop_eq (n : Option Str) (rs : List (Str × Rendered)) (cs : List (List Call))
    (hn : rs.map (·.1) = (List.range rs.length).map decNat)
    (hc : ∀ i, (h : i < rs.length) → (rs[i]).2.ty = some .entry ∧ ((rs[i]).2.calls none) = cs[i]?)
    (hl : cs.length = rs.length) (hd : Distinct rs) : ∀ (f i : Nat), i ≤ rs.length → rs.length < f + i →
    vecLoop n rs f i = some (cs.drop i).flatten := by
  intro f
  induction f with
  | zero => intro i h1 h2; omega
  | succ f ih =>
    intro i h1 h2
    rw [vecLoop]
    by_cases h : i < rs.length
    · have hk : (rs[i]).1 = decNat i := by
        have h3 : (rs.map (·.1))[i]? = ((List.range rs.length).map decNat)[i]? := by rw [hn]
        simp [h] at h3
        exact h3
      have hlook : lookup rs (decNat i) = some (rs[i]).2 := by
        rw [← hk]
        exact mem_lookup rs hd _ _ (by exact List.getElem_mem h)
      rw [hlook]
      simp only [(hc i h).1, (hc i h).2]
      have h4 : i < cs.length := by omega
      rw [List.getElem?_eq_getElem h4]
      simp only
      rw [ih (i + 1) (by omega) (by omega), List.drop_eq_getElem_cons h4, List.flatten_cons]
      rfl
    · have hi : i = rs.length := by omega
      have hlook : lookup rs (decNat i) = none := by
        rw [lookup_none, hn]
        intro hmem
        obtain ⟨j, hj, he⟩ := List.mem_map.1 hmem
        have := decNat_inj he
        simp at hj
        omega
      rw [hlook, List.drop_eq_nil_of_le (by omega)]
      rfl

theorem itype_entry {x : CItem} (h : x.itype = some .entry) : ∃ m, x = .node .entry m := by
  cases x with
  | value v => cases h
  | node k m => cases h; exact ⟨m, rfl⟩

theorem render_ty (fl : Floats) (x : CItem) : (render fl x).ty = x.itype := by cases x <;> rfl

theorem setLoop_eq (fl : Floats) (m : List (Str × CItem)) (hk : ∀ p ∈ m, p.2.itype ≠ some .entry)
    (h : ∀ p ∈ m, ∀ n, (render fl p.2).calls n = some (docCalls (itemDoc fl n p.2))) :
    setLoop (renderAll fl m) = some (docsCalls (itemDocs fl false m)) := by
  induction m with
  | nil => rfl
  | cons p m ih =>
    obtain ⟨n, x⟩ := p
    have h1 := hk (n, x) List.mem_cons_self
    have h2 := h (n, x) List.mem_cons_self
    rw [renderAll, setLoop, render_ty, if_neg h1, h2, itemDocs, docsCalls_cons,
      ih (fun p hp => hk p (List.mem_cons_of_mem _ hp)) (fun p hp => h p (List.mem_cons_of_mem _ hp))]
    rfl

theorem mapLoop_eq (fl : Floats) (m : List (Str × CItem)) (hk : ∀ p ∈ m, p.2.itype = some .entry)
    (h : ∀ p ∈ m, ∀ n, (render fl p.2).calls n = some (docCalls (itemDoc fl n p.2))) :
    mapLoop (renderAll fl m) = some (docsCalls (itemDocs fl false m)) := by
  induction m with
  | nil => rfl
  | cons p m ih =>
    obtain ⟨n, x⟩ := p
    have h1 := hk (n, x) List.mem_cons_self
    have h2 := h (n, x) List.mem_cons_self
    rw [renderAll, mapLoop, render_ty, if_pos (.inr h1), h2, itemDocs, docsCalls_cons,
      ih (fun p hp => hk p (List.mem_cons_of_mem _ hp)) (fun p hp => h p (List.mem_cons_of_mem _ hp))]
    rfl

theorem rootLoop_eq (fl : Floats) (m : List (Str × CItem)) (hk : ∀ p ∈ m, p.2.itype = some .set)
    (h : ∀ p ∈ m, ∀ n, (render fl p.2).calls n = some (docCalls (itemDoc fl n p.2))) :
    rootLoop (renderAll fl m) = some (docsCalls (itemDocs fl false m)) := by
  induction m with
  | nil => rfl
  | cons p m ih =>
    obtain ⟨n, x⟩ := p
    have h1 := hk (n, x) List.mem_cons_self
    have h2 := h (n, x) List.mem_cons_self
    rw [renderAll, rootLoop, render_ty, if_pos h1, h2, itemDocs, docsCalls_cons,
      ih (fun p hp => hk p (List.mem_cons_of_mem _ hp)) (fun p hp => h p (List.mem_cons_of_mem _ hp))]
    rfl

theorem itemDocs_vec (fl : Floats) (m : List (Str × CItem)) :
    docsCalls (itemDocs fl true m) = (m.map fun p => docCalls (itemDoc fl none p.2)).flatten := by
  induction m with
  | nil => rfl
  | cons p m ih =>
    obtain ⟨n, x⟩ := p
    rw [itemDocs, docsCalls_cons, ih]
    rfl

/-- A good item is written without a panic. -/
theorem render_eq (fl : Floats) {ok : CValue → Prop} {x : CItem} (h : Good ok x) : ∀ n,
    (render fl x).calls n = some (docCalls (itemDoc fl n x)) := by
  induction h with
  | value v h => intro n; rw [render, itemDoc, ← writeValue_doc]
  | node k m hd hk hs ih =>
    intro n
    rw [render, itemDoc, docCalls_elem, optA_calls]
    have hb : writeKids n (renderAll fl m) k = some (docsCalls (itemDocs fl (decide (k = .vec)) m)) := by
      cases k with
      | set => exact setLoop_eq fl m hk ih
      | entry => exact setLoop_eq fl m hk ih
      | map => exact mapLoop_eq fl m hk ih
      | vec =>
        obtain ⟨hk1, hk2⟩ := hk
        show vecLoop n (renderAll fl m) ((renderAll fl m).length + 1) 0 = _
        have hl : (renderAll fl m).length = m.length := by rw [renderAll_map]; simp
        rw [vecLoop_eq n (renderAll fl m) (m.map fun p => docCalls (itemDoc fl none p.2)) ?_ ?_ ?_ ?_ _ 0
          (by omega) (by omega)]
        · show _ = some (docsCalls (itemDocs fl true m))
          rw [itemDocs_vec]; rfl
        · rw [hl, renderAll_map, List.map_map]; exact hk2
        · intro i hi
          have hi' : i < m.length := by omega
          have he : (renderAll fl m)[i] = ((m[i]).1, render fl (m[i]).2) := by
            have : (renderAll fl m)[i]? = (m.map fun p => (p.1, render fl p.2))[i]? := by rw [renderAll_map]
            simpa [hi, hi'] using this
          rw [he]
          refine ⟨?_, ?_⟩
          · show (render fl (m[i]).2).ty = _
            rw [render_ty]; exact hk1 _ (List.getElem_mem hi')
          · show (render fl (m[i]).2).calls none = _
            rw [ih _ (List.getElem_mem hi')]
            simp [hi']
        · simp [hl]
        · unfold Distinct
          rw [renderAll_map, List.map_map]; exact hd
    show (writeKids n (renderAll fl m) k).map _ = _
    rw [hb]
    rfl

/-- The document of a configuration. -/
def settingsDoc (fl : Floats) (m : List (Str × CItem)) : Doc := .elem false tSettings [] (itemDocs fl false m)

theorem writeSettings_eq (fl : Floats) {ok : CValue → Prop} (m : List (Str × CItem)) (h : GoodConfig ok m) :
    writeSettings fl m = some (docCalls (settingsDoc fl m)) := by
  unfold writeSettings settingsDoc
  rw [rootLoop_eq fl m h.2.1 (fun p hp n => render_eq fl (h.2.2 p hp) n), docCalls_elem]
  rfl

/-! ## Well-formed documents -/

theorem textOf_plain (fl : Floats) (v : CValue) (h : ValueOk fl v) : (textOf fl v).1 = false → Plain (textOf fl v).2 := by
  cases v with
  | base64 s => intro _; exact h
  | boolean b => intro _; exact plain_bool b
  | dateTime d => intro _; exact plain_dateTime d
  | double f => intro _; exact h.1
  | int z => intro _; exact plain_decInt z
  | long z => intro _; exact plain_decInt z
  | short z => intro _; exact plain_decInt z
  | string s => intro h; cases h

theorem name_item : Name tItem := by decide +kernel
theorem name_tagOf (k : Kind) : Name (tagOf k) := by cases k <;> decide +kernel
theorem name_aName : Name aName := by decide +kernel
theorem name_aType : Name aType := by decide +kernel
theorem name_settings : Name tSettings := by decide +kernel
theorem name_document : Name tDocument := by decide +kernel

theorem vtype_plain (t : VType) : Plain t.name := by cases t <;> (unfold Plain; decide +kernel)

theorem valueDoc_ok (fl : Floats) (n : Str) (v : CValue) (h : ValueOk fl v) : DocOk (valueDoc fl n v) := by
  have ha : AttrsOk [(true, aName, n), (false, aType, v.vtype.name)] := by
    intro a ha
    rcases List.mem_cons.1 ha with rfl | ha
    · exact ⟨name_aName, fun h => by cases h⟩
    · rcases List.mem_cons.1 ha with rfl | ha
      · exact ⟨name_aType, fun _ => vtype_plain _⟩
      · cases ha
  unfold valueDoc
  split
  · exact ⟨name_item, ha⟩
  · exact ⟨name_item, ha, textOf_plain fl v h⟩

theorem itemDocs_ok (fl : Floats) (vec : Bool) (m : List (Str × CItem))
    (h : ∀ p ∈ m, ∀ n, DocOk (itemDoc fl n p.2)) : DocsOk (itemDocs fl vec m) := by
  induction m with
  | nil => trivial
  | cons p m ih =>
    obtain ⟨n, x⟩ := p
    rw [itemDocs]
    exact ⟨h (n, x) List.mem_cons_self _, ih (fun p hp => h p (List.mem_cons_of_mem _ hp))⟩

theorem itemDoc_ok (fl : Floats) {x : CItem} (h : Good (ValueOk fl) x) : ∀ n, DocOk (itemDoc fl n x) := by
  induction h with
  | value v h => intro n; rw [itemDoc]; exact valueDoc_ok fl _ v h
  | node k m hd hk hs ih =>
    intro n
    rw [itemDoc]
    exact ⟨name_tagOf k, optA_ok _ _ name_aName, itemDocs_ok fl _ m ih⟩

/-! ## Reading -/

theorem run_append (fl : Floats) (a b : List Event) : ∀ st : State,
    run fl st (a ++ b) = match run fl st a with | .error e => .error e | .ok st => run fl st b := by
  induction a with
  | nil => intro st; rfl
  | cons e a ih =>
    intro st
    rw [List.cons_append, run, run]
    cases step fl st e with
    | error x => rfl
    | ok st => exact ih st

/-- A function that is not reading a value. -/
def Frame.isMap : Frame → Bool
  | .value _ _ _ => false
  | _ => true

theorem run_nl (fl : Floats) (lb : Bool) (op : List Str) (f : Frame) (fs : List Frame) (cfg : List (Str × CItem))
    (hf : f.isMap = true) : run fl ⟨op, f :: fs, cfg⟩ (nlEv lb) = .ok ⟨op, f :: fs, cfg⟩ := by
  cases lb with
  | false => rfl
  | true => cases f <;> first | rfl | cases hf

theorem run_nl_empty (fl : Floats) (lb : Bool) (op : List Str) (cfg : List (Str × CItem)) :
    run fl ⟨op, [], cfg⟩ (nlEv lb) = .ok ⟨op, [], cfg⟩ := by cases lb <;> rfl

theorem run_text (fl : Floats) (op : List Str) (n : Str) (t : VType) (fs : List Frame) (cfg : List (Str × CItem))
    (es : List Event) (h : ∀ e ∈ es, isTextEv e = true) : ∀ u : Str,
    run fl ⟨op, .value n t u :: fs, cfg⟩ es = .ok ⟨op, .value n t (u ++ es.flatMap evText) :: fs, cfg⟩ := by
  induction es with
  | nil => intro u; simp [run]
  | cons e es ih =>
    intro u
    have h1 := h e List.mem_cons_self
    have ih := ih (fun e he => h e (List.mem_cons_of_mem _ he))
    cases e with
    | text s =>
      rw [run]
      show run fl ⟨op, .value n t (u ++ s) :: fs, cfg⟩ es = _
      rw [ih, List.flatMap_cons, List.append_assoc]; rfl
    | ref s =>
      rw [run]
      show run fl ⟨op, .value n t (u ++ entity s) :: fs, cfg⟩ es = _
      rw [ih, List.flatMap_cons, List.append_assoc]; rfl
    | start a b => cases h1
    | empty a b => cases h1
    | «end» a => cases h1

/-- A function that reads this item. -/
def Fits : Frame → CItem → Prop
  | .settings _, x => x.itype = some .set
  | .node .set _ _ _, x => x.itype ≠ some .entry
  | .node .entry _ _ _, x => x.itype ≠ some .entry
  | .node .vec _ _ _, x => x.itype = some .entry
  | .node .map _ _ _, x => x.itype = some .entry
  | .value _ _ _, _ => False

theorem fits_isMap {f : Frame} {x : CItem} (h : Fits f x) : f.isMap = true := by
  cases f with
  | value a b c => cases h
  | _ => rfl

theorem opens_node (f : Frame) (k : Kind) (m : List (Str × CItem)) (h : Fits f (.node k m)) :
    opens (some f) (tagOf k) = some (.node k) := by
  cases f with
  | settings m => cases h; rfl
  | value a b c => cases h
  | node k' a b c =>
    cases k' with
    | set =>
      cases k with
      | entry => exact absurd rfl h
      | set => simp only [opens]; rw [if_neg (by decide +kernel), if_pos trivial]
      | vec => simp only [opens]; rw [if_neg (by decide +kernel), if_neg (by decide +kernel), if_pos trivial]
      | map => simp only [opens]; rw [if_neg (by decide +kernel), if_neg (by decide +kernel), if_neg (by decide +kernel), if_pos trivial]
    | entry =>
      cases k with
      | entry => exact absurd rfl h
      | set => simp only [opens]; rw [if_neg (by decide +kernel), if_pos trivial]
      | vec => simp only [opens]; rw [if_neg (by decide +kernel), if_neg (by decide +kernel), if_pos trivial]
      | map => simp only [opens]; rw [if_neg (by decide +kernel), if_neg (by decide +kernel), if_neg (by decide +kernel), if_pos trivial]
    | vec => cases h; simp only [opens]; rw [if_pos trivial]
    | map => cases h; simp only [opens]; rw [if_pos trivial]

theorem opens_value (f : Frame) (v : CValue) (h : Fits f (.value v)) : opens (some f) tItem = some .value := by
  cases f with
  | settings m => cases h
  | value a b c => cases h
  | node k' a b c =>
    cases k' with
    | set => simp only [opens]; rw [if_pos trivial]
    | entry => simp only [opens]; rw [if_pos trivial]
    | vec => cases h
    | map => cases h


theorem readName_opt (n : Option Str) : readName none (rawAttrs (optA aName n)) = .ok n := by
  cases n with
  | none => rfl
  | some n =>
    show readName none [(aName, escape n)] = _
    rw [readName, if_pos rfl, unescape_escape]
    rfl

theorem value_name (n t : Str) :
    readName none (rawAttrs [(true, aName, n), (false, aType, t)]) = .ok (some n) := by
  show readName none [(aName, escape n), (aType, t)] = _
  rw [readName, if_pos rfl, unescape_escape]
  simp only
  rw [readName, if_neg (by decide +kernel)]
  rfl

theorem findType_name (t : VType) : findType t.name = some t := by cases t <;> decide +kernel

theorem value_type (n : Str) (t : VType) :
    readType none (rawAttrs [(true, aName, n), (false, aType, t.name)]) = .ok (some t) := by
  show readType none [(aName, escape n), (aType, t.name)] = _
  rw [readType, if_neg (by decide +kernel), readType, if_pos rfl, findType_name]
  rfl

theorem parse_text (fl : Floats) (v : CValue) (h : ValueOk fl v) :
    parseValue fl (textOf fl v).2 v.vtype = .ok v := by
  cases v with
  | base64 s => rfl
  | boolean b =>
    show orFail .parse ((parseBool (fmtBool b)).map CValue.boolean) = _
    rw [C62_bool]; rfl
  | dateTime d =>
    show orFail .parse ((parseDateTime (fmtDateTime d)).map CValue.dateTime) = _
    rw [C62_datetime_partial d h.1 h.2]; rfl
  | double f =>
    show orFail .parse ((fl.parse (fl.fmt f)).map CValue.double) = _
    rw [h.2]; rfl
  | int z =>
    show orFail .parse ((parseInt 32 (decInt z)).map CValue.int) = _
    rw [C62_int 32 z h.1 h.2]; rfl
  | long z =>
    show orFail .parse ((parseInt 64 (decInt z)).map CValue.long) = _
    rw [C62_int 64 z h.1 h.2]; rfl
  | short z =>
    show orFail .parse ((parseInt 16 (decInt z)).map CValue.short) = _
    rw [C62_int 16 z h.1 h.2]; rfl
  | string s => rfl

/-- A value is read. -/
theorem run_value (fl : Floats) (lb : Bool) (v : CValue) (hv : ValueOk fl v) (n : Str) (op : List Str)
    (f g : Frame) (fs : List Frame) (cfg : List (Str × CItem)) (hf : Fits f (.value v))
    (hg : f.add (some n) (.value v) = .ok g) (hgm : g.isMap = true) :
    run fl ⟨op, f :: fs, cfg⟩ (docEv lb (valueDoc fl n v))
      = .ok ⟨op, (if v.isEmpty then f else g) :: fs, cfg⟩ := by
  unfold valueDoc
  cases he : v.isEmpty with
  | true =>
    simp only [if_true, docEv]
    rw [run]
    exact run_nl fl lb op f fs cfg (fits_isMap hf)
  | false =>
    simp only [Bool.false_eq_true, if_false, docEv]
    rw [run]
    have hs : step fl ⟨op, f :: fs, cfg⟩ (.start tItem (rawAttrs [(true, aName, n), (false, aType, v.vtype.name)]))
        = .ok ⟨tItem :: op, .value n v.vtype [] :: f :: fs, cfg⟩ := by
      show (match opens (some f) tItem with | none => _ | some o => _) = _
      rw [opens_value f v hf]
      simp only [openFrame]
      rw [value_name, value_type n]
      rfl
    rw [hs]
    simp only
    rw [run_append, run_text fl _ _ _ _ _ _ (textEv_text _ _), textEv_flat, List.nil_append]
    simp only
    rw [run]
    have hc : step fl ⟨tItem :: op, .value n v.vtype (textOf fl v).2 :: f :: fs, cfg⟩ (.end tItem)
        = .ok ⟨op, g :: fs, cfg⟩ := by
      unfold step
      simp only [ne_eq, not_true_eq_false, if_false, Frame.tag, if_true, closeFrame]
      rw [parse_text fl v hv]
      simp only
      rw [hg]
      rfl
    rw [hc]
    exact run_nl fl lb op g fs cfg hgm

/-- What is read of an item, in a function that reads it. -/
def Reads (fl : Floats) (lb : Bool) (x : CItem) : Prop :=
  ∀ (n : Option Str) (op : List Str) (f g : Frame) (fs : List Frame) (cfg : List (Str × CItem)), Fits f x →
    (x.itype ≠ some .entry → n ≠ none) → f.add n (dropEmpty x) = .ok g → g.isMap = true →
    run fl ⟨op, f :: fs, cfg⟩ (docEv lb (itemDoc fl n x))
      = .ok ⟨op, (if x.isEmptyText then f else g) :: fs, cfg⟩

/-- The entries of a map with names. -/
theorem run_named (fl : Floats) (lb : Bool) (op : List Str) (fs : List Frame) (cfg : List (Str × CItem))
    (fr : List (Str × CItem) → Frame) (hadd : ∀ m n x, (fr m).add (some n) x = .ok (fr (put m n x)))
    (hmap : ∀ m, (fr m).isMap = true) (m : List (Str × CItem)) (hfit : ∀ m', ∀ p ∈ m, Fits (fr m') p.2)
    (hr : ∀ p ∈ m, Reads fl lb p.2) (hd : Distinct m) : ∀ m0, (∀ p ∈ m, p.1 ∉ m0.map (·.1)) →
    run fl ⟨op, fr m0 :: fs, cfg⟩ (docsEv lb (itemDocs fl false m)) = .ok ⟨op, fr (m0 ++ dropAll m) :: fs, cfg⟩ := by
  induction m with
  | nil => intro m0 _; simp [itemDocs, docsEv, run, dropAll]
  | cons p m ih =>
    intro m0 h0
    obtain ⟨n, x⟩ := p
    have ih := ih (fun m' p hp => hfit m' p (List.mem_cons_of_mem _ hp)) (fun p hp => hr p (List.mem_cons_of_mem _ hp))
      (by unfold Distinct at hd ⊢; rw [List.map_cons, List.nodup_cons] at hd; exact hd.2)
    rw [itemDocs, docsEv, run_append]
    have hnew := h0 (n, x) List.mem_cons_self
    have h1 := hr (n, x) List.mem_cons_self (some n) op (fr m0) (fr (put m0 n (dropEmpty x))) fs cfg
      (hfit m0 (n, x) List.mem_cons_self) (fun _ => by simp) (hadd _ _ _) (hmap _)
    simp only at h1
    simp only [Bool.false_eq_true, if_false]
    rw [h1, dropAll]
    simp only
    have hn : n ∉ m.map (·.1) := by
      unfold Distinct at hd; rw [List.map_cons, List.nodup_cons] at hd; exact hd.1
    cases he : x.isEmptyText with
    | true =>
      simp only [if_true]
      exact ih m0 (fun p hp => h0 p (List.mem_cons_of_mem _ hp))
    | false =>
      simp only [Bool.false_eq_true, if_false]
      rw [put_new m0 n _ hnew, ih (m0 ++ [(n, dropEmpty x)])]
      · simp
      · intro p hp hmem
        rw [List.map_append] at hmem
        rcases List.mem_append.1 hmem with hmem | hmem
        · exact h0 p (List.mem_cons_of_mem _ hp) hmem
        · simp at hmem
          exact hn (hmem ▸ List.mem_map_of_mem hp)

/-- The entries of an indexed map. -/
theorem run_indexed (fl : Floats) (lb : Bool) (op : List Str) (nm : Option Str) (fs : List Frame)
    (cfg : List (Str × CItem)) (m : List (Str × CItem)) (hent : ∀ p ∈ m, p.2.itype = some .entry)
    (hr : ∀ p ∈ m, Reads fl lb p.2) : ∀ m0 i, (∀ j, i ≤ j → decNat j ∉ m0.map (·.1)) →
    (∀ j, (h : j < m.length) → (m[j]).1 = decNat (i + j)) →
    run fl ⟨op, .node .vec nm m0 i :: fs, cfg⟩ (docsEv lb (itemDocs fl true m))
      = .ok ⟨op, .node .vec nm (m0 ++ dropAll m) (i + m.length) :: fs, cfg⟩ := by
  induction m with
  | nil => intro m0 i _ _; simp [itemDocs, docsEv, run, dropAll]
  | cons p m ih =>
    intro m0 i h0 hk
    obtain ⟨n, x⟩ := p
    have ih := ih (fun p hp => hent p (List.mem_cons_of_mem _ hp)) (fun p hp => hr p (List.mem_cons_of_mem _ hp))
    have hn : n = decNat i := hk 0 (by simp)
    have he := hent (n, x) List.mem_cons_self
    have hempty : x.isEmptyText = false := by obtain ⟨m, rfl⟩ := itype_entry he; rfl
    rw [itemDocs, docsEv, run_append]
    have h1 := hr (n, x) List.mem_cons_self none op (.node .vec nm m0 i)
      (.node .vec nm (put m0 (decNat i) (dropEmpty x)) (i + 1)) fs cfg
      he (fun h => absurd he h) rfl rfl
    simp only [hempty, Bool.false_eq_true, if_false] at h1
    simp only [if_true]
    rw [h1, dropAll, hempty]
    simp only [Bool.false_eq_true, if_false]
    rw [put_new m0 _ _ (h0 i (Nat.le_refl i)), ih _ (i + 1)]
    · simp [hn, Nat.add_comm, Nat.add_left_comm]
    · intro j hj hmem
      rw [List.map_append] at hmem
      rcases List.mem_append.1 hmem with hmem | hmem
      · exact h0 j (by omega) hmem
      · simp at hmem
        have := decNat_inj hmem
        omega
    · intro j hj
      have := hk (j + 1) (by simp; omega)
      simp only [List.getElem_cons_succ] at this
      rw [this]
      congr 1
      omega

/-- Every good item is read. -/
theorem reads_good (fl : Floats) (lb : Bool) {x : CItem} (h : Good (ValueOk fl) x) : Reads fl lb x := by
  induction h with
  | value v h =>
    intro n op f g fs cfg hf hn hg hm
    cases n with
    | none => exact absurd rfl (hn (by simp [CItem.itype]))
    | some n =>
      rw [itemDoc]
      exact run_value fl lb v h n op f g fs cfg hf hg hm
  | node k m hd hk hs ih =>
    intro n op f g fs cfg hf hn hg hm
    rw [itemDoc, docEv, run]
    have hst : step fl ⟨op, f :: fs, cfg⟩ (.start (tagOf k) (rawAttrs (optA aName n)))
        = .ok ⟨tagOf k :: op, .node k n [] 0 :: f :: fs, cfg⟩ := by
      show (match opens (some f) (tagOf k) with | none => _ | some o => _) = _
      rw [opens_node f k m hf]
      simp only [openFrame]
      rw [readName_opt]
      simp only
      rw [if_neg]
      · rfl
      · rintro ⟨h1, h2⟩
        exact hn (by simp only [CItem.itype]; intro h; exact h1 (Option.some.inj h)) h2
    rw [hst]
    simp only
    rw [run_append]
    have hkids : ∃ i, run fl ⟨tagOf k :: op, .node k n [] 0 :: f :: fs, cfg⟩
          (docsEv lb (itemDocs fl (decide (k = .vec)) m))
        = .ok ⟨tagOf k :: op, .node k n (dropAll m) i :: f :: fs, cfg⟩ := by
      cases k with
      | set =>
        exact ⟨0, run_named fl lb _ _ cfg (fun m' => .node .set n m' 0) (fun _ _ _ => rfl) (fun _ => rfl) m
          (fun m' p hp => hk p hp) ih hd [] (fun _ _ h => by cases h)⟩
      | entry =>
        exact ⟨0, run_named fl lb _ _ cfg (fun m' => .node .entry n m' 0) (fun _ _ _ => rfl) (fun _ => rfl) m
          (fun m' p hp => hk p hp) ih hd [] (fun _ _ h => by cases h)⟩
      | map =>
        exact ⟨0, run_named fl lb _ _ cfg (fun m' => .node .map n m' 0) (fun _ _ _ => rfl) (fun _ => rfl) m
          (fun m' p hp => hk p hp) ih hd [] (fun _ _ h => by cases h)⟩
      | vec =>
        refine ⟨0 + m.length, run_indexed fl lb _ n _ cfg m hk.1 ih [] 0 (fun _ _ h => by cases h) ?_⟩
        intro j hj
        have h3 : (m.map (·.1))[j]? = ((List.range m.length).map decNat)[j]? := by rw [hk.2]
        simp [hj] at h3
        rw [h3, Nat.zero_add]
    obtain ⟨i, hkids⟩ := hkids
    rw [hkids]
    simp only
    rw [run]
    have hend : step fl ⟨tagOf k :: op, .node k n (dropAll m) i :: f :: fs, cfg⟩ (.end (tagOf k))
        = .ok ⟨op, g :: fs, cfg⟩ := by
      unfold step
      simp only [ne_eq, not_true_eq_false, if_false, Frame.tag, if_true, closeFrame]
      have : f.add n (.node k (dropAll m)) = .ok g := hg
      rw [this]
      rfl
    rw [hend]
    exact run_nl fl lb op g fs cfg hm

/-! ## C46 -/

/-- The read of a written file: the text is tokenised, and the events are read. -/
def readFile (fl : Floats) (s : Str) : Except Fault (List (Str × CItem)) :=
  match tokenize s with
  | none => .error .malformed
  | some ts => readSettings fl (events ts)

/-- **C46** (part): a configuration is written without a panic and comes back without its empty texts.
Missing: the empty texts (see `C46_empty_counterexample`) and the values `ValueOk` excludes. -/
theorem C46_roundtrip_partial (fl : Floats) (lb : Bool) (atts : List (Bool × Str × Str)) (ha : AttrsOk atts)
    (m : List (Str × CItem)) (h : GoodConfig (ValueOk fl) m) :
    ∃ calls, writeSettingsDoc fl atts m = some calls ∧ readFile fl (output lb calls) = .ok (dropAll m) := by
  unfold writeSettingsDoc
  rw [writeSettings_eq fl m h]
  refine ⟨.dtd "UTF-8".toList :: docCalls (.elem false tDocument atts [settingsDoc fl m]), ?_, ?_⟩
  · rw [docCalls_elem, docsCalls_cons]
    simp [docsCalls, docsItems]
  · have hdoc : DocOk (.elem false tDocument atts [settingsDoc fl m]) :=
      ⟨name_document, ha, ⟨name_settings, (by intro a ha; cases ha),
        itemDocs_ok fl false m (fun p hp n => itemDoc_ok fl (h.2.2 p hp) n)⟩, trivial⟩
    obtain ⟨ts, h1, h2⟩ := read_document lb "UTF-8".toList (by decide) false tDocument atts [settingsDoc fl m] hdoc
    unfold readFile
    rw [h1]
    simp only
    rw [h2]
    unfold readSettings
    have hrun : run fl {} (.text (if lb then ['\n', '\n'] else ['\n'])
        :: docEv lb (.elem false tDocument atts [settingsDoc fl m])) = .ok ⟨[], [], dropAll m⟩ := by
      rw [run]
      simp only [step, State.text]
      rw [docEv, run]
      have hs1 : step fl {} (.start tDocument (rawAttrs atts)) = .ok ⟨[tDocument], [], []⟩ := by
        have : opens none tDocument = none := by simp only [opens]; rw [if_neg (by decide +kernel)]
        unfold step
        simp only [List.head?_nil, this]
      rw [hs1]
      simp only [docsEv, List.append_nil]
      rw [run_append]
      have hin : run fl ⟨[tDocument], [], []⟩ (docEv lb (settingsDoc fl m)) = .ok ⟨[tDocument], [], dropAll m⟩ := by
        unfold settingsDoc
        rw [docEv, run]
        have hs2 : step fl ⟨[tDocument], [], []⟩ (.start tSettings (rawAttrs []))
            = .ok ⟨[tSettings, tDocument], [.settings []], []⟩ := by
          have : opens none tSettings = some .settings := by simp only [opens, if_true]
          unfold step
          simp only [List.head?_nil, this]
          rfl
        rw [hs2]
        simp only
        rw [run_append, run_named fl lb _ _ [] (fun m' => .settings m') (fun _ _ _ => rfl) (fun _ => rfl) m
          (fun m' p hp => h.2.1 p hp) (fun p hp => reads_good fl lb (h.2.2 p hp)) h.1 [] (fun _ _ h => by cases h)]
        simp only [List.nil_append]
        rw [run]
        have hs3 : step fl ⟨[tSettings, tDocument], [.settings (dropAll m)], []⟩ (.end tSettings)
            = .ok ⟨[tDocument], [], dropAll m⟩ := by
          unfold step
          simp only [ne_eq, not_true_eq_false, if_false, Frame.tag, if_true, closeFrame]
          rfl
        rw [hs3]
        exact run_nl_empty fl lb _ _
      rw [hin]
      simp only
      rw [run]
      have hs4 : step fl ⟨[tDocument], [], dropAll m⟩ (.end tDocument) = .ok ⟨[], [], dropAll m⟩ := by
        unfold step
        simp
      rw [hs4]
      exact run_nl_empty fl lb _ _
    rw [hrun]
    rfl

/-- C46: the values that are read back, at every path: the value that was there, or nothing if it was an
empty text. -/
theorem getValue_drop (x : CItem) : ∀ q : List Str, Good (fun _ => True) x → x.isEmptyText = false →
    getValueRec q (dropEmpty x) = (getValueRec q x).filter (fun v => !v.isEmpty) := by
  intro q
  induction q generalizing x with
  | nil =>
    intro _ he
    cases x with
    | value v =>
      have : v.isEmpty = false := he
      simp [dropEmpty, getValueRec, Option.filter, this]
    | node k m => rfl
  | cons n q ih =>
    intro hg he
    cases x with
    | value v => rfl
    | node k m =>
      rw [dropEmpty, getValueRec, getValueRec]
      cases hg with
      | node _ _ hd hk hs =>
        have key : lookup (dropAll m) n = ((lookup m n).filter (fun x => !x.isEmptyText)).map dropEmpty := by
          clear he hk
          induction m with
          | nil => rfl
          | cons p m ihm =>
            obtain ⟨k', y⟩ := p
            have ihm := ihm (by unfold Distinct at hd ⊢; rw [List.map_cons, List.nodup_cons] at hd; exact hd.2)
              (fun p hp => hs p (List.mem_cons_of_mem _ hp))
            have hk' : k' ∉ m.map (·.1) := by
              unfold Distinct at hd; rw [List.map_cons, List.nodup_cons] at hd; exact hd.1
            rw [dropAll, lookup]
            cases hy : y.isEmptyText with
            | true =>
              simp only [if_true]
              rw [ihm]
              by_cases hn : k' = n
              · rw [if_pos hn]
                subst hn
                rw [(lookup_none m k').2 hk']
                simp [Option.filter, hy]
              · rw [if_neg hn]
            | false =>
              simp only [Bool.false_eq_true, if_false]
              rw [lookup, ihm]
              by_cases hn : k' = n
              · rw [if_pos hn, if_pos hn]
                simp [Option.filter, hy]
              · rw [if_neg hn, if_neg hn]
        rw [key]
        cases hl : lookup m n with
        | none => rfl
        | some y =>
          cases hy : y.isEmptyText with
          | false =>
            simp only [Option.filter, hy, Bool.not_false, if_true, Option.map_some]
            exact ih y (hs _ (lookup_mem m n y hl)) hy
          | true =>
            simp only [Option.filter, hy, Bool.not_true, Bool.false_eq_true, if_false, Option.map_none]
            cases y with
            | node k m => cases hy
            | value v =>
              have hv : v.isEmpty = true := hy
              cases q with
              | nil => simp [getValueRec, hv]
              | cons a q => rfl

theorem good_mono {ok ok' : CValue → Prop} (h : ∀ v, ok v → ok' v) {x : CItem} (hx : Good ok x) : Good ok' x := by
  induction hx with
  | value v hv => exact .value v (h v hv)
  | node k m hd hk hs ih => exact .node k m hd hk ih

/-- **C46** (part): the value at each path after write and read is the one before, except for empty texts,
which are gone. -/
theorem C46_value_partial (fl : Floats) (lb : Bool) (atts : List (Bool × Str × Str)) (ha : AttrsOk atts)
    (m : List (Str × CItem)) (h : GoodConfig (ValueOk fl) m) :
    ∃ calls m', writeSettingsDoc fl atts m = some calls ∧ readFile fl (output lb calls) = .ok m'
      ∧ ∀ q, getValueRec q (.node .set m') = (getValueRec q (.node .set m)).filter (fun v => !v.isEmpty) := by
  obtain ⟨calls, h1, h2⟩ := C46_roundtrip_partial fl lb atts ha m h
  refine ⟨calls, _, h1, h2, fun q => ?_⟩
  have := getValue_drop (.node .set m) q (.node .set m h.1 (by intro p hp; rw [h.2.1 p hp]; decide)
    (fun p hp => good_mono (fun _ _ => trivial) (h.2.2 p hp))) rfl
  rwa [dropEmpty] at this

mutual
/-- There is no empty text. -/
def NoEmpty : CItem → Prop
  | .value v => v.isEmpty = false
  | .node _ m => AllNoEmpty m
/-- The same for the entries of a map. -/
def AllNoEmpty : List (Str × CItem) → Prop
  | [] => True
  | (_, x) :: m => NoEmpty x ∧ AllNoEmpty m
end

mutual
theorem dropEmpty_id : ∀ x : CItem, NoEmpty x → dropEmpty x = x
  | .value v, _ => by rw [dropEmpty]
  | .node k m, h => by
    rw [NoEmpty] at h
    rw [dropEmpty, dropAll_id m h]
theorem dropAll_id : ∀ m : List (Str × CItem), AllNoEmpty m → dropAll m = m
  | [], _ => by rw [dropAll]
  | (n, x) :: m, h => by
    rw [AllNoEmpty] at h
    have : x.isEmptyText = false := by
      cases x with
      | value v => have := h.1; rw [NoEmpty] at this; exact this
      | node k m => rfl
    rw [dropAll, this, dropEmpty_id x h.1, dropAll_id m h.2]
    rfl
end

/-- **C46** (part): a configuration without empty texts is the same after write and read. -/
theorem C46_same_partial (fl : Floats) (lb : Bool) (atts : List (Bool × Str × Str)) (ha : AttrsOk atts)
    (m : List (Str × CItem)) (h : GoodConfig (ValueOk fl) m) (he : AllNoEmpty m) :
    ∃ calls, writeSettingsDoc fl atts m = some calls ∧ readFile fl (output lb calls) = .ok m := by
  obtain ⟨calls, h1, h2⟩ := C46_roundtrip_partial fl lb atts ha m h
  rw [dropAll_id m he] at h2
  exact ⟨calls, h1, h2⟩

/-- **C46**: a configuration of the right shape is written without a panic. -/
theorem C46_no_panic (fl : Floats) (atts : List (Bool × Str × Str)) (m : List (Str × CItem))
    (h : GoodConfig (fun _ => True) m) : (writeSettingsDoc fl atts m).isSome = true := by
  unfold writeSettingsDoc
  rw [writeSettings_eq fl m h]
  rfl

/-! ## What is read has the right shape -/

/-- The values that can be read: the integers are of their type. -/
def ReadOk : CValue → Prop
  | .int z => -2147483648 ≤ z ∧ z < 2147483648
  | .long z => -9223372036854775808 ≤ z ∧ z < 9223372036854775808
  | .short z => -32768 ≤ z ∧ z < 32768
  | _ => True

/-- The content of a function of the reader. -/
def FrameOk : Frame → Prop
  | .settings m => GoodConfig ReadOk m
  | .node k _ m i => Distinct m ∧ KidsOk k m ∧ (∀ p ∈ m, Good ReadOk p.2) ∧ (k = .vec → i = m.length)
  | .value _ _ _ => True

/-- The item a function reads fits into the one that called it. -/
def Below : Frame → List Frame → Prop
  | .settings _, fs => fs = []
  | .node k _ _ _, f :: _ => Fits f (.node k [])
  | .value _ _ _, f :: _ => ∀ v, Fits f (.value v)
  | _, [] => False

/-- The functions at work. -/
def FramesOk : List Frame → Prop
  | [] => True
  | f :: fs => FrameOk f ∧ Below f fs ∧ FramesOk fs

theorem parseValue_ok (fl : Floats) (t : VType) (s : Str) (v : CValue) (h : parseValue fl s t = .ok v) : ReadOk v := by
  have aux : ∀ {α : Type} (o : Option α) (f : α → CValue), orFail Fault.parse (o.map f) = .ok v →
      ∃ a, o = some a ∧ v = f a := by
    intro α o f h
    cases o with
    | none => cases h
    | some a => cases h; exact ⟨a, rfl, rfl⟩
  cases t with
  | base64 => cases h; trivial
  | string => cases h; trivial
  | boolean => obtain ⟨a, _, rfl⟩ := aux _ _ h; trivial
  | dateTime => obtain ⟨a, _, rfl⟩ := aux _ _ h; trivial
  | double => obtain ⟨a, _, rfl⟩ := aux _ _ h; trivial
  | int => obtain ⟨a, h1, rfl⟩ := aux _ _ h; exact C62_int_range 32 s a h1
  | long => obtain ⟨a, h1, rfl⟩ := aux _ _ h; exact C62_int_range 64 s a h1
  | short => obtain ⟨a, h1, rfl⟩ := aux _ _ h; exact C62_int_range 16 s a h1

theorem mem_put (m : List (Str × CItem)) (n : Str) (x : CItem) (p : Str × CItem) (h : p ∈ put m n x) :
    p ∈ m ∨ p = (n, x) := by
  induction m with
  | nil => simp [put] at h; exact .inr h
  | cons q m ih =>
    obtain ⟨k, y⟩ := q
    rw [put] at h
    split at h
    · rename_i hk
      rcases List.mem_cons.1 h with rfl | h
      · exact .inr (by rw [hk])
      · exact .inl (List.mem_cons_of_mem _ h)
    · rcases List.mem_cons.1 h with rfl | h
      · exact .inl List.mem_cons_self
      · rcases ih h with h | h
        · exact .inl (List.mem_cons_of_mem _ h)
        · exact .inr h

/-- An item that fits is added. -/
theorem add_ok (f g : Frame) (n : Option Str) (x : CItem) (hf : FrameOk f) (hfit : Fits f x) (hx : Good ReadOk x)
    (h : f.add n x = .ok g) : FrameOk g ∧ ∀ fs, Below f fs → Below g fs := by
  cases f with
  | value a b c => cases hfit
  | settings m =>
    cases n with
    | none => cases h
    | some n =>
      cases h
      refine ⟨⟨distinct_put m n x hf.1, ?_, ?_⟩, fun fs h => by cases fs <;> exact h⟩
      · intro p hp
        rcases mem_put m n x p hp with hp | rfl
        · exact hf.2.1 p hp
        · exact hfit
      · intro p hp
        rcases mem_put m n x p hp with hp | rfl
        · exact hf.2.2 p hp
        · exact hx
  | node k a m i =>
    obtain ⟨h1, h2, h3, h4⟩ := hf
    have hgood : ∀ n, ∀ p ∈ put m n x, Good ReadOk p.2 := by
      intro n p hp
      rcases mem_put m n x p hp with hp | rfl
      · exact h3 p hp
      · exact hx
    cases k with
    | vec =>
      cases h
      have hi : i = m.length := h4 rfl
      subst hi
      have hnew : decNat m.length ∉ m.map (·.1) := by
        rw [h2.2]
        intro hm
        obtain ⟨j, hj, he⟩ := List.mem_map.1 hm
        have := decNat_inj he
        simp at hj
        omega
      refine ⟨⟨distinct_put m _ x h1, ⟨?_, ?_⟩, hgood _, fun _ => ?_⟩, fun fs h => by cases fs <;> exact h⟩
      · intro p hp
        rcases mem_put m _ x p hp with hp | rfl
        · exact h2.1 p hp
        · exact hfit
      · rw [put_new m _ _ hnew]
        simp [List.range_succ, h2.2]
      · rw [put_new m _ _ hnew]; simp
    | set =>
      cases n with
      | none => cases h
      | some n =>
        cases h
        refine ⟨⟨distinct_put m n x h1, ?_, hgood n, fun h => by cases h⟩, fun fs h => by cases fs <;> exact h⟩
        intro p hp
        rcases mem_put m n x p hp with hp | rfl
        · exact h2 p hp
        · exact hfit
    | entry =>
      cases n with
      | none => cases h
      | some n =>
        cases h
        refine ⟨⟨distinct_put m n x h1, ?_, hgood n, fun h => by cases h⟩, fun fs h => by cases fs <;> exact h⟩
        intro p hp
        rcases mem_put m n x p hp with hp | rfl
        · exact h2 p hp
        · exact hfit
    | map =>
      cases n with
      | none => cases h
      | some n =>
        cases h
        refine ⟨⟨distinct_put m n x h1, ?_, hgood n, fun h => by cases h⟩, fun fs h => by cases fs <;> exact h⟩
        intro p hp
        rcases mem_put m n x p hp with hp | rfl
        · exact h2 p hp
        · exact hfit

theorem fits_kind (f : Frame) (k : Kind) (a b : List (Str × CItem)) (h : Fits f (.node k a)) : Fits f (.node k b) := by
  cases f with
  | value x y z => cases h
  | settings m => exact h
  | node k' x y z => cases k' <;> exact h

/-- The state of the reader. -/
def StateOk (st : State) : Prop := FramesOk st.frames ∧ GoodConfig ReadOk st.config

theorem good_nil : GoodConfig ReadOk [] :=
  ⟨List.nodup_nil, (fun _ h => by cases h), (fun _ h => by cases h)⟩

theorem close_ok (fl : Floats) (f : Frame) (fs fs' : List Frame) (cfg cfg' : List (Str × CItem))
    (h : FramesOk (f :: fs)) (hc : GoodConfig ReadOk cfg) (hr : closeFrame fl f fs cfg = .ok (fs', cfg')) :
    FramesOk fs' ∧ GoodConfig ReadOk cfg' := by
  obtain ⟨h1, h2, h3⟩ := h
  cases f with
  | settings m =>
    cases hr
    exact ⟨h3, h1⟩
  | node k n m i =>
    cases fs with
    | nil => cases h2
    | cons g fs =>
      simp only [closeFrame] at hr
      cases ha : g.add n (.node k m) with
      | error e => rw [ha] at hr; cases hr
      | ok g' =>
        rw [ha] at hr
        cases hr
        obtain ⟨a1, a2⟩ := add_ok g g' n _ h3.1 (fits_kind g k [] m h2) (.node k m h1.1 h1.2.1 h1.2.2.1) ha
        exact ⟨⟨a1, a2 _ h3.2.1, h3.2.2⟩, hc⟩
  | value n t s =>
    cases fs with
    | nil => cases h2
    | cons g fs =>
      simp only [closeFrame] at hr
      cases hp : parseValue fl s t with
      | error e => rw [hp] at hr; cases hr
      | ok v =>
        rw [hp] at hr
        simp only at hr
        cases ha : g.add (some n) (.value v) with
        | error e => rw [ha] at hr; cases hr
        | ok g' =>
          rw [ha] at hr
          cases hr
          obtain ⟨a1, a2⟩ := add_ok g g' _ _ h3.1 (h2 v) (.value v (parseValue_ok fl t s v hp)) ha
          exact ⟨⟨a1, a2 _ h3.2.1, h3.2.2⟩, hc⟩

theorem opens_below (fs : List Frame) (n : Str) (o : Opens) (as : List (Str × Str)) (f : Frame)
    (h : opens fs.head? n = some o) (hf : openFrame as o = .ok f) : FrameOk f ∧ Below f fs := by
  have hopen : (o = .settings → f = .settings []) ∧ (∀ k, o = .node k → ∃ nm, f = .node k nm [] 0)
      ∧ (o = .value → ∃ a t, f = .value a t []) := by
    refine ⟨?_, ?_, ?_⟩
    · rintro rfl; cases hf; rfl
    · rintro k rfl
      simp only [openFrame] at hf
      split at hf
      · cases hf
      · split at hf
        · cases hf
        · cases hf; exact ⟨_, rfl⟩
    · rintro rfl
      simp only [openFrame] at hf
      split at hf <;> cases hf
      exact ⟨_, _, rfl⟩
  have hnode : ∀ k, FrameOk (.node k none [] 0) := by
    intro k
    refine ⟨List.nodup_nil, ?_, (fun _ h => by cases h), fun _ => rfl⟩
    cases k
    · intro p h; cases h
    · exact ⟨(fun p h => by cases h), rfl⟩
    · intro p h; cases h
    · intro p h; cases h
  cases fs with
  | nil =>
    simp only [List.head?_nil, opens] at h
    split at h
    · cases h
      rw [hopen.1 rfl]
      exact ⟨good_nil, rfl⟩
    · cases h
  | cons g fs =>
    simp only [List.head?_cons] at h
    cases o with
    | settings =>
      exfalso
      unfold opens at h
      split at h
      all_goals (try (rename_i hh; cases hh))
      all_goals (try (split at h))
      all_goals (try (split at h))
      all_goals (try (split at h))
      all_goals (try (split at h))
      all_goals (cases h)
    | node k =>
      obtain ⟨nm, rfl⟩ := hopen.2.1 k rfl
      refine ⟨hnode k, ?_⟩
      show Fits g (.node k [])
      cases g with
      | value a b c => cases h
      | settings m =>
        simp only [opens] at h
        split at h
        · cases h; rfl
        · cases h
      | node k' a b c =>
        cases k' <;> simp only [opens] at h
        all_goals (try (split at h))
        all_goals (try (split at h))
        all_goals (try (split at h))
        all_goals (try (split at h))
        all_goals (cases h)
        all_goals (simp [Fits, CItem.itype])
    | value =>
      obtain ⟨a, t, rfl⟩ := hopen.2.2 rfl
      refine ⟨trivial, ?_⟩
      show ∀ v, Fits g (.value v)
      intro v
      cases g with
      | value a b c => cases h
      | settings m =>
        simp only [opens] at h
        split at h <;> cases h
      | node k' a b c =>
        cases k' <;> simp only [opens] at h
        all_goals (try (split at h))
        all_goals (try (split at h))
        all_goals (try (split at h))
        all_goals (try (split at h))
        all_goals (cases h)
        all_goals (simp [Fits, CItem.itype])

theorem text_ok (st : State) (s : Str) (h : StateOk st) : StateOk (st.text s) := by
  unfold State.text
  split
  · rename_i n t u fs hfs
    obtain ⟨h1, h2⟩ := h
    rw [hfs] at h1
    exact ⟨⟨trivial, (by have := h1.2.1; cases fs <;> exact this), h1.2.2⟩, h2⟩
  · exact h

theorem step_ok (fl : Floats) (st st' : State) (e : Event) (h : StateOk st) (hs : step fl st e = .ok st') :
    StateOk st' := by
  cases e with
  | empty a b => cases hs; exact h
  | text s => cases hs; exact text_ok st s h
  | ref n => cases hs; exact text_ok st _ h
  | start n as =>
    simp only [step] at hs
    split at hs
    · cases hs; exact h
    · rename_i o ho
      cases hf : openFrame as o with
      | error e => rw [hf] at hs; cases hs
      | ok f =>
        rw [hf] at hs
        cases hs
        obtain ⟨a, b⟩ := opens_below st.frames n o as f ho hf
        exact ⟨⟨a, b, h.1⟩, h.2⟩
  | «end» n =>
    simp only [step] at hs
    split at hs
    · cases hs
    · rename_i m op hop
      split at hs
      · cases hs
      · split at hs
        · cases hs
          rename_i hfr
          refine ⟨?_, h.2⟩
          have := h.1
          rwa [hfr] at this ⊢
        · rename_i f fs hfr
          split at hs
          · cases hc : closeFrame fl f fs st.config with
            | error e => rw [hc] at hs; cases hs
            | ok r =>
              rw [hc] at hs
              cases hs
              have h1 := h.1
              rw [hfr] at h1
              exact close_ok fl f fs r.1 st.config r.2 h1 h.2 hc
          · cases hs
            refine ⟨?_, h.2⟩
            have := h.1
            rwa [hfr] at this ⊢

theorem run_ok (fl : Floats) (es : List Event) : ∀ st st' : State, StateOk st → run fl st es = .ok st' → StateOk st' := by
  induction es with
  | nil => intro st st' h hr; cases hr; exact h
  | cons e es ih =>
    intro st st' h hr
    rw [run] at hr
    cases hs : step fl st e with
    | error x => rw [hs] at hr; cases hr
    | ok st1 =>
      rw [hs] at hr
      exact ih st1 st' (step_ok fl st st1 e h hs) hr

/-- **C46**: whatever is in a file, the configuration that is read has the right shape — so it can be written
without a panic. -/
theorem C46_read_shape (fl : Floats) (s : Str) (m : List (Str × CItem)) (h : readFile fl s = .ok m) :
    GoodConfig ReadOk m ∧ ∀ atts, (writeSettingsDoc fl atts m).isSome = true := by
  unfold readFile at h
  split at h
  · cases h
  · unfold readSettings at h
    split at h
    · cases h
    · rename_i st hst
      split at h
      · cases h
        have := (run_ok fl _ {} _ ⟨trivial, good_nil⟩ hst).2
        exact ⟨this, fun atts => C46_no_panic fl atts _
          ⟨this.1, this.2.1, fun p hp => good_mono (fun _ _ => trivial) (this.2.2 p hp)⟩⟩
      · cases h

/-! ## Examples -/

/-- A configuration as office programs write it. -/
def demoConfig : List (Str × CItem) :=
  [("ooo:view-settings".toList, .node .set
    [("Views".toList, .node .vec
      [(decNat 0, .node .entry
        [("ViewId".toList, .value (.string "view1 <&>".toList)),
         ("Tables".toList, .node .map
           [("Sheet 'A'".toList, .node .entry [("CursorX".toList, .value (.int 5)), ("Short".toList, .value (.short (-2)))])])]),
       (decNat 1, .node .entry [])]),
     ("Top".toList, .value (.boolean true)),
     ("At".toList, .value (.dateTime ⟨2024, 2, 29, 1, 2, 3, 0⟩))])]

/-- The example satisfies the conditions of the theorems. -/
theorem demoConfig_good (fl : Floats) : GoodConfig (ValueOk fl) demoConfig ∧ AllNoEmpty demoConfig := by
  refine ⟨⟨by unfold Distinct; decide +kernel, ?_, ?_⟩, by simp [demoConfig, AllNoEmpty, NoEmpty, CValue.isEmpty]⟩
  · intro p hp
    simp [demoConfig] at hp
    rw [hp]; rfl
  · intro p hp
    simp [demoConfig] at hp
    rw [hp]
    refine .node _ _ (by unfold Distinct; decide +kernel) ?_ ?_
    · intro p hp
      simp at hp
      rcases hp with rfl | rfl | rfl <;> simp [CItem.itype]
    · intro p hp
      simp at hp
      rcases hp with rfl | rfl | rfl
      · refine .node _ _ (by unfold Distinct; decide +kernel) ⟨?_, by decide +kernel⟩ ?_
        · intro p hp
          simp at hp
          rcases hp with rfl | rfl <;> rfl
        · intro p hp
          simp at hp
          rcases hp with rfl | rfl
          · refine .node _ _ (by unfold Distinct; decide +kernel) ?_ ?_
            · intro p hp
              simp at hp
              rcases hp with rfl | rfl <;> simp [CItem.itype]
            · intro p hp
              simp at hp
              rcases hp with rfl | rfl
              · exact .value _ trivial
              · refine .node _ _ (by unfold Distinct; decide +kernel) ?_ ?_
                · intro p hp
                  simp at hp
                  rcases hp with rfl | rfl; rfl
                · intro p hp
                  simp at hp
                  rcases hp with rfl | rfl
                  refine .node _ _ (by unfold Distinct; decide +kernel) ?_ ?_
                  · intro p hp
                    simp at hp
                    rcases hp with rfl | rfl <;> simp [CItem.itype]
                  · intro p hp
                    simp at hp
                    rcases hp with rfl | rfl
                    · exact .value _ (by simp [ValueOk])
                    · exact .value _ (by simp [ValueOk])
          · refine .node _ _ (by unfold Distinct; decide +kernel) ?_ ?_
            · intro p hp; simp at hp
            · intro p hp; simp at hp
      · exact .value _ trivial
      · refine .value _ ⟨?_, by decide⟩
        unfold ValidDateTime
        decide

/-- C46 fails for empty texts: the entry is gone. -/
theorem C46_empty_counterexample (fl : Floats) :
    ∃ calls, writeSettingsDoc fl [] [("s".toList, .node .set [("k".toList, .value (.string []))])] = some calls
      ∧ readFile fl (output false calls) = .ok [("s".toList, .node .set [])] := by
  refine C46_roundtrip_partial fl false [] (by intro a h; cases h) _ ⟨by unfold Distinct; decide, ?_, ?_⟩
  · intro p hp; simp at hp; rw [hp]; rfl
  · intro p hp
    simp at hp; rw [hp]
    refine .node _ _ (by unfold Distinct; decide) ?_ ?_
    · intro p hp; simp at hp; rw [hp]; simp [CItem.itype]
    · intro p hp; simp at hp; rw [hp]; exact .value _ trivial

/-- C46 fails for values directly in a map: they are written, but not read. -/
theorem C46_value_in_map_counterexample :
    (writeSettingsDoc ⟨fun _ => [], fun _ => none⟩ []
      [("s".toList, .node .set [("m".toList, .node .map [("k".toList, .value (.int 1))])])]).map
        (fun calls => (readFile ⟨fun _ => [], fun _ => none⟩ (output false calls)).toOption.bind
          (fun m => getValueRec ["s".toList, "m".toList, "k".toList] (.node .set m)))
      = some none := by decide +kernel

/-- C46: other shapes cannot be written at all, e.g. a value at the top. -/
theorem C46_panic_counterexample (fl : Floats) :
    writeSettingsDoc fl [] [("k".toList, .value (.int 1))] = none := rfl

/-- C46: a base64 text with markup is written as it is, and the file is refused. -/
theorem C46_raw_counterexample :
    (writeSettingsDoc ⟨fun _ => [], fun _ => none⟩ [] [("s".toList, .node .set [("k".toList, .value (.base64 "<".toList))])]).map
        (fun calls => (readFile ⟨fun _ => [], fun _ => none⟩ (output false calls)).toOption.isSome)
      = some false := by decide +kernel

end Verif.Config
