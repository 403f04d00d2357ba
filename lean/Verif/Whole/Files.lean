import Verif.Whole.StyleTags
import Verif.Master.Lemmas
import Verif.TableXml.BodyProps
import Verif.Script.Props

/-!
# Whole files: sections and files
-/

set_option autoImplicit false

namespace Verif.Whole

open Xml Codec Xml.Spec
open Verif.Book (Stores HMap)
open Verif.Ns (Part NsBook)

variable {e : Env} {p : Part} {lb : Bool}

/-- What these calls write takes the loop of the file from the workbook `b` to the workbook `b'`. -/
def Covers (e : Env) (p : Part) (lb : Bool) (calls : List Call) (b b' : Target) : Prop :=
  ∃ items : List Item, items.flatMap Item.calls = calls ∧ (∀ i ∈ items, i.Valid)
    ∧ ∀ r, NoChr r → NoChr (itemsToks lb items ++ r)
      ∧ Goes e p ⟨.style .doc, b⟩ (events (itemsToks lb items ++ r)) ⟨.style .doc, b'⟩ (events r)

theorem Covers.append {c1 c2 : List Call} {b b1 b2 : Target} (h1 : Covers e p lb c1 b b1) (h2 : Covers e p lb c2 b1 b2) :
    Covers e p lb (c1 ++ c2) b b2 := by
  obtain ⟨i1, e1, v1, g1⟩ := h1
  obtain ⟨i2, e2, v2, g2⟩ := h2
  refine ⟨i1 ++ i2, by rw [List.flatMap_append, e1, e2], ?_, fun r hr => ?_⟩
  · intro i hi
    rcases List.mem_append.1 hi with hi | hi
    · exact v1 i hi
    · exact v2 i hi
  · obtain ⟨n2, s2⟩ := g2 r hr
    obtain ⟨n1, s1⟩ := g1 _ n2
    rw [itemsToks_append, List.append_assoc]
    exact ⟨n1, s1.trans s2⟩

/-! ## The sections -/

/-- A section of the styles. -/
theorem covers_doc (hp : styled p = true) (d : Doc) (hok : DocOk d) (ht : DocTags Unblocked d) (ps : List Style.Op)
    (hd : Style.Does e.ints (origin p) .doc (docEv lb d) ps) (b : Target) (sb : Style.SBook)
    (hb : b.styles.applyAll ps = .ok sb) : Covers e p lb (docCalls d) b { b with styles := sb } :=
  ⟨docItems d, rfl, docItems_valid d hok, fun r hr => ⟨docItems_head lb d r,
    goes_doc hp lb d (docTags_mono (free_of p) d ht) ps hd b sb hb r hr⟩⟩

theorem covers_meta (hp : special p tMeta = some .metadata) (m : Meta.Metadata) (h : Meta.Spec.Readable e.fl m)
    (b : Target) (hb : b.metadata = {}) :
    Covers e p lb (docCalls (Meta.metaDoc e.fl m)) b { b with metadata := Meta.Spec.metaRead m } :=
  ⟨docItems (Meta.metaDoc e.fl m), rfl, docItems_valid _ (Meta.metaDoc_ok e.fl m h), fun r hr =>
    ⟨docItems_head lb _ r, goes_metaDoc hp lb m h b hb r hr⟩⟩

theorem covers_settings (hp : special p Config.tSettings = some .settings) (m : List (Str × Config.CItem))
    (h : Config.GoodConfig (Config.ValueOk e.fl) m) (b : Target) :
    Covers e p lb (docCalls (Config.settingsDoc e.fl m)) b { b with config := Config.dropAll m } :=
  ⟨docItems (Config.settingsDoc e.fl m), rfl, docItems_valid _ ⟨Config.name_settings, (by intro a ha; cases ha),
      Config.itemDocs_ok e.fl false m (fun q hq n => Config.itemDoc_ok e.fl (h.2.2 q hq) n)⟩, fun r hr =>
    ⟨docItems_head lb _ r, goes_settingsDoc hp lb m h b r hr⟩⟩

theorem covers_masters (hp : special p Master.tMasters = some .masters) (l : List (Book.Style Master.Master))
    (h : ∀ q ∈ l, Master.MasterOk lb q) (b : Target) (mb : Stores Master.Master)
    (hb : Master.storeAll (l.map fun q => ⟨q.name, Master.masterBack q.body⟩) b.masters = .ok mb) :
    Covers e p lb (Master.writeMasters l) b { b with masters := mb } := by
  refine ⟨Master.mastersItems l, Master.mastersItems_calls l, Master.mastersItems_valid lb l h, fun r hr => ⟨?_, ?_⟩⟩
  · unfold Master.mastersItems itemsToks
    rw [List.flatMap_cons]
    exact noChr_cons _ _ (by intro c; simp)
  · obtain ⟨es, h1, h2⟩ := Master.masters_reads lb l h b.masters mb hb r
    have hl : (events ((nl lb).map Tok.chr ++ r)).length ≤ es.length :=
      rest_le lb (.start false Master.tMasters [] :: l.flatMap Master.masterItems) false Master.tMasters r _ es h1
    rw [itemsToks, h1]
    refine (goes_enter (es' := events ((nl lb).map Tok.chr ++ r)) _ _ _ hp b ⟨.style .doc, { b with masters := mb }⟩ _ ?_ hl).trans ?_
    · unfold enter; simp only [h2]; rfl
    · rw [events_nl lb r hr]; exact goes_nl lb _ _

theorem covers_body (hm : e.ints.max = Refs.Spec.maxU32) (hp : special p TableXml.tBody = some .body)
    {bv : Value → Value} {defStyle : ValueType → Option String}
    (extra : List Node) (hx : TableXml.ExtrasOk lb extra)
    (vs : List Valid.Validation) (hv : ∀ v ∈ vs, Valid.Ok v) (hl : lb = false ∨ vs = [])
    (vb : Stores Valid.Body) (hvb : Valid.stored vs {} = .ok vb) {tables : List (TableXml.Head × List TEv)}
    {back : List (TableXml.Head × TSheet)} (h : TableXml.Sheetlikes e.fl e.ints e.opts bv defStyle lb tables back)
    (b : Target) (hb : b.body = {}) :
    Covers e p lb (TableXml.bodyCalls e.fl defStyle extra vs tables) b
      { b with body := { extra := TableXml.extraBack extra tables, valid := vb, sheets := back } } := by
  refine ⟨TableXml.bodyItems e.fl defStyle extra vs tables, TableXml.bodyItems_calls extra vs h,
    TableXml.bodyItems_valid extra hx vs hv h, fun r hr => ⟨?_, ?_⟩⟩
  · unfold TableXml.bodyItems itemsToks
    rw [List.flatMap_cons]
    exact noChr_cons _ _ (by intro c; simp)
  · obtain ⟨es, h1, h2⟩ := TableXml.body_reads hm extra hx vs hv hl vb hvb h r
    have hi : ∃ init, TableXml.bodyItems e.fl defStyle extra vs tables = init ++ [.end false TableXml.tBody] := by
      unfold TableXml.bodyItems
      exact ⟨.start false TableXml.tBody [] :: .start false TableXml.tSpread []
        :: (TableXml.extraItems (extra.filter fun t => decide (TableXml.nodeName t ∈ TableXml.bookPrelude))
          ++ (TableXml.validItems vs ++ (TableXml.sheetItems e.fl defStyle tables
            ++ (TableXml.extraItems (extra.filter fun t => decide (TableXml.nodeName t ∈ TableXml.bookEpilogue))
              ++ [.end false TableXml.tSpread])))), by simp⟩
    obtain ⟨init, hi⟩ := hi
    have hlen : (events ((nl lb).map Tok.chr ++ r)).length ≤ es.length :=
      rest_le lb init false TableXml.tBody r _ es (by rw [← hi]; exact h1)
    rw [itemsToks, h1]
    refine (goes_enter (es' := events ((nl lb).map Tok.chr ++ r)) _ _ _ hp b
      ⟨.style .doc, { b with body := { extra := TableXml.extraBack extra tables, valid := vb, sheets := back } }⟩ _ ?_ hlen).trans ?_
    · unfold enter readBodyInto
      unfold TableXml.readBody at h2
      rw [hb, h2]
      rfl
    · rw [events_nl lb r hr]; exact goes_nl lb _ _

/-- An empty tag that stands in the file itself. -/
theorem goes_empty (n : Str) (as : List (Str × Str)) (b : Target) (r : List Event) :
    Goes e p ⟨.style .doc, b⟩ (.empty n as :: r) ⟨.style .doc, b⟩ r := by
  refine goes_step ?_ (Nat.le_refl _)
  unfold step plain
  simp only
  split <;> rfl

theorem covers_empty (v : Bool) (n : Str) (as : List (Bool × Str × Str)) (hn : Name n) (ha : AttrsOk as) (b : Target) :
    Covers e p lb (Item.calls (.empty v n as)) b b := by
  refine ⟨[.empty v n as], by simp, ?_, fun r hr => ⟨noChr_cons _ _ (by intro c; simp), ?_⟩⟩
  · intro i hi
    rcases List.mem_cons.1 hi with rfl | hi
    · exact ⟨hn, ha⟩
    · cases hi
  · have : itemsToks lb [.empty v n as] ++ r = .empty n (rawAttrs as) :: ((nl lb).map Tok.chr ++ r) := by
      simp [itemsToks, itemToks]
    rw [this]
    refine (goes_empty _ _ _ _).trans ?_
    rw [events_nl lb r hr]
    exact goes_nl lb _ _

theorem covers_nothing (n : Str) (b : Target) : Covers e p lb [.endElemIf false n] b b := by
  refine ⟨[.noEnd n], rfl, ?_, fun r hr => ⟨hr, Goes.refl _ _⟩⟩
  intro i hi
  rcases List.mem_cons.1 hi with rfl | hi
  · trivial
  · cases hi

theorem covers_nil (b : Target) : Covers e p lb [] b b :=
  ⟨[], rfl, (by intro i hi; cases hi), fun _ hr => ⟨hr, Goes.refl _ _⟩⟩

theorem listenerAtts_ok (x : Script.Listener) : AttrsOk (Script.listenerAtts Script.Actuate.fmt x) := by
  intro a ha
  simp only [Script.listenerAtts, List.mem_cons, List.not_mem_nil, or_false] at ha
  rcases ha with rfl | rfl | rfl | rfl | rfl | rfl
  · exact ⟨(by decide : Name Script.aEvent), by intro h; cases h⟩
  · exact ⟨(by decide : Name Script.aLang), by intro h; cases h⟩
  · exact ⟨(by decide : Name Script.aMacro), by intro h; cases h⟩
  · exact ⟨(by decide : Name Script.aActuate), by intro h; cases h⟩
  · exact ⟨(by decide : Name Script.aHref), by intro h; cases h⟩
  · exact ⟨(by decide : Name Script.aType), by intro h; cases h⟩

/-- Without scripts, the section has no content, and the listeners are ignored. -/
theorem covers_scripts (ls : List Script.Listener) (b : Target) : Covers e p lb (Script.writeOffice [] ls) b b := by
  have hl : Covers e p lb (Script.writeListeners ls) b b := by
    induction ls with
    | nil => exact covers_nil b
    | cons x ls ih =>
      have := covers_empty (e := e) (p := p) (lb := lb) false Script.tListener (Script.listenerAtts Script.Actuate.fmt x)
        (by decide) (listenerAtts_ok x) b
      exact this.append ih
  have h0 := covers_empty (e := e) (p := p) (lb := lb) true Script.tScripts [] (by decide) (by intro a ha; cases ha) b
  exact h0.append (hl.append (covers_nothing Script.tScripts b))

/-! ## The root element -/

theorem readNs_ok (as : List (Str × Str)) (h : ∀ a ∈ as, ∃ u, unescape a.2 = some u ∧ (a.1 = Ns.aMime → u = Ns.mime)) :
    ∀ ver m, ∃ r, Ns.readNs ver m as = .ok r := by
  induction as with
  | nil => intro ver m; exact ⟨_, rfl⟩
  | cons a as ih =>
    intro ver m
    obtain ⟨k, v⟩ := a
    obtain ⟨u, hu, hm⟩ := h (k, v) List.mem_cons_self
    have ih := ih (fun a ha => h a (List.mem_cons_of_mem _ ha))
    simp only at hu hm
    rw [Ns.readNs, hu]
    simp only
    split
    · exact ih _ _
    · split
      · exact ih _ _
      · split
        · rename_i hk
          rw [if_neg (by rw [hm hk]; simp)]
          exact ih _ _
        · exact ih _ _

theorem raw_mem (p : Part) (ns : NsBook) (k v : Str) (h : (k, v) ∈ (Ns.rootAtts p ns).map (·.2)) (hns : Ns.BookOk ns) :
    ∃ w, (k, w) ∈ rawAttrs (Ns.rootAtts p ns) ∧ unescape w = some v := by
  obtain ⟨x, hx, he⟩ := List.mem_map.1 h
  refine ⟨rawVal x, List.mem_map.2 ⟨x, hx, by rw [he]⟩, ?_⟩
  rw [unescape_rawVal x (Ns.rootAtts_ok p ns hns x hx).2, he]

theorem raw_keys (p : Part) (ns : NsBook) :
    (rawAttrs (Ns.rootAtts p ns)).map Prod.fst = ((Ns.rootAtts p ns).map (·.2)).map Prod.fst := by
  unfold rawAttrs
  rw [List.map_map, List.map_map]
  rfl

theorem root_unescapes (p : Part) (ns : NsBook) (hns : Ns.BookOk ns) :
    ∀ a ∈ rawAttrs (Ns.rootAtts p ns), ∃ u, unescape a.2 = some u ∧ (a.1 = Ns.aMime → u = Ns.mime) := by
  intro a ha
  unfold rawAttrs at ha
  obtain ⟨x, hx, rfl⟩ := List.mem_map.1 ha
  have hok := Ns.rootAtts_ok p ns hns x hx
  refine ⟨x.2.2, unescape_rawVal x hok.2, fun hk => ?_⟩
  have hk : x.2.1 = Ns.aMime := hk
  unfold Ns.rootAtts at hx
  rcases List.mem_append.1 hx with hx | hx
  · obtain ⟨y, hy, rfl⟩ := List.mem_map.1 hx
    have h1 := ((Ns.written_ok p ns hns).names y hy).2
    have hk : y.1 = Ns.aMime := hk
    rw [hk] at h1
    exact absurd h1 (by decide)
  · rcases List.mem_cons.1 hx with rfl | hx
    · exact absurd (show Ns.aVersion = Ns.aMime from hk) (by decide)
    · split at hx
      · rcases List.mem_cons.1 hx with rfl | hx
        · rfl
        · cases hx
      · cases hx

/-- The root element of a file that was written is read: its namespaces and the version. -/
theorem root_reads (p : Part) (ns ns0 : NsBook) (hns : Ns.BookOk ns) :
    ∃ m, Ns.readRoot p ns0 (rawAttrs (Ns.rootAtts p ns))
        = .ok ⟨ns0.xmlns.insert p.readKey m, if p.versioned then ns.version else ns0.version⟩
      ∧ ∀ k v, Ns.val (Ns.written p ns) k = some v → Ns.val m k = some v := by
  obtain ⟨r, hr⟩ := readNs_ok _ (root_unescapes p ns hns) none []
  obtain ⟨ver, m⟩ := r
  have hd : ((rawAttrs (Ns.rootAtts p ns)).map Prod.fst).Nodup := by rw [raw_keys]; exact Ns.rootAtts_nodup p ns hns
  refine ⟨m, ?_, fun k v hkv => ?_⟩
  · have hver : ver = some ns.version := by
      obtain ⟨w, hw, hu⟩ := raw_mem p ns Ns.aVersion ns.version
        (List.mem_map.2 ⟨_, List.mem_append.2 (.inr List.mem_cons_self), rfl⟩) hns
      have := ((Ns.readNs_version _ hd _ _ _ hr).1 w hw).1
      rw [hu] at this
      exact this
    unfold Ns.readRoot
    rw [hr, hver]
    rfl
  · have hmem := Ns.mem_of_val p ns k v hkv
    obtain ⟨w, hw, hu⟩ := raw_mem p ns k v hmem hns
    have hx : Ns.xmlnsPrefix.isPrefixOf k = true := by
      unfold Ns.val at hkv
      cases hg : HMap.get? (Ns.written p ns) k with
      | none => rw [hg] at hkv; cases hkv
      | some y => exact ((Ns.written_ok p ns hns).names _ (HMap.get?_mem _ _ _ hg)).2
    rw [(Ns.readNs_val _ hd _ _ _ hr k w hw hx).1, hu]

/-! ## A file -/

theorem special_root (p : Part) : special p p.root = some .root := by unfold special; rw [if_pos rfl]

/-- What stands in the root element is read one section after the other. -/
theorem file_reads (defStyle : ValueType → Option String) (w : Parts) (hns : Ns.BookOk w.src.ns) (b : Target) (ns' : NsBook)
    (hr : Ns.readRoot p b.ns (rawAttrs (Ns.rootAtts p w.src.ns)) = .ok ns') (b' : Target)
    (h : Covers e p lb (inner e.fl defStyle w p) { b with ns := ns' } b') :
    readFile e p b (fileText e.fl defStyle lb w p) = .ok b' := by
  obtain ⟨items, hc, hv, hg⟩ := h
  have hcalls : (Ns.writeRoot p w.src.ns).2 ++ (inner e.fl defStyle w p ++ [.endElem p.root])
      = (.start false p.root (Ns.rootAtts p w.src.ns) :: (items ++ [.end false p.root])).flatMap Item.calls := by
    rw [Ns.writeRoot_calls, List.flatMap_cons, List.flatMap_append, hc]
    rfl
  have hvalid : ∀ i ∈ (Item.start false p.root (Ns.rootAtts p w.src.ns) :: (items ++ [.end false p.root])), i.Valid := by
    intro i hi
    simp only [List.mem_cons, List.mem_append, List.not_mem_nil, or_false] at hi
    rcases hi with rfl | hi | rfl
    · exact ⟨Ns.root_name p, Ns.rootAtts_ok p _ hns⟩
    · exact hv i hi
    · exact Ns.root_name p
  unfold readFile fileText
  rw [hcalls, tok_document lb _ (by decide) _ (fun i hi => tok_item lb i (hvalid i hi)) (by
    intro i hi
    have hi : i = .end false p.root := by
      simp only [List.getLast?_cons, List.getLast?_append, Option.getD_some, Option.some_or] at hi
      simpa using hi.symm
    subst hi
    exact id)]
  simp only
  have htoks : Tok.chr '\n' :: (nl lb).map Tok.chr
        ++ (Item.start false p.root (Ns.rootAtts p w.src.ns) :: (items ++ [.end false p.root])).flatMap (itemToks lb)
      = ('\n' :: nl lb).map Tok.chr ++ .start p.root (rawAttrs (Ns.rootAtts p w.src.ns))
          :: (itemsToks lb items ++ .end p.root :: (nl lb).map Tok.chr) := by
    simp [itemToks, itemsToks]
  rw [htoks]
  have hn : NoChr (.start p.root (rawAttrs (Ns.rootAtts p w.src.ns))
          :: (itemsToks lb items ++ .end p.root :: (nl lb).map Tok.chr)) := noChr_cons _ _ (by intro c; simp)
  have hall : Goes e p ⟨.style .doc, b⟩ (events (('\n' :: nl lb).map Tok.chr ++ .start p.root (rawAttrs (Ns.rootAtts p w.src.ns))
          :: (itemsToks lb items ++ .end p.root :: (nl lb).map Tok.chr))) ⟨.style .doc, b'⟩ [] := by
    rw [events_append _ _ hn]
    have h0 : ∃ t, events (('\n' :: nl lb).map Tok.chr) = [.text t] := by
      cases lb
      · exact ⟨_, rfl⟩
      · exact ⟨_, rfl⟩
    obtain ⟨t, ht⟩ := h0
    rw [ht]
    refine Goes.trans (goes_step (x' := ⟨.style .doc, b⟩) (ev := .text t) ?_ (Nat.le_refl _)) ?_
    · unfold step plain
      simp only
      split <;> rfl
    rw [events_start]
    refine (goes_enter _ _ _ (special_root p) b ⟨.style .doc, { b with ns := ns' }⟩ _ _ ?_ (Nat.le_refl _)).trans ?_
    · unfold enter; rw [hr]; rfl
    refine (hg _ (noChr_end _ _)).2.trans ?_
    rw [events_end]
    refine Goes.trans (goes_step (x' := ⟨.style .doc, b'⟩) ?_ (Nat.le_refl _)) ?_
    · unfold step plain
      simp only
      split <;> rfl
    have hnl := events_nl lb [] ⟨nofun, nofun⟩
    rw [List.append_nil] at hnl
    rw [hnl]
    exact goes_nl (e := e) (p := p) lb b' []
  obtain ⟨n, hn1, hn2⟩ := hall
  generalize events _ = es at *
  have h1 := hn2 (es.length + 1 - n)
  simp only [List.length_nil, Nat.add_zero] at hn1
  rw [show es.length + 1 - n + n = es.length + 1 by omega] at h1
  rw [h1, show es.length + 1 - n = (es.length - n) + 1 by omega, loop]
  rfl

end Verif.Whole
