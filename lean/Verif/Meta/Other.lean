import Verif.Meta.Props

/-!
# C90: the elements of the metadata of other programs

The library writes the template, the automatic reload, the behaviour of hyperlinks and the statistics as empty tags, and does
not read such tags (C63). XML allows to write an element without content as a start tag and an end tag as well. Here is what
is read of files with those.
-/

set_option autoImplicit false

namespace Verif.Meta

open Xml Xml.Spec Codec Enum Style

namespace Spec

/-- A file with one element in `office:meta`: a start tag with the attributes, and an end tag. -/
def otherFile (as : List (Bool × Str × Str)) (tag : Str) (attrs : List (Bool × Str × Str)) : List Call :=
  .dtd "UTF-8".toList :: docCalls (.elem false "office:document-meta".toList as
    [.elem false "office:meta".toList [] [.elem false tag attrs []]])

/-- An attribute that may be there. -/
def opt (k : String) (v : Option Str) : List (Bool × Str × Str) :=
  match v with
  | none => []
  | some s => [(true, k.toList, s)]

/-- The words of the standard for `xlink:actuate`, ODF 1.3 part 3, 19.909. -/
def actuateWord : Actuate → Str
  | .onLoad => "onLoad".toList
  | .onRequest => "onRequest".toList

/-- The words of the standard for `xlink:show`, ODF 1.3 part 3, 19.911. -/
def showWord : LinkShow → Str
  | .new => "new".toList
  | .replace => "replace".toList

/-- The words for `xlink:type`, XLink 1.1, 3.2; the standard uses `simple` only. -/
def typeWord : LinkType → Str
  | .simple => "simple".toList
  | .extended => "extended".toList
  | .locator => "locator".toList
  | .arc => "arc".toList
  | .resource => "resource".toList
  | .title => "title".toList
  | .none => "none".toList

/-- The attributes of `meta:document-statistic`, ODF 1.3 part 3, 4.3.2.18. -/
def statisticAttrs (t : Statistics) : List (Bool × Str × Str) :=
  [(false, "meta:table-count".toList, decNat t.tables), (false, "meta:cell-count".toList, decNat t.cells),
   (false, "meta:object-count".toList, decNat t.objects), (false, "meta:ole-object-count".toList, decNat t.oleObjects)]

/-- The attributes of `meta:template`, ODF 1.3 part 3, 4.3.2.15. -/
def templateAttrs (t : Template) : List (Bool × Str × Str) :=
  opt "meta:date" (t.date.map fmtDateTime) ++ opt "xlink:actuate" (t.actuate.map actuateWord)
    ++ opt "xlink:href" t.href ++ opt "xlink:title" t.title
    ++ opt "xlink:type" (t.linkType.map typeWord)

/-- The attributes of `meta:auto-reload`, ODF 1.3 part 3, 4.3.2.16. -/
def reloadAttrs (t : AutoReload) : List (Bool × Str × Str) :=
  opt "meta:delay" (t.delay.map fmtDuration) ++ opt "xlink:actuate" (t.actuate.map actuateWord)
    ++ opt "xlink:href" t.href ++ opt "xlink:show" (t.show.map showWord)
    ++ opt "xlink:type" (t.linkType.map typeWord)

/-- The attributes of `meta:hyperlink-behaviour`, ODF 1.3 part 3, 4.3.2.17. -/
def hyperlinkAttrs (t : Hyperlink) : List (Bool × Str × Str) :=
  opt "office:target-frame-name" t.target ++ opt "xlink:show" (t.show.map showWord)

end Spec

open Spec

theorem opt_ok (k : String) (v : Option Str) (hk : Name k.toList) : AttrsOk (opt k v) := by
  intro a ha
  cases v with
  | none => cases ha
  | some s =>
    rcases List.mem_singleton.1 ha with rfl
    exact ⟨hk, by intro h; cases h⟩

theorem attrsOk_append {a b : List (Bool × Str × Str)} (ha : AttrsOk a) (hb : AttrsOk b) : AttrsOk (a ++ b) := by
  intro x hx
  rcases List.mem_append.1 hx with h | h
  · exact ha x h
  · exact hb x h

/-- What is read of such a file is what the element does. -/
theorem read_other (f : Floats) (lb : Bool) (as : List (Bool × Str × Str)) (has : AttrsOk as) (tag : Str)
    (attrs : List (Bool × Str × Str)) (ht : Name tag) (hat : AttrsOk attrs) (hend : tag ≠ "office:meta".toList)
    (m : Metadata) (h : step f ⟨.office, {}⟩ (.start tag (rawAttrs attrs)) = .ok ⟨.office, m⟩) :
    readMeta f (output lb (otherFile as tag attrs)) = .ok m := by
  have hok : DocOk (.elem false "office:document-meta".toList as
      [.elem false "office:meta".toList [] [.elem false tag attrs []]]) := by
    rw [DocOk, DocsOk, DocsOk, DocOk, DocsOk, DocsOk, DocOk, DocsOk]
    exact ⟨by decide +kernel, has, ⟨by decide +kernel, (by intro a ha; cases ha), ⟨ht, hat, trivial⟩, trivial⟩, trivial⟩
  obtain ⟨ts, h1, h2⟩ := read_document lb "UTF-8".toList (by decide) false _ as _ hok
  have h3 : step f ⟨.file, {}⟩ (.start "office:document-meta".toList (rawAttrs as)) = .ok ⟨.file, {}⟩ := by
    show (if "office:document-meta".toList = "office:meta".toList then (.ok ⟨.office, {}⟩ : Except Fault St)
      else .ok ⟨.file, {}⟩) = _
    rw [if_neg (by decide +kernel)]
  have h5 : step f ⟨.office, m⟩ (.end tag) = .ok ⟨.office, m⟩ := by
    show (if tag = "office:meta".toList then (.ok ⟨.file, m⟩ : Except Fault St) else .ok ⟨.office, m⟩) = _
    rw [if_neg hend]
  have hd : Does f lb {} [.elem false tag attrs []] m := by
    unfold Does
    rw [docsEv, docsEv, List.append_nil, docEv, docsEv, List.nil_append, run, h]
    show run f ⟨.office, m⟩ (.end tag :: nlEv lb) = _
    rw [run, h5]
    exact run_nl f lb m
  have h6 : run f ⟨.file, {}⟩ (docEv lb (.elem false "office:meta".toList [] [.elem false tag attrs []])) = .ok ⟨.file, m⟩ := by
    rw [docEv, run]
    show run f ⟨.office, {}⟩ (docsEv lb [.elem false tag attrs []] ++ .end "office:meta".toList :: nlEv lb) = _
    rw [run_append, hd]
    show run f ⟨.file, m⟩ (nlEv lb) = _
    cases lb <;> rfl
  generalize hdd : [Doc.elem false "office:meta".toList [] [.elem false tag attrs []]] = ds at hok h1 h2
  unfold readMeta otherFile
  rw [hdd, h1]
  simp only [h2]
  subst hdd
  rw [file_text, docEv, run]
  rw [h3]
  have h4 : run f ⟨.file, {}⟩ (docsEv lb [Doc.elem false "office:meta".toList [] [.elem false tag attrs []]]
      ++ .end "office:document-meta".toList :: nlEv lb) = .ok ⟨.file, m⟩ := by
    rw [run_append, docsEv, docsEv, List.append_nil, h6]
    cases lb <;> rfl
  simp only [h4]
  rfl

/-! ## Single attributes -/

theorem attrOf_raw {α : Type} (parse : Str → Option α) (b : Bool) (k s : Str) (a : α) (hp : b = false → Plain s)
    (h : parse s = some a) : attrOf parse (rawVal (b, k, s)) = .ok a := by
  unfold attrOf
  rw [unescape_rawVal (b, k, s) hp]
  simp only [h]

theorem attrDuration_raw (k : Str) (d : Int) (h : DurationKept d) :
    attrDuration (rawVal (true, k, fmtDuration d)) = .ok d := by
  unfold attrDuration
  rw [unescape_rawVal _ (by intro h; cases h)]
  show durationOf (fmtDuration d) = _
  rw [duration_fmt d (durationKept_ok d h), frac_kept d h]

theorem parse_actuate (a : Actuate) : Actuate.parse (actuateWord a) = some a := by cases a <;> decide +kernel
theorem parse_show (a : LinkShow) : LinkShow.parse (showWord a) = some a := by cases a <;> decide +kernel
theorem parse_type (a : LinkType) : LinkType.parse (typeWord a) = some a := by cases a <;> decide +kernel
theorem parse_date (d : DateTime) (h : DateOk d) : parseDateTime (fmtDateTime d) = some d := C62_datetime_partial d h.1 h.2

theorem rawAttrs_append (a b : List (Bool × Str × Str)) : rawAttrs (a ++ b) = rawAttrs a ++ rawAttrs b :=
  List.map_append

theorem rawAttrs_opt (k : String) (v : Option Str) :
    rawAttrs (opt k v) = (v.map fun s => (k.toList, rawVal (true, k.toList, s))).toList := by
  cases v <;> rfl

theorem readTemplate_date (t : Template) (v : Option DateTime) (hv : ∀ d, v = some d → DateOk d) (as : List (Str × Str)) :
    readTemplate t (rawAttrs (opt "meta:date" (v.map fmtDateTime)) ++ as) = readTemplate { t with date := v.or t.date } as := by
  cases v with
  | none => rfl
  | some d =>
    show readTemplate t (("meta:date".toList, rawVal (true, "meta:date".toList, _)) :: as) = _
    rw [readTemplate]
    
    rw [if_pos rfl, attrOf_raw _ _ _ _ d (by intro h; cases h) (parse_date d (hv d rfl))]
    rfl

theorem readTemplate_actuate (t : Template) (v : Option Actuate) (as : List (Str × Str)) :
    readTemplate t (rawAttrs (opt "xlink:actuate" (v.map actuateWord)) ++ as) = readTemplate { t with actuate := v.or t.actuate } as := by
  cases v with
  | none => rfl
  | some d =>
    show readTemplate t (("xlink:actuate".toList, rawVal (true, "xlink:actuate".toList, _)) :: as) = _
    rw [readTemplate]
    rw [if_neg (by decide +kernel)];
    rw [if_pos rfl, attrOf_raw _ _ _ _ d (by intro h; cases h) (parse_actuate d)]
    rfl

theorem readTemplate_href (t : Template) (v : Option Str) (as : List (Str × Str)) :
    readTemplate t (rawAttrs (opt "xlink:href" v) ++ as) = readTemplate { t with href := v.or t.href } as := by
  cases v with
  | none => rfl
  | some d =>
    show readTemplate t (("xlink:href".toList, rawVal (true, "xlink:href".toList, _)) :: as) = _
    rw [readTemplate]
    rw [if_neg (by decide +kernel)]; rw [if_neg (by decide +kernel)];
    rw [if_pos rfl, attrOf_raw _ _ _ _ d (by intro h; cases h) rfl]
    rfl

theorem readTemplate_title (t : Template) (v : Option Str) (as : List (Str × Str)) :
    readTemplate t (rawAttrs (opt "xlink:title" v) ++ as) = readTemplate { t with title := v.or t.title } as := by
  cases v with
  | none => rfl
  | some d =>
    show readTemplate t (("xlink:title".toList, rawVal (true, "xlink:title".toList, _)) :: as) = _
    rw [readTemplate]
    rw [if_neg (by decide +kernel)]; rw [if_neg (by decide +kernel)]; rw [if_neg (by decide +kernel)];
    rw [if_pos rfl, attrOf_raw _ _ _ _ d (by intro h; cases h) rfl]
    rfl

theorem readTemplate_linkType (t : Template) (v : Option LinkType) (as : List (Str × Str)) :
    readTemplate t (rawAttrs (opt "xlink:type" (v.map typeWord)) ++ as) = readTemplate { t with linkType := v.or t.linkType } as := by
  cases v with
  | none => rfl
  | some d =>
    show readTemplate t (("xlink:type".toList, rawVal (true, "xlink:type".toList, _)) :: as) = _
    rw [readTemplate]
    rw [if_neg (by decide +kernel)]; rw [if_neg (by decide +kernel)]; rw [if_neg (by decide +kernel)]; rw [if_neg (by decide +kernel)];
    rw [if_pos rfl, attrOf_raw _ _ _ _ d (by intro h; cases h) (parse_type d)]
    rfl

theorem readReload_delay (t : AutoReload) (v : Option Int) (hv : ∀ d, v = some d → DurationKept d) (as : List (Str × Str)) :
    readReload t (rawAttrs (opt "meta:delay" (v.map fmtDuration)) ++ as) = readReload { t with delay := v.or t.delay } as := by
  cases v with
  | none => rfl
  | some d =>
    show readReload t (("meta:delay".toList, rawVal (true, "meta:delay".toList, _)) :: as) = _
    rw [readReload]
    
    rw [if_pos rfl, attrDuration_raw _ d (hv d rfl)]
    rfl

theorem readReload_actuate (t : AutoReload) (v : Option Actuate) (as : List (Str × Str)) :
    readReload t (rawAttrs (opt "xlink:actuate" (v.map actuateWord)) ++ as) = readReload { t with actuate := v.or t.actuate } as := by
  cases v with
  | none => rfl
  | some d =>
    show readReload t (("xlink:actuate".toList, rawVal (true, "xlink:actuate".toList, _)) :: as) = _
    rw [readReload]
    rw [if_neg (by decide +kernel)];
    rw [if_pos rfl, attrOf_raw _ _ _ _ d (by intro h; cases h) (parse_actuate d)]
    rfl

theorem readReload_href (t : AutoReload) (v : Option Str) (as : List (Str × Str)) :
    readReload t (rawAttrs (opt "xlink:href" v) ++ as) = readReload { t with href := v.or t.href } as := by
  cases v with
  | none => rfl
  | some d =>
    show readReload t (("xlink:href".toList, rawVal (true, "xlink:href".toList, _)) :: as) = _
    rw [readReload]
    rw [if_neg (by decide +kernel)]; rw [if_neg (by decide +kernel)];
    rw [if_pos rfl, attrOf_raw _ _ _ _ d (by intro h; cases h) rfl]
    rfl

theorem readReload_show (t : AutoReload) (v : Option LinkShow) (as : List (Str × Str)) :
    readReload t (rawAttrs (opt "xlink:show" (v.map showWord)) ++ as) = readReload { t with «show» := v.or t.«show» } as := by
  cases v with
  | none => rfl
  | some d =>
    show readReload t (("xlink:show".toList, rawVal (true, "xlink:show".toList, _)) :: as) = _
    rw [readReload]
    rw [if_neg (by decide +kernel)]; rw [if_neg (by decide +kernel)]; rw [if_neg (by decide +kernel)];
    rw [if_pos rfl, attrOf_raw _ _ _ _ d (by intro h; cases h) (parse_show d)]
    rfl

theorem readReload_linkType (t : AutoReload) (v : Option LinkType) (as : List (Str × Str)) :
    readReload t (rawAttrs (opt "xlink:type" (v.map typeWord)) ++ as) = readReload { t with linkType := v.or t.linkType } as := by
  cases v with
  | none => rfl
  | some d =>
    show readReload t (("xlink:type".toList, rawVal (true, "xlink:type".toList, _)) :: as) = _
    rw [readReload]
    rw [if_neg (by decide +kernel)]; rw [if_neg (by decide +kernel)]; rw [if_neg (by decide +kernel)]; rw [if_neg (by decide +kernel)];
    rw [if_pos rfl, attrOf_raw _ _ _ _ d (by intro h; cases h) (parse_type d)]
    rfl

theorem readHyperlink_show (t : Hyperlink) (v : Option LinkShow) (as : List (Str × Str)) :
    readHyperlink t (rawAttrs (opt "xlink:show" (v.map showWord)) ++ as)
      = readHyperlink { t with «show» := v.or t.«show» } as := by
  cases v with
  | none => rfl
  | some d =>
    show readHyperlink t (("xlink:show".toList, rawVal (true, "xlink:show".toList, _)) :: as) = _
    rw [readHyperlink]
    rw [if_neg (by decide +kernel)]
    rw [if_pos rfl, attrOf_raw _ _ _ _ d (by intro h; cases h) (parse_show d)]
    rfl

/-- The name of the attribute of the standard is not the one that is read. -/
theorem readHyperlink_target (t : Hyperlink) (v : Option Str) (as : List (Str × Str)) :
    readHyperlink t (rawAttrs (opt "office:target-frame-name" v) ++ as) = readHyperlink t as := by
  cases v with
  | none => rfl
  | some d =>
    show readHyperlink t (("office:target-frame-name".toList, rawVal (true, "office:target-frame-name".toList, _)) :: as) = _
    rw [readHyperlink]
    rw [if_neg (by decide +kernel), if_neg (by decide +kernel)]
    rfl

theorem plain_step (parse : Str → Option Nat) (k : Str) (n : Nat) (h : parse (decNat n) = some n) :
    attrOf parse (rawVal (false, k, decNat n)) = .ok n :=
  attrOf_raw _ _ _ _ n (fun _ => plain_nat n) h

/-! ## The four elements -/

/-- **C90, statistics**: they are read as they are written, and they are the attributes that the library writes. -/
theorem C90_statistics (f : Floats) (lb : Bool) (as : List (Bool × Str × Str)) (has : AttrsOk as) (t : Statistics)
    (h1 : t.tables < 2 ^ 32) (h2 : t.cells < 2 ^ 32) (h3 : t.objects < 2 ^ 32) (h4 : t.oleObjects < 2 ^ 32) :
    readMeta f (output lb (otherFile as "meta:document-statistic".toList (statisticAttrs t))) = .ok { statistics := t }
      ∧ statisticDoc t = .void false "meta:document-statistic".toList (statisticAttrs t) none false := by
  refine ⟨?_, rfl⟩
  refine read_other f lb as has _ _ (by decide +kernel) ?_ (by decide +kernel) _ ?_
  · intro a ha
    simp only [statisticAttrs, List.mem_cons, List.not_mem_nil, or_false] at ha
    rcases ha with rfl | rfl | rfl | rfl
    · exact ⟨show Name "meta:table-count".toList by decide +kernel, fun _ => plain_nat _⟩
    · exact ⟨show Name "meta:cell-count".toList by decide +kernel, fun _ => plain_nat _⟩
    · exact ⟨show Name "meta:object-count".toList by decide +kernel, fun _ => plain_nat _⟩
    · exact ⟨show Name "meta:ole-object-count".toList by decide +kernel, fun _ => plain_nat _⟩
  have hr : readStatistics {} (rawAttrs (statisticAttrs t)) = .ok t := by
    show readStatistics {} [("meta:table-count".toList, rawVal (false, _, decNat t.tables)),
      ("meta:cell-count".toList, rawVal (false, _, decNat t.cells)),
      ("meta:object-count".toList, rawVal (false, _, decNat t.objects)),
      ("meta:ole-object-count".toList, rawVal (false, _, decNat t.oleObjects))] = _
    rw [readStatistics, if_neg (by decide +kernel), if_neg (by decide +kernel), if_neg (by decide +kernel), if_pos rfl,
      plain_step _ _ _ (C62_u32 _ h1)]
    show readStatistics { tables := t.tables } _ = _
    rw [readStatistics, if_pos rfl, plain_step _ _ _ (C62_u32 _ h2)]
    show readStatistics { tables := t.tables, cells := t.cells } _ = _
    rw [readStatistics, if_neg (by decide +kernel), if_pos rfl, plain_step _ _ _ (C62_u32 _ h3)]
    show readStatistics { tables := t.tables, cells := t.cells, objects := t.objects } _ = _
    rw [readStatistics, if_neg (by decide +kernel), if_neg (by decide +kernel), if_pos rfl, plain_step _ _ _ (C62_u32 _ h4)]
    rfl
  unfold step
  dsimp only
  rw [show fieldOf "meta:document-statistic".toList = none by decide +kernel]
  dsimp only
  rw [if_neg (by decide +kernel), if_neg (by decide +kernel), if_neg (by decide +kernel), if_pos rfl, hr]
  rfl

/-- **C90, template: it is read as it is written.** -/
theorem C90_template (f : Floats) (lb : Bool) (as : List (Bool × Str × Str)) (has : AttrsOk as) (t : Template) (hd : ∀ d, t.date = some d → DateOk d) :
    readMeta f (output lb (otherFile as "meta:template".toList (templateAttrs t))) = .ok { template := t } := by
  refine read_other f lb as has _ (templateAttrs t) (by decide +kernel) (attrsOk_append (attrsOk_append (attrsOk_append (attrsOk_append (opt_ok _ _ (by decide +kernel)) (opt_ok _ _ (by decide +kernel))) (opt_ok _ _ (by decide +kernel))) (opt_ok _ _ (by decide +kernel))) (opt_ok _ _ (by decide +kernel))) (by decide +kernel) _ ?_
  have hr : readTemplate {} (rawAttrs (templateAttrs t)) = .ok t := by
    unfold templateAttrs
    rw [← List.append_nil (rawAttrs _)]
    simp only [rawAttrs_append, List.append_assoc]
    rw [readTemplate_date _ _ hd, readTemplate_actuate, readTemplate_href, readTemplate_title, readTemplate_linkType]
    simp only [Option.or_none, readTemplate]
  unfold step
  dsimp only
  rw [show fieldOf "meta:template".toList = none by decide +kernel]
  dsimp only
  rw [if_pos rfl, hr]
  rfl

/-- **C90, automatic reload: it is read as it is written, if the delay is whole milliseconds that are read (C28).** -/
theorem C90_reload (f : Floats) (lb : Bool) (as : List (Bool × Str × Str)) (has : AttrsOk as) (t : AutoReload) (hd : ∀ d, t.delay = some d → DurationKept d) :
    readMeta f (output lb (otherFile as "meta:auto-reload".toList (reloadAttrs t))) = .ok { autoReload := t } := by
  refine read_other f lb as has _ (reloadAttrs t) (by decide +kernel) (attrsOk_append (attrsOk_append (attrsOk_append (attrsOk_append (opt_ok _ _ (by decide +kernel)) (opt_ok _ _ (by decide +kernel))) (opt_ok _ _ (by decide +kernel))) (opt_ok _ _ (by decide +kernel))) (opt_ok _ _ (by decide +kernel))) (by decide +kernel) _ ?_
  have hr : readReload {} (rawAttrs (reloadAttrs t)) = .ok t := by
    unfold reloadAttrs
    rw [← List.append_nil (rawAttrs _)]
    simp only [rawAttrs_append, List.append_assoc]
    rw [readReload_delay _ _ hd, readReload_actuate, readReload_href, readReload_show, readReload_linkType]
    simp only [Option.or_none, readReload]
  unfold step
  dsimp only
  rw [show fieldOf "meta:auto-reload".toList = none by decide +kernel]
  dsimp only
  rw [if_neg (by decide +kernel), if_pos rfl, hr]
  rfl

/-- **C90, behaviour of hyperlinks: how the target is shown is read, and the name of the frame is lost.** -/
theorem C90_hyperlink_partial (f : Floats) (lb : Bool) (as : List (Bool × Str × Str)) (has : AttrsOk as) (t : Hyperlink) :
    readMeta f (output lb (otherFile as "meta:hyperlink-behaviour".toList (hyperlinkAttrs t))) = .ok { hyperlink := { t with target := none } } := by
  refine read_other f lb as has _ (hyperlinkAttrs t) (by decide +kernel) (attrsOk_append (opt_ok _ _ (by decide +kernel)) (opt_ok _ _ (by decide +kernel))) (by decide +kernel) _ ?_
  have hr : readHyperlink {} (rawAttrs (hyperlinkAttrs t)) = .ok { t with target := none } := by
    unfold hyperlinkAttrs
    rw [← List.append_nil (rawAttrs _)]
    simp only [rawAttrs_append, List.append_assoc]
    rw [readHyperlink_target, readHyperlink_show]
    simp only [Option.or_none, readHyperlink]
  unfold step
  dsimp only
  rw [show fieldOf "meta:hyperlink-behaviour".toList = none by decide +kernel]
  dsimp only
  rw [if_neg (by decide +kernel), if_neg (by decide +kernel), if_pos rfl, hr]
  rfl

/-- C90 fails for the name of the frame: the name of the attribute that is read is not the one of the standard. -/
theorem C90_target_counterexample (f : Floats) (lb : Bool) (s : Str) :
    ∃ m, readMeta f (output lb (otherFile [] "meta:hyperlink-behaviour".toList (hyperlinkAttrs { target := some s }))) = .ok m
      ∧ m.hyperlink.target = none :=
  ⟨_, C90_hyperlink_partial f lb [] (by intro a ha; cases ha) { target := some s }, rfl⟩

/-- What the library writes for an automatic reload has a name that is not in the standard: it is not read with two tags
either, whatever its attributes are. -/
theorem C90_reload_name_counterexample (f : Floats) (lb : Bool) (t : AutoReload) (ht : t ≠ {}) :
    (∃ attrs, reloadDoc t = [.void false "meta:auto_reload".toList attrs none false])
      ∧ ∀ attrs, AttrsOk attrs → readMeta f (output lb (otherFile [] "meta:auto_reload".toList attrs)) = .ok {} := by
  refine ⟨⟨_, if_neg ht⟩, fun attrs h => ?_⟩
  refine read_other f lb [] (by intro a ha; cases ha) _ _ (by decide +kernel) h (by decide +kernel) _ ?_
  unfold step
  dsimp only
  rw [show fieldOf "meta:auto_reload".toList = none by decide +kernel]
  dsimp only
  rw [if_neg (by decide +kernel), if_neg (by decide +kernel), if_neg (by decide +kernel), if_neg (by decide +kernel),
    if_neg (by decide +kernel)]

/-- What the library writes for `xlink:actuate` of a template is refused by its reader, when it is written with two tags: the
word has another case than that of the standard. -/
theorem C90_actuate_counterexample (a : Actuate) :
    templateDoc { actuate := some a } = [.void false "meta:template".toList [(false, "xlink:actuate".toList, a.text)] none false]
      ∧ (readMeta asBits (output false (otherFile [] "meta:template".toList [(false, "xlink:actuate".toList, a.text)]))).toOption
        = none := by
  cases a <;> exact ⟨rfl, by decide +kernel⟩

/-- A template with all its attributes. -/
def otherTemplate : Template :=
  { date := some ⟨2024, 2, 29, 23, 59, 59, 5⟩, actuate := some .onLoad, href := some "a&b.ots".toList
    title := some "x<y".toList, linkType := some .simple }

/-- A reload with a delay. -/
def otherReload : AutoReload := { delay := some (90 * 10 ^ 9), «show» := some .replace }

/-- **The hypotheses of C90 are met** by a template with all its attributes and a reload with a delay. -/
theorem C90_meets :
    (∀ d, otherTemplate.date = some d → DateOk d) ∧ (∀ d, otherReload.delay = some d → DurationKept d) := by
  constructor
  · intro d hd; injection hd with hd; rw [← hd]; unfold DateOk ValidDateTime; decide
  · intro d hd; injection hd with hd; rw [← hd]; unfold DurationKept; decide

end Verif.Meta
