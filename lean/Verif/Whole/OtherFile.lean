import Verif.Xml.RefProps
import Verif.TableXml.OtherBody
import Verif.Whole.Content

/-!
# C109 and C110: files of other programs

How the tags of a file are written does not matter, and what a whole file of another program is read as.
-/

set_option autoImplicit false

namespace Verif.Whole

open Xml Xml.Spec Verif.Codec Verif.TableXml
open Verif.Ns (Part)
open Verif.Valid (rulesIn)

/-! ## Specification -/

/-- The text of a file: a declaration or none, and the contents. -/
inductive FileText : List El → Str → Prop
  | plain (c : List El) (t : Str) : Spells c t → FileText c t
  | declared (d : Str) (c : List El) (t : Str) : '>' ∉ d → Spells c t → FileText c ('<' :: '?' :: (d ++ '>' :: t))

mutual

/-- The element is no body and there is none in it. -/
def NoBody : El → Prop
  | .elem n _ c => n ≠ tBody ∧ NoBodyIn c
  | _ => True

/-- None in several. -/
def NoBodyIn : List El → Prop
  | [] => True
  | e :: c => NoBody e ∧ NoBodyIn c

end

/-! ## Spellings -/

theorem file_events {c : List El} {t : Str} (h : FileText c t) : ∃ ts, tokenize t = some ts ∧ events ts = evsOf c := by
  cases h with
  | plain c t hs => exact spells_events hs
  | declared d c t hd hs =>
    obtain ⟨ts, h1, h2, -⟩ := tok_spells hs
    have h3 : tokFrom .text ('<' :: '?' :: (d ++ ['>'])) = some (.text, []) :=
      tokFrom_cons (st1 := .lt) (t1 := []) (by decide) _
        (tokFrom_cons (st1 := .decl) (t1 := []) (by decide) _ (tokFrom_seq (tok_decl d hd) _ (by rfl)))
    refine ⟨ts, ?_, h2⟩
    have := tokFrom_seq h3 _ h1
    unfold tokenize
    rw [show '<' :: '?' :: (d ++ '>' :: t) = '<' :: '?' :: (d ++ ['>']) ++ t by simp, this]
    rfl

/-- **C109**: how a file is written down does not matter.  Two texts with the same elements, attributes, texts and
references are read into the same workbook, or both are refused with the same error: the white space within tags, the
quotes around values, comments and the declaration are without meaning.  This is for each of the files of a package and
for flat files. -/
theorem C109_same (e : Env) (p : Part) (b : Target) (c : List El) (t t' : Str) (h : FileText c t) (h' : FileText c t') :
    readFile e p b t = readFile e p b t' := by
  obtain ⟨ts, h1, h2⟩ := file_events h
  obtain ⟨ts', h1', h2'⟩ := file_events h'
  unfold readFile
  rw [h1, h1']
  simp only
  rw [h2, h2']

/-- The same for documents as a whole, with and without `content_only`. -/
theorem C109_flat (e : Env) (only : Bool) (c : List El) (t t' : Str) (h : FileText c t) (h' : FileText c t') :
    read_fods only e t = read_fods only e t' := by
  obtain ⟨ts, h1, h2⟩ := file_events h
  obtain ⟨ts', h1', h2'⟩ := file_events h'
  cases only with
  | false =>
    rw [read_fods_all, read_fods_all]
    exact C109_same e .flat {} c t t' h h'
  | true =>
    rw [read_fods_content, read_fods_content]
    unfold readFodsContent
    rw [h1, h1']
    simp only
    rw [h2, h2']

theorem C109_package (e : Env) (only : Bool) (m s y c : List El) (mt st yt ct mt' st' yt' ct' : Str)
    (hm : FileText m mt) (hm' : FileText m mt') (hs : FileText s st) (hs' : FileText s st') (hy : FileText y yt)
    (hy' : FileText y yt') (hc : FileText c ct) (hc' : FileText c ct') :
    read_ods only e ⟨some mt, some st, some yt, some ct⟩ = read_ods only e ⟨some mt', some st', some yt', some ct'⟩ := by
  have h1 : ∀ b, readFile e .metadata b mt = readFile e .metadata b mt' := fun b => C109_same e _ b m _ _ hm hm'
  have h2 : ∀ b, readFile e .settings b st = readFile e .settings b st' := fun b => C109_same e _ b s _ _ hs hs'
  have h3 : ∀ b, readFile e .styles b yt = readFile e .styles b yt' := fun b => C109_same e _ b y _ _ hy hy'
  have h4 : ∀ b, readFile e .content b ct = readFile e .content b ct' := fun b => C109_same e _ b c _ _ hc hc'
  unfold read_ods readOds readOdsContent readContent readIf
  simp only [h1, h2, h3, h4]

/-! ## The content of a flat file -/

mutual

theorem starts_noBody (x : El) (h : NoBody x) : StartsOk (· ≠ tBody) x.events :=
  match x with
  | .text s => by intro n as hm; simp [El.events] at hm
  | .ref s => by intro n as hm; simp [El.events] at hm
  | .void n as => by intro n as hm; simp [El.events] at hm
  | .elem n as c => by
    intro k bs hm
    rw [El.events] at hm
    rcases List.mem_cons.1 hm with hm | hm
    · cases hm; exact h.1
    · rcases List.mem_append.1 hm with hm | hm
      · exact starts_noBodyIn c h.2 k bs hm
      · simp at hm

theorem starts_noBodyIn (c : List El) (h : NoBodyIn c) : StartsOk (· ≠ tBody) (evsOf c) :=
  match c with
  | [] => by intro n as hm; cases hm
  | x :: c => by
    intro n as hm
    rw [evsOf] at hm
    rcases List.mem_append.1 hm with hm | hm
    · exact starts_noBody x h.1 n as hm
    · exact starts_noBodyIn c h.2 n as hm

end

/-- The elements of a file: what is in front of its root element, the root element with what is in front of the
body, the body, and what is behind it, and what is behind the root element. -/
def fileEls (front : List El) (root : Str) (as : List (Str × Str)) (pre : List El) (bs : List (Str × Str)) (body post back : List El) :
    List El := front ++ .elem root as (pre ++ .elem tBody bs body :: post) :: back

theorem content_loop (e : Env) (front : List El) (root : Str) (as : List (Str × Str)) (pre : List El) (bs : List (Str × Str))
    (body post back : List El) (hroot : root ≠ tBody) (h1 : NoBodyIn front) (h2 : NoBodyIn pre) (h3 : NoBodyIn post)
    (h4 : NoBodyIn back) (b : BookBody)
    (hr : readBody e.fl e.ints e.opts (evsOf body ++ .end tBody :: (evsOf post ++ .end root :: evsOf back))
      = .ok (b, evsOf post ++ .end root :: evsOf back)) :
    bodyLoop e ((evsOf (fileEls front root as pre bs body post back)).length + 1) {}
      (evsOf (fileEls front root as pre bs body post back)) = .ok b := by
  have hev : evsOf (fileEls front root as pre bs body post back)
      = (evsOf front ++ .start root as :: evsOf pre) ++ .start tBody bs :: (evsOf body ++ .end tBody ::
        (evsOf post ++ .end root :: evsOf back)) := by
    unfold fileEls
    rw [Valid.evsOf_append, evsOf, El.events, Valid.evsOf_append, evsOf, El.events]
    simp
  have s1 : StartsOk (· ≠ tBody) (evsOf front ++ .start root as :: evsOf pre) := by
    refine startsOk_append (starts_noBodyIn front h1) ?_
    intro n as hm
    rcases List.mem_cons.1 hm with hm | hm
    · cases hm; exact hroot
    · exact starts_noBodyIn pre h2 n as hm
  have s2 : StartsOk (· ≠ tBody) (evsOf post ++ .end root :: evsOf back) := by
    refine startsOk_append (starts_noBodyIn post h3) ?_
    intro n as hm
    rcases List.mem_cons.1 hm with hm | hm
    · cases hm
    · exact starts_noBodyIn back h4 n as hm
  have g1 := bgoes_skip (e := e) {} (.start tBody bs :: (evsOf body ++ .end tBody ::
        (evsOf post ++ .end root :: evsOf back))) _ s1
  have g2 : BGoes e {} (.start tBody bs :: (evsOf body ++ .end tBody :: (evsOf post ++ .end root :: evsOf back))) b
      (evsOf post ++ .end root :: evsOf back) := by
    refine ⟨1, by simp; omega, fun k => ?_⟩
    rw [bodyLoop, if_pos rfl]
    unfold readBodyInto
    unfold readBody at hr
    rw [hr]
  have g3 := bgoes_skip (e := e) b [] _ s2
  rw [List.append_nil] at g3
  obtain ⟨n, hn, hg⟩ := g1.trans (g2.trans g3)
  rw [hev]
  have hk' : ∃ j, ((evsOf front ++ .start root as :: evsOf pre) ++ .start tBody bs :: (evsOf body ++ .end tBody ::
        (evsOf post ++ .end root :: evsOf back))).length + 1 = (j + 1) + n :=
    ⟨((evsOf front ++ .start root as :: evsOf pre) ++ .start tBody bs :: (evsOf body ++ .end tBody ::
        (evsOf post ++ .end root :: evsOf back))).length - n, by rw [List.length_nil] at hn; omega⟩
  obtain ⟨j, hj⟩ := hk'
  rw [hj, hg, bodyLoop]

/-- **C110** (exact): the content of a flat file of any program.  Whatever the file has in front of its body and behind
it, and however it is written down, `read_fods` with `content_only` reads its sheets and validations and the elements
it keeps, in the order of the file. -/
theorem C110_body (e : Env) (front : List El) (root : Str) (as : List (Str × Str)) (pre : List El) (bs : List (Str × Str))
    (body post back : List El) (hroot : root ≠ tBody) (h1 : NoBodyIn front) (h2 : NoBodyIn pre) (h3 : NoBodyIn post)
    (h4 : NoBodyIn back) (text : Str) (ht : FileText (fileEls front root as pre bs body post back) text)
    (h : BodyOkIn e.fl e.ints body)
    (hne : ∀ x ∈ rulesIn e.ints (listsIn body), x.1 ≠ []) (hnd : ((rulesIn e.ints (listsIn body)).map Prod.fst).Nodup)
    (hlen : 2 * (rulesIn e.ints (listsIn body)).length < 4294967296) :
    ∃ t, read_fods true e text = .ok t
      ∧ t.body.extra = bodyKeptIn body
      ∧ t.body.sheets.map some = (tablesIn body).map (tableRead e.fl e.ints e.opts)
      ∧ ∀ n rule, (n, rule) ∈ rulesIn e.ints (listsIn body) →
        ∃ s, t.body.valid.get? .validation n = some s ∧ s.name = n ∧ s.body.rule = rule := by
  obtain ⟨b, k1, k2, k3, k4⟩ := C107_body e.fl e.ints e.opts body h hne hnd hlen (evsOf post ++ .end root :: evsOf back)
  have hl := content_loop e front root as pre bs body post back hroot h1 h2 h3 h4 b k1
  obtain ⟨ts, g1, g2⟩ := file_events ht
  refine ⟨{ body := b }, ?_, k2, k3, k4⟩
  rw [read_fods_content]
  unfold readFodsContent
  rw [g1]
  simp only
  rw [g2, hl]
  rfl

/-- **C110 (partial)**: the cells of the sheets are those of the tables of the file.  Missing: as in
`C107_cells_partial`. -/
theorem C110_cells_partial (e : Env) (ho : e.opts.useRepeat = false) (front : List El) (root : Str) (as : List (Str × Str))
    (pre : List El) (bs : List (Str × Str))
    (body post back : List El) (hroot : root ≠ tBody) (h1 : NoBodyIn front) (h2 : NoBodyIn pre) (h3 : NoBodyIn post)
    (h4 : NoBodyIn back) (text : Str) (ht : FileText (fileEls front root as pre bs body post back) text)
    (h : BodyOkIn e.fl e.ints body)
    (hne : ∀ x ∈ rulesIn e.ints (listsIn body), x.1 ≠ []) (hnd : ((rulesIn e.ints (listsIn body)).map Prod.fst).Nodup)
    (hlen : 2 * (rulesIn e.ints (listsIn body)).length < 4294967296) :
    ∃ t, read_fods true e text = .ok t
      ∧ t.body.sheets.length = (tablesIn body).length
      ∧ ∀ (i : Nat) (as : List (Str × Str)) (tc : List El) (f : FileTable), (tablesIn body)[i]? = some (as, tc) →
        TableXml.tagsIn e.fl tc = f.events → f.OK → (∀ r ∈ f.rows, r.tag.repeated.getD 1 ≤ 1000) →
        ∃ s, t.body.sheets[i]? = some ({ headSaid e.ints as with extra := keptIn tc }, s)
          ∧ (∀ r k v, s.data.get? (r, k) = some v → ∃ x, f.cellAt r k = some x ∧ v = { x with «repeat» := 1 })
          ∧ (∀ r k x, f.cellAt r k = some x → x.isEmpty = false →
            s.data.get? (r, k) = some { x with «repeat» := 1 }) := by
  obtain ⟨b, k1, k2, k3⟩ := C107_cells_partial e.fl e.ints e.opts ho body h hne hnd hlen
    (evsOf post ++ .end root :: evsOf back)
  have hl := content_loop e front root as pre bs body post back hroot h1 h2 h3 h4 b k1
  obtain ⟨ts, g1, g2⟩ := file_events ht
  refine ⟨{ body := b }, ?_, k2, k3⟩
  rw [read_fods_content]
  unfold readFodsContent
  rw [g1]
  simp only
  rw [g2, hl]
  rfl

/-! ## A file as other programs write it -/

def nDocument : Str := "office:document".toList

def officePre : List El :=
  [.text "\n ".toList,
    .elem tMeta [] [.elem "meta:generator".toList [] [.text "Office".toList]],
    .elem "office:scripts".toList [] [.void "office:script".toList [("script:language".toList, "ooo:Basic".toList)]],
    .elem "office:automatic-styles".toList []
      [.elem "style:style".toList [("style:name".toList, "ta1".toList), ("style:family".toList, "table".toList)]
        [.void "style:table-properties".toList [("table:display".toList, "true".toList)]]]]

def officeFile : List El :=
  fileEls [.text "\n".toList] nDocument [("office:version".toList, "1.3".toList)] officePre [] officeBody [.text "\n".toList]
    [.text "\n".toList]

/-- With a declaration in front. -/
def officeText : Str := '<' :: '?' :: ("xml version=\"1.0\" encoding=\"UTF-8\"?".toList ++ '>' :: spellIn officeFile)

/-- The same with a comment instead. -/
def otherText : Str := "<!-- from elsewhere -->".toList ++ spellIn officeFile

theorem officeFile_text : FileText officeFile officeText :=
  .declared _ _ _ (by decide +kernel) (spell_ok _ (by decide +kernel))

theorem otherFile_text : FileText officeFile otherText := by
  refine .plain _ _ ?_
  have h := Spells.comment " from elsewhere ".toList officeFile (spellIn officeFile) ?_ (spell_ok _ (by decide +kernel))
  · rw [show otherText = '<' :: '!' :: '-' :: '-' :: (" from elsewhere ".toList ++ '-' :: '-' :: '>' :: spellIn officeFile)
      by unfold otherText; rw [show "<!-- from elsewhere -->".toList = '<' :: '!' :: '-' :: '-' ::
        (" from elsewhere ".toList ++ ['-', '-', '>']) by decide +kernel]; simp]
    exact h
  · intro a b he
    have hm : ∀ x ∈ " from elsewhere ".toList, x ≠ '-' := by decide +kernel
    have : ∀ (l a b : Str), (∀ x ∈ l, x ≠ '-') → l ++ ['-'] ≠ a ++ '-' :: '-' :: b := by
      intro l
      induction l with
      | nil =>
        intro a b _ h
        cases a with
        | nil => simp at h
        | cons x a => simp at h
      | cons y l ih =>
        intro a b hl h
        cases a with
        | nil => exact hl y List.mem_cons_self (List.cons.inj h).1
        | cons x a => exact ih a b (fun z hz => hl z (List.mem_cons_of_mem _ hz)) (List.cons.inj h).2
    exact this _ a b hm he

theorem officePre_none : NoBodyIn officePre := by
  have h : nDocument ≠ tBody ∧ tMeta ≠ tBody ∧ "meta:generator".toList ≠ tBody ∧ "office:scripts".toList ≠ tBody
    ∧ "office:automatic-styles".toList ≠ tBody ∧ "style:style".toList ≠ tBody := by decide +kernel
  exact ⟨trivial, ⟨h.2.1, ⟨h.2.2.1, trivial, trivial⟩, trivial⟩, ⟨h.2.2.2.1, trivial, trivial⟩,
    ⟨h.2.2.2.2.1, ⟨h.2.2.2.2.2, trivial, trivial⟩, trivial⟩, trivial⟩

/-- `C110_cells_partial` says that this file has two sheets, and where the text of the second is; and `C109_flat` that the
other text is read the same. -/
theorem C110_meets (fl : Floats) : ∃ t s, read_fods true ⟨fl, Refs.checked, {}⟩ officeText = .ok t
    ∧ read_fods true ⟨fl, Refs.checked, {}⟩ otherText = .ok t ∧ officeText ≠ otherText
    ∧ t.body.sheets.length = 2
    ∧ (t.body.sheets[1]?.map Prod.snd) = some s ∧ s.data.get? (3, 0) = some officeCellData.toData := by
  obtain ⟨t, h1, h2, h3⟩ := C110_cells_partial ⟨fl, Refs.checked, {}⟩ rfl [.text "\n".toList] nDocument
    [("office:version".toList, "1.3".toList)] officePre [] officeBody [.text "\n".toList] [.text "\n".toList] (by decide +kernel)
    ⟨trivial, trivial⟩ officePre_none ⟨trivial, trivial⟩ ⟨trivial, trivial⟩ officeText officeFile_text (officeBody_ok fl)
    (by rw [officeBody_lists, Valid.officeValids_rules]; decide +kernel)
    (by rw [officeBody_lists, Valid.officeValids_rules]; decide +kernel)
    (by rw [officeBody_lists, Valid.officeValids_rules]; decide +kernel)
  rw [officeBody_tables] at h2 h3
  obtain ⟨s, g1, -, g2⟩ := h3 1 _ _ officeRows rfl (officeTable_rows fl) officeRows_ok (by decide)
  refine ⟨t, s, h1, ?_, ?_, h2, ?_, g2 3 0 _ rfl (by decide +kernel)⟩
  · rw [← C109_flat _ true officeFile officeText otherText officeFile_text otherFile_text]
    exact h1
  · intro h
    have : officeText[1]? = otherText[1]? := by rw [h]
    revert this
    unfold officeText otherText
    decide +kernel
  · rw [g1]
    rfl

end Verif.Whole
