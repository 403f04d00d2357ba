import Verif.Codec.OtherNotes

/-!
# C104: the content of the cells of other programs

Paragraphs, annotations and frames in a cell, in any order, with anything else between them.
-/

set_option autoImplicit false

namespace Verif.Codec

open Xml Xml.Spec

/-! ## Specification -/

/-- A paragraph of a cell: without anything in it, with text only, or with elements. -/
inductive Para where
  | nothing
  | plain (s : Str)
  | rich (as : List (Str × Str)) (c : List Node)

/-- The trees of the content of a paragraph: the text in front of the first element is one piece. -/
def joinLead (c : List El) : List Node :=
  (match c.takeWhile El.isText with
    | [] => []
    | l => [.text (saidIn l)]) ++ treesOf (c.dropWhile El.isText)

/-- The paragraphs of a cell.  `<text:p/>` is a paragraph with an empty text, `<text:p></text:p>` is one without
anything in it. -/
def parasIn (c : List El) : List Para :=
  c.filterMap fun
    | .void n _ => if n = tPara then some (.plain []) else none
    | .elem n as c =>
      if n = tPara then
        some (if c.isEmpty then .nothing else if c.all El.isText then .plain (saidIn c)
          else .rich (plainAttrs as) (joinLead c))
      else none
    | _ => none

/-- The paragraph as a tree. -/
def Para.node : Para → Option Node
  | .nothing => none
  | .plain s => some (.tag tPara [] [.text s])
  | .rich as c => some (.tag tPara as c)

/-- Is anything in the paragraph? -/
def Para.isNothing : Para → Bool
  | .nothing => true
  | _ => false

/-- The text that the paragraphs give: paragraphs without anything in front do not count.  One paragraph of text
is a text, everything else is a list of trees. -/
def cellText (ps : List Para) : Option Value :=
  match ps.dropWhile Para.isNothing with
  | [] => none
  | [.plain s] => some (.text s)
  | l => some (.textXml (l.filterMap Para.node))

/-- The annotations of a cell. -/
def notesIn (c : List El) : List Annotation :=
  c.filterMap fun
    | .elem n as c => if n = tAnnotation then some (noteOf as c) else none
    | _ => none

/-- The frames of a cell. -/
def framesIn (c : List El) : List DrawFrame :=
  c.filterMap fun
    | .elem n as c => if n = tFrame then some (frameOf as c) else none
    | _ => none

/-- The names that matter in a cell. -/
def cellNames (tag : Str) : List Str := [tag, tPara, tAnnotation, tFrame]

/-- What may be in a cell: texts, paragraphs, annotations, frames, and anything else that has none of these
inside. -/
def CellPart (tag : Str) : El → Prop
  | .elem n as c =>
    n ≠ tag
      ∧ (n = tPara → KeepOk n as c)
      ∧ (n = tAnnotation → NoteAttrs as ∧ ∀ e ∈ c, NotePart e)
      ∧ (n = tFrame → Escaped as ∧ ∀ e ∈ c, FramePart e)
      ∧ (n ∉ cellNames tag → FreeIn (cellNames tag) c)
  | _ => True

/-! ## Paragraphs -/

/-- What is kept while reading. -/
def Para.content : Para → TextContent
  | .nothing => .empty
  | .plain s => .text s
  | .rich as c => .xml ⟨tPara, as, c⟩

/-- Not a list of trees. -/
def TextContent.single : TextContent → Prop
  | .xmlVec _ => False
  | _ => True

theorem add1_single (name : Str) (as : List (Str × Str)) (c : TextContent) (x : Node) (h : c.single) :
    (c.add1 name as x).single := by
  cases c <;> cases x <;> first | trivial | cases h

mutual

theorem El.textLoop (name : Str) (raw as : List (Str × Str)) (hraw : unescapeAttrs raw = some as) (e : El)
    (hc : e.Clean) (hn : e.NoStart name) (t : TextContent) (ht : t.single) (st : List Frame) (r : List Event) :
    readTextLoop name raw t st (e.events ++ r) = readTextLoop name raw (t.add1 name as e.tree) st r :=
  match e with
  | .text s => by
    rw [El.events, List.cons_append, readTextLoop]
    cases t <;> first | rfl | exact ht.elim
  | .ref s => by
    rw [El.events, List.cons_append, readTextLoop]
    cases t <;> first | rfl | exact ht.elim
  | .void n bs => by
    simp only [El.Clean] at hc
    rw [El.events, List.cons_append, readTextLoop, escaped_some hc]
    cases t with
    | empty => simp only [parentOf, createTop, hraw]; rfl
    | text s => simp only [parentOf, createTop, hraw]; rfl
    | xml f => rfl
    | xmlVec l => exact ht.elim
  | .elem n bs c => by
    simp only [El.Clean] at hc
    simp only [El.NoStart] at hn
    have hin : ∀ p, readTextLoop name raw (.xml ⟨n, plainAttrs bs, []⟩) (p :: st) (evsOf c ++ .end n :: r)
        = readTextLoop name raw (.xml (p.add (El.elem n bs c).tree)) st r := by
      intro p
      rw [El.textLoopIn name raw as hraw c hc.2 hn.2 (.xml ⟨n, plainAttrs bs, []⟩) trivial, adds_xml, readTextLoop_end,
        if_neg (by simp [openName, Frame.adds]), if_neg hn.1]
      simp only
      simp [Frame.adds, Frame.node, El.tree]
    rw [El.events, List.cons_append, readTextLoop, escaped_some hc.1, List.append_assoc,
      show [Event.end n] ++ r = .end n :: r from rfl]
    cases t with
    | empty => simp only [parentOf, createTop, hraw]; rw [hin]; rfl
    | text s => simp only [parentOf, createTop, hraw]; rw [hin]; rfl
    | xml f => simp only [parentOf]; rw [hin]; rfl
    | xmlVec l => exact ht.elim

theorem El.textLoopIn (name : Str) (raw as : List (Str × Str)) (hraw : unescapeAttrs raw = some as) (c : List El)
    (hc : CleanIn c) (hn : NoStartIn name c) (t : TextContent) (ht : t.single) (st : List Frame) (r : List Event) :
    readTextLoop name raw t st (evsOf c ++ r) = readTextLoop name raw (t.adds name as (treesOf c)) st r :=
  match c with
  | [] => rfl
  | e :: c => by
    simp only [CleanIn] at hc
    simp only [NoStartIn] at hn
    rw [evsOf, List.append_assoc, El.textLoop name raw as hraw e hc.1 hn.1 t ht st,
      El.textLoopIn name raw as hraw c hc.2 hn.2 _ (add1_single name as t e.tree ht)]
    rfl

end

theorem el_adds_texts (name : Str) (as : List (Str × Str)) (c : List El) (h : c.all El.isText = true) : ∀ s,
    TextContent.adds name as (.text s) (treesOf c) = .text (s ++ saidIn c) := by
  induction c with
  | nil => intro s; simp [treesOf, TextContent.adds, saidIn]
  | cons e c ih =>
    intro s
    rw [List.all_cons, Bool.and_eq_true] at h
    have hs : saidIn (e :: c) = e.said ++ saidIn c := rfl
    cases e with
    | text t =>
      show TextContent.adds name as (.text (s ++ t)) (treesOf c) = _
      rw [ih h.2, hs, List.append_assoc]; rfl
    | ref t =>
      show TextContent.adds name as (.text (s ++ entity t)) (treesOf c) = _
      rw [ih h.2, hs, List.append_assoc]; rfl
    | void n bs => cases h.1
    | elem n bs d => cases h.1

theorem adds_append (name : Str) (as : List (Str × Str)) (t : TextContent) (g g' : List Node) :
    t.adds name as (g ++ g') = (t.adds name as g).adds name as g' := by
  unfold TextContent.adds
  rw [List.foldl_append]

theorem treesOf_append (c d : List El) : treesOf (c ++ d) = treesOf c ++ treesOf d := by
  induction c with
  | nil => rfl
  | cons e c ih => rw [List.cons_append, treesOf, treesOf, ih]; rfl

/-- The first element turns the content into a tree. -/
theorem el_adds_rich (name : Str) (as : List (Str × Str)) (c : List El) (h : c.all El.isText = false) :
    TextContent.adds name as .empty (treesOf c) = .xml ⟨name, as, joinLead c⟩ := by
  have hsplit : c = c.takeWhile El.isText ++ c.dropWhile El.isText := List.takeWhile_append_dropWhile.symm
  have hlead : (c.takeWhile El.isText).all El.isText = true := by
    rw [List.all_eq_true]
    intro x hx
    exact (List.all_eq_true.1 List.all_takeWhile x hx)
  have hd : ∃ e d, c.dropWhile El.isText = e :: d ∧ e.isText = false := by
    clear hlead hsplit
    induction c with
    | nil => cases h
    | cons e c ih =>
      rw [List.dropWhile_cons]
      cases he : e.isText with
      | true =>
        rw [List.all_cons, he, Bool.true_and] at h
        rw [if_pos rfl]
        exact ih h
      | false => exact ⟨e, c, by rw [if_neg (by simp)], he⟩
  obtain ⟨e, d, h1, h2⟩ := hd
  have htag : ∃ n bs k, e.tree = .tag n bs k := by
    cases e with
    | text s => cases h2
    | ref s => cases h2
    | void n bs => exact ⟨_, _, _, rfl⟩
    | elem n bs k => exact ⟨_, _, _, rfl⟩
  obtain ⟨n, bs, k, htag⟩ := htag
  unfold joinLead
  rw [hsplit, treesOf_append, ← hsplit, adds_append, h1, treesOf, htag]
  cases hl : c.takeWhile El.isText with
  | nil =>
    show TextContent.adds name as (TextContent.add1 name as .empty (.tag n bs k)) (treesOf d) = _
    rw [show TextContent.add1 name as .empty (.tag n bs k) = .xml ⟨name, as, [.tag n bs k]⟩ from rfl, adds_xml]
    rfl
  | cons x l =>
    have hx : TextContent.adds name as .empty (treesOf (x :: l)) = .text (saidIn (x :: l)) := by
      rw [hl, List.all_cons, Bool.and_eq_true] at hlead
      cases x with
      | text t => exact el_adds_texts name as l hlead.2 t
      | ref t => exact el_adds_texts name as l hlead.2 (entity t)
      | void n bs => cases hlead.1
      | elem n bs d => cases hlead.1
    rw [hx]
    show TextContent.adds name as (TextContent.add1 name as (.text _) (.tag n bs k)) (treesOf d) = _
    rw [show TextContent.add1 name as (.text (saidIn (x :: l))) (.tag n bs k)
      = .xml ⟨name, as, [.text (saidIn (x :: l)), .tag n bs k]⟩ from rfl, adds_xml]
    rfl

/-- A paragraph. -/
def paraOf (as : List (Str × Str)) (c : List El) : Para :=
  if c.isEmpty then .nothing else if c.all El.isText then .plain (saidIn c) else .rich (plainAttrs as) (joinLead c)

theorem para_read (as : List (Str × Str)) (c : List El) (h : KeepOk tPara as c) (r : List Event) :
    readText tPara as (evsOf c ++ .end tPara :: r) = .ok ((paraOf as c).content, r) := by
  unfold readText
  rw [El.textLoopIn tPara as _ (escaped_some h.1) c h.2.1 h.2.2 .empty trivial]
  have hcont : TextContent.adds tPara (plainAttrs as) .empty (treesOf c) = (paraOf as c).content := by
    unfold paraOf
    cases c with
    | nil => rfl
    | cons x l =>
      rw [if_neg (by simp)]
      cases ha : (x :: l).all El.isText with
      | false => rw [if_neg (by simp), el_adds_rich _ _ _ ha]; rfl
      | true =>
        rw [if_pos rfl]
        rw [List.all_cons, Bool.and_eq_true] at ha
        cases x with
        | text t => exact el_adds_texts _ _ l ha.2 t
        | ref t => exact el_adds_texts _ _ l ha.2 (entity t)
        | void n bs => cases ha.1
        | elem n bs d => cases ha.1
  rw [hcont, readTextLoop_end, if_neg (by
    unfold paraOf
    split
    · simp [Para.content, openName]
    · split <;> simp [Para.content, openName]), if_pos rfl]
  rfl

/-- The text after another paragraph. -/
def putPara (t : TextContent) (p : Para) : TextContent :=
  match appendText p.content t with
  | .ok t => t
  | .error _ => t

theorem putPara_ok (t : TextContent) (p : Para) : appendText p.content t = .ok (putPara t p) := by
  unfold putPara
  cases t <;> cases p <;> rfl

theorem putParas_vec (ps : List Para) : ∀ l, ps.foldl putPara (.xmlVec l) = .xmlVec (l ++ ps.filterMap Para.node) := by
  induction ps with
  | nil => intro l; simp
  | cons p ps ih =>
    intro l
    rw [List.foldl_cons]
    cases p with
    | nothing => rw [show putPara (.xmlVec l) .nothing = .xmlVec l from rfl, ih]; rfl
    | plain s =>
      rw [show putPara (.xmlVec l) (.plain s) = .xmlVec (l ++ [.tag tPara [] [.text s]]) from rfl, ih,
        List.append_assoc]
      rfl
    | rich as c =>
      rw [show putPara (.xmlVec l) (.rich as c) = .xmlVec (l ++ [.tag tPara as c]) from rfl, ih, List.append_assoc]
      rfl

theorem putPara_second (p q : Para) (x : Node) (h : p.node = some x) :
    putPara p.content q = .xmlVec (x :: [q].filterMap Para.node) := by
  cases p with
  | nothing => cases h
  | plain s => have := Option.some.inj h; subst this; cases q <;> rfl
  | rich as c => have := Option.some.inj h; subst this; cases q <;> rfl

/-- The value of the text. -/
theorem putParas (ps : List Para) : contentValue (ps.foldl putPara .empty) = cellText ps := by
  unfold cellText
  induction ps with
  | nil => rfl
  | cons p ps ih =>
    cases hp : p.isNothing with
    | true =>
      rw [List.dropWhile_cons, if_pos hp]
      have : p = .nothing := by cases p <;> first | rfl | cases hp
      subst this
      exact ih
    | false =>
      rw [List.dropWhile_cons, if_neg (by rw [hp]; simp), List.foldl_cons,
        show putPara .empty p = p.content by cases p <;> rfl]
      cases ps with
      | nil => cases p <;> first | rfl | cases hp
      | cons q ps =>
        obtain ⟨x, hx⟩ : ∃ x, p.node = some x := by cases p <;> first | exact ⟨_, rfl⟩ | cases hp
        rw [List.foldl_cons, putPara_second p q x hx, putParas_vec]
        have e : x :: [q].filterMap Para.node ++ ps.filterMap Para.node = (p :: q :: ps).filterMap Para.node := by
          rw [List.filterMap_cons_some hx, List.cons_append, ← List.filterMap_append]
          rfl
        rw [e]
        cases p <;> rfl

/-! ## The content of a cell -/

/-- One part of a cell. -/
def bodyStep (b : CellBody) : El → CellBody
  | .void n _ => if n = tPara then { b with text := putPara b.text (.plain []) } else b
  | .elem n as c =>
    if n = tPara then { b with text := putPara b.text (paraOf as c) }
    else if n = tAnnotation then
      { b with st := b.st.updateExt fun e => { e with annotation := some (noteOf as c) } }
    else if n = tFrame then
      { b with st := b.st.updateExt fun e => { e with drawFrames := e.drawFrames ++ [frameOf as c] } }
    else b
  | _ => b

theorem pName_eq : pName = tPara := rfl

theorem cellChild_none (tag : Str) (b : CellBody) (n : Str) (as : List (Str × Str)) (et : Bool) (es : List Event)
    (h : n ∉ cellNames tag) : cellChild b n as et es = .ok none := by
  simp only [cellNames, List.mem_cons, List.not_mem_nil, or_false, not_or] at h
  unfold cellChild
  rw [pName_eq, if_neg h.2.1, if_neg (fun g => h.2.2.1 g.1), if_neg (fun g => h.2.2.2 g.1)]

theorem cellPart_pass (tag : Str) (e : El) (h : CellPart tag e) (b : CellBody) :
    Passes tag cellChild e.events b (bodyStep b e) := by
  have hp : ∀ p, (appendText (Para.content p) b.text).map (fun c => (some ({ b with text := c } : CellBody)))
      = .ok (some { b with text := putPara b.text p }) := by
    intro p
    rw [putPara_ok]
    rfl
  cases e with
  | text s => exact Passes.text _ _ _ _ rfl
  | ref s => exact Passes.text _ _ _ _ rfl
  | void n as =>
    unfold bodyStep
    simp only
    split
    · rename_i hn
      apply Passes.void
      intro r
      unfold cellChild
      rw [pName_eq, if_pos hn, if_pos rfl, show TextContent.text [] = (Para.plain []).content from rfl, putPara_ok]
      rfl
    · rename_i hn
      apply Passes.skip
      intro r
      unfold cellChild
      rw [pName_eq, if_neg hn, if_neg (by simp), if_neg (by simp)]
  | elem n as c =>
    obtain ⟨h0, h1, h2, h3, h4⟩ := h
    unfold bodyStep
    simp only
    split
    · rename_i hn
      apply Passes.elem
      intro r
      unfold cellChild
      rw [pName_eq, if_pos hn, if_neg (by decide), hn, para_read as c (hn ▸ h1 hn)]
      simp only
      rw [putPara_ok]
      rfl
    · rename_i hn1
      split
      · rename_i hn2
        apply Passes.elem
        intro r
        unfold cellChild
        rw [pName_eq, if_neg hn1, if_pos ⟨hn2, rfl⟩, hn2, note_read as c (h2 hn2).1 (h2 hn2).2]
        rfl
      · rename_i hn2
        split
        · rename_i hn3
          apply Passes.elem
          intro r
          unfold cellChild
          rw [pName_eq, if_neg hn1, if_neg (fun g => hn2 g.1), if_pos ⟨hn3, rfl⟩, hn3,
            frame_elem as c (h3 hn3).1 (h3 hn3).2]
          rfl
        · rename_i hn3
          have hnn : n ∉ cellNames tag := by
            simp only [cellNames, List.mem_cons, List.not_mem_nil, or_false, not_or]
            exact ⟨h0, hn1, hn2, hn3⟩
          exact El.over tag cellChild (cellNames tag) List.mem_cons_self (cellChild_none tag) (.elem n as c)
            ⟨hnn, h4 hnn⟩ b

/-! ## The whole content -/

theorem updateExt_twice (s : CellState) (f g : CellDataExt → CellDataExt) :
    (s.updateExt f).updateExt g = s.updateExt fun e => g (f e) := rfl

/-- The state after the annotations and frames of a cell. -/
def noted (s : CellState) (ns : List Annotation) (fs : List DrawFrame) : CellState :=
  if ns = [] ∧ fs = [] then s
  else s.updateExt fun e => { e with annotation := ns.getLast?.or e.annotation, drawFrames := e.drawFrames ++ fs }

theorem notesIn_cons (e : El) (c : List El) : notesIn (e :: c) = notesIn [e] ++ notesIn c := by
  unfold notesIn; rw [← List.filterMap_append]; rfl

theorem framesIn_cons (e : El) (c : List El) : framesIn (e :: c) = framesIn [e] ++ framesIn c := by
  unfold framesIn; rw [← List.filterMap_append]; rfl

theorem parasIn_cons (e : El) (c : List El) : parasIn (e :: c) = parasIn [e] ++ parasIn c := by
  unfold parasIn; rw [← List.filterMap_append]; rfl

theorem cell_names_apart : tPara ≠ tAnnotation ∧ tPara ≠ tFrame ∧ tAnnotation ≠ tFrame := by decide

theorem noted_note (s : CellState) (a : Annotation) (ns : List Annotation) (fs : List DrawFrame) :
    noted (s.updateExt fun e => { e with annotation := some a }) ns fs = noted s (a :: ns) fs := by
  unfold noted
  rw [if_neg (show ¬ (a :: ns = [] ∧ fs = []) by simp)]
  split
  · rename_i h
    rw [h.1, h.2]
    simp
  · rw [updateExt_twice]
    congr 1
    funext e
    rw [getLast?_cons_or]
    cases ns.getLast? <;> rfl

theorem noted_frame (s : CellState) (f : DrawFrame) (ns : List Annotation) (fs : List DrawFrame) :
    noted (s.updateExt fun e => { e with drawFrames := e.drawFrames ++ [f] }) ns fs = noted s ns (f :: fs) := by
  unfold noted
  rw [if_neg (show ¬ (ns = [] ∧ f :: fs = []) by simp)]
  split
  · rename_i h
    rw [h.1, h.2]
    simp
  · rw [updateExt_twice]
    simp

theorem bodySteps (c : List El) : ∀ b : CellBody,
    c.foldl bodyStep b = ⟨noted b.st (notesIn c) (framesIn c), (parasIn c).foldl putPara b.text⟩ := by
  have ha := cell_names_apart
  induction c with
  | nil => intro b; rfl
  | cons e c ih =>
    intro b
    rw [List.foldl_cons, ih, notesIn_cons, framesIn_cons, parasIn_cons, List.foldl_append]
    cases e with
    | text s => rfl
    | ref s => rfl
    | void n as =>
      rw [show notesIn [El.void n as] = [] from rfl, show framesIn [El.void n as] = [] from rfl]
      by_cases h : n = tPara
      · simp [bodyStep, parasIn, h]
      · simp [bodyStep, parasIn, h]
    | elem n as d =>
      by_cases h1 : n = tPara
      · subst h1
        simp [bodyStep, parasIn, notesIn, framesIn, ha.1, ha.2.1, paraOf]
      · by_cases h2 : n = tAnnotation
        · subst h2
          simp [bodyStep, parasIn, notesIn, framesIn, h1, ha.2.2]
          exact noted_note _ _ _ _
        · by_cases h3 : n = tFrame
          · subst h3
            simp [bodyStep, parasIn, notesIn, framesIn, h1, h2]
            exact noted_frame _ _ _ _
          · simp [bodyStep, parasIn, notesIn, framesIn, h1, h2, h3]

/-- The attributes of a cell say nothing about annotations and frames. -/
theorem notes_attrs (fl : Floats) (as : List (Str × Str)) : ∀ s s', cellAttrs fl s as = .ok s' →
    s'.content.annotation = s.content.annotation ∧ s'.content.drawFrames = s.content.drawFrames := by
  induction as with
  | nil => intro s s' ha; rw [← Except.ok.inj ha]; exact ⟨rfl, rfl⟩
  | cons a as ih =>
    intro s s' ha
    obtain ⟨k, v⟩ := a
    rw [cellAttrs] at ha
    cases h1 : cellAttr fl s k v with
    | error e => rw [h1] at ha; cases ha
    | ok s1 =>
      rw [h1] at ha
      have hs := ih s1 s' ha
      suffices s1.content.annotation = s.content.annotation ∧ s1.content.drawFrames = s.content.drawFrames by
        rw [hs.1, hs.2]; exact this
      cases hc : cellKey k with
      | none => rw [no_effect fl s s1 k v hc h1]; exact ⟨rfl, rfl⟩
      | some K =>
        have h := effect fl s s1 k v K hc h1
        cases K <;> simp only [Effect] at h
        case currency => subst h; exact ⟨rfl, rfl⟩
        all_goals
          obtain ⟨x, -, rfl⟩ := h
          first | exact ⟨rfl, rfl⟩ | (split <;> exact ⟨rfl, rfl⟩)

theorem noted_head (s : CellState) (t : TextContent) (ns : List Annotation) (fs : List DrawFrame) :
    SameHead ⟨s, .empty⟩ ⟨noted s ns fs, t⟩ := by
  unfold noted
  split
  · exact ⟨rfl, rfl, id⟩
  · exact ⟨rfl, rfl, fun _ => rfl⟩

theorem noted_content (s : CellState) (ns : List Annotation) (fs : List DrawFrame) :
    (noted s ns fs).content.annotation = ns.getLast?.or s.content.annotation
      ∧ (noted s ns fs).content.drawFrames = s.content.drawFrames ++ fs := by
  unfold noted
  split
  · rename_i h
    rw [h.1, h.2]
    simp
  · exact ⟨rfl, rfl⟩

/-- **C104**: a cell with any attributes and any content, in any order: it is read if the attributes
give a value for the text of its paragraphs.  Then this is its value, the last of its annotations is
its annotation, all of its frames are there in their order, and everything else is what the attributes
say.  It is dropped only if there is nothing of that. -/
theorem C104_cell (fl : Floats) (ie : Bool) (cs : Option String) (tag : Str) (as : List (Str × Str))
    (hnd : (as.map Prod.fst).Nodup) (hok : ∀ a ∈ as, AttrReadable fl a.1 a.2)
    (c : List El) (hc : ∀ e ∈ c, CellPart tag e) (v : Value)
    (hv : meaning fl as (cellText (parasIn c)) = some v) (rest : List Event) :
    ∃ r, readTableCell fl ie cs tag as false (evsOf c ++ .end tag :: rest) = .ok (r, rest)
      ∧ attrCount as "table:number-columns-repeated" = some r.repeat
      ∧ (∀ x, r.cell = some x → x.value = v ∧ x.repeat = r.repeat ∧ CellFacts as x.toContent
          ∧ x.toContent.annotation = (notesIn c).getLast? ∧ x.toContent.drawFrames = framesIn c)
      ∧ (r.cell = none → v = .empty ∧ attrPlain as "table:formula" = some none
          ∧ notesIn c = [] ∧ framesIn c = []) := by
  obtain ⟨s, ha⟩ := (attrs_ok fl as {}).2 hok
  have hl : cellLoop tag ((evsOf c ++ .end tag :: rest).length + 1) ⟨s, .empty⟩ [] (evsOf c ++ .end tag :: rest)
      = .ok (⟨noted s (notesIn c) (framesIn c), (parasIn c).foldl putPara .empty⟩, rest) := by
    have := (Passes.list bodyStep c (fun e he b => cellPart_pass tag e (hc e he) b) ⟨s, .empty⟩).finish rest
    rw [bodySteps] at this
    exact this
  generalize hs' : noted s (notesIn c) (framesIn c) = s' at hl
  generalize ht : (parasIn c).foldl putPara .empty = t at hl
  have htv : contentValue t = cellText (parasIn c) := by rw [← ht]; exact putParas _
  have hh : SameHead ⟨s, .empty⟩ ⟨s', t⟩ := by rw [← hs']; exact noted_head _ _ _ _
  have hno := noted_content s (notesIn c) (framesIn c)
  rw [hs'] at hno
  obtain ⟨n1, n2⟩ := notes_attrs fl as {} s ha
  rw [n1, n2] at hno
  have hno1 : s'.content.annotation = (notesIn c).getLast? := by rw [hno.1]; exact Option.or_none
  have hno2 : s'.content.drawFrames = framesIn c := hno.2
  have hm := value_meaning fl as hnd s ha t
  rw [htv, hv, ← setValue_others hh.1 t] at hm
  have hf : ∃ o, finishCell ie cs s' t = .ok o := by
    unfold finishCell
    cases hcell : s'.cell with
    | none => exact ⟨_, rfl⟩
    | some x =>
      simp only
      cases hset : setValue s' t with
      | error e => rw [hset] at hm; cases hm
      | ok w => exact ⟨_, rfl⟩
  obtain ⟨o, hf⟩ := hf
  obtain ⟨v', g1, g2, g3⟩ := finish_facts ie cs fl as hnd s ha s' t hh o hf
  rw [htv, hv] at g1
  have := Option.some.inj g1
  subst this
  have hrep : s'.repeat = s.repeat := (congrArg CellState.repeat hh.1 : s'.others.repeat = s.others.repeat)
  refine ⟨⟨s'.repeat, o⟩, ?_, ?_, ?_, ?_⟩
  · unfold readTableCell
    rw [ha]
    simp only [Bool.false_eq_true, if_false]
    rw [hl]
    simp only
    rw [hf]
  · rw [hrep]; exact state_repeat fl as hnd s ha
  · intro x hx
    obtain ⟨q1, q2, q3⟩ := g2 x hx
    have hx' : x.toContent.annotation = s'.content.annotation ∧ x.toContent.drawFrames = s'.content.drawFrames := by
      have hx : o = some x := hx
      rw [hx] at hf
      unfold finishCell at hf
      cases hcell : s'.cell with
      | none => rw [hcell] at hf; cases hf
      | some y =>
        rw [hcell] at hf
        simp only at hf
        cases hset : setValue s' t with
        | error e => rw [hset] at hf; cases hf
        | ok w =>
          rw [hset] at hf
          have hf := Except.ok.inj hf
          split at hf
          · cases hf
          · have := Option.some.inj hf
            subst this
            unfold CellState.content
            rw [hcell]
            exact ⟨rfl, rfl⟩
    exact ⟨q1, by rw [q2, hrep], q3, hx'.1.trans hno1, hx'.2.trans hno2⟩
  · intro hn
    obtain ⟨q1, q2⟩ := g3 hn
    refine ⟨q1, q2, ?_⟩
    have hn : o = none := hn
    rw [hn] at hf
    have hnone : s'.content.annotation = none ∧ s'.content.drawFrames = [] := by
      unfold finishCell at hf
      cases hcell : s'.cell with
      | none => unfold CellState.content; rw [hcell]; exact ⟨rfl, rfl⟩
      | some y =>
        rw [hcell] at hf
        simp only at hf
        cases hset : setValue s' t with
        | error e => rw [hset] at hf; cases hf
        | ok w =>
          rw [hset] at hf
          have hf := Except.ok.inj hf
          split at hf
          · rename_i hig
            have hx : y.isVoidExtra = true := by
              unfold ignoreCell CellData.isVoid CellData.isEmpty at hig
              simp only [Bool.or_eq_true, Bool.and_eq_true] at hig
              rcases hig with h | h
              · exact h.2
              · exact h.2.2
            unfold CellData.isVoidExtra at hx
            unfold CellState.content CellData.toContent
            rw [hcell]
            cases he : y.extra with
            | none => simp only [Option.getD, he]; exact ⟨trivial, trivial⟩
            | some z =>
              rw [he] at hx
              simp only [Bool.and_eq_true, Option.isNone_iff_eq_none, List.isEmpty_iff] at hx
              simp only [Option.getD, he]
              exact ⟨hx.1.1.2, hx.1.2⟩
          · cases hf
    rw [hno1, hno2] at hnone
    exact ⟨List.getLast?_eq_none_iff.1 hnone.1, hnone.2⟩

end Verif.Codec
