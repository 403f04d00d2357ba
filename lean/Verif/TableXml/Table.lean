import Verif.TableXml.Run

/-!
# Lemmas about the text of a table: the whole table
-/

set_option autoImplicit false

namespace Verif.TableXml

open Xml Xml.Spec Codec

/-- The foreign elements that are written in front of the columns. -/
def prelude (l : List Node) : List Node := l.filter (fun t => decide (nodeName t ∈ preludeNames))

/-- The foreign elements that are written behind the table. -/
def epilogue (l : List Node) : List Node := l.filter (fun t => decide (nodeName t ∈ epilogueNames))

/-- Foreign elements that are read back up to the division of their texts.  In a flat file there are none. -/
def ExtrasOk (lb : Bool) (l : List Node) : Prop :=
  (lb = false ∨ l = []) ∧ ∀ t ∈ l, ∃ n as c, t = .tag n as c ∧ NamesOk t ∧ AllWithout n c

theorem ExtrasOk.filter {lb : Bool} {l : List Node} (h : ExtrasOk lb l) (p : Node → Bool) :
    ExtrasOk lb (l.filter p) := by
  refine ⟨?_, fun t ht => h.2 t (List.mem_filter.mp ht).1⟩
  rcases h.1 with h | h
  · exact .inl h
  · exact .inr (by rw [h]; rfl)

/-- The items of foreign elements. -/
def extraItems (l : List Node) : List Item := l.flatMap nodeItems

theorem extraItems_calls (l : List Node) : (extraItems l).flatMap Item.calls = l.flatMap writeNode := by
  unfold extraItems
  rw [List.flatMap_assoc]
  congr 1
  funext t
  exact nodeItems_calls t

theorem extraItems_valid (lb : Bool) (l : List Node) (h : ExtrasOk lb l) : ∀ i ∈ extraItems l, i.Valid := by
  intro i hi
  obtain ⟨t, ht, hi⟩ := List.mem_flatMap.mp hi
  obtain ⟨n, as, c, _, hn, _⟩ := h.2 t ht
  exact nodeItems_valid t hn i hi

/-- What a list of foreign elements gives. -/
def extraToks (lb : Bool) (l : List Node) : List Tok := (extraItems l).flatMap (itemToks lb)

theorem extraToks_cons (lb : Bool) (t : Node) (l : List Node) :
    extraToks lb (t :: l) = (nodeItems t).flatMap (itemToks lb) ++ extraToks lb l := by
  simp [extraToks, extraItems]

theorem noChr_extras (lb : Bool) (l : List Node) (h : ExtrasOk lb l) (r : List Tok) (hr : NoChr r) :
    NoChr (extraToks lb l ++ r) := by
  cases l with
  | nil => exact hr
  | cons t l =>
    rcases h.1 with hl | hl
    · subst hl
      obtain ⟨n, as, c, rfl, _, _⟩ := h.2 t List.mem_cons_self
      rw [extraToks_cons, List.append_assoc]
      exact noChr_element n as c _
    · cases hl

/-- The first event of a foreign element. -/
theorem extra_shape (n : Str) (as : List (Str × Str)) (c : List Node) (r : List Tok) :
    ∃ raw es0, (events (toks (nodeItems (.tag n as c)) ++ r) = .start n raw :: es0
        ∨ events (toks (nodeItems (.tag n as c)) ++ r) = .empty n raw :: es0)
      ∧ (events r).length ≤ es0.length := by
  cases c with
  | nil =>
    refine ⟨raws as, events r, .inr ?_, Nat.le_refl _⟩
    have : toks (nodeItems (.tag n as [])) = [.empty n (raws as)] := by
      simp [nodeItems, toks, itemToks, escAttrs_raw, nl]
    rw [this]
    rfl
  | cons y c =>
    have : ∃ t, toks (nodeItems (.tag n as (y :: c))) = .start n (raws as) :: t := by
      rw [nodeItems]
      simp only [toks, List.flatMap_cons, itemToks, escAttrs_raw, List.cons_append, List.nil_append]
      exact ⟨_, rfl⟩
    obtain ⟨t, ht⟩ := this
    refine ⟨raws as, events (t ++ r), .inl ?_, events_suffix t r⟩
    rw [ht]
    rfl

theorem goes_extras (fl : Floats) (o : Opts) (lb : Bool) (r : List Tok) (l : List Node) (h : ExtrasOk lb l)
    (hn : ∀ t ∈ l, nodeName t ∈ preludeNames) : ∀ x : XSt,
    Goes fl o x (events (extraToks lb l ++ r)) { x with head := { x.head with extra := x.head.extra ++ l.map norm } }
      (events r) := by
  induction l with
  | nil =>
    intro x
    have : ({ x with head := { x.head with extra := x.head.extra ++ [] } } : XSt) = x := by simp
    rw [List.map_nil, this]
    exact Goes.refl fl o x _
  | cons t l ih =>
    intro x
    have hlb : lb = false := by
      rcases h.1 with h | h
      · exact h
      · cases h
    obtain ⟨n, as, c, rfl, _, hw⟩ := h.2 t List.mem_cons_self
    have hpre : n ∈ preludeNames := hn _ List.mem_cons_self
    have ih' := ih ⟨.inl hlb, fun t ht => h.2 t (List.mem_cons_of_mem _ ht)⟩
      (fun t ht => hn t (List.mem_cons_of_mem _ ht))
    subst hlb
    rw [extraToks_cons, List.append_assoc,
      show (nodeItems (.tag n as c)).flatMap (itemToks false) = toks (nodeItems (.tag n as c)) from rfl]
    obtain ⟨es, he, hread⟩ := element_reads n as c hw (extraToks false l ++ r)
    obtain ⟨raw, es0, hs, hlen⟩ := extra_shape n as c (extraToks false l ++ r)
    have hstep : xstep fl o x (events (toks (nodeItems (.tag n as c)) ++ (extraToks false l ++ r)))
        = .ok (false, { x with head := { x.head with extra := x.head.extra ++ [norm (.tag n as c)] } },
            events (extraToks false l ++ r)) := by
      rw [← he] at hread
      rcases hs with hs | hs
      · rw [hs] at hread ⊢
        rw [readNext] at hread
        rw [xstep, if_pos (.inl hpre), stepExtra, hread]
      · rw [hs] at hread ⊢
        rw [readNext] at hread
        rw [xstep, if_pos (.inl hpre), stepExtra, hread]
    refine Goes.trans (goes_step hstep ?_) ?_
    · rcases hs with hs | hs
      · rw [hs, List.length_cons]; omega
      · rw [hs, List.length_cons]; omega
    · have := ih' { x with head := { x.head with extra := x.head.extra ++ [norm (.tag n as c)] } }
      simpa using this

/-! ## The table -/

/-- The items of a table without what is written behind it. -/
def tableItems (fl : Floats) (defStyle : ValueType → Option String) (h : Head) (evs : List TEv) : List Item :=
  .start false tTable (tableAtts h) :: (extraItems (prelude h.extra) ++ (evs.flatMap (tagItems fl defStyle)
    ++ [.end false tTable]))

theorem tableItems_calls (fl : Floats) (defStyle : ValueType → Option String) (lb : Bool) (bv : Value → Value)
    (h : Head) (evs : List TEv) (hf : ∀ e ∈ evs, Fits fl lb bv e) :
    (tableItems fl defStyle h evs ++ extraItems (epilogue h.extra)).flatMap Item.calls
      = tableCalls fl defStyle h evs := by
  have h1 : (evs.flatMap (tagItems fl defStyle)).flatMap Item.calls = evs.flatMap (tagCalls fl defStyle) := by
    induction evs with
    | nil => rfl
    | cons e evs ih =>
      rw [List.flatMap_cons, List.flatMap_append, ih (fun e he => hf e (List.mem_cons_of_mem _ he)),
        tagItems_calls fl defStyle lb bv e (hf e List.mem_cons_self), List.flatMap_cons]
  unfold tableItems tableCalls
  rw [List.flatMap_append, extraItems_calls, List.flatMap_cons, List.flatMap_append, List.flatMap_append, h1,
    extraItems_calls]
  simp [Item.calls, prelude, epilogue]

theorem tableItems_valid (fl : Floats) (defStyle : ValueType → Option String) (lb : Bool) (bv : Value → Value)
    (h : Head) (evs : List TEv) (hf : ∀ e ∈ evs, Fits fl lb bv e) (he : ExtrasOk lb h.extra) :
    ∀ i ∈ tableItems fl defStyle h evs, i.Valid := by
  intro i hi
  unfold tableItems at hi
  simp only [List.mem_cons, List.mem_append, List.not_mem_nil, or_false] at hi
  rcases hi with rfl | hi | hi | rfl
  · exact ⟨by decide, tableAtts_ok h⟩
  · exact extraItems_valid lb _ (he.filter _) i hi
  · obtain ⟨e, he, hi⟩ := List.mem_flatMap.mp hi
    exact tagItems_valid fl defStyle lb bv e (hf e he) i hi
  · show Name _
    decide

/-- The tokens of a table. -/
def tableToks (fl : Floats) (defStyle : ValueType → Option String) (lb : Bool) (h : Head) (evs : List TEv) :
    List Tok := (tableItems fl defStyle h evs).flatMap (itemToks lb)

theorem tableToks_eq (fl : Floats) (defStyle : ValueType → Option String) (lb : Bool) (h : Head) (evs : List TEv)
    (r : List Tok) :
    tableToks fl defStyle lb h evs ++ r = .start tTable (rawAttrs (tableAtts h)) :: (extraToks lb (prelude h.extra)
      ++ (evs.flatMap (tagToks fl defStyle lb) ++ (.end tTable :: ((nl lb).map Tok.chr ++ r)))) := by
  have h1 : ∀ evs : List TEv, (evs.flatMap (tagItems fl defStyle)).flatMap (itemToks lb)
      = evs.flatMap (tagToks fl defStyle lb) := by
    intro evs
    rw [List.flatMap_assoc]
    rfl
  simp [tableToks, tableItems, h1, extraToks, itemToks]

/-- What reading makes of the attributes of the table. -/
def headBack (h : Head) (ranges : Option (List CellRange)) : Head :=
  { h with ranges := ranges, extra := (prelude h.extra).map norm }

/-- The table in its place. -/
theorem table_reads (fl : Floats) (m : Refs.Ints) (o : Opts) (bv : Value → Value)
    (defStyle : ValueType → Option String) (lb : Bool) (h : Head) (evs : List TEv) (ranges : Option (List CellRange))
    (hr : ∀ l, h.ranges = some l → Refs.parseCellRanges m (Refs.fmtCellRanges l) = .ok ranges)
    (hn : h.ranges = none → ranges = none) (he : ExtrasOk lb h.extra) (hf : ∀ e ∈ evs, Fits fl lb bv e)
    (r : List Tok) :
    (∀ s', readTable (absOpts bv defStyle o) evs = some s' →
      readTableXml fl m o (events (tableToks fl defStyle lb h evs ++ r))
        = .ok ((headBack h ranges, s'), events ((nl lb).map Tok.chr ++ r)))
    ∧ (readTable (absOpts bv defStyle o) evs = none →
      ∃ e, readTableXml fl m o (events (tableToks fl defStyle lb h evs ++ r)) = .error e) := by
  rw [tableToks_eq]
  have hend : NoChr (.end tTable :: ((nl lb).map Tok.chr ++ r)) := noChr_cons _ _ (by intro c; simp)
  have g1 := goes_extras fl o lb (evs.flatMap (tagToks fl defStyle lb) ++ (.end tTable :: ((nl lb).map Tok.chr ++ r)))
    (prelude h.extra) (he.filter _) (fun t ht => by simpa using (List.mem_filter.mp ht).2)
    { head := { h with ranges := ranges, extra := [] } }
  have g2 := does_tags fl o bv defStyle lb (headBack h ranges) _ hend evs [] {} hf
  have hx : ({ head := { ({ h with ranges := ranges, extra := [] } : Head) with
      extra := ([] : List Node) ++ (prelude h.extra).map norm } } : XSt) = xst (headBack h ranges) [] {} := rfl
  have hread : readTableXml fl m o (events (.start tTable (rawAttrs (tableAtts h)) :: (extraToks lb (prelude h.extra)
      ++ (evs.flatMap (tagToks fl defStyle lb) ++ (.end tTable :: ((nl lb).map Tok.chr ++ r))))))
      = match xloop fl o ((events (extraToks lb (prelude h.extra)
          ++ (evs.flatMap (tagToks fl defStyle lb) ++ (.end tTable :: ((nl lb).map Tok.chr ++ r))))).length + 1)
          { head := { h with ranges := ranges, extra := [] } } (events (extraToks lb (prelude h.extra)
          ++ (evs.flatMap (tagToks fl defStyle lb) ++ (.end tTable :: ((nl lb).map Tok.chr ++ r))))) with
        | .error e => .error e
        | .ok (x, es) => .ok ((x.head, finish o x.st.sheet), es) := by
    rw [events, readTableXml, tableAtts_read m h ranges hr hn]
    rfl
  rw [hread]
  generalize hE : events (extraToks lb (prelude h.extra)
      ++ (evs.flatMap (tagToks fl defStyle lb) ++ (.end tTable :: ((nl lb).map Tok.chr ++ r)))) = E at g1 ⊢
  rw [show ({ ({ head := { h with ranges := ranges, extra := [] } } : XSt) with head :=
    { ({ head := { h with ranges := ranges, extra := [] } } : XSt).head with
      extra := ({ head := { h with ranges := ranges, extra := [] } } : XSt).head.extra
        ++ (prelude h.extra).map norm } } : XSt) = xst (headBack h ranges) [] {} from rfl] at g1
  -- the end tag
  have hfin : ∀ (stack : List TTag) (st : RState),
      xstep fl o (xst (headBack h ranges) stack st) (events (.end tTable :: ((nl lb).map Tok.chr ++ r)))
        = if stack = [] then .ok (true, xst (headBack h ranges) stack st, events ((nl lb).map Tok.chr ++ r))
          else .error .mismatchedEnd := by
    intro stack st
    cases stack with
    | nil =>
      rw [events, xstep, if_neg (by simp [xst]), if_pos rfl, if_pos rfl]
    | cons t stack =>
      rw [events, xstep, if_pos (by simpa [xst] using fun e => tagName_table t e.symm), if_neg (by simp)]
  have hfail : Fails fl o { head := { h with ranges := ranges, extra := [] } } E →
      ∃ e, (match xloop fl o (E.length + 1) { head := { h with ranges := ranges, extra := [] } } E with
        | .error e => (.error e : Except Fault ((Head × TSheet) × List Event))
        | .ok (x, es) => .ok ((x.head, finish o x.st.sheet), es)) = .error e := by
    intro hf
    obtain ⟨e, he⟩ := hf (E.length + 1) (by omega)
    exact ⟨e, by rw [he]⟩
  unfold readTable
  unfold afterAll at g2
  cases hc : checkTags [] evs with
  | none =>
    rw [hc] at g2
    refine ⟨(by intro s' h; cases h), fun _ => hfail (g1.fails g2)⟩
  | some stack =>
    rw [hc] at g2
    cases hre : readEvents (absOpts bv defStyle o) {} evs with
    | none =>
      rw [hre] at g2
      refine ⟨?_, fun _ => hfail (g1.fails g2)⟩
      intro s' h
      cases stack with
      | nil => simp only at h; cases h
      | cons t stack => simp only at h; cases h
    | some st =>
      rw [hre] at g2
      have g3 : Goes fl o _ E (xst (headBack h ranges) stack st) _ := g1.trans g2
      cases stack with
      | cons t stack =>
        refine ⟨(by intro s' h; simp only at h; cases h), fun _ => hfail (g3.fails (fails_step (e := .mismatchedEnd) ?_))⟩
        rw [hfin, if_neg (by simp)]
      | nil =>
        refine ⟨?_, (by intro h; simp only at h; cases h)⟩
        intro s' hs
        simp only [Option.some.injEq] at hs
        obtain ⟨n, hn, g3⟩ := g3
        have hlen : 1 ≤ (events (.end tTable :: ((nl lb).map Tok.chr ++ r))).length := by
          rw [events, List.length_cons]; omega
        have hk : ∃ k, E.length + 1 = (k + 1) + n := ⟨E.length - n, by omega⟩
        obtain ⟨k, hk⟩ := hk
        rw [hk, g3, xloop, hfin, if_pos rfl]
        subst hs
        rfl

end Verif.TableXml
