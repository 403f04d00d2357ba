import Verif.Style.Props

/-!
# Styles without a name in the file (C52)
-/

set_option autoImplicit false

namespace Verif.Style

open Xml Xml.Spec Codec Book Refs.Spec

namespace Spec

/-- A name the crate generates for a style of a kind: the prefix and a number. -/
def Generated (k : Kind) (n : Str) : Prop := ∃ c : Nat, n = k.prefix ++ decNat c

/-- No name in the file. -/
def Unnamed (s : Style Body) : Prop := s.body.use = .default ∨ s.name = []

end Spec

open Spec

section Generic

variable {β : Type}

theorem add_generated (b b' : Stores β) (k : Kind) (x : β) (r : Str) (h : b.add k ⟨[], x⟩ = .ok (b', r)) : Generated k r := by
  unfold Stores.add autoName at h
  rw [if_pos rfl] at h
  simp only at h
  cases hs : searchName k.prefix (fun n => (b.store k).contains n) ((b.store k).length + 1) (startCount b.autonum k.prefix) with
  | error e => rw [hs] at h; cases h
  | ok c =>
    rw [hs] at h
    cases h
    exact ⟨c, rfl⟩

/-- All additions with the references they give. -/
theorem addsAll_refs (ps : List (Kind × Style β)) : ∀ (b b' : Stores β), addsAll b ps = .ok b' →
    ∃ qs : List ((Kind × Style β) × Str), qs.map Prod.fst = ps
      ∧ (∀ q ∈ qs, (q.1.2.name ≠ [] → q.2 = q.1.2.name) ∧ (q.1.2.name = [] → Generated q.1.1 q.2))
      ∧ (∀ q ∈ qs, q.1.2.name = [] → ∀ n, b.get? q.1.1 n ≠ none → q.2 ≠ n)
      ∧ (∀ as q bs, qs = as ++ q :: bs → q.1.2.name = [] → ∀ q' ∈ as, q'.1.1 = q.1.1 → q'.2 ≠ q.2)
      ∧ (∀ k n, (∀ q ∈ qs, q.1.1 = k → q.2 ≠ n) → b'.get? k n = b.get? k n)
      ∧ (∀ as q bs, qs = as ++ q :: bs → (∀ q' ∈ bs, q'.1.1 = q.1.1 → q'.2 ≠ q.2) →
          b'.get? q.1.1 q.2 = some ⟨q.2, q.1.2.body⟩) := by
  induction ps with
  | nil =>
    intro b b' h
    cases h
    refine ⟨[], rfl, (by intro q hq; cases hq), (by intro q hq; cases hq), ?_, fun _ _ _ => rfl, ?_⟩
    · intro as q bs h; cases as <;> cases h
    · intro as q bs h; cases as <;> cases h
  | cons p ps ih =>
    intro b b' h
    rw [addsAll] at h
    cases ha : b.add p.1 p.2 with
    | error e => rw [ha] at h; cases h
    | ok r =>
      obtain ⟨b1, r⟩ := r
      rw [ha] at h
      have hg := add_get b b1 p.1 p.2 r ha
      obtain ⟨qs, h1, h2, h3, h4, h5, h6⟩ := ih b1 b' h
      have hstay : ∀ k n, b.get? k n ≠ none → b1.get? k n ≠ none := by
        intro k n hn
        rw [hg.2 k n]
        split
        · simp
        · exact hn
      have hr1 : b1.get? p.1 r ≠ none := by rw [hg.2, if_pos ⟨rfl, rfl⟩]; simp
      refine ⟨(p, r) :: qs, by rw [List.map_cons, h1], ?_, ?_, ?_, ?_, ?_⟩
      · intro q hq
        rcases List.mem_cons.1 hq with rfl | hq
        · refine ⟨hg.1, fun hn => ?_⟩
          obtain ⟨k, nm, x⟩ := p
          simp only at hn
          subst hn
          exact add_generated b b1 k x r ha
        · exact h2 q hq
      · intro q hq hn n hb
        rcases List.mem_cons.1 hq with rfl | hq
        · obtain ⟨k, nm, x⟩ := p
          simp only at hn hb
          subst hn
          have := (C40_any_state b b1 k x r ha).1
          rintro rfl
          exact hb this
        · exact h3 q hq hn n (hstay _ _ hb)
      · intro as q bs he hn q' hq' hk
        cases as with
        | nil => cases hq'
        | cons a as =>
          rw [List.cons_append] at he
          injection he with he1 he2
          subst he1
          rcases List.mem_cons.1 hq' with rfl | hq'
          · simp only at hk
            have hq : q ∈ qs := by rw [he2]; simp
            refine fun hr => h3 q hq hn r ?_ hr.symm
            rw [← hk]; exact hr1
          · exact h4 as q bs he2 hn q' hq' hk
      · intro k n hno
        rw [h5 k n fun q hq => hno q (List.mem_cons_of_mem _ hq), hg.2 k n, if_neg]
        rintro ⟨rfl, rfl⟩
        exact hno (p, r) List.mem_cons_self rfl rfl
      · intro as q bs he hno
        cases as with
        | nil =>
          injection he with he1 he2
          subst he1 he2
          simp only at hno ⊢
          rw [h5 _ _ hno, hg.2, if_pos ⟨rfl, rfl⟩]
        | cons a as =>
          rw [List.cons_append] at he
          injection he with he1 he2
          exact h6 as q bs he2 hno

end Generic

/-! ## Files -/

/-- A file with these styles in `office:styles` and in `office:automatic-styles`. -/
def styleFile (root : Str) (as : List (Bool × Str × Str)) (office auto : List (Kind × Style Body)) : Doc :=
  .elem false root as [.elem false tOffice [] (office.map fun p => styleDoc p.1 p.2),
    .elem false tAuto [] (auto.map fun p => styleDoc p.1 p.2)]

/-- The styles fit their places: they can be written, and have the origin of the file and a use of the section. -/
structure FileOk (o : Origin) (office auto : List (Kind × Style Body)) : Prop where
  body : ∀ p ∈ office ++ auto, BodyOk p.1 p.2.body
  origin : ∀ p ∈ office ++ auto, p.2.body.origin = o
  office : ∀ p ∈ office, p.2.body.use ≠ .automatic
  auto : ∀ p ∈ auto, p.2.body.use = .automatic

def readOps (l : List (Kind × Style Body)) : List Op := l.map fun p => .style p.1 ⟨nameRead p.2, p.2.body.back p.1⟩

theorem read_styleFile (m : Refs.Ints) (hm : m.max = maxU32) (lb : Bool) (o : Origin) (root : Str)
    (as : List (Bool × Str × Str)) (hroot : root = tDocStyles ∨ root = tDocContent ∨ root = tDocFlat) (has : AttrsOk as)
    (office auto : List (Kind × Style Body)) (h : FileOk o office auto) (bk : SBook) :
    readFile m o bk (output lb (.dtd "UTF-8".toList :: docCalls (styleFile root as office auto)))
      = bk.applyAll (readOps office ++ readOps auto) := by
  have n1 : Name tOffice := by decide +kernel
  have n2 : Name tAuto := by decide +kernel
  have hn : Name root := by rcases hroot with rfl | rfl | rfl <;> decide +kernel
  have hr : root ≠ tFonts ∧ root ≠ tOffice ∧ root ≠ tAuto := by
    rcases hroot with rfl | rfl | rfl <;> decide +kernel
  refine readFile_doc m lb o bk root as _ _ ?_ ?_
  · refine elemDoc_ok _ _ _ _ hn has ⟨elemDoc_ok _ _ _ _ n1 attrsOk_nil ?_, elemDoc_ok _ _ _ _ n2 attrsOk_nil ?_, trivial⟩
    · exact docsOk_map _ _ fun p hp => styleDoc_ok p.1 p.2 (h.body p (List.mem_append_left _ hp))
    · exact docsOk_map _ _ fun p hp => styleDoc_ok p.1 p.2 (h.body p (List.mem_append_right _ hp))
  · refine does_root m lb o root as _ _ hr.1 hr.2.1 hr.2.2 ?_
    rw [docsEv, docsEv, docsEv, List.append_nil]
    refine (does_section m lb o .office [] _ _ (Does.map lb _ _ _ fun p hp => ?_)).append
      (does_section m lb o .auto [] _ _ (Does.map lb _ _ _ fun p hp => ?_))
    · have := does_style m hm lb .office p.1 p.2 (h.body p (List.mem_append_left _ hp)) ?_
      · rw [h.origin p (List.mem_append_left _ hp)] at this; exact this
      · have := h.office p hp
        cases hu : p.2.body.use with
        | default => exact .inr rfl
        | named => exact .inl rfl
        | automatic => exact absurd hu this
    · have := does_style m hm lb .auto p.1 p.2 (h.body p (List.mem_append_right _ hp)) (h.auto p hp)
      rw [h.origin p (List.mem_append_right _ hp)] at this
      exact this

/-- As it is read. -/
def asRead (p : Kind × Style Body) : Kind × Style Body := (p.1, ⟨nameRead p.2, p.2.body.back p.1⟩)

theorem stylesIn_readOps (l : List (Kind × Style Body)) : stylesIn (readOps l) = l.map asRead := by
  unfold stylesIn readOps
  rw [List.filterMap_map]
  exact filterMap_all _ _ _ fun s => rfl

theorem file_back (m : Refs.Ints) (hm : m.max = maxU32) (lb : Bool) (o : Origin) (root : Str)
    (as : List (Bool × Str × Str)) (hroot : root = tDocStyles ∨ root = tDocContent ∨ root = tDocFlat) (has : AttrsOk as)
    (office auto : List (Kind × Style Body)) (h : FileOk o office auto)
    (hc : office.length + auto.length < 4294967296) :
    ∃ bk, readFile m o {} (output lb (.dtd "UTF-8".toList :: docCalls (styleFile root as office auto))) = .ok bk
      ∧ addsAll {} ((office ++ auto).map asRead) = .ok bk.styles := by
  obtain ⟨s, hs⟩ := addsAll_ok ((office ++ auto).map asRead) (by simp; exact hc)
  have h1 : stylesIn (readOps office ++ readOps auto) = (office ++ auto).map asRead := by
    rw [stylesIn_append, stylesIn_readOps, stylesIn_readOps, List.map_append]
  have hf : formatsIn (readOps office ++ readOps auto) = [] := filterMap_none _ _ fun p hp => by
    rcases List.mem_append.1 hp with hp | hp <;> (obtain ⟨q, _, rfl⟩ := List.mem_map.1 hp; rfl)
  have hp : pagesIn (readOps office ++ readOps auto) = [] := filterMap_none _ _ fun p hp => by
    rcases List.mem_append.1 hp with hp | hp <;> (obtain ⟨q, _, rfl⟩ := List.mem_map.1 hp; rfl)
  refine ⟨⟨s, {}, {}, addFonts [] (fontsIn (readOps office ++ readOps auto))⟩, ?_, hs⟩
  · rw [read_styleFile m hm lb o root as hroot has office auto h]
    exact applyAll_parts _ {} s {} {} (by rw [h1]; exact hs) (by rw [hf]; rfl) (by rw [hp]; rfl)

theorem nameRead_nil (s : Style Body) : nameRead s = [] ↔ Unnamed s := by
  unfold nameRead Unnamed
  split
  · rename_i h; simp [h]
  · rename_i h; simp [h]

/-- **C52**, named styles: in a file with styles in any order, with and without names, a style with a name is found
under it after reading, the same style, if it is the last with its name; the styles without a name do not
replace it. -/
theorem C52_named (m : Refs.Ints) (hm : m.max = maxU32) (lb : Bool) (o : Origin) (root : Str)
    (as : List (Bool × Str × Str)) (hroot : root = tDocStyles ∨ root = tDocContent ∨ root = tDocFlat) (has : AttrsOk as)
    (office auto : List (Kind × Style Body)) (h : FileOk o office auto)
    (hc : office.length + auto.length < 4294967296) :
    ∃ bk, readFile m o {} (output lb (.dtd "UTF-8".toList :: docCalls (styleFile root as office auto))) = .ok bk
      ∧ ∀ before k s after, office ++ auto = before ++ (k, s) :: after → ¬ Unnamed s →
        (∀ s', (k, s') ∈ after → s'.name = s.name → Unnamed s') →
        ∃ t, bk.styles.get? k s.name = some t ∧ SameStyle s t := by
  obtain ⟨bk, h1, h2⟩ := file_back m hm lb o root as hroot has office auto h hc
  refine ⟨bk, h1, ?_⟩
  intro before k s after he hn hl
  refine ⟨⟨s.name, s.body.back k⟩, ?_, back_same k s⟩
  have hnm : nameRead s = s.name := nameRead_named s fun hu => hn (.inl hu)
  have hne : s.name ≠ [] := fun hu => hn (.inr hu)
  rw [he, List.map_append, List.map_cons, addsAll_append] at h2
  cases h3 : addsAll ({} : Stores Body) (before.map asRead) with
  | error e => rw [h3] at h2; cases h2
  | ok b1 =>
    rw [h3] at h2
    have h2 : addsAll b1 (asRead (k, s) :: after.map asRead) = .ok bk.styles := h2
    rw [addsAll] at h2
    cases ha : b1.add (asRead (k, s)).1 (asRead (k, s)).2 with
    | error e => rw [ha] at h2; cases h2
    | ok r =>
      obtain ⟨b2, r⟩ := r
      rw [ha] at h2
      have hg := add_get b1 b2 _ _ r ha
      have hr : r = s.name := by
        have := hg.1 (by show nameRead s ≠ []; rw [hnm]; exact hne)
        rw [this]; exact hnm
      subst hr
      refine addsAll_keep (after.map asRead) k s.name ⟨s.name, s.body.back k⟩ b2 bk.styles h2 ?_ ?_ hne rfl
      · rw [hg.2, if_pos ⟨rfl, rfl⟩]; rfl
      · intro y hy hyn
        obtain ⟨⟨k', s'⟩, hp, he'⟩ := List.mem_map.1 hy
        cases he'
        simp only at hyn
        rcases nameRead_cases s' with hc | hc
        · rw [hc] at hyn
          have := hl s' hp hyn
          rw [← nameRead_nil, hc, hyn] at this
          exact absurd this hne
        · rw [hc] at hyn; exact absurd hyn.symm hne

/-- **C52** (part), styles without a name: if no style in the file has a name of the form the crate generates (prefix
and number), then every style without a name is found, the same style, under a name no other style of its kind
has. What is missing: with such names in the file a style without a name can be replaced, see
`C52_counterexample`. -/
theorem C52_unnamed_partial (m : Refs.Ints) (hm : m.max = maxU32) (lb : Bool) (o : Origin) (root : Str)
    (as : List (Bool × Str × Str)) (hroot : root = tDocStyles ∨ root = tDocContent ∨ root = tDocFlat) (has : AttrsOk as)
    (office auto : List (Kind × Style Body)) (h : FileOk o office auto)
    (hc : office.length + auto.length < 4294967296)
    (hg : ∀ k s, (k, s) ∈ office ++ auto → ¬ Unnamed s → ¬ Generated k s.name) :
    ∃ bk, readFile m o {} (output lb (.dtd "UTF-8".toList :: docCalls (styleFile root as office auto))) = .ok bk
      ∧ ∃ names : List Str, names.length = (office ++ auto).length
        ∧ ∀ before k s after nb n na, office ++ auto = before ++ (k, s) :: after → names = nb ++ n :: na →
            before.length = nb.length →
            (¬ Unnamed s → n = s.name)
            ∧ (Unnamed s → (∃ t, bk.styles.get? k n = some t ∧ SameStyle { s with name := n } t)
                ∧ ∀ k' s' n', ((k', s'), n') ∈ (before.zip nb) ++ (after.zip na) → k' = k → n' ≠ n) := by
  obtain ⟨bk, h1, h2⟩ := file_back m hm lb o root as hroot has office auto h hc
  obtain ⟨qs, q1, q2, _, q4, _, q6⟩ := addsAll_refs _ _ _ h2
  refine ⟨bk, h1, qs.map Prod.snd, ?_, ?_⟩
  · rw [List.length_map, ← List.length_map (f := Prod.fst) (as := qs), q1, List.length_map]
  · intro before k s after nb n na he hnames hlen
    -- split `qs` at the same place
    obtain ⟨qb, qr, rfl, hqb, hqr⟩ := List.map_eq_append_iff.1 hnames
    obtain ⟨q, qa, rfl, hq, hqa⟩ := List.map_eq_cons_iff.1 hqr
    rw [List.map_append, List.map_cons, he, List.map_append, List.map_cons] at q1
    have hl : qb.length = before.length := by
      rw [hlen, ← hqb, List.length_map]
    obtain ⟨e1, e2⟩ := List.append_inj q1 (by rw [List.length_map, List.length_map, hl])
    injection e2 with e2 e3
    have hqk : q.1.1 = k := by rw [e2]; rfl
    have hqn : q.1.2.name = nameRead s := by rw [e2]; rfl
    have hqbd : q.1.2.body = s.body.back k := by rw [e2]; rfl
    have hin : q ∈ qb ++ q :: qa := by simp
    have hs : (k, s) ∈ office ++ auto := by rw [he]; simp
    constructor
    · intro hn
      have h3 : q.1.2.name ≠ [] := by
        rw [hqn]; intro hx; exact hn ((nameRead_nil s).1 hx)
      rw [← hq, (q2 q hin).1 h3, hqn]
      exact nameRead_named s fun hu => hn (.inl hu)
    · intro hn
      have h3 : q.1.2.name = [] := by rw [hqn]; exact (nameRead_nil s).2 hn
      -- no later one has the same reference
      have hlater : ∀ q' ∈ qa, q'.1.1 = q.1.1 → q'.2 ≠ q.2 := by
        intro q' hq' hk'
        by_cases hn' : q'.1.2.name = []
        · obtain ⟨xs, ys, rfl⟩ := List.append_of_mem hq'
          have := q4 (qb ++ q :: xs) q' ys (by simp) hn' q (by simp) hk'.symm
          exact fun hx => this hx.symm
        · have h4 := (q2 q' (by simp [hq'])).1 hn'
          have h5 := (q2 q hin).2 h3
          rw [h4]
          intro hx
          rw [← hx, hqk] at h5
          have h6 : q'.1 ∈ after.map asRead := by rw [← e3]; exact List.mem_map.2 ⟨q', hq', rfl⟩
          obtain ⟨⟨k', s'⟩, hp, he'⟩ := List.mem_map.1 h6
          have hkk : k' = k := by
            rw [hqk, ← he'] at hk'; exact hk'
          subst hkk
          have hnn : q'.1.2.name = nameRead s' := by rw [← he']; rfl
          rw [hnn] at hn' h5
          have hns : ¬ Unnamed s' := fun hx => hn' ((nameRead_nil s').2 hx)
          rw [nameRead_named s' fun hu => hns (.inl hu)] at h5
          exact hg k' s' (by rw [he]; simp [hp]) hns h5
      refine ⟨⟨⟨n, s.body.back k⟩, ?_, ?_⟩, ?_⟩
      · have := q6 qb q qa rfl hlater
        rw [hqk, hq, hqbd] at this
        exact this
      · exact back_same k { s with name := n }
      · intro k' s' n' hz hk
        subst hk
        have zipmem : ∀ (l : List (Kind × Style Body)) (ql : List ((Kind × Style Body) × Str)),
            ql.map Prod.fst = l.map asRead → ∀ x, x ∈ l.zip (ql.map Prod.snd) →
            ∃ q' ∈ ql, q'.1 = asRead x.1 ∧ q'.2 = x.2 := by
          intro l
          induction l with
          | nil => intro ql _ x hx; simp at hx
          | cons a l ih =>
            intro ql hql x hx
            cases ql with
            | nil => simp at hx
            | cons c ql =>
              rw [List.map_cons, List.map_cons] at hql
              injection hql with hq1 hq2
              rw [List.map_cons, List.zip_cons_cons] at hx
              rcases List.mem_cons.1 hx with rfl | hx
              · exact ⟨c, List.mem_cons_self, hq1, rfl⟩
              · obtain ⟨q', h7, h8⟩ := ih ql hq2 x hx
                exact ⟨q', List.mem_cons_of_mem _ h7, h8⟩
        rcases List.mem_append.1 hz with hz | hz
        · rw [← hqb] at hz
          obtain ⟨q', h7, h8, h9⟩ := zipmem before qb e1 _ hz
          have := q4 qb q qa rfl h3 q' h7 (by rw [h8, hqk]; rfl)
          rw [h9, hq] at this
          exact this
        · rw [← hqa] at hz
          obtain ⟨q', h7, h8, h9⟩ := zipmem after qa e3 _ hz
          have := hlater q' h7 (by rw [h8, hqk]; rfl)
          rw [h9, hq] at this
          exact this

end Verif.Style
