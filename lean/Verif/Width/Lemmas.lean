import Verif.Width.Model

/-!
# Lemmas about lengths and about the styles of columns and rows
-/

set_option autoImplicit false

namespace Verif.Width

open Xml Codec Book Style

/-! ## Lengths -/

theorem cut_hit (a unit : Str) (h : unit.length = 2) : cutUnit unit (a ++ unit) = some a := by
  unfold cutUnit
  rw [if_pos (by rw [List.isSuffixOf_iff_suffix]; exact List.suffix_append _ _)]
  rw [List.length_append, h, Nat.add_sub_cancel, List.take_left']
  rfl

theorem cut_miss (a unit unit' : Str) (h : unit.length = 2) (h' : unit'.length = 2) (hne : unit' ≠ unit) :
    cutUnit unit' (a ++ unit) = none := by
  unfold cutUnit
  rw [if_neg]
  rw [List.isSuffixOf_iff_suffix]
  rintro ⟨t, ht⟩
  exact hne (List.append_inj_right' ht (by rw [h, h']))

/-- The number of a length. -/
def Spec.number : Length → Option F64
  | .default => none
  | .cm v | .mm v | .inch v | .pt v | .pc v | .em v => some v

/-- The number of the length is written in a way that it is read. The standard library of Rust promises this for all `f64`
that are not NaN. -/
def Spec.LengthOk (f : Floats) (l : Length) : Prop := ∀ v, Spec.number l = some v → f.parse (f.fmt v) = some v

/-- The length that was written is read. -/
theorem parse_fmt (f : Floats) (l : Length) (hl : l ≠ .default)
    (hf : Spec.LengthOk f l) : parseLength f (fmtLength f l) = some l := by
  have hit : ∀ (a unit : Str), unit.length = 2 → cutUnit unit (a ++ unit) = some a := cut_hit
  cases l with
  | default => exact absurd rfl hl
  | cm v => rw [parseLength, fmtLength, cut_hit _ _ rfl]; simp [hf v rfl]
  | mm v =>
    rw [parseLength, fmtLength, cut_miss _ _ _ rfl rfl (by decide), cut_hit _ _ rfl]; simp [hf v rfl]
  | inch v =>
    rw [parseLength, fmtLength, cut_miss _ _ _ rfl rfl (by decide), cut_miss _ _ _ rfl rfl (by decide), cut_hit _ _ rfl]
    simp [hf v rfl]
  | pt v =>
    rw [parseLength, fmtLength, cut_miss _ _ _ rfl rfl (by decide), cut_miss _ _ _ rfl rfl (by decide),
      cut_miss _ _ _ rfl rfl (by decide), cut_hit _ _ rfl]
    simp [hf v rfl]
  | pc v =>
    rw [parseLength, fmtLength, cut_miss _ _ _ rfl rfl (by decide), cut_miss _ _ _ rfl rfl (by decide),
      cut_miss _ _ _ rfl rfl (by decide), cut_miss _ _ _ rfl rfl (by decide), cut_hit _ _ rfl]
    simp [hf v rfl]
  | em v =>
    rw [parseLength, fmtLength, cut_miss _ _ _ rfl rfl (by decide), cut_miss _ _ _ rfl rfl (by decide),
      cut_miss _ _ _ rfl rfl (by decide), cut_miss _ _ _ rfl rfl (by decide), cut_miss _ _ _ rfl rfl (by decide),
      cut_hit _ _ rfl]
    simp [hf v rfl]

/-! ## Attributes -/

theorem val_put (k k' v : Str) (m : Attrs) : val k (put k' v m) = if k' = k then some v else val k m := by
  induction m with
  | nil => rfl
  | cons a m ih =>
    rw [put]
    by_cases h : a.1 = k'
    · rw [if_pos h, val, val, h]
      split <;> rfl
    · rw [if_neg h, val, val, ih]
      by_cases h2 : a.1 = k
      · rw [if_pos h2, if_pos h2, if_neg (fun e => h (h2.trans e.symm))]
      · rw [if_neg h2, if_neg h2]

theorem val_del (k k' : Str) (m : Attrs) (h : k' ≠ k) : val k (del k' m) = val k m := by
  induction m with
  | nil => rfl
  | cons a m ih =>
    rw [del]
    by_cases h2 : a.1 = k'
    · rw [if_pos h2, val, if_neg (by rw [h2]; exact h)]
    · rw [if_neg h2, val, val, ih]

theorem keys_put (k v : Str) (m : Attrs) : ∀ a ∈ put k v m, a.1 = k ∨ a ∈ m := by
  induction m with
  | nil =>
    intro a ha
    obtain rfl := List.mem_singleton.1 ha
    exact .inl rfl
  | cons b m ih =>
    intro a ha
    rw [put] at ha
    split at ha
    · rcases List.mem_cons.1 ha with h | h
      · exact .inl (by rw [h])
      · exact .inr (List.mem_cons_of_mem _ h)
    · rcases List.mem_cons.1 ha with h | h
      · exact .inr (by rw [h]; exact List.mem_cons_self)
      · rcases ih a h with h | h
        · exact .inl h
        · exact .inr (List.mem_cons_of_mem _ h)

theorem keys_del (k : Str) (m : Attrs) : ∀ a ∈ del k m, a ∈ m := by
  induction m with
  | nil => intro a ha; cases ha
  | cons b m ih =>
    intro a ha
    rw [del] at ha
    split at ha
    · exact List.mem_cons_of_mem _ ha
    · rcases List.mem_cons.1 ha with h | h
      · rw [h]; exact List.mem_cons_self
      · exact List.mem_cons_of_mem _ (ih a h)

/-- The two attributes are different. -/
def Dim.Ok (d : Dim) : Prop := d.size ≠ d.optimal ∧ Xml.Spec.Name d.size ∧ Xml.Spec.Name d.optimal

theorem colDim_ok : colDim.Ok := ⟨by decide +kernel, by decide +kernel, by decide +kernel⟩
theorem rowDim_ok : rowDim.Ok := ⟨by decide +kernel, by decide +kernel, by decide +kernel⟩

variable (d : Dim) (hd : d.Ok) (f : Floats)

include hd in
theorem val_setSize_optimal (w : Length) (m : Attrs) : val d.optimal (setSize d f w m) = val d.optimal m := by
  unfold setSize
  split
  · exact val_del _ _ _ hd.1
  · rw [val_put, if_neg hd.1]

include hd in
theorem val_toStyle_optimal (w : Length) (m : Attrs) :
    val d.optimal (toStyle d f w m) = if w = .default then some "true".toList else val d.optimal m := by
  unfold toStyle
  split
  · rw [val_setSize_optimal d hd, val_put, if_pos rfl]
  · rw [val_setSize_optimal d hd]

theorem val_toStyle_size (w : Length) (m : Attrs) (hw : w ≠ .default) :
    val d.size (toStyle d f w m) = some (fmtLength f w) := by
  unfold toStyle setSize
  rw [if_neg hw, if_neg fun h => hw h.2, val_put, if_pos rfl]

include hd in
theorem keys_toStyle (w : Length) (m : Attrs) (h : KeysOk m) : KeysOk (toStyle d f w m) := by
  have hput : ∀ k v m, Xml.Spec.Name k → KeysOk m → KeysOk (put k v m) := by
    intro k v m hk hm a ha
    rcases keys_put k v m a ha with h | h
    · rw [h]; exact hk
    · exact hm a h
  have hset : ∀ w m, KeysOk m → KeysOk (setSize d f w m) := by
    intro w m hm
    unfold setSize
    split
    · exact fun a ha => hm a (keys_del _ _ a ha)
    · exact hput _ _ _ hd.2.1 hm
  unfold toStyle
  split
  · exact hset _ _ (hput _ _ _ hd.2.2 h)
  · exact hset _ _ h

/-- The width a style says. -/
def says (m : Attrs) : Option Length :=
  match flagOr (val d.optimal m) with
  | none => none
  | some true => some .default
  | some false => lengthOr f (val d.size m)

/-- All widths written to a style. -/
def toStyleAll (ws : List Length) (m : Attrs) : Attrs := ws.foldl (fun m w => toStyle d f w m) m

include hd in
/-- **The width a style says in the end**: the last one, unless one of them is the default or the style says that its
width is computed. -/
theorem says_all (ws : List Length) (hf : ∀ w ∈ ws, Spec.LengthOk f w) : ∀ m : Attrs, says d f (toStyleAll d f ws m)
    = if .default ∈ ws then some .default
      else match flagOr (val d.optimal m), ws.getLast? with
        | none, _ => none
        | some true, _ => some .default
        | some false, none => lengthOr f (val d.size m)
        | some false, some w => some w := by
  induction ws with
  | nil =>
    intro m
    unfold toStyleAll says
    simp only [List.foldl_nil, List.not_mem_nil, if_false, List.getLast?_nil]
    cases flagOr (val d.optimal m) with
    | none => rfl
    | some b => cases b <;> rfl
  | cons w ws ih =>
    intro m
    have : toStyleAll d f (w :: ws) m = toStyleAll d f ws (toStyle d f w m) := rfl
    rw [this, ih (fun w h => hf w (List.mem_cons_of_mem _ h)), val_toStyle_optimal d hd]
    by_cases hw : w = .default
    · subst hw
      rw [if_pos rfl, if_pos List.mem_cons_self]
      split
      · rfl
      · rfl
    · rw [if_neg hw]
      have hmem : (.default ∈ w :: ws) ↔ (.default ∈ ws) := by
        constructor
        · intro h
          rcases List.mem_cons.1 h with h | h
          · exact absurd h.symm hw
          · exact h
        · exact List.mem_cons_of_mem _
      by_cases hm : .default ∈ ws
      · rw [if_pos hm, if_pos (hmem.2 hm)]
      · rw [if_neg hm, if_neg (fun h => hm (hmem.1 h)), val_toStyle_size d f w m hw, List.getLast?_cons]
        cases hg : ws.getLast? with
        | some w' =>
          cases flagOr (val d.optimal m) with
          | none => rfl
          | some b => cases b <;> rfl
        | none =>
          cases flagOr (val d.optimal m) with
          | none => rfl
          | some b =>
            cases b with
            | true => rfl
            | false => exact parse_fmt f w hw (hf w List.mem_cons_self)

/-! ## All headers -/

/-- The loop over the styles and widths of headers. -/
def sizesRun (b : Stores Body) : List (Option String × Length) → Except NameFail (Stores Body × List (Option String))
  | [] => .ok (b, [])
  | (st, w) :: l =>
    match sizeStep d f b st w with
    | .error e => .error e
    | .ok (b, st) =>
      match sizesRun b l with
      | .error e => .error e
      | .ok (b, ns) => .ok (b, st :: ns)

/-- The widths of the headers with a style. -/
def users (n : Str) (l : List (Option String × Length)) : List Length :=
  l.filterMap fun p => if p.1.map String.toList = some n then some p.2 else none

theorem get_modify (b : Stores Body) (k k' : Kind) (n n' : Str) (g : Style Body → Style Body) :
    (b.modify k n g).get? k' n' = if k = k' ∧ n = n' then (b.get? k' n').map g else b.get? k' n' := by
  unfold Stores.modify Stores.get?
  rw [get_setStore]
  by_cases hk : k' = k
  · subst hk
    rw [if_pos rfl, HMap.get?_modify]
    by_cases hn : n = n'
    · rw [if_pos hn, if_pos ⟨rfl, hn⟩]
    · rw [if_neg hn, if_neg fun h => hn h.2]
  · rw [if_neg hk, if_neg fun h => hk h.1.symm]

/-- The style of a new width. -/
def newStyle (n : Str) (w : Length) : Style Body := ⟨n, { main := toStyle d f w [] }⟩

/-- What one step does. -/
theorem step_spec (b b' : Stores Body) (st st' : Option String) (w : Length)
    (h : sizeStep d f b st w = .ok (b', st')) :
    (∃ n, st = some n ∧ st' = some n ∧ ∀ k' n', b'.get? k' n'
        = if d.kind = k' ∧ n.toList = n' then (b.get? k' n').map (toBody d f w) else b.get? k' n')
    ∨ (st = none ∧ w = .default ∧ st' = none ∧ b' = b)
    ∨ (st = none ∧ w ≠ .default ∧ ∃ n, st' = some (String.ofList n) ∧ b.get? d.kind n = none
        ∧ ∀ k' n', b'.get? k' n' = if d.kind = k' ∧ n = n' then some (newStyle d f n w) else b.get? k' n') := by
  unfold sizeStep at h
  cases st with
  | some n =>
    simp only [reduceCtorEq, and_false, if_false] at h
    cases h
    exact .inl ⟨n, rfl, rfl, fun k' n' => get_modify b d.kind k' n.toList n' _⟩
  | none =>
    by_cases hw : w = .default
    · rw [if_neg fun h => h.1 hw] at h
      cases h
      exact .inr (.inl ⟨rfl, hw, rfl, rfl⟩)
    · rw [if_pos ⟨hw, rfl⟩] at h
      cases hadd : b.add d.kind ⟨[], {}⟩ with
      | error e => rw [hadd] at h; cases h
      | ok r =>
        obtain ⟨b1, n⟩ := r
        rw [hadd] at h
        simp only at h
        cases h
        obtain ⟨h1, h2, h3⟩ := C40_any_state b b1 d.kind {} n hadd
        refine .inr (.inr ⟨rfl, hw, n, rfl, h1, fun k' n' => ?_⟩)
        rw [get_modify, String.toList_ofList]
        by_cases hc : d.kind = k' ∧ n = n'
        · obtain ⟨rfl, rfl⟩ := hc
          rw [if_pos ⟨rfl, rfl⟩, if_pos ⟨rfl, rfl⟩, h2]
          rfl
        · rw [if_neg hc, if_neg hc, h3]
          intro he
          cases he
          exact hc ⟨rfl, rfl⟩

/-- What happens to one header. -/
def HeaderDone (b b' : Stores Body) (p : (Option String × Length) × Option String) : Prop :=
  (∃ n, p.1.1 = some n ∧ p.2 = some n)
  ∨ (p.1.1 = none ∧ p.1.2 = .default ∧ p.2 = none)
  ∨ (p.1.1 = none ∧ p.1.2 ≠ .default ∧ ∃ n, p.2 = some (String.ofList n) ∧ b.get? d.kind n = none
      ∧ b'.get? d.kind n = some (newStyle d f n p.1.2))

/-- New styles have one header each. -/
def NewOnce (p q : (Option String × Length) × Option String) : Prop := p.1.1 = none → p.2 ≠ none → p.2 ≠ q.2

/-- What happens to all headers, if the styles of all headers are stored. -/
theorem run_spec (l : List (Option String × Length)) : ∀ (b b' : Stores Body) (ns : List (Option String)),
    sizesRun d f b l = .ok (b', ns) → (∀ p ∈ l, ∀ n, p.1 = some n → b.get? d.kind n.toList ≠ none) →
    ns.length = l.length
    ∧ (∀ p ∈ l.zip ns, HeaderDone d f b b' p)
    ∧ (∀ n s, b.get? d.kind n = some s → b'.get? d.kind n
        = some { s with body := { s.body with main := toStyleAll d f (users n l) s.body.main } })
    ∧ (∀ n, b'.get? d.kind n ≠ none → b.get? d.kind n ≠ none ∨ some (String.ofList n) ∈ ns)
    ∧ (∀ k n, k ≠ d.kind → b'.get? k n = b.get? k n)
    ∧ (l.zip ns).Pairwise fun p q => NewOnce p q ∧ NewOnce q p := by
  induction l with
  | nil =>
    intro b b' ns h _
    cases h
    exact ⟨rfl, (fun p hp => by cases hp), fun n s hs => hs, fun n hn => .inl hn, fun _ _ _ => rfl, List.Pairwise.nil⟩
  | cons p l ih =>
    intro b b' ns h hst
    obtain ⟨st, w⟩ := p
    rw [sizesRun] at h
    cases hs : sizeStep d f b st w with
    | error e => rw [hs] at h; cases h
    | ok r =>
      obtain ⟨b1, st1⟩ := r
      rw [hs] at h
      simp only at h
      cases hr : sizesRun d f b1 l with
      | error e => rw [hr] at h; cases h
      | ok r =>
        obtain ⟨b2, ns2⟩ := r
        rw [hr] at h
        cases h
        have hstep := step_spec d f b b1 st st1 w hs
        -- what is stored stays stored
        have hkeep : ∀ n, b.get? d.kind n ≠ none → b1.get? d.kind n ≠ none := by
          intro n hn
          rcases hstep with ⟨m, _, _, hg⟩ | ⟨_, _, _, rfl⟩ | ⟨_, _, m, _, hm, hg⟩
          · rw [hg]
            split
            · simpa using hn
            · exact hn
          · exact hn
          · rw [hg]
            split
            · simp
            · exact hn
        obtain ⟨i1, i2, i3, i4, i5, i6⟩ := ih b1 b' ns2 hr fun p hp n hn => hkeep _ (hst p (List.mem_cons_of_mem _ hp) n hn)
        -- names of the other headers are stored in b
        have hold : ∀ p ∈ l, ∀ n, p.1 = some n → b.get? d.kind n.toList ≠ none :=
          fun p hp => hst p (List.mem_cons_of_mem _ hp)
        have hnone : ∀ n, b1.get? d.kind n = none → b.get? d.kind n = none := by
          intro n hn
          cases hg : b.get? d.kind n with
          | none => rfl
          | some s => exact absurd hn (hkeep n (by rw [hg]; simp))
        have hnouser : ∀ n, b.get? d.kind n = none → users n l = [] := by
          intro n hn
          unfold users
          rw [List.filterMap_eq_nil_iff]
          intro p hp
          rw [if_neg]
          intro he
          cases hp1 : p.1 with
          | none => rw [hp1] at he; cases he
          | some m =>
            rw [hp1] at he
            have := hold p hp m hp1
            rw [Option.some.inj he] at this
            exact this hn
        refine ⟨by simp [i1], ?_, ?_, ?_, ?_, ?_⟩
        · intro p hp
          rcases List.mem_cons.1 hp with rfl | hp
          · rcases hstep with ⟨m, h1, h2, _⟩ | ⟨h1, h2, h3, _⟩ | ⟨h1, h2, m, h3, h4, h5⟩
            · exact .inl ⟨m, h1, h2⟩
            · exact .inr (.inl ⟨h1, h2, h3⟩)
            · refine .inr (.inr ⟨h1, h2, m, h3, h4, ?_⟩)
              have := i3 m (newStyle d f m w) (by rw [h5, if_pos ⟨rfl, rfl⟩])
              rw [this, hnouser m h4]
              rfl
          · rcases i2 p hp with h | h | ⟨h1, h2, m, h3, h4, h5⟩
            · exact .inl h
            · exact .inr (.inl h)
            · exact .inr (.inr ⟨h1, h2, m, h3, hnone m h4, h5⟩)
        · intro n s hg
          rcases hstep with ⟨m, rfl, h2, h3⟩ | ⟨rfl, h2, h3, rfl⟩ | ⟨rfl, h2, m, h3, h4, h5⟩
          · by_cases hn : m.toList = n
            · have := i3 n (toBody d f w s) (by rw [h3, if_pos ⟨rfl, hn⟩, hg]; rfl)
              rw [this]
              have hu : users n ((some m, w) :: l) = w :: users n l := by
                unfold users
                rw [List.filterMap_cons, Option.map_some, hn, if_pos rfl]
              rw [hu]
              rfl
            · have := i3 n s (by rw [h3, if_neg fun h => hn h.2, hg])
              rw [this]
              have hu : users n ((some m, w) :: l) = users n l := by
                unfold users
                rw [List.filterMap_cons, Option.map_some, if_neg fun h => hn (Option.some.inj h)]
              rw [hu]
          · have := i3 n s hg
            rw [this]
            rfl
          · have hne : m ≠ n := by
              intro he
              rw [he, hg] at h4
              cases h4
            have := i3 n s (by rw [h5, if_neg fun h => hne h.2, hg])
            rw [this]
            rfl
        · intro n hn
          rcases i4 n hn with h | h
          · rcases hstep with ⟨m, _, h2, h3⟩ | ⟨_, _, _, rfl⟩ | ⟨_, _, m, h3, h4, h5⟩
            · rw [h3] at h
              split at h
              · exact .inl (by simpa using h)
              · exact .inl h
            · exact .inl h
            · rw [h5] at h
              split at h
              · rename_i hc
                refine .inr ?_
                rw [h3, hc.2]
                exact List.mem_cons_self
              · exact .inl h
          · exact .inr (List.mem_cons_of_mem _ h)
        · intro k n hk
          rw [i5 k n hk]
          rcases hstep with ⟨m, _, h2, h3⟩ | ⟨_, _, _, rfl⟩ | ⟨_, _, m, h3, h4, h5⟩
          · rw [h3, if_neg fun h => hk h.1.symm]
          · rfl
          · rw [h5, if_neg fun h => hk h.1.symm]
        · refine List.Pairwise.cons ?_ i6
          intro q hq
          -- the new name of this header is not the name of another
          have hqn : ∀ n, b1.get? d.kind n ≠ none → b.get? d.kind n = none → q.2 ≠ some (String.ofList n) := by
            intro n h1 h2 he
            rcases i2 q hq with ⟨m, hm1, hm2⟩ | ⟨_, _, hm⟩ | ⟨_, _, m, hm1, hm2, _⟩
            · rw [hm2] at he
              have he := Option.some.inj he
              have := hold q.1 (List.of_mem_zip (a := q.1) (b := q.2) hq).1 m hm1
              rw [he, String.toList_ofList] at this
              exact this h2
            · rw [hm] at he; cases he
            · rw [hm1] at he
              have he := congrArg String.toList (Option.some.inj he)
              rw [String.toList_ofList, String.toList_ofList] at he
              rw [he] at hm2
              exact h1 hm2
          rcases hstep with ⟨m, rfl, rfl, h3⟩ | ⟨rfl, h2, rfl, rfl⟩ | ⟨rfl, h2, m, rfl, h4, h5⟩
          · refine ⟨(fun h => by cases h), ?_⟩
            intro h1 h2 he
            rcases i2 q hq with ⟨m', hm1, _⟩ | ⟨_, _, hm⟩ | ⟨_, _, m', hm1, hm2, _⟩
            · rw [h1] at hm1; cases hm1
            · exact h2 hm
            · rw [hm1] at he
              simp only at he
              have he := Option.some.inj he
              have := hst (some m, w) List.mem_cons_self m rfl
              rw [← he, String.toList_ofList] at this
              exact this (hnone _ hm2)
          · refine ⟨fun _ h => absurd rfl h, fun _ h he => h ?_⟩
            rw [he]
          · refine ⟨fun _ _ he => ?_, fun _ _ he => ?_⟩
            · exact hqn m (by rw [h5, if_pos ⟨rfl, rfl⟩]; simp) h4 he.symm
            · exact hqn m (by rw [h5, if_pos ⟨rfl, rfl⟩]; simp) h4 he

end Verif.Width
