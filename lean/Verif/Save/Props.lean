import Verif.Save.Spec

/-!
# C54, C55, C56: saving

`C54`: a failed save leaves the previous file intact.  `C55`: a successful save has stored every byte.  `C56`: the
buffer returned is the document.
-/

set_option autoImplicit false

namespace Verif.Save

/-! ### Lemmas -/

theorem put_eq (c : Bytes) : ∀ (p : Nat) (x : UInt8),
    put c p x = c.take p ++ List.replicate (p - c.length) 0 ++ [x] ++ c.drop (p + 1) := by
  induction c with
  | nil =>
    intro p x
    induction p with
    | zero => rfl
    | succ p ih => rw [put, ih]; simp [List.replicate_succ]
  | cons y c ih =>
    intro p x
    cases p with
    | zero => simp [put]
    | succ p => rw [put, ih]; simp

theorem put_length (c : Bytes) (p : Nat) (x : UInt8) : (put c p x).length = max c.length (p + 1) := by
  rw [put_eq]; simp only [List.length_append, List.length_take, List.length_replicate, List.length_drop,
    List.length_singleton]; omega

theorem take_put (c : Bytes) (p : Nat) (x : UInt8) :
    (put c p x).take (p + 1) = c.take p ++ List.replicate (p - c.length) 0 ++ [x] := by
  rw [put_eq]
  apply List.take_left'
  simp only [List.length_append, List.length_take, List.length_replicate, List.length_singleton]; omega

theorem drop_put (c : Bytes) (p : Nat) (x : UInt8) (k : Nat) :
    (put c p x).drop (p + 1 + k) = c.drop (p + 1 + k) := by
  rw [put_eq, ← List.drop_drop]
  rw [List.drop_left' (by simp only [List.length_append, List.length_take, List.length_replicate,
    List.length_singleton]; omega)]
  rw [List.drop_drop]

theorem overwrite_eq (b : Bytes) : ∀ (c : Bytes) (p : Nat), b ≠ [] →
    overwrite c p b = c.take p ++ List.replicate (p - c.length) 0 ++ b ++ c.drop (p + b.length) := by
  induction b with
  | nil => intro c p h; exact absurd rfl h
  | cons x b ih =>
    intro c p _
    rw [overwrite]
    cases b with
    | nil => rw [overwrite, put_eq]; rfl
    | cons y b =>
      rw [ih _ _ (by simp), take_put, drop_put, put_length]
      have : p + 1 - max c.length (p + 1) = 0 := by omega
      rw [this]
      have e : p + 1 + (y :: b).length = p + (x :: y :: b).length := by simp only [List.length_cons]; omega
      rw [e]
      simp

theorem overwrite_append (a : Bytes) : ∀ (c : Bytes) (p : Nat) (b : Bytes),
    overwrite c p (a ++ b) = overwrite (overwrite c p a) (p + a.length) b := by
  induction a with
  | nil => intro c p b; rfl
  | cons x a ih =>
    intro c p b
    rw [List.cons_append, overwrite, overwrite, ih]
    congr 1
    simp only [List.length_cons]; omega

theorem overwrite_nil (c : Bytes) (p : Nat) : overwrite c p [] = c := by cases c <;> rfl

/-- Writing as a step of the ideal file. -/
theorem idealStep_write (s : Bytes × Nat) (b : Bytes) :
    idealStep s (.write b) = (overwrite s.1 s.2 b, s.2 + b.length) := by
  unfold idealStep
  by_cases h : b = []
  · subst h; simp only [if_true]; rw [overwrite_nil]; rfl
  · simp only; rw [if_neg h, overwrite_eq b _ _ h]

/-- What a loop of writes has done: nothing is lost, and after a success nothing is left. -/
theorem writeLoop_spec (sched : Sched) : ∀ (k : Nat) (f : File) (b : Bytes),
    overwrite (writeLoop sched k f b).2.1.content (writeLoop sched k f b).2.1.pos (writeLoop sched k f b).2.2
        = overwrite f.content f.pos b
      ∧ (writeLoop sched k f b).2.1.pos + (writeLoop sched k f b).2.2.length = f.pos + b.length
      ∧ ((writeLoop sched k f b).1 = true → (writeLoop sched k f b).2.2 = []) := by
  intro k
  induction k with
  | zero =>
    intro f b
    cases b with
    | nil => exact ⟨rfl, rfl, fun _ => rfl⟩
    | cons x b => exact ⟨rfl, rfl, fun h => by simp [writeLoop] at h⟩
  | succ k ih =>
    intro f b
    cases b with
    | nil => exact ⟨rfl, rfl, fun _ => rfl⟩
    | cons x b =>
      rw [writeLoop]
      generalize hw : f.write sched (x :: b) = r
      obtain ⟨n, f'⟩ := r
      cases n with
      | none =>
        simp only
        have : f'.content = f.content ∧ f'.pos = f.pos := by
          unfold File.write at hw
          split at hw
          · rw [← (Prod.mk.inj hw).2]; exact ⟨rfl, rfl⟩
          · split at hw
            · rw [← (Prod.mk.inj hw).2]; exact ⟨rfl, rfl⟩
            · simp at hw
        rw [this.1, this.2]
        exact ⟨rfl, rfl, fun h => by simp at h⟩
      | some n =>
        simp only
        have h : f'.content = overwrite f.content f.pos ((x :: b).take n) ∧ f'.pos = f.pos + n
            ∧ n ≤ (x :: b).length := by
          unfold File.write at hw
          split at hw
          · simp at hw
          · rename_i m _
            split at hw
            · simp at hw
            · have h1 := Option.some.inj (Prod.mk.inj hw).1
              rw [← (Prod.mk.inj hw).2]
              refine ⟨?_, ?_, ?_⟩
              · simp only
                congr 1
                rw [← h1, List.take_eq_take_iff]; omega
              · simp only; omega
              · omega
        obtain ⟨i1, i2, i3⟩ := ih f' ((x :: b).drop n)
        refine ⟨?_, ?_, i3⟩
        · rw [i1, h.1, h.2.1]
          have := overwrite_append ((x :: b).take n) f.content f.pos ((x :: b).drop n)
          rw [List.take_append_drop] at this
          rw [this]
          congr 1
          rw [List.length_take]; omega
        · rw [i2, h.2.1, List.length_drop]; omega

/-- A buffered file stands for the ideal file. -/
def View (w : Buffered) (s : Bytes × Nat) : Prop :=
  overwrite w.file.content w.file.pos w.buf = s.1 ∧ w.file.pos + w.buf.length = s.2

theorem view_flush (sched : Sched) (w : Buffered) (s : Bytes × Nat) (h : View w s) :
    View (w.flush sched).2 s ∧ ((w.flush sched).1 = true → (w.flush sched).2.buf = []) := by
  obtain ⟨h1, h2, h3⟩ := writeLoop_spec sched w.buf.length w.file w.buf
  exact ⟨⟨h1.trans h.1, h2.trans h.2⟩, h3⟩

theorem view_append (w : Buffered) (s : Bytes × Nat) (b : Bytes) (h : View w s) :
    View { w with buf := w.buf ++ b } (idealStep s (.write b)) := by
  rw [idealStep_write]
  refine ⟨?_, ?_⟩
  · show overwrite w.file.content w.file.pos (w.buf ++ b) = overwrite s.1 s.2 b
    rw [overwrite_append, h.1, h.2]
  · show w.file.pos + (w.buf ++ b).length = s.2 + b.length
    rw [List.length_append, ← h.2]; omega

theorem view_write (sched : Sched) (cap : Nat) (w : Buffered) (s : Bytes × Nat) (b : Bytes) (h : View w s)
    (hok : (w.write sched cap b).1 = true) : View (w.write sched cap b).2 (idealStep s (.write b)) := by
  unfold Buffered.write at hok ⊢
  by_cases h1 : b.length < cap - w.buf.length
  · rw [if_pos h1]; exact view_append w s b h
  · rw [if_neg h1] at hok ⊢
    by_cases h2 : cap - w.buf.length < b.length
    · simp only [if_pos h2] at hok ⊢
      obtain ⟨v, e⟩ := view_flush sched w s h
      by_cases h3 : (w.flush sched).1 = true
      · rw [if_pos h3] at hok ⊢
        by_cases h4 : cap ≤ b.length
        · rw [if_pos h4] at hok ⊢
          obtain ⟨i1, i2, i3⟩ := writeLoop_spec sched b.length (w.flush sched).2.file b
          have e2 := i3 hok
          rw [e2, overwrite_nil] at i1
          rw [e2] at i2
          have e1 := e h3
          rw [idealStep_write]
          have v1 := v.1
          have v2 := v.2
          rw [e1, overwrite_nil] at v1
          rw [e1] at v2
          refine ⟨?_, ?_⟩
          · simp only
            rw [e1, overwrite_nil, i1, v1, ← v2]; rfl
          · simp only
            rw [e1, ← v2]; simpa using i2
        · rw [if_neg h4]; exact view_append _ s b v
      · rw [if_neg h3] at hok; simp at hok
    · simp only [if_neg h2, if_true] at hok ⊢
      by_cases h4 : cap ≤ b.length
      · rw [if_pos h4] at hok ⊢
        obtain ⟨i1, i2, i3⟩ := writeLoop_spec sched b.length w.file b
        have e2 := i3 hok
        rw [e2, overwrite_nil] at i1
        rw [e2] at i2
        by_cases h5 : w.buf = []
        · rw [idealStep_write]
          have v1 := h.1
          have v2 := h.2
          rw [h5, overwrite_nil] at v1
          rw [h5] at v2
          refine ⟨?_, ?_⟩
          · simp only
            rw [h5, overwrite_nil, i1, v1, ← v2]; rfl
          · simp only
            rw [h5, ← v2]; simpa using i2
        · have : 0 < w.buf.length := List.length_pos_iff.2 h5
          have hb : b = [] := List.length_eq_zero_iff.1 (by omega)
          subst hb
          exact h
      · rw [if_neg h4]; exact view_append w s b h

theorem view_seek (sched : Sched) (w : Buffered) (s : Bytes × Nat) (p : Nat) (h : View w s)
    (hok : (w.seek sched p).1 = true) : View (w.seek sched p).2 (idealStep s (.seek p)) := by
  obtain ⟨v, e⟩ := view_flush sched w s h
  unfold Buffered.seek at hok ⊢
  by_cases h3 : (w.flush sched).1 = true
  · simp only [if_pos h3] at hok ⊢
    have v1 := v.1
    rw [e h3, overwrite_nil] at v1
    unfold File.seek at hok ⊢
    split
    · rename_i hh; rw [hh] at hok; simp at hok
    · refine ⟨?_, ?_⟩
      · simp only; rw [e h3, overwrite_nil, v1]; rfl
      · simp only; rw [e h3]; rfl
  · simp only [if_neg h3] at hok; simp at hok

theorem view_run (sched : Sched) (cap : Nat) (ops : List WOp) : ∀ (w : Buffered) (s : Bytes × Nat), View w s →
    (w.run sched cap ops).1 = true → View (w.run sched cap ops).2 (ops.foldl idealStep s) := by
  induction ops with
  | nil => intro w s h _; exact h
  | cons o os ih =>
    intro w s h hok
    unfold Buffered.run at hok ⊢
    by_cases h1 : (w.step sched cap o).1 = true
    · simp only [if_pos h1] at hok ⊢
      rw [List.foldl_cons]
      apply ih _ _ _ hok
      cases o with
      | write b => exact view_write sched cap w s b h h1
      | seek p => exact view_seek sched w s p h h1
    · simp only [if_neg h1] at hok; simp at hok

theorem view_start : View {} ([], 0) := ⟨rfl, rfl⟩

/-! ### Successful operations -/

theorem willing_write (sched : Sched) (hs : Willing sched) (f : File) (x : UInt8) (b : Bytes) :
    ∃ n f', f.write sched (x :: b) = (some (n + 1), f') := by
  obtain ⟨n, hn⟩ := hs f.calls
  have h1 : min (n + 1) (x :: b).length = min n b.length + 1 := by simp only [List.length_cons]; omega
  refine ⟨min n b.length, ⟨overwrite f.content f.pos ((x :: b).take (n + 1)),
    f.pos + (min n b.length + 1), f.calls + 1⟩, ?_⟩
  unfold File.write
  rw [hn]
  simp only
  rw [if_neg (by omega), h1]

theorem willing_loop (sched : Sched) (hs : Willing sched) : ∀ (k : Nat) (f : File) (b : Bytes),
    b.length ≤ k → (writeLoop sched k f b).1 = true := by
  intro k
  induction k with
  | zero => intro f b h; have : b = [] := List.length_eq_zero_iff.1 (by omega); subst this; rfl
  | succ k ih =>
    intro f b h
    cases b with
    | nil => rfl
    | cons x b =>
      obtain ⟨n, f', e⟩ := willing_write sched hs f x b
      rw [writeLoop, e]
      simp only
      apply ih
      simp only [List.length_drop, List.length_cons] at h ⊢
      omega

theorem willing_flush (sched : Sched) (hs : Willing sched) (w : Buffered) : (w.flush sched).1 = true :=
  willing_loop sched hs _ _ _ (Nat.le_refl _)

theorem willing_step (sched : Sched) (hs : Willing sched) (cap : Nat) (w : Buffered) (o : WOp) :
    (w.step sched cap o).1 = true := by
  cases o with
  | write b =>
    show (w.write sched cap b).1 = true
    unfold Buffered.write
    split
    · rfl
    · simp only
      have : ∀ p : Bool × Buffered, p.1 = true → (if p.1 = true then
          if cap ≤ b.length then
            ((writeLoop sched b.length p.2.file b).1,
              ({ p.2 with file := (writeLoop sched b.length p.2.file b).2.1 } : Buffered))
          else (true, { p.2 with buf := p.2.buf ++ b })
          else (false, p.2)).1 = true := by
        intro p hp
        rw [if_pos hp]
        split
        · exact willing_loop sched hs _ _ _ (Nat.le_refl _)
        · rfl
      apply this
      split
      · exact willing_flush sched hs w
      · rfl
  | seek p =>
    show (w.seek sched p).1 = true
    unfold Buffered.seek
    simp only [if_pos (willing_flush sched hs w)]
    obtain ⟨n, hn⟩ := hs (w.flush sched).2.file.calls
    unfold File.seek
    rw [hn]

theorem willing_run (sched : Sched) (hs : Willing sched) (cap : Nat) (ops : List WOp) : ∀ (w : Buffered),
    (w.run sched cap ops).1 = true := by
  induction ops with
  | nil => intro w; rfl
  | cons o os ih =>
    intro w
    unfold Buffered.run
    simp only [if_pos (willing_step sched hs cap w o)]
    exact ih _

theorem dropped_content (sched : Sched) (w : Buffered) (s : Bytes × Nat) (h : View w s)
    (hok : (w.flush sched).1 = true) : (w.dropped sched).content = s.1 := by
  obtain ⟨v, e⟩ := view_flush sched w s h
  have := v.1
  rw [e hok, overwrite_nil] at this
  exact this

theorem flush_nil (sched : Sched) (w : Buffered) (h : w.buf = []) : (w.flush sched).1 = true := by
  unfold Buffered.flush; rw [h]; rfl

theorem FS.set_same (fs : FS) (p : Str) (c : Bytes) : fs.set p c p = some c := if_pos rfl

theorem FS.set_other (fs : FS) (p q : Str) (c : Bytes) (h : q ≠ p) : fs.set p c q = fs q := if_neg h

theorem job_write_ok (j : Job) (sched : Sched) (cap : Nat) (w : Buffered)
    (h : (j.write sched cap w).1 = true) :
    j.sheets ≠ 0 ∧ j.fails = false ∧ (w.run sched cap j.ops).1 = true
      ∧ (j.write sched cap w).2 = (w.run sched cap j.ops).2 := by
  unfold Job.write at h ⊢
  by_cases h0 : j.sheets = 0
  · rw [if_pos h0] at h; simp at h
  · rw [if_neg h0] at h ⊢
    by_cases h1 : ((w.run sched cap j.ops).1 && !j.fails) = true
    · simp only [if_pos h1]
      rw [Bool.and_eq_true, Bool.not_eq_true'] at h1
      exact ⟨h0, h1.2, h1.1, trivial⟩
    · simp only [if_neg h1] at h; simp at h

/-! ### C55: a successful save has stored every byte -/

/-- **C55** for `write_ods`: whatever the operating system refuses and whenever, if the call returns `Ok`, the file
holds the whole document, and no other file has changed. -/
theorem C55_ods (sched : Sched) (created : Bool) (fs fs' : FS) (path : Str) (j : Job)
    (h : writeOds sched created fs path j = (true, fs')) :
    fs' path = some (document j.ops) ∧ ∀ q, q ≠ path → fs' q = fs q := by
  unfold writeOds at h
  cases created with
  | false => simp at h
  | true =>
    simp only [if_true] at h
    by_cases h1 : (j.write sched bufSize {}).1 = true
    · rw [if_pos h1] at h
      obtain ⟨_, _, h2, h3⟩ := job_write_ok j sched bufSize {} h1
      have hv := view_run sched bufSize j.ops {} ([], 0) view_start h2
      rw [← h3] at hv
      obtain ⟨hf, hfs⟩ := Prod.mk.inj h
      obtain ⟨v, e⟩ := view_flush sched _ _ hv
      have := dropped_content sched _ _ v (flush_nil sched _ (e hf))
      rw [← hfs]
      exact ⟨by rw [FS.set_same, this]; rfl, fun q hq => FS.set_other _ _ _ _ hq⟩
    · rw [if_neg h1] at h; simp at h

/-- The other direction: with a willing operating system, a workbook that can be written is written. -/
theorem C55_ods_willing (sched : Sched) (hs : Willing sched) (fs : FS) (path : Str) (j : Job)
    (h0 : j.sheets ≠ 0) (h1 : j.fails = false) :
    ∃ fs', writeOds sched true fs path j = (true, fs') ∧ fs' path = some (document j.ops) := by
  have hw : (j.write sched bufSize {}).1 = true := by
    unfold Job.write
    rw [if_neg h0]
    have h2 := willing_run sched hs bufSize j.ops {}
    have : ((Buffered.run sched bufSize {} j.ops).1 && !j.fails) = true := by rw [h2, h1]; rfl
    simp only [if_pos this]
  have e : writeOds sched true fs path j = (((j.write sched bufSize {}).2.flush sched).1,
      fs.set path ((((j.write sched bufSize {}).2.flush sched).2).dropped sched).content) := by
    unfold writeOds; simp only [if_true]; rw [if_pos hw]
  rw [willing_flush sched hs] at e
  exact ⟨_, e, (C55_ods sched true fs _ path j e).1⟩

/-- **C55** for `write_fods`, with a condition: if the operating system takes everything (or at least what is left
in the buffer at the end), the file holds the whole document.  Missing: without the condition it is false, see
`C55_fods_counterexample`. -/
theorem C55_fods_partial (sched : Sched) (created : Bool) (fs fs' : FS) (path : Str) (j : Job)
    (h : writeFods sched created fs path j = (true, fs'))
    (hflush : ((Buffered.run sched bufSize {} j.ops).2.flush sched).1 = true) :
    fs' path = some (document j.ops) ∧ ∀ q, q ≠ path → fs' q = fs q := by
  unfold writeFods at h
  cases created with
  | false => simp at h
  | true =>
    simp only [if_true] at h
    obtain ⟨h1, hfs⟩ := Prod.mk.inj h
    obtain ⟨_, _, h2, h3⟩ := job_write_ok j sched bufSize {} h1
    have hv := view_run sched bufSize j.ops {} ([], 0) view_start h2
    have := dropped_content sched _ _ hv hflush
    rw [h3] at hfs
    rw [← hfs]
    exact ⟨by rw [FS.set_same, this]; rfl, fun q hq => FS.set_other _ _ _ _ hq⟩

theorem C55_fods_willing (sched : Sched) (hs : Willing sched) (fs : FS) (path : Str) (j : Job)
    (h0 : j.sheets ≠ 0) (h1 : j.fails = false) :
    ∃ fs', writeFods sched true fs path j = (true, fs') ∧ fs' path = some (document j.ops) := by
  have hw : (j.write sched bufSize {}).1 = true := by
    unfold Job.write
    rw [if_neg h0]
    have h2 := willing_run sched hs bufSize j.ops {}
    have : ((Buffered.run sched bufSize {} j.ops).1 && !j.fails) = true := by rw [h2, h1]; rfl
    simp only [if_pos this]
  have e : writeFods sched true fs path j = ((j.write sched bufSize {}).1,
      fs.set path ((j.write sched bufSize {}).2.dropped sched).content) := by
    unfold writeFods; simp only [if_true]
  rw [hw] at e
  exact ⟨_, e, (C55_fods_partial sched true fs _ path j e (willing_flush sched hs _)).1⟩

/-- **C55 is false** for `write_fods`: a disk that takes nothing at all. Every document that fits the buffer is
reported as saved, and the file is empty. -/
theorem C55_fods_counterexample (fs : FS) (path : Str) (b : Bytes) (hb : b.length < 8192) :
    ∃ fs', writeFods (fun _ => .refuse) true fs path ⟨1, [.write b], false, []⟩ = (true, fs')
      ∧ fs' path = some [] := by
  have e : Buffered.run (fun _ => .refuse) bufSize {} [.write b] = (true, { buf := b }) := by
    unfold Buffered.run Buffered.step Buffered.write
    simp only
    rw [if_pos (show b.length < bufSize - [].length by simpa [bufSize] using hb)]
    rfl
  have e2 : (⟨1, [.write b], false, []⟩ : Job).write (fun _ => .refuse) bufSize {} = (true, { buf := b }) := by
    unfold Job.write
    simp only [e]
    rfl
  refine ⟨fs.set path (Buffered.dropped (fun _ => .refuse) { buf := b }).content, ?_, ?_⟩
  · unfold writeFods; simp only [if_true]; rw [e2]
  · rw [FS.set_same]
    congr 1
    unfold Buffered.dropped Buffered.flush
    cases b with
    | nil => rfl
    | cons x b => rfl

/-! ### C54: a failed save leaves the previous file intact -/

/-- Saving never touches another file, and nothing at all if the file cannot be created: the part of **C54** that
holds. Missing: the file itself, see `C54_counterexample`. -/
theorem C54_save_partial (sched : Sched) (created : Bool) (fs : FS) (path : Str) (j : Job) :
    (∀ q, q ≠ path → (writeOds sched created fs path j).2 q = fs q
      ∧ (writeFods sched created fs path j).2 q = fs q)
    ∧ (created = false → writeOds sched created fs path j = (false, fs)
      ∧ writeFods sched created fs path j = (false, fs)) := by
  refine ⟨fun q hq => ⟨?_, ?_⟩, fun h => ?_⟩
  · unfold writeOds
    cases created with
    | false => rfl
    | true =>
      simp only [if_true]
      split <;> exact FS.set_other _ _ _ _ hq
  · unfold writeFods
    cases created with
    | false => rfl
    | true => exact FS.set_other _ _ _ _ hq
  · subst h; exact ⟨rfl, rfl⟩

/-- Once the file is created, what is in it afterwards does not depend on what was in it before. -/
theorem C54_overwritten (sched : Sched) (fs1 fs2 : FS) (path : Str) (j : Job) :
    (writeOds sched true fs1 path j).1 = (writeOds sched true fs2 path j).1
    ∧ (writeOds sched true fs1 path j).2 path = (writeOds sched true fs2 path j).2 path
    ∧ (writeFods sched true fs1 path j).1 = (writeFods sched true fs2 path j).1
    ∧ (writeFods sched true fs1 path j).2 path = (writeFods sched true fs2 path j).2 path := by
  refine ⟨?_, ?_, rfl, ?_⟩
  · unfold writeOds; simp only [if_true]; split <;> rfl
  · unfold writeOds; simp only [if_true]; split <;> simp only [FS.set_same]
  · unfold writeFods; simp only [if_true, FS.set_same]

/-- **C54 is false**: saving a workbook without sheets fails, and the file that was there is gone, whatever the zip
writer does when it is dropped. (Two files with different contents cannot both have survived.) -/
theorem C54_counterexample (sched : Sched) (path : Str) (ops drops : List WOp) :
    (∃ fs : FS, fs path ≠ none ∧ (writeOds sched true fs path ⟨0, ops, false, drops⟩).1 = false
      ∧ (writeOds sched true fs path ⟨0, ops, false, drops⟩).2 path ≠ fs path)
    ∧ (∃ fs : FS, fs path ≠ none ∧ (writeFods sched true fs path ⟨0, ops, false, drops⟩).1 = false
      ∧ (writeFods sched true fs path ⟨0, ops, false, drops⟩).2 path ≠ fs path) := by
  have key : ∀ c : Option Bytes, ∃ fs : FS, fs path ≠ none ∧ c ≠ fs path := by
    intro c
    by_cases h : c = some [1]
    · exact ⟨fun _ => some [2], by simp, by rw [h]; simp⟩
    · exact ⟨fun _ => some [1], by simp, h⟩
  refine ⟨?_, ?_⟩
  · obtain ⟨fs, h1, h2⟩ := key ((writeOds sched true (fun _ => none) path ⟨0, ops, false, drops⟩).2 path)
    refine ⟨fs, h1, rfl, ?_⟩
    rw [(C54_overwritten sched fs (fun _ => none) path ⟨0, ops, false, drops⟩).2.1]
    exact h2
  · obtain ⟨fs, h1, h2⟩ := key ((writeFods sched true (fun _ => none) path ⟨0, ops, false, drops⟩).2 path)
    refine ⟨fs, h1, rfl, ?_⟩
    rw [(C54_overwritten sched fs (fun _ => none) path ⟨0, ops, false, drops⟩).2.2.2]
    exact h2

/-! ### C56: the buffer returned is the document -/

theorem put_within (d b : Bytes) (p : Nat) (x : UInt8) (h : p ≤ d.length) :
    put (d ++ b.drop d.length) p x = put d p x ++ b.drop (put d p x).length := by
  rw [put_length, put_eq, put_eq]
  rw [List.take_append_of_le_length h]
  have e1 : p - (d ++ b.drop d.length).length = 0 := by rw [List.length_append]; omega
  have e2 : p - d.length = 0 := by omega
  rw [e1, e2]
  simp only [List.append_assoc]
  congr 3
  rw [List.drop_append, List.drop_drop]
  congr 2
  omega

theorem overwrite_within (w : Bytes) : ∀ (d b : Bytes) (p : Nat), p ≤ d.length →
    overwrite (d ++ b.drop d.length) p w = overwrite d p w ++ b.drop (overwrite d p w).length := by
  induction w with
  | nil => intro d b p _; rw [overwrite_nil, overwrite_nil]
  | cons x w ih =>
    intro d b p h
    rw [overwrite, overwrite, put_within d b p x h]
    exact ih _ _ _ (by rw [put_length]; omega)

theorem overwrite_length (w : Bytes) : ∀ (c : Bytes) (p : Nat), p ≤ c.length →
    p + w.length ≤ (overwrite c p w).length := by
  induction w with
  | nil => intro c p h; rw [overwrite_nil]; simpa using h
  | cons x w ih =>
    intro c p h
    rw [overwrite]
    have := ih (put c p x) (p + 1) (by rw [put_length]; omega)
    simp only [List.length_cons]; omega

theorem run_within (ops : List WOp) (b : Bytes) : ∀ (s : Bytes × Nat), s.2 ≤ s.1.length → SeeksBack s ops →
    (Cursor.run { buf := s.1 ++ b.drop s.1.length, pos := s.2 } ops).buf
      = (ops.foldl idealStep s).1 ++ b.drop (ops.foldl idealStep s).1.length := by
  induction ops with
  | nil => intro s _ _; rfl
  | cons o os ih =>
    intro s hp hs
    rw [List.foldl_cons]
    cases o with
    | write w =>
      have := ih (idealStep s (.write w)) (by rw [idealStep_write]; exact overwrite_length w _ _ hp) hs
      rw [← this, idealStep_write]
      unfold Cursor.run
      rw [List.foldl_cons]
      congr 2
      unfold Cursor.step
      simp only
      rw [overwrite_within w _ _ _ hp]
    | seek p => exact ih (s.1, p) hs.1 hs.2

/-- What `write_ods_buf` returns: the document, and then what is left of a longer buffer. -/
theorem C56_ods_exact (j : Job) (buf : Bytes) (h0 : j.sheets ≠ 0) (h1 : j.fails = false)
    (hs : SeeksBack ([], 0) j.ops) :
    writeOdsBuf j buf = some (document j.ops ++ buf.drop (document j.ops).length) := by
  unfold writeOdsBuf
  rw [if_neg h0, h1]
  simp only [Bool.false_eq_true, if_false]
  have := run_within j.ops buf ([], 0) (Nat.le_refl _) hs
  exact congrArg some this

/-- **C56** for `write_ods_buf`, with a condition: for a buffer that is not longer than the document (an empty one,
say), the document is returned and nothing else. Missing: longer buffers, see `C56_ods_counterexample`. -/
theorem C56_ods_partial (j : Job) (buf : Bytes) (h0 : j.sheets ≠ 0) (h1 : j.fails = false)
    (hs : SeeksBack ([], 0) j.ops) (hb : buf.length ≤ (document j.ops).length) :
    writeOdsBuf j buf = some (document j.ops) := by
  rw [C56_ods_exact j buf h0 h1 hs, List.drop_of_length_le hb, List.append_nil]

/-- **C56 is false** for `write_ods_buf`: for every document and each longer buffer. -/
theorem C56_ods_counterexample (j : Job) (buf : Bytes) (h0 : j.sheets ≠ 0) (h1 : j.fails = false)
    (hs : SeeksBack ([], 0) j.ops) (hb : (document j.ops).length < buf.length) :
    writeOdsBuf j buf ≠ some (document j.ops) := by
  rw [C56_ods_exact j buf h0 h1 hs]
  intro h
  have := congrArg List.length (Option.some.inj h)
  rw [List.length_append, List.length_drop] at this
  omega

/-- A flat file is written without seeking. -/
def NoSeek (ops : List WOp) : Prop := ∀ o ∈ ops, ∃ b, o = .write b

theorem idealStep_end (c w : Bytes) : idealStep (c, c.length) (.write w) = (c ++ w, (c ++ w).length) := by
  unfold idealStep
  by_cases h : w = []
  · subst h; simp
  · simp [h]

theorem pushAll_eq (ops : List WOp) : ∀ (h : NoSeek ops) (buf c : Bytes),
    pushAll (buf ++ c) ops = buf ++ (ops.foldl idealStep (c, c.length)).1 := by
  induction ops with
  | nil => intro _ buf c; rfl
  | cons o os ih =>
    intro h buf c
    obtain ⟨w, rfl⟩ := h o List.mem_cons_self
    rw [pushAll, List.append_assoc, ih (fun x hx => h x (List.mem_cons_of_mem _ hx)), List.foldl_cons,
      idealStep_end]

/-- What `write_fods_buf` returns: the buffer, and then the document. -/
theorem C56_fods_exact (j : Job) (buf : Bytes) (h0 : j.sheets ≠ 0) (h1 : j.fails = false)
    (hs : NoSeek j.ops) : writeFodsBuf j buf = some (buf ++ document j.ops) := by
  unfold writeFodsBuf
  rw [if_neg h0, h1]
  simp only [Bool.false_eq_true, if_false]
  have := pushAll_eq j.ops hs buf []
  rw [List.append_nil] at this
  exact congrArg some this

/-- **C56** for `write_fods_buf` holds for an empty buffer only. Missing: all other buffers, for which it is
false. -/
theorem C56_fods_partial (j : Job) (buf : Bytes) (h0 : j.sheets ≠ 0) (h1 : j.fails = false)
    (hs : NoSeek j.ops) : writeFodsBuf j buf = some (document j.ops) ↔ buf = [] := by
  rw [C56_fods_exact j buf h0 h1 hs]
  refine ⟨fun h => ?_, fun h => by subst h; rfl⟩
  have := congrArg List.length (Option.some.inj h)
  rw [List.length_append] at this
  exact List.length_eq_zero_iff.1 (by omega)

/-! ### Examples -/

/-- An archive in small: a header that is patched afterwards. -/
def demoJob : Job := ⟨1, [.write [1, 2, 3], .write [4, 5], .seek 1, .write [9], .seek 5, .write [6]], false, []⟩

example : document demoJob.ops = [1, 9, 3, 4, 5, 6] := by decide
example : SeeksBack ([], 0) demoJob.ops := ⟨by decide, by decide, trivial⟩
example : writeOdsBuf demoJob [7, 7] = some [1, 9, 3, 4, 5, 6] := by decide
example : writeOdsBuf demoJob [7, 7, 7, 7, 7, 7, 7, 7] = some [1, 9, 3, 4, 5, 6, 7, 7] := by decide
example : Willing (fun _ => .accept 2) := fun _ => ⟨1, rfl⟩
/-- A disk that is full after two calls makes `write_ods` fail. -/
example : (writeOds (fun i => if i < 2 then .accept 2 else .refuse) true (fun _ => none) [] demoJob).1 = false := by
  decide
example : (writeOds (fun _ => .accept 2) true (fun _ => none) [] demoJob).1 = true := by decide

end Verif.Save
