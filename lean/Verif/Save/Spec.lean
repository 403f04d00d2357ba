import Verif.Save.Model

/-!
# What a file holds after some writes and seeks
-/

set_option autoImplicit false

namespace Verif.Save

/-- A file that never refuses anything: its content and the position. Bytes written at a position replace those
that were there; a gap is filled with zeros. -/
def idealStep (s : Bytes × Nat) : WOp → Bytes × Nat
  | .write b =>
    if b = [] then s
    else (s.1.take s.2 ++ List.replicate (s.2 - s.1.length) 0 ++ b ++ s.1.drop (s.2 + b.length),
      s.2 + b.length)
  | .seek p => (s.1, p)

/-- The document: the content of an empty file after all writes and seeks. -/
def document (ops : List WOp) : Bytes := (ops.foldl idealStep ([], 0)).1

/-- Seeking only goes back to what has been written (a zip archive is written in this way). -/
def SeeksBack : Bytes × Nat → List WOp → Prop
  | _, [] => True
  | s, .write b :: os => SeeksBack (idealStep s (.write b)) os
  | s, .seek p :: os => p ≤ s.1.length ∧ SeeksBack (idealStep s (.seek p)) os

/-- The operating system takes at least one byte at each call. -/
def Willing (sched : Sched) : Prop := ∀ i, ∃ n, sched i = .accept (n + 1)

end Verif.Save
