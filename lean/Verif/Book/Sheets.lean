import Verif.Base

/-!
# The list of sheets

Model of `Detach`, src/ds/detach.rs, and of the list of sheets of `WorkBook`, src/workbook_.rs:372-451.  A sheet is
of any type, with a name.  `Option` results: `none` is a panic.
-/

set_option autoImplicit false

namespace Verif.Book

variable {S : Type}

/-- `Vec<Detach<Sheet>>`, src/ds/detach.rs:6-8: a slot is `none` while its sheet is detached. -/
abbrev Sheets (S : Type) := List (Option S)

/-- `Detached<usize, Sheet>`, src/ds/detach.rs:116-120. -/
structure Detached (S : Type) where
  key : Nat
  val : S

/-- `num_sheets`, src/workbook_.rs:372-374. -/
def numSheets (b : Sheets S) : Nat := b.length

/-- `sheet`, src/workbook_.rs:416-418, with `Detach::as_ref`, src/ds/detach.rs:78-80. -/
def sheet (b : Sheets S) (n : Nat) : Option S := (b[n]?).join

/-- `sheet_idx`, src/workbook_.rs:377-384: `sheet.name()` panics at a detached sheet
(`Deref`, src/ds/detach.rs:35-37). The inner `Option` is the result. -/
def sheetIdx (name : S → Str) (n : Str) : Sheets S → Option (Option Nat)
  | [] => some none
  | none :: _ => none
  | some s :: b => if name s = n then some (some 0) else (sheetIdx name n b).map (·.map (· + 1))

/-- `iter_sheets`, src/workbook_.rs:430-432. -/
def iterSheets : Sheets S → Option (List S)
  | [] => some []
  | none :: _ => none
  | some s :: b => (iterSheets b).map (s :: ·)

/-- `detach_sheet`, src/workbook_.rs:398-400, with `Detach::detach`, src/ds/detach.rs:66-69. -/
def detachSheet (b : Sheets S) (n : Nat) : Option (Sheets S × Detached S) :=
  match b[n]? with
  | some (some s) => some (b.set n none, ⟨n, s⟩)
  | _ => none

/-- `attach_sheet`, src/workbook_.rs:407-409, with `Detach::attach`, src/ds/detach.rs:72-75. -/
def attachSheet (b : Sheets S) (d : Detached S) : Option (Sheets S) :=
  if d.key < b.length then some (b.set d.key (some d.val)) else none

/-- `sheet_mut`, src/workbook_.rs:425-427, with a change `f` of the sheet. -/
def modifySheet (b : Sheets S) (n : Nat) (f : S → S) : Option (Sheets S) :=
  match b[n]? with
  | some (some s) => some (b.set n (some (f s)))
  | _ => none

/-- `Vec::insert`. -/
def insertAt {α : Type} (a : α) : Nat → List α → Option (List α)
  | 0, l => some (a :: l)
  | _ + 1, [] => none
  | n + 1, x :: l => (insertAt a n l).map (x :: ·)

/-- `insert_sheet`, src/workbook_.rs:435-437. -/
def insertSheet (b : Sheets S) (i : Nat) (s : S) : Option (Sheets S) := insertAt (some s) i b

/-- `push_sheet`, src/workbook_.rs:440-442. -/
def pushSheet (b : Sheets S) (s : S) : Sheets S := b ++ [some s]

/-- `remove_sheet`, src/workbook_.rs:449-451, with `Detach::take`, src/ds/detach.rs:96-98. -/
def removeSheet (b : Sheets S) (n : Nat) : Option (Sheets S × S) :=
  match b[n]? with
  | some (some s) => some (b.eraseIdx n, s)
  | _ => none

/-- The calls of a user. -/
inductive SheetOp (S : Type) where
  | push (s : S)
  | insert (i : Nat) (s : S)
  | remove (n : Nat)
  | modify (n : Nat) (f : S → S)

/-- One call. -/
def sheetStep (b : Sheets S) : SheetOp S → Option (Sheets S)
  | .push s => some (pushSheet b s)
  | .insert i s => insertSheet b i s
  | .remove n => (removeSheet b n).map (·.1)
  | .modify n f => modifySheet b n f

/-- A history of calls. -/
def sheetRun (b : Sheets S) : List (SheetOp S) → Option (Sheets S)
  | [] => some b
  | o :: os => (sheetStep b o).bind (fun b => sheetRun b os)

/-- Calls, and detaching and attaching. -/
inductive SlotOp (S : Type) where
  | call (o : SheetOp S)
  | detach (n : Nat)
  | attach (d : Detached S)

def slotStep (b : Sheets S) : SlotOp S → Option (Sheets S)
  | .call o => sheetStep b o
  | .detach n => (detachSheet b n).map (·.1)
  | .attach d => attachSheet b d

/-- A history of calls, detaching and attaching. -/
def slotRun (b : Sheets S) : List (SlotOp S) → Option (Sheets S)
  | [] => some b
  | o :: os => (slotStep b o).bind (fun b => slotRun b os)

end Verif.Book
