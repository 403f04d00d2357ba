import Verif.Codec.Num
import Verif.Book.HMap

/-!
# Style stores and generated names

Model of the style stores of `WorkBook`, src/workbook_.rs:185-239, 535-1143.  The eighteen stores have the same
code; a style is a name and the rest, which the stores do not look at.
-/

set_option autoImplicit false

namespace Verif.Book

open Codec

/-- The stores of `struct WorkBook` with generated names, src/workbook_.rs:57-85. -/
inductive Kind where
  | table | row | col | cell | paragraph | text | ruby | graphic
  | fmtBoolean | fmtNumber | fmtPercentage | fmtCurrency | fmtText | fmtDateTime | fmtTimeDuration
  | page | masterPage | validation
  deriving DecidableEq

/-- The prefixes of the generated names, in the functions `add_*`, src/workbook_.rs:536-1123. -/
def Kind.prefix : Kind → Str
  | .table => "ta".toList
  | .row => "ro".toList
  | .col => "co".toList
  | .cell => "ce".toList
  | .paragraph => "para".toList
  | .text => "txt".toList
  | .ruby => "ruby".toList
  | .graphic => "gr".toList
  | .fmtBoolean => "val_boolean".toList
  | .fmtNumber => "val_number".toList
  | .fmtPercentage => "val_percentage".toList
  | .fmtCurrency => "val_currency".toList
  | .fmtText => "val_text".toList
  | .fmtDateTime => "val_datetime".toList
  | .fmtTimeDuration => "val_timeduration".toList
  | .page => "page".toList
  | .masterPage => "mp".toList
  | .validation => "val".toList

/-- A style: its name, and the rest. -/
structure Style (β : Type) where
  name : Str
  body : β

/-- The stores, and the counters (`autonum`) of the generated names. -/
structure Stores (β : Type) where
  autonum : HMap Str Nat := []
  store : Kind → HMap Str (Style β) := fun _ => []

/-- What can go wrong: the overflow of the counter (a panic with overflow checks), or a loop without end. -/
inductive NameFail where
  | overflow | endless
  deriving DecidableEq

/-- `u32::MAX + 1`. -/
def u32Max1 : Nat := 4294967296

/-- The loop of `auto_style_name2`, src/workbook_.rs:199-205. The fuel stands for the number of rounds. -/
def searchName (pre : Str) (used : Str → Bool) : Nat → Nat → Except NameFail Nat
  | 0, _ => .error .endless
  | fuel + 1, cnt =>
    if cnt = u32Max1 then .error .overflow
    else if used (pre ++ decNat cnt) then searchName pre used fuel (cnt + 1)
    else .ok cnt

/-- The first number to try, src/workbook_.rs:193-197. -/
def startCount (autonum : HMap Str Nat) (pre : Str) : Nat :=
  match autonum.get? pre with
  | some n => n + 1
  | none => 0

/-- `auto_style_name2` and `auto_style_name`, src/workbook_.rs:185-210, 214-238: the same code. A round for
each style of the store and one more are enough, as is proved. -/
def autoName {β : Type} (autonum : HMap Str Nat) (pre : Str) (styles : HMap Str (Style β)) :
    Except NameFail (HMap Str Nat × Str) :=
  match searchName pre (fun n => styles.contains n) (styles.length + 1) (startCount autonum pre) with
  | .error e => .error e
  | .ok c => .ok (autonum.insert pre c, pre ++ decNat c)

/-- The new content of one store. -/
def Stores.setStore {β : Type} (b : Stores β) (k : Kind) (m : HMap Str (Style β)) : Stores β :=
  { b with store := fun k' => if k' = k then m else b.store k' }

/-- `add_tablestyle`, ..., `add_validation`, e.g. src/workbook_.rs:536-543: the style and its reference. -/
def Stores.add {β : Type} (b : Stores β) (k : Kind) (s : Style β) : Except NameFail (Stores β × Str) :=
  if s.name = [] then
    match autoName b.autonum k.prefix (b.store k) with
    | .error e => .error e
    | .ok (an, n) =>
      .ok ({ b with autonum := an }.setStore k ((b.store k).insert n { s with name := n }), n)
  else .ok (b.setStore k ((b.store k).insert s.name s), s.name)

/-- `remove_tablestyle`, ..., e.g. src/workbook_.rs:546-548. -/
def Stores.remove {β : Type} (b : Stores β) (k : Kind) (n : Str) : Stores β × Option (Style β) :=
  (b.setStore k ((b.store k).remove n), (b.store k).get? n)

/-- `tablestyle`, ..., e.g. src/workbook_.rs:556-558. -/
def Stores.get? {β : Type} (b : Stores β) (k : Kind) (n : Str) : Option (Style β) := (b.store k).get? n

/-- `tablestyle_mut`, ..., e.g. src/workbook_.rs:561-563, with a change `f` of the style. -/
def Stores.modify {β : Type} (b : Stores β) (k : Kind) (n : Str) (f : Style β → Style β) : Stores β :=
  b.setStore k ((b.store k).modify n f)

/-- The calls of a user. -/
inductive StoreOp (β : Type) where
  | add (k : Kind) (s : Style β)
  | remove (k : Kind) (n : Str)
  | modify (k : Kind) (n : Str) (f : Style β → Style β)

/-- One call; `add` gives a reference. -/
def Stores.step {β : Type} (b : Stores β) : StoreOp β → Except NameFail (Stores β × Option Str)
  | .add k s =>
    match b.add k s with
    | .ok (b, r) => .ok (b, some r)
    | .error e => .error e
  | .remove k n => .ok ((b.remove k n).1, none)
  | .modify k n f => .ok (b.modify k n f, none)

/-- A history of calls, with the references that were given. -/
def Stores.run {β : Type} (b : Stores β) : List (StoreOp β) → Except NameFail (Stores β × List (Option Str))
  | [] => .ok (b, [])
  | o :: os =>
    match b.step o with
    | .error e => .error e
    | .ok (b, r) =>
      match run b os with
      | .error e => .error e
      | .ok (b, rs) => .ok (b, r :: rs)

end Verif.Book
