import Verif.Cond.Model
import Verif.Refs.Spec

/-!
# Specification for conditions

How a text literal is read: it starts and ends with a quotation mark, and two of them inside stand for one.
-/

set_option autoImplicit false

namespace Verif.Cond.Spec

/-- The inside of a literal, and what follows it. -/
def body : Str → Option (Str × Str)
  | [] => none
  | [c] => if c = '"' then some ([], []) else none
  | c :: d :: s =>
    if c = '"' then
      if d = '"' then (body s).map fun r => ('"' :: r.1, r.2) else some ([], d :: s)
    else (body (d :: s)).map fun r => (c :: r.1, r.2)

/-- A literal, and what follows it. -/
def literal (s : Str) : Option (Str × Str) :=
  match s with
  | '"' :: s => body s
  | _ => none

/-- The rest after a prefix. -/
def after : Str → Str → Option Str
  | [], s => some s
  | c :: p, d :: s => if c = d then after p s else none
  | _ :: _, [] => none

/-- A comparison, the longest that fits. -/
def comparison (s : Str) : Option (Cmp × Str) :=
  match after "!=".toList s, after "<=".toList s, after ">=".toList s, after "=".toList s, after "<".toList s,
      after ">".toList s with
  | some r, _, _, _, _, _ => some (.ne, r)
  | _, some r, _, _, _, _ => some (.le, r)
  | _, _, some r, _, _, _ => some (.ge, r)
  | _, _, _, some r, _, _ => some (.eq, r)
  | _, _, _, _, some r, _ => some (.lt, r)
  | _, _, _, _, _, some r => some (.gt, r)
  | _, _, _, _, _, _ => none

/-- `subject`, a comparison and a literal. -/
def comparesText (subject : Str) (s : Str) : Option (Cmp × Str) :=
  match after subject s with
  | none => none
  | some s =>
    match comparison s with
    | none => none
    | some (op, s) =>
      match literal s with
      | some (t, []) => some (op, t)
      | _ => none

/-- Literals with semicolons between them up to the bracket; at most `n` of them. -/
def items : Nat → Str → Option (List Str)
  | 0, _ => none
  | n + 1, s =>
    match literal s with
    | some (t, ';' :: r) => (items n r).map (t :: ·)
    | some (t, [')']) => some [t]
    | _ => none

/-- The entries of a list. -/
def entries (s : Str) : Option (List Str) :=
  match after "cell-content-is-in-list(".toList s with
  | none => none
  | some [')'] => some []
  | some s => items s.length s

/-- What a user sees of an operand in a list. -/
def shown : Operand → Str
  | .text s => s
  | .int z => Codec.decInt z
  | .bool b => boolText b

/-- Two calls ask for the same: the entries of lists are compared as they are shown. -/
def Same : Call → Call → Prop
  | .inList a, .inList b => a.map shown = b.map shown
  | .and k a, .and l b => k = l ∧ Same a b
  | a, b => a = b

/-- The names of sheets can be told apart, see C38. -/
def GoodCall : Call → Prop
  | .inRange r => Refs.Spec.GoodTable r.fromTable ∧ Refs.Spec.GoodTable r.toTable
  | .and _ c => GoodCall c
  | _ => True

end Verif.Cond.Spec
