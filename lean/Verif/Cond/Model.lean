import Verif.Codec.Num
import Verif.Refs.Format

/-!
# Conditions (src/condition.rs)

The texts of conditions for validations and style maps.
-/

set_option autoImplicit false

namespace Verif.Cond

open Codec

/-- The loop in `quote`, src/condition.rs:17-24. -/
def quoteBody : Str → Str
  | [] => []
  | c :: s => if c = '"' then '"' :: '"' :: quoteBody s else c :: quoteBody s

/-- `quote`, src/condition.rs:14-27. -/
def quote (s : Str) : Str := '"' :: (quoteBody s ++ ['"'])

/-- What is compared with: the types that convert to `Value`, src/condition.rs:35-85.
Simplification: the integer types are one type, and `f32` and `f64` are missing. -/
inductive Operand where
  | text (s : Str)
  | int (z : Int)
  | bool (b : Bool)
  deriving DecidableEq

/-- `to_string` of a `bool`, src/condition.rs:66. -/
def boolText : Bool → Str
  | true => "true".toList
  | false => "false".toList

/-- `Value::from` and its `Display`, src/condition.rs:29-71. -/
def Operand.value : Operand → Str
  | .text s => quote s
  | .int z => decInt z
  | .bool b => boolText b

/-- The comparisons: the last part of the names of the functions. -/
inductive Cmp where
  | eq | ne | lt | gt | le | ge
  deriving DecidableEq

/-- The texts of the comparisons, e.g. src/condition.rs:176, 184, 192, 200, 208, 216. -/
def Cmp.text : Cmp → Str
  | .eq => "=".toList
  | .ne => "!=".toList
  | .lt => "<".toList
  | .gt => ">".toList
  | .le => "<=".toList
  | .ge => ">=".toList

/-- `ValueCondition::value_eq` … `value_ge`, src/condition.rs:105-151. -/
def valueCond (op : Cmp) (v : Operand) : Str := "value()".toList ++ (op.text ++ v.value)

/-- `Condition::content_eq` … `content_ge`, src/condition.rs:173-219. -/
def contentCond (op : Cmp) (v : Operand) : Str := "cell-content()".toList ++ (op.text ++ v.value)

/-- `Condition::content_text_length_eq` … `_ge`, src/condition.rs:222-267. -/
def textLengthCond (op : Cmp) (n : Nat) : Str := "cell-content-text-length()".toList ++ (op.text ++ decNat n)

/-- `Condition::content_text_length_is_between`, src/condition.rs:270-278. -/
def betweenCond (a b : Nat) : Str :=
  "cell-content-text-length-is-between(".toList ++ (decNat a ++ (", ".toList ++ (decNat b ++ [')'])))

/-- `Condition::content_text_length_is_not_between`, src/condition.rs:281-289. -/
def notBetweenCond (a b : Nat) : Str :=
  "cell-content-text-length-is-not-between(".toList ++ (decNat a ++ (", ".toList ++ (decNat b ++ [')'])))

/-- An item of a list, src/condition.rs:304-312: quoted if it is not a text. -/
def itemText (v : Operand) : Str :=
  match v.value with
  | '"' :: s => '"' :: s
  | s => '"' :: (s ++ ['"'])

/-- The loop in `content_is_in_list`, src/condition.rs:299-314; `sep` as there. -/
def listLoop : Bool → List Operand → Str
  | _, [] => []
  | sep, v :: vs => (if sep then [';'] else []) ++ (itemText v ++ listLoop true vs)

/-- `Condition::content_is_in_list`, src/condition.rs:292-318. -/
def inListCond (vs : List Operand) : Str := "cell-content-is-in-list(".toList ++ (listLoop false vs ++ [')'])

/-- `CellRange::to_formula`, src/refs.rs:589-595. -/
def rangeFormula (r : CellRange) : Str := '[' :: (Refs.fmtCellRange r ++ [']'])

/-- `Condition::content_is_in_cellrange`, src/condition.rs:327-333. -/
def inRangeCond (r : CellRange) : Str := "cell-content-is-in-list(".toList ++ (rangeFormula r ++ [')'])

/-- The four kinds of content with a further condition. -/
inductive Content where
  | date | time | decimal | whole
  deriving DecidableEq

/-- Their texts, src/condition.rs:340, 350, 359, 368. -/
def Content.text : Content → Str
  | .date => "cell-content-is-date()".toList
  | .time => "cell-content-is-time()".toList
  | .decimal => "cell-content-is-decimal-number()".toList
  | .whole => "cell-content-is-whole-number()".toList

/-- `Condition::content_is_date_and` … `content_is_whole_number_and`, src/condition.rs:338-373. -/
def andCond (k : Content) (c : Str) : Str := k.text ++ (" and ".toList ++ c)

/-- `Condition::is_true_formula`, src/condition.rs:376-382. -/
def formulaCond (f : Str) : Str := "is-true-formula(".toList ++ (f ++ [')'])

/-- The calls that make a condition. -/
inductive Call where
  | content (op : Cmp) (v : Operand)
  | textLength (op : Cmp) (n : Nat)
  | between (a b : Nat)
  | notBetween (a b : Nat)
  | inList (vs : List Operand)
  | inRange (r : CellRange)
  | and (k : Content) (c : Call)
  | formula (f : Str)

/-- The text of the condition they make. -/
def Call.text : Call → Str
  | .content op v => contentCond op v
  | .textLength op n => textLengthCond op n
  | .between a b => betweenCond a b
  | .notBetween a b => notBetweenCond a b
  | .inList vs => inListCond vs
  | .inRange r => inRangeCond r
  | .and k c => andCond k c.text
  | .formula f => formulaCond f

end Verif.Cond
