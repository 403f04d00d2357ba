import Verif.Base

/-!
# Attribute maps

Model of `AttrMap2`, src/attrmap2.rs.  The keys are interned strings (`DefaultAtom`), which are compared as
strings.
-/

set_option autoImplicit false

namespace Verif.Book

/-- `struct AttrMap2`, src/attrmap2.rs:14-17: two vectors side by side. -/
structure AttrMap where
  keys : List Str := []
  values : List Str := []
  deriving DecidableEq

namespace AttrMap

/-- The index of a key in a list of keys. -/
def findFrom (k : Str) : List Str → Option Nat
  | [] => none
  | x :: xs => if x = k then some 0 else (findFrom k xs).map (· + 1)

/-- `find_idx`, src/attrmap2.rs:77-84. -/
def findIdx (m : AttrMap) (k : Str) : Option Nat := findFrom k m.keys

/-- `is_empty`, src/attrmap2.rs:38-40. -/
def isEmpty (m : AttrMap) : Bool := m.keys.isEmpty

/-- `len`, src/attrmap2.rs:127-130. -/
def len (m : AttrMap) : Nat := m.keys.length

/-- `push_attr`, src/attrmap2.rs:71-75. -/
def pushAttr (m : AttrMap) (k v : Str) : AttrMap := { keys := m.keys ++ [k], values := m.values ++ [v] }

/-- `add_all`, src/attrmap2.rs:50-55. -/
def addAll (m : AttrMap) (kvs : List (Str × Str)) : AttrMap :=
  kvs.foldl (fun m kv => m.pushAttr kv.1 kv.2) m

/-- `set_attr`, src/attrmap2.rs:59-69. (`keys[idx] = k` would panic out of bounds; `List.set` leaves the
list alone. That the index is within bounds is part of what is proved.) -/
def setAttr (m : AttrMap) (k v : Str) : AttrMap :=
  match m.findIdx k with
  | some i => { keys := m.keys.set i k, values := m.values.set i v }
  | none => m.pushAttr k v

/-- `clear_attr`, src/attrmap2.rs:88-96. `none` is the panic of `values.remove(idx)`. -/
def clearAttr (m : AttrMap) (k : Str) : Option (AttrMap × Option Str) :=
  match m.findIdx k with
  | some i =>
    match m.values[i]? with
    | some v => some ({ keys := m.keys.eraseIdx i, values := m.values.eraseIdx i }, some v)
    | none => none
  | none => some (m, none)

/-- `attr`, src/attrmap2.rs:100-107. The outer `none` is the panic of `values[idx]`. -/
def attr (m : AttrMap) (k : Str) : Option (Option Str) :=
  match m.findIdx k with
  | some i =>
    match m.values[i]? with
    | some v => some (some v)
    | none => none
  | none => some none

/-- `attr_def`, src/attrmap2.rs:111-121. -/
def attrDef (m : AttrMap) (k d : Str) : Option Str :=
  match m.findIdx k with
  | some i => m.values[i]?
  | none => some d

/-- `AttrMapIter`, src/attrmap2.rs:149-162. `none` is `unreachable!`. -/
def iter : List Str → List Str → Option (List (Str × Str))
  | [], [] => some []
  | k :: ks, v :: vs => (iter ks vs).map ((k, v) :: ·)
  | _, _ => none

/-- The calls of a user. -/
inductive Op where
  | set (k v : Str)
  | clear (k : Str)

/-- One call; `none` is a panic. -/
def step (m : AttrMap) : Op → Option AttrMap
  | .set k v => some (m.setAttr k v)
  | .clear k => (m.clearAttr k).map (·.1)

/-- A history of calls. -/
def run (m : AttrMap) : List Op → Option AttrMap
  | [] => some m
  | o :: os => (m.step o).bind (fun m => run m os)

end AttrMap

end Verif.Book
