import Verif.Xml.Spec
import Verif.Xml.Tree

/-!
# What an XML tree says
-/

set_option autoImplicit false

namespace Verif.Xml.Spec

mutual

/-- What a tree says: its tags and characters, from start to end. -/
def treeSays : Node → List Ev
  | .text s => s.map Ev.chr
  | .tag n as c => .start n (attrsSay as) :: (treesSay c ++ [.end n])

/-- What a list of trees says. -/
def treesSay : List Node → List Ev
  | [] => []
  | x :: c => treeSays x ++ treesSay c

end

mutual

/-- All names are XML names. -/
def NamesOk : Node → Prop
  | .text _ => True
  | .tag n as c => Name n ∧ (∀ a ∈ as, Name a.1) ∧ AllNamesOk c

/-- The same for a list. -/
def AllNamesOk : List Node → Prop
  | [] => True
  | x :: c => NamesOk x ∧ AllNamesOk c

end

mutual

/-- No tag of this name occurs in the tree. -/
def Without (m : Str) : Node → Prop
  | .text _ => True
  | .tag n _ c => n ≠ m ∧ AllWithout m c

/-- The same for a list. -/
def AllWithout (m : Str) : List Node → Prop
  | [] => True
  | x :: c => Without m x ∧ AllWithout m c

end

/-- Texts are not empty, have no markup characters, and are not next to each other. -/
def TextsApart : List Node → Prop
  | [] => True
  | .text s :: c => s ≠ [] ∧ Plain s ∧ (∀ t c', c ≠ .text t :: c') ∧ TextsApart c
  | .tag _ _ _ :: c => TextsApart c

mutual

/-- In the whole tree. -/
def TextsApartIn : Node → Prop
  | .text _ => True
  | .tag _ _ c => TextsApart c ∧ AllTextsApartIn c

/-- The same for a list. -/
def AllTextsApartIn : List Node → Prop
  | [] => True
  | x :: c => TextsApartIn x ∧ AllTextsApartIn c

end

end Verif.Xml.Spec
