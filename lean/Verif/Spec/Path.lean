/-!
# Paths

The names of a path are separated by one separator. A separator can precede the first name and follow the last one.
-/
namespace Verif.Spec

/-- the names of a path one after the other, with a separator between -/
def joinNames {α : Type} (separator : α) : List (List α) → List α
  | [] => []
  | [name] => name
  | name :: names => name ++ separator :: joinNames separator names

/-- a path -/
def pathString {α : Type} (separator : α) (leading trailing : Bool) (names : List (List α)) : List α :=
  (if leading then [separator] else []) ++ (joinNames separator names ++ (if trailing then [separator] else []))

end Verif.Spec
