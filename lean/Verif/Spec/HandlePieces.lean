import Verif.Spec.Value
/-!
# Reading with one handle of several

What a program has that reads a value with one handle and puts together what it is given, while other handles are used.
-/
namespace Verif.Spec
open Res

/-- how many handles were given out -/
def handlesGiven : List ValueAction → List (Res ValueAnswer) → Nat
  | .another :: l, .ok .done :: rs => handlesGiven l rs + 1
  | _ :: l, _ :: rs => handlesGiven l rs
  | _, _ => 0

/-- what is read with the handle `k`, one after the other -/
def readWith (k : Nat) : List ValueAction → List (Res ValueAnswer) → Bytes
  | .ask j (.read _) :: l, .ok (.bytes b) :: rs => if j = k then b ++ readWith k l rs else readWith k l rs
  | _ :: l, _ :: rs => readWith k l rs
  | _, _ => []

/-- how much was asked for with the handle `k` in calls that did not fail -/
def askedWith (k : Nat) : List ValueAction → List (Res ValueAnswer) → Nat
  | .ask j (.read n) :: l, .ok _ :: rs => if j = k then n + askedWith k l rs else askedWith k l rs
  | _ :: l, _ :: rs => askedWith k l rs
  | _, _ => 0

/-- with the handle `k` nothing is done but reading; anything with others -/
def OnlyReads (k : Nat) : ValueAction → Prop
  | .ask j o => j = k → ∃ n < 2 ^ 63, o = .read n
  | .free j => j ≠ k
  | _ => True

end Verif.Spec
