import Verif.Spec.PyAttribute
/-!
# Reading with one object of several in Python
-/
namespace Verif.Spec.PyAttribute
open Res
open Verif.PyAttribute (Value Action)

/-- how many objects were returned -/
def objectsGiven : List Action → List (Res Value) → Nat
  | .get :: l, .ok _ :: rs => objectsGiven l rs + 1
  | _ :: l, _ :: rs => objectsGiven l rs
  | _, _ => 0

/-- what `read` of the object `k` returned, one after the other; exceptions give nothing -/
def readOf (k : Nat) : List Action → List (Res Value) → Bytes
  | .call j (.read _) :: l, .ok (.bytes b) :: rs => if j = k then b ++ readOf k l rs else readOf k l rs
  | _ :: l, _ :: rs => readOf k l rs
  | _, _ => []

/-- how much `read` of the object `k` was asked for in calls that raised no exception -/
def askedOf (k : Nat) : List Action → List (Res Value) → Nat
  | .call j (.read (.int n)) :: l, .ok _ :: rs => if j = k then n.toNat + askedOf k l rs else askedOf k l rs
  | _ :: l, _ :: rs => askedOf k l rs
  | _, _ => 0

/-- of the object `k` only `read` with sizes is called; anything of others -/
def OnlyReads (k : Nat) : Action → Prop
  | .call j c => j = k → ∃ n : Nat, n ≤ largest ∧ c = .read (.int n)
  | .delete j => j ≠ k
  | .get => True

end Verif.Spec.PyAttribute
