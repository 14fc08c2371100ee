import Verif.Spec.Value
/-!
# Reading in pieces

What a program has that reads a file in pieces and puts together what it is given.
-/
namespace Verif.Spec
open Res

/-- the bytes of all answers, one after the other; errors give none -/
def gathered : List (Res ValueAnswer) → Bytes
  | [] => []
  | .ok (.bytes b) :: l => b ++ gathered l
  | _ :: l => gathered l

/-- how much was asked for in the calls that were answered -/
def askedFor : List Nat → List (Res ValueAnswer) → Nat
  | n :: ns, .ok (.bytes _) :: l => n + askedFor ns l
  | _ :: ns, _ :: l => askedFor ns l
  | _, _ => 0

end Verif.Spec
