import Verif.Model.PyAttribute
/-!
# Reading in pieces in Python
-/
namespace Verif.Spec
open Res
open Verif.PyAttribute (Value)

/-- the bytes of all results, one after the other; exceptions give none -/
def pyGathered : List (Res Value) → Bytes
  | [] => []
  | .ok (.bytes b) :: l => b ++ pyGathered l
  | _ :: l => pyGathered l

end Verif.Spec
