import Verif.Spec.Value
import Verif.Spec.PyAttribute
/-!
# A file that is read and seeked in

One position in the contents. Calls of the library answer as `valueStep`, methods in Python as `PyAttribute.Step`.
-/
namespace Verif.Spec
open Verif.PyAttribute (Call Value)

/-- calls, whether something fails meanwhile, and their answers, `none` for an error, for a file with the content, from a position on. A call that fails leaves the position, or has moved it to where it was to
read. -/
def Answers (content : Bytes) : Nat → List (ValueOp × Prop × Option ValueAnswer) → Prop
  | _, [] => True
  | pos, (o, fault, r) :: rest => (r = (valueStep content pos o).1 ∧ Answers content (valueStep content pos o).2 rest) ∨ (fault ∧ r = none ∧ o ≠ .size ∧ ∃ p, Moved content pos o p ∧ Answers content p rest)

/-- methods with their results, `none` for an exception -/
def PyAnswers (content : Bytes) : Nat → List (Call × Prop × Option Value) → Prop
  | _, [] => True
  | pos, (k, fault, r) :: rest => ∃ p, PyAttribute.Step content fault pos k r p ∧ PyAnswers content p rest

end Verif.Spec
