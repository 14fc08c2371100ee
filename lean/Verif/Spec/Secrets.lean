import Verif.Model.Base
/-!
# What must be left of secrets

Memory that held a password or a key must hold nothing of it when it is given back: neither a block of the heap when it is freed nor a buffer on the stack when
the function that has it returns.
-/
namespace Verif.Spec

/-- a block of the heap with nothing in it -/
def Blank (b : List (Option UInt8)) : Prop := ∀ x ∈ b, x = some 0

/-- a buffer on the stack: what was in its memory before and what is in it when its function returns -/
structure Left where
  before : Bytes
  after : Bytes
deriving DecidableEq, Repr

/-- nothing of what was computed is left: the memory was not written to, or it is zero -/
def Left.Clean (l : Left) : Prop := l.after = l.before ∨ (l.after.length = l.before.length ∧ ∀ x ∈ l.after, x = 0)

instance (l : Left) : Decidable l.Clean := by unfold Left.Clean; infer_instance

end Verif.Spec
