import Verif.Spec.Ownership

/-!
Particular things that an execution of a function does that must not be done.
-/

namespace Verif.Spec.Owner

open Verif.Owner

/-- An execution looks through the cell `x`, which holds NULL. -/
def ReadsNull (p : Fn) (x : Nat) : Prop :=
  ∃ s, Reach p s ∧ p.code[s.pc]? = some (.deref x) ∧ s.env x = .null

/-- An execution comes to where the cell `x` must be empty, and it is not. -/
def NotEmpty (p : Fn) (x : Nat) : Prop :=
  ∃ s, Reach p s ∧ p.code[s.pc]? = some (.none x) ∧ s.env x ≠ .null

/-- An execution comes to where the cell `x` must hold something of its own, and it does not. -/
def NotHeld (p : Fn) (x : Nat) : Prop :=
  ∃ s, Reach p s ∧ p.code[s.pc]? = some (.live x) ∧
    ¬ ∃ a, s.env x = .addr a ∧ s.heap a = .live


end Verif.Spec.Owner
