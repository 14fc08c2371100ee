import Verif.Model.Ownership

/-!
What it means that a function takes care of its memory, whatever fails and whatever it is called
with.  Nothing here mentions how that is checked.
-/

namespace Verif.Spec.Owner

open Verif.Owner

/-- Memory that this function may look at. -/
def Valid (s : St) (v : Val) : Prop := ∃ a, v = .addr a ∧ (s.heap a = .live ∨ s.heap a = .lent)

/-- The function is about to do what must not be done: free something twice or that belongs to
another structure, give away what it does not have, look at freed memory or through NULL, or leave
its code.  A success must leave an object in the place for it (`live`), or may leave NULL in it
(`held`); a place that a function fills without looking must be empty (`none`), and so must be, after a
failure, the place for the object and the members of the arguments that were empty before. -/
def Fault (p : Fn) (s : St) : Prop :=
  match p.code[s.pc]? with
  | none => True
  | some (.kill x) => ¬ (s.env x = .null ∨ ∃ a, s.env x = .addr a ∧ s.heap a = .live)
  | some (.give x) => ¬ (s.env x = .null ∨ ∃ a, s.env x = .addr a ∧ s.heap a = .live)
  | some (.use x) => ∃ a, s.env x = .addr a ∧ s.heap a = .freed
  | some (.deref x) => ¬ Valid s (s.env x)
  | some (.live x) => ¬ ∃ a, s.env x = .addr a ∧ s.heap a = .live
  | some (.held x) => ¬ (s.env x = .null ∨ ∃ a, s.env x = .addr a ∧ s.heap a = .live)
  | some (.none x) => s.env x ≠ .null
  | _ => False

/-- The cell `c` keeps what it holds from being lost when the function returns: it is the place of an
object that a successful call returns, or an owned member of a structure that is there. -/
def Keeps (p : Fn) (ok : Bool) (s : St) (c : Nat) : Prop :=
  ∃ i, p.cells[c]? = some i ∧
    ((i.out = true ∧ ok = true) ∨
      (i.owned = true ∧ ∃ q, i.parent = some q ∧ Valid s (s.env q)))

/-- All memory that is allocated when the function returns is kept by something: nothing leaks. -/
def NoLeak (p : Fn) (ok : Bool) (s : St) : Prop :=
  ∀ a, s.heap a = .live → ∃ c, s.env c = .addr a ∧ Keeps p ok s c

/-- No place that the caller can see holds a pointer to freed memory. -/
def NoDangling (p : Fn) (s : St) : Prop :=
  ∀ c i a, p.cells[c]? = some i → s.env c = .addr a → s.heap a = .freed →
    i.root = false ∧ ∀ q, i.parent = some q → ¬ Valid s (s.env q)

/-- In every execution: no fault, and at every return neither a leak nor a dangling pointer. -/
def Safe (p : Fn) : Prop :=
  ∀ s, Reach p s → ¬ Fault p s ∧
    ∀ ok, p.code[s.pc]? = some (.ret ok) → NoLeak p ok s ∧ NoDangling p s

/-- There is an execution that returns with or without success. -/
def Returns (p : Fn) (ok : Bool) : Prop := ∃ s, Reach p s ∧ p.code[s.pc]? = some (.ret ok)

/-- An execution returns, with or without success, and something that it allocated is lost. -/
def Leaks (p : Fn) (ok : Bool) : Prop :=
  ∃ s, Reach p s ∧ p.code[s.pc]? = some (.ret ok) ∧ ¬ NoLeak p ok s

/-- An execution returns and leaves a pointer to freed memory where its caller can see it. -/
def Dangles (p : Fn) (ok : Bool) : Prop :=
  ∃ s, Reach p s ∧ p.code[s.pc]? = some (.ret ok) ∧ ¬ NoDangling p s

/-- An execution frees something twice, or does another of the things that must not be done. -/
def Faults (p : Fn) : Prop := ∃ s, Reach p s ∧ Fault p s

end Verif.Spec.Owner
