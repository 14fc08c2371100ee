import Verif.Model.Locks
/-!
# What users of a read/write lock have to do, and how threads share it

Only the operations on the lock (`Locks.Op`) and the notion of a call (`Locks.Fn.Uses`) come from the model.
-/
namespace Verif.Spec
open Verif.Locks

/-- the lock is never grabbed while it is held, is released the way it was grabbed, and is free in the end -/
inductive Balanced : List Op → Prop where
  | nil : Balanced []
  | pair (w : Bool) {t : List Op} : Balanced t → Balanced (.grab w :: .release w :: t)

/-- a read/write lock and what the threads that use it still have to do -/
structure Sys where
  readers : Nat
  writer : Bool
  threads : List (List Op)

/-- one operation of a thread; grabbing the lock waits while it is held by others in a way that excludes it -/
inductive Act : Nat × Bool → Op → Nat × Bool → Prop where
  | grabRead {n} : Act (n, false) (.grab false) (n + 1, false)
  | grabWrite : Act (0, false) (.grab true) (0, true)
  | releaseRead {n b} : Act (n + 1, b) (.release false) (n, b)
  | releaseWrite {n} : Act (n, true) (.release true) (n, false)

inductive Step : Sys → Sys → Prop where
  | step {r w r' w' pre op t post} : Act (r, w) op (r', w') → Step ⟨r, w, pre ++ (op :: t) :: post⟩ ⟨r', w', pre ++ t :: post⟩

inductive Steps : Sys → Sys → Prop where
  | refl {s} : Steps s s
  | tail {s u v} : Steps s u → Step u v → Steps s v

/-- what a thread does: any number of calls -/
inductive Calls (fs : List Fn) : List Op → Prop where
  | nil : Calls fs []
  | call {f t u} : f ∈ fs → f.Uses t → Calls fs u → Calls fs (t ++ u)

/-- the thread holds the lock -/
def holds (w : Bool) : List Op → Bool
  | .release v :: _ => v == w
  | _ => false

end Verif.Spec
