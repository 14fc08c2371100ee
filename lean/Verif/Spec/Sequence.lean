import Verif.Model.PySequence
/-!
# Sequences of Python

Of the documentation of Python: `__iter__` of a container returns "a new iterator object that can iterate over all the objects in the container"; `__next__` of an iterator returns the next item.
Each iterator has its own position.
-/
namespace Verif.Spec.Sequence
open Verif.PySequence (Use Answer)

variable {α : Type}

/-- the positions of the iterators that exist -/
abbrev Positions := Nat → Option Nat

def Positions.set (p : Positions) (it k : Nat) : Positions := fun j => if j = it then some k else p j

/-- a use of a sequence of `items`; an item is `none` if it cannot be obtained. If something is wrong during the use, then an item can fail. The result is `none` for an exception. -/
inductive Step (items : List (Option α)) : Positions → Use → Prop → Option (Answer α) → Positions → Prop
  | len {p fault} : Step items p .len fault (some (.number items.length)) p
  | item {p fault} {i : Nat} {a : α} : items[i]? = some (some a) → Step items p (.item i) fault (some (.value a)) p
  /-- from the end -/
  | itemBack {p fault} {i : Nat} {a : α} : 0 < i → i ≤ items.length → items[items.length - i]? = some (some a) → Step items p (.item (-i)) fault (some (.value a)) p
  | itemOutside {p fault} {i : Int} : i < -items.length ∨ items.length ≤ i → Step items p (.item i) fault none p
  | itemMissing {p fault} {i : Nat} : items[i]? = some none → Step items p (.item i) fault none p
  | itemBackMissing {p fault} {i : Nat} : 0 < i → i ≤ items.length → items[items.length - i]? = some none → Step items p (.item (-i)) fault none p
  | itemFault {p} {fault : Prop} {i : Int} : fault → Step items p (.item i) fault none p
  | iter {p fault it} : Step items p (.iter it) fault (some .iterator) (p.set it 0)
  | next {p fault it k} {a : α} : p it = some k → items[k]? = some (some a) → Step items p (.next it) fault (some (.value a)) (p.set it (k + 1))
  | stop {p fault it} : p it = some items.length → Step items p (.next it) fault (some .stop) p
  | nextMissing {p fault it k} : p it = some k → items[k]? = some none → Step items p (.next it) fault none p
  | nextFault {p it k} {fault : Prop} : p it = some k → k < items.length → fault → Step items p (.next it) fault none p

inductive Trace (items : List (Option α)) : Positions → List (Use × Prop × Option (Answer α)) → Prop
  | nil {p} : Trace items p []
  | cons {p u fault r p' rest} : Step items p u fault r p' → Trace items p' rest → Trace items p ((u, fault, r) :: rest)

/-- what a program sees -/
def seen : List (Use × Prop) → List (Res (Answer α)) → List (Use × Prop × Option (Answer α))
  | (u, f) :: us, r :: rs => (u, f, match r with | .ok a => some a | _ => none) :: seen us rs
  | _, _ => []

/-- programs with one iterator, which is obtained once, before it is used: `started` says whether it has been -/
def OneIterator (it : Nat) : Bool → List Use → Prop
  | _, [] => True
  | started, .iter j :: us => started = false ∧ j = it ∧ OneIterator it true us
  | started, .next j :: us => started = true ∧ j = it ∧ OneIterator it started us
  | started, _ :: us => OneIterator it started us

end Verif.Spec.Sequence
