import Verif.Model.Handles
/-!
# Which handles depend on which

What a program knows of its handles from the calls it made and what they returned: the kind of each and the handle that has to outlive it. A volume depends on its container, snapshots and file entries on their volume, also if a file entry
was obtained from another file entry, and extended attributes on their file entry.
-/
namespace Verif.Spec.Handles
open Verif.Handles

structure Known where
  name : Nat
  /-- `none`: a container -/
  kind : Option Want
  provider : Option Nat

/-- the handle that one obtained from `n` depends on -/
def providerFor (t : List Known) (n : Nat) (w : Want) : Option Nat :=
  match t.find? (fun x => x.name = n) with
  | none => none
  | some x => if w = .entry ∧ x.kind = some .entry then x.provider else some n

/-- what is known after a call; `returned`: the call set the pointer to a handle -/
def track (t : List Known) (returned : Bool) : Call → List Known
  | .initialize_ n => if returned then ⟨n, none, none⟩ :: t else t
  | .get n w r _ => if returned then ⟨r, some w, providerFor t n w⟩ :: t else t
  | .free n => t.filter (fun x => x.name ≠ n)
  | _ => t

/-- what the caller can see of a call that returns a handle: whether the pointer was set -/
def returned (s s' : State) : Call → Bool
  | .initialize_ n => (s.find n).isNone && (s'.find n).isSome
  | .get _ _ r _ => (s.find r).isNone && (s'.find r).isSome
  | _ => false

/-- a handle is only freed or closed after what depends on it was freed; a file IO handle that is given to the library is one of the program -/
def Allowed (files : List Addr) (t : List Known) : Call → Prop
  | .free n => ∀ x ∈ t, x.provider ≠ some n
  | .close n => ∀ x ∈ t, x.provider ≠ some n
  | .open_ _ given _ _ => ∀ f ∈ given, f ∈ files
  | _ => True

/-- states after orderly histories -/
inductive Orderly (files : List Addr) : State → List Known → Prop
  | start : Orderly files (start files) []
  | step {s s' : State} {t : List Known} {c : Call} : Orderly files s t → Allowed files t c → step s c = some s' → Orderly files s' (track t (returned s s' c) c)

/-- actions of programs in Python that close a container only if nothing that was obtained from it is left and do not open one with a file object that is open with a file object -/
def Careful (s : Heap) (a : Action) : Prop :=
  (∀ o, a = .close o → ∀ p ∈ s.objects, p.parent ≠ some o) ∧ ∀ o encrypted succeeds, a = .openFile o encrypted succeeds → o ∉ s.byObject

/-- states of such programs -/
inductive Kept : Heap → Prop
  | empty : Kept .empty
  | act {s s' : Heap} {a : Action} : Kept s → Careful s a → s.act a = some s' → Kept s'

/-- the action opens the container with a file object -/
def opensObject (o : Nat) : Action → Bool
  | .openFile k _ _ => k = o
  | _ => false

end Verif.Spec.Handles
