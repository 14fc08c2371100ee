import Verif.Spec.FsTree
/-!
# Which nodes a listing has to read

The records of an identifier and type, in a tree ordered by identifier and type, are below an entry of a branch node only if the entry is not behind the identifier and type
and the next entry is not before it.
-/
namespace Verif.Spec
open Verif

/-- a child, by the value of its entry, that can hold records of an identifier and type -/
def MayHold (identifier type : Nat) (entries : List Record) (value : Bytes) : Prop :=
  ∃ a e b, entries = a ++ e :: b ∧ e.2 = value ∧ ¬ fsOver identifier type e.1 ∧
    ∀ next ∈ b.head?, fsOver identifier type next.1 ∨ (fsId next.1 = identifier ∧ fsType next.1 = type)

end Verif.Spec
