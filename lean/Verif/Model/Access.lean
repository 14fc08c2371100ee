import Verif.Model.Base
/-!
# What calls read and change of a handle

A call for a handle (container, volume, file entry, extended attribute, snapshot) is a graph: it reads
and changes members of the structure of the handle and what these point to, and grabs and releases the
lock of the handle.  The values are left out: conditions are choices.  The graphs are in
`Model/AccessOf.lean`.
-/
namespace Verif.Access

/-- an instruction of a graph; the last arguments are the instructions that can follow -/
inductive Instr where
  /-- any of these follows -/
  | choice (next : List Nat)
  /-- the place is read -/
  | read (place next : Nat)
  /-- the place is changed -/
  | write (place next : Nat)
  /-- `libcthreads_read_write_lock_grab_for_write` or `_read`: it succeeds or fails -/
  | grab (write : Bool) (ok failed : Nat)
  /-- `libcthreads_read_write_lock_release_for_…` -/
  | release (next : Nat)
  | ret
deriving DecidableEq, Repr

/-- a function, which starts at its first instruction -/
abbrev Graph := List Instr

end Verif.Access
