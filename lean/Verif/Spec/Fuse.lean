import Verif.Model.Base
/-!
# Requests to a mounted file system and answers to them

The operations of FUSE that fsapfsmount has, fuse.h "struct fuse_operations". A buffer that is filled is the bytes it has then.
-/
namespace Verif.Spec.Fuse
open Verif

inductive Errno where
  | enoent | eio | eacces | einval | enodata | e2big | erange
deriving DecidableEq, Repr

/-- a result, an error, or undefined behaviour -/
inductive Reply (α : Type) where
  | value (a : α)
  | fails (e : Errno)
  | ub
deriving DecidableEq, Repr

/-- `struct stat`; times have seconds and nanoseconds -/
structure Stat where
  size : Nat
  mode : Nat
  links : Nat
  access : Int × Int
  change : Int × Int
  modification : Int × Int
deriving DecidableEq, Repr

/-- what `getxattr` and `listxattr` give: the size that is needed, or the bytes in the buffer -/
inductive Value where
  | needs (n : Nat)
  | bytes (b : Bytes)
deriving DecidableEq, Repr

/-- A file or directory that is open has a number. -/
inductive Request where
  | getattr (path : Bytes)
  | open_ (path : Bytes) (flags : Nat)
  | read (handle size : Nat) (offset : Int)
  | release (handle : Nat)
  | opendir (path : Bytes)
  | readdir (handle : Nat)
  | releasedir (handle : Nat)
  | readlink (path : Bytes) (size : Nat)
  | getxattr (path name : Bytes) (size : Nat)
  | listxattr (path : Bytes) (size : Nat)

def Request.path? : Request → Option Bytes
  | .getattr p => some p
  | .open_ p _ => some p
  | .opendir p => some p
  | .readlink p _ => some p
  | .getxattr p _ _ => some p
  | .listxattr p _ => some p
  | _ => none

inductive Answer where
  | done
  | handle (n : Nat)
  | stat (s : Stat)
  | bytes (b : Bytes)
  | names (l : List (Bytes × Stat))
  | value (v : Value)
deriving DecidableEq, Repr

end Verif.Spec.Fuse
