import Verif.Model.Base
/-!
# Requests to a file system that is mounted on Windows and answers to them

The operations of Dokan that fsapfsmount has, dokan.h "struct _DOKAN_OPERATIONS". Strings are 16-bit characters without end-of-string character. A buffer that is filled is the bytes it has then.
-/
namespace Verif.Spec.Dokan
open Verif

abbrev Wide := List UInt16

/-- errors; there are those of Windows before Dokan 0.8 (`ERROR_...`) and those of Windows NT since (`STATUS_...`) -/
inductive Status where
  | badArguments | writeProtect | fileExists | alreadyExists | notFound | accessDenied | generic | readFault
deriving DecidableEq, Repr

/-- a result, an error, or undefined behaviour -/
inductive Reply (α : Type) where
  | value (a : α)
  | fails (e : Status)
  | ub
deriving DecidableEq, Repr

/-- what `BY_HANDLE_FILE_INFORMATION` and `WIN32_FIND_DATAW` have in common; times are `FILETIME` -/
structure Info where
  size : Nat
  directory : Bool
  creation : Nat
  access : Nat
  write : Nat
deriving DecidableEq, Repr

/-- `WIN32_FIND_DATAW`: name, short name, attributes -/
structure Found where
  name : Wide
  short : Wide
  info : Info
deriving DecidableEq, Repr

/-- what `GetVolumeInformation` gives; a name is `none` if it does not fit in the buffer -/
structure Volume where
  name : Option Wide
  serial : Nat
  longest : Nat
  flags : Nat
  system : Option Wide
deriving DecidableEq, Repr

/-- A file or directory that is open has a number. -/
inductive Request where
  | create (path : Wide) (access disposition : Nat)
  | openDirectory (path : Wide)
  | read (handle size : Nat) (offset : Int)
  | close (handle : Nat)
  | find (path : Wide)
  | info (path : Wide)
  | volume (nameSize systemSize : Nat)
  | unmount

inductive Answer where
  | done
  | handle (n : Nat)
  | bytes (b : Bytes)
  | found (l : List Found)
  | info (i : Info)
  | volume (v : Volume)
deriving DecidableEq, Repr

end Verif.Spec.Dokan
