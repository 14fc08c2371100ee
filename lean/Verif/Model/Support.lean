import Verif.Model.Container
/-!
# Model of the signature checks in libfsapfs_support.c

The file IO handle is opened, read and closed by libbfio. Each of its functions can fail; what they return is given by `Io`. Reading sets the position of the handle, which is not modelled.
-/
namespace Verif
open Res
namespace Support

/-- `fsapfs_container_signature` and `fsapfs_volume_signature`, libfsapfs_io_handle.c 30-31 -/
def containerSignature : Bytes := [0x4e, 0x58, 0x53, 0x42]
def volumeSignature : Bytes := [0x41, 0x50, 0x53, 0x42]

/-- what libbfio does: `libbfio_handle_is_open` does not fail, `libbfio_handle_open` succeeds, the bytes that `libbfio_handle_read_buffer_at_offset` returns for a number of bytes at offset 0 (`none` is an
error, fewer bytes at the end of the file), `libbfio_handle_close` succeeds for the first and for the second time. `libbfio_handle_free` succeeds at
the end of the function, and in `on_error`. -/
structure Io where
  status : Bool
  opens : Bool
  read : Nat → Option Bytes
  closes : Bool
  closesAgain : Bool
  frees : Bool
  freesAgain : Bool

/-- closing a file IO handle that is open; one that failed is still open. Closing a handle that is not open changes nothing. -/
def close (succeeds isOpen : Bool) : Bool := isOpen && !succeeds

/-- `libfsapfs_check_container_signature_file_io_handle`, libfsapfs_support.c 535-639, and `libfsapfs_check_volume_signature_file_io_handle`, 644-748, which differ in the signature.
The argument `isOpen` is the state of the handle; the result is its state and the result, where `none` is -1. -/
def check (signature : Bytes) (io : Io) (isOpen : Bool) : Bool × Option Bool :=
  -- 555-570; in `on_error` the variable is -1 and the handle is left alone
  if io.status = false then (isOpen, none)
  -- 571-586
  else if isOpen = false ∧ io.opens = false then (close io.closes false, none)
  else
    match io.read 36 with
    -- 587-604
    | none => (if isOpen = false then close io.closes true else true, none)
    | some d =>
      if d.length ≠ 36 then (if isOpen = false then close io.closes true else true, none)
      -- 605-620
      else if isOpen = false ∧ io.closes = false then (close io.closesAgain true, none)
      -- 621-628
      else (isOpen, some (decide ((d.drop 32).take 4 = signature)))

/-- `libbfio_handle_free` of the file IO handle behind a pointer, `none` is `NULL`; if it fails the handle is still there -/
def free (succeeds : Bool) (handle : Option Bool) : Option Bool := if succeeds then none else handle

/-- `on_error`, libfsapfs_support.c 197-204: the handle is freed if the pointer is set -/
def onError (succeeds : Bool) (handle : Option Bool) : Option Bool × Option Bool :=
  match handle with
  | none => (none, none)
  | some h => (free succeeds (some h), none)

/-- `libfsapfs_check_container_signature`, libfsapfs_support.c 111-205, `libfsapfs_check_volume_signature`, 210-304, `libfsapfs_check_container_signature_wide`, 323-417 and
`libfsapfs_check_volume_signature_wide`, 422-516. `created` and `named` tell if the handle can be created and given the name. The result is the file IO handle that is left behind (`none` if there is none,
otherwise whether it is open), and the result. -/
def checkFile (signature : Bytes) (created named : Bool) (io : Io) (name : Option Bytes) : Option Bool × Option Bool :=
  match name with
  -- 121-131
  | none => (none, none)
  | some name =>
    -- 135-145
    if name.length = 0 then onError io.freesAgain none
    -- 146-158
    else if created = false then onError io.freesAgain none
    -- 159-173
    else if named = false then onError io.freesAgain (some false)
    else
      let (isOpen, result) := check signature io false
      match result with
      -- 178-188
      | none => onError io.freesAgain (some isOpen)
      -- 189-202
      | some r => if io.frees = false then onError io.freesAgain (free false (some isOpen)) else (free true (some isOpen), some r)

end Support
end Verif
