import Verif.Spec.FileInVolume
/-!
# Where the bytes of a file are

An extent that is returned tells where in the container bytes are stored: an offset, a size and flags. There is no definition of flags in libfsapfs.h.
-/
namespace Verif.Spec
open Verif

/-- an extent as it is returned -/
structure Piece where
  offset : Int
  size : Nat
  flags : Nat
deriving DecidableEq

/-- byte at an offset of the container -/
def byteAt (image : Nat → Option Bytes) (offset : Nat) : Option UInt8 := (image (offset / 4096)).bind (·[offset % 4096]?)

/-- the container has bytes at a place -/
def LiesAt (image : Nat → Option Bytes) (p : Piece) (b : Bytes) : Prop :=
  0 ≤ p.offset ∧ b.length = p.size ∧ ∀ i, ∀ h : i < b.length, byteAt image (p.offset.toNat + i) = some b[i]

/-- Bytes are those at some places in a row: those of the container, or zeros where the offset is 0 and the file is sparse. -/
inductive Pieces (image : Nat → Option Bytes) (sparse : Bool) : List Piece → Bytes → Prop
  | nil : Pieces image sparse [] []
  | stored {p : Piece} {ps : List Piece} {b rest : Bytes} (hs : ¬ (sparse = true ∧ p.offset = 0)) (hb : LiesAt image p b) (h : Pieces image sparse ps rest) : Pieces image sparse (p :: ps) (b ++ rest)
  | hole {p : Piece} {ps : List Piece} {rest : Bytes} (hs : sparse = true ∧ p.offset = 0) (h : Pieces image sparse ps rest) : Pieces image sparse (p :: ps) (List.replicate p.size 0 ++ rest)

/-- what a program asks about extents; indices are those of C -/
inductive ExtentAsk where
  | number
  | extent (index : Int)
deriving DecidableEq

inductive ExtentAnswer where
  | number (n : Nat)
  | piece (p : Piece)
deriving DecidableEq

/-- the answer if there are these; other indices are refused -/
def extentAnswer (ps : List Piece) : ExtentAsk → Res ExtentAnswer
  | .number => .ok (.number ps.length)
  | .extent i => if i < 0 then .err else match ps[i.toNat]? with | some p => .ok (.piece p) | none => .err

end Verif.Spec
