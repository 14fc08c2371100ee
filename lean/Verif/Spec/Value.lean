import Verif.Model.Base
/-!
# A value that is read through handles

Any number of handles to one string of bytes, each with a position of its own.
-/
namespace Verif.Spec
open Verif

/-- What is asked of a handle. `whence` is 0 for the start, 1 for the position, 2 for the end of the value. -/
inductive ValueOp where
  | read (n : Nat)
  | readAt (n : Nat) (offset : Int)
  | seek (offset : Int) (whence : Nat)
  | offset
  | size
deriving DecidableEq

inductive ValueAnswer where
  | bytes (d : Bytes)
  | position (offset : Int)
  | size (n : Nat)
  | unset
  | done
deriving DecidableEq

/-- the position to seek; there is none before the start of the value -/
def seekTo (size pos : Nat) (offset : Int) (whence : Nat) : Option Nat :=
  let target : Option Int := if whence = 0 then some offset else if whence = 1 then some (pos + offset) else if whence = 2 then some (size + offset) else none
  match target with
  | none => none
  | some t => if t < 0 then none else some t.toNat

/-- the answer for a value, `none` is an error, and the new position; at most 2^63 - 1 bytes are read at once -/
def valueStep (v : Bytes) (pos : Nat) : ValueOp → Option ValueAnswer × Nat
  | .read n => if n < 2 ^ 63 then (some (.bytes ((v.drop pos).take n)), pos + ((v.drop pos).take n).length) else (none, pos)
  | .readAt n offset =>
    match seekTo v.length pos offset 0 with
    | none => (none, pos)
    | some p => if n < 2 ^ 63 then (some (.bytes ((v.drop p).take n)), p + ((v.drop p).take n).length) else (none, p)
  | .seek offset whence =>
    match seekTo v.length pos offset whence with
    | none => (none, pos)
    | some p => (some (.position p), p)
  | .offset => (some (.position pos), pos)
  | .size => (some (.size v.length), pos)

/-- where a handle is if something fails meanwhile: reading at an offset may have moved it there -/
inductive Moved (v : Bytes) (pos : Nat) : ValueOp → Nat → Prop
  | stays (o : ValueOp) : Moved v pos o pos
  | readAt (n p : Nat) : Moved v pos (.readAt n p) p

/-- a caller gets another handle, frees one, asks something of one or uses the value in another way -/
inductive ValueAction where
  | another
  | free (handle : Nat)
  | ask (handle : Nat) (op : ValueOp)
  | other

/-- What a caller sees: the positions of the handles, those that were freed have none, and what was done, whether storage or memory failed meanwhile, and what was answered. An error without such a failure
is one of the value itself; the size is known without reading anything. -/
def ValueSeen (v : Bytes) : List (Option Nat) → List (ValueAction × Prop × Option ValueAnswer) → Prop
  | _, [] => True
  | hs, (.another, fault, r) :: rest => (r = some .done ∧ ValueSeen v (hs ++ [some 0]) rest) ∨ (fault ∧ r = none ∧ ValueSeen v hs rest)
  | hs, (.free k, _, r) :: rest => r = some .done ∧ ValueSeen v (hs.set k none) rest
  | hs, (.other, _, _) :: rest => ValueSeen v hs rest
  | hs, (.ask k o, fault, r) :: rest =>
    match hs[k]?.join with
    | none => r = none ∧ ValueSeen v hs rest
    | some pos => (r = (valueStep v pos o).1 ∧ ValueSeen v (hs.set k (some (valueStep v pos o).2)) rest) ∨
      (fault ∧ o ≠ .size ∧ r = none ∧ ∃ p, Moved v pos o p ∧ ValueSeen v (hs.set k (some p)) rest)

end Verif.Spec
