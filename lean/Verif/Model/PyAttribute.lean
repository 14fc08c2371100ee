import Verif.Model.PyRead
import Verif.Model.AttributeRead
/-!
# Model of reading an extended attribute in Python

pyfsapfs/pyfsapfs_extended_attribute.c. Its functions that read and seek are those of pyfsapfs_file_entry.c with other names: their texts were compared. Objects are handles of `Model/AttributeRead.lean`;
failing allocations of Python are not modelled, references are in `Model/Handles.lean`.
-/
namespace Verif
open Res
namespace PyAttribute
open Spec (ValueOp ValueAnswer ValueAction)
open PyRead (Size readSize readAtSize)
open AttributeRead (Env State act)
open Records (Attribute)

/-- method calls -/
inductive Call where
  | read (size : Size)
  | readAt (size : Size) (offset : Int)
  | seek (offset whence : Int)
  | getOffset
  | getSize

/-- what is returned -/
inductive Value where
  | bytes (d : Bytes)
  | none_
  | int (i : Int)
deriving DecidableEq

/-- `whence` is an `int`; negative ones are as unknown as those of more than two -/
def whenceOf (w : Int) : Nat := if w < 0 then 3 else w.toNat

/-- Which function of the library is called, none for an empty string: `pyfsapfs_extended_attribute_read_buffer`, pyfsapfs_extended_attribute.c 582-802, `..._read_buffer_at_offset` 807-1006,
`..._seek_offset` 1011-1068, `..._get_offset` 1073-1127 and `..._get_size` 1132-1179. Format "L|i" refuses what does not fit. `size` is what `libfsapfs_extended_attribute_get_size` returns. -/
def opOf (size : Res Nat) : Call → Res (Option ValueOp)
  | .read s => do
    let n ← readSize size s
    if n = 0 then return none
    require (¬ n < 0)
    require (¬ n > 2147483647)
    return some (.read n.toNat)
  | .readAt s o => do
    require (-2 ^ 63 ≤ o ∧ o < 2 ^ 63)
    let n ← readAtSize s
    if n = 0 then return none
    require (¬ n < 0)
    require (¬ n > 2147483647)
    require (¬ o < 0)
    return some (.readAt n.toNat o)
  | .seek o w => do
    require (-2 ^ 63 ≤ o ∧ o < 2 ^ 63)
    require (-2 ^ 31 ≤ w ∧ w < 2 ^ 31)
    return some (.seek o (whenceOf w))
  | .getOffset => return some .offset
  | .getSize => return some .size

/-- What a call returns for the answer of the library: a string of the bytes that were read, 766-798 and 970-1002; `None` for seeking, 1063-1067, where an offset of -1 is an error, 1050; integers, 1123 and
1175. An offset that is not set is 0, 1080. -/
def answer (c : Call) : Res ValueAnswer → Res Value
  | .err => err
  | .ub => ub
  | .ok (.bytes d) => ok (.bytes d)
  | .ok (.position p) =>
    match c with
    | .seek _ _ => if p = -1 then err else ok .none_
    | _ => ok (.int p)
  | .ok (.size n) => ok (.int n)
  | .ok .unset => ok (.int 0)
  | .ok .done => err

/-- `libfsapfs_extended_attribute_get_size`, libfsapfs_extended_attribute.c 1082-1158, of an object -/
def sizeOf (f : FileRead.Files) (a : Attribute) (env : Env) (s : State) (k : Nat) : Res Nat :=
  match (act f a env s (.ask k .size)).1 with
  | .ok (.size n) => ok n
  | .ub => ub
  | _ => err

/-- a method call of object `k`; there may be no such object any more -/
def call (f : FileRead.Files) (a : Attribute) (env : Env) (s : State) (k : Nat) (c : Call) : Res Value × State :=
  match s.handles[k]?.join with
  | none => (err, s)
  | some _ =>
    match opOf (sizeOf f a env s k) c with
    | .err => (err, s)
    | .ub => (ub, s)
    | .ok none => (ok (.bytes []), s)
    | .ok (some o) => (answer c (act f a env s (.ask k o)).1, (act f a env s (.ask k o)).2)

/-- what a program does: it gets an object for the attribute, `pyfsapfs_extended_attribute_new`, pyfsapfs_extended_attribute.c 256-304, deletes one or calls a method -/
inductive Action where
  | get
  | delete (object : Nat)
  | call (object : Nat) (c : Call)

def step (f : FileRead.Files) (a : Attribute) (env : Env) (s : State) : Action → Res Value × State
  | .get =>
    match act f a env s .another with
    | (.ok _, s) => (ok .none_, s)
    | (.err, s) => (err, s)
    | (.ub, s) => (ub, s)
  | .delete k => (ok .none_, (act f a env s (.free k)).2)
  | .call k c => call f a env s k c

/-- in a row -/
def run (f : FileRead.Files) (a : Attribute) : List (Action × Env) → State → List (Res Value)
  | [], _ => []
  | (x, env) :: l, s => (step f a env s x).1 :: run f a l (step f a env s x).2

end PyAttribute
end Verif
