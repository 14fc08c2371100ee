import Verif.Spec.FsTree
/-!
# Encoding of file system records (APFS reference: drec_key, drec_hashed_key, drec_val, xattr_key, xattr_val, inode_val, xfields, file extents)
-/
namespace Verif.Spec
open Verif

/-- key of a directory record without name hash -/
def drecKey (parent : Nat) (name : Bytes) : Bytes := toLE 8 (9 * 2 ^ 60 + parent) ++ (toLE 2 name.length ++ name)

/-- key of a directory record with name hash: name size in the lower 10 bits, hash in the upper 22 bits -/
def drecHashedKey (parent hash : Nat) (name : Bytes) : Bytes := toLE 8 (9 * 2 ^ 60 + parent) ++ (toLE 4 (hash * 1024 + name.length) ++ name)

/-- an extended field -/
structure XField where
  type : UInt8
  flags : UInt8
  value : Bytes

def XField.header (f : XField) : Bytes := f.type :: f.flags :: toLE 2 f.value.length

/-- values are padded to a multiple of 8 bytes -/
def XField.padded (f : XField) : Bytes := f.value ++ List.replicate ((8 - f.value.length % 8) % 8) 0

/-- extended fields: their number, the size of their values, their headers and their values -/
def xfields (fs : List XField) : Bytes :=
  toLE 2 fs.length ++ (toLE 2 (fs.flatMap XField.padded).length ++ (fs.flatMap XField.header ++ fs.flatMap XField.padded))

/-- the value of the extended field of a type -/
def xvalue (fs : List XField) (type : UInt8) : Option Bytes := (fs.find? (fun f => f.type = type)).map (·.value)

/-- extended fields are optional -/
def optionalFields : Option (List XField) → Bytes
  | none => []
  | some fs => xfields fs

/-- value of a directory record -/
def drecValue (identifier added flags : Nat) (fs : Option (List XField)) : Bytes :=
  toLE 8 identifier ++ (toLE 8 added ++ (toLE 2 flags ++ optionalFields fs))

/-- value of an inode: 92 bytes of fixed fields and extended fields -/
def inodeValue (fixed : Bytes) (fs : Option (List XField)) : Bytes := fixed ++ optionalFields fs

/-- extended fields of inodes, except reserved types and type 16; their values are not empty, a data stream has 40 bytes, a device number 4 -/
def InodeField (f : XField) : Prop :=
  f.type ∈ ([1, 2, 3, 4, 5, 7, 8, 10, 11, 13, 14, 15] : List UInt8) ∧ 0 < f.value.length ∧ f.value.length < 65536 ∧
  (f.type = 8 → f.value.length = 40) ∧ (f.type = 14 → f.value.length = 4)

/-- key of an extended attribute -/
def xattrKey (identifier : Nat) (name : Bytes) : Bytes := toLE 8 (4 * 2 ^ 60 + identifier) ++ (toLE 2 name.length ++ name)

/-- value of an extended attribute: flags, size and data -/
def xattrValue (flags : Nat) (data : Bytes) : Bytes := toLE 2 flags ++ (toLE 2 data.length ++ data)

/-- data of an extended attribute that is stored in a data stream: identifier, size and four more fields -/
def xattrStream (stream size : Nat) (rest : Bytes) : Bytes := toLE 8 stream ++ (toLE 8 size ++ rest)

/-- key of a file extent -/
def extentKey (identifier logical : Nat) : Bytes := toLE 8 (8 * 2 ^ 60 + identifier) ++ toLE 8 logical

/-- value of a file extent: size in the lower 56 bits and flags in the upper 8 bits, physical block, encryption identifier -/
def extentValue (size flags physical encryption : Nat) : Bytes := toLE 8 (flags * 2 ^ 56 + size) ++ (toLE 8 physical ++ toLE 8 encryption)

end Verif.Spec
