import Verif.Spec.Records
/-!
# Compressed files, symbolic links and extended attributes of a file (independent of the model)

A file is compressed if it has an attribute com.apple.decmpfs that starts with "fpmc"; compression method and uncompressed size follow. With an odd
method the compressed data is in the same attribute, with an even one in com.apple.ResourceFork; 3 and 4 are zlib, 7 and 8 LZVN, 11 and 12 LZFSE. The target of
a symbolic link is the value of com.apple.fs.symlink.
-/
namespace Verif.Spec
open Verif

/-- an extended attribute; `stream` has the identifier and the four other fields of a data stream, if the value is in one -/
structure XAttr where
  name : Bytes
  value : Bytes
  stream : Option (Nat × Bytes) := none
deriving DecidableEq

/-- the record of an extended attribute of the file with the identifier; the name ends with a zero -/
def XAttr.record (identifier : Nat) (x : XAttr) : Bytes × Bytes :=
  (xattrKey identifier (x.name ++ [0]),
    match x.stream with
    | none => xattrValue 2 x.value
    | some (id, rest) => xattrValue 1 (xattrStream id x.value.length rest))

/-- sizes fit in the fields of the record -/
def XAttr.Fits (x : XAttr) : Prop :=
  x.name.length < 65535 ∧
    match x.stream with
    | none => x.value.length < 65536
    | some (id, rest) => id < 2 ^ 64 ∧ x.value.length < 2 ^ 64 ∧ rest.length = 32

/-- a file: its extended attributes, the size of its data stream and whether that is sparse -/
structure StoredFile where
  identifier : Nat
  attributes : List XAttr
  size : Nat
  sparse : Bool

/-- names are unique -/
structure StoredFile.Valid (f : StoredFile) : Prop where
  fits : ∀ x ∈ f.attributes, x.Fits
  unique : f.attributes.Pairwise fun x y => x.name ≠ y.name
  size : f.size < 2 ^ 64

def StoredFile.attribute? (f : StoredFile) (name : Bytes) : Option Bytes := (f.attributes.find? fun x => x.name = name).map (·.value)

/-- com.apple.decmpfs -/
def decmpfs : Bytes := "com.apple.decmpfs".toUTF8.toList
/-- com.apple.ResourceFork -/
def resourceFork : Bytes := "com.apple.ResourceFork".toUTF8.toList
/-- com.apple.fs.symlink -/
def symlink : Bytes := "com.apple.fs.symlink".toUTF8.toList

/-- is a file compressed, with which method and what is its uncompressed size -/
inductive Kind where
  | plain
  | damaged
  | compressed (method size : Nat)
deriving DecidableEq

def StoredFile.kind (f : StoredFile) : Kind :=
  match f.attribute? decmpfs with
  | none => .plain
  | some v =>
    if v.length < 16 then .damaged
    else if v.take 4 = "fpmc".toUTF8.toList then .compressed (leNat ((v.drop 4).take 4)) (leNat ((v.drop 8).take 8))
    else .plain

/-- size of the contents -/
def StoredFile.size? (f : StoredFile) : Option Nat :=
  match f.kind with
  | .plain => some f.size
  | .damaged => none
  | .compressed _ n => some n

inductive Algorithm where
  | zlib | lzvn | lzfse
deriving DecidableEq

/-- where the contents of a file come from -/
inductive Source where
  | plain (size : Nat) (sparse : Bool)
  | decoded (algorithm : Algorithm) (data : Bytes) (size : Nat)
deriving DecidableEq

def StoredFile.source? (f : StoredFile) : Option Source :=
  match f.kind with
  | .plain => some (.plain f.size f.sparse)
  | .damaged => none
  | .compressed method n =>
    match method with
    | 3 => (f.attribute? decmpfs).map (.decoded .zlib · n)
    | 4 => (f.attribute? resourceFork).map (.decoded .zlib · n)
    | 7 => (f.attribute? decmpfs).map (.decoded .lzvn · n)
    | 8 => (f.attribute? resourceFork).map (.decoded .lzvn · n)
    | 11 => (f.attribute? decmpfs).map (.decoded .lzfse · n)
    | 12 => (f.attribute? resourceFork).map (.decoded .lzfse · n)
    | _ => none

end Verif.Spec
