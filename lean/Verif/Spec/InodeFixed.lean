import Verif.Spec.Records
/-!
# The fixed fields of an inode value
-/
namespace Verif.Spec
open Verif

/-- The fixed fields of an inode in their order: APFS reference, "j_inode_val_t", and documentation/Apple File System (APFS).asciidoc, "Inode value data", which has the same order. Times are
nanoseconds since 1970. -/
structure InodeFixed where
  parent : Nat
  dataStream : Nat
  created : Nat
  modified : Nat
  changed : Nat
  accessed : Nat
  flags : Nat
  links : Nat
  protectionClass : Nat
  generation : Nat
  bsdFlags : Nat
  owner : Nat
  group : Nat
  mode : Nat
  padding : Bytes

def InodeFixed.bytes (f : InodeFixed) : Bytes :=
  toLE 8 f.parent ++ (toLE 8 f.dataStream ++ (toLE 8 f.created ++ (toLE 8 f.modified ++ (toLE 8 f.changed ++ (toLE 8 f.accessed ++ (toLE 8 f.flags ++ (toLE 4 f.links ++
    (toLE 4 f.protectionClass ++ (toLE 4 f.generation ++ (toLE 4 f.bsdFlags ++ (toLE 4 f.owner ++ (toLE 4 f.group ++ (toLE 2 f.mode ++ f.padding)))))))))))))

structure InodeFixed.Fits (f : InodeFixed) : Prop where
  parent : f.parent < 2 ^ 64
  dataStream : f.dataStream < 2 ^ 64
  created : f.created < 2 ^ 64
  modified : f.modified < 2 ^ 64
  changed : f.changed < 2 ^ 64
  accessed : f.accessed < 2 ^ 64
  flags : f.flags < 2 ^ 64
  links : f.links < 2 ^ 32
  owner : f.owner < 2 ^ 32
  group : f.group < 2 ^ 32
  mode : f.mode < 2 ^ 16
  padding : f.padding.length = 10

end Verif.Spec
