import Verif.Spec.Info
/-!
# What is shown about a container

The lines of a text, from which the identifier of a container and for each volume its identifier, name, features and snapshots can be read. The names of the features are those of the APFS reference.
-/
namespace Verif.Spec.Info
open Verif Spec

/-- what is shown about a volume; names are characters -/
structure ShownVolume where
  uuid : Bytes
  name : List Nat
  compatible : Nat
  incompatible : Nat
  readOnlyCompatible : Nat
  locked : Bool
  snapshots : List (List Nat)

/-- what is shown about a container -/
structure ShownContainer where
  uuid : Bytes
  locked : Bool
  volumes : List ShownVolume

/-- the bytes of pairs of hexadecimal digits -/
def pairs : Bytes → Option Bytes
  | [] => some []
  | [_] => none
  | a :: b :: r => (Escape.digit a).bind fun x => (Escape.digit b).bind fun y => (pairs r).map (UInt8.ofNat (x * 16 + y) :: ·)

/-- a UUID: groups of 8, 4, 4, 4 and 12 hexadecimal digits -/
def uuidOf (s : Bytes) : Option Bytes :=
  if s.length = 36 ∧ s[8]? = some 0x2d ∧ s[13]? = some 0x2d ∧ s[18]? = some 0x2d ∧ s[23]? = some 0x2d then
    pairs (s.take 8 ++ (s.drop 9).take 4 ++ (s.drop 14).take 4 ++ (s.drop 19).take 4 ++ s.drop 24)
  else none

/-- a hexadecimal number -/
def hexOf : Bytes → Option Nat
  | 0x30 :: 0x78 :: b :: r => Escape.hexNumber 0 (b :: r)
  | _ => none

/-- flags: a hexadecimal number, with eight digits if it fits -/
def FlagsAre (flags : Nat) (s : Bytes) : Prop := hexOf s = some flags ∧ (flags < 2 ^ 32 → s.length = 10)

/-- the names of the compatible features, from the lowest bit on -/
def compatibleNames : List String := ["APFS_FEATURE_DEFRAG_PRERELEASE", "APFS_FEATURE_HARDLINK_MAP_RECORDS", "APFS_FEATURE_DEFRAG", "APFS_FEATURE_STRICTATIME", "APFS_FEATURE_VOLGRP_SYSTEM_INO_SPACE"]

/-- the names of the incompatible features, from the lowest bit on -/
def incompatibleNames : List String := ["APFS_INCOMPAT_CASE_INSENSITIVE", "APFS_INCOMPAT_DATALESS_SNAPS", "APFS_INCOMPAT_ENC_ROLLED", "APFS_INCOMPAT_NORMALIZATION_INSENSITIVE",
  "APFS_INCOMPAT_INCOMPLETE_RESTORE", "APFS_INCOMPAT_SEALED_VOLUME"]

/-- lines for the features that are set, the first name is that of bit `i` -/
def features (flags : Nat) : Nat → List String → List (List Char)
  | _, [] => []
  | i, n :: ns => (if flags.testBit i then ["\t\t(".toList ++ n.toList ++ ")".toList] else []) ++ features flags (i + 1) ns

/-- lines for snapshots behind `k` others -/
inductive ShowsSnapshots : Nat → List (List Nat) → List (List Char) → Prop
  | nil (k : Nat) : ShowsSnapshots k [] []
  | cons {k : Nat} {name : List Nat} {names : List (List Nat)} {digits : Bytes} {rest : List (List Char)} (number : Escape.number digits = some (k + 1)) (rest_ : ShowsSnapshots (k + 1) names rest) :
    ShowsSnapshots k (name :: names) (("\tSnapshot: ".toList ++ chars digits ++ " information:".toList) :: ("\t\tName\t\t\t: ".toList ++ chars (Utf8.encode name)) :: rest)

/-- lines for a volume behind `k` others -/
def ShowsVolume (k : Nat) (v : ShownVolume) (lines : List (List Char)) : Prop :=
  ∃ number uuid compatible incompatible readOnly count snapshots,
    lines = [[], "Volume: ".toList ++ chars number ++ " information:".toList, "\tIdentifier\t\t\t: ".toList ++ chars uuid, "\tName\t\t\t\t: ".toList ++ chars (Utf8.encode v.name),
        "\tCompatible features\t\t: ".toList ++ chars compatible] ++
      features v.compatible 0 compatibleNames ++ [[], "\tIncompatible features\t\t: ".toList ++ chars incompatible] ++ features v.incompatible 0 incompatibleNames ++
      [[], "\tRead-only compatible features\t: ".toList ++ chars readOnly, []] ++ (if v.locked then ["\tIs locked".toList] else []) ++
      ["\tNumber of snapshots\t\t: ".toList ++ chars count] ++ snapshots ∧
    Escape.number number = some (k + 1) ∧ uuidOf uuid = some v.uuid ∧ FlagsAre v.compatible compatible ∧ FlagsAre v.incompatible incompatible ∧ FlagsAre v.readOnlyCompatible readOnly ∧
    Escape.number count = some v.snapshots.length ∧ ShowsSnapshots 0 v.snapshots snapshots

/-- lines for volumes behind `k` others -/
inductive ShowsVolumes : Nat → List ShownVolume → List (List Char) → Prop
  | nil (k : Nat) : ShowsVolumes k [] []
  | cons {k : Nat} {v : ShownVolume} {vs : List ShownVolume} {lines rest : List (List Char)} (first : ShowsVolume k v lines) (rest_ : ShowsVolumes (k + 1) vs rest) :
    ShowsVolumes k (v :: vs) (lines ++ rest)

/-- a text shows a container -/
def ShowsContainer (c : ShownContainer) (text : Bytes) : Prop :=
  ∃ uuid count volumes,
    (Escape.lines text).map chars = ["Apple File System (APFS) information:".toList, [], "Container information:".toList, "\tIdentifier\t\t\t: ".toList ++ chars uuid,
        "\tNumber of volumes\t\t: ".toList ++ chars count] ++ (if c.locked then ["\tIs locked (uses hardware encryption)".toList] else []) ++ volumes ++ [[]] ∧
    uuidOf uuid = some c.uuid ∧ Escape.number count = some c.volumes.length ∧ ShowsVolumes 0 c.volumes volumes

end Verif.Spec.Info
