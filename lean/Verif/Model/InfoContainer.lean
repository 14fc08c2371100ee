import Verif.Model.Info
/-!
# Model of what fsapfsinfo prints about a container and its volumes, without the options `-E`, `-F` and `-H`: info_handle.c and fsapfsinfo.c of fsapfstools

libuna is `una`, which copies a string in UTF-8 or fails. Allocation failures are left out.
-/
namespace Verif
open Res
namespace Info
open FileRead (Out)
open PathString (decimal cString hex hexDigit)
open Program (Machine Options Obtained)

/-- a UUID in lower case without braces: `libfguid_identifier_copy_to_utf8_string` of bytes in big-endian order -/
def uuidString (u : Bytes) : Bytes :=
  let h (a n : Nat) : Bytes := ((u.drop a).take n).flatMap fun b => hex 2 b.toNat
  h 0 4 ++ [0x2d] ++ h 4 2 ++ [0x2d] ++ h 6 2 ++ [0x2d] ++ h 8 2 ++ [0x2d] ++ h 10 6

/-- `info_handle_uuid_value_fprint`, info_handle.c 1426-1533 -/
def uuidLine (name : String) (u : Bytes) : Bytes := line name (uuidString u)

/-- `%x` -/
def hexadecimal (n : Nat) : Bytes := if n < 16 then [hexDigit n] else hexadecimal (n / 16) ++ [hexDigit (n % 16)]

/-- `0x%08x` -/
def hexadecimal8 (n : Nat) : Bytes := [0x30, 0x78] ++ (List.replicate (8 - (hexadecimal n).length) 0x30 ++ hexadecimal n)

/-- a line for a flag that is set -/
def flagLine (flags mask : Nat) (text : String) : Bytes := if flags &&& mask ≠ 0 then ascii text else []

/-- `info_handle_volume_compatible_features_flags_fprint`, info_handle.c 1537-1574 -/
def compatibleLines (flags : Nat) : Bytes :=
  flagLine flags 0x0000000000000001 "\t\t(APFS_FEATURE_DEFRAG_PRERELEASE)\n" ++
  flagLine flags 0x0000000000000002 "\t\t(APFS_FEATURE_HARDLINK_MAP_RECORDS)\n" ++
  flagLine flags 0x0000000000000004 "\t\t(APFS_FEATURE_DEFRAG)\n" ++
  flagLine flags 0x0000000000000008 "\t\t(APFS_FEATURE_STRICTATIME)\n" ++
  flagLine flags 0x0000000000000010 "\t\t(APFS_FEATURE_VOLGRP_SYSTEM_INO_SPACE)\n" ++ [0x0a]

/-- `info_handle_volume_incompatible_features_flags_fprint`, info_handle.c 1578-1621 -/
def incompatibleLines (flags : Nat) : Bytes :=
  flagLine flags 0x0000000000000001 "\t\t(APFS_INCOMPAT_CASE_INSENSITIVE)\n" ++
  flagLine flags 0x0000000000000002 "\t\t(APFS_INCOMPAT_DATALESS_SNAPS)\n" ++
  flagLine flags 0x0000000000000004 "\t\t(APFS_INCOMPAT_ENC_ROLLED)\n" ++
  flagLine flags 0x0000000000000008 "\t\t(APFS_INCOMPAT_NORMALIZATION_INSENSITIVE)\n" ++
  flagLine flags 0x0000000000000010 "\t\t(APFS_INCOMPAT_INCOMPLETE_RESTORE)\n" ++
  flagLine flags 0x0000000000000020 "\t\t(APFS_INCOMPAT_SEALED_VOLUME)\n" ++ [0x0a]

/-- `info_handle_volume_read_only_compatible_features_flags_fprint`, info_handle.c 1625-1636 -/
def readOnlyLines (_flags : Nat) : Bytes := [0x0a]

/-- `libfsapfs_volume_get_snapshot_by_index`, libfsapfs_volume.c 3412-3569, and `libfsapfs_internal_snapshot_open_read`, libfsapfs_snapshot.c 218-301, of an index that there is: the superblock of the
snapshot is read, and nothing of it is used -/
def openSnapshot (image : Container.Image) (m : Snapshot.Metadata) : Res VolumeOpen.Superblock := do
  let d ← Container.readAt image (m.offset 4096) 4096
  VolumeOpen.readSuperblock true d

/-- the loop over the snapshots, info_handle.c 4123-4242: `index` is `snapshot_index` -/
def snapshotsOut (una : Bytes → Res Bytes) (image : Container.Image) : Nat → List Snapshot.Metadata → Out
  | _, [] => ([], ok ())
  | index, m :: ms =>
    Out.need (openSnapshot image m) fun _ =>
    Out.andThen (ascii "\tSnapshot: " ++ decimal (index + 1) ++ ascii " information:\n" ++ ascii "\t\tName\t\t\t: ", ok ()) <|
    Out.need (m.utf8Name >>= una) fun name =>
    Out.andThen (cString name ++ [0x0a], ok ()) <|
    snapshotsOut una image (index + 1) ms

/-- the lines with the features of a volume, info_handle.c 4036-4077 -/
def featuresText (v : VolumeOpen.Opened) : Bytes :=
  line "\tCompatible features\t\t" (hexadecimal8 (VolumeOpen.getFeaturesFlags v).1) ++ compatibleLines (VolumeOpen.getFeaturesFlags v).1 ++
  line "\tIncompatible features\t\t" (hexadecimal8 (VolumeOpen.getFeaturesFlags v).2.1) ++ incompatibleLines (VolumeOpen.getFeaturesFlags v).2.1 ++
  line "\tRead-only compatible features\t" (hexadecimal8 (VolumeOpen.getFeaturesFlags v).2.2) ++ readOnlyLines (VolumeOpen.getFeaturesFlags v).2.2

/-- `info_handle_volume_fprint`, info_handle.c 3889-4259: `index` is `volume_index`. The buffer for the identifier is overwritten. -/
def volumeOut (una : Bytes → Res Bytes) (image : Container.Image) (index : Nat) (r : Obtained) : Out :=
  Out.andThen (ascii "\nVolume: " ++ decimal (index + 1) ++ ascii " information:\n", ok ()) <|
  Out.need (VolumeOpen.getIdentifier r.volume (List.replicate 16 0)) fun u =>
  Out.andThen (uuidLine "\tIdentifier\t\t\t" u ++ ascii "\tName\t\t\t\t: ", ok ()) <|
  Out.need (VolumeOpen.nameBytes r.volume >>= una) fun name =>
  Out.andThen (cString name ++ [0x0a] ++ featuresText r.volume ++ (if r.state.isLocked then ascii "\tIs locked\n" else []) ++
    line "\tNumber of snapshots\t\t" (decimal (VolumeOpen.numberOfSnapshots r.volume)), ok ()) <|
  snapshotsOut una image 0 r.volume.snapshots

/-- `libfsapfs_container_is_locked`, libfsapfs_container.c 2052-2108: the key bag could not be read (1789-1792) -/
def containerLocked (k : Container.Opened) : Bool :=
  match k.keyBag with
  | some none => true
  | _ => false

/-- `info_handle_get_volume_by_index`, info_handle.c 916-1070, when `container_is_locked` was set: a volume of a locked container is not unlocked -/
def getVolume (g : Machine) (o : Options) (image : Container.Image) (k : Container.Opened) (index : Int) : Res Obtained :=
  if containerLocked k then do
    let v ← VolumeOpen.volumeByIndex g.cipher g.vector image k index
    let user ← Program.setPassword o.password v.state.user
    let recovery ← Program.setPassword o.recovery v.state.recovery
    ok { volume := v, state := { v.state with user := user, recovery := recovery } }
  else Program.getVolume g o image k index

/-- the loop over the volumes, info_handle.c 4369-4418: `count` are left, `index` is `volume_index` -/
def volumesOut (g : Machine) (una : Bytes → Res Bytes) (o : Options) (image : Container.Image) (k : Container.Opened) : Nat → Nat → Out
  | 0, _ => ([], ok ())
  | count + 1, index =>
    Out.andThen (Out.need (getVolume g o image k (index : Int)) fun r => volumeOut una image index r) <|
    volumesOut g una o image k count (index + 1)

/-- `info_handle_container_fprint`, info_handle.c 4264-4433. `libfsapfs_container_get_identifier` copies the identifier of the superblock, libfsapfs_container.c 1978-2047. -/
def containerOut (g : Machine) (una : Bytes → Res Bytes) (o : Options) (image : Container.Image) (k : Container.Opened) : Out :=
  Out.andThen (heading ++ ascii "Container information:\n" ++ uuidLine "\tIdentifier\t\t\t" k.superblock.identifier ++ line "\tNumber of volumes\t\t" (decimal (Container.numberOfVolumes k)) ++
    (if containerLocked k then ascii "\tIs locked (uses hardware encryption)\n" else []), ok ()) <|
  (volumesOut g una o image k (Container.numberOfVolumes k) 0).andThen ([0x0a], ok ())

/-- fsapfsinfo without `-E`, `-F` and `-H`, fsapfsinfo.c 347-421 and 521-533 -/
def list (g : Machine) (una : Bytes → Res Bytes) (o : Options) (source : Nat → Container.Image) : Out :=
  Out.need (Program.indexOption o) fun _ =>
  Out.need (Program.offsetOption o) fun offset =>
  Out.need (Program.openAt g source offset) fun p => containerOut g una o p.1 p.2

end Info
end Verif
