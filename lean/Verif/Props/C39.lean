import Verif.Model.Records
/-!
# C39 Device numbers are decoded as the operating system encoded them

macOS stores a device number as major * 2^24 + minor, with 8 bits for the major and 24 bits for the minor number.
-/
namespace Verif.Props
open Verif Res Records

/-- what `makedev` of macOS computes -/
def makedev (major minor : Nat) : Nat := major * 2 ^ 24 + minor

/-- a character or block device -/
def Device (mode : Nat) : Prop := mode / 2 ^ 12 % 16 = 2 ∨ mode / 2 ^ 12 % 16 = 6

/-- A device number with a major number other than 0 and a minor number less than 256 is returned. -/
theorem c39_small_minor_partial (i : Inode) (h : Device i.mode) (major minor : Nat) (h1 : 0 < major) (h2 : major < 256) (h3 : minor < 256) (hd : i.device = makedev major minor) :
    deviceNumber i = some (major, minor) := by
  unfold deviceNumber
  unfold Device at h
  unfold makedev at hd
  rw [if_pos h, if_neg (by omega), if_pos (by omega)]
  congr 1
  refine Prod.ext ?_ ?_ <;> simp only <;> omega

/-- With major number 0 only minor numbers less than 256 are returned as they are. -/
theorem c39_major_zero (i : Inode) (h : Device i.mode) (minor : Nat) (h3 : minor < 2 ^ 24) (hd : i.device = makedev 0 minor) :
    deviceNumber i = some (0, minor) ↔ minor < 256 := by
  unfold deviceNumber
  unfold Device at h
  unfold makedev at hd
  rw [if_pos h]
  constructor
  · intro he
    split at he
    · simp only [Option.some.injEq, Prod.mk.injEq] at he
      omega
    · split at he
      · simp only [Option.some.injEq, Prod.mk.injEq] at he
        omega
      · cases he
  · intro hm
    rw [if_pos (by omega)]
    congr 1
    refine Prod.ext ?_ ?_ <;> simp only <;> omega

/-- A minor number of 256 or more is never returned: the device number is wrong or not available. -/
theorem c39_large_minor_wrong (i : Inode) (major minor : Nat) (h3 : 256 ≤ minor) : deviceNumber i ≠ some (major, minor) := by
  unfold deviceNumber
  intro he
  split at he
  · split at he
    · simp only [Option.some.injEq, Prod.mk.injEq] at he
      omega
    · split at he
      · simp only [Option.some.injEq, Prod.mk.injEq] at he
        omega
      · cases he
  · cases he

/-- For instance minor number 300 of major number 0 is returned as (1, 44), and that of major number 3 is not available. -/
theorem c39_witness (i : Inode) (h : Device i.mode) : (i.device = makedev 0 300 → deviceNumber i = some (1, 44)) ∧ (i.device = makedev 3 300 → deviceNumber i = none) := by
  unfold Device at h
  constructor <;> intro hd <;> unfold deviceNumber <;> rw [if_pos h, hd] <;> decide

/-- Files that are no devices have no device number. -/
theorem c39_no_device (i : Inode) (h : ¬ Device i.mode) : deviceNumber i = none := by
  unfold deviceNumber
  unfold Device at h
  rw [if_neg h]

/-- /dev/disk1 on macOS is a block device with major number 1 and minor number 4 -/
example : deviceNumber { identifier := 20, parent := 2, dataStream := 0, modification := 0, creation := 0, change := 0, access := 0, flags := 0, links := 1, owner := 0, group := 5, mode := 0x61a0, name := none, size := 0, device := makedev 1 4 } = some (1, 4) ∧ Device 0x61a0 := by unfold Device; decide

end Verif.Props
