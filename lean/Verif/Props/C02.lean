import Verif.Lemmas.Checksum
/-!
# C02 – CRC-32C
-/
namespace Verif.Props
open Verif Res Checksum Spec

/-- The table driven CRC is the bit serial CRC-32C for every buffer and start value; in particular the
table is never indexed out of bounds. -/
theorem c02_crc_is_bit_serial (d : Bytes) (s : BitVec 32) : weakCrc32 d s = ok (crc s d) := weakCrc32_eq d s

-- CRC-32C check value of "123456789" (before the final inversion)
example : weakCrc32 [0x31, 0x32, 0x33, 0x34, 0x35, 0x36, 0x37, 0x38, 0x39] 0xffffffff#32 = ok (~~~0xe3069283#32) := by
  decide +kernel

/-- Piecewise computation gives the same value. -/
theorem c02_crc_chains (a b : Bytes) (s v : BitVec 32) (h : weakCrc32 a s = ok v) :
    weakCrc32 (a ++ b) s = weakCrc32 b v := by
  rw [weakCrc32_eq] at *
  cases h
  rw [weakCrc32_eq]; simp [crc]

example : ∃ v, weakCrc32 [1, 2, 3] 7#32 = ok v := ⟨_, weakCrc32_eq _ _⟩

theorem crcBit_inj (a b : BitVec 32) (x : Bool) (h : crcBit a x = crcBit b x) : a = b := by
  have top : ∀ c : BitVec 32, (crcBit c x).getLsbD 31 = (c[0] ^^ x) := by
    intro c; unfold crcBit
    have hp : (0x82f63b78#32 : BitVec 32).getLsbD 31 = true := by decide
    split <;> rename_i hc
    · rw [BitVec.getLsbD_xor, BitVec.getLsbD_ushiftRight, hp]; simp [hc]
    · rw [BitVec.getLsbD_ushiftRight]
      simp only [Bool.not_eq_true] at hc
      rw [hc]; exact BitVec.getLsbD_of_ge _ _ (by omega)
  have h0 : a[0] = b[0] := by
    have := congrArg (fun v : BitVec 32 => v.getLsbD 31) h
    simp only [top] at this
    cases x <;> simpa using this
  have hs : a >>> 1 = b >>> 1 := by
    unfold crcBit at h
    rw [h0] at h
    split at h
    · exact (BitVec.xor_left_inj _).1 h
    · exact h
  ext i hi
  match i with
  | 0 => exact h0
  | i + 1 =>
    have := congrArg (fun v : BitVec 32 => v.getLsbD i) hs
    simp only [BitVec.getLsbD_ushiftRight] at this
    rw [Nat.add_comm] at this
    simpa [BitVec.getLsbD_eq_getElem hi] using this

theorem crc_inj_state (d : Bytes) (a b : BitVec 32) (h : crc a d = crc b d) : a = b := by
  unfold crc at h
  generalize d.flatMap byteBits = l at h
  induction l generalizing a b with
  | nil => exact h
  | cons x xs ih => exact crcBit_inj a b x (ih _ _ h)

/-- Different start values never collide, so a difference once present is never masked by common following data. -/
theorem c02_no_masking (d : Bytes) (a b : BitVec 32) (h : weakCrc32 d a = weakCrc32 d b) : a = b := by
  rw [weakCrc32_eq, weakCrc32_eq] at h
  exact crc_inj_state d a b (by simpa using h)

/-- Changing a single byte anywhere changes the CRC. -/
theorem c02_detects_byte_change (pre post : Bytes) (x y : UInt8) (s : BitVec 32) (hne : x ≠ y) :
    weakCrc32 (pre ++ x :: post) s ≠ weakCrc32 (pre ++ y :: post) s := by
  intro h
  rw [weakCrc32_eq, weakCrc32_eq] at h
  have h : crc s (pre ++ x :: post) = crc s (pre ++ y :: post) := by simpa using h
  have e : ∀ z, crc s (pre ++ z :: post) = crc (crc (crc s pre) [z]) post := by
    intro z; simp [crc]
  rw [e, e] at h
  have h2 := crc_inj_state _ _ _ h
  simp only [crc, List.flatMap_cons, List.flatMap_nil, List.append_nil] at h2
  rw [foldl_byteBits, foldl_byteBits] at h2
  have inj8 : ∀ (n : Nat) (a b : BitVec 32),
      (List.replicate n false).foldl crcBit a = (List.replicate n false).foldl crcBit b → a = b := by
    intro n
    induction n with
    | zero => intro a b h; exact h
    | succ n ih => intro a b h; exact crcBit_inj a b false (ih _ _ (by simpa [List.replicate_succ] using h))
  have h3 := (BitVec.xor_right_inj _).1 (inj8 _ _ _ h2)
  apply hne
  have h4 := congrArg BitVec.toNat h3
  simp only [BitVec.toNat_setWidth, UInt8.toNat_toBitVec] at h4
  have := x.toNat_lt; have := y.toNat_lt
  apply UInt8.toNat_inj.1
  omega

end Verif.Props
