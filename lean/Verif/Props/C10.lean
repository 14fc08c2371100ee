import Verif.Lemmas.Compression
import Verif.Spec.CompressedFile
import Verif.Props.C07
/-!
# C10 – uncompressed chunks of compressed files round-trip
-/
namespace Verif.Props
open Verif Res Spec

/-- Decompressing a chunk behind the marker byte of the method returns the payload if it fits into the buffer and fails
otherwise, without touching the buffer. -/
theorem c10_raw_chunk (c : Codec) (payload : Bytes) (cap : Nat) (hp : payload.length < 2 ^ 63 - 1) (hcap : cap ≤ 2 ^ 63 - 1) :
    decompressData c methodDeflate (0xff :: payload) cap = (if payload.length ≤ cap then .ok payload else .fail cap []) ∧
    decompressData c methodLzvn (0x06 :: payload) cap = (if payload.length ≤ cap then .ok payload else .fail cap []) := by
  have hraw : ∀ m : UInt8, rawChunk (m :: payload) cap = (if payload.length ≤ cap then .ok payload else .fail cap []) := by
    intro m
    unfold rawChunk
    rw [if_neg (by simp; omega), if_neg (by omega)]
    by_cases h : payload.length ≤ cap
    · rw [if_neg (by simp; omega), if_pos h]; rfl
    · rw [if_pos (by simp; omega), if_neg h]
  rw [← hraw 0xff]
  refine ⟨rfl, ?_⟩
  rw [hraw 0xff, ← hraw 6]
  rfl

/-- every other chunk goes to the decompressor of the method, unsupported methods fail -/
theorem c10_dispatch (c : Codec) (method : Nat) (d : Bytes) (cap : Nat) :
    (method ≠ 1 → method ≠ 3 → decompressData c method d cap = .fail cap []) ∧
    (d.head? ≠ some 0xff → decompressData c methodDeflate d cap = c.zlib d cap) ∧
    (d.head? ≠ some 0x06 → decompressData c methodLzvn d cap = c.lzvn d cap) := by
  refine ⟨fun h1 h3 => ?_, fun h => ?_, fun h => ?_⟩
  · unfold decompressData
    rw [if_neg (show ¬ method = methodDeflate from h1), if_neg (show ¬ method = methodLzvn from h3)]
  · unfold decompressData
    rw [if_pos rfl, if_neg h]
  · unfold decompressData
    rw [if_neg (by decide), if_pos rfl, if_neg h]

/-- The output never exceeds the buffer, given that for the decompressors. -/
theorem c10_output_bounded (c : Codec) (hc : Compressed.CodecOk c) (method : Nat) (d : Bytes) (cap : Nat) (out : Bytes)
    (h : decompressData c method d cap = .ok out) : out.length ≤ cap :=
  (Compressed.decompressData_le hc method d cap).1 out h

/-- The built-in zlib decompressor meets that requirement. -/
theorem c10_builtin_bounded (junk lzvn : Bytes → Nat → Bytes) (hj : ∀ d cap, (junk d cap).length ≤ cap)
    (hl : ∀ d cap, (lzvn d cap).length ≤ cap) :
    Compressed.CodecOk ⟨builtinZlib junk, fun d cap => .ok (lzvn d cap)⟩ := by
  intro d cap
  simp only [DecOut.ok.injEq, forall_eq', reduceCtorEq, false_implies, implies_true, and_true]
  unfold builtinZlib
  refine ⟨?_, ?_, hl d cap⟩
  · intro out h
    have := (c07_zlib_safe d cap).2
    split at h
    · next o ho => cases h; exact this _ ho
    · cases h
  · intro s j h
    split at h
    · cases h
    · cases h; exact hj d cap

example : decompressData ⟨builtinZlib (fun _ _ => []), fun _ _ => .ok []⟩ methodDeflate [0xff, 1, 2, 3] 3 = .ok [1, 2, 3] ∧
    decompressData ⟨builtinZlib (fun _ _ => []), fun _ _ => .ok []⟩ methodDeflate [0xff, 1, 2, 3] 2 = .fail 2 [] ∧
    decompressData ⟨builtinZlib (fun _ _ => []), fun _ _ => .ok []⟩ methodLzvn [0x06, 7] 2 = .ok [7] := by decide

end Verif.Props
