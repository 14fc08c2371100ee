import Verif.Lemmas.Zlib
/-!
# C07 – decompression of arbitrary bytes is memory safe and terminates

Every read of the input and every write to and copy from the output buffer of the model yields `ub` when out of bounds,
and a loop iteration without progress does too. All functions of the model are total.
-/
namespace Verif.Props
open Verif Res Spec BitStream Deflate

/-- Raw DEFLATE: any input, any output buffer size. -/
theorem c07_deflate_safe (d : Bytes) (cap : Nat) :
    Safe (decompress d cap) ∧ ∀ out, decompress d cap = ok out → out.length ≤ cap := by
  unfold decompress
  by_cases h1 : d.length ≤ 2 ^ 63 - 1
  case neg => simp [require_false h1]
  by_cases h2 : cap ≤ 2 ^ 63 - 1
  case neg => simp [require_true h1, require_false h2]
  by_cases h3 : 0 < d.length
  case neg => simp [require_true h1, require_true h2, require_false h3]
  simp only [require_true h1, require_true h2, require_true h3, ok_bind, pure_eq]
  rcases (blockLoop_run cap d 0 (by omega)).2 with e | ⟨fin, bits, rest, out, s', e, _, hle, _⟩
  · simp [e]
  · simp only [e, ok_bind, safe_ok, ok.injEq, true_and]
    rintro _ rfl
    exact hle

/-- The zlib container: any input, any output buffer size. -/
theorem c07_zlib_safe (d : Bytes) (cap : Nat) :
    Safe (decompressZlib d cap) ∧ ∀ out, decompressZlib d cap = ok out → out.length ≤ cap := by
  unfold decompressZlib
  by_cases h1 : d.length ≤ 2 ^ 63 - 1
  case neg => simp [require_false h1]
  by_cases h2 : cap ≤ 2 ^ 63 - 1
  case neg => simp [require_true h1, require_false h2]
  simp only [require_true h1, require_true h2, ok_bind, pure_eq]
  cases hh : readDataHeader d 0 with
  | err => simp
  | ub => exact absurd hh (readDataHeader_safe d)
  | ok off =>
    simp only [ok_bind]
    by_cases h3 : off < d.length
    case neg => simp [require_false h3]
    rw [require_true h3, ok_bind]
    rcases (blockLoop_run cap d off (by omega)).2 with e | ⟨fin, bits, rest, out, s', e, _, hle, _, _, hw, hdat, _⟩
    · simp [e]
    · simp only [e, ok_bind]
      by_cases h4 : s'.data.length - s'.off ≥ 4
      · rw [if_pos h4, rewind_wf hw, ok_bind, rdN_le (by omega), ok_bind, Adler.adler32_eq out 1 (by omega), ok_bind]
        by_cases h5 : beNat ((s'.data.drop s'.off).take 4) = Spec.adler32 1 out
        · rw [require_true h5, ok_bind]
          refine ⟨by simp, ?_⟩
          rintro _ ⟨⟩
          exact hle
        · simp [require_false h5]
      · rw [if_neg h4]
        refine ⟨by simp, ?_⟩
        rintro _ ⟨⟩
        exact hle

/-- a stream that is accepted with output, so that the size bound is not vacuous; the same one is refused for lack of room -/
example : decompress [0xf3, 0x48, 0xcd, 0xc9, 0xc9, 0x07, 0x00] 5 = ok [72, 101, 108, 108, 111] ∧
    decompress [0xf3, 0x48, 0xcd, 0xc9, 0xc9, 0x07, 0x00] 4 = err := by decide +kernel

end Verif.Props
