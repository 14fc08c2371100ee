import Verif.Props.C58
import Verif.Model.Support
import Verif.Lemmas.VolumeExample
/-!
# C59 Checking the signature of a file agrees with opening it
-/
namespace Verif.Props
open Verif Res Container Spec Support

/-- What the functions of libbfio do for the bytes of a file, when nothing fails. -/
structure Reads (io : Io) (file : Bytes) : Prop where
  status : io.status = true
  opens : io.opens = true
  read : ∀ n, io.read n = some (file.take n)
  closes : io.closes = true

/-- The check answers yes exactly for files with the signature at offset 32, and no exactly for other files of at least 36 bytes. -/
theorem c59_exact {io : Io} {file : Bytes} (h : Reads io file) (signature : Bytes) (isOpen : Bool) :
    (check signature io isOpen).2 = if 36 ≤ file.length then some (decide (slice file 32 4 = signature)) else none := by
  unfold check
  rw [h.status, h.opens, h.read, h.closes, if_neg (by decide), if_neg (by simp)]
  dsimp only
  by_cases hl : 36 ≤ file.length
  · rw [if_pos hl, if_neg (by rw [List.length_take]; omega), if_neg (by simp)]
    unfold slice
    rw [List.drop_take, List.take_take]
    rfl
  · rw [if_neg hl, if_pos (by rw [List.length_take]; omega)]

/-- Whatever fails, the file IO handle is as open or closed afterwards as it was before, unless it cannot be closed. A handle that was open stays open in any case. -/
theorem c59_restores (signature : Bytes) (io : Io) (isOpen : Bool) (h : isOpen = true ∨ io.closes = true ∨ io.closesAgain = true ∧ ∀ d, io.read 36 = some d → d.length = 36)
    (hr : io.closes = true ∨ io.read 36 ≠ none ∨ isOpen = true) : (check signature io isOpen).1 = isOpen := by
  unfold check close
  split
  · rfl
  split
  · rename_i h1; rw [h1.1]; rfl
  split
  · rename_i he
    cases isOpen with
    | true => rfl
    | false =>
      have : io.closes = true := by
        rcases hr with hr | hr | hr
        · exact hr
        · exact absurd he hr
        · cases hr
      simp [this]
  · rename_i d he
    cases isOpen with
    | true =>
      split
      · rfl
      · split
        · rename_i h2; cases h2.1
        · rfl
    | false =>
      split
      · rename_i hl
        rcases h with h | h | h
        · cases h
        · simp [h]
        · exact absurd (h.2 d he) hl
      · split
        · rename_i h2
          rcases h with h | h | h
          · cases h
          · rw [h] at h2; cases h2.2
          · simp [h.1]
        · rfl

/-- No file IO handle is left behind by the checks of a file by its name, whatever fails, unless the handle cannot be freed. -/
theorem c59_no_handle_left (signature : Bytes) (created named : Bool) (io : Io) (h : io.freesAgain = true) (name : Option Bytes) :
    (checkFile signature created named io name).1 = none := by
  have he : ∀ x, (onError io.freesAgain x).1 = none := by
    intro x
    rw [h]
    cases x <;> rfl
  unfold checkFile
  split
  · rfl
  · split
    · exact he _
    · split
      · exact he _
      · split
        · exact he _
        · dsimp only
          split
          · exact he _
          · split
            · exact he _
            · rfl

/-- The check of a file by its name gives the answer for what is stored. -/
theorem c59_by_name {io : Io} {file : Bytes} (h : Reads io file) (hf : io.frees = true) (signature : Bytes) {name : Bytes} (hn : name ≠ []) :
    (checkFile signature true true io (some name)).2 = if 36 ≤ file.length then some (decide (slice file 32 4 = signature)) else none := by
  have he := c59_exact h signature false
  have hl : name.length ≠ 0 := by
    intro h0
    exact hn (List.eq_nil_of_length_eq_zero h0)
  unfold checkFile
  dsimp only
  rw [if_neg hl, if_neg (by decide), if_neg (by decide)]
  by_cases hlen : 36 ≤ file.length
  · rw [if_pos hlen] at he ⊢
    rw [he]
    dsimp only
    rw [if_neg (by rw [hf]; decide)]
  · rw [if_neg hlen] at he ⊢
    rw [he]
    rfl

/-- the first block of an image is the start of a file -/
def Starts (image : Image) (file : Bytes) : Prop := ∀ d, image 0 = some d → d = file.take 4096

/-- Every file that opens as a container has the signature of a container and not that of a volume. -/
theorem c59_container {xts : Bytes → Bytes → Bytes → Bytes} {vector : Nat → Bool} {image : Image} {c : Opened} (hb : Blocks image) (ho : openRead xts vector image = ok c) {io : Io} {file : Bytes}
    (hs : Starts image file) (h : Reads io file) (isOpen : Bool) : (check containerSignature io isOpen).2 = some true ∧ (check volumeSignature io isOpen).2 = some false := by
  obtain ⟨d0, _, h1, hv, _⟩ := c27_newest_superblock hb ho
  have hd := hs d0 h1
  have hl := hv.size
  rw [hd, List.length_take] at hl
  have hsl : slice file 32 4 = [0x4e, 0x58, 0x53, 0x42] := by
    rw [← hv.signature, hd]
    unfold slice
    rw [List.drop_take, List.take_take]
    rfl
  rw [c59_exact h, c59_exact h, if_pos (by omega), if_pos (by omega), hsl]
  exact ⟨rfl, rfl⟩

/-- A file that the check takes for a volume does not open: volumes are only found in containers. -/
theorem c59_volume_does_not_open {xts : Bytes → Bytes → Bytes → Bytes} {vector : Nat → Bool} {image : Image} (hx : ∀ k t d, (xts k t d).length = d.length) (hb : Blocks image) {io : Io} {file : Bytes}
    (hs : Starts image file) (h : Reads io file) (isOpen : Bool) (hc : (check volumeSignature io isOpen).2 = some true) : openRead xts vector image = err := by
  cases e : openRead xts vector image with
  | err => rfl
  | ub => exact absurd e (c46_open_safe xts hx vector image hb)
  | ok c =>
    rw [(c59_container hb e hs h isOpen).2] at hc
    cases hc

/-- The check of a file that is shorter than 36 bytes fails, though such a file has no signature and the answer is no. -/
theorem c59_short {io : Io} {file : Bytes} (h : Reads io file) (hl : file.length < 36) (signature : Bytes) (isOpen : Bool) :
    (check signature io isOpen).2 = none := by
  rw [c59_exact h, if_neg (by omega)]

namespace SignatureExample

/-- a file on a disk -/
def io (file : Bytes) : Io := { status := true, opens := true, read := fun n => some (file.take n), closes := true, closesAgain := true, frees := true, freesAgain := true }

theorem reads (file : Bytes) : Reads (io file) file := ⟨rfl, rfl, fun _ => rfl, rfl⟩

example (rest : Bytes) : (check containerSignature (io (VolumeExample.superblock ++ rest)) false).2 = some true ∧
    (check volumeSignature (io (VolumeExample.superblock ++ rest)) false).2 = some false :=
  c59_container VolumeExample.blocks VolumeExample.opens (fun d hd => by rw [← Option.some.inj hd, List.take_left' VolumeExample.superblock_facts.1]) (reads _) false

/-- a volume superblock alone -/
example : (check volumeSignature (io VolumeExample.b10) true).2 = some true := by decide +kernel

/-- a handle that was closed is closed although reading failed -/
example : (check containerSignature { io [] with read := fun _ => none } false) = (false, none) := by decide

/-- the exception in `c59_restores` exists: a handle that was closed and cannot be closed again is left open -/
example : (check containerSignature { io [1] with closes := false } false) = (true, none) := by decide

end SignatureExample

end Verif.Props
