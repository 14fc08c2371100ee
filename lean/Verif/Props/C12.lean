import Verif.Lemmas.CompressionFork
/-!
# C12 – reading a compressed file's block table is memory safe

Full statement (false, see `c12_table_overflow`): `getOffsets method D ≠ ub` for every `D`.
-/
namespace Verif.Props
open Verif Res Spec Compressed

/-- For any method and stream: the table is read inside of its buffer, and if that succeeds the offsets are monotone, every
block has at most 65537 bytes and the last one ends at the end of the stream.

Missing for the full statement: zlib forks that claim 8160 to 2^25 - 1 blocks, which overflow the buffer. -/
theorem c12_table_safe_partial (method : Nat) (D : Bytes)
    (hfit : method = methodDeflate → D.length ≤ 65537 ∨ forkCount D ≤ 8159 ∨ 2 ^ 25 - 1 < forkCount D) :
    Safe (getOffsets method D) ∧ ∀ T, getOffsets method D = ok T → 2 ≤ T.length ∧ T.getLast? = some (D.length % 2 ^ 32) ∧
      (D.length < 2 ^ 32 → ∀ (i a b : Nat), T[i]? = some a → T[i + 1]? = some b → a ≤ b ∧ b - a ≤ 65537 ∧ b ≤ D.length) := by
  rcases getOffsets_spec method D hfit with h | ⟨f, r, h, hm⟩
  · rw [h]; exact ⟨safe_err, fun T hT => nomatch hT⟩
  · rw [h]
    refine ⟨safe_ok _, ?_⟩
    intro T hT
    cases hT
    refine ⟨by simp, ?_, ?_⟩
    · rw [← List.cons_append, List.getLast?_append]; simp
    · intro hD i a b ha hb
      rw [Nat.mod_eq_of_lt hD] at ha hb
      have := hm.get i a b ha hb
      refine ⟨this.1, this.2, ?_⟩
      clear ha this
      -- every offset is at most the end
      have hle : ∀ (l : List Nat) (p e : Nat), Mono p (l ++ [e]) → ∀ v ∈ p :: (l ++ [e]), v ≤ e := by
        intro l
        induction l with
        | nil =>
          intro p e hm v hv
          have := hm.1
          simp at hv
          omega
        | cons x xs ih =>
          intro p e hm v hv
          have h1 := ih x e hm.2.2
          rcases List.mem_cons.1 hv with rfl | hv
          · have := h1 x (by simp); have := hm.1; omega
          · exact h1 v hv
      exact hle r f D.length hm b (List.mem_of_getElem? hb)

/-- The buffer for the block table is overrun by every zlib fork with 8160 or more blocks – that includes every valid one of
a file of 510 MiB or more. -/
theorem c12_table_overflow (head size : Bytes) (sizes : List Nat) (blocks : List Bytes) (hh : head.length = 252) (hs : size.length = 4)
    (hz : sizes.length = blocks.length) (h1 : 8160 ≤ blocks.length) (h2 : blocks.length ≤ 2 ^ 25 - 1) :
    getOffsets methodDeflate (zlibFork head size sizes blocks) = ub := by
  have hDl := length_zlibFork head size sizes blocks hh hs hz
  have hcnt := forkCount_zlibFork head size sizes blocks hh hs (by omega)
  have htake : (zlibFork head size sizes blocks).take 4 = [0, 0, 1, 0] := by
    unfold zlibFork; rw [List.take_left' (by rfl)]
  generalize zlibFork head size sizes blocks = D at *
  unfold getOffsets
  rw [readInto0, ok_bind, htake, require_true (by simp), ok_bind, if_neg (by decide), if_pos rfl, require_true (by decide), ok_bind,
    hdr_read, ok_bind, require_true (by simp; omega), ok_bind, hdr_field (by omega) (by omega) (by omega), ok_bind]
  rw [show leNat ((D.drop 260).take 4) = blocks.length from hcnt, require_true (by omega), ok_bind,
    hdr_field (by omega) (by omega) (by omega), ok_bind]
  have hT : ∀ first, readTable D true blocks.length first 268 8 (0x100 + 4) = ub := by
    intro first
    unfold readTable
    rw [require_true (by omega), ok_bind, if_neg (by omega)]
    have : readInto D 268 ((blocks.length - 1) * 8) 268 = ub := by
      unfold readInto
      rw [if_neg (by omega)]
      simp only
      rw [if_pos]
      simp only [List.length_take, List.length_drop]
      unfold bufferSize blockSize
      omega
    simp only [this, ub_bind]
  rw [hT, ub_bind]

/-- Tables of well-formed files are read as written. -/
theorem c12_lzvn_table (blocks : List Bytes) (h1 : 1 ≤ blocks.length) (h2 : blocks.length ≤ 16383)
    (hb : ∀ b ∈ blocks, b.length ≤ 65537) (hlen : (lzvnFork blocks).length < 2 ^ 32) :
    getOffsets methodLzvn (lzvnFork blocks) = ok (starts (4 * (blocks.length + 1)) blocks ++
      [(lzvnFork blocks).length, (lzvnFork blocks).length]) := lzvn_offsets blocks h1 (by omega) hb hlen

theorem c12_zlib_table (head size : Bytes) (sizes : List Nat) (blocks : List Bytes) (hh : head.length = 252) (hs : size.length = 4)
    (hz : sizes.length = blocks.length) (h1 : 1 ≤ blocks.length) (h2 : blocks.length ≤ 8159)
    (hb : ∀ b ∈ blocks, b.length ≤ 65537) (hlen : (zlibFork head size sizes blocks).length < 2 ^ 32) :
    getOffsets methodDeflate (zlibFork head size sizes blocks) = ok (starts (264 + 8 * blocks.length) blocks ++
      [(zlibFork head size sizes blocks).length]) := zlib_offsets head size sizes blocks hh hs hz h1 h2 hb hlen

/-- a zlib fork whose last block (with the resource map behind it) has more than 65537 bytes is refused: files whose last
full block is incompressible cannot be read -/
theorem c12_large_last_block_refused (head size : Bytes) (s : Nat) (b : Bytes) (hh : head.length = 252) (hs : size.length = 4)
    (hb : 65537 < b.length) : getOffsets methodDeflate (zlibFork head size [s] [b]) = err := by
  have hDl := length_zlibFork head size [s] [b] hh hs rfl
  have hcnt := forkCount_zlibFork head size [s] [b] hh hs (by simp)
  have hd := zlib_drop264 head size [s] [b] hh hs
  have htake : (zlibFork head size [s] [b]).take 4 = [0, 0, 1, 0] := by
    unfold zlibFork; rw [List.take_left' (by rfl)]
  generalize zlibFork head size [s] [b] = D at *
  simp only [List.length_singleton, List.flatten_singleton] at hDl hcnt hd
  unfold getOffsets
  rw [readInto0, ok_bind, htake, require_true (by simp), ok_bind, if_neg (by decide), if_pos rfl, require_true (by decide), ok_bind,
    hdr_read, ok_bind, require_true (by simp; omega), ok_bind, hdr_field (by omega) (by omega) (by omega), ok_bind]
  rw [show leNat ((D.drop 260).take 4) = 1 from hcnt, require_true (by omega), ok_bind,
    hdr_field (by omega) (by omega) (by omega), ok_bind]
  have hfirst : (D.drop 264).take 4 = toLE 4 12 := by
    rw [hd]
    simp only [starts, List.zip_cons_cons, List.flatMap_cons, List.append_assoc]
    rw [List.take_left' (by simp)]
  rw [hfirst, leNat_toLE _ _ (by decide)]
  rw [readTable_of D true 1 12 268 (0x100 + 4) 8 [] rfl rfl (by decide) (by decide) (by omega) (by omega) (by decide) (by decide)
    (by simp) trivial]
  simp only [ok_bind, List.getLast?_singleton, ofMem_some]
  rw [require_false (by unfold bufferSize blockSize; omega), err_bind]

/-- LZVN forks with 16384 blocks or more (files above 1 GiB - 64 KiB) are refused -/
theorem c12_large_lzvn_refused (blocks : List Bytes) (h1 : 16384 ≤ blocks.length) (h2 : blocks.length < 2 ^ 28) :
    getOffsets methodLzvn (lzvnFork blocks) = err := by
  have htake : (lzvnFork blocks).take 4 = toLE 4 (4 * (blocks.length + 1)) := by
    cases blocks with
    | nil => simp at h1
    | cons b bs =>
      unfold lzvnFork
      simp only [starts, List.cons_append, List.flatMap_cons, List.append_assoc]
      rw [List.take_left' (by simp)]
  generalize lzvnFork blocks = D at *
  have hv4 : leNat (toLE 4 (4 * (blocks.length + 1))) = 4 * (blocks.length + 1) := leNat_toLE _ _ (by omega)
  have hneq : ¬ (toLE 4 (4 * (blocks.length + 1)) = [0x66, 0x70, 0x6d, 0x63]) := by
    intro h
    rw [h] at hv4
    have : leNat [0x66, 0x70, 0x6d, 0x63] = 1668116582 := by decide
    omega
  unfold getOffsets
  rw [readInto0, ok_bind, htake, require_true (by simp), ok_bind, if_neg hneq, if_neg (show ¬ methodLzvn = methodDeflate by decide), if_pos rfl]
  simp only [hv4]
  rw [require_false (by unfold bufferSize blockSize; omega), err_bind, err_bind]

example : getOffsets methodLzvn (lzvnFork [[6, 1], [6, 2, 3]]) = ok [12, 14, 17, 17] ∧
    getOffsets methodDeflate (zlibFork (List.replicate 252 0) [0, 0, 0, 0] [2, 3] [[0xff, 1], [0xff, 2, 3]]) = ok [280, 282, 285] ∧
    forkCount (zlibFork (List.replicate 252 0) [0, 0, 0, 0] [2, 3] [[0xff, 1], [0xff, 2, 3]]) ≤ 8159 := by decide +kernel

end Verif.Props
