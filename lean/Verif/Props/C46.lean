import Verif.Lemmas.ContainerOpen
import Verif.Props.C27
/-!
# C46 Opening a container accesses memory within bounds for every file
-/
namespace Verif.Props
open Verif Res Container Spec

/-- No file makes opening read or write outside of its buffers; `xts` is the cipher, which does not change the size of its data. -/
theorem c46_open_safe (xts : Bytes → Bytes → Bytes → Bytes) (hx : ∀ k t d, (xts k t d).length = d.length) (vector : Nat → Bool) (image : Image) (hb : Blocks image) :
    openRead xts vector image ≠ ub := by
  unfold openRead
  refine safe_bind (safe_readAt _ _ _) fun d hd => safe_bind (safe_readSuperblock _) fun sb hsb => safe_bind safe_require fun _ _ => safe_bind (safe_scanLoop _ _ _ _ _) fun s hs =>
    safe_bind safe_require fun _ _ => safe_bind (safe_readAt _ _ _) fun _ _ => safe_bind (safe_readMap _) fun _ _ => safe_bind safe_require fun _ _ => safe_bind safe_require fun _ _ =>
    safe_bind (safe_readAt _ _ _) fun _ _ => safe_bind (safe_readObjectMap _) fun _ _ => safe_bind safe_require fun _ _ => safe_bind (safe_readKeyBag xts hx image _ ?_) fun _ _ => safe_ok _
  have hl := readAt_length hd
  obtain ⟨ha, rfl⟩ := (readSuperblock_iff d hl sb).1 hsb
  have hbs : (superblockOf d).blockSize = 4096 := ha.1.blockSize
  rw [hbs, show (superblockOf d).areaBlock = Nx.areaBlock d % 2 ^ 32 from rfl] at hs
  obtain ⟨n, v, _⟩   := scan_result hb ha hs
  obtain ⟨e, _, ha, he⟩ := v.inUse ha
  rw [he]
  exact ha.1.blockSize

example : Blocks (exampleImage sb3 exampleMap sb4 zeroBlock) := example_blocks sb4_area zero_area

/-- Reading a superblock, a checkpoint map, an object map and the header of an object are safe for any data of any size. -/
theorem c46_parsers_safe (d : Bytes) : readSuperblock d ≠ ub ∧ readMap d ≠ ub ∧ readObjectMap d ≠ ub ∧ readObject d ≠ ub :=
  ⟨safe_readSuperblock d, safe_readMap d, safe_readObjectMap d, safe_readObject d⟩

/-- A superblock is accepted exactly if it is valid and the block number of its area has a part in the lower 32 bits; then its fields are those stored. -/
theorem c46_superblock_iff (d : Bytes) (hl : d.length = 4096) (s : Superblock) :
    readSuperblock d = ok s ↔ (Nx.Valid d ∧ Nx.areaBlock d % 2 ^ 32 ≠ 0) ∧ s = superblockOf d := readSuperblock_iff d hl s

example : readSuperblock sb4 = ok (superblockOf sb4) :=
  (c46_superblock_iff sb4 sb4_facts.1 _).2 ⟨⟨sb4_valid, by rw [sb4_facts.2.2.1]; decide⟩, rfl⟩

end Verif.Props
