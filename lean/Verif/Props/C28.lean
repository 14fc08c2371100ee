import Verif.Props.C46
/-!
# C28 A torn checkpoint write does not prevent opening the previous checkpoint

This does not hold: a block of the area with the header of a superblock but a checksum that does not match makes opening fail, whatever else there is. It holds for torn writes
which did not reach the header of the block.
-/
namespace Verif.Props
open Verif Res Container Spec

variable {xts : Bytes → Bytes → Bytes → Bytes} {vector : Nat → Bool} {image : Image}

/-- One torn superblock in the area prevents opening, even if the superblock of block 0 and all others are intact and agree. -/
theorem c28_torn_superblock_refused (hx : ∀ k t d, (xts k t d).length = d.length) (hb : Blocks image) {d0 t : Bytes} {base n j : Nat} (h0 : image 0 = some d0)
    (ha : Nx.areaBlock d0 = base) (hbase : base < 2 ^ 32) (hn : Nx.areaBlocks d0 = n) (agree : ∀ i ≤ n, ∀ d, image (base + i) = some d → Nx.Valid d → Nx.areaBlocks d = n)
    (hj : j ≤ n) (ht : image (base + j) = some t) (htt : objectType t = superblockType) (hnv : ¬ Nx.Valid t) : openRead xts vector image = err := by
  cases e : openRead xts vector image with
  | err => rfl
  | ub => exact absurd e (c46_open_safe xts hx vector image hb)
  | ok c =>
    obtain ⟨d0', s, m, o, p⟩ := (openRead_iff hb).1 e
    have : d0' = d0 := Option.some.inj (p.first.symm.trans h0)
    subst this
    have hscan := p.scan
    rw [ha, Nat.mod_eq_of_lt hbase] at hscan
    have v := scanLoop_agree hb p.accepted (scanInv_start image base d0') (by omega) (by omega) hn (fun i hi d hd ha => agree i hi d hd ha.1) hscan
    exact absurd (v.accepted j (by omega) t ht htt).1 hnv

/-- A torn map prevents opening if it is the most recent one, even if the other maps are intact. -/
theorem c28_torn_map_refused (hx : ∀ k t d, (xts k t d).length = d.length) (hb : Blocks image) {d0 m : Bytes} {base n j : Nat} (g : GoodArea image d0 base n)
    (agree : ∀ i d, image (base + i) = some d → objectType d = superblockType → Nx.areaBlock d = base) (hj : j ≤ n) (hm : image (base + j) = some m) (hmt : objectType m = mapType)
    (newest : ∀ i e, image (base + i) = some e → objectType e = mapType → i ≠ j → objectXid e < objectXid m) (hnv : ¬ ValidMap m) : openRead xts vector image = err := by
  cases e : openRead xts vector image with
  | err => rfl
  | ub => exact absurd e (c46_open_safe xts hx vector image hb)
  | ok c =>
    have eb : Nx.areaBlock d0 % 2 ^ 32 = base := by rw [g.area]; exact Nat.mod_eq_of_lt g.base_lt
    obtain ⟨d0', s, mb, o, p⟩ := (openRead_iff hb).1 e
    have : d0' = d0 := Option.some.inj (p.first.symm.trans g.first)
    subst this
    have hn : c.superblock.areaBlocks = n := by
      obtain ⟨s', hs', v⟩ := g.scan hb
      rw [p.scan] at hs'
      rw [p.superblock, Res.ok.inj hs']
      rcases v.source with h | ⟨i, hi, d, hd, hdt, hs, _⟩
      · rw [h]; exact g.count
      · rw [hs]; exact (g.superblocks i (by omega) d hd hdt).2.2
    obtain ⟨m', i, hm', _, hv, _, hmax⟩ := c27_newest_map hb e g.first (by rw [eb, g.area]; exact agree)
    rw [eb] at hm' hmax
    have hle := hmax j (by omega) m hm hmt
    by_cases hij : i = j
    · subst hij
      have : m' = m := Option.some.inj (hm'.symm.trans hm)
      exact absurd (this ▸ hv) hnv
    · have := newest i m' hm' hv.type hij
      omega

/-- an image where one block was replaced -/
def replaced (image : Image) (b : Nat) (t : Bytes) : Image := fun i => if i = b then some t else image i

/-- Partial: if the header of the block that was being written is not that of a superblock and what remains has all that is needed, the latest of the other checkpoints is opened. Missing: writes that
reached the header of the superblock, see `c28_torn_superblock_refused`. -/
theorem c28_previous_partial (hb : Blocks image) {d0 t : Bytes} {base n j : Nat} (g : GoodArea image d0 base n) (hl : t.length = 4096) (ht1 : objectType t ≠ superblockType)
    (r : GoodRest vector (replaced image (base + j) t) d0 base n) :
    ∃ c, openRead xts vector (replaced image (base + j) t) = ok c ∧ ∃ d, (d = d0 ∨ ∃ i ≤ n, i ≠ j ∧ image (base + i) = some d ∧ objectType d = superblockType) ∧
      c.superblock = superblockOf d ∧ objectXid d0 ≤ objectXid d ∧
      ∀ i ≤ n, i ≠ j → ∀ e, image (base + i) = some e → objectType e = superblockType → objectXid e ≤ objectXid d := by
  have h0 : base ≠ 0 := by rw [← g.area]; exact g.valid.area
  have hne : ∀ i, i ≠ j → replaced image (base + j) t (base + i) = image (base + i) := fun i hi => if_neg (by omega)
  have heq : replaced image (base + j) t (base + j) = some t := if_pos rfl
  have hb' : Blocks (replaced image (base + j) t) := by
    intro b d h
    unfold replaced at h
    split at h
    · rw [← Option.some.inj h, hl]; omega
    · exact hb b d h
  have g' : GoodArea (replaced image (base + j) t) d0 base n := by
    refine ⟨by unfold replaced; rw [if_neg (by omega)]; exact g.first, g.valid, g.area, g.base_lt, g.count, ?_, ?_⟩
    · intro i hi
      by_cases hij : i = j
      · rw [hij, heq]; exact ⟨t, rfl, hl⟩
      · rw [hne i hij]; exact g.blocks i hi
    · intro i hi d hd ht
      by_cases hij : i = j
      · rw [hij, heq] at hd
        rw [← Option.some.inj hd] at ht
        exact absurd ht ht1
      · rw [hne i hij] at hd
        exact g.superblocks i hi d hd ht
  obtain ⟨c, hc, d, hd, hs, hx0, hx⟩ := c27_opens (xts := xts) hb' g' r
  refine ⟨c, hc, d, ?_, hs, hx0, ?_⟩
  · rcases hd with h | ⟨i, hi, hd, ht⟩
    · exact Or.inl h
    · by_cases hij : i = j
      · rw [hij, heq] at hd
        rw [← Option.some.inj hd] at ht
        exact absurd ht ht1
      · rw [hne i hij] at hd
        exact Or.inr ⟨i, hi, hij, hd, ht⟩
  · intro i hi hij e he ht
    exact hx i hi e (by rw [hne i hij]; exact he) ht

/-- superblock 4 of which the first two sectors were written over superblock 3 -/
def tornBlock : Bytes := sb4.take 1024 ++ sb3.drop 1024

theorem torn_facts : tornBlock.length = 4096 ∧ objectType tornBlock = superblockType ∧ readSuperblock tornBlock = err := by
  unfold tornBlock
  decide +kernel

theorem torn_invalid : ¬ Nx.Valid tornBlock := by
  intro v
  have ha : Nx.areaBlock tornBlock = 1 := by
    unfold tornBlock
    decide +kernel
  have := (readSuperblock_iff tornBlock torn_facts.1 _).2 ⟨⟨v, by rw [ha]; decide⟩, rfl⟩
  rw [torn_facts.2.2] at this
  cases this

/-- The witness: before the write of checkpoint 4 the container opens with checkpoint 3, after it with checkpoint 4; if the write stops after two of eight sectors it does not open. -/
theorem c28_witness : (∃ c, openRead (fun _ _ d => d) (fun _ => true) (exampleImage sb3 exampleMap sb3 zeroBlock) = ok c ∧ c.superblock.transaction = 3) ∧
    (∃ c, openRead (fun _ _ d => d) (fun _ => true) (exampleImage sb3 exampleMap sb4 zeroBlock) = ok c ∧ c.superblock.transaction = 4) ∧
    openRead (fun _ _ d => d) (fun _ => true) (exampleImage sb3 exampleMap (sb4.take 1024 ++ sb3.drop 1024) zeroBlock) = err := by
  refine ⟨?_, ?_, ?_⟩
  · obtain ⟨c, h, d, hd, hs, h0, h1⟩ := c27_opens (xts := fun _ _ d => d) (example_blocks sb3_area zero_area) (example_good sb3_area zero_area) (example_rest sb3_area zero_area)
    refine ⟨c, h, ?_⟩
    rw [hs]
    rcases hd with h | ⟨j, hj, hd, ht⟩
    · rw [h]; exact sb3_xid
    · exact example_cases (P := fun _ d => objectType d = superblockType → objectXid d = 3) (fun h => absurd h exampleMap_type) (fun _ => sb3_xid)
        (fun h => absurd h (by decide +kernel)) j hj d hd ht
  · obtain ⟨c, h, h4, _⟩ := c27_stale_size
    exact ⟨c, h, h4⟩
  · have hb : Blocks (exampleImage sb3 exampleMap tornBlock zeroBlock) := by
      intro b d h
      by_cases hb : b = 2
      · subst hb
        rw [← Option.some.inj (show some tornBlock = some d from h), torn_facts.1]; omega
      · refine example_blocks sb4_area zero_area b d ?_
        rw [← h]
        unfold exampleImage
        split <;> first | rfl | exact absurd rfl hb
    refine c28_torn_superblock_refused (d0 := sb3) (t := tornBlock) (base := 1) (n := 2) (j := 1) (fun _ _ _ => rfl) hb rfl sb3_facts.2.2.1 (by decide) sb3_facts.2.2.2.1 ?_ (by omega) rfl
      torn_facts.2.1 torn_invalid
    exact example_cases (P := fun _ d => Nx.Valid d → Nx.areaBlocks d = 2) (fun v => absurd v.type exampleMap_type) (fun v => absurd v torn_invalid)
      (fun v => absurd v.type (by decide +kernel))

/-- the hypotheses of the partial theorem are met: the write of the superblock in block 2 did not reach its first sector, which is zero -/
example : ∃ c, openRead (fun _ _ d => d) (fun _ => true) (replaced (exampleImage sb3 exampleMap sb4 zeroBlock) (1 + 1) zeroBlock) = ok c ∧ c.superblock.transaction = 3 := by
  have e : replaced (exampleImage sb3 exampleMap sb4 zeroBlock) (1 + 1) zeroBlock = exampleImage sb3 exampleMap zeroBlock zeroBlock := by
    funext i
    unfold replaced exampleImage
    split
    · rename_i h; rw [h]; rfl
    · split <;> first | rfl | omega
  obtain ⟨c, h, d, hd, hs, _⟩ := c28_previous_partial (xts := fun _ _ d => d) (vector := fun _ => true) (j := 1) (t := zeroBlock) (example_blocks sb4_area zero_area)
    (example_good sb4_area zero_area) zero_area.1 (by decide +kernel) (by rw [e]; exact example_rest zero_area zero_area)
  refine ⟨c, h, ?_⟩
  rw [hs]
  rcases hd with h | ⟨j, hj, hj1, hd, ht⟩
  · rw [h]; exact sb3_xid
  · exact example_cases (P := fun j d => j ≠ 1 → objectType d = superblockType → objectXid d = 3) (fun _ h => absurd h exampleMap_type) (fun h => absurd rfl h)
      (fun _ h => absurd h (by decide +kernel)) j hj d hd hj1 ht

end Verif.Props
