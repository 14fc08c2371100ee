import Verif.Lemmas.ContainerOpen
import Verif.Props.C41
/-!
# C27 Opening a container selects the most recent checkpoint
-/
namespace Verif.Props
open Verif Res Container Spec

variable {xts : Bytes → Bytes → Bytes → Bytes} {vector : Nat → Bool} {image : Image} {c : Opened}

/-- When opening succeeds: the superblock in use is valid, comes from block 0 or from a block of the checkpoint descriptor area that block 0 tells, and no superblock of
the area (as long as the superblock in use tells) nor that of block 0 has a greater transaction identifier. -/
theorem c27_newest_superblock (hb : Blocks image) (h : openRead xts vector image = ok c) : ∃ d0 d, image 0 = some d0 ∧ Nx.Valid d0 ∧ Nx.Valid d ∧ c.superblock = superblockOf d ∧
    (d = d0 ∨ ∃ j, image (Nx.areaBlock d0 % 2 ^ 32 + j) = some d) ∧ objectXid d0 ≤ objectXid d ∧
    ∀ j ≤ Nx.areaBlocks d, ∀ e, image (Nx.areaBlock d0 % 2 ^ 32 + j) = some e → objectType e = superblockType → Nx.Valid e ∧ objectXid e ≤ objectXid d := by
  obtain ⟨d0, s, m, o, p⟩ := (openRead_iff hb).1 h
  obtain ⟨n, v, hn, hle⟩ := p.inv hb
  obtain ⟨d, hd, ha, hs⟩ := v.inUse p.accepted
  rw [hs] at hn
  have hn : Nx.areaBlocks d < n := hn
  have hx : s.superblock.transaction = objectXid d := by rw [hs]; rfl
  refine ⟨d0, d, p.first, p.accepted.1, ha.1, by rw [p.superblock, hs], ?_, hx ▸ v.greatest.1, ?_⟩
  · rcases hd with h | ⟨j, _, h, _⟩
    · exact Or.inl h
    · exact Or.inr ⟨j, h⟩
  · intro j hj e he ht
    exact ⟨(v.accepted j (by omega) e he ht).1, hx ▸ v.greatest.2 j (by omega) e he ht⟩

/-- The checkpoint map in use has the greatest transaction identifier among the maps in the area, if the superblocks agree where the area is. -/
theorem c27_newest_map (hb : Blocks image) (h : openRead xts vector image = ok c) {d0 : Bytes} (h0 : image 0 = some d0)
    (agree : ∀ j d, image (Nx.areaBlock d0 % 2 ^ 32 + j) = some d → objectType d = superblockType → Nx.areaBlock d = Nx.areaBlock d0) :
    ∃ m j, image (Nx.areaBlock d0 % 2 ^ 32 + j) = some m ∧ c.mapBlock = Nx.areaBlock d0 % 2 ^ 32 + j ∧ ValidMap m ∧ c.map = mapEntries m ∧
    ∀ i ≤ c.superblock.areaBlocks, ∀ e, image (Nx.areaBlock d0 % 2 ^ 32 + i) = some e → objectType e = mapType → objectXid e ≤ objectXid m := by
  obtain ⟨d0', s, mb, o, p⟩ := (openRead_iff hb).1 h
  have : d0' = d0 := Option.some.inj (p.first.symm.trans h0)
  subst this
  obtain ⟨n, v, hn, hle⟩ := p.inv hb
  rcases v.map with ⟨_, hz⟩ | ⟨j, hj, m, hm, ht, hx, hpos, _, e, he, hblock⟩
  · exact absurd hz p.mapBlock
  · have hea : Nx.areaBlock e = Nx.areaBlock d0' := by
      rcases he with rfl | ⟨i, _, he, het⟩
      · rfl
      · exact agree i e he het
    rw [hea] at hblock
    have hbase : Nx.areaBlock d0' % 2 ^ 32 < 2 ^ 32 := Nat.mod_lt _ (by omega)
    have hr := p.readsMap
    rw [hblock, Nat.mod_eq_of_lt (a := Nx.areaBlock d0' % 2 ^ 32 + j) (by omega), Nat.mod_eq_of_lt (by omega)] at hr
    obtain ⟨m', hm', rfl, hl, _⟩ := readAt_ok hr (by omega) (by omega)
    have : m' = m := Option.some.inj (hm'.symm.trans hm)
    subst this
    have hl4 : m'.length = 4096 := by have := hb _ _ hm; omega
    have hread := p.map
    rw [List.take_of_length_le (by omega)] at hread
    obtain ⟨hv, he⟩ := (readMap_iff m' hl4 _).1 hread
    refine ⟨m', j, hm, ?_, hv, he, ?_⟩
    · rw [p.mapBlock', hblock, Nat.mod_eq_of_lt (by omega)]
    · intro i hi e he ht
      rw [p.superblock] at hi
      exact hx ▸ v.maps i (by omega) e he ht

/-- The size of the container is the one block 0 tells, which is not always that of the most recent checkpoint, see `c27_stale_size`. -/
theorem c27_size (hb : Blocks image) (h : openRead xts vector image = ok c) : ∃ d0, image 0 = some d0 ∧ c.size = Nx.blocks d0 * 4096 % 2 ^ 64 := by
  obtain ⟨d0, s, m, o, p⟩ := (openRead_iff hb).1 h
  exact ⟨d0, p.first, p.size⟩

/-- One block after the end of the area is read too: opening fails if that is not possible. -/
theorem c27_reads_beyond_area (hb : Blocks image) (h : openRead xts vector image = ok c) :
    ∃ d0 e, image 0 = some d0 ∧ image (Nx.areaBlock d0 % 2 ^ 32 + c.superblock.areaBlocks) = some e := by
  obtain ⟨d0, s, m, o, p⟩ := (openRead_iff hb).1 h
  obtain ⟨n, v, hn, hle⟩ := p.inv hb
  obtain ⟨e, he, _⟩ := v.readable s.superblock.areaBlocks hn
  exact ⟨d0, e, p.first, by rw [p.superblock]; exact he⟩

/-- The 32 upper bits of the block number of the area are dropped: a valid container whose area is in a block that is a multiple of 2^32 is refused. -/
theorem c27_area_truncated (hb : Blocks image) {d0 : Bytes} (h0 : image 0 = some d0) (ht : Nx.areaBlock d0 % 2 ^ 32 = 0) : openRead xts vector image ≠ ok c := by
  intro h
  obtain ⟨d0', s, m, o, p⟩ := (openRead_iff hb).1 h
  have : d0' = d0 := Option.some.inj (p.first.symm.trans h0)
  subst this
  exact p.accepted.2 ht

/-- a checkpoint descriptor area of `n` blocks where all the superblocks agree about it, with the block after it -/
structure GoodArea (image : Image) (d0 : Bytes) (base n : Nat) : Prop where
  first : image 0 = some d0
  valid : Nx.Valid d0
  area : Nx.areaBlock d0 = base
  base_lt : base < 2 ^ 32
  count : Nx.areaBlocks d0 = n
  blocks : ∀ j ≤ n, ∃ d, image (base + j) = some d ∧ d.length = 4096
  superblocks : ∀ j ≤ n, ∀ d, image (base + j) = some d → objectType d = superblockType → Nx.Valid d ∧ Nx.areaBlock d = base ∧ Nx.areaBlocks d = n

theorem GoodArea.accepted {d0 : Bytes} {base n : Nat} (g : GoodArea image d0 base n) : Accepted d0 := by
  refine ⟨g.valid, ?_⟩
  have h1 := g.valid.area
  have h2 := g.area
  have h3 := g.base_lt
  rw [Nat.mod_eq_of_lt (by omega)]
  exact h1

/-- the scan of a good area gives what is greatest in it -/
theorem GoodArea.scan {d0 : Bytes} {base n : Nat} (hb : Blocks image) (g : GoodArea image d0 base n) :
    ∃ s, scanLoop image (2 ^ 31) 0 ((Nx.areaBlock d0 % 2 ^ 32) * 4096) { superblock := superblockOf d0 } = ok s ∧ ScanInv image base d0 (n + 1) s := by
  have e : Nx.areaBlock d0 % 2 ^ 32 = base := by rw [g.area]; exact Nat.mod_eq_of_lt g.base_lt
  have hn : n < 2 ^ 31 := by have := g.valid.contiguous; rw [g.count] at this; exact this
  have hbase := g.base_lt
  rw [e]
  obtain ⟨s, hs⟩ := scanLoop_complete (fuel := 2 ^ 31) hb (scanInv_start image base d0) (Nat.zero_le _) g.count (by omega) (by
    intro j hj
    obtain ⟨d, hd, hl⟩ := g.blocks j hj
    refine ⟨d, hd, hl, fun ht => ?_⟩
    obtain ⟨h1, h2, h3⟩ := g.superblocks j hj d hd ht
    refine ⟨⟨h1, ?_⟩, h3⟩
    rw [h2, Nat.mod_eq_of_lt (by omega), ← h2]
    exact h1.area)
  exact ⟨s, hs, scanLoop_agree hb g.accepted (scanInv_start image base d0) (by omega) (by omega) g.count (fun j hj d hd ha => (g.superblocks j hj d hd ha.1.type).2.2) hs⟩

/-- what is needed besides the area: a newest map that is valid, an object map, no key bag -/
structure GoodRest (vector : Nat → Bool) (image : Image) (d0 : Bytes) (base n : Nat) : Prop where
  fusion : Nx.incompatible d0 / 2 ^ 8 % 2 = 0
  vector : vector (Nx.blocks d0 * 4096 % 2 ^ 64) = true
  map : ∃ j ≤ n, ∃ m, image (base + j) = some m ∧ objectType m = mapType ∧ 0 < objectXid m
  maps : ∀ j ≤ n, ∀ m, image (base + j) = some m → objectType m = mapType →
    (∀ i ≤ n, ∀ e, image (base + i) = some e → objectType e = mapType → objectXid e ≤ objectXid m) → ValidMap m
  objectMaps : ∀ d, (d = d0 ∨ ∃ j ≤ n, image (base + j) = some d) → objectType d = superblockType → ∃ o,
    Nx.objectMap d ≠ 0 ∧ Nx.objectMap d * 4096 < 2 ^ 63 ∧ image (Nx.objectMap d) = some o ∧ o.length = 4096 ∧ field o 24 4 = 0x4000000b ∧ field o 28 4 = 0 ∧ field o 48 8 ≠ 0
  keyBags : ∀ d, (d = d0 ∨ ∃ j ≤ n, image (base + j) = some d) → objectType d = superblockType → Nx.keyBagBlock d = 0

/-- Such a container opens, with the most recent checkpoint. -/
theorem c27_opens {d0 : Bytes} {base n : Nat} (hb : Blocks image) (g : GoodArea image d0 base n) (r : GoodRest vector image d0 base n) :
    ∃ c, openRead xts vector image = ok c ∧ (∃ d, (d = d0 ∨ ∃ j ≤ n, image (base + j) = some d ∧ objectType d = superblockType) ∧ c.superblock = superblockOf d ∧
      objectXid d0 ≤ objectXid d ∧ ∀ j ≤ n, ∀ e, image (base + j) = some e → objectType e = superblockType → objectXid e ≤ objectXid d) := by
  obtain ⟨s, hs, v⟩ := g.scan hb
  have hbase := g.base_lt
  have hn : n < 2 ^ 31 := by have := g.valid.contiguous; rw [g.count] at this; exact this
  have hlt : ∀ j < n + 1, (base + j) * 4096 < 2 ^ 63 := by intro j hj; omega
  have hmod : ∀ j < n + 1, (base + j) * 4096 % 2 ^ 64 = (base + j) * 4096 := by intro j hj; omega
  obtain ⟨d, hd, ha, hsd⟩ := v.inUse g.accepted
  have hd' : d = d0 ∨ ∃ j ≤ n, image (base + j) = some d := by
    rcases hd with h | ⟨j, hj, h, _⟩
    · exact Or.inl h
    · exact Or.inr ⟨j, by omega, h⟩
  obtain ⟨o, ho0, ho1, ho2, ho3, ho4, ho5, ho6⟩ := r.objectMaps d hd' ha.1.type
  have hkb := r.keyBags d hd' ha.1.type
  rcases v.map with ⟨hz, _⟩ | ⟨j, hj, m, hm, ht, hx, hpos, _, e, he, hblock⟩
  · obtain ⟨j, hj, m, hm, ht, hx⟩ := r.map
    have := v.maps j (by omega) m hm ht
    omega
  have hea : Nx.areaBlock e = base := by
    rcases he with rfl | ⟨i, hi, he, het⟩
    · exact g.area
    · exact (g.superblocks i (by omega) e he het).2.1
  rw [hea, Nat.mod_eq_of_lt hbase, Nat.mod_eq_of_lt (by omega)] at hblock
  have hvm : ValidMap m := r.maps j (by omega) m hm ht (fun i hi e he het => hx ▸ v.maps i (by omega) e he het)
  have h0 : base ≠ 0 := by rw [← g.area]; exact g.valid.area
  have om : s.superblock.objectMap = Nx.objectMap d := by rw [hsd]; rfl
  have hol : (o.take 88).length = 88 := by rw [List.length_take]; omega
  refine ⟨⟨Nx.blocks d0 * 4096 % 2 ^ 64, s.superblock, s.mapBlock, mapEntries m, field o 48 8, none⟩, (openRead_iff hb).2
    ⟨d0, s, m, o.take 88, g.first, g.accepted, r.fusion, hs, by omega, ?_, (readMap_iff m hvm.size _).2 ⟨hvm, rfl⟩, r.vector, by rw [om]; exact ho0, ?_, ?_, ho6, ?_,
      rfl, rfl, rfl⟩, d, ?_, hsd, ?_, ?_⟩
  · rw [hblock, hmod j hj, readAt_block hm hvm.size (Nat.le_refl _) (by decide) (hlt j hj), List.take_of_length_le (by rw [hvm.size]; omega)]
  · rw [om, Nat.mod_eq_of_lt (by omega)]
    exact readAt_block ho2 ho3 (by omega) (by omega) ho1
  · unfold readObjectMap
    rw [require_true (by omega), ok_bind, BTree.rdLE_field (by omega), ok_bind, field_take o 88 24 4 (by omega), require_true ho4, ok_bind, BTree.rdLE_field (by omega), ok_bind,
      field_take o 88 28 4 (by omega), require_true ho5, ok_bind, BTree.rdLE_field (by omega), field_take o 88 48 8 (by omega)]
  · unfold readKeyBag
    have : s.superblock.keyBagBlock = 0 := by rw [hsd]; exact hkb
    rw [this, if_neg (by omega)]
    rfl
  · rcases hd with h | ⟨j, hj, h1, h2⟩
    · exact Or.inl h
    · exact Or.inr ⟨j, by omega, h1, h2⟩
  · have := v.greatest.1
    rw [hsd] at this
    exact this
  · intro j hj e he het
    have := v.greatest.2 j (by omega) e he het
    rw [hsd] at this
    exact this

/-- a superblock, `tail` is what follows the parts the library uses -/
def exampleSuperblock (xid blocks n base omap : Nat) (volumes : List Nat) (tail : Bytes) : Bytes :=
  let v := (volumes ++ List.replicate (100 - volumes.length) 0).flatMap (toLE 8)
  let p := toLE 8 1 ++ toLE 8 xid ++ toLE 4 0x80000001 ++ toLE 4 0 ++ [0x4e, 0x58, 0x53, 0x42] ++ toLE 4 4096 ++ toLE 8 blocks ++ List.replicate 56 0 ++ toLE 4 n ++
    List.replicate 4 0 ++ toLE 8 base ++ List.replicate 40 0 ++ toLE 8 omap ++ List.replicate 12 0 ++ toLE 4 100 ++ v ++ List.replicate 400 0 ++ tail ++
    List.replicate (2712 - tail.length) 0
  match Checksum.fletcher64 p 0 with
  | ok v => toLE 8 v ++ p
  | _ => []

def exampleObjectMap : Bytes := List.replicate 24 0 ++ toLE 4 0x4000000b ++ List.replicate 20 0 ++ toLE 8 5 ++ List.replicate 4040 0

/-- a container of 6 blocks: superblock, area with a map and a superblock, a block that is not part of the area, object map, its B-tree -/
def exampleImage (first map last next : Bytes) : Image
  | 0 => some first
  | 1 => some map
  | 2 => some last
  | 3 => some next
  | 4 => some exampleObjectMap
  | 5 => some (List.replicate 4096 0)
  | _ => none

def zeroBlock : Bytes := List.replicate 4096 0

def sb3 : Bytes := exampleSuperblock 3 6 2 1 4 [1026] []
def sb4 : Bytes := exampleSuperblock 4 8 2 1 4 [1026, 1028] [1]
def sb9 : Bytes := exampleSuperblock 9 6 2 1 4 [] []

attribute [irreducible] sb3 sb4 sb9 zeroBlock exampleObjectMap

theorem superblock_of_read {d : Bytes} (s : Superblock) (hl : d.length = 4096) (h : readSuperblock d = ok s) : Nx.Valid d :=
  ((readSuperblock_iff d hl s).1 h).1.1

def readsSuperblock (d : Bytes) : Bool :=
  match readSuperblock d with
  | ok _ => true
  | _ => false

theorem valid_of_read {d : Bytes} (hl : d.length = 4096) (h : readsSuperblock d = true) : Nx.Valid d := by
  unfold readsSuperblock at h
  cases e : readSuperblock d with
  | ok s => exact superblock_of_read s hl e
  | err => rw [e] at h; cases h
  | ub => rw [e] at h; cases h

theorem sb3_facts : sb3.length = 4096 ∧ readsSuperblock sb3 = true ∧ Nx.areaBlock sb3 = 1 ∧ Nx.areaBlocks sb3 = 2 ∧ Nx.objectMap sb3 = 4 ∧ Nx.keyBagBlock sb3 = 0 ∧
    objectType sb3 = superblockType ∧ objectXid sb3 = 3 ∧ Nx.blocks sb3 = 6 := by decide +kernel
theorem sb3_valid : Nx.Valid sb3 := valid_of_read sb3_facts.1 sb3_facts.2.1
theorem sb3_type : objectType sb3 = superblockType := sb3_facts.2.2.2.2.2.2.1
theorem sb3_xid : objectXid sb3 = 3 := sb3_facts.2.2.2.2.2.2.2.1
theorem sb4_facts : sb4.length = 4096 ∧ readsSuperblock sb4 = true ∧ Nx.areaBlock sb4 = 1 ∧ Nx.areaBlocks sb4 = 2 ∧ Nx.objectMap sb4 = 4 ∧ Nx.keyBagBlock sb4 = 0 ∧
    objectType sb4 = superblockType ∧ objectXid sb4 = 4 ∧ Nx.blocks sb4 = 8 := by decide +kernel
theorem sb4_valid : Nx.Valid sb4 := valid_of_read sb4_facts.1 sb4_facts.2.1
theorem sb4_type : objectType sb4 = superblockType := sb4_facts.2.2.2.2.2.2.1
theorem sb4_xid : objectXid sb4 = 4 := sb4_facts.2.2.2.2.2.2.2.1
theorem sb9_facts : sb9.length = 4096 ∧ readsSuperblock sb9 = true ∧ Nx.areaBlock sb9 = 1 ∧ Nx.areaBlocks sb9 = 2 ∧ Nx.objectMap sb9 = 4 ∧ Nx.keyBagBlock sb9 = 0 ∧
    objectType sb9 = superblockType ∧ objectXid sb9 = 9 ∧ Nx.blocks sb9 = 6 := by decide +kernel
theorem sb9_valid : Nx.Valid sb9 := valid_of_read sb9_facts.1 sb9_facts.2.1
theorem sb9_type : objectType sb9 = superblockType := sb9_facts.2.2.2.2.2.2.1
theorem sb9_xid : objectXid sb9 = 9 := sb9_facts.2.2.2.2.2.2.2.1

/-- what the example needs of a block of the area -/
def AreaBlock (d : Bytes) : Prop :=
  d.length = 4096 ∧ (objectType d = superblockType → Nx.Valid d ∧ Nx.areaBlock d = 1 ∧ Nx.areaBlocks d = 2 ∧ Nx.objectMap d = 4 ∧ Nx.keyBagBlock d = 0) ∧ objectType d ≠ mapType

theorem sb3_area : AreaBlock sb3 :=
  have h := sb3_facts
  ⟨h.1, fun _ => ⟨sb3_valid, h.2.2.1, h.2.2.2.1, h.2.2.2.2.1, h.2.2.2.2.2.1⟩, by rw [sb3_type]; decide⟩
theorem sb4_area : AreaBlock sb4 :=
  have h := sb4_facts
  ⟨h.1, fun _ => ⟨sb4_valid, h.2.2.1, h.2.2.2.1, h.2.2.2.2.1, h.2.2.2.2.2.1⟩, by rw [sb4_type]; decide⟩
theorem sb9_area : AreaBlock sb9 :=
  have h := sb9_facts
  ⟨h.1, fun _ => ⟨sb9_valid, h.2.2.1, h.2.2.2.1, h.2.2.2.2.1, h.2.2.2.2.2.1⟩, by rw [sb9_type]; decide⟩
theorem zero_area : AreaBlock zeroBlock := ⟨by decide +kernel, fun h => absurd h (by decide +kernel), by decide +kernel⟩

theorem exampleMap_type : objectType exampleMap ≠ superblockType := by decide +kernel
theorem exampleMap_isMap : objectType exampleMap = mapType := by decide +kernel

theorem example_blocks {last next : Bytes} (h1 : AreaBlock last) (h2 : AreaBlock next) : Blocks (exampleImage sb3 exampleMap last next) := by
  intro b d h
  have ho : exampleObjectMap.length = 4096 := by decide +kernel
  have hz : (List.replicate 4096 (0 : UInt8)).length = 4096 := List.length_replicate
  unfold exampleImage at h
  split at h
  · rw [← Option.some.inj h, sb3_area.1]; omega
  · rw [← Option.some.inj h, exampleMap_length]; omega
  · rw [← Option.some.inj h, h1.1]; omega
  · rw [← Option.some.inj h, h2.1]; omega
  · rw [← Option.some.inj h, ho]; omega
  · rw [← Option.some.inj h, hz]; omega
  · cases h

theorem example_cases {last next : Bytes} {P : Nat → Bytes → Prop} (h0 : P 0 exampleMap) (h1 : P 1 last) (h2 : P 2 next) :
    ∀ j ≤ 2, ∀ d, exampleImage sb3 exampleMap last next (1 + j) = some d → P j d := by
  intro j hj d hd
  match j, hj with
  | 0, _ => rw [← Option.some.inj (show some exampleMap = some d from hd)]; exact h0
  | 1, _ => rw [← Option.some.inj (show some last = some d from hd)]; exact h1
  | 2, _ => rw [← Option.some.inj (show some next = some d from hd)]; exact h2

theorem example_good {last next : Bytes} (h1 : AreaBlock last) (h2 : AreaBlock next) : GoodArea (exampleImage sb3 exampleMap last next) sb3 1 2 where
  first := rfl
  valid := sb3_valid
  area := sb3_facts.2.2.1
  base_lt := by decide
  count := sb3_facts.2.2.2.1
  blocks := by
    intro j hj
    match j, hj with
    | 0, _ => exact ⟨exampleMap, rfl, exampleMap_length⟩
    | 1, _ => exact ⟨last, rfl, h1.1⟩
    | 2, _ => exact ⟨next, rfl, h2.1⟩
  superblocks := example_cases (P := fun _ d => objectType d = superblockType → Nx.Valid d ∧ Nx.areaBlock d = 1 ∧ Nx.areaBlocks d = 2) (fun h => absurd h exampleMap_type)
    (fun h => have h := h1.2.1 h; ⟨h.1, h.2.1, h.2.2.1⟩) (fun h => have h := h2.2.1 h; ⟨h.1, h.2.1, h.2.2.1⟩)

theorem example_rest {last next : Bytes} (h1 : AreaBlock last) (h2 : AreaBlock next) : GoodRest (fun _ => true) (exampleImage sb3 exampleMap last next) sb3 1 2 := by
  have hall : ∀ d, (d = sb3 ∨ ∃ j ≤ 2, exampleImage sb3 exampleMap last next (1 + j) = some d) → objectType d = superblockType → Nx.objectMap d = 4 ∧ Nx.keyBagBlock d = 0 := by
    intro d hd ht
    rcases hd with rfl | ⟨j, hj, hd⟩
    · have h := sb3_area.2.1 ht
      exact ⟨h.2.2.2.1, h.2.2.2.2⟩
    · exact example_cases (P := fun _ d => objectType d = superblockType → Nx.objectMap d = 4 ∧ Nx.keyBagBlock d = 0) (fun h => absurd h exampleMap_type)
        (fun h => have h := h1.2.1 h; ⟨h.2.2.2.1, h.2.2.2.2⟩) (fun h => have h := h2.2.1 h; ⟨h.2.2.2.1, h.2.2.2.2⟩) j hj d hd ht
  refine ⟨by decide +kernel, rfl, ⟨0, by omega, exampleMap, rfl, exampleMap_isMap, by decide +kernel⟩, ?_, ?_, fun d hd ht => (hall d hd ht).2⟩
  · intro j hj m hm ht _
    exact example_cases (P := fun _ d => objectType d = mapType → ValidMap d) (fun _ => exampleMap_valid) (fun h => absurd h h1.2.2) (fun h => absurd h h2.2.2) j hj m hm ht
  · intro d hd ht
    have h := (hall d hd ht).1
    refine ⟨exampleObjectMap, by rw [h]; decide, by rw [h]; decide, by rw [h]; rfl, by decide +kernel, by decide +kernel, by decide +kernel, by decide +kernel⟩

/-- the hypotheses are met: block 0 has checkpoint 3, the area a map and checkpoint 4 -/
example : ∃ c, openRead (fun _ _ d => d) (fun _ => true) (exampleImage sb3 exampleMap sb4 zeroBlock) = ok c ∧ c.superblock.transaction = 4 := by
  obtain ⟨c, h, d, hd, hs, h0, h1⟩ := c27_opens (xts := fun _ _ d => d) (example_blocks sb4_area zero_area) (example_good sb4_area zero_area) (example_rest sb4_area zero_area)
  refine ⟨c, h, ?_⟩
  have h4 := h1 1 (by omega) sb4 rfl sb4_type
  have e4 : objectXid sb4 = 4 := sb4_xid
  have e3 : objectXid sb3 = 3 := sb3_xid
  have hle : objectXid d ≤ 4 := by
    rcases hd with rfl | ⟨j, hj, hd, ht⟩
    · omega
    · exact example_cases (P := fun _ d => objectType d = superblockType → objectXid d ≤ 4) (fun h => absurd h exampleMap_type) (fun _ => by omega)
        (fun h => absurd h (by decide +kernel)) j hj d hd ht
  rw [hs]
  show objectXid d = 4
  omega

/-- A superblock that is not in the area but in the block after it is used, here one with the transaction identifier 9; all the others have at most 4. -/
theorem c27_superblock_beyond_area : ∃ c, openRead (fun _ _ d => d) (fun _ => true) (exampleImage sb3 exampleMap sb4 sb9) = ok c ∧ c.superblock.transaction = 9 ∧
    objectXid sb3 = 3 ∧ objectXid sb4 = 4 ∧ Nx.areaBlock sb3 = 1 ∧ Nx.areaBlocks sb3 = 2 := by
  obtain ⟨c, h, d, hd, hs, h0, h1⟩ := c27_opens (xts := fun _ _ d => d) (example_blocks sb4_area sb9_area) (example_good sb4_area sb9_area) (example_rest sb4_area sb9_area)
  have h9 := h1 2 (by omega) sb9 rfl sb9_type
  have e9 : objectXid sb9 = 9 := sb9_xid
  have e4 : objectXid sb4 = 4 := sb4_xid
  have e3 : objectXid sb3 = 3 := sb3_xid
  have hle : objectXid d ≤ 9 := by
    rcases hd with rfl | ⟨j, hj, hd, ht⟩
    · omega
    · exact example_cases (P := fun _ d => objectType d = superblockType → objectXid d ≤ 9) (fun h => absurd h exampleMap_type) (fun _ => by omega) (fun _ => by omega) j hj d hd ht
  refine ⟨c, h, ?_, e3, e4, sb3_facts.2.2.1, sb3_facts.2.2.2.1⟩
  rw [hs]
  show objectXid d = 9
  omega

/-- The size of the container is not that of the most recent checkpoint: here checkpoint 4 has 8 blocks, the size is that of 6 blocks. -/
theorem c27_stale_size : ∃ c, openRead (fun _ _ d => d) (fun _ => true) (exampleImage sb3 exampleMap sb4 zeroBlock) = ok c ∧ c.superblock.transaction = 4 ∧
    c.superblock.blocks = 8 ∧ c.size = 6 * 4096 := by
  obtain ⟨c, h, d, hd, hs, h0, h1⟩ := c27_opens (xts := fun _ _ d => d) (example_blocks sb4_area zero_area) (example_good sb4_area zero_area) (example_rest sb4_area zero_area)
  have h4 := h1 1 (by omega) sb4 rfl sb4_type
  have e4 : objectXid sb4 = 4 := sb4_xid
  have e3 : objectXid sb3 = 3 := sb3_xid
  have he : d = sb4 := by
    rcases hd with rfl | ⟨j, hj, hd, ht⟩
    · omega
    · exact example_cases (P := fun _ d => objectType d = superblockType → d = sb4) (fun h => absurd h exampleMap_type) (fun _ => rfl)
        (fun h => absurd h (by decide +kernel)) j hj d hd ht
  subst he
  obtain ⟨d0, hd0, hsz⟩ := c27_size (example_blocks sb4_area zero_area) h
  have : sb3 = d0 := Option.some.inj (show some sb3 = some d0 from hd0)
  refine ⟨c, h, by rw [hs]; exact e4, ?_, ?_⟩
  · rw [hs]
    exact sb4_facts.2.2.2.2.2.2.2.2
  · rw [hsz, ← this, sb3_facts.2.2.2.2.2.2.2.2]

end Verif.Props
