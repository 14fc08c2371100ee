import Verif.Model.Debug
import Verif.Spec.Debug
import Verif.Lemmas.ContainerOpen
import Verif.Lemmas.VolumeOpen
import Verif.Lemmas.KeyBag
/-! Lemmas about the diagnostic output -/
namespace Verif
open Res Spec
namespace Debug
open Container BTree Checksum

theorem print_iff {d : Bytes} {off n : Nat} : print d off n = ok () ↔ off + n ≤ d.length := by
  unfold print
  split <;> simp_all

theorem print_le {d : Bytes} {off n : Nat} (h : off + n ≤ d.length) : print d off n = ok () := print_iff.2 h

theorem readAt_short {image : Image} {b n : Nat} {d : Bytes} (h : image b = some d) (hl : n ≤ d.length) (hn : n ≤ 4096) (h0 : 0 < n) (hb : b * 4096 < 2 ^ 63) :
    readAt image (b * 4096) n = ok (d.take n) := by
  unfold readAt
  rw [if_neg (by omega), Nat.mul_div_cancel _ (by omega), show (n + 4095) / 4096 = 1 by omega]
  simp only [blocksFrom, h, Option.pure_def, Option.bind_eq_bind, Option.bind_some, List.append_nil]
  rw [if_pos hl]

theorem safe_readTyped {n size type subtype : Nat} {whole verbose : Bool} (h1 : 32 ≤ size) (image : Image) (offset : Nat) :
    Safe (readTyped n size type subtype whole verbose image offset) := by
  unfold readTyped
  refine safe_bind (safe_readAt _ _ _) fun d _ => safe_bind safe_require fun _ h => ?_
  have h := (require_eq_ok _).1 h
  have rest : Safe (do
      let t ← rdLE d 24 4
      require (t = type)
      let t ← rdLE d 28 4
      require (t = subtype)) :=
    safe_bind (safe_rdLE (by omega)) fun _ _ => safe_bind safe_require fun _ _ => safe_bind (safe_rdLE (by omega)) fun _ _ => safe_require
  cases verbose with
  | false => simpa using rest
  | true =>
    have hp : print d 0 (if whole then d.length else size) = ok () := print_le (by split <;> omega)
    simpa [hp] using rest

theorem readTyped_iff {n size type subtype : Nat} {whole verbose : Bool} (h1 : 32 ≤ size) (h2 : size ≤ n) (h3 : n ≤ 4096) {image : Image} {b : Nat} :
    readTyped n size type subtype whole verbose image (b * 4096 % 2 ^ 64) = ok () ↔ ObjectIn image b n type subtype := by
  have hm : b * 4096 % 2 ^ 64 = (b % 2 ^ 52) * 4096 := by omega
  rw [hm]
  have key : ∀ d : Bytes, n ≤ d.length →
      ((do
        require (¬ ((d.take n).length < size ∨ (d.take n).length > 2 ^ 63 - 1))
        if verbose then print (d.take n) 0 (if whole then (d.take n).length else size)
        let t ← rdLE (d.take n) 24 4
        require (t = type)
        let t ← rdLE (d.take n) 28 4
        require (t = subtype)) = (ok () : Res Unit) ↔ objectType d = type ∧ field d 28 4 = subtype) := by
    intro d hd
    have hl : (d.take n).length = n := by rw [List.length_take]; omega
    have hp : print (d.take n) 0 (if whole then (d.take n).length else size) = ok () := print_le (by split <;> omega)
    rw [require_true (by omega), ok_bind, rdLE_field (by omega), rdLE_field (by omega), field_take d n 24 4 (by omega), field_take d n 28 4 (by omega)]
    cases verbose with
    | false => simp [unit_bind, objectType]
    | true =>
      simp only [if_true]
      rw [hp]
      simp [unit_bind, objectType]
  constructor
  · intro h
    unfold readTyped at h
    obtain ⟨r, hr, h⟩ := bind_eq_ok.1 h
    obtain ⟨d, hd, rfl, hl, hlt⟩ := readAt_ok hr h3 (by omega)
    exact ⟨by omega, d, hd, hl, (key d hl).1 h⟩
  · rintro ⟨hlt, d, hd, hl, ht⟩
    have hr : readAt image (b % 2 ^ 52 * 4096) n = ok (d.take n) := readAt_short hd hl h3 (by omega) (by omega)
    unfold readTyped
    rw [hr, ok_bind]
    exact (key d hl).2 ht

theorem mapAddress_find (identifier : Nat) (map : List (Nat × Nat)) : mapAddress identifier map = (map.find? (·.1 == identifier)).map (·.2) := by
  induction map with
  | nil => rfl
  | cons e es ih =>
    unfold mapAddress
    by_cases h : identifier = e.1
    · simp [h]
    · rw [if_neg h, ih, List.find?_cons_of_neg (by simpa using Ne.symm h)]

theorem safe_readMapped {read : Image → Nat → Res Unit} (hr : ∀ i o, Safe (read i o)) (image : Image) (blockSize identifier : Nat) (map : List (Nat × Nat)) :
    Safe (readMapped read image blockSize identifier map) := by
  unfold readMapped
  split
  · split
    · exact safe_err
    · exact hr _ _
  · exact safe_ok _

theorem readMapped_iff {read : Image → Nat → Res Unit} {n type subtype : Nat} {image : Image}
    (hr : ∀ b, read image (b * 4096 % 2 ^ 64) = ok () ↔ ObjectIn image b n type subtype) {identifier : Nat} {map : List (Nat × Nat)} :
    readMapped read image 4096 identifier map = ok () ↔ (identifier ≠ 0 → MappedIn image map identifier n type subtype) := by
  unfold readMapped MappedIn
  rw [mapAddress_find]
  split
  · cases hf : map.find? (·.1 == identifier) with
    | none => simp; omega
    | some e => simp [hr]; omega
  · simp; omega

theorem readPrinted_iff {image : Image} {s : Superblock} {map : List (Nat × Nat)} :
    readPrinted image 4096 s map = ok () ↔ Printable image s.fusionTree s.spaceManager s.reaper map := by
  have h1 : ∀ b, readFusionTree true image (b * 4096 % 2 ^ 64) = ok () ↔ ObjectIn image b 4096 0x40000002 0x15 := fun b => readTyped_iff (by omega) (by omega) (by omega)
  have h2 : ∀ b, readSpaceManager true image (b * 4096 % 2 ^ 64) = ok () ↔ ObjectIn image b 4096 0x80000005 0 := fun b => readTyped_iff (by omega) (by omega) (by omega)
  have h3 : ∀ b, readReaper true image (b * 4096 % 2 ^ 64) = ok () ↔ ObjectIn image b 40 0x80000011 0 := fun b => readTyped_iff (by omega) (by omega) (by omega)
  have : readPrinted image 4096 s map = ok () ↔ (s.fusionTree ≠ 0 → ObjectIn image s.fusionTree 4096 0x40000002 0x15) ∧
      (s.spaceManager ≠ 0 → MappedIn image map s.spaceManager 4096 0x80000005 0) ∧ (s.reaper ≠ 0 → MappedIn image map s.reaper 40 0x80000011 0) := by
    unfold readPrinted
    rw [← readMapped_iff h2, ← readMapped_iff h3]
    by_cases hf : s.fusionTree = 0
    · simp [hf, unit_bind]
    · simp [hf, unit_bind, h1]
  rw [this]
  exact ⟨fun h => ⟨h.1, h.2.1, h.2.2⟩, fun h => ⟨h.1, h.2, h.3⟩⟩

theorem safe_readPrinted (image : Image) (blockSize : Nat) (s : Superblock) (map : List (Nat × Nat)) : Safe (readPrinted image blockSize s map) := by
  have h2 := safe_readMapped (read := readSpaceManager true) (fun i o => safe_readTyped (by omega) i o) image blockSize s.spaceManager map
  have h3 := safe_readMapped (read := readReaper true) (fun i o => safe_readTyped (by omega) i o) image blockSize s.reaper map
  have h1 : Safe (readFusionTree true image (s.fusionTree * blockSize % 2 ^ 64)) := safe_readTyped (by omega) _ _
  unfold readPrinted
  by_cases hf : s.fusionTree = 0
  · simpa [hf] using safe_bind h2 fun _ _ => h3
  · simpa [hf] using safe_bind h1 fun _ _ => safe_bind h2 fun _ _ => h3

/-! ### The scan -/

theorem scanBlock_eq_of {m : Mode} (hm : m ≠ .verbose) (image : Image) (index offset : Nat) (s : Scan) : scanBlock m image index offset s = Container.scanBlock image index offset s := by
  unfold scanBlock Container.scanBlock
  simp [hm]

theorem scanLoop_eq_of {m : Mode} (hm : m ≠ .verbose) (image : Image) (fuel index offset : Nat) (s : Scan) :
    scanLoop m image fuel index offset s = Container.scanLoop image fuel index offset s := by
  induction fuel generalizing index offset s with
  | zero => rfl
  | succ fuel ih =>
    unfold scanLoop Container.scanLoop
    simp only [scanBlock_eq_of hm, ih]

/-- a step of the scan in verbose mode, from the step without -/
theorem scanBlock_verbose {image : Image} (hb : Blocks image) {index b : Nat} {s s' : Scan} :
    scanBlock .verbose image index (b * 4096) s = ok s' ↔
      Container.scanBlock image index (b * 4096) s = ok s' ∧ ∀ d, image b = some d → objectType d = mapType → ValidMap d := by
  unfold scanBlock Container.scanBlock
  cases hr : readAt image (b * 4096) 32 with
  | err => simp
  | ub => simp
  | ok r =>
    obtain ⟨d, hd, rfl, hl, hlt⟩ := readAt_ok hr (by omega) (by omega)
    rw [ok_bind, ok_bind, readObject_take hl, ok_bind, ok_bind]
    dsimp only
    by_cases ht : objectType d = 0x4000000c
    · rw [if_pos ht, if_pos ht]
      have hv : (∀ d, image b = some d → objectType d = mapType → ValidMap d) ↔ ValidMap d := by
        constructor
        · intro h; exact h d hd ht
        · intro h d' hd' _; rw [hd] at hd'; cases hd'; exact h
      rw [hv]
      by_cases hl4 : d.length = 4096
      · have hmap : ∀ m, readMap d = ok m ↔ ValidMap d ∧ m = mapEntries d := readMap_iff d hl4
        rw [readAt_block hd hl4 (by omega) (by omega) hlt, ok_bind, List.take_of_length_le (by omega)]
        by_cases hvm : ValidMap d
        · rw [(hmap (mapEntries d)).2 ⟨hvm, rfl⟩]
          simp [hvm]
        · cases hm : readMap d with
          | ok m => exact absurd ((hmap m).1 hm).1 hvm
          | err => simp [hvm]
          | ub => simp [hvm]
      · have hn : ¬ ValidMap d := fun h => hl4 h.size
        have : ∀ r, readAt image (b * 4096) 4096 ≠ ok r := by
          intro r hr
          obtain ⟨d', hd', _, h4, _⟩ := readAt_ok hr (by omega) (by omega)
          rw [hd] at hd'; cases hd'
          have := hb _ _ hd
          omega
        cases hr4 : readAt image (b * 4096) 4096 with
        | ok r => exact absurd hr4 (this r)
        | err => simp [hn]
        | ub => simp [hn]
    · rw [if_neg ht, if_neg ht]
      have hv : (∀ d, image b = some d → objectType d = mapType → ValidMap d) := by
        intro d' hd' h; rw [hd] at hd'; cases hd'; exact absurd h ht
      exact ⟨fun h => ⟨h, hv⟩, fun h => h.1⟩

/-- verbose mode finds what is found without -/
theorem scanLoop_sound {image : Image} (hb : Blocks image) {base fuel k : Nat} {s s' : Scan} (h : scanLoop .verbose image fuel k ((base + k) * 4096) s = ok s') :
    Container.scanLoop image fuel k ((base + k) * 4096) s = ok s' ∧ ∀ j, k ≤ j → j < k + fuel → j ≤ s'.superblock.areaBlocks → ∀ d, image (base + j) = some d → objectType d = mapType → ValidMap d := by
  induction fuel generalizing k s with
  | zero => exact ⟨h, fun j h1 h2 => by omega⟩
  | succ fuel ih =>
    unfold scanLoop at h
    unfold Container.scanLoop
    split at h
    · rename_i hk
      obtain ⟨s1, h1, h2⟩ := bind_eq_ok.1 h
      obtain ⟨h1, hv⟩ := (scanBlock_verbose hb).1 h1
      rw [show (base + k) * 4096 + 4096 = (base + (k + 1)) * 4096 by omega] at h2 ⊢
      obtain ⟨h3, h4⟩ := ih h2
      rw [if_pos hk, h1, ok_bind]
      refine ⟨h3, fun j hj hj2 hj3 => ?_⟩
      by_cases e : j = k
      · subst e; exact hv
      · exact h4 j (by omega) (by omega) hj3
    · rename_i hk
      rw [if_neg hk]
      cases h
      exact ⟨rfl, fun j h1 _ h3 => by omega⟩

/-- where all superblocks have the same number of blocks of the area -/
theorem scanLoop_complete' {image : Image} (hb : Blocks image) {base n fuel k : Nat} {s s' : Scan} (hs : s.superblock.areaBlocks = n)
    (hn : ∀ j ≤ n, ∀ d, image (base + j) = some d → objectType d = superblockType → Nx.areaBlocks d = n)
    (h : Container.scanLoop image fuel k ((base + k) * 4096) s = ok s') (hv : MapsValid image base (n + 1)) :
    scanLoop .verbose image fuel k ((base + k) * 4096) s = ok s' ∧ s'.superblock.areaBlocks = n := by
  induction fuel generalizing k s with
  | zero => cases h; exact ⟨rfl, hs⟩
  | succ fuel ih =>
    unfold Container.scanLoop at h
    unfold scanLoop
    split at h
    · rename_i hk
      obtain ⟨s1, h1, h2⟩ := bind_eq_ok.1 h
      rw [if_pos hk, (scanBlock_verbose hb).2 ⟨h1, hv k (by omega)⟩, ok_bind]
      rw [show (base + k) * 4096 + 4096 = (base + (k + 1)) * 4096 by omega] at h2 ⊢
      refine ih ?_ h2
      obtain ⟨d, hd, hl, ha, rfl⟩ := scanBlock_ok hb h1
      split
      · split <;> exact hs
      · split
        · rename_i ht
          split
          · exact hn k (by omega) d hd ht
          · exact hs
        · exact hs
    · rename_i hk
      rw [if_neg hk]
      cases h
      exact ⟨rfl, hs⟩

/-- what the scan finds has the number of blocks of the area that all superblocks have -/
theorem scanLoop_count {image : Image} (hb : Blocks image) {base n fuel k : Nat} {s s' : Scan} (hs : s.superblock.areaBlocks = n)
    (hn : ∀ j ≤ n, ∀ d, image (base + j) = some d → objectType d = superblockType → Nx.areaBlocks d = n)
    (h : Container.scanLoop image fuel k ((base + k) * 4096) s = ok s') : s'.superblock.areaBlocks = n := by
  induction fuel generalizing k s with
  | zero => cases h; exact hs
  | succ fuel ih =>
    unfold Container.scanLoop at h
    split at h
    · rename_i hk
      obtain ⟨s1, h1, h2⟩ := bind_eq_ok.1 h
      rw [show (base + k) * 4096 + 4096 = (base + (k + 1)) * 4096 by omega] at h2
      refine ih ?_ h2
      obtain ⟨d, hd, hl, ha, rfl⟩ := scanBlock_ok hb h1
      split
      · split <;> exact hs
      · split
        · rename_i ht
          split
          · exact hn k (by omega) d hd ht
          · exact hs
        · exact hs
    · cases h
      exact hs

/-! ### Opening a container -/

theorem openContainer_plain (xts : Bytes → Bytes → Bytes → Bytes) (vector : Nat → Bool) (image : Image) : openContainer .plain xts vector image = Container.openRead xts vector image := by
  unfold openContainer Container.openRead
  simp [scanLoop_eq_of]

theorem openContainer_quiet {xts : Bytes → Bytes → Bytes → Bytes} {vector : Nat → Bool} {image : Image} (hb : Blocks image) {c : Container.Opened} :
    openContainer .plain xts vector image = ok c ↔ openContainer .quiet xts vector image = ok c ∧ ∀ d, image 0 = some d → Nx.incompatible d / 2 ^ 8 % 2 = 0 := by
  unfold openContainer
  simp only [reduceCtorEq, if_false, if_true, scanLoop_eq_of, ne_eq, not_false_eq_true]
  cases hr : readAt image 0 4096 with
  | err => simp
  | ub => simp
  | ok r =>
    obtain ⟨d0, hd, rfl, hl, _⟩ := readAt_ok (b := 0) hr (by omega) (by omega)
    have hl4 : d0.length = 4096 := by have := hb _ _ hd; omega
    rw [ok_bind, ok_bind, List.take_of_length_le (by omega)]
    cases hs : readSuperblock d0 with
    | err => simp
    | ub => simp
    | ok sb =>
      obtain ⟨_, rfl⟩ := (readSuperblock_iff d0 hl4 sb).1 hs
      rw [ok_bind, ok_bind]
      have hf : (∀ d, image 0 = some d → Nx.incompatible d / 2 ^ 8 % 2 = 0) ↔ Nx.incompatible d0 / 2 ^ 8 % 2 = 0 :=
        ⟨fun h => h d0 hd, fun h d hd' => by rw [hd] at hd'; cases hd'; exact h⟩
      rw [hf, unit_bind, require_unit]
      exact And.comm

/-- what comes after the scan -/
def afterScan (verbose : Bool) (xts : Bytes → Bytes → Bytes → Bytes) (vector : Nat → Bool) (image : Image) (superblock : Superblock) (s : Scan) : Res Container.Opened := do
  require (s.mapBlock ≠ 0)
  let d ← readAt image (s.mapBlock * superblock.blockSize % 2 ^ 64) 4096
  let map ← readMap d
  if verbose then readPrinted image superblock.blockSize s.superblock map
  require (vector (superblock.blocks * superblock.blockSize % 2 ^ 64) = true)
  require (s.superblock.objectMap ≠ 0)
  let d ← readAt image (s.superblock.objectMap * superblock.blockSize % 2 ^ 64) 88
  let tree ← readObjectMap d
  require (tree ≠ 0)
  let keyBag ← readKeyBag xts image s.superblock
  return { size := superblock.blocks * superblock.blockSize % 2 ^ 64, superblock := s.superblock, mapBlock := s.mapBlock, map := map, tree := tree, keyBag := keyBag }

theorem afterScan_superblock {verbose : Bool} {xts : Bytes → Bytes → Bytes → Bytes} {vector : Nat → Bool} {image : Image} {sb : Superblock} {s : Scan} {c : Container.Opened}
    (h : afterScan verbose xts vector image sb s = ok c) : c.superblock = s.superblock := by
  unfold afterScan at h
  obtain ⟨_, _, h⟩ := bind_eq_ok.1 h
  obtain ⟨_, _, h⟩ := bind_eq_ok.1 h
  obtain ⟨map, _, h⟩ := bind_eq_ok.1 h
  have last : ∀ {x : Res Unit} {f : Unit → Res Container.Opened}, (x >>= f) = ok c → f () = ok c := fun h => (unit_bind.1 h).2
  cases verbose
  · have h := h
    simp only [Bool.false_eq_true, if_false] at h
    obtain ⟨_, _, h⟩ := bind_eq_ok.1 h
    obtain ⟨_, _, h⟩ := bind_eq_ok.1 h
    obtain ⟨_, _, h⟩ := bind_eq_ok.1 h
    obtain ⟨_, _, h⟩ := bind_eq_ok.1 h
    obtain ⟨_, _, h⟩ := bind_eq_ok.1 h
    obtain ⟨_, _, h⟩ := bind_eq_ok.1 h
    cases h; rfl
  · simp only [if_true] at h
    have h := last h
    obtain ⟨_, _, h⟩ := bind_eq_ok.1 h
    obtain ⟨_, _, h⟩ := bind_eq_ok.1 h
    obtain ⟨_, _, h⟩ := bind_eq_ok.1 h
    obtain ⟨_, _, h⟩ := bind_eq_ok.1 h
    obtain ⟨_, _, h⟩ := bind_eq_ok.1 h
    obtain ⟨_, _, h⟩ := bind_eq_ok.1 h
    cases h; rfl

theorem afterScan_iff {xts : Bytes → Bytes → Bytes → Bytes} {vector : Nat → Bool} {image : Image} {sb : Superblock} (hbs : sb.blockSize = 4096) {s : Scan} {c : Container.Opened} :
    afterScan true xts vector image sb s = ok c ↔
      afterScan false xts vector image sb s = ok c ∧ Printable image c.superblock.fusionTree c.superblock.spaceManager c.superblock.reaper c.map := by
  have last : ∀ {x : Res Container.Opened} {map : List (Nat × Nat)}, x = (do
      require (vector (sb.blocks * sb.blockSize % 2 ^ 64) = true)
      require (s.superblock.objectMap ≠ 0)
      let d ← readAt image (s.superblock.objectMap * sb.blockSize % 2 ^ 64) 88
      let tree ← readObjectMap d
      require (tree ≠ 0)
      let keyBag ← readKeyBag xts image s.superblock
      return ({ size := sb.blocks * sb.blockSize % 2 ^ 64, superblock := s.superblock, mapBlock := s.mapBlock, map := map, tree := tree, keyBag := keyBag } : Container.Opened)) →
      x = ok c → c.superblock = s.superblock ∧ c.map = map := by
    intro x map hx h
    rw [hx] at h
    obtain ⟨_, _, h⟩ := bind_eq_ok.1 h
    obtain ⟨_, _, h⟩ := bind_eq_ok.1 h
    obtain ⟨_, _, h⟩ := bind_eq_ok.1 h
    obtain ⟨_, _, h⟩ := bind_eq_ok.1 h
    obtain ⟨_, _, h⟩ := bind_eq_ok.1 h
    obtain ⟨_, _, h⟩ := bind_eq_ok.1 h
    cases h
    exact ⟨rfl, rfl⟩
  unfold afterScan
  simp only [if_true, Bool.false_eq_true, if_false]
  constructor
  · intro h
    obtain ⟨u, h1, h⟩ := bind_eq_ok.1 h
    obtain ⟨d, h2, h⟩ := bind_eq_ok.1 h
    obtain ⟨map, h3, h⟩ := bind_eq_ok.1 h
    obtain ⟨h4, h⟩ := unit_bind.1 h
    obtain ⟨e1, e2⟩ := last rfl h
    rw [hbs, readPrinted_iff] at h4
    rw [e1, e2]
    exact ⟨bind_eq_ok.2 ⟨u, h1, bind_eq_ok.2 ⟨d, h2, bind_eq_ok.2 ⟨map, h3, h⟩⟩⟩, h4⟩
  · rintro ⟨h, h4⟩
    obtain ⟨u, h1, h⟩ := bind_eq_ok.1 h
    obtain ⟨d, h2, h⟩ := bind_eq_ok.1 h
    obtain ⟨map, h3, h⟩ := bind_eq_ok.1 h
    obtain ⟨e1, e2⟩ := last rfl h
    rw [e1, e2, ← readPrinted_iff, ← hbs] at h4
    exact bind_eq_ok.2 ⟨u, h1, bind_eq_ok.2 ⟨d, h2, bind_eq_ok.2 ⟨map, h3, unit_bind.2 ⟨h4, h⟩⟩⟩⟩

/-- opening with HAVE_DEBUG_OUTPUT: the first superblock, the scan, and the rest -/
theorem openContainer_iff {m : Mode} (hm : m ≠ .plain) {xts : Bytes → Bytes → Bytes → Bytes} {vector : Nat → Bool} {image : Image} (hb : Blocks image) {c : Container.Opened} :
    openContainer m xts vector image = ok c ↔ ∃ d0 s, image 0 = some d0 ∧ Accepted d0 ∧
      scanLoop m image (2 ^ 31) 0 ((Nx.areaBlock d0 % 2 ^ 32) * 4096) { superblock := superblockOf d0 } = ok s ∧
      afterScan (m = .verbose) xts vector image (superblockOf d0) s = ok c := by
  have unfolded : openContainer m xts vector image = (do
      let d ← readAt image 0 4096
      let superblock ← readSuperblock d
      let s ← scanLoop m image (2 ^ 31) 0 (superblock.areaBlock * superblock.blockSize) { superblock := superblock }
      afterScan (m = .verbose) xts vector image superblock s) := by
    unfold openContainer afterScan
    simp only [hm, if_false, decide_eq_true_eq]
  rw [unfolded]
  constructor
  · intro h
    obtain ⟨r, hr, h⟩ := bind_eq_ok.1 h
    obtain ⟨d0, hd, rfl, hl, _⟩ := readAt_ok (b := 0) hr (by omega) (by omega)
    have hl4 : d0.length = 4096 := by have := hb _ _ hd; omega
    rw [List.take_of_length_le (by omega)] at h
    obtain ⟨sb, hsb, h⟩ := bind_eq_ok.1 h
    obtain ⟨ha, rfl⟩ := (readSuperblock_iff d0 hl4 sb).1 hsb
    have hbs : (superblockOf d0).blockSize = 4096 := ha.1.blockSize
    obtain ⟨s, h2, h⟩ := bind_eq_ok.1 h
    rw [hbs] at h2
    exact ⟨d0, s, hd, ha, h2, h⟩
  · rintro ⟨d0, s, hd, ha, h2, h⟩
    have hl4 : d0.length = 4096 := ha.1.size
    have hbs : (superblockOf d0).blockSize = 4096 := ha.1.blockSize
    rw [show (0 : Nat) = 0 * 4096 from rfl, readAt_block hd hl4 (by omega) (by omega) (by omega), ok_bind, List.take_of_length_le (by omega),
      (readSuperblock_iff d0 hl4 _).2 ⟨ha, rfl⟩, ok_bind, hbs]
    exact bind_eq_ok.2 ⟨s, h2, h⟩

theorem safe_scanLoop (m : Mode) (image : Image) (fuel index offset : Nat) (s : Scan) : Safe (scanLoop m image fuel index offset s) := by
  have step : ∀ index offset s, Safe (scanBlock m image index offset s) := by
    intro index offset s
    by_cases hm : m = .verbose
    · subst hm
      have h1 := Container.safe_scanBlock image index offset s
      unfold scanBlock
      unfold Container.scanBlock at h1
      refine safe_bind (safe_readAt _ _ _) fun r hr => safe_bind (safe_readObject _) fun p hp => ?_
      rw [hr, ok_bind, hp, ok_bind] at h1
      obtain ⟨t, ty⟩ := p
      dsimp only at h1 ⊢
      split
      · rename_i ht
        rw [if_pos ht] at h1
        simp only [if_true]
        exact safe_bind (safe_readAt _ _ _) fun _ _ => safe_bind (safe_readMap _) fun _ _ => h1
      · rename_i ht
        rw [if_neg ht] at h1
        exact h1
    · rw [scanBlock_eq_of hm]
      exact Container.safe_scanBlock _ _ _ _
  induction fuel generalizing index offset s with
  | zero => exact safe_ok _
  | succ fuel ih =>
    unfold scanLoop
    split
    · exact safe_bind (step _ _ _) fun _ _ => ih _ _ _
    · exact safe_ok _

theorem safe_openContainer (m : Mode) (xts : Bytes → Bytes → Bytes → Bytes) (hx : ∀ k t d, (xts k t d).length = d.length) (vector : Nat → Bool) (image : Image) (hb : Blocks image) :
    Safe (openContainer m xts vector image) := by
  unfold openContainer
  refine safe_bind (safe_readAt _ _ _) fun d hd => safe_bind (safe_readSuperblock _) fun sb hsb => ?_
  have hl := readAt_length hd
  obtain ⟨ha, rfl⟩ := (readSuperblock_iff d hl sb).1 hsb
  have hbs : (superblockOf d).blockSize = 4096 := ha.1.blockSize
  have rest : Safe (do
      let s ← scanLoop m image (2 ^ 31) 0 ((superblockOf d).areaBlock * (superblockOf d).blockSize) { superblock := superblockOf d }
      afterScan (m = .verbose) xts vector image (superblockOf d) s) := by
    refine safe_bind (safe_scanLoop _ _ _ _ _ _) fun s hs => ?_
    have hk : Safe (readKeyBag xts image s.superblock) := by
      refine safe_readKeyBag xts hx image _ ?_
      rw [hbs, show (superblockOf d).areaBlock = Nx.areaBlock d % 2 ^ 32 from rfl] at hs
      have hs : Container.scanLoop image (2 ^ 31) 0 ((Nx.areaBlock d % 2 ^ 32) * 4096) { superblock := superblockOf d } = ok s := by
        by_cases hm : m = .verbose
        · subst hm
          exact (scanLoop_sound (k := 0) hb hs).1
        · rw [scanLoop_eq_of hm] at hs
          exact hs
      obtain ⟨n, v, _⟩ := scan_result hb ha hs
      obtain ⟨e, _, ha, he⟩ := v.inUse ha
      rw [he]
      exact ha.1.blockSize
    unfold afterScan
    refine safe_bind safe_require fun _ _ => safe_bind (safe_readAt _ _ _) fun _ _ => safe_bind (safe_readMap _) fun map _ => ?_
    have rest : Safe (do
        require (vector ((superblockOf d).blocks * (superblockOf d).blockSize % 2 ^ 64) = true)
        require (s.superblock.objectMap ≠ 0)
        let d' ← readAt image (s.superblock.objectMap * (superblockOf d).blockSize % 2 ^ 64) 88
        let tree ← readObjectMap d'
        require (tree ≠ 0)
        let keyBag ← readKeyBag xts image s.superblock
        return ({ size := (superblockOf d).blocks * (superblockOf d).blockSize % 2 ^ 64, superblock := s.superblock, mapBlock := s.mapBlock, map := map, tree := tree, keyBag := keyBag } : Container.Opened)) :=
      safe_bind safe_require fun _ _ => safe_bind safe_require fun _ _ =>
        safe_bind (safe_readAt _ _ _) fun _ _ => safe_bind (safe_readObjectMap _) fun _ _ => safe_bind safe_require fun _ _ => safe_bind hk fun _ _ => safe_ok _
    split
    · exact safe_bind (safe_readPrinted _ _ _ _) fun _ _ => rest
    · exact rest
  unfold afterScan at rest
  simp only [decide_eq_true_eq] at rest
  by_cases hm : m = .plain
  · rw [if_pos hm]
    exact safe_bind safe_require fun _ _ => rest
  · rw [if_neg hm]
    exact rest

/-! ### Opening a volume -/

theorem openVolume_iff {m : Mode} {c : VolumeOpen.Cipher} {vector : Nat → Bool} {image : Image} {k : Container.Opened} {offset : Nat} {v : VolumeOpen.Opened} :
    openVolume m c vector image k offset = ok v ↔ VolumeOpen.openRead c vector image k offset = ok v ∧
      (m ≠ .plain → v.superblock.extentTree ≠ 0 → ObjectIn image v.superblock.extentTree 4096 0x40000002 0xf) := by
  have ht : ∀ b, readExtentTree (m = .verbose) image (b * 4096 % 2 ^ 64) = ok () ↔ ObjectIn image b 4096 0x40000002 0xf := fun b => readTyped_iff (by omega) (by omega) (by omega)
  unfold openVolume VolumeOpen.openRead
  constructor
  · intro h
    obtain ⟨d, h1, h⟩ := bind_eq_ok.1 h
    obtain ⟨s, h2, h⟩ := bind_eq_ok.1 h
    obtain ⟨h3, h⟩ := unit_bind.1 h
    obtain ⟨h4, h⟩ := unit_bind.1 h
    obtain ⟨o, h5, h⟩ := bind_eq_ok.1 h
    obtain ⟨t, h6, h⟩ := bind_eq_ok.1 h
    obtain ⟨h7, h⟩ := unit_bind.1 h
    obtain ⟨st, h8, h⟩ := bind_eq_ok.1 h
    rw [h1, ok_bind, h2, ok_bind, h3, ok_bind, h4, ok_bind, h5, ok_bind, h6, ok_bind, h7, ok_bind, h8, ok_bind]
    have fin : ∀ {x : Res VolumeOpen.Opened}, x = (do
        let snapshots ← VolumeOpen.readSnapshots image k.size t s
        require (s.fsRoot ≠ 0)
        return { superblock := s, tree := t, snapshots := snapshots, state := st }) → x = ok v → v.superblock = s := by
      intro x hx h
      rw [hx] at h
      obtain ⟨ss, _, h⟩ := bind_eq_ok.1 h
      obtain ⟨_, h⟩ := unit_bind.1 h
      cases h
      rfl
    split at h
    · rename_i hc
      obtain ⟨h9, h⟩ := unit_bind.1 h
      refine ⟨h, fun _ _ => ?_⟩
      rw [fin rfl h]
      exact (ht _).1 h9
    · rename_i hc
      refine ⟨h, fun hm he => ?_⟩
      rw [fin rfl h] at he
      exact absurd ⟨hm, he⟩ hc
  · rintro ⟨h, he⟩
    obtain ⟨d, h1, h⟩ := bind_eq_ok.1 h
    obtain ⟨s, h2, h⟩ := bind_eq_ok.1 h
    obtain ⟨h3, h⟩ := unit_bind.1 h
    obtain ⟨h4, h⟩ := unit_bind.1 h
    obtain ⟨o, h5, h⟩ := bind_eq_ok.1 h
    obtain ⟨t, h6, h⟩ := bind_eq_ok.1 h
    obtain ⟨h7, h⟩ := unit_bind.1 h
    obtain ⟨st, h8, h⟩ := bind_eq_ok.1 h
    rw [h1, ok_bind, h2, ok_bind, h3, ok_bind, h4, ok_bind, h5, ok_bind, h6, ok_bind, h7, ok_bind, h8, ok_bind]
    have hs : v.superblock = s := by
      obtain ⟨ss, _, h⟩ := bind_eq_ok.1 h
      obtain ⟨_, h⟩ := unit_bind.1 h
      cases h
      rfl
    rw [hs] at he
    split
    · rename_i hc
      exact unit_bind.2 ⟨(ht _).2 (he hc.1 hc.2), h⟩
    · exact h

theorem safe_openVolume (m : Mode) {c : VolumeOpen.Cipher} (hc : c.Sized) (vector : Nat → Bool) (image : Image) (k : Container.Opened) (offset : Nat) :
    Safe (openVolume m c vector image k offset) := by
  unfold openVolume
  refine safe_bind (safe_readAt _ _ _) fun _ _ => safe_bind (VolumeOpen.safe_readSuperblock _ _) fun s _ => safe_bind safe_require fun _ _ => safe_bind safe_require fun _ _ =>
    safe_bind (safe_readAt _ _ _) fun _ _ => safe_bind (safe_readObjectMap _) fun t _ => safe_bind safe_require fun _ _ =>
    safe_bind (VolumeOpen.safe_stateOpen _ _ _ fun b n => VolumeOpen.safe_readVolumeKeyBag hc _ _ b n) fun st _ => ?_
  have rest : Safe (do
      let snapshots ← VolumeOpen.readSnapshots image k.size t s
      require (s.fsRoot ≠ 0)
      return ({ superblock := s, tree := t, snapshots := snapshots, state := st } : VolumeOpen.Opened)) :=
    safe_bind (VolumeOpen.safe_readSnapshots _ _ _ _) fun _ _ => safe_bind safe_require fun _ _ => safe_ok _
  split
  · exact safe_bind (safe_readTyped (by omega) _ _) fun _ _ => rest
  · exact rest

/-! ### Keys -/

/-- `x` is undefined or the same as `y` -/
def Refines {α : Type} (x y : Res α) : Prop := x = ub ∨ x = y

theorem refines_rfl {α : Type} {x : Res α} : Refines x x := Or.inr rfl

theorem refines_bind {α β : Type} {x : Res α} {f g : α → Res β} (h : ∀ a, x = ok a → Refines (f a) (g a)) : Refines (x >>= f) (x >>= g) := by
  cases x with
  | ok a => exact h a rfl
  | err => exact Or.inr rfl
  | ub => exact Or.inr rfl

theorem refines_print {β : Type} {d : Bytes} {off n : Nat} {f : Unit → Res β} {y : Res β} (h : Refines (f ()) y) : Refines (print d off n >>= f) y := by
  unfold print
  split
  · exact h
  · exact Or.inl rfl

open KeyBag

theorem refines_attrLoop {σ : Type} {mem : Bytes} {size : Nat} {inner : Bool} {f g : Nat → Nat → Nat → σ → Res σ} (h : ∀ t l o s, Refines (f t l o s) (g t l o s)) (off : Nat) (s : σ) :
    Refines (attrLoop mem size inner f off s) (attrLoop mem size inner g off s) := by
  fun_induction attrLoop mem size inner f off s with
  | case1 off s hlt hh =>
    rw [attrLoop.eq_def mem size inner g off s, if_pos hlt]
    split <;> simp_all [Refines]
  | case2 off s hlt t l o hh s' hs ih =>
    rw [attrLoop.eq_def mem size inner g off s, if_pos hlt]
    split
    · simp_all
    · rename_i t' l' o' e
      rw [hh] at e
      cases e
      rcases h t l o s with e | e
      · rw [hs] at e; cases e
      · rw [hs] at e
        rw [← e]
        exact ih
    · simp_all
    · simp_all
  | case3 off s hlt t l o hh hs =>
    rw [attrLoop.eq_def mem size inner g off s, if_pos hlt]
    split
    · simp_all
    · rename_i t' l' o' e
      rw [hh] at e
      cases e
      rcases h t l o s with e | e
      · rw [hs] at e; cases e
      · rw [hs] at e
        rw [← e]
        exact refines_rfl
    · simp_all
    · simp_all
  | case4 off s hlt t l o hh hs => exact Or.inl rfl
  | case5 off s hlt hh =>
    rw [attrLoop.eq_def mem size inner g off s, if_pos hlt]
    split <;> simp_all [Refines]
  | case6 off s hlt hh => exact Or.inl rfl
  | case7 off s hlt => rw [attrLoop.eq_def mem size inner g off s, if_neg hlt]; exact refines_rfl

theorem refines_readInner (mem : Bytes) (size : Nat) (k : Kek) : Refines (readInner mem size k) (KeyBag.readInner mem size k) := by
  unfold readInner KeyBag.readInner
  refine refines_bind fun _ _ => refines_bind fun x _ => ?_
  obtain ⟨len, off⟩ := x
  exact refines_print (refines_print (refines_bind fun _ _ => refines_bind fun _ _ => refines_attrLoop (fun t l o s => refines_print refines_rfl) _ _))

theorem refines_readKek (mem : Bytes) (size : Nat) : Refines (readKek mem size) (KeyBag.readKek mem size) := by
  unfold readKek KeyBag.readKek
  refine refines_bind fun _ _ => refines_bind fun _ _ => refines_bind fun x _ => ?_
  obtain ⟨len, off⟩ := x
  refine refines_print (refines_print (refines_bind fun _ _ => refines_bind fun _ _ => ?_))
  have h := refines_attrLoop (mem := mem) (size := size) (inner := false) (f := fun t l o s => do print mem o l; outerAttr mem t l o s) (g := outerAttr mem)
    (fun t l o s => refines_print refines_rfl) off (({} : Kek), none)
  rcases h with h | h
  · left; rw [h]; rfl
  · rw [h]
    refine refines_bind fun p _ => ?_
    obtain ⟨k, o⟩ := p
    cases o with
    | none => exact refines_rfl
    | some q => exact refines_readInner _ _ _

theorem readSize_le {mem : Bytes} {inner : Bool} {off l o : Nat} (h : readSize mem inner off = ok (l, o)) : o ≤ off + 3 ∧ l < 65536 := by
  unfold readSize at h
  obtain ⟨b, _, h⟩ := bind_eq_ok.1 h
  split at h
  · simp at h; omega
  · split at h
    · obtain ⟨v, _, h⟩ := bind_eq_ok.1 h
      have := v.toNat_lt
      simp at h; omega
    · split at h
      · obtain ⟨v, hv, h⟩ := bind_eq_ok.1 h
        have := rdLE_lt hv
        simp at h; omega
      · cases h

theorem safe_readInner {mem : Bytes} {size : Nat} {k : Kek} (h : size + 3 ≤ mem.length) (h4 : 65540 ≤ mem.length) : Safe (readInner mem size k) := by
  unfold readInner
  refine safe_bind (safe_rd (by omega)) fun _ _ => safe_bind (readSize_safe (by omega)) fun x hx => ?_
  obtain ⟨len, off⟩ := x
  have := readSize_le hx
  dsimp only
  rw [print_le (by omega), ok_bind, print_le (by omega), ok_bind]
  refine safe_bind safe_require fun _ _ => safe_bind safe_require fun _ _ => ?_
  refine (attrLoop_inv (fun _ => True) h (fun t l o s h1 h2 h3 _ => ⟨?_, fun _ _ => trivial⟩) _ _ trivial).1
  rw [print_le (by omega), ok_bind]
  exact innerAttr_safe (by omega)

theorem safe_readKek {mem : Bytes} {size : Nat} (h : size + 65540 ≤ mem.length) : Safe (readKek mem size) := by
  unfold readKek
  refine safe_bind safe_require fun _ g => ?_
  simp only [require_eq_ok] at g
  refine safe_bind (safe_rd (by omega)) fun _ _ => safe_bind (readSize_safe (by omega)) fun x hx => ?_
  obtain ⟨len, off⟩ := x
  have := readSize_le hx
  dsimp only
  rw [print_le (by omega), ok_bind, print_le (by omega), ok_bind]
  refine safe_bind safe_require fun _ _ => safe_bind safe_require fun _ _ => ?_
  have := attrLoop_inv (mem := mem) (inner := false) (f := fun t l o s => do print mem o l; outerAttr mem t l o s) (fun s => ∀ b z, s.2 = some (b, z) → b + z ≤ size ∧ b + 1 ≤ size) (size := size) (by omega) (by
    intro t l o s h1 h2 h3 hP
    rw [print_le (by omega), ok_bind]
    unfold outerAttr
    split
    · refine ⟨safe_bind safe_require fun _ g => safe_bind (safe_rdN (by simp only [require_eq_ok] at g; omega)) fun _ _ => safe_ok _, ?_⟩
      intro s' e
      obtain ⟨_, _, e⟩ := bind_eq_ok.1 e
      obtain ⟨_, _, e⟩ := bind_eq_ok.1 e
      cases e
      exact hP
    · split
      · refine ⟨safe_bind safe_require fun _ _ => safe_ok _, ?_⟩
        intro s' e
        obtain ⟨_, _, e⟩ := bind_eq_ok.1 e
        cases e
        exact hP
      · split
        · refine ⟨safe_bind safe_require fun _ _ => safe_ok _, ?_⟩
          intro s' e
          obtain ⟨_, _, e⟩ := bind_eq_ok.1 e
          cases e
          intro b z e
          simp only [Option.some.injEq, Prod.mk.injEq] at e
          omega
        · refine ⟨safe_ok _, ?_⟩
          intro s' e
          cases e
          exact hP) off (({} : Kek), none) (by simp)
  refine safe_bind this.1 fun y hy => ?_
  obtain ⟨k, o⟩ := y
  match o with
  | none => exact safe_err
  | some (b, z) =>
    have := this.2 _ hy b z rfl
    exact safe_readInner (by rw [List.length_drop]; omega) (by rw [List.length_drop]; omega)

/-- the object is printed before its size is compared -/
theorem readKek_overread {mem : Bytes} {size len off : Nat} (h2 : 2 ≤ size) (hl : size < 2 ^ 63) (hm : 0 < mem.length) (hs : readSize mem false 1 = ok (len, off))
    (h : mem.length < off + len) : readKek mem size = ub := by
  unfold readKek
  rw [require_true (by omega), ok_bind, rd_lt hm, ok_bind, hs, ok_bind]
  dsimp only
  have : print mem off len = ub := by unfold print; rw [if_neg (by omega)]
  rw [this]
  unfold print
  split <;> rfl

/-! ### Compressed files -/

open Compressed in
theorem getOffsets_iff {method : Nat} {stream : Bytes} {table : List Nat} :
    getOffsets method stream = ok table ↔
      Compressed.getOffsets method stream = ok table ∧ (method = methodDeflate → stream.take 4 ≠ [0x66, 0x70, 0x6d, 0x63] → FooterFits stream) := by
  have foot : ∀ offs : List Nat, ((do
      let off := beNat ((stream.drop 4).take 4)
      let size := beNat ((stream.drop 12).take 4)
      require (¬ size > bufferSize)
      let bs ← readInto stream 0 size off
      require (bs.length = size)
      return offs) = ok table ↔ offs = table ∧ FooterFits stream) := by
    intro offs
    unfold FooterFits slice
    dsimp only
    generalize beNat ((stream.drop 4).take 4) = off
    generalize beNat ((stream.drop 12).take 4) = size
    by_cases hs : size ≤ 65537
    · rw [require_true (by simp only [bufferSize, blockSize]; omega), ok_bind]
      have hl : ((stream.drop off).take size).length = min size (stream.length - off) := by rw [List.length_take, List.length_drop]
      unfold readInto
      rw [if_neg (by omega)]
      dsimp only
      rw [if_neg (by simp only [bufferSize, blockSize]; omega), ok_bind, hl]
      by_cases hf : size = 0 ∨ off + size ≤ stream.length
      · rw [require_true (by omega), ok_bind]
        simp [hs, hf]
      · rw [require_false (by omega)]
        simp [hf]
    · rw [require_false (by simp only [bufferSize, blockSize]; omega)]
      simp [hs]
  unfold getOffsets
  cases Compressed.getOffsets method stream with
  | err => simp
  | ub => simp
  | ok offs =>
    rw [ok_bind]
    split
    · rename_i hc
      rw [foot, ok.injEq]
      exact ⟨fun h => ⟨h.1, fun _ _ => h.2⟩, fun h => ⟨h.1, h.2 hc.1 hc.2⟩⟩
    · rename_i hc
      simp only [pure_eq, ok.injEq]
      exact ⟨fun h => ⟨h, fun h1 h2 => absurd ⟨h1, h2⟩ hc⟩, fun h => h.1⟩

open Compressed in
theorem getOffsets_ub {method : Nat} {stream : Bytes} : getOffsets method stream = ub ↔ Compressed.getOffsets method stream = ub := by
  unfold getOffsets
  cases Compressed.getOffsets method stream with
  | err => simp
  | ub => simp
  | ok offs =>
    simp only [ok_bind, reduceCtorEq, iff_false]
    show Safe _
    split
    · refine safe_bind safe_require fun _ hs => ?_
      simp only [require_eq_ok] at hs
      refine safe_bind ?_ fun _ _ => safe_bind safe_require fun _ _ => safe_ok _
      unfold readInto
      split
      · exact safe_err
      · dsimp only
        rw [if_neg (by rw [List.length_take]; omega)]
        exact safe_ok _
    · exact safe_ok _

end Debug
end Verif
