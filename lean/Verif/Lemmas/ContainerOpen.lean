import Verif.Lemmas.ContainerScan
import Verif.Lemmas.Crypto
import Verif.Props.C16
/-! Opening a container -/
namespace Verif
open Res Spec
namespace Container
open BTree Checksum

/-- the parts of a successful open -/
structure OpenParts (xts : Bytes → Bytes → Bytes → Bytes) (vector : Nat → Bool) (image : Image) (d0 : Bytes) (s : Scan) (m o : Bytes) (c : Opened) : Prop where
  first : image 0 = some d0
  accepted : Accepted d0
  fusion : Nx.incompatible d0 / 2 ^ 8 % 2 = 0
  scan : scanLoop image (2 ^ 31) 0 ((Nx.areaBlock d0 % 2 ^ 32) * 4096) { superblock := superblockOf d0 } = ok s
  mapBlock : s.mapBlock ≠ 0
  readsMap : readAt image (s.mapBlock * 4096 % 2 ^ 64) 4096 = ok m
  map : readMap m = ok c.map
  vector : vector (Nx.blocks d0 * 4096 % 2 ^ 64) = true
  objectMap : s.superblock.objectMap ≠ 0
  readsObjectMap : readAt image (s.superblock.objectMap * 4096 % 2 ^ 64) 88 = ok o
  tree : readObjectMap o = ok c.tree
  root : c.tree ≠ 0
  keyBag : readKeyBag xts image s.superblock = ok c.keyBag
  size : c.size = Nx.blocks d0 * 4096 % 2 ^ 64
  superblock : c.superblock = s.superblock
  mapBlock' : c.mapBlock = s.mapBlock

theorem openRead_iff {xts : Bytes → Bytes → Bytes → Bytes} {vector : Nat → Bool} {image : Image} (hb : Blocks image) {c : Opened} :
    openRead xts vector image = ok c ↔ ∃ d0 s m o, OpenParts xts vector image d0 s m o c := by
  constructor
  · intro h
    unfold openRead at h
    obtain ⟨r, hr, h⟩ := bind_eq_ok.1 h
    obtain ⟨d0, hd, rfl, hl, _⟩ := readAt_ok (b := 0) hr (by omega) (by omega)
    have hl4 : d0.length = 4096 := by have := hb _ _ hd; omega
    rw [List.take_of_length_le (by omega)] at h
    obtain ⟨sb, hsb, h⟩ := bind_eq_ok.1 h
    obtain ⟨ha, rfl⟩ := (readSuperblock_iff d0 hl4 sb).1 hsb
    have hbs : (superblockOf d0).blockSize = 4096 := ha.1.blockSize
    obtain ⟨_, h1, h⟩ := bind_eq_ok.1 h
    obtain ⟨s, h2, h⟩ := bind_eq_ok.1 h
    obtain ⟨_, h3, h⟩ := bind_eq_ok.1 h
    obtain ⟨m, h4, h⟩ := bind_eq_ok.1 h
    obtain ⟨es, h5, h⟩ := bind_eq_ok.1 h
    obtain ⟨_, h6, h⟩ := bind_eq_ok.1 h
    obtain ⟨_, h7, h⟩ := bind_eq_ok.1 h
    obtain ⟨o, h8, h⟩ := bind_eq_ok.1 h
    obtain ⟨t, h9, h⟩ := bind_eq_ok.1 h
    obtain ⟨_, h10, h⟩ := bind_eq_ok.1 h
    obtain ⟨k, h11, h⟩ := bind_eq_ok.1 h
    rw [hbs] at h2 h4 h6 h8 h
    have := Res.ok.inj h
    subst this
    exact ⟨d0, s, m, o, hd, ha, (require_eq_ok _).1 h1, h2, (require_eq_ok _).1 h3, h4, h5, (require_eq_ok _).1 h6, (require_eq_ok _).1 h7, h8, h9, (require_eq_ok _).1 h10,
      h11, rfl, rfl, rfl⟩
  · rintro ⟨d0, s, m, o, p⟩
    have hbs : (superblockOf d0).blockSize = 4096 := p.accepted.1.blockSize
    have hr : readAt image 0 4096 = ok d0 := by
      have := readAt_block (b := 0) (n := 4096) p.first p.accepted.1.size (by omega) (by omega) (by omega)
      rw [List.take_of_length_le (by rw [p.accepted.1.size]; omega)] at this
      exact this
    have e1 : (superblockOf d0).incompatible = Nx.incompatible d0 := rfl
    have e2 : (superblockOf d0).blocks = Nx.blocks d0 := rfl
    have e3 : (superblockOf d0).areaBlock = Nx.areaBlock d0 % 2 ^ 32 := rfl
    unfold openRead
    rw [hr, ok_bind, (readSuperblock_iff d0 p.accepted.1.size _).2 ⟨p.accepted, rfl⟩, ok_bind, hbs, e1, e2, e3, require_true p.fusion, ok_bind, p.scan, ok_bind,
      require_true p.mapBlock, ok_bind, p.readsMap, ok_bind, p.map, ok_bind, require_true p.vector, ok_bind, require_true p.objectMap, ok_bind, p.readsObjectMap, ok_bind,
      p.tree, ok_bind, require_true p.root, ok_bind, p.keyBag, ok_bind, pure_eq, ← p.size, ← p.superblock, ← p.mapBlock']

theorem scan_result {image : Image} (hb : Blocks image) {d0 : Bytes} {s : Scan} (ha : Accepted d0)
    (h : scanLoop image (2 ^ 31) 0 ((Nx.areaBlock d0 % 2 ^ 32) * 4096) { superblock := superblockOf d0 } = ok s) :
    ∃ n, ScanInv image (Nx.areaBlock d0 % 2 ^ 32) d0 n s ∧ s.superblock.areaBlocks < n ∧ n ≤ 2 ^ 31 :=
  scanLoop_inv hb ha (scanInv_start image _ d0) (by omega) h

theorem OpenParts.inv {xts : Bytes → Bytes → Bytes → Bytes} {vector : Nat → Bool} {image : Image} (hb : Blocks image) {d0 m o : Bytes} {s : Scan} {c : Opened}
    (p : OpenParts xts vector image d0 s m o c) : ∃ n, ScanInv image (Nx.areaBlock d0 % 2 ^ 32) d0 n s ∧ s.superblock.areaBlocks < n ∧ n ≤ 2 ^ 31 :=
  scan_result hb p.accepted p.scan

theorem safe_readObjectMap (d : Bytes) : Safe (readObjectMap d) := by
  unfold readObjectMap
  refine safe_bind safe_require fun _ h => ?_
  have h := (require_eq_ok _).1 h
  exact safe_bind (safe_rdLE (by omega)) fun _ _ => safe_bind safe_require fun _ _ => safe_bind (safe_rdLE (by omega)) fun _ _ => safe_bind safe_require fun _ _ =>
    safe_rdLE (by omega)

theorem safe_cryptLoop (xts : Bytes → Bytes → Bytes) (hx : ∀ t d, (xts t d).length = d.length) (input : Bytes) (bps : Nat) (hb : 0 < bps) (hi : input.length % bps = 0)
    (n sector off : Nat) (hn : input.length - off ≤ n) (ho : off % bps = 0) (out : Bytes) (hl : input.length ≤ out.length) :
    Safe (Crypto.cryptLoop xts input bps sector off out) := by
  induction n generalizing sector off out with
  | zero =>
    unfold Crypto.cryptLoop
    rw [if_neg (by omega)]
    exact safe_ok _
  | succ n ih =>
    unfold Crypto.cryptLoop
    split
    · rename_i hlt
      rw [dif_neg (by omega)]
      have hle : off + bps ≤ input.length := by
        have h1 := Nat.div_add_mod input.length bps
        have h2 := Nat.div_add_mod off bps
        rw [hi, Nat.add_zero] at h1
        rw [ho, Nat.add_zero] at h2
        have : off / bps < input.length / bps := by
          apply Nat.lt_of_mul_lt_mul_left (a := bps)
          omega
        have h3 := Nat.mul_le_mul_left bps this
        rw [Nat.mul_succ] at h3
        omega
      rw [rdN_le hle]
      simp only
      unfold wrN
      have hxl := hx (toLE 8 sector ++ List.replicate 8 0) ((input.drop off).take bps)
      have htl : ((input.drop off).take bps).length = bps := by rw [List.length_take, List.length_drop]; omega
      split
      · rename_i out' hw
        split at hw
        · refine ih _ _ (by omega) (by rw [Nat.add_mod, ho, Nat.mod_self]; simp) _ ?_
          rw [← Res.ok.inj hw]
          simp only [List.length_append, List.length_take, List.length_drop]
          omega
        · cases hw
      · rename_i r hr
        rw [if_pos (by omega)]
        exact safe_ok _
    · exact safe_ok _

theorem safe_crypt (xts : Bytes → Bytes → Bytes) (hx : ∀ t d, (xts t d).length = d.length) (input : Bytes) (sector bps : Nat) (hb : 0 < bps) (hi : input.length % bps = 0)
    (out : Bytes) : Safe (Crypto.crypt xts input sector bps out) := by
  unfold Crypto.crypt
  refine safe_bind safe_require fun _ _ => safe_bind safe_require fun _ _ => safe_bind safe_require fun _ h => ?_
  have h := (require_eq_ok _).1 h
  exact safe_cryptLoop xts hx input bps hb hi input.length sector 0 (by omega) (by simp) out (by omega)

theorem safe_readKeyBag (xts : Bytes → Bytes → Bytes → Bytes) (hx : ∀ k t d, (xts k t d).length = d.length) (image : Image) (s : Superblock) (hs : s.blockSize = 4096) :
    Safe (readKeyBag xts image s) := by
  unfold readKeyBag
  split
  · refine safe_bind safe_require fun _ _ => safe_bind (safe_readAt _ _ _) fun d hd => ?_
    have hl := readAt_length hd
    refine safe_bind (safe_crypt _ (hx _) _ _ 512 (by omega) ?_ _) fun _ _ => safe_bind (Props.c16_container_bag_safe _) fun _ _ => safe_ok _
    rw [hl, hs]
    omega
  · exact safe_ok _

end Container
end Verif
