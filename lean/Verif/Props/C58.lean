import Verif.Props.C50
import Verif.Props.C28
import Verif.Spec.Damage
/-!
# C58 Damage to the metadata of a container is noticed

The checksums of superblocks of the container and its volumes, of checkpoint maps and of the key bag of the container are verified: nothing that is reported comes from a damaged one.
Those of object maps, of the nodes of B-trees and of the key bags of volumes are not, see C58Limits.
-/
namespace Verif.Props
open Verif Res Container Spec

variable {xts : Bytes → Bytes → Bytes → Bytes} {vector : Nat → Bool} {image : Image}

theorem checked_iff {d : Bytes} (h8 : 8 ≤ d.length) (h4 : d.length % 4 = 0) (hl : d.length ≤ 4 * 92681 + 8) : Checksum.checkObject d = ok () ↔ Checked d :=
  (c01_object_accept_iff d h8 h4 hl).1

/-- The checksum of an object does not match after damage, whatever its content. -/
theorem c58_detects {d d' : Bytes} (h4 : d.length % 4 = 0) (hl : d.length ≤ 4 * 92681 + 8) (hc : Checked d) (hd : Damaged d d') : ¬ Checked d' := by
  intro hc'
  cases hd with
  | content chk pre mid mid' post h1 h2 h3 h5 h6 hne =>
    simp only [List.length_append] at h4 hl
    have := c01_detects_burst chk pre mid mid' post h1 h2 h3 h5 h6 (by omega) hne ((checked_iff (by simp only [List.length_append]; omega) (by simp only [List.length_append]; omega)
      (by simp only [List.length_append]; omega)).2 hc)
    rw [(checked_iff (by simp only [List.length_append]; omega) (by simp only [List.length_append]; omega) (by simp only [List.length_append]; omega)).2 hc'] at this
    cases this
  | checksum chk chk' rest h1 h2 hne =>
    obtain ⟨c1, c2, e, v⟩ := hc
    obtain ⟨e1, e2, e', v'⟩ := hc'
    rw [List.take_left' h1] at e
    rw [List.take_left' h2] at e'
    rw [List.drop_left' h1] at v
    rw [List.drop_left' h2] at v'
    obtain ⟨rfl, rfl⟩ := v.unique v'
    exact hne (e.trans e'.symm)

/-- Changing any one byte of an object is damage. -/
theorem c58_byte {d : Bytes} {i : Nat} {x : UInt8} (h16 : 16 ≤ d.length) (h4 : d.length % 4 = 0) (hi : i < d.length) (hx : d[i] ≠ x) : Damaged d (d.set i x) := by
  by_cases h8 : i < 8
  · have e : d = d.take 8 ++ d.drop 8 := (List.take_append_drop 8 d).symm
    have e' : d.set i x = (d.take 8).set i x ++ d.drop 8 := by
      conv => lhs; rw [e]
      rw [List.set_append_left _ _ (by rw [List.length_take]; omega)]
    rw [e']
    conv => lhs; rw [e]
    refine .checksum _ _ _ (by rw [List.length_take]; omega) (by rw [List.length_set, List.length_take]; omega) fun h => hx ?_
    have h1 : (d.take 8)[i]? = ((d.take 8).set i x)[i]? := by rw [← h]
    rw [List.getElem?_set_self (by rw [List.length_take]; omega), List.getElem?_take_of_lt h8, List.getElem?_eq_getElem hi] at h1
    exact Option.some.inj h1
  · -- the word of the byte, and the word after it or the one before the last
    have hp : ∃ p, 8 ≤ p ∧ p % 4 = 0 ∧ p ≤ i ∧ i < p + 8 ∧ p + 8 ≤ d.length := by
      by_cases h : i + 8 ≤ d.length
      · exact ⟨i / 4 * 4, by omega, by omega, by omega, by omega, by omega⟩
      · exact ⟨d.length - 8, by omega, by omega, by omega, by omega, by omega⟩
    obtain ⟨p, p1, p2, p3, p5, p6⟩ := hp
    have e1 : d = d.take p ++ ((d.drop p).take 8 ++ d.drop (p + 8)) := by
      rw [← List.drop_drop, List.take_append_drop, List.take_append_drop]
    have e2 : d.take p = d.take 8 ++ (d.drop 8).take (p - 8) := by
      have := (List.take_append_drop 8 (d.take p)).symm
      rw [List.take_take, Nat.min_eq_left p1, List.drop_take] at this
      exact this
    have hm : ((d.drop p).take 8).length = 8 := by rw [List.length_take, List.length_drop]; omega
    have hat : ((d.drop p).take 8)[i - p]? = some d[i] := by
      rw [List.getElem?_take_of_lt (by omega), List.getElem?_drop, show p + (i - p) = i by omega, List.getElem?_eq_getElem hi]
    have e3 : d.set i x = d.take p ++ (((d.drop p).take 8).set (i - p) x ++ d.drop (p + 8)) := by
      conv => lhs; rw [e1]
      rw [List.set_append_right _ _ (by rw [List.length_take]; omega), List.set_append_left _ _ (by rw [hm, List.length_take]; omega), List.length_take, Nat.min_eq_left (by omega)]
    rw [e3]
    conv => lhs; rw [e1]
    rw [e2]
    generalize (d.drop p).take 8 = mid at hm hat ⊢
    have hmod : (d.drop (p + 8)).length % 4 = 0 := by rw [List.length_drop]; omega
    have hpre : ((d.drop 8).take (p - 8)).length % 4 = 0 := by rw [List.length_take, List.length_drop]; omega
    have hchk : (d.take 8).length = 8 := by rw [List.length_take]; omega
    have hk : i - p < 8 := by omega
    generalize i - p = k at hk hat ⊢
    generalize d[i] = y at hat hx
    simp only [List.append_assoc]
    rw [← List.append_assoc ((d.drop 8).take (p - 8)), ← List.append_assoc ((d.drop 8).take (p - 8))]
    refine .content _ _ _ _ _ hchk hpre hm (by rw [List.length_set]; exact hm) hmod ?_
    have hy := y.toNat_lt
    have hxlt := x.toNat_lt
    have hxy : y.toNat ≠ x.toNat := fun h => hx (UInt8.toNat_inj.1 h)
    match mid, hm with
    | [a0, a1, a2, a3, a4, a5, a6, a7], _ =>
      have b0 := a0.toNat_lt; have b1 := a1.toNat_lt; have b2 := a2.toNat_lt; have b3 := a3.toNat_lt
      have b4 := a4.toNat_lt; have b5 := a5.toNat_lt; have b6 := a6.toNat_lt; have b7 := a7.toNat_lt
      match k, hk with
      | 0, _ | 1, _ | 2, _ | 3, _ | 4, _ | 5, _ | 6, _ | 7, _ =>
        simp only [List.getElem?_cons_zero, List.getElem?_cons_succ, Option.some.injEq] at hat
        subst hat
        simp only [List.set_cons_zero, List.set_cons_succ, leWords, List.map_cons, List.map_nil, ne_eq, List.cons.injEq, and_true]
        omega

/-- the first byte of the second word is changed -/
example : Damaged ([0xf8, 0xff, 0xff, 0xff, 4, 0, 0, 0, 1, 0, 0, 0, 2, 0, 0, 0] : Bytes) [0xf8, 0xff, 0xff, 0xff, 4, 0, 0, 0, 1, 0, 0, 0, 3, 0, 0, 0] :=
  c58_byte (i := 12) (x := 3) (by decide) (by decide) (by decide) (by decide)

/-- the result of damage to an object of 4096 bytes is not an object with a checksum that matches -/
theorem not_damaged {e d : Bytes} (hl : d.length = 4096) (hd : Checked d) (he : Checked e) : ¬ Damaged e d := by
  intro h
  have hle : e.length = d.length := by
    cases h <;> simp only [List.length_append] <;> omega
  exact c58_detects (by omega) (by omega) he h hd

/-- When a container opens, then neither block 0, nor the superblock that is used, nor the checkpoint map that is used is the result of damage to an object whose checksum matched; nor is any
superblock in the checkpoint descriptor area. Missing: the object map, see C58Limits. -/
theorem c58_container_partial (hb : Blocks image) {c : Opened} (h : openRead xts vector image = ok c) : ∃ d0 d m, image 0 = some d0 ∧ c.superblock = superblockOf d ∧
    (d = d0 ∨ ∃ j, image (Nx.areaBlock d0 % 2 ^ 32 + j) = some d) ∧ image (c.mapBlock % 2 ^ 52) = some m ∧ c.map = mapEntries m ∧
    ∀ e, Checked e → ¬ Damaged e d0 ∧ ¬ Damaged e d ∧ ¬ Damaged e m ∧
      ∀ j ≤ Nx.areaBlocks d, ∀ t, image (Nx.areaBlock d0 % 2 ^ 32 + j) = some t → objectType t = superblockType → ¬ Damaged e t := by
  obtain ⟨d0, d, h1, h2, h3, h4, h5, _, h6⟩ := c27_newest_superblock hb h
  obtain ⟨d0', s, m, o, p⟩ := (openRead_iff hb).1 h
  have hr := p.readsMap
  rw [← p.mapBlock', show c.mapBlock * 4096 % 2 ^ 64 = (c.mapBlock % 2 ^ 52) * 4096 by omega] at hr
  obtain ⟨m', hm', e, hl, _⟩ := readAt_ok hr (by omega) (by omega)
  have : m = m' := by rw [e, List.take_of_length_le (hb _ _ hm')]
  subst this
  have hl4 : m.length = 4096 := readAt_length hr
  obtain ⟨hv, hen⟩ := (readMap_iff m hl4 _).1 p.map
  refine ⟨d0, d, m, h1, h4, h5, hm', hen, fun e he => ⟨not_damaged h2.size h2.checked he, not_damaged h3.size h3.checked he, not_damaged hv.size hv.checked he, fun j hj t ht htt => ?_⟩⟩
  have := (h6 j hj t ht htt).1
  exact not_damaged this.size this.checked he

/-- A container does not open after damage to block 0, whatever else is stored. -/
theorem c58_block0 (hx : ∀ k t d, (xts k t d).length = d.length) (hb : Blocks image) {d0 e : Bytes} (h0 : image 0 = some d0) (he : Checked e) (hd : Damaged e d0) :
    openRead xts vector image = err := by
  cases h : openRead xts vector image with
  | err => rfl
  | ub => exact absurd h (c46_open_safe xts hx vector image hb)
  | ok c =>
    obtain ⟨d0', _, _, h1, _, _, _, _, hno⟩ := c58_container_partial hb h
    cases h1.symm.trans h0
    exact absurd hd (hno e he).1

/-- A key bag that is used for a container is not the result of damage before its encryption: what the blocks decrypt to has a checksum that matches. -/
theorem c58_key_bag_partial (hb : Blocks image) {c : Opened} (h : openRead xts vector image = ok c) {es : List KeyBag.Entry} (hk : c.keyBag = some (some es)) :
    ∃ stored data, readAt image (c.superblock.keyBagBlock * 4096 % 2 ^ 64) (c.superblock.keyBagBlocks * 4096 % 2 ^ 64) = ok stored ∧
      Crypto.crypt (xts c.superblock.identifier) stored (c.superblock.keyBagBlock * 4096 % 2 ^ 64 / 512) 512 (List.replicate (c.superblock.keyBagBlocks * 4096 % 2 ^ 64) 0) = ok data ∧
      KeyBag.readBag data = ok es ∧ (data.length % 4 = 0 → data.length ≤ 4 * 92681 + 8 → ∀ e, Checked e → ¬ Damaged e data) := by
  obtain ⟨d0, s, m, o, p⟩ := (openRead_iff hb).1 h
  obtain ⟨n, v, hn, hle⟩ := p.inv hb
  obtain ⟨d, hd, ha, hs⟩ := v.inUse p.accepted
  have hbs : c.superblock.blockSize = 4096 := by rw [p.superblock, hs]; exact ha.1.blockSize
  have hr := p.keyBag
  rw [← p.superblock, hk] at hr
  unfold readKeyBag at hr
  rw [hbs] at hr
  split at hr
  · obtain ⟨_, h1, hr⟩ := bind_eq_ok.1 hr
    obtain ⟨st, h2, hr⟩ := bind_eq_ok.1 hr
    obtain ⟨data, h3, hr⟩ := bind_eq_ok.1 hr
    obtain ⟨bag, h4, hr⟩ := bind_eq_ok.1 hr
    have : bag = some es := Option.some.inj (Res.ok.inj hr)
    subst this
    refine ⟨st, data, h2, h3, ?_⟩
    unfold KeyBag.readContainerBag at h4
    obtain ⟨_, g1, h4⟩ := bind_eq_ok.1 h4
    have g1 := (require_eq_ok _).1 g1
    obtain ⟨ty, g2, h4⟩ := bind_eq_ok.1 h4
    split at h4
    · cases h4
    · obtain ⟨sub, g3, h4⟩ := bind_eq_ok.1 h4
      obtain ⟨_, g4, h4⟩ := bind_eq_ok.1 h4
      obtain ⟨_, g5, h4⟩ := bind_eq_ok.1 h4
      obtain ⟨es', g6, h4⟩ := bind_eq_ok.1 h4
      have : es' = es := Option.some.inj (Res.ok.inj h4)
      subst this
      refine ⟨g6, fun hm hl e he hdam => ?_⟩
      have hle : e.length = data.length := by
        cases hdam <;> simp only [List.length_append] <;> omega
      exact c58_detects (by omega) (by omega) he hdam ((checked_iff (by omega) hm hl).1 g5)
  · cases hr

/-- When a volume opens, the superblock that its metadata comes from is not the result of damage to an object whose checksum matched. Missing: the object map of the volume and its trees,
see C58Limits. -/
theorem c58_volume_partial (hb : Blocks image) {c : VolumeOpen.Cipher} {k : Opened} {i : Int} {v : VolumeOpen.Opened} (hs : k.superblock.blockSize = 4096)
    (h : VolumeOpen.volumeByIndex c vector image k i = ok v) : ∃ b d, image b = some d ∧ Reports v d ∧ ∀ e, Checked e → ¬ Damaged e d := by
  unfold VolumeOpen.volumeByIndex at h
  obtain ⟨off, h1, h⟩ := bind_eq_ok.1 h
  obtain ⟨d, o, p⟩ := VolumeOpen.openRead_iff.1 h
  have hoff : ∃ b, off = b * 4096 := by
    unfold volumeOffset at h1
    obtain ⟨_, _, h1⟩ := bind_eq_ok.1 h1
    obtain ⟨_, _, h1⟩ := bind_eq_ok.1 h1
    obtain ⟨r, _, h1⟩ := bind_eq_ok.1 h1
    cases r with
    | none => cases h1
    | some r =>
      refine ⟨r.physical % 2 ^ 52, ?_⟩
      rw [← Res.ok.inj h1, hs]
      omega
  obtain ⟨b, rfl⟩ := hoff
  obtain ⟨d', hd', e, hl, _⟩ := readAt_ok p.reads (by omega) (by omega)
  have : d = d' := by rw [e, List.take_of_length_le (hb _ _ hd')]
  subst this
  exact ⟨b, d, hd', reports_of p.valid p.superblock, fun e he => not_damaged p.valid.size p.valid.checked he⟩

end Verif.Props
