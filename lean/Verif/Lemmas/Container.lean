import Verif.Model.Container
import Verif.Spec.Container
import Verif.Lemmas.BTree
import Verif.Props.C01
/-! Containers -/
namespace Verif
open Res Spec
namespace Container
open BTree Checksum

theorem readAt_block {image : Image} {b n : Nat} {d : Bytes} (h : image b = some d) (hl : d.length = 4096) (hn : n ≤ 4096) (h0 : 0 < n) (hb : b * 4096 < 2 ^ 63) :
    readAt image (b * 4096) n = ok (d.take n) := by
  unfold readAt
  rw [if_neg (by omega), Nat.mul_div_cancel _ (by omega), show (n + 4095) / 4096 = 1 by omega]
  simp only [blocksFrom, h, Option.pure_def, Option.bind_eq_bind, Option.bind_some, List.append_nil]
  rw [if_pos (by omega)]

theorem readAt_ok {image : Image} {b n : Nat} {r : Bytes} (h : readAt image (b * 4096) n = ok r) (hn : n ≤ 4096) (h0 : 0 < n) :
    ∃ d, image b = some d ∧ r = d.take n ∧ n ≤ d.length ∧ b * 4096 < 2 ^ 63 := by
  unfold readAt at h
  split at h
  · cases h
  · rw [Nat.mul_div_cancel _ (by omega), show (n + 4095) / 4096 = 1 by omega] at h
    simp only [blocksFrom] at h
    cases hi : image b with
    | none => rw [hi] at h; cases h
    | some d =>
      rw [hi] at h
      simp only [Option.pure_def, Option.bind_eq_bind, Option.bind_some, List.append_nil] at h
      split at h
      · exact ⟨d, rfl, (Res.ok.inj h).symm, by assumption, by omega⟩
      · cases h

theorem safe_readAt (image : Image) (off n : Nat) : Safe (readAt image off n) := by
  unfold readAt
  split
  · exact safe_err
  · split
    · exact safe_err
    · split
      · exact safe_ok _
      · exact safe_err

theorem readAt_length {image : Image} {off n : Nat} {d : Bytes} (h : readAt image off n = ok d) : d.length = n := by
  unfold readAt at h
  split at h
  · cases h
  · split at h
    · cases h
    · split at h
      · rw [← Res.ok.inj h, List.length_take]; omega
      · cases h

theorem readVolumes_eq (d : Bytes) (off n : Nat) (h : off + 8 * n ≤ d.length) :
    readVolumes d off n = ok ((List.range n).map (fun i => field d (off + 8 * i) 8)) := by
  induction n generalizing off with
  | zero => rfl
  | succ n ih =>
    unfold readVolumes
    rw [rdLE_field (by omega), ok_bind, ih (off + 8) (by omega), ok_bind, List.range_succ_eq_map]
    simp only [List.map_cons, List.map_map, pure_eq, Nat.mul_zero, Nat.add_zero]
    congr 2
    apply List.map_congr_left
    intro i _
    simp only [Function.comp]
    rw [show off + 8 + 8 * i = off + 8 * (i + 1) by omega]

/-- the fields of a superblock -/
def superblockOf (d : Bytes) : Superblock :=
  { transaction := objectXid d, blockSize := field d 36 4, blocks := Nx.blocks d, incompatible := Nx.incompatible d, identifier := slice d 72 16,
    areaBlocks := Nx.areaBlocks d, areaBlock := Nx.areaBlock d % 2 ^ 32, spaceManager := field d 152 8, objectMap := Nx.objectMap d, reaper := field d 168 8,
    fusionSet := slice d 1280 16, keyBagBlock := Nx.keyBagBlock d, keyBagBlocks := Nx.keyBagBlocks d,
    numberOfVolumes := (((List.range 100).map (Nx.volume d)).filter (· ≠ 0)).length, volumes := (List.range 100).map (Nx.volume d), fusionTree := field d 1352 8 }

theorem safe_checkObject (d : Bytes) (h : 8 ≤ d.length) : Safe (Checksum.checkObject d) := by
  unfold Checksum.checkObject
  refine safe_bind (safe_rdLE (by omega)) fun _ _ => safe_bind ?_ fun _ _ => safe_require
  unfold Checksum.fletcher64
  split
  · exact safe_err
  · rename_i h4
    refine safe_bind ?_ fun _ _ => safe_ok _
    rw [words_eq_leWords _ (by omega)]
    exact safe_ok _

theorem unit_bind {x : Res Unit} {α : Type} {k : Unit → Res α} {a : α} : (x >>= k) = ok a ↔ x = ok () ∧ k () = ok a := by
  cases x with
  | ok u => cases u; simp
  | err => simp
  | ub => simp

theorem require_unit {c : Prop} [Decidable c] : require c = ok () ↔ c := require_eq_ok _

theorem readSuperblock_iff (d : Bytes) (hl : d.length = 4096) (s : Superblock) :
    readSuperblock d = ok s ↔ (Nx.Valid d ∧ Nx.areaBlock d % 2 ^ 32 ≠ 0) ∧ s = superblockOf d := by
  have hc := (Props.c01_object_accept_iff d (by omega) (by omega) (by omega)).1
  have ha : Nx.areaBlocks d < 256 ^ 4 := field_lt (by omega)
  have hr : ∀ off n, off + n ≤ 4096 → rdLE d off n = ok (field d off n) := fun off n h => rdLE_field (by omega)
  have hn : ∀ off n, off + n ≤ 4096 → rdN d off n = ok (slice d off n) := fun off n h => rdN_slice (by omega)
  unfold readSuperblock
  rw [require_true (by omega), ok_bind, hr 16 8 (by omega), ok_bind, hr 24 4 (by omega), ok_bind, hr 28 4 (by omega), hn 32 4 (by omega), hr 36 4 (by omega),
    hr 40 8 (by omega), hr 64 8 (by omega), hn 72 16 (by omega), hr 152 8 (by omega), hr 160 8 (by omega), hr 168 8 (by omega), hr 180 4 (by omega),
    readVolumes_eq d 184 100 (by omega), hn 1280 16 (by omega), hr 1296 8 (by omega), hr 1304 8 (by omega), hr 104 4 (by omega), hr 112 8 (by omega),
    hr 1352 8 (by omega)]
  simp only [ok_bind, unit_bind, require_unit, hc]
  constructor
  · rintro ⟨h1, h2, h3, h4, h5, h6, h7, h8, h9, h10⟩
    refine ⟨⟨⟨hl, h4, h1, h2, h3, h6, h5, ?_, ?_, by omega⟩, h8⟩, (Res.ok.inj h10).symm⟩
    · show Nx.areaBlocks d < _
      have h7 : Nx.areaBlocks d / 2 ^ 31 % 2 = 0 := h7
      omega
    · intro h
      have h8 : Nx.areaBlock d % 2 ^ 32 ≠ 0 := h8
      rw [h] at h8
      exact h8 rfl
  · rintro ⟨⟨v, h8⟩, rfl⟩
    refine ⟨v.type, v.subtype, v.signature, v.checked, v.version, v.blockSize, ?_, h8, by have := v.volumes; omega, rfl⟩
    have : Nx.areaBlocks d < 2 ^ 31 := v.contiguous
    show Nx.areaBlocks d / 2 ^ 31 % 2 = 0
    omega

theorem safe_readVolumes (d : Bytes) (off n : Nat) (h : off + 8 * n ≤ d.length) : Safe (readVolumes d off n) := by
  rw [readVolumes_eq d off n h]
  exact safe_ok _

theorem safe_readSuperblock (d : Bytes) : Safe (readSuperblock d) := by
  unfold readSuperblock
  refine safe_bind safe_require fun _ h => ?_
  have h := (require_eq_ok _).1 h
  refine safe_bind (safe_rdLE (by omega)) fun _ _ => safe_bind (safe_rdLE (by omega)) fun _ _ => safe_bind safe_require fun _ _ =>
    safe_bind (safe_rdLE (by omega)) fun _ _ => safe_bind safe_require fun _ _ => safe_bind (safe_rdN (by omega)) fun _ _ => safe_bind safe_require fun _ _ =>
    safe_bind (safe_rdLE (by omega)) fun _ _ => safe_bind (safe_rdLE (by omega)) fun _ _ => safe_bind (safe_rdLE (by omega)) fun _ _ =>
    safe_bind (safe_rdN (by omega)) fun _ _ => safe_bind (safe_rdLE (by omega)) fun _ _ => safe_bind (safe_rdLE (by omega)) fun _ _ =>
    safe_bind (safe_rdLE (by omega)) fun _ _ => safe_bind (safe_rdLE (by omega)) fun _ _ => safe_bind (safe_readVolumes d 184 100 (by omega)) fun _ _ =>
    safe_bind (safe_rdN (by omega)) fun _ _ => safe_bind (safe_rdLE (by omega)) fun _ _ => safe_bind (safe_rdLE (by omega)) fun _ _ =>
    safe_bind (safe_rdLE (by omega)) fun _ _ => safe_bind (safe_rdLE (by omega)) fun _ _ => safe_bind (safe_rdLE (by omega)) fun _ _ =>
    safe_bind (safe_checkObject d (by omega)) fun _ _ => safe_bind safe_require fun _ _ => safe_bind safe_require fun _ _ => safe_bind safe_require fun _ _ =>
    safe_bind safe_require fun _ _ => safe_bind safe_require fun _ _ => safe_ok _

/-! checkpoint maps -/

theorem readMapEntries_eq (d : Bytes) (off n : Nat) (h : off + 40 * n ≤ d.length) (hl : d.length < 2 ^ 63) :
    readMapEntries d off n = ok ((List.range n).map (fun i => (field d (off + 40 * i + 24) 8, field d (off + 40 * i + 32) 8))) := by
  have hf : ∀ o k m, field (d.drop o) k m = field d (o + k) m := by
    intro o k m
    unfold field slice
    rw [List.drop_drop]
  induction n generalizing off with
  | zero => rfl
  | succ n ih =>
    unfold readMapEntries readMapEntry
    have hlen : (d.drop off).length = d.length - off := List.length_drop ..
    rw [if_pos (by omega), ok_bind, require_true (by omega), ok_bind, rdLE_field (by omega), ok_bind, rdLE_field (by omega), ok_bind, pure_eq, ok_bind, ih (off + 40) (by omega),
      ok_bind, List.range_succ_eq_map]
    simp only [List.map_cons, List.map_map, pure_eq, Nat.mul_zero, Nat.add_zero, hf]
    congr 2
    apply List.map_congr_left
    intro i _
    simp only [Function.comp]
    rw [show off + 40 + 40 * i = off + 40 * (i + 1) by omega]

theorem readMap_iff (d : Bytes) (hl : d.length = 4096) (m : List (Nat × Nat)) : readMap d = ok m ↔ ValidMap d ∧ m = mapEntries d := by
  have hc := (Props.c01_object_accept_iff d (by omega) (by omega) (by omega)).1
  unfold readMap
  rw [require_true (by omega), ok_bind, rdLE_field (by omega), ok_bind, rdLE_field (by omega), rdLE_field (by omega)]
  simp only [ok_bind, unit_bind, require_unit, hc]
  constructor
  · rintro ⟨h1, h2, h3, h4, h5⟩
    rw [readMapEntries_eq d 40 _ (by omega) (by omega)] at h5
    exact ⟨⟨hl, h3, h1, h2, by omega⟩, (Res.ok.inj h5).symm⟩
  · rintro ⟨v, rfl⟩
    have := v.entries
    refine ⟨v.type, v.subtype, v.checked, by omega, ?_⟩
    rw [readMapEntries_eq d 40 _ (by omega) (by omega)]
    rfl

theorem safe_readMapEntries (d : Bytes) (off n : Nat) (h : off ≤ d.length) : Safe (readMapEntries d off n) := by
  induction n generalizing off with
  | zero => exact safe_ok _
  | succ n ih =>
    unfold readMapEntries readMapEntry
    rw [if_pos h, ok_bind]
    refine safe_bind (safe_bind safe_require fun _ hr => ?_) fun e he => ?_
    · have hr := (require_eq_ok _).1 hr
      exact safe_bind (safe_rdLE (by omega)) fun _ _ => safe_bind (safe_rdLE (by omega)) fun _ _ => safe_ok _
    · obtain ⟨_, hr, _⟩ := bind_eq_ok.1 he
      have hr := (require_eq_ok _).1 hr
      have hlen : (d.drop off).length = d.length - off := List.length_drop ..
      exact safe_bind (ih (off + 40) (by omega)) fun _ _ => safe_ok _

theorem safe_readMap (d : Bytes) : Safe (readMap d) := by
  unfold readMap
  refine safe_bind safe_require fun _ h => ?_
  have h := (require_eq_ok _).1 h
  exact safe_bind (safe_rdLE (by omega)) fun _ _ => safe_bind safe_require fun _ _ => safe_bind (safe_rdLE (by omega)) fun _ _ => safe_bind safe_require fun _ _ =>
    safe_bind (safe_rdLE (by omega)) fun _ _ => safe_bind (safe_checkObject d (by omega)) fun _ _ => safe_bind safe_require fun _ _ => safe_readMapEntries d 40 _ (by omega)

end Container
end Verif
