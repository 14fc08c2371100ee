import Verif.Lemmas.Container
/-! The loop over the checkpoint descriptor area -/
namespace Verif
open Res Spec
namespace Container
open BTree Checksum

theorem field_take (d : Bytes) (m off n : Nat) (h : off + n ≤ m) : field (d.take m) off n = field d off n := by
  unfold field slice
  rw [List.drop_take, List.take_take, Nat.min_eq_left (by omega)]

theorem readObject_take {d : Bytes} (h : 32 ≤ d.length) : readObject (d.take 32) = ok (objectXid d, objectType d) := by
  have hl : (d.take 32).length = 32 := by rw [List.length_take]; omega
  unfold readObject
  rw [require_true (by omega), ok_bind, rdLE_field (by omega), ok_bind, rdLE_field (by omega), ok_bind, field_take d 32 16 8 (by omega), field_take d 32 24 4 (by omega)]
  rfl

theorem safe_readObject (d : Bytes) : Safe (readObject d) := by
  unfold readObject
  refine safe_bind safe_require fun _ h => ?_
  have h := (require_eq_ok _).1 h
  exact safe_bind (safe_rdLE (by omega)) fun _ _ => safe_bind (safe_rdLE (by omega)) fun _ _ => safe_ok _

theorem safe_scanBlock (image : Image) (index offset : Nat) (s : Scan) : Safe (scanBlock image index offset s) := by
  unfold scanBlock
  refine safe_bind (safe_readAt _ _ _) fun _ _ => safe_bind (safe_readObject _) fun p _ => ?_
  split
  split
  · split <;> exact safe_ok _
  · split
    · refine safe_bind (safe_readAt _ _ _) fun _ _ => safe_bind (safe_readSuperblock _) fun _ _ => ?_
      split <;> exact safe_ok _
    · exact safe_ok _

theorem safe_scanLoop (image : Image) (fuel index offset : Nat) (s : Scan) : Safe (scanLoop image fuel index offset s) := by
  induction fuel generalizing index offset s with
  | zero => exact safe_ok _
  | succ fuel ih =>
    unfold scanLoop
    split
    · exact safe_bind (safe_scanBlock _ _ _ _) fun _ _ => ih _ _ _
    · exact safe_ok _

/-- blocks are not larger than 4096 bytes -/
def Blocks (image : Image) : Prop := ∀ b d, image b = some d → d.length ≤ 4096

/-- a superblock that is accepted -/
def Accepted (d : Bytes) : Prop := Nx.Valid d ∧ Nx.areaBlock d % 2 ^ 32 ≠ 0

/-- one step, from the contents of the block -/
theorem scanBlock_ok {image : Image} (hb : Blocks image) {index b : Nat} {s s' : Scan} (h : scanBlock image index (b * 4096) s = ok s') :
    ∃ d, image b = some d ∧ 32 ≤ d.length ∧ (objectType d = superblockType → Accepted d) ∧
      s' = (if objectType d = mapType then
              if objectXid d > s.mapTransaction then { s with mapBlock := (s.superblock.areaBlock + index) % 2 ^ 64, mapTransaction := objectXid d } else s
            else if objectType d = superblockType then
              if objectXid d > s.superblock.transaction then { s with superblock := superblockOf d } else s
            else s) := by
  unfold scanBlock at h
  obtain ⟨r, hr, h⟩ := bind_eq_ok.1 h
  obtain ⟨d, hd, rfl, hl, hlt⟩ := readAt_ok hr (by omega) (by omega)
  rw [readObject_take hl, ok_bind] at h
  refine ⟨d, hd, hl, ?_⟩
  dsimp only at h
  by_cases h1 : objectType d = mapType
  · have : objectType d ≠ superblockType := by rw [h1]; decide
    rw [if_pos (show objectType d = 0x4000000c from h1)] at h
    rw [if_pos h1]
    refine ⟨fun h => absurd h this, ?_⟩
    split at h <;> rename_i h2
    · rw [if_pos h2]; exact (Res.ok.inj h).symm
    · rw [if_neg h2]; exact (Res.ok.inj h).symm
  · rw [if_neg (show ¬ objectType d = 0x4000000c from h1)] at h
    rw [if_neg h1]
    by_cases h2 : objectType d = superblockType
    · rw [if_pos (show objectType d = 0x80000001 from h2)] at h
      rw [if_pos h2]
      obtain ⟨r, hr, h⟩ := bind_eq_ok.1 h
      obtain ⟨d', hd', rfl, hl', _⟩ := readAt_ok hr (by omega) (by omega)
      have : d' = d := Option.some.inj (hd'.symm.trans hd)
      subst this
      have hl4 : d'.length = 4096 := by have := hb _ _ hd; omega
      rw [List.take_of_length_le (by omega)] at h
      obtain ⟨sb, hsb, h⟩ := bind_eq_ok.1 h
      obtain ⟨ha, rfl⟩ := (readSuperblock_iff d' hl4 sb).1 hsb
      refine ⟨fun _ => ha, ?_⟩
      have e : (superblockOf d').transaction = objectXid d' := rfl
      rw [e] at h
      split at h <;> rename_i h3
      · rw [if_pos h3]; exact (Res.ok.inj h).symm
      · rw [if_neg h3]; exact (Res.ok.inj h).symm
    · rw [if_neg (show ¬ objectType d = 0x80000001 from h2)] at h
      rw [if_neg h2]
      exact ⟨fun h => absurd h h2, (Res.ok.inj h).symm⟩

theorem scanBlock_eq {image : Image} {index b : Nat} (s : Scan) {d : Bytes} (hd : image b = some d) (hl : d.length = 4096) (hlt : b * 4096 < 2 ^ 63)
    (ha : objectType d = superblockType → Accepted d) : ∃ s', scanBlock image index (b * 4096) s = ok s' := by
  unfold scanBlock
  rw [readAt_block hd hl (by omega) (by omega) hlt, ok_bind, readObject_take (by omega), ok_bind]
  dsimp only
  by_cases h1 : objectType d = 0x4000000c
  · rw [if_pos h1]
    split <;> exact ⟨_, rfl⟩
  · rw [if_neg h1]
    by_cases h2 : objectType d = 0x80000001
    · rw [if_pos h2, readAt_block hd hl (by omega) (by omega) hlt, ok_bind, List.take_of_length_le (by omega),
        (readSuperblock_iff d hl _).2 ⟨ha h2, rfl⟩, ok_bind]
      split <;> exact ⟨_, rfl⟩
    · rw [if_neg h2]
      exact ⟨_, rfl⟩

/-- what is known after `k` blocks of the area that starts with block `base` -/
structure ScanInv (image : Image) (base : Nat) (d0 : Bytes) (k : Nat) (s : Scan) : Prop where
  readable : ∀ j < k, ∃ d, image (base + j) = some d ∧ 32 ≤ d.length
  accepted : ∀ j < k, ∀ d, image (base + j) = some d → objectType d = superblockType → Accepted d
  source : s.superblock = superblockOf d0 ∨
    ∃ j < k, ∃ d, image (base + j) = some d ∧ objectType d = superblockType ∧ s.superblock = superblockOf d ∧ objectXid d0 < objectXid d ∧
      ∀ i < j, ∀ e, image (base + i) = some e → objectType e = superblockType → objectXid e < objectXid d
  greatest : objectXid d0 ≤ s.superblock.transaction ∧ ∀ j < k, ∀ d, image (base + j) = some d → objectType d = superblockType → objectXid d ≤ s.superblock.transaction
  map : (s.mapTransaction = 0 ∧ s.mapBlock = 0) ∨
    ∃ j < k, ∃ d, image (base + j) = some d ∧ objectType d = mapType ∧ s.mapTransaction = objectXid d ∧ 0 < objectXid d ∧
      (∀ i < j, ∀ e, image (base + i) = some e → objectType e = mapType → objectXid e < objectXid d) ∧
      ∃ e, (e = d0 ∨ ∃ i < j, image (base + i) = some e ∧ objectType e = superblockType) ∧ s.mapBlock = (Nx.areaBlock e % 2 ^ 32 + j) % 2 ^ 64
  maps : ∀ j < k, ∀ d, image (base + j) = some d → objectType d = mapType → objectXid d ≤ s.mapTransaction

theorem scanInv_start (image : Image) (base : Nat) (d0 : Bytes) : ScanInv image base d0 0 { superblock := superblockOf d0 } where
  readable := by intro j hj; omega
  accepted := by intro j hj; omega
  source := Or.inl rfl
  greatest := ⟨Nat.le_refl _, by intro j hj; omega⟩
  map := Or.inl ⟨rfl, rfl⟩
  maps := by intro j hj; omega

theorem scanInv_step {image : Image} (hb : Blocks image) {base : Nat} {d0 : Bytes} {k : Nat} {s s' : Scan} (v : ScanInv image base d0 k s)
    (h : scanBlock image k ((base + k) * 4096) s = ok s') : ScanInv image base d0 (k + 1) s' := by
  obtain ⟨d, hd, hl, ha, rfl⟩ := scanBlock_ok hb h
  have split : ∀ {P : Nat → Prop}, (∀ j < k, P j) → P k → ∀ j < k + 1, P j := by
    intro P h1 h2 j hj
    by_cases e : j = k
    · rw [e]; exact h2
    · exact h1 j (by omega)
  have at_k : ∀ {P : Bytes → Prop}, P d → ∀ e, image (base + k) = some e → P e := by
    intro P hp e he
    rw [← Option.some.inj (hd.symm.trans he)]
    exact hp
  have hread := split (P := fun j => ∃ d, image (base + j) = some d ∧ 32 ≤ d.length) v.readable ⟨d, hd, hl⟩
  have hacc := split (P := fun j => ∀ d, image (base + j) = some d → objectType d = superblockType → Accepted d) v.accepted
    (at_k (P := fun d => objectType d = superblockType → Accepted d) ha)
  -- the parts when the superblock or the map stay
  have src : s.superblock = superblockOf d0 ∨
    ∃ j < k + 1, ∃ d, image (base + j) = some d ∧ objectType d = superblockType ∧ s.superblock = superblockOf d ∧ objectXid d0 < objectXid d ∧
      ∀ i < j, ∀ e, image (base + i) = some e → objectType e = superblockType → objectXid e < objectXid d := by
    rcases v.source with h | ⟨j, hj, r⟩
    · exact Or.inl h
    · exact Or.inr ⟨j, by omega, r⟩
  have grt : (objectType d = superblockType → objectXid d ≤ s.superblock.transaction) → ∀ j < k + 1, ∀ d, image (base + j) = some d → objectType d = superblockType →
      objectXid d ≤ s.superblock.transaction := fun h => split (P := fun j => ∀ d, image (base + j) = some d → objectType d = superblockType → objectXid d ≤ s.superblock.transaction)
      v.greatest.2 (at_k (P := fun d => objectType d = superblockType → objectXid d ≤ s.superblock.transaction) h)
  have mp : (s.mapTransaction = 0 ∧ s.mapBlock = 0) ∨
    ∃ j < k + 1, ∃ d, image (base + j) = some d ∧ objectType d = mapType ∧ s.mapTransaction = objectXid d ∧ 0 < objectXid d ∧
      (∀ i < j, ∀ e, image (base + i) = some e → objectType e = mapType → objectXid e < objectXid d) ∧
      ∃ e, (e = d0 ∨ ∃ i < j, image (base + i) = some e ∧ objectType e = superblockType) ∧ s.mapBlock = (Nx.areaBlock e % 2 ^ 32 + j) % 2 ^ 64 := by
    rcases v.map with h | ⟨j, hj, r⟩
    · exact Or.inl h
    · exact Or.inr ⟨j, by omega, r⟩
  have mps : (objectType d = mapType → objectXid d ≤ s.mapTransaction) → ∀ j < k + 1, ∀ d, image (base + j) = some d → objectType d = mapType →
      objectXid d ≤ s.mapTransaction := fun h => split (P := fun j => ∀ d, image (base + j) = some d → objectType d = mapType → objectXid d ≤ s.mapTransaction)
      v.maps (at_k (P := fun d => objectType d = mapType → objectXid d ≤ s.mapTransaction) h)
  by_cases h1 : objectType d = mapType
  · have h2 : objectType d ≠ superblockType := by rw [h1]; decide
    rw [if_pos h1]
    by_cases h3 : objectXid d > s.mapTransaction
    · rw [if_pos h3]
      refine ⟨hread, hacc, src, ⟨v.greatest.1, grt (fun h => absurd h h2)⟩, ?_, ?_⟩
      · refine Or.inr ⟨k, by omega, d, hd, h1, rfl, by omega, ?_, ?_⟩
        · intro i hi e he ht
          have := v.maps i hi e he ht
          omega
        · rcases v.source with h | ⟨j, hj, e, he, ht, hs, _⟩
          · exact ⟨d0, Or.inl rfl, by rw [h]; rfl⟩
          · exact ⟨e, Or.inr ⟨j, hj, he, ht⟩, by rw [hs]; rfl⟩
      · refine split ?_ (at_k (P := fun e => objectType e = mapType → objectXid e ≤ objectXid d) (fun _ => Nat.le_refl _))
        intro j hj e he ht
        have := v.maps j hj e he ht
        show objectXid e ≤ objectXid d
        omega
    · rw [if_neg h3]
      exact ⟨hread, hacc, src, ⟨v.greatest.1, grt (fun h => absurd h h2)⟩, mp, mps (fun _ => by omega)⟩
  · rw [if_neg h1]
    by_cases h2 : objectType d = superblockType
    · rw [if_pos h2]
      by_cases h3 : objectXid d > s.superblock.transaction
      · rw [if_pos h3]
        have h0 := v.greatest.1
        refine ⟨hread, hacc, Or.inr ⟨k, by omega, d, hd, h2, rfl, by omega, ?_⟩, ⟨?_, ?_⟩, mp, mps (fun h => absurd h h1)⟩
        · intro i hi e he ht
          have := v.greatest.2 i hi e he ht
          omega
        · show objectXid d0 ≤ objectXid d
          omega
        · refine split ?_ (at_k (P := fun e => objectType e = superblockType → objectXid e ≤ objectXid d) (fun _ => Nat.le_refl _))
          intro j hj e he ht
          have := v.greatest.2 j hj e he ht
          show objectXid e ≤ objectXid d
          omega
      · rw [if_neg h3]
        exact ⟨hread, hacc, src, ⟨v.greatest.1, grt (fun _ => by omega)⟩, mp, mps (fun h => absurd h h1)⟩
    · rw [if_neg h2]
      exact ⟨hread, hacc, src, ⟨v.greatest.1, grt (fun h => absurd h h2)⟩, mp, mps (fun h => absurd h h1)⟩

/-- the superblock in use is accepted -/
theorem ScanInv.inUse {image : Image} {base : Nat} {d0 : Bytes} {k : Nat} {s : Scan} (v : ScanInv image base d0 k s) (h0 : Accepted d0) :
    ∃ d, (d = d0 ∨ ∃ j < k, image (base + j) = some d ∧ objectType d = superblockType) ∧ Accepted d ∧ s.superblock = superblockOf d := by
  rcases v.source with h | ⟨j, hj, d, hd, ht, hs, _⟩
  · exact ⟨d0, Or.inl rfl, h0, h⟩
  · exact ⟨d, Or.inr ⟨j, hj, hd, ht⟩, v.accepted j hj d hd ht, hs⟩

theorem scanLoop_inv {image : Image} (hb : Blocks image) {base : Nat} {d0 : Bytes} (h0 : Accepted d0) {fuel k : Nat} {s s' : Scan} (v : ScanInv image base d0 k s)
    (hf : fuel + k = 2 ^ 31) (h : scanLoop image fuel k ((base + k) * 4096) s = ok s') : ∃ n, ScanInv image base d0 n s' ∧ s'.superblock.areaBlocks < n ∧ n ≤ 2 ^ 31 := by
  induction fuel generalizing k s with
  | zero =>
    obtain ⟨d, _, ha, hs⟩ := v.inUse h0
    have : s = s' := Res.ok.inj h
    subst this
    refine ⟨k, v, ?_, by omega⟩
    rw [hs]
    have := ha.1.contiguous
    show Nx.areaBlocks d < k
    omega
  | succ fuel ih =>
    unfold scanLoop at h
    split at h
    · obtain ⟨s1, h1, h⟩ := bind_eq_ok.1 h
      refine ih (k := k + 1) (scanInv_step hb v h1) (by omega) ?_
      rw [show (base + (k + 1)) * 4096 = (base + k) * 4096 + 4096 by omega]
      exact h
    · have : s = s' := Res.ok.inj h
      subst this
      exact ⟨k, v, by omega, by omega⟩

/-- all superblocks tell the same number of blocks -/
theorem scanLoop_agree {image : Image} (hb : Blocks image) {base n : Nat} {d0 : Bytes} (h0 : Accepted d0) {fuel k : Nat} {s s' : Scan} (v : ScanInv image base d0 k s)
    (hf : fuel + k = 2 ^ 31) (hk : k ≤ n + 1) (hn0 : Nx.areaBlocks d0 = n) (hn : ∀ j ≤ n, ∀ d, image (base + j) = some d → Accepted d → Nx.areaBlocks d = n)
    (h : scanLoop image fuel k ((base + k) * 4096) s = ok s') : ScanInv image base d0 (n + 1) s' := by
  have count : ∀ k s, k ≤ n + 1 → ScanInv image base d0 k s → s.superblock.areaBlocks = n := by
    intro k s hk v
    rcases v.source with h | ⟨j, hj, d, hd, ht, hs, _⟩
    · rw [h]; exact hn0
    · rw [hs]; exact hn j (by omega) d hd (v.accepted j hj d hd ht)
  induction fuel generalizing k s with
  | zero =>
    have : n < 2 ^ 31 := by have := h0.1.contiguous; omega
    have : s = s' := Res.ok.inj h
    subst this
    rw [show n + 1 = k by omega]
    exact v
  | succ fuel ih =>
    unfold scanLoop at h
    rw [count k s hk v] at h
    split at h
    · obtain ⟨s1, h1, h⟩ := bind_eq_ok.1 h
      refine ih (k := k + 1) (scanInv_step hb v h1) (by omega) (by omega) ?_
      rw [show (base + (k + 1)) * 4096 = (base + k) * 4096 + 4096 by omega]
      exact h
    · have : s = s' := Res.ok.inj h
      subst this
      rw [show n + 1 = k by omega]
      exact v

theorem scanLoop_complete {image : Image} (hb : Blocks image) {base n : Nat} {d0 : Bytes} {fuel k : Nat} {s : Scan} (v : ScanInv image base d0 k s)
    (hk : k ≤ n + 1) (hn0 : Nx.areaBlocks d0 = n) (hlt : base + n < 2 ^ 50)
    (hr : ∀ j ≤ n, ∃ d, image (base + j) = some d ∧ d.length = 4096 ∧ (objectType d = superblockType → Accepted d ∧ Nx.areaBlocks d = n)) :
    ∃ s', scanLoop image fuel k ((base + k) * 4096) s = ok s' := by
  induction fuel generalizing k s with
  | zero => exact ⟨s, rfl⟩
  | succ fuel ih =>
    unfold scanLoop
    have count : s.superblock.areaBlocks = n := by
      rcases v.source with h | ⟨j, hj, d, hd, ht, hs, _⟩
      · rw [h]; exact hn0
      · obtain ⟨d', hd', _, ha⟩ := hr j (by omega)
        have : d' = d := Option.some.inj (hd'.symm.trans hd)
        subst this
        rw [hs]
        exact (ha ht).2
    rw [count]
    split
    · obtain ⟨d, hd, hl, ha⟩ := hr k (by omega)
      obtain ⟨s1, h1⟩ := scanBlock_eq (image := image) (index := k) (b := base + k) s hd hl (by omega) (fun h => (ha h).1)
      rw [h1, ok_bind]
      obtain ⟨s2, h2⟩ := ih (k := k + 1) (scanInv_step hb v h1) (by omega)
      refine ⟨s2, ?_⟩
      rw [show (base + k) * 4096 + 4096 = (base + (k + 1)) * 4096 by omega]
      exact h2
    · exact ⟨s, rfl⟩

end Container
end Verif
