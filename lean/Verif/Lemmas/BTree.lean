import Verif.Model.BTree
import Verif.Spec.BTreeNode
import Verif.Lemmas.Base
/-! Lemmas: B-tree nodes -/
namespace Verif
open Res Spec
namespace BTree

theorem rdLE_field {d : Bytes} {off n : Nat} (h : off + n ≤ d.length) : rdLE d off n = ok (field d off n) := rdLE_le h
theorem rdN_slice {d : Bytes} {off n : Nat} (h : off + n ≤ d.length) : rdN d off n = ok (slice d off n) := rdN_le h

theorem field_lt {d : Bytes} {off n : Nat} (h : off + n ≤ d.length) : field d off n < 256 ^ n := by
  have := leNat_lt (slice d off n)
  rwa [show (slice d off n).length = n by unfold slice; rw [List.length_take, List.length_drop]; omega] at this

/-- one entry as the code computes it: all offsets modulo 2^16 -/
def entryAt (d : Bytes) (footer i : Nat) : Entry :=
  (slice d (BNode.keyStart d i % 65536) (BNode.keyLen d i), slice d ((footer + (65536 - BNode.valueOffset d i)) % 65536) (BNode.valueLen d i))

/-- the checks on one entry -/
def EntryOk (d : Bytes) (footer i : Nat) : Prop :=
  (BNode.fixed d = true → BNode.subtype d = 0xb) ∧
  BNode.keyStart d i % 65536 + BNode.keyLen d i ≤ d.length ∧
  (footer + (65536 - BNode.valueOffset d i)) % 65536 + BNode.valueLen d i ≤ d.length

theorem fixed_iff {d : Bytes} : BNode.fixed d = true ↔ BNode.flags d / 4 % 2 ≠ 0 := by
  unfold BNode.fixed
  simp only [decide_eq_true_eq]
  omega

theorem leaf_iff {d : Bytes} : BNode.leaf d = true ↔ BNode.flags d / 2 % 2 ≠ 0 := by
  unfold BNode.leaf
  simp only [decide_eq_true_eq]
  omega

theorem root_iff {d : Bytes} : BNode.root d = true ↔ BNode.flags d % 2 ≠ 0 := by
  unfold BNode.root
  simp only [decide_eq_true_eq]
  omega

/-- reading entry `i` and what follows -/
theorem readEntries_step {d : Bytes} {footer k i : Nat} (hs : BNode.entryStart d i + BNode.entrySize d ≤ d.length)  :
    readEntries d (BNode.flags d) (BNode.subtype d) (BNode.tocOffset d) (BNode.tocSize d) footer (k + 1) (BNode.entryStart d i) = (do
      require (BNode.fixed d = true → BNode.subtype d = 0xb)
      require (BNode.keyStart d i % 65536 + BNode.keyLen d i ≤ d.length)
      require ((footer + (65536 - BNode.valueOffset d i)) % 65536 + BNode.valueLen d i ≤ d.length)
      let es ← readEntries d (BNode.flags d) (BNode.subtype d) (BNode.tocOffset d) (BNode.tocSize d) footer k (BNode.entryStart d (i + 1))
      return entryAt d footer i :: es) := by
  have key : ∀ (ko ks vo vs : Nat) (rest : Res (List Entry)),
      (do require (¬ (ko > d.length ∨ ks > d.length - ko)); require (¬ (vo > d.length ∨ vs > d.length - vo))
          let key ← rdN d ko ks; let value ← rdN d vo vs; let es ← rest; return (key, value) :: es : Res (List Entry)) =
      (do require (ko + ks ≤ d.length); require (vo + vs ≤ d.length); let es ← rest; return (slice d ko ks, slice d vo vs) :: es) := by
    intro ko ks vo vs rest
    by_cases h1 : ko + ks ≤ d.length
    · rw [require_true (by omega), require_true h1, ok_bind, ok_bind]
      by_cases h2 : vo + vs ≤ d.length
      · rw [require_true (by omega), require_true h2, ok_bind, ok_bind, rdN_slice h1, ok_bind, rdN_slice h2, ok_bind]
      · rw [require_false (by omega), require_false h2]
        rfl
    · rw [require_false (by omega), require_false h1]
      rfl
  have hko : ∀ x, (x + (BNode.tocOffset d + 56) % 65536 + BNode.tocSize d) % 65536 = (56 + BNode.tocOffset d + BNode.tocSize d + x) % 65536 := by
    intro x; omega
  have hnext : BNode.entryStart d (i + 1) = BNode.entryStart d i + BNode.entrySize d := by
    unfold BNode.entryStart
    rw [Nat.succ_mul]; omega
  conv => lhs; unfold readEntries
  by_cases hf : BNode.flags d / 4 % 2 = 0
  · have hfix : BNode.fixed d = false := by
      cases h : BNode.fixed d with
      | false => rfl
      | true => exact absurd hf (fixed_iff.1 h)
    have hes : BNode.entrySize d = 8 := by unfold BNode.entrySize; rw [hfix]; rfl
    rw [hes] at hs
    rw [if_pos hf, rdLE_field (by omega), ok_bind, rdLE_field (by omega), ok_bind, rdLE_field (by omega), ok_bind, rdLE_field (by omega), ok_bind]
    simp only [pure_eq, ok_bind]
    rw [hko, require_true (c := BNode.fixed d = true → _) (by simp [hfix]), ok_bind, hnext, hes]
    have h1 : BNode.keyLen d i = field d (BNode.entryStart d i + 2) 2 := by unfold BNode.keyLen; rw [hfix]; rfl
    have h2 : BNode.valueLen d i = field d (BNode.entryStart d i + 6) 2 := by unfold BNode.valueLen; rw [hfix]; rfl
    have h3 : BNode.valueOffset d i = field d (BNode.entryStart d i + 4) 2 := by unfold BNode.valueOffset; rw [hfix]; rfl
    unfold entryAt
    rw [h1, h2, h3]
    exact key _ _ _ _ _
  · have hfix : BNode.fixed d = true := fixed_iff.2 hf
    have hes : BNode.entrySize d = 4 := by unfold BNode.entrySize; rw [hfix]; rfl
    rw [hes] at hs
    rw [if_neg hf, rdLE_field (by omega), ok_bind, rdLE_field (by omega), ok_bind]
    by_cases hb : BNode.subtype d = 0xb
    · rw [require_true hb, ok_bind, require_true (fun _ => hb), ok_bind]
      simp only [pure_eq, ok_bind]
      rw [hko, hnext, hes]
      have h1 : BNode.keyLen d i = 16 := by unfold BNode.keyLen; rw [hfix]; rfl
      have h2 : BNode.valueLen d i = if BNode.flags d / 2 % 2 = 0 then 8 else 16 := by
        unfold BNode.valueLen
        rw [hfix]
        by_cases hl : BNode.flags d / 2 % 2 = 0
        · have : BNode.leaf d = false := by
            cases h : BNode.leaf d with
            | false => rfl
            | true => exact absurd hl (leaf_iff.1 h)
          rw [this, if_pos hl]; rfl
        · rw [leaf_iff.2 hl, if_neg hl]; rfl
      have h3 : BNode.valueOffset d i = field d (BNode.entryStart d i + 2) 2 := by unfold BNode.valueOffset; rw [hfix]; rfl
      unfold entryAt
      rw [h1, h2, h3]
      exact key _ _ _ _ _
    · rw [require_false hb, require_false (fun h => hb (h hfix))]
      rfl

theorem readEntries_spec {d : Bytes} {footer : Nat} (k i : Nat) (hs : BNode.entryStart d i + k * BNode.entrySize d ≤ d.length) :
    readEntries d (BNode.flags d) (BNode.subtype d) (BNode.tocOffset d) (BNode.tocSize d) footer k (BNode.entryStart d i) ≠ ub ∧
    ∀ es, readEntries d (BNode.flags d) (BNode.subtype d) (BNode.tocOffset d) (BNode.tocSize d) footer k (BNode.entryStart d i) = ok es ↔
      (∀ j < k, EntryOk d footer (i + j)) ∧ es = (List.range k).map (fun j => entryAt d footer (i + j)) := by
  induction k generalizing i with
  | zero => exact ⟨by unfold readEntries; simp, by intro es; unfold readEntries; simp [eq_comm]⟩
  | succ k ih =>
    rw [Nat.succ_mul] at hs
    rw [readEntries_step (by omega)]
    have hnext : BNode.entryStart d (i + 1) = BNode.entryStart d i + BNode.entrySize d := by
      unfold BNode.entryStart
      rw [Nat.succ_mul]; omega
    obtain ⟨ih1, ih2⟩ := ih (i + 1) (by omega)
    constructor
    · exact safe_bind safe_require fun _ _ => safe_bind safe_require fun _ _ => safe_bind safe_require fun _ _ =>
        safe_bind ih1 fun _ _ => safe_ok _
    · intro es
      constructor
      · intro h
        obtain ⟨_, g1, h⟩ := bind_eq_ok.1 h
        obtain ⟨_, g2, h⟩ := bind_eq_ok.1 h
        obtain ⟨_, g3, h⟩ := bind_eq_ok.1 h
        obtain ⟨es', g4, h⟩ := bind_eq_ok.1 h
        simp only [require_eq_ok] at g1 g2 g3
        obtain ⟨i1, i2⟩ := (ih2 es').1 g4
        have h := (ok.inj h).symm
        subst h
        constructor
        · intro j hj
          cases j with
          | zero => exact ⟨g1, g2, g3⟩
          | succ j =>
            have := i1 j (by omega)
            rwa [show i + 1 + j = i + (j + 1) by omega] at this
        · rw [i2, List.range_succ_eq_map, List.map_cons, List.map_map, Nat.add_zero]
          congr 1
          apply List.map_congr_left
          intro j _
          show _ = entryAt d footer (i + (j + 1))
          rw [show i + (j + 1) = i + 1 + j by omega]
      · rintro ⟨h1, rfl⟩
        obtain ⟨g1, g2, g3⟩ := h1 0 (by omega)
        simp only [Nat.add_zero] at g1 g2 g3
        have h4 := (ih2 _).2 ⟨fun j hj => by
          have := h1 (j + 1) (by omega)
          rwa [show i + (j + 1) = i + 1 + j by omega] at this, rfl⟩
        rw [require_true g1, require_true g2, require_true g3, ok_bind, ok_bind, ok_bind, h4]
        simp only [ok_bind, pure_eq]
        rw [List.range_succ_eq_map, List.map_cons, List.map_map, Nat.add_zero]
        congr 2
        apply List.map_congr_left
        intro j _
        show _ = entryAt d footer (i + (j + 1))
        rw [show i + (j + 1) = i + 1 + j by omega]

/-- end of the values as the code computes it -/
def footerOffset (d : Bytes) : Nat := if BNode.flags d % 2 ≠ 0 then (d.length % 65536 + (65536 - 40)) % 65536 else d.length % 65536

def footerOf (d : Bytes) : Option Footer :=
  if BNode.flags d % 2 ≠ 0 then
    some { nodeSize := field d (d.length - 40 + 4) 4, keySize := field d (d.length - 40 + 8) 4, valueSize := field d (d.length - 40 + 12) 4 }
  else none

structure HeaderOk (d : Bytes) : Prop where
  size : 96 ≤ d.length
  size2 : d.length ≤ 2 ^ 63 - 1
  typ : BNode.type d % 2 ^ 24 = 0 ∨ BNode.type d % 2 ^ 24 = 2 ∨ BNode.type d % 2 ^ 24 = 3
  toc : BNode.tocOffset d + BNode.tocSize d + BNode.unusedOffset d < d.length - 96
  keys : BNode.count d ≤ BNode.tocSize d / BNode.entrySize d

theorem entrySize_eq (d : Bytes) : (if BNode.flags d / 4 % 2 = 0 then 8 else 4) = BNode.entrySize d := by
  unfold BNode.entrySize
  by_cases h : BNode.flags d / 4 % 2 = 0
  · rw [if_pos h, if_neg (fun hf => fixed_iff.1 hf h)]
  · rw [if_neg h, if_pos (fixed_iff.2 h)]

theorem entrySize_pos (d : Bytes) : 0 < BNode.entrySize d := by unfold BNode.entrySize; split <;> omega

theorem count_le {d : Bytes} (h : HeaderOk d) : BNode.entryStart d 0 + BNode.count d * BNode.entrySize d ≤ d.length := by
  have h1 := h.size
  have h2 := h.toc
  have h3 := (Nat.le_div_iff_mul_le (entrySize_pos d)).1 h.keys
  unfold BNode.entryStart
  omega

theorem readNode_spec (d : Bytes) : readNode d ≠ ub ∧ ∀ n, readNode d = ok n ↔
    HeaderOk d ∧ (∀ i < BNode.count d, EntryOk d (footerOffset d) i) ∧
    n = { objectType := BNode.type d, objectSubtype := BNode.subtype d, flags := BNode.flags d, footer := footerOf d,
          entries := (List.range (BNode.count d)).map (entryAt d (footerOffset d)) } := by
  by_cases hs : 96 ≤ d.length ∧ d.length ≤ 2 ^ 63 - 1
  · have hred : readNode d = (do
        require (BNode.type d % 2 ^ 24 = 0 ∨ BNode.type d % 2 ^ 24 = 2 ∨ BNode.type d % 2 ^ 24 = 3)
        require (¬ BNode.tocOffset d ≥ d.length - 96)
        require (¬ BNode.tocSize d > d.length - 96 - BNode.tocOffset d)
        require (¬ BNode.unusedOffset d ≥ d.length - 96 - BNode.tocOffset d - BNode.tocSize d)
        require (¬ BNode.count d > BNode.tocSize d / BNode.entrySize d)
        let es ← readEntries d (BNode.flags d) (BNode.subtype d) (BNode.tocOffset d) (BNode.tocSize d) (footerOffset d) (BNode.count d) (56 + BNode.tocOffset d)
        return { objectType := BNode.type d, objectSubtype := BNode.subtype d, flags := BNode.flags d, footer := footerOf d, entries := es }) := by
      unfold readNode
      rw [require_true (by omega), ok_bind, rdLE_field (by omega), ok_bind]
      show (require (BNode.type d % 2 ^ 24 = 0 ∨ BNode.type d % 2 ^ 24 = 2 ∨ BNode.type d % 2 ^ 24 = 3) >>= _) = _
      congr 1
      funext _
      rw [rdLE_field (by omega), ok_bind, rdLE_field (by omega), ok_bind, rdLE_field (by omega), ok_bind, rdLE_field (by omega), ok_bind,
        rdLE_field (by omega), ok_bind, rdLE_field (by omega), ok_bind]
      show (require (¬ BNode.tocOffset d ≥ d.length - 96) >>= _) = _
      congr 1
      funext _
      show (require (¬ BNode.tocSize d > d.length - 96 - BNode.tocOffset d) >>= _) = _
      congr 1
      funext _
      show (require (¬ BNode.unusedOffset d ≥ d.length - 96 - BNode.tocOffset d - BNode.tocSize d) >>= _) = _
      congr 1
      funext _
      have hfoot : (if field d 32 2 % 2 ≠ 0 then do
          let nodeSize ← rdLE d (d.length - 40 + 4) 4
          let keySize ← rdLE d (d.length - 40 + 8) 4
          let valueSize ← rdLE d (d.length - 40 + 12) 4
          return some { nodeSize := nodeSize, keySize := keySize, valueSize := valueSize }
        else return none : Res (Option Footer)) = ok (footerOf d) := by
        unfold footerOf
        show (if BNode.flags d % 2 ≠ 0 then _ else _) = _
        split
        · rw [rdLE_field (by omega), ok_bind, rdLE_field (by omega), ok_bind, rdLE_field (by omega), ok_bind]
          rfl
        · rfl
      rw [hfoot, ok_bind]
      simp only
      rw [← entrySize_eq]
      rfl
    rw [hred]
    constructor
    · refine safe_bind safe_require fun _ g1 => safe_bind safe_require fun _ g2 => safe_bind safe_require fun _ g3 =>
        safe_bind safe_require fun _ g4 => safe_bind safe_require fun _ g5 => safe_bind ?_ fun _ _ => safe_ok _
      simp only [require_eq_ok] at g1 g2 g3 g4 g5
      have hh : HeaderOk d := ⟨hs.1, hs.2, g1, by omega, by omega⟩
      have := (readEntries_spec (footer := footerOffset d) (BNode.count d) 0 (count_le hh)).1
      unfold BNode.entryStart at this
      rw [Nat.zero_mul, Nat.add_zero] at this
      exact this
    · intro n
      constructor
      · intro h
        obtain ⟨_, g1, h⟩ := bind_eq_ok.1 h
        obtain ⟨_, g2, h⟩ := bind_eq_ok.1 h
        obtain ⟨_, g3, h⟩ := bind_eq_ok.1 h
        obtain ⟨_, g4, h⟩ := bind_eq_ok.1 h
        obtain ⟨_, g5, h⟩ := bind_eq_ok.1 h
        obtain ⟨es, g6, h⟩ := bind_eq_ok.1 h
        simp only [require_eq_ok] at g1 g2 g3 g4 g5
        have hh : HeaderOk d := ⟨hs.1, hs.2, g1, by omega, by omega⟩
        obtain ⟨e1, e2⟩ := ((readEntries_spec (BNode.count d) 0 (count_le hh)).2 es).1 (by
          unfold BNode.entryStart; rw [Nat.zero_mul, Nat.add_zero]; exact g6)
        refine ⟨hh, ?_, ?_⟩
        · intro i hi
          have := e1 i hi
          rwa [Nat.zero_add] at this
        · rw [← ok.inj h, e2]
          simp only [Nat.zero_add]
      · rintro ⟨hh, he, rfl⟩
        have h1 := hh.toc
        rw [require_true hh.typ, ok_bind, require_true (by omega), ok_bind, require_true (by omega), ok_bind, require_true (by omega), ok_bind,
          require_true (by have := hh.keys; omega), ok_bind]
        have := ((readEntries_spec (footer := footerOffset d) (BNode.count d) 0 (count_le hh)).2 _).2 ⟨fun j hj => by rw [Nat.zero_add]; exact he j hj, rfl⟩
        unfold BNode.entryStart at this
        rw [Nat.zero_mul, Nat.add_zero] at this
        rw [this]
        simp only [Nat.zero_add]
        rfl
  · have : readNode d = err := by
      unfold readNode
      rw [require_false (by omega)]
      rfl
    rw [this]
    refine ⟨by simp, ?_⟩
    intro n
    constructor
    · intro h; cases h
    · rintro ⟨hh, _⟩
      exact absurd ⟨hh.size, hh.size2⟩ hs

theorem footerOffset_eq {d : Bytes} (h : 96 ≤ d.length) (h2 : d.length < 65536) : footerOffset d = BNode.valuesEnd d := by
  unfold footerOffset BNode.valuesEnd
  by_cases hr : BNode.flags d % 2 ≠ 0
  · rw [if_pos hr, if_pos (root_iff.2 hr)]
    omega
  · rw [if_neg hr, if_neg (fun h => hr (root_iff.1 h))]
    omega

theorem leaf_eq (d : Bytes) : decide (BNode.flags d / 2 % 2 ≠ 0) = BNode.leaf d := by
  by_cases h : BNode.leaf d = true
  · simp only [h, leaf_iff.1 h, ne_eq, not_false_eq_true, decide_true]
  · simp only [h]
    have : ¬ BNode.flags d / 2 % 2 ≠ 0 := fun hf => h (leaf_iff.2 hf)
    simp only [this, decide_false]

/-- the node in a valid block -/
def parsed (d : Bytes) : Node :=
  { objectType := BNode.type d, objectSubtype := BNode.subtype d, flags := BNode.flags d, footer := footerOf d, entries := BNode.entries d }

/-- a valid node is read -/
theorem readNode_valid {d : Bytes} (v : BNode.Valid d) : readNode d = ok (parsed d) := by
  unfold parsed
  have hf := footerOffset_eq v.size v.size2
  have h1 := v.size
  have h2 := v.size2
  have hh : HeaderOk d := ⟨v.size, by omega, v.typ, v.toc, (Nat.le_div_iff_mul_le (entrySize_pos d)).2 v.keys⟩
  have key : ∀ i < BNode.count d, BNode.keyStart d i % 65536 = BNode.keyStart d i := by
    intro i hi
    have := v.key i hi
    exact Nat.mod_eq_of_lt (by omega)
  have hve : BNode.valuesEnd d ≤ d.length := by unfold BNode.valuesEnd; omega
  have value : ∀ i < BNode.count d, (BNode.valuesEnd d + (65536 - BNode.valueOffset d i)) % 65536 = BNode.valuesEnd d - BNode.valueOffset d i := by
    intro i hi
    have := (v.value i hi).1
    omega
  have he : BNode.entries d = (List.range (BNode.count d)).map (entryAt d (footerOffset d)) := by
    unfold BNode.entries
    apply List.map_congr_left
    intro i hi
    have hi := List.mem_range.1 hi
    unfold entryAt
    rw [key i hi, hf, value i hi]
  rw [he]
  refine ((readNode_spec d).2 _).2 ⟨hh, ?_, rfl⟩
  intro i hi
  refine ⟨fun h => v.objectMap h (by omega), ?_, ?_⟩
  · rw [key i hi]; exact v.key i hi
  · rw [hf, value i hi]; exact (v.value i hi).2

end BTree
end Verif
