import Verif.Props.C27
import Verif.Props.C18
import Verif.Lemmas.Walk
/-!
# C29 All volumes of a container are reachable by index

It holds if the volume slots that are used come first. It does not hold if there is an unused slot before a used one: the number of volumes is that of the used slots, but an index
is that of a slot.
-/
namespace Verif.Props
open Verif Res Container Spec BTree

/-- the number of used slots among the first `n` -/
def used (f : Nat → Nat) (n : Nat) : Nat := (((List.range n).map f).filter (· ≠ 0)).length

theorem used_succ (f : Nat → Nat) (n : Nat) : used f (n + 1) = used f n + (if f n ≠ 0 then 1 else 0) := by
  unfold used
  rw [List.range_succ, List.map_append, List.filter_append, List.length_append, List.map_cons, List.map_nil, List.filter_cons]
  by_cases h : f n = 0 <;> simp [h]

theorem used_le (f : Nat → Nat) (n : Nat) : used f n ≤ n := by
  induction n with
  | zero => exact Nat.le_refl _
  | succ n ih => rw [used_succ]; split <;> omega

theorem used_first (f : Nat → Nat) (k n : Nat) (h : ∀ i < n, f i ≠ 0 ↔ i < k) : used f n = min n k := by
  induction n with
  | zero => simp [used]
  | succ n ih =>
    rw [used_succ, ih (fun i hi => h i (by omega))]
    have := h n (by omega)
    split <;> omega

theorem used_hole (f : Nat → Nat) (n i : Nat) (hi : i < n) (h : f i = 0) : used f n < n := by
  induction n with
  | zero => omega
  | succ n ih =>
    rw [used_succ]
    by_cases e : i = n
    · subst e
      have := used_le f i
      rw [h]
      simp
      omega
    · have := ih (by omega)
      split <;> omega

theorem used_rest (f : Nat → Nat) (m n : Nat) (h : ∀ i, m ≤ i → i < m + n → f i = 0) : used f (m + n) = used f m := by
  induction n with
  | zero => rfl
  | succ n ih =>
    rw [← Nat.add_assoc, used_succ, ih (fun i h1 h2 => h i h1 (by omega)), h (m + n) (by omega) (by omega)]
    simp

variable {c : Opened} {d : Bytes} {image : Nat → Option Bytes} {records : List Record}

theorem volumes_get (d : Bytes) {i : Nat} (h : i < 100) : (superblockOf d).volumes[i]? = some (Nx.volume d i) := by
  show ((List.range 100).map (Nx.volume d))[i]? = _
  rw [List.getElem?_map, List.getElem?_range h]
  rfl

/-- The number of volumes is the number of used slots. -/
theorem c29_number (hs : c.superblock = superblockOf d) : numberOfVolumes c = used (Nx.volume d) 100 := by
  unfold numberOfVolumes
  rw [hs]
  rfl

/-- What an index in range leads to: the volume superblock the object map has for the identifier in that slot, as of the checkpoint in use. -/
theorem c29_slot (hs : c.superblock = superblockOf d) (hv : Nx.Valid d) (ht : OmTree image c.tree records) {i : Nat} (hi : i < numberOfVolumes c) (h0 : Nx.volume d i ≠ 0) :
    (¬ HasVersion records (Nx.volume d i) (objectXid d) ∧ volumeOffset (fetchOf image) c i = err) ∨
    ∃ r, Newest records (Nx.volume d i) (objectXid d) r ∧ volumeOffset (fetchOf image) c i = ok (field r.2 8 8 * 4096 % 2 ^ 64) := by
  have hle := used_le (Nx.volume d) 100
  rw [← c29_number hs] at hle
  have hx : c.superblock.transaction = objectXid d := by rw [hs]; rfl
  have hbs : c.superblock.blockSize = 4096 := by rw [hs]; exact hv.blockSize
  unfold volumeOffset
  have hi' : i < c.superblock.numberOfVolumes := hi
  rw [require_true (by omega), ok_bind, Int.toNat_natCast, hs, volumes_get d (by omega), ofMem, ok_bind, ← hs, hx, hbs]
  rcases c18_lookup image c.tree records ht (Nx.volume d i) (objectXid d) h0 with ⟨h1, h2⟩ | ⟨r, desc, h1, h2, _, _, _, _, h3⟩
  · exact Or.inl ⟨h1, by rw [h2]; rfl⟩
  · exact Or.inr ⟨r, h1, by rw [h2, ← h3]; rfl⟩

/-- Partial: if the used slots are the first `k`, there are `k` volumes, the indices 0 to k - 1 lead to each of them, and other indices are refused.
Missing: an unused slot before a used one, see `c29_hole_hides_volume`. -/
theorem c29_reachable_partial (hs : c.superblock = superblockOf d) (hv : Nx.Valid d) (ht : OmTree image c.tree records) {k : Nat} (hk : k ≤ 100)
    (first : ∀ i < 100, Nx.volume d i ≠ 0 ↔ i < k) (stored : ∀ i < k, HasVersion records (Nx.volume d i) (objectXid d)) :
    numberOfVolumes c = k ∧
    (∀ i < k, ∃ r, Newest records (Nx.volume d i) (objectXid d) r ∧ volumeOffset (fetchOf image) c i = ok (field r.2 8 8 * 4096 % 2 ^ 64)) ∧
    ∀ i : Int, i < 0 ∨ i ≥ k → volumeOffset (fetchOf image) c i = err := by
  have hn : numberOfVolumes c = k := by rw [c29_number hs, used_first _ k 100 first]; omega
  refine ⟨hn, ?_, ?_⟩
  · intro i hi
    rcases c29_slot hs hv ht (i := i) (by omega) ((first i (by omega)).2 hi) with ⟨h, _⟩ | h
    · exact absurd (stored i hi) h
    · exact h
  · intro i hi
    unfold volumeOffset
    have hn' : c.superblock.numberOfVolumes = k := hn
    rw [require_false (by rw [hn']; omega)]
    rfl

/-- If there is an unused slot before the last used one, the volume of the last used slot cannot be reached: its slot is not below the number of volumes, so that index is refused,
and every index that is not refused is that of another slot. -/
theorem c29_hole_hides_volume (hs : c.superblock = superblockOf d) {fetch : Nat → Res Bytes} {hole last : Nat} (hl : last < 100) (h1 : hole < last) (h2 : Nx.volume d hole = 0)
    (h4 : ∀ i, last < i → i < 100 → Nx.volume d i = 0) :
    volumeOffset fetch c last = err ∧ ∀ (i : Int) (o : Nat), volumeOffset fetch c i = ok o → 0 ≤ i ∧ i < last := by
  have hn : numberOfVolumes c ≤ last := by
    rw [c29_number hs, show 100 = (last + 1) + (99 - last) by omega, used_rest _ _ _ (fun i h h' => h4 i (by omega) (by omega))]
    have := used_hole (Nx.volume d) (last + 1) hole (by omega) h2
    omega
  have hn' : c.superblock.numberOfVolumes ≤ last := hn
  constructor
  · unfold volumeOffset
    rw [require_false (by omega)]
    rfl
  · intro i o h
    unfold volumeOffset at h
    obtain ⟨_, h, _⟩ := bind_eq_ok.1 h
    have := (require_eq_ok _).1 h
    omega

/-- No index and no tree make it access memory out of bounds. -/
theorem c29_index_safe (hs : c.superblock = superblockOf d) {fetch : Nat → Res Bytes} (hf : ∀ b, Safe (fetch b)) (i : Int) : volumeOffset fetch c i ≠ ub := by
  unfold volumeOffset
  refine safe_bind safe_require fun _ h => ?_
  have h := (require_eq_ok _).1 h
  have hle := used_le (Nx.volume d) 100
  rw [← c29_number hs] at hle
  have hle' : c.superblock.numberOfVolumes ≤ 100 := hle
  rw [hs, volumes_get d (by omega), ofMem, ok_bind, ← hs]
  refine safe_bind (FsTree.safe_omDescriptor hf _ _ _) fun r _ => ?_
  split
  · exact safe_err
  · exact safe_ok _

/-- a superblock whose used slots come first -/
def sbVolumes : Bytes := exampleSuperblock 9 6 2 1 4 [10, 12] []

/-- a superblock with an unused slot between two used ones -/
def sbHole : Bytes := exampleSuperblock 9 6 2 1 4 [10, 0, 12] []

theorem sbVolumes_facts : sbVolumes.length = 4096 ∧ readsSuperblock sbVolumes = true ∧ objectXid sbVolumes = 9 ∧ Nx.volume sbVolumes 0 = 10 ∧ Nx.volume sbVolumes 1 = 12 ∧
    ∀ i < 100, Nx.volume sbVolumes i ≠ 0 ↔ i < 2 := by decide +kernel

theorem sbHole_facts : Nx.volume sbHole 0 = 10 ∧ Nx.volume sbHole 1 = 0 ∧ Nx.volume sbHole 2 = 12 ∧ ∀ i, 2 < i → i < 100 → Nx.volume sbHole i = 0 := by
  have h : Nx.volume sbHole 0 = 10 ∧ Nx.volume sbHole 1 = 0 ∧ Nx.volume sbHole 2 = 12 ∧ ∀ i < 100, 2 < i → Nx.volume sbHole i = 0 := by decide +kernel
  exact ⟨h.1, h.2.1, h.2.2.1, fun i h1 h2 => h.2.2.2 i h2 h1⟩

attribute [irreducible] sbVolumes sbHole

/-- a container with the object map of `omImage` -/
def exampleOpened (d : Bytes) : Opened := ⟨6 * 4096, superblockOf d, 1, [], 5, none⟩

/-- the hypotheses are met: two volumes, in blocks 102 and 103 -/
example : numberOfVolumes (exampleOpened sbVolumes) = 2 ∧ (∃ r, volumeOffset (fetchOf omImage) (exampleOpened sbVolumes) 1 = ok (field r 8 8 * 4096 % 2 ^ 64)) := by
  have f := sbVolumes_facts
  have hv := valid_of_read f.1 f.2.1
  have h := c29_reachable_partial (c := exampleOpened sbVolumes) (d := sbVolumes) rfl hv omImage_tree (k := 2) (by omega) f.2.2.2.2.2 (by
    intro i hi
    rw [f.2.2.1]
    match i, hi with
    | 0, _ => rw [f.2.2.2.1]; unfold HasVersion; decide +kernel
    | 1, _ => rw [f.2.2.2.2.1]; unfold HasVersion; decide +kernel)
  obtain ⟨r, _, hr⟩ := h.2.1 1 (by omega)
  exact ⟨h.1, r.2, hr⟩

/-- a container where the volume with identifier 12 exists in the object map but cannot be opened -/
theorem c29_hole_witness : numberOfVolumes (exampleOpened sbHole) = 2 ∧ Nx.volume sbHole 2 = 12 ∧ HasVersion (omLeft ++ omRight) 12 9 ∧
    ∀ (i : Int), i ≠ 0 → volumeOffset (fetchOf omImage) (exampleOpened sbHole) i = err := by
  have f := sbHole_facts
  have hn : numberOfVolumes (exampleOpened sbHole) = 2 := by
    rw [c29_number (d := sbHole) rfl, show 100 = 3 + 97 from rfl, used_rest _ 3 97 (fun i h1 h2 => f.2.2.2 i (by omega) (by omega))]
    rw [used_succ, used_succ, used_succ, f.1, f.2.1, f.2.2.1]
    rfl
  have hx : (exampleOpened sbHole).superblock.transaction = 9 := by
    show objectXid sbHole = 9
    decide +kernel
  refine ⟨hn, f.2.2.1, by unfold HasVersion; decide +kernel, ?_⟩
  intro i hi
  have hn' : (exampleOpened sbHole).superblock.numberOfVolumes = 2 := hn
  unfold volumeOffset
  by_cases h1 : i = 1
  · subst h1
    rw [require_true (by rw [hn']; decide), ok_bind, show (1 : Int).toNat = 1 from rfl, show (exampleOpened sbHole).superblock = superblockOf sbHole from rfl,
      volumes_get sbHole (by omega), f.2.1, ofMem, ok_bind, show (superblockOf sbHole).transaction = 9 from hx, show (exampleOpened sbHole).tree = 5 from rfl, c18_object_zero.1]
    rfl
  · rw [require_false (by rw [hn']; omega)]
    rfl

end Verif.Props
