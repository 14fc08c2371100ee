import Verif.Lemmas.ContainerScan
/-!
# C41 Checkpoint map resolves ephemeral objects
-/
namespace Verif.Props
open Verif Res Container Spec

/-- A block is accepted as checkpoint map exactly if it is a valid one, and its entries are those stored in it, in order. -/
theorem c41_parse_iff (d : Bytes) (hl : d.length = 4096) (m : List (Nat × Nat)) : readMap d = ok m ↔ ValidMap d ∧ m = mapEntries d := readMap_iff d hl m

/-- Parsing reads within the data only, whatever its size and contents. -/
theorem c41_safe (d : Bytes) : readMap d ≠ ub := safe_readMap d

/-- Looking up returns the address of the first entry of the object. -/
theorem c41_found_iff (identifier address : Nat) (m : List (Nat × Nat)) :
    mapAddress identifier m = some address ↔ ∃ p q, m = p ++ (identifier, address) :: q ∧ ∀ e ∈ p, e.1 ≠ identifier := by
  induction m with
  | nil => simp [mapAddress]
  | cons e m ih =>
    obtain ⟨a, b⟩ := e
    unfold mapAddress
    by_cases h : identifier = a
    · rw [if_pos h]
      constructor
      · intro he
        exact ⟨[], m, by rw [h, ← Option.some.inj he]; rfl, by simp⟩
      · rintro ⟨p, q, hm, hp⟩
        cases p with
        | nil => simp at hm; rw [hm.1.2]
        | cons e p =>
          simp at hm
          exact absurd (by rw [← hm.1]; exact h.symm) (hp e (by simp))
    · rw [if_neg h, ih]
      constructor
      · rintro ⟨p, q, hm, hp⟩
        refine ⟨(a, b) :: p, q, by rw [hm]; rfl, ?_⟩
        intro e he
        rcases List.mem_cons.1 he with rfl | he
        · exact fun he => h he.symm
        · exact hp e he
      · rintro ⟨p, q, hm, hp⟩
        cases p with
        | nil => simp at hm; exact absurd hm.1.1.symm h
        | cons e p =>
          simp at hm
          exact ⟨p, q, hm.2, fun e he => hp e (by simp [he])⟩

/-- It is not found exactly if there is no entry of it. -/
theorem c41_not_found_iff (identifier : Nat) (m : List (Nat × Nat)) : mapAddress identifier m = none ↔ ∀ e ∈ m, e.1 ≠ identifier := by
  induction m with
  | nil => simp [mapAddress]
  | cons e m ih =>
    unfold mapAddress
    by_cases h : identifier = e.1
    · rw [if_pos h]; simp [h]
    · rw [if_neg h, ih]
      simp only [List.mem_cons, forall_eq_or_imp]
      exact ⟨fun h' => ⟨fun he => h he.symm, h'⟩, fun h' => h'.2⟩

/-- The same in terms of the bytes of the block: the entry that counts is the first of at most 101 entries of 40 bytes. -/
theorem c41_lookup (d : Bytes) (v : ValidMap d) (identifier address : Nat) : ∃ m, readMap d = ok m ∧
    (mapAddress identifier m = some address ↔ ∃ i < field d 36 4, field d (40 + 40 * i + 24) 8 = identifier ∧ field d (40 + 40 * i + 32) 8 = address ∧
      ∀ j < i, field d (40 + 40 * j + 24) 8 ≠ identifier) ∧
    (mapAddress identifier m = none ↔ ∀ i < field d 36 4, field d (40 + 40 * i + 24) 8 ≠ identifier) := by
  refine ⟨mapEntries d, (readMap_iff d v.size _).2 ⟨v, rfl⟩, ?_, ?_⟩
  · rw [c41_found_iff]
    generalize hn : field d 36 4 = n
    unfold mapEntries
    rw [hn]
    constructor
    · rintro ⟨p, q, hm, hp⟩
      have hl : n = p.length + (q.length + 1) := by
        have := congrArg List.length hm
        simpa using this
      have hget : ∀ i < n, (p ++ (identifier, address) :: q)[i]? = some (field d (40 + 40 * i + 24) 8, field d (40 + 40 * i + 32) 8) := by
        intro i hi
        rw [← hm, List.getElem?_map, List.getElem?_range hi]
        rfl
      refine ⟨p.length, by omega, ?_, ?_, ?_⟩
      · have := hget p.length (by omega)
        rw [List.getElem?_append_right (Nat.le_refl _)] at this
        simp at this
        exact this.1.symm
      · have := hget p.length (by omega)
        rw [List.getElem?_append_right (Nat.le_refl _)] at this
        simp at this
        exact this.2.symm
      · intro j hj
        have := hget j (by omega)
        rw [List.getElem?_append_left hj] at this
        exact hp _ (List.mem_of_getElem? this)
    · rintro ⟨i, hi, h1, h2, h3⟩
      refine ⟨(List.range i).map (fun i => (field d (40 + 40 * i + 24) 8, field d (40 + 40 * i + 32) 8)),
        (List.range (n - i - 1)).map (fun k => (field d (40 + 40 * (i + 1 + k) + 24) 8, field d (40 + 40 * (i + 1 + k) + 32) 8)), ?_, ?_⟩
      · apply List.ext_getElem?
        intro k
        by_cases hk : k < i
        · rw [List.getElem?_append_left (by simpa using hk), List.getElem?_map, List.getElem?_map, List.getElem?_range (by omega), List.getElem?_range hk]
        · rw [List.getElem?_append_right (by simpa using hk)]
          simp only [List.length_map, List.length_range]
          by_cases hk' : k = i
          · subst hk'
            rw [List.getElem?_map, List.getElem?_range hi]
            simp [h1, h2]
          · obtain ⟨e, rfl⟩ : ∃ e, k = i + 1 + e := ⟨k - i - 1, by omega⟩
            rw [show i + 1 + e - i = e + 1 by omega, List.getElem?_cons_succ, List.getElem?_map, List.getElem?_map]
            by_cases he : i + 1 + e < n
            · rw [List.getElem?_range he, List.getElem?_range (by omega)]
              rfl
            · rw [List.getElem?_eq_none (by simp; omega), List.getElem?_eq_none (by simp; omega)]
              rfl
      · intro e he
        obtain ⟨j, hj, rfl⟩ := List.mem_map.1 he
        exact h3 j (List.mem_range.1 hj)
  · rw [c41_not_found_iff]
    unfold mapEntries
    constructor
    · intro h i hi
      exact h _ (List.mem_map.2 ⟨i, List.mem_range.2 hi, rfl⟩)
    · intro h e he
      obtain ⟨j, hj, rfl⟩ := List.mem_map.1 he
      exact h j (List.mem_range.1 hj)

/-- a checkpoint map with two entries of object 1029 -/
def exampleMap : Bytes :=
  let p := toLE 8 2 ++ toLE 8 7 ++ toLE 4 0x4000000c ++ toLE 4 0 ++ toLE 4 1 ++ toLE 4 3 ++
    (List.replicate 24 0 ++ toLE 8 1024 ++ toLE 8 70) ++ (List.replicate 24 0 ++ toLE 8 1029 ++ toLE 8 71) ++ (List.replicate 24 0 ++ toLE 8 1029 ++ toLE 8 72) ++
    List.replicate 3936 0
  match Checksum.fletcher64 p 0 with
  | ok v => toLE 8 v ++ p
  | _ => []

theorem exampleMap_length : exampleMap.length = 4096 := by decide +kernel

/-- the hypotheses hold for a map with entries -/
theorem exampleMap_valid : ValidMap exampleMap :=
  ((readMap_iff exampleMap exampleMap_length [(1024, 70), (1029, 71), (1029, 72)]).1 (by decide +kernel)).1

attribute [irreducible] exampleMap

example : ValidMap exampleMap ∧ readMap exampleMap = ok [(1024, 70), (1029, 71), (1029, 72)] ∧ mapAddress 1029 [(1024, 70), (1029, 71), (1029, 72)] = some 71 ∧
    mapAddress 1030 [(1024, 70), (1029, 71), (1029, 72)] = none := ⟨exampleMap_valid, by decide +kernel, by decide, by decide⟩

end Verif.Props
