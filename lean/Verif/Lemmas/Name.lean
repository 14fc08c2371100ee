import Verif.Model.Name
import Verif.Lemmas.Checksum
import Verif.Lemmas.Base
/-!
# Lemmas about the name tables
-/
namespace Verif
open Res
namespace Name

/-- every table has a row for every code point of its range -/
def fits {β : Type} (rs : List (Nat × Nat × List β)) : Prop := ∀ r ∈ rs, r.2.1 - r.1 < r.2.2.length

theorem readRanges_ok {β : Type} (rs : List (Nat × Nat × List β)) (h : fits rs) (c : Nat) : ∃ r, readRanges rs c = ok r := by
  induction rs with
  | nil => exact ⟨none, rfl⟩
  | cons r rs ih =>
    obtain ⟨lo, hi, t⟩ := r
    unfold readRanges
    split
    · rename_i hc
      have hl : hi - lo < t.length := h (lo, hi, t) (List.mem_cons_self ..)
      have : c - lo < t.length := by omega
      rw [List.getElem?_eq_getElem this]
      exact ⟨some t[c - lo], rfl⟩
    · exact ih (fun r hr => h r (List.mem_cons_of_mem _ hr))

theorem readRanges_mem {β : Type} (rs : List (Nat × Nat × List β)) (c : Nat) (x : β) (h : readRanges rs c = ok (some x)) :
    ∃ r ∈ rs, x ∈ r.2.2 := by
  induction rs with
  | nil => cases h
  | cons r rs ih =>
    obtain ⟨lo, hi, t⟩ := r
    unfold readRanges at h
    split at h
    · cases ht : t[c - lo]? with
      | none => rw [ht] at h; cases h
      | some y =>
        rw [ht] at h
        cases h
        exact ⟨_, List.mem_cons_self .., List.mem_of_getElem? ht⟩
    · obtain ⟨r, hr, hx⟩ := ih h
      exact ⟨r, List.mem_cons_of_mem _ hr, hx⟩

/-- the code point is in a range -/
def covered {β : Type} (rs : List (Nat × Nat × List β)) (c : Nat) : Bool := rs.any (fun r => decide (r.1 ≤ c ∧ c ≤ r.2.1))

theorem readRanges_none {β : Type} (rs : List (Nat × Nat × List β)) (c : Nat) (h : covered rs c = false) : readRanges rs c = ok none := by
  induction rs with
  | nil => rfl
  | cons r rs ih =>
    obtain ⟨lo, hi, t⟩ := r
    simp only [covered, List.any_cons, Bool.or_eq_false_iff, decide_eq_false_iff_not] at h
    unfold readRanges
    rw [if_neg h.1]
    exact ih h.2

theorem fits_fold : fits foldRanges := by unfold fits; decide +kernel
theorem fits_nfd : fits nfdRanges := by unfold fits; decide +kernel

/-- number of characters of a row is between 1 and 4 -/
def goodRow (r : Row) : Prop := 1 ≤ r.1 ∧ r.1 ≤ 4

instance (r : Row) : Decidable (goodRow r) := inferInstanceAs (Decidable (_ ∧ _))

theorem good_nfd : ∀ r ∈ nfdRanges, ∀ x ∈ r.2.2, goodRow x := by decide +kernel
theorem good_1f80 : ∀ x ∈ special1f80, goodRow x := by decide +kernel
theorem good_special : ∀ x ∈ specialCases, goodRow x.2 := by decide +kernel

theorem rowCharacters_good (r : Row) (h : goodRow r) : ∃ cs, rowCharacters r = ok cs ∧ 1 ≤ cs.length ∧ cs.length ≤ 4 := by
  unfold rowCharacters
  rw [if_pos h.2]
  exact ⟨_, rfl, by simp [h.1], by simp [h.2]⟩

theorem fold_ok (c : Nat) : ∃ f, fold c = ok f := by
  obtain ⟨r, hr⟩ := readRanges_ok foldRanges fits_fold c
  unfold fold
  rw [hr]
  cases r with
  | none => exact ⟨c, rfl⟩
  | some f => exact ⟨f, rfl⟩

theorem decompose_ok (c : Nat) : ∃ cs, decompose c = ok cs ∧ 1 ≤ cs.length ∧ cs.length ≤ 4 := by
  obtain ⟨r, hr⟩ := readRanges_ok nfdRanges fits_nfd c
  unfold decompose
  rw [hr]
  cases r with
  | none => exact ⟨[c], rfl, by simp, by simp⟩
  | some m =>
    obtain ⟨r, hm, hx⟩ := readRanges_mem _ _ _ hr
    exact rowCharacters_good m (good_nfd r hm m hx)

theorem lookup_mem {β : Type} (l : List (Nat × β)) (c : Nat) (x : β) (h : l.lookup c = some x) : (c, x) ∈ l := by
  induction l with
  | nil => cases h
  | cons p ps ih =>
    obtain ⟨k, v⟩ := p
    simp only [List.lookup] at h
    split at h
    · rename_i hk
      cases h
      have : c = k := by simpa using hk
      subst this
      exact List.mem_cons_self ..
    · exact List.mem_cons_of_mem _ (ih h)

theorem special1f80_ok (f : Nat) (h : f ≥ 0x1f80 ∧ f ≤ 0x1faf) : ∃ m, special1f80[f - 0x1f80]? = some m ∧ goodRow m := by
  have hg := good_1f80
  have hl : special1f80.length = 48 := by decide +kernel
  revert hg hl
  generalize special1f80 = t
  intro hg hl
  have : f - 0x1f80 < t.length := by omega
  exact ⟨_, List.getElem?_eq_getElem this, hg _ (List.getElem_mem this)⟩

theorem hashCharacters_ok (folding : Bool) (c : Nat) : ∃ cs, hashCharacters folding c = ok cs ∧ 1 ≤ cs.length ∧ cs.length ≤ 4 := by
  unfold hashCharacters
  cases folding with
  | false => simpa using decompose_ok c
  | true =>
    obtain ⟨f, hf⟩ := fold_ok c
    rw [if_pos rfl, hf, ok_bind]
    split
    · rename_i hr
      obtain ⟨m, hm, hg⟩ := special1f80_ok f hr
      rw [hm]
      exact rowCharacters_good m hg
    · split
      · rename_i m hm
        exact rowCharacters_good m (good_special _ (lookup_mem _ _ _ hm))
      · exact decompose_ok f

theorem compareMapping_ok (folding : Bool) (c : Nat) : ∃ cs, compareMapping folding c = ok cs ∧ 1 ≤ cs.length ∧ cs.length ≤ 4 := by
  unfold compareMapping
  cases folding with
  | false => simpa using decompose_ok c
  | true =>
    obtain ⟨f, hf⟩ := fold_ok c
    rw [if_pos rfl, hf, ok_bind]
    exact decompose_ok f

end Name
end Verif
