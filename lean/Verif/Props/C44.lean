import Verif.Lemmas.NameAgree
/-!
# C44 – case folding and decomposition tables
-/
namespace Verif.Props
open Verif Res Name

/-- Case folding reads inside its tables for every code point. -/
theorem c44_fold (c : Nat) : ∃ f, fold c = ok f := fold_ok c

/-- Decomposition reads inside its tables for every code point and gives between one and four characters. -/
theorem c44_decompose (c : Nat) : ∃ cs, decompose c = ok cs ∧ 1 ≤ cs.length ∧ cs.length ≤ 4 := decompose_ok c

/-- The same holds for what is hashed and what is compared, in both modes. -/
theorem c44_hash (folding : Bool) (c : Nat) : ∃ cs, hashCharacters folding c = ok cs ∧ 1 ≤ cs.length ∧ cs.length ≤ 4 := hashCharacters_ok folding c

theorem c44_compare (folding : Bool) (c : Nat) : ∃ cs, compareMapping folding c = ok cs ∧ 1 ≤ cs.length ∧ cs.length ≤ 4 := compareMapping_ok folding c

-- a row with four characters
example : decompose 0x1f82 = ok [0x3b1, 0x313, 0x300, 0x345] := by decide +kernel

/-- Case folding a folded character does not change it. -/
theorem c44_fold_idempotent (c f : Nat) (h : fold c = ok f) : fold f = ok f := fold_idempotent c f h

example : fold 0x41 = ok 0x61 := by decide +kernel

/-- Decompositions are complete: their characters have no decomposition. -/
theorem c44_decompose_full (c : Nat) (m : List Nat) (h : decompose c = ok m) : ∀ d ∈ m, decompose d = ok [d] := decompose_full c m h

example : decompose 0x1e09 = ok [0x63, 0x327, 0x301] := by decide +kernel

/-- The decomposition of every character is that of Unicode, except Hangul syllables and characters that were added to Unicode later. -/
theorem c44_unicode (c : Nat) (h : Spec.excluded c = false) : decompose c = ok (Spec.Unicode.decomposition c) := decompose_agrees c h

example : Spec.excluded 0xc5 = false ∧ Spec.Unicode.decomposition 0xc5 = [0x41, 0x30a] := by decide +kernel

/-- Hangul syllables other than the first and the last are not decomposed, although Unicode decomposes all of them. -/
theorem c44_hangul (c : Nat) (h : 0xac00 < c ∧ c < 0xd7a3) : decompose c = ok [c] ∧ Spec.Unicode.decomposition c ≠ [c] := by
  constructor
  · have hk : nfdSparse.all (fun e => Nat.ble e.1 0xac00 || Nat.ble 0xd7a3 e.1) = true := by decide +kernel
    rw [decompose_eq, lookup_none nfdSparse c]
    · rfl
    · intro e he hc
      have := List.all_eq_true.1 hk e he
      simp only [Bool.or_eq_true, Nat.ble_eq] at this
      omega
  · unfold Spec.Unicode.decomposition Spec.Unicode.isHangul
    rw [decide_eq_true (⟨by omega, by omega⟩ : 0xac00 ≤ c ∧ c ≤ 0xd7a3)]
    simp only [if_true, Spec.Unicode.hangul]
    split <;> simp

example : decompose 0xac01 = ok [0xac01] ∧ Spec.Unicode.decomposition 0xac01 = [0x1100, 0x1161, 0x11a8] := by decide +kernel

end Verif.Props
