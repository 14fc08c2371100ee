import Verif.Lemmas.NameAgree
import Verif.Lemmas.Utf
/-!
# Lemmas about the name hash
-/
namespace Verif
open Res
namespace Name
open Spec (excluded InOrder utf32le)

theorem insertMark_order (c : Nat) (s : List Nat) (h : InOrder (c :: s)) : Spec.Unicode.insertMark c s = c :: s := by
  cases s with
  | nil => rfl
  | cons d s =>
    unfold Spec.Unicode.insertMark
    rw [if_neg h.1]

theorem order_of_inOrder (s : List Nat) (h : InOrder s) : Spec.Unicode.canonicalOrder s = s := by
  induction s with
  | nil => rfl
  | cons c s ih =>
    have hs : InOrder s := by
      cases s with
      | nil => trivial
      | cons d s => exact h.2
    have : Spec.Unicode.canonicalOrder (c :: s) = Spec.Unicode.insertMark c (Spec.Unicode.canonicalOrder s) := rfl
    rw [this, ih hs, insertMark_order c s h]

theorem foldlM_hashCharacter (cs : List Nat) (s : BitVec 32) : cs.foldlM hashCharacter s = ok (Spec.crc s (utf32le cs)) := by
  induction cs generalizing s with
  | nil => rfl
  | cons c cs ih =>
    have h1 : hashCharacter s c = ok (Spec.crc s (toLE 4 c)) := Checksum.weakCrc32_eq (toLE 4 c) s
    have h2 : toLE 4 c = [UInt8.ofNat c, UInt8.ofNat (c / 2 ^ 8), UInt8.ofNat (c / 2 ^ 16), UInt8.ofNat (c / 2 ^ 24)] := by
      have hm : ∀ n, UInt8.ofNat (n % 256) = UInt8.ofNat n := fun n => UInt8.toNat_inj.1 (by simp)
      simp only [toLE, Nat.div_div_eq_div_mul, hm]
    rw [List.foldlM_cons, h1, ok_bind, ih, h2]
    simp [Spec.crc, utf32le]

/-- what is hashed of a string of characters -/
theorem hashLoop_decodes {α : Type} (dec : Decoder α) (folding : Bool) (form : Nat → List Nat) (str : List α) (cs : List Nat) (r : List α)
    (hd : Decodes dec str cs r) (h0 : ∀ c ∈ cs, c ≠ 0) (hf : ∀ c ∈ cs, hashCharacters folding c = ok (form c)) (s : BitVec 32) :
    hashLoop dec folding s str = hashLoop dec folding (Spec.crc s (utf32le (cs.flatMap form))) r := by
  induction hd generalizing s with
  | done => rfl
  | @step str t r c cs h hs ih =>
    have hne := next_ne_nil dec h
    conv => lhs; unfold hashLoop
    rw [if_neg hne]
    split
    · rename_i hn; rw [hn] at h; cases h
    · rename_i c' rest hn
      rw [hn] at h
      cases h
      rw [if_neg (h0 c (List.mem_cons_self ..)), hf c (List.mem_cons_self ..), ok_bind, foldlM_hashCharacter, ok_bind,
        ih (fun c hc => h0 c (List.mem_cons_of_mem _ hc)) (fun c hc => hf c (List.mem_cons_of_mem _ hc))]
      simp [Spec.crc, utf32le]

theorem hashLoop_nil {α : Type} (dec : Decoder α) (folding : Bool) (s : BitVec 32) : hashLoop dec folding s [] = ok s := by
  unfold hashLoop
  rw [if_pos rfl]

theorem hashLoop_nul {α : Type} (dec : Decoder α) (folding : Bool) (s : BitVec 32) (str t : List α) (h : dec.next str = some (0, t)) :
    hashLoop dec folding s str = ok s := by
  unfold hashLoop
  rw [if_neg (next_ne_nil dec h)]
  split
  · rename_i hn; rw [hn] at h; cases h
  · rename_i hn
    rw [hn] at h
    cases h
    rw [if_pos rfl]

/-- the name in the string: all of it, or what is before the first end-of-string character -/
def Reads {α : Type} (dec : Decoder α) (str : List α) (cs : List Nat) : Prop :=
  (∀ c ∈ cs, c ≠ 0) ∧ ∃ r, Decodes dec str cs r ∧ (r = [] ∨ ∃ t, dec.next r = some (0, t))

theorem hashLoop_reads {α : Type} (dec : Decoder α) (folding : Bool) (form : Nat → List Nat) (str : List α) (cs : List Nat)
    (hr : Reads dec str cs) (hf : ∀ c ∈ cs, hashCharacters folding c = ok (form c)) (s : BitVec 32) :
    hashLoop dec folding s str = ok (Spec.crc s (utf32le (cs.flatMap form))) := by
  obtain ⟨h0, r, hd, he⟩ := hr
  rw [hashLoop_decodes dec folding form str cs r hd h0 hf]
  rcases he with he | ⟨t, ht⟩
  · subst he; exact hashLoop_nil ..
  · exact hashLoop_nul dec folding _ r t ht

theorem nameHash_reads {α : Type} (dec : Decoder α) (folding : Bool) (form : Nat → List Nat) (str : List α) (cs : List Nat)
    (hr : Reads dec str cs) (hf : ∀ c ∈ cs, hashCharacters folding c = ok (form c)) :
    nameHash dec folding str = ok ((Spec.crc 0xffffffff#32 (utf32le (cs.flatMap form))).toNat % 2 ^ 22) := by
  unfold nameHash
  rw [hashLoop_reads dec folding form str cs hr hf, ok_bind]
  show ok _ = ok _
  congr 1
  rw [BitVec.toNat_and]
  exact Nat.and_two_pow_sub_one_eq_mod _ 22

theorem nameHash_lt {α : Type} (dec : Decoder α) (folding : Bool) (str : List α) (v : Nat) (h : nameHash dec folding str = ok v) : v < 2 ^ 22 := by
  unfold nameHash at h
  simp only [bind_eq_ok] at h
  obtain ⟨s, _, h⟩ := h
  cases h
  rw [BitVec.toNat_and]
  exact Nat.lt_of_le_of_lt Nat.and_le_right (by decide)

theorem safe_hashLoop {α : Type} (dec : Decoder α) (folding : Bool) (s : BitVec 32) (str : List α) : Safe (hashLoop dec folding s str) := by
  fun_induction hashLoop dec folding s str with
  | case1 => exact safe_ok _
  | case2 => exact safe_err
  | case3 => exact safe_ok _
  | case4 s str hne c rest hn hc ih =>
    obtain ⟨cs, h, _⟩ := hashCharacters_ok folding c
    rw [h, ok_bind, foldlM_hashCharacter, ok_bind]
    exact ih _

end Name
end Verif
