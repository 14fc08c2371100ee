import Verif.Spec.Utf
import Verif.Model.Name
/-!
# Lemmas: decoders for UTF-8 and UTF-16
-/
namespace Verif
open Spec
namespace Name

theorem toNat8 (n : Nat) (h : n < 256) : (UInt8.ofNat n).toNat = n := by
  simp only [UInt8.toNat_ofNat']; omega

theorem toNat16 (n : Nat) (h : n < 65536) : (UInt16.ofNat n).toNat = n := by
  simp only [UInt16.toNat_ofNat']; omega

theorem tail8 (n : Nat) (h : n < 64) : Utf8.tail (UInt8.ofNat (0x80 + n)) = some n := by
  unfold Utf8.tail
  rw [toNat8 _ (by omega), if_pos (by omega), show 0x80 + n - 0x80 = n from by omega]

theorem utf8_encode (c : Nat) (h : Scalar c) (s : List UInt8) : Utf8.next (Utf8.encodeChar c ++ s) = some (c, s) := by
  have hc : c < 0x110000 := by unfold Scalar at h; omega
  unfold Utf8.encodeChar
  split
  · rename_i h1
    simp only [List.cons_append, List.nil_append, Utf8.next]
    rw [toNat8 _ (by omega), if_pos h1]
  · split
    · simp only [List.cons_append, List.nil_append, Utf8.next]
      rw [toNat8 _ (by omega), if_neg (by omega), if_neg (by omega), if_pos (by omega), tail8 _ (by omega)]
      simp only [Option.bind_eq_bind, Option.bind]
      have e : (0xc0 + c / 64 - 0xc0) * 64 + c % 64 = c := by omega
      rw [e, if_pos (by omega)]
    · split
      · simp only [List.cons_append, List.nil_append, Utf8.next]
        rw [toNat8 _ (by omega), if_neg (by omega), if_neg (by omega), if_neg (by omega), if_pos (by omega), tail8 _ (by omega), tail8 _ (by omega)]
        simp only [Option.bind_eq_bind, Option.bind]
        have e : (0xe0 + c / 4096 - 0xe0) * 4096 + c / 64 % 64 * 64 + c % 64 = c := by omega
        rw [e, if_pos ⟨by omega, h⟩]
      · simp only [List.cons_append, List.nil_append, Utf8.next]
        rw [toNat8 _ (by omega), if_neg (by omega), if_neg (by omega), if_neg (by omega), if_neg (by omega), if_pos (by omega), tail8 _ (by omega),
          tail8 _ (by omega), tail8 _ (by omega)]
        simp only [Option.bind_eq_bind, Option.bind]
        have e : (0xf0 + c / 262144 - 0xf0) * 262144 + c / 4096 % 64 * 4096 + c / 64 % 64 * 64 + c % 64 = c := by omega
        rw [e, if_pos ⟨by omega, h⟩]

theorem utf16_encode (c : Nat) (h : Scalar c) (s : List UInt16) : Utf16.next (Utf16.encodeChar c ++ s) = some (c, s) := by
  unfold Scalar at h
  unfold Utf16.encodeChar
  split
  · simp only [List.cons_append, List.nil_append, Utf16.next]
    rw [toNat16 _ (by omega), if_pos (by omega)]
  · simp only [List.cons_append, List.nil_append, Utf16.next]
    rw [toNat16 _ (by omega), toNat16 _ (by omega), if_neg (by omega), if_pos (by omega), if_pos (by omega)]
    have e : 0x10000 + (0xd800 + (c - 0x10000) / 1024 - 0xd800) * 1024 + (0xdc00 + (c - 0x10000) % 1024 - 0xdc00) = c := by omega
    rw [e]

theorem utf8_next (s : List UInt8) (c : Nat) (t : List UInt8) (h : Utf8.next s = some (c, t)) : t.length < s.length ∧ c < 2 ^ 32 := by
  cases s with
  | nil => cases h
  | cons a s =>
    have ha := a.toNat_lt
    have ht : ∀ b x, Utf8.tail b = some x → x < 64 := by
      intro b x hb
      unfold Utf8.tail at hb
      split at hb
      · have := Option.some.inj hb; omega
      · cases hb
    simp only [Utf8.next] at h
    split at h
    · cases h; exact ⟨Nat.lt_succ_self _, by omega⟩
    · split at h
      · cases h
      · split at h
        · cases s with
          | nil => cases h
          | cons b s =>
            simp only [Option.bind_eq_bind, Option.bind_eq_some_iff] at h
            obtain ⟨x, hx, h⟩ := h
            have := ht b x hx
            split at h
            · simp only [Option.some.injEq, Prod.mk.injEq] at h; exact ⟨by rw [← h.2]; simp only [List.length_cons]; omega, by omega⟩
            · cases h
        · split at h
          · match s, h with
            | [], h => cases h
            | [_], h => cases h
            | b :: d :: s, h =>
              simp only [Option.bind_eq_bind, Option.bind_eq_some_iff] at h
              obtain ⟨x, hx, y, hy, h⟩ := h
              have := ht b x hx
              have := ht d y hy
              split at h
              · simp only [Option.some.injEq, Prod.mk.injEq] at h; exact ⟨by rw [← h.2]; simp only [List.length_cons]; omega, by omega⟩
              · cases h
          · split at h
            · match s, h with
              | [], h => cases h
              | [_], h => cases h
              | [_, _], h => cases h
              | b :: d :: e :: s, h =>
                simp only [Option.bind_eq_bind, Option.bind_eq_some_iff] at h
                obtain ⟨x, hx, y, hy, z, hz, h⟩ := h
                have := ht b x hx
                have := ht d y hy
                have := ht e z hz
                split at h
                · simp only [Option.some.injEq, Prod.mk.injEq] at h; exact ⟨by rw [← h.2]; simp only [List.length_cons]; omega, by omega⟩
                · cases h
            · cases h

theorem utf16_next (s : List UInt16) (c : Nat) (t : List UInt16) (h : Utf16.next s = some (c, t)) : t.length < s.length ∧ c < 2 ^ 32 := by
  cases s with
  | nil => cases h
  | cons a s =>
    have ha := a.toNat_lt
    simp only [Utf16.next] at h
    split at h
    · cases h; exact ⟨Nat.lt_succ_self _, by omega⟩
    · split at h
      · cases s with
        | nil => cases h
        | cons b s =>
          have hb := b.toNat_lt
          simp only at h
          split at h
          · simp only [Option.some.injEq, Prod.mk.injEq] at h; exact ⟨by rw [← h.2]; simp only [List.length_cons]; omega, by omega⟩
          · cases h
      · cases h

/-- a decoder for UTF-8 -/
def utf8 : Decoder UInt8 where
  next := Utf8.next
  isNul := fun b => b == 0
  shorter := fun h => (utf8_next _ _ _ h).1
  bounded := fun h => (utf8_next _ _ _ h).2

/-- a decoder for UTF-16 -/
def utf16 : Decoder UInt16 where
  next := Utf16.next
  isNul := fun b => b == 0
  shorter := fun h => (utf16_next _ _ _ h).1
  bounded := fun h => (utf16_next _ _ _ h).2

/-- the string starts with the characters, followed by the rest -/
inductive Decodes {α : Type} (dec : Decoder α) : List α → List Nat → List α → Prop
  | done (s : List α) : Decodes dec s [] s
  | step {s t r : List α} {c : Nat} {cs : List Nat} (h : dec.next s = some (c, t)) (hs : Decodes dec t cs r) : Decodes dec s (c :: cs) r

theorem next_ne_nil {α : Type} (dec : Decoder α) {s t : List α} {c : Nat} (h : dec.next s = some (c, t)) : s ≠ [] := by
  intro e
  subst e
  have := dec.shorter h
  simp at this

theorem decodes_utf8 (cs : List Nat) (h : ∀ c ∈ cs, Scalar c) (r : List UInt8) : Decodes utf8 (Utf8.encode cs ++ r) cs r := by
  induction cs with
  | nil => exact .done r
  | cons c cs ih =>
    have hn := utf8_encode c (h c (List.mem_cons_self ..)) (Utf8.encode cs ++ r)
    refine .step (t := Utf8.encode cs ++ r) ?_ (ih (fun c hc => h c (List.mem_cons_of_mem _ hc)))
    show Utf8.next _ = _
    rw [← hn]
    simp [Utf8.encode]

theorem decodes_utf16 (cs : List Nat) (h : ∀ c ∈ cs, Scalar c) (r : List UInt16) : Decodes utf16 (Utf16.encode cs ++ r) cs r := by
  induction cs with
  | nil => exact .done r
  | cons c cs ih =>
    have hn := utf16_encode c (h c (List.mem_cons_self ..)) (Utf16.encode cs ++ r)
    refine .step (t := Utf16.encode cs ++ r) ?_ (ih (fun c hc => h c (List.mem_cons_of_mem _ hc)))
    show Utf16.next _ = _
    rw [← hn]
    simp [Utf16.encode]

end Name
end Verif
