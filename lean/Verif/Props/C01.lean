import Verif.Lemmas.Checksum
/-!
# C01 – object checksums
-/
namespace Verif.Props
open Verif Res Checksum Spec

/-- The computed checksum is exactly the (unique) pair of APFS Fletcher-64 check words, for every
buffer of whole 32-bit words up to the size at which the 64-bit sums could wrap (370 KB; the library
only passes block remainders of 4088 bytes). -/
theorem c01_fletcher64_exact (d : Bytes) (h4 : d.length % 4 = 0) (hl : d.length ≤ 4 * 92681) (v : Nat) :
    fletcher64 d 0 = ok v ↔ ∃ c1 c2, v = c2 * 2 ^ 32 + c1 ∧ FletcherValid (leWords d) c1 c2 := by
  obtain ⟨ws, c1, c2, e1, e2, hv⟩ := fletcher64_eq d h4 hl
  rw [words_eq_leWords d h4] at e1
  cases e1
  constructor
  · intro h
    rw [e2] at h; cases h
    exact ⟨c1, c2, rfl, hv⟩
  · rintro ⟨d1, d2, rfl, hv'⟩
    obtain ⟨rfl, rfl⟩ := hv.unique hv'
    exact e2

example : fletcher64 [1, 0, 0, 0, 2, 0, 0, 0] 0 = ok (0x4fffffff8) := by decide

/-- a buffer that is not a whole number of words is refused -/
theorem c01_refuses_partial_words (d : Bytes) (i : Nat) (h4 : d.length % 4 ≠ 0) : fletcher64 d i = err := by
  simp [fletcher64, h4]

example : ([1, 2, 3] : Bytes).length % 4 ≠ 0 := by decide

/-- An object is accepted exactly if its first eight bytes are the Fletcher-64 check words of the
remaining bytes; otherwise it is refused, never read out of bounds. -/
theorem c01_object_accept_iff (block : Bytes) (h8 : 8 ≤ block.length) (h4 : block.length % 4 = 0)
    (hl : block.length ≤ 4 * 92681 + 8) :
    (checkObject block = ok () ↔
      ∃ c1 c2, block.take 8 = toLE 4 c1 ++ toLE 4 c2 ∧ FletcherValid (leWords (block.drop 8)) c1 c2) ∧
    (checkObject block = ok () ∨ checkObject block = err) := by
  obtain ⟨ws, c1, c2, e1, e2, hv⟩ := fletcher64_eq (block.drop 8) (by simp; omega) (by simp [maxWords]; omega)
  rw [words_eq_leWords _ (by simp; omega)] at e1
  cases e1
  have hle : leNat (toLE 4 c1 ++ toLE 4 c2) = c2 * 2 ^ 32 + c1 := by
    have := hv.c1_le; have := hv.c2_le
    simp only [fletcherM] at *
    rw [leNat_append, leNat_toLE _ _ (by omega), leNat_toLE _ _ (by omega), length_toLE]
    omega
  have hck : checkObject block = require (leNat (block.take 8) = c2 * 2 ^ 32 + c1) := by
    unfold checkObject
    rw [rdLE_le (by omega)]
    simp only [ok_bind, e2, List.drop_zero]
  have hiff : leNat (block.take 8) = c2 * 2 ^ 32 + c1 ↔ block.take 8 = toLE 4 c1 ++ toLE 4 c2 := by
    constructor
    · intro h
      refine leNat_inj ?_ (by rw [h, hle])
      simp; omega
    · intro h; rw [h, hle]
  constructor
  · rw [hck, require_eq_ok, hiff]
    constructor
    · intro h; exact ⟨c1, c2, h, hv⟩
    · rintro ⟨d1, d2, h, hv'⟩
      obtain ⟨rfl, rfl⟩ := hv.unique hv'
      exact h
  · rw [hck]; unfold require; split <;> simp

example : checkObject ([0xf8, 0xff, 0xff, 0xff, 4, 0, 0, 0, 1, 0, 0, 0, 2, 0, 0, 0] : Bytes) = ok () := by decide

theorem c01_write_then_verify_aux (p : Bytes) (v : Nat) (hlt : v < 256 ^ 8) (hv : fletcher64 p 0 = ok v) :
    checkObject (toLE 8 v ++ p) = ok () := by
  unfold checkObject
  rw [rdLE_le (by simp)]
  simp only [List.drop_zero, ok_bind, List.drop_left' (length_toLE 8 v), List.take_left' (length_toLE 8 v), hv]
  rw [leNat_toLE _ _ hlt]
  exact require_true rfl

/-- Writing an object with its checksum and reading it back succeeds. -/
theorem c01_write_then_verify (p : Bytes) (h4 : p.length % 4 = 0) (hl : p.length ≤ 4 * 92681) (v : Nat)
    (hv : fletcher64 p 0 = ok v) : checkObject (toLE 8 v ++ p) = ok () := by
  obtain ⟨c1, c2, hvc, hval⟩ := (c01_fletcher64_exact p h4 hl v).1 hv
  have b1 := hval.c1_le
  have b2 := hval.c2_le
  refine c01_write_then_verify_aux p v ?_ hv
  simp only [fletcherM] at b1 b2; omega

example : fletcher64 [1, 0, 0, 0, 2, 0, 0, 0] 0 = ok (4 * 2 ^ 32 + 0xfffffff8) := by decide

/-- Any change confined to two adjacent words of an accepted object is detected, unless it only
exchanges the two representations 0 and 2^32-1 of zero in a word. The position is arbitrary. -/
theorem c01_detects_burst (chk pre mid mid' post : Bytes) (hc : chk.length = 8) (hp : pre.length % 4 = 0)
    (hm : mid.length = 8) (hm' : mid'.length = 8) (hq : post.length % 4 = 0)
    (hl : pre.length + 8 + post.length ≤ 4 * 92681)
    (hne : (leWords mid).map (· % (2 ^ 32 - 1)) ≠ (leWords mid').map (· % (2 ^ 32 - 1)))
    (hok : checkObject (chk ++ (pre ++ mid ++ post)) = ok ()) :
    checkObject (chk ++ (pre ++ mid' ++ post)) = err := by
  have A := (c01_object_accept_iff (chk ++ (pre ++ mid ++ post)) (by simp; omega) (by simp; omega) (by simp; omega)).1
  have B := c01_object_accept_iff (chk ++ (pre ++ mid' ++ post)) (by simp; omega) (by simp; omega) (by simp; omega)
  rcases B.2 with hB | hB
  · exfalso
    obtain ⟨c1, c2, e, v⟩ := A.1 hok
    obtain ⟨d1, d2, e', v'⟩ := B.1.1 hB
    have t : ∀ x, List.take 8 (chk ++ x) = chk := by
      intro x; exact List.take_left' hc
    have dr : ∀ x, List.drop 8 (chk ++ x) = x := by
      intro x; exact List.drop_left' hc
    rw [t] at e e'
    rw [dr] at v v'
    have b1 := v.c1_le; have b2 := v.c2_le; have b3 := v'.c1_le; have b4 := v'.c2_le
    have ee : toLE 4 c1 = toLE 4 d1 ∧ toLE 4 c2 = toLE 4 d2 := by
      rw [e] at e'
      exact List.append_inj e' (by simp)
    have e1 : c1 = d1 := by
      simp only [fletcherM] at *
      rw [← leNat_toLE 4 c1 (by omega), ← leNat_toLE 4 d1 (by omega), ee.1]
    have e2 : c2 = d2 := by
      simp only [fletcherM] at *
      rw [← leNat_toLE 4 c2 (by omega), ← leNat_toLE 4 d2 (by omega), ee.2]
    subst e1; subst e2
    -- two adjacent words
    match mid, hm, mid', hm' with
    | [a0, a1, a2, a3, a4, a5, a6, a7], _, [f0, f1, f2, f3, f4, f5, f6, f7], _ =>
      have s1 := v.s1; have s2 := v.s2; have s1' := v'.s1; have s2' := v'.s2
      rw [sum2_append2] at s2 s2'
      rw [List.append_assoc, leWords_append _ _ hp, leWords_append _ _ (by simp)] at s1 s2 s1' s2'
      simp only [leWords, List.map_cons, List.map_nil, ne_eq] at *
      generalize a0.toNat + 2 ^ 8 * a1.toNat + 2 ^ 16 * a2.toNat + 2 ^ 24 * a3.toNat = x at *
      generalize a4.toNat + 2 ^ 8 * a5.toNat + 2 ^ 16 * a6.toNat + 2 ^ 24 * a7.toNat = y at *
      generalize f0.toNat + 2 ^ 8 * f1.toNat + 2 ^ 16 * f2.toNat + 2 ^ 24 * f3.toNat = x' at *
      generalize f4.toNat + 2 ^ 8 * f5.toNat + 2 ^ 16 * f6.toNat + 2 ^ 24 * f7.toNat = y' at *
      simp only [sum2_append, List.sum_append, List.sum_cons, List.sum_nil, sum2, List.length_append,
        List.length_cons, List.length_nil] at s1 s2 s1' s2'
      -- name the common parts
      generalize (leWords pre).sum = P at *
      generalize sum2 (leWords pre) = P2 at *
      generalize (leWords post).sum = Q at *
      generalize sum2 (leWords post) = Q2 at *
      generalize (leWords post).length = n at *
      have key := burst_arith n (P + Q + c1 + c2) (P2 + (n + 2) * P + Q2 + 2 * P + 2 * Q + 2 * c1 + c2)
        x y x' y' (by rw [← s1]; simp only [fletcherM]; congr 1; omega)
        (by rw [← s1']; simp only [fletcherM]; congr 1; omega)
        (by
          rw [← s2]; simp only [fletcherM]; congr 1
          rw [show 0 + 1 + 1 + n = n + 2 by omega, show (0 + 1) + 1 = 2 by rfl]
          generalize (n + 2) * P = w
          rw [Nat.add_zero]
          generalize n * (x + y) = w2
          omega)
        (by
          rw [← s2']; simp only [fletcherM]; congr 1
          rw [show 0 + 1 + 1 + n = n + 2 by omega, show (0 + 1) + 1 = 2 by rfl]
          generalize (n + 2) * P = w
          rw [Nat.add_zero]
          generalize n * (x' + y') = w2
          omega)
      apply hne
      simp only [List.cons.injEq, and_true]
      exact key
  · exact hB

example : checkObject (([0xf8, 0xff, 0xff, 0xff, 4, 0, 0, 0] : Bytes) ++ ([] ++ [1, 0, 0, 0, 2, 0, 0, 0] ++ [])) = ok ()
    ∧ (leWords [1, 0, 0, 0, 2, 0, 0, 0]).map (· % (2 ^ 32 - 1)) ≠ (leWords [2, 0, 0, 0, 1, 0, 0, 0]).map (· % (2 ^ 32 - 1)) := by
  decide

/-- The exception in `c01_detects_burst` is real: exchanging an all-zero word with an all-one word is not detected
(a property of Fletcher-64 itself, not of this implementation). -/
theorem c01_zero_ones_alias :
    fletcher64 [0, 0, 0, 0] 0 = fletcher64 [0xff, 0xff, 0xff, 0xff] 0 := by decide

end Verif.Props
