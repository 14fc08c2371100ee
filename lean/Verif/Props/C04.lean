import Verif.Lemmas.Adler
/-!
# C04 – Adler-32
-/
namespace Verif.Props
open Verif Res Spec

/-- For every buffer the library can hold and every previous value, the computed Adler-32 is the RFC 1950 one. In
particular 32-bit sums never wrap (wrapping is part of the model), and no byte outside the buffer is read. -/
theorem c04_adler32_exact (d : Bytes) (init : Nat) (hd : d.length ≤ 2 ^ 63 - 1) :
    Adler.adler32 d init = ok (Spec.adler32 init d) := Adler.adler32_eq d init hd

/-- Computing the checksum piecewise gives the checksum of the whole. -/
theorem c04_adler32_chains (a b : Bytes) (hd : (a ++ b).length ≤ 2 ^ 63 - 1) (init : Nat) :
    (Adler.adler32 a init >>= fun v => Adler.adler32 b v) = Adler.adler32 (a ++ b) init := by
  rw [List.length_append] at hd
  rw [c04_adler32_exact a init (by omega), ok_bind, c04_adler32_exact b _ (by omega),
    c04_adler32_exact (a ++ b) _ (by simp; omega)]
  refine congrArg Res.ok ?_
  unfold Spec.adler32
  rw [List.foldl_append]
  have hb : (List.foldl adlerStep (init % 65536, init / 65536 % 65536) a).1 < 65536 ∧
      (List.foldl adlerStep (init % 65536, init / 65536 % 65536) a).2 < 65536 := by
    cases a with
    | nil => simp; omega
    | cons x a =>
      have := Adler.foldl_adler_lt (x :: a) (init % 65536) (init / 65536 % 65536) (by simp)
      omega
  generalize List.foldl adlerStep (init % 65536, init / 65536 % 65536) a = s at hb
  obtain ⟨s1, s2⟩ := s
  simp only at hb ⊢
  rw [show (s2 * 65536 + s1) % 65536 = s1 by omega, show (s2 * 65536 + s1) / 65536 % 65536 = s2 by omega]

/-- The iterative definition has the closed form of RFC 1950 section 8.2. -/
theorem c04_closed_form (d : Bytes) (hd : d.length ≤ 2 ^ 63 - 1) :
    Adler.adler32 d 1 = ok (adlerB d * 65536 + adlerA d) := by
  rw [c04_adler32_exact d 1 hd]
  refine congrArg Res.ok ?_
  unfold Spec.adler32
  have key : ∀ (d : Bytes) (a b : Nat), a < 65521 → b < 65521 → d.foldl adlerStep (a, b) =
      ((a + (d.map UInt8.toNat).sum) % 65521, (b + d.length * a + adlerBsum d) % 65521) := by
    intro d
    induction d with
    | nil => intro a b ha hb; simp [adlerBsum, Nat.mod_eq_of_lt ha, Nat.mod_eq_of_lt hb]
    | cons x d ih =>
      intro a b ha hb
      rw [List.foldl_cons, adlerStep, ih _ _ (Nat.mod_lt _ (by omega)) (Nat.mod_lt _ (by omega))]
      simp only [List.map_cons, List.sum_cons, List.length_cons, adlerBsum]
      congr 1
      · omega
      · have h1 : (d.length * ((a + x.toNat) % 65521)) % 65521 = (d.length * (a + x.toNat)) % 65521 := by
          rw [Nat.mul_mod, Nat.mod_mod, ← Nat.mul_mod]
        have h2 : (d.length + 1) * a = d.length * a + a := by rw [Nat.add_mul]; omega
        have h3 : (d.length + 1) * x.toNat = d.length * x.toNat + x.toNat := by rw [Nat.add_mul]; omega
        rw [Nat.mul_add] at h1
        rw [h2, h3]
        omega
  rw [key d _ _ (by decide) (by decide)]
  simp [adlerA, adlerB]

/-- Changing any single byte changes the checksum. -/
theorem c04_detects_byte_change (pre post : Bytes) (x y : UInt8) (hxy : x ≠ y)
    (hd : (pre ++ x :: post).length ≤ 2 ^ 63 - 1) :
    Adler.adler32 (pre ++ x :: post) 1 ≠ Adler.adler32 (pre ++ y :: post) 1 := by
  rw [c04_closed_form _ hd, c04_closed_form _ (by simpa using hd)]
  intro h
  injection h with h
  have hA : adlerA (pre ++ x :: post) = adlerA (pre ++ y :: post) := by
    have h1 : adlerA (pre ++ x :: post) < 65521 := Nat.mod_lt _ (by omega)
    have h2 : adlerA (pre ++ y :: post) < 65521 := Nat.mod_lt _ (by omega)
    omega
  unfold adlerA at hA
  simp only [List.map_append, List.sum_append, List.map_cons, List.sum_cons] at hA
  have hx := x.toNat_lt
  have hy := y.toNat_lt
  have : x.toNat = y.toNat := by omega
  exact hxy (UInt8.toNat_inj.1 this)

/-- RFC 1950 value of "Wikipedia" -/
example : Adler.adler32 [0x57, 0x69, 0x6b, 0x69, 0x70, 0x65, 0x64, 0x69, 0x61] 1 = ok 0x11E60398 := by
  rw [c04_adler32_exact _ _ (by decide)]
  decide +kernel

end Verif.Props
