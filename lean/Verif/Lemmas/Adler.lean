import Verif.Model.Adler
import Verif.Spec.Adler
namespace Verif.Adler
open Res Spec

theorem sumLoop_add (d : Bytes) (a b off l u : Nat) :
    sumLoop d off (a + b) l u = (sumLoop d off a l u >>= fun p => sumLoop d (off + a) b p.1 p.2) := by
  induction a generalizing off l u with
  | zero => simp [sumLoop]
  | succ a ih =>
    rw [show a + 1 + b = (a + b) + 1 by omega]
    simp only [sumLoop]
    cases h : rd d off with
    | err => rfl
    | ub => rfl
    | ok v =>
      simp only [ok_bind]
      rw [ih, show off + 1 + a = off + (a + 1) by omega]

theorem blockLoop_eq (d : Bytes) (k off l u : Nat) : blockLoop d off k l u = sumLoop d off (16 * k) l u := by
  induction k generalizing off l u with
  | zero => rfl
  | succ k ih =>
    rw [show 16 * (k + 1) = 16 + 16 * k by omega, sumLoop_add, blockLoop]
    congr 1
    funext p
    obtain ⟨l, u⟩ := p
    exact ih _ _ _

theorem fold_spec (w : Nat) (h : w < 2 ^ 32) : ∃ v,
    ((w &&& 0xffff) + (((w >>> 16) <<< 4) - (w >>> 16))) % 2 ^ 32 = v ∧ v % 65521 = w % 65521 ∧
      v = w % 65536 + 15 * (w / 65536) := by
  have e : (w &&& 0xffff) = w % 65536 := Nat.and_two_pow_sub_one_eq_mod w 16
  have e2 : w >>> 16 = w / 65536 := Nat.shiftRight_eq_div_pow w 16
  have e3 : ∀ w : Nat, w <<< 4 = w * 16 := fun w => Nat.shiftLeft_eq w 4
  rw [e, e2, e3]
  refine ⟨_, ?_, ?_, rfl⟩
  · rw [show w / 65536 * 16 - w / 65536 = 15 * (w / 65536) by omega]
    exact Nat.mod_eq_of_lt (by omega)
  · have : w = 65536 * (w / 65536) + w % 65536 := by omega
    generalize w / 65536 = q at this ⊢
    generalize w % 65536 = r at this ⊢
    omega

theorem reduce_eq (w : Nat) (h : w < 2 ^ 32) : reduce w = w % 65521 := by
  obtain ⟨v, h1, h2, h3⟩ := fold_spec w h
  obtain ⟨v', h4, h5, h6⟩ := fold_spec v (by omega)
  unfold reduce
  simp only [h1, h4]
  split <;> split <;> omega

/-- triangular numbers -/
def tri : Nat → Nat
  | 0 => 0
  | n + 1 => tri n + n + 1

theorem tri_eq (n : Nat) : 2 * tri n = n * (n + 1) := by
  induction n with
  | zero => rfl
  | succ n ih => rw [tri, Nat.mul_add, Nat.mul_add, ih]; simp [Nat.mul_add, Nat.add_mul]; omega

theorem foldl_adler_congr (d : Bytes) (a b a' b' : Nat) (h1 : a % 65521 = a' % 65521) (h2 : b % 65521 = b' % 65521)
    (hd : d ≠ []) : d.foldl adlerStep (a, b) = d.foldl adlerStep (a', b') := by
  cases d with
  | nil => exact absurd rfl hd
  | cons x d =>
    simp only [List.foldl_cons]
    congr 1
    simp only [adlerStep]
    have : (a + x.toNat) % 65521 = (a' + x.toNat) % 65521 := by omega
    rw [this]
    congr 1
    omega

theorem foldl_adler_lt (d : Bytes) (a b : Nat) (hd : d ≠ []) :
    (d.foldl adlerStep (a, b)).1 < 65521 ∧ (d.foldl adlerStep (a, b)).2 < 65521 := by
  induction d generalizing a b with
  | nil => exact absurd rfl hd
  | cons x d ih =>
    cases d with
    | nil => simp only [List.foldl_cons, List.foldl_nil, adlerStep]; omega
    | cons y d => exact ih _ _ (by simp)

/-- Summation without reduction does not overflow and is congruent to the specification -/
theorem sumLoop_spec (d : Bytes) (n off l u : Nat) (ho : off + n ≤ d.length)
    (hl : l + 255 * n < 2 ^ 32) (hu : u + n * l + 255 * tri n < 2 ^ 32) :
    ∃ l' u', sumLoop d off n l u = ok (l', u') ∧ l' < 2 ^ 32 ∧ u' < 2 ^ 32 ∧
      l' % 65521 = (((d.drop off).take n).foldl adlerStep (l % 65521, u % 65521)).1 ∧
      u' % 65521 = (((d.drop off).take n).foldl adlerStep (l % 65521, u % 65521)).2 := by
  induction n generalizing off l u with
  | zero => exact ⟨l, u, rfl, by omega, by simp at hu; omega, by simp, by simp⟩
  | succ n ih =>
    have hlt : off < d.length := by omega
    have hx := d[off].toNat_lt
    rw [List.drop_eq_getElem_cons hlt, List.take_succ_cons, List.foldl_cons]
    simp only [sumLoop, rd_lt hlt, ok_bind]
    have hnl : (n + 1) * l = n * l + l := by rw [Nat.add_mul]; omega
    simp only [tri] at hu
    rw [hnl] at hu
    have hm : n * (l + d[off].toNat) ≤ n * l + n * 255 := by
      rw [Nat.mul_add]; exact Nat.add_le_add_left (Nat.mul_le_mul_left _ (by omega)) _
    rw [Nat.mod_eq_of_lt (by omega : l + d[off].toNat < 2 ^ 32),
      Nat.mod_eq_of_lt (by omega : u + (l + d[off].toNat) < 2 ^ 32)]
    obtain ⟨l', u', h1, h2, h3, h4, h5⟩ := ih (off + 1) (l + d[off].toNat) (u + (l + d[off].toNat)) (by omega) (by omega) (by omega)
    refine ⟨l', u', h1, h2, h3, ?_, ?_⟩
    · rw [h4]; congr 2
      simp only [adlerStep]; congr 1 <;> omega
    · rw [h5]; congr 2
      simp only [adlerStep]; congr 1 <;> omega

theorem take_add_drop (d : Bytes) (off n : Nat) : d.take (off + n) = d.take off ++ (d.drop off).take n := by
  rw [List.take_add]

/-- one block of at most 5552 bytes starting with 16-bit words -/
theorem block_spec (d : Bytes) (n off l u : Nat) (s : Nat × Nat) (ho : off + n ≤ d.length) (hn0 : 0 < n) (hn : n ≤ 5552)
    (hl : l ≤ 65535) (hu : u ≤ 65535) (hs : (l, u) = (d.take off).foldl adlerStep s) :
    ∃ l' u', sumLoop d off n l u = ok (l', u') ∧
      (reduce l', reduce u') = (d.take (off + n)).foldl adlerStep s ∧ reduce l' ≤ 65535 ∧ reduce u' ≤ 65535 := by
  have ht := tri_eq n
  have hnl : n * l ≤ 5552 * 65535 := Nat.mul_le_mul hn hl
  have hnn : n * (n + 1) ≤ 5552 * 5553 := Nat.mul_le_mul hn (by omega)
  obtain ⟨l', u', h1, h2, h3, h4, h5⟩ := sumLoop_spec d n off l u ho (by omega) (by omega)
  have hne : (d.drop off).take n ≠ [] := by
    intro hc
    have := congrArg List.length hc
    simp at this; omega
  have hc := foldl_adler_congr _ (l % 65521) (u % 65521) l u (by omega) (by omega) hne
  refine ⟨l', u', h1, ?_, ?_, ?_⟩
  · rw [reduce_eq _ h2, reduce_eq _ h3, take_add_drop, List.foldl_append, ← hs, h4, h5, hc]
  · rw [reduce_eq _ h2]; omega
  · rw [reduce_eq _ h3]; omega

theorem block347_spec (d : Bytes) (off l u : Nat) (s : Nat × Nat) (ho : off + 5552 ≤ d.length)
    (hl : l ≤ 65535) (hu : u ≤ 65535) (hs : (l, u) = (d.take off).foldl adlerStep s) :
    ∃ l' u', blockLoop d off 347 l u = ok (l', u') ∧
      (reduce l', reduce u') = (d.take (off + 5552)).foldl adlerStep s ∧ reduce l' ≤ 65535 ∧ reduce u' ≤ 65535 := by
  have h := block_spec d 5552 off l u s ho (by decide) (by decide) hl hu hs
  rw [blockLoop_eq]
  exact h

theorem bigLoop_eq (d : Bytes) (off size l u : Nat) : bigLoop d off size l u =
    if size ≥ 5552 then blockLoop d off 347 l u >>= fun p => bigLoop d (off + 5552) (size - 5552) (reduce p.1) (reduce p.2)
    else ok (off, size, l, u) := by
  rw [bigLoop]

theorem bigLoop_spec (d : Bytes) (off size l u : Nat) (s : Nat × Nat) (ho : off + size = d.length)
    (hl : l ≤ 65535) (hu : u ≤ 65535) (hs : (l, u) = (d.take off).foldl adlerStep s) :
    ∃ off' size' l' u', bigLoop d off size l u = ok (off', size', l', u') ∧ off' + size' = d.length ∧ size' < 5552 ∧
      l' ≤ 65535 ∧ u' ≤ 65535 ∧ (l', u') = (d.take off').foldl adlerStep s := by
  induction size using Nat.strongRecOn generalizing off l u with
  | ind size ih =>
    rw [bigLoop_eq]
    by_cases h : size ≥ 5552
    · rw [if_pos h]
      obtain ⟨l', u', h1, h2, h3, h4⟩ := block347_spec d off l u s (by omega) hl hu hs
      rw [h1, ok_bind]
      exact ih (size - 5552) (by omega) (off + 5552) (reduce l') (reduce u') (by omega) h3 h4 h2
    · rw [if_neg h]
      exact ⟨off, size, l, u, rfl, ho, by omega, hl, hu, hs⟩

theorem smallLoop_then (d : Bytes) (off size l u : Nat) :
    (smallLoop d off size l u >>= fun p => sumLoop d p.1 p.2.1 p.2.2.1 p.2.2.2) = sumLoop d off size l u := by
  induction size using Nat.strongRecOn generalizing off l u with
  | ind size ih =>
    rw [smallLoop]
    by_cases h : size > 16
    · rw [if_pos h]
      have : sumLoop d off size l u = sumLoop d off (16 + (size - 16)) l u := by congr 1; omega
      rw [this, sumLoop_add]
      rw [bind_assoc]
      congr 1
      funext p
      exact ih (size - 16) (by omega) _ _ _
    · rw [if_neg h]; rfl

theorem pack (a b : Nat) (ha : a ≤ 65535) (hb : b ≤ 65535) : ((b <<< 16) % 2 ^ 32 ||| a) = b * 65536 + a := by
  have h1 : b <<< 16 = 2 ^ 16 * b := by rw [Nat.shiftLeft_eq]; omega
  rw [h1, Nat.mod_eq_of_lt (by omega), ← Nat.two_pow_add_eq_or_of_lt (by omega : a < 2 ^ 16)]
  omega

theorem adler32_eq (d : Bytes) (init : Nat) (hd : d.length ≤ 2 ^ 63 - 1) : adler32 d init = ok (Spec.adler32 init d) := by
  have e : ∀ w : Nat, (w &&& 0xffff) = w % 65536 := fun w => Nat.and_two_pow_sub_one_eq_mod w 16
  have e2 : ∀ w : Nat, w >>> 16 = w / 65536 := fun w => Nat.shiftRight_eq_div_pow w 16
  unfold adler32
  rw [require_true hd, ok_bind, e, e, e2]
  obtain ⟨off, size, l, u, h1, h2, h3, h4, h5, h6⟩ := bigLoop_spec d 0 d.length (init % 65536) (init / 65536 % 65536)
    (init % 65536, init / 65536 % 65536) (by omega) (by omega) (by omega) (by simp)
  rw [h1]
  simp only [ok_bind]
  by_cases hz : size > 0
  · rw [if_pos hz]
    obtain ⟨l', u', g1, g2, g3, g4⟩ := block_spec d size off l u _ (by omega) hz (by omega) h4 h5 h6
    have := smallLoop_then d off size l u
    rw [g1] at this
    obtain ⟨⟨a, b, c, e⟩, f1, f2⟩ := bind_eq_ok.1 this
    simp only at f2
    simp only [f1, f2, ok_bind, pure_eq]
    rw [pack _ _ g3 g4, Spec.adler32]
    rw [h2, List.take_length] at g2
    rw [← g2]
  · rw [if_neg hz, pack _ _ h4 h5, Spec.adler32]
    rw [show off = d.length by omega, List.take_length] at h6
    rw [← h6]; rfl

end Verif.Adler
