import Verif.Model.BitStream
import Verif.Spec.Bits
namespace Verif
open Res Spec

@[simp] theorem length_natBits (n v : Nat) : (natBits n v).length = n := by
  induction n generalizing v with
  | zero => rfl
  | succ n ih => simp [natBits, ih]

theorem bitsVal_lt (bs : List Bool) : bitsVal bs < 2 ^ bs.length := by
  induction bs with
  | nil => simp [bitsVal]
  | cons b bs ih => simp only [bitsVal, List.length_cons, Nat.pow_succ]; cases b <;> simp <;> omega

theorem natBits_bitsVal (bs : List Bool) : natBits bs.length (bitsVal bs) = bs := by
  induction bs with
  | nil => rfl
  | cons b bs ih =>
    simp only [List.length_cons, natBits, bitsVal]
    have h1 : (b.toNat + 2 * bitsVal bs) / 2 = bitsVal bs := by cases b <;> simp <;> omega
    have h2 : ((b.toNat + 2 * bitsVal bs) % 2 == 1) = b := by
      cases b <;> simp <;> omega
    rw [h1, h2, ih]

theorem bitsVal_natBits (n v : Nat) : bitsVal (natBits n v) = v % 2 ^ n := by
  induction n generalizing v with
  | zero => simp [natBits, bitsVal, Nat.mod_one]
  | succ n ih =>
    simp only [natBits, bitsVal, ih, Nat.pow_succ]
    have : (v % 2 == 1).toNat = v % 2 := by
      rcases Nat.mod_two_eq_zero_or_one v with h | h <;> simp [h]
    rw [this, Nat.mul_comm (2 ^ n) 2, Nat.mod_mul]

theorem natBits_mod (n v : Nat) : natBits n (v % 2 ^ n) = natBits n v := by
  rw [← bitsVal_natBits]
  have := natBits_bitsVal (natBits n v)
  rwa [length_natBits] at this

theorem natBits_append (m n a b : Nat) (h : a < 2 ^ m) :
    natBits (m + n) (a + 2 ^ m * b) = natBits m a ++ natBits n b := by
  induction m generalizing a with
  | zero => simp at h; simp [natBits, h]
  | succ m ih =>
    have ha : a / 2 < 2 ^ m := by rw [Nat.pow_succ] at h; omega
    rw [show m + 1 + n = (m + n) + 1 by omega]
    simp only [natBits, List.cons_append]
    have e : a + 2 ^ (m + 1) * b = a + 2 * (2 ^ m * b) := by rw [Nat.pow_succ, Nat.mul_comm (2 ^ m) 2, Nat.mul_assoc]
    rw [e]
    have h1 : (a + 2 * (2 ^ m * b)) % 2 = a % 2 := by omega
    have h2 : (a + 2 * (2 ^ m * b)) / 2 = a / 2 + 2 ^ m * b := by omega
    rw [h1, h2, ih _ ha]

theorem take_natBits (n m v : Nat) (h : n ≤ m) : (natBits m v).take n = natBits n v := by
  induction n generalizing m v with
  | zero => simp [natBits]
  | succ n ih =>
    obtain ⟨k, rfl⟩ : ∃ k, m = k + 1 := ⟨m - 1, by omega⟩
    simp only [natBits, List.take_succ_cons, ih k _ (by omega)]

theorem drop_natBits (n m v : Nat) (h : n ≤ m) : (natBits m v).drop n = natBits (m - n) (v / 2 ^ n) := by
  induction n generalizing m v with
  | zero => simp
  | succ n ih =>
    obtain ⟨k, rfl⟩ : ∃ k, m = k + 1 := ⟨m - 1, by omega⟩
    simp only [natBits, List.drop_succ_cons, ih k _ (by omega)]
    rw [show k + 1 - (n + 1) = k - n by omega, Nat.div_div_eq_div_mul, Nat.pow_succ, Nat.mul_comm 2]

@[simp] theorem length_bytesBits (d : Bytes) : (bytesBits d).length = 8 * d.length := by
  induction d with
  | nil => rfl
  | cons b d ih => simp only [bytesBits, List.flatMap_cons, List.length_append, length_natBits, List.length_cons] at *; omega

theorem bytesBits_cons (b : UInt8) (d : Bytes) : bytesBits (b :: d) = natBits 8 b.toNat ++ bytesBits d := by
  simp [bytesBits]

theorem bytesBits_append (a b : Bytes) : bytesBits (a ++ b) = bytesBits a ++ bytesBits b := by
  simp [bytesBits]

theorem bytesBits_inj {a b : Bytes} (h : bytesBits a = bytesBits b) : a = b := by
  induction a generalizing b with
  | nil =>
    have := congrArg List.length h
    simp only [length_bytesBits, List.length_nil] at this
    cases b <;> simp_all
  | cons x xs ih =>
    cases b with
    | nil =>
      have := congrArg List.length h
      simp at this
    | cons y ys =>
      rw [bytesBits_cons, bytesBits_cons] at h
      obtain ⟨h1, h2⟩ := List.append_inj h (by simp)
      have h3 := congrArg bitsVal h1
      rw [bitsVal_natBits, bitsVal_natBits] at h3
      have := x.toNat_lt; have := y.toNat_lt
      have : x = y := UInt8.toNat_inj.1 (by omega)
      rw [this, ih h2]

namespace BitStream

/-- the bits still to be read -/
def bits (s : BitStream) : List Bool := natBits s.size s.buf ++ bytesBits (s.data.drop s.off)

/-- invariant between calls -/
structure WF (s : BitStream) : Prop where
  buf_lt : s.buf < 2 ^ s.size
  size_lt : s.size < 8
  off_le : s.off ≤ s.data.length

theorem length_bits (s : BitStream) : s.bits.length = s.size + 8 * (s.data.length - s.off) := by
  simp [bits]

theorem WF_init (d : Bytes) (off : Nat) (h : off ≤ d.length) : (init d off).WF :=
  ⟨by simp [init], by simp [init], h⟩

theorem bits_init (d : Bytes) (off : Nat) : (init d off).bits = bytesBits (d.drop off) := by
  simp [init, bits, natBits]

/-- the inner loop only moves whole bytes into the buffer -/
theorem fill_spec (s : BitStream) (r : Nat) (hr : r ≤ 32) (hb : s.buf < 2 ^ s.size) (hs : s.size ≤ 32)
    (ho : s.off ≤ s.data.length) (hc : r ≤ 25 ∨ s.size % 8 = 0) :
    (r ≤ s.bits.length → ∃ s', fill s r = ok s' ∧ s'.bits = s.bits ∧ s'.data = s.data ∧ s'.buf < 2 ^ s'.size ∧
        s'.size ≤ 32 ∧ s'.off ≤ s'.data.length ∧ r ≤ s'.size ∧ (s'.size < r + 8 ∨ s'.size = s.size))
    ∧ (s.bits.length < r → fill s r = err) := by
  fun_induction fill s r with
  | case1 s hc hoff =>
    have hl := length_bits s
    refine ⟨fun h => ?_, fun _ => rfl⟩
    omega
  | case2 s hcc hoff ih =>
    have hlt : s.off < s.data.length := by omega
    have hbyte := (s.data[s.off]).toNat_lt
    have hsz : s.size ≤ 24 := hcc.2
    have hpow : (2:Nat) ^ s.size ≤ 2 ^ 24 := Nat.pow_le_pow_right (by omega) hsz
    have hshift : ((s.data[s.off]).toNat <<< s.size) % 2 ^ 32 = 2 ^ s.size * (s.data[s.off]).toNat := by
      rw [Nat.shiftLeft_eq, Nat.mul_comm]
      apply Nat.mod_eq_of_lt
      calc 2 ^ s.size * (s.data[s.off]).toNat ≤ 2 ^ 24 * (s.data[s.off]).toNat := Nat.mul_le_mul_right _ hpow
        _ < 2 ^ 32 := by omega
    have hor : s.buf ||| ((s.data[s.off]).toNat <<< s.size) % 2 ^ 32 = s.buf + 2 ^ s.size * (s.data[s.off]).toNat := by
      rw [hshift, Nat.or_comm, Nat.add_comm, Nat.two_pow_add_eq_or_of_lt hb]
    have hbuf' : s.buf + 2 ^ s.size * (s.data[s.off]).toNat < 2 ^ (s.size + 8) := by
      rw [Nat.pow_add]
      have : 2 ^ s.size * ((s.data[s.off]).toNat + 1) ≤ 2 ^ s.size * 2 ^ 8 := Nat.mul_le_mul_left _ (by omega)
      rw [Nat.mul_add] at this
      omega
    have hbits : bits { s with buf := s.buf + 2 ^ s.size * (s.data[s.off]).toNat, size := s.size + 8, off := s.off + 1 } = s.bits := by
      simp only [bits]
      rw [natBits_append _ _ _ _ hb, List.drop_eq_getElem_cons hlt, bytesBits_cons, List.append_assoc]
    have := ih (s.data[s.off])
    rw [hor] at this
    have := this hbuf' (by simp; omega) (by simp; omega) (by simp; omega)
    rw [hbits] at this
    simp only [rd_lt hlt, ok_bind, hor]
    refine ⟨fun h => ?_, fun h => this.2 h⟩
    obtain ⟨s', h1, h2, h3, h4, h5, h6, h7, h8⟩ := this.1 h
    simp only at h8
    exact ⟨s', h1, h2, h3, h4, h5, h6, h7, by omega⟩
  | case3 s hcc =>
    have := length_bits s
    exact ⟨fun _ => ⟨s, rfl, rfl, rfl, hb, hs, ho, by omega, Or.inr rfl⟩, by omega⟩

/-- Reading `n` bits returns the next `n` bits of the stream, or fails if there are fewer. -/
theorem getValue_spec (s : BitStream) (n : Nat) (hw : s.WF) (hn : n ≤ 32) (hc : n ≤ 25 ∨ s.size = 0) :
    (n ≤ s.bits.length → ∃ s', getValue s n = ok (bitsVal (s.bits.take n), s') ∧ s'.bits = s.bits.drop n ∧
        s'.data = s.data ∧ s'.WF)
    ∧ (s.bits.length < n → getValue s n = err) := by
  obtain ⟨hb, hs, ho⟩ := hw
  have hf := fill_spec s n hn hb (by omega) ho (by omega)
  unfold getValue
  rw [if_neg (by omega)]
  by_cases hn0 : n = 0
  · subst hn0
    refine ⟨fun _ => ⟨s, ?_, by simp, rfl, hb, hs, ho⟩, by omega⟩
    unfold getLoop; simp [bitsVal]
  refine ⟨fun h => ?_, fun h => ?_⟩
  · obtain ⟨s', h1, h2, h3, h4, h5, h6, h7, h8⟩ := hf.1 h
    unfold getLoop
    rw [if_neg hn0, h1]
    simp only
    have hread : (if n < s'.size then n else s'.size) = n := by split <;> omega
    rw [hread]
    simp only [Nat.lt_irrefl, if_false, hn0, Nat.sub_self]
    have htake : s.bits.take n = natBits n s'.buf := by
      rw [← h2, bits, List.take_append_of_le_length (by simpa using h7), take_natBits _ _ _ h7]
    have hval : (if n < 32 then s'.buf % 2 ^ n else s'.buf) = bitsVal (s.bits.take n) := by
      rw [htake, bitsVal_natBits]
      split
      · rfl
      · rw [Nat.mod_eq_of_lt]
        have : n = s'.size := by omega
        rw [this]; exact h4
    have hbuf : (if s'.size - n = 0 then 0 else if n < 32 then s'.buf >>> n else s'.buf) = s'.buf / 2 ^ n := by
      split
      · have : n = s'.size := by omega
        rw [this, Nat.div_eq_of_lt h4]
      · split
        · exact Nat.shiftRight_eq_div_pow _ _
        · omega
    have hlt2 : s'.buf / 2 ^ n < 2 ^ (s'.size - n) := by
      rw [Nat.div_lt_iff_lt_mul (Nat.two_pow_pos _), ← Nat.pow_add, show s'.size - n + n = s'.size by omega]
      exact h4
    refine ⟨{ s' with buf := s'.buf / 2 ^ n, size := s'.size - n }, ?_, ?_, h3, hlt2, ?_, h6⟩
    · unfold getLoop
      rw [hval, hbuf]; simp
    · rw [← h2]
      simp only [bits]
      rw [List.drop_append_of_le_length (by simpa using h7), drop_natBits _ _ _ h7]
    · simp only; omega
  · unfold getLoop
    rw [if_neg hn0, hf.2 h]

/-- arbitrary reads never leave the input and terminate -/
theorem fill_safe (s : BitStream) (r : Nat) : Safe (fill s r) ∧
    ∀ s', fill s r = ok s' → s'.data = s.data ∧ (s'.size < r → 24 < s'.size) := by
  fun_induction fill s r with
  | case1 s hc hoff => simp
  | case2 s hcc hoff ih =>
    have hlt : s.off < s.data.length := by omega
    simp only [rd_lt hlt, ok_bind]
    exact ih (s.data[s.off])
  | case3 s hcc =>
    refine ⟨by simp, ?_⟩
    intro s' h; cases h
    exact ⟨rfl, by omega⟩

theorem getLoop_safe (n r safe : Nat) (s : BitStream) : Safe (getLoop n r safe s) := by
  fun_induction getLoop n r safe s with
  | case1 => simp
  | case2 => simp
  | case3 r safe s h hf => exact absurd hf (fill_safe s r).1
  | case4 r safe s h s' hf read h0 =>
    exfalso
    have := (fill_safe s r).2 s' hf
    simp only [read] at h0
    split at h0 <;> omega
  | case5 => assumption

theorem getValue_safe (s : BitStream) (n : Nat) : Safe (getValue s n) := by
  unfold getValue; split
  · simp
  · exact getLoop_safe _ _ _ _

end BitStream
end Verif
