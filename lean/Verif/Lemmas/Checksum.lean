import Verif.Model.Checksum
import Verif.Spec.Checksum
namespace Verif.Checksum
open Verif Res Spec

/-! ## Fletcher -/

theorem sum2_append (xs ys : List Nat) :
    sum2 (xs ++ ys) = sum2 xs + ys.length * xs.sum + sum2 ys := by
  induction xs with
  | nil => simp [sum2]
  | cons w ws ih =>
    simp only [List.cons_append, sum2, ih, List.length_append, List.sum_cons, Nat.mul_add, Nat.mul_one]
    rw [Nat.mul_comm w ys.length]
    omega

theorem sum2_append2 (ws : List Nat) (c1 c2 : Nat) :
    sum2 (ws ++ [c1, c2]) = sum2 ws + 2 * ws.sum + 2 * c1 + c2 := by
  rw [sum2_append]; simp [sum2]; omega

theorem foldl_fletcherStep (ws : List Nat) (a b : Nat)
    (h1 : a + ws.sum < 2 ^ 64) (h2 : b + ws.length * a + sum2 ws < 2 ^ 64) :
    ws.foldl fletcherStep (a, b) = (a + ws.sum, b + ws.length * a + sum2 ws) := by
  induction ws generalizing a b with
  | nil => simp [sum2]
  | cons w ws ih =>
    simp only [List.sum_cons, List.length_cons, sum2, Nat.mul_add, Nat.add_mul, Nat.mul_one, Nat.one_mul] at *
    have hm : ws.length * (a + w) = ws.length * a + w * ws.length := by
      rw [Nat.mul_add, Nat.mul_comm w]
    have ha : (a + w) % 2 ^ 64 = a + w := Nat.mod_eq_of_lt (by omega)
    have hb : (b + (a + w)) % 2 ^ 64 = b + (a + w) := Nat.mod_eq_of_lt (by omega)
    simp only [List.foldl_cons, fletcherStep, ha, hb]
    rw [ih (a + w) (b + (a + w)) (by omega) (by omega)]
    rw [hm]
    simp only [Prod.mk.injEq]
    omega

theorem sum_le_of_lt {B : Nat} (ws : List Nat) (h : ∀ w ∈ ws, w ≤ B) : ws.sum ≤ ws.length * B := by
  induction ws with
  | nil => simp
  | cons w ws ih =>
    simp only [List.sum_cons, List.length_cons, Nat.add_mul, Nat.one_mul]
    have := h w (by simp)
    have := ih (fun x hx => h x (by simp [hx]))
    omega

theorem sum2_le_of_lt {B : Nat} (ws : List Nat) (h : ∀ w ∈ ws, w ≤ B) :
    2 * sum2 ws ≤ ws.length * (ws.length + 1) * B := by
  induction ws with
  | nil => simp [sum2]
  | cons w ws ih =>
    simp only [sum2, List.length_cons]
    have h1 := h w (by simp)
    have h2 := ih (fun x hx => h x (by simp [hx]))
    have h3 : w * (ws.length + 1) ≤ B * (ws.length + 1) := Nat.mul_le_mul_right _ h1
    have h4 : (ws.length + 1) * (ws.length + 1 + 1) * B
        = ws.length * (ws.length + 1) * B + 2 * (B * (ws.length + 1)) := by
      generalize ws.length = n
      simp only [Nat.mul_add, Nat.add_mul, Nat.mul_one, Nat.one_mul]
      rw [Nat.mul_comm B n]
      omega
    omega

/-- number of 32-bit words up to which the 64-bit sums cannot overflow -/
def maxWords : Nat := 92681

theorem no_overflow (ws : List Nat) (h : ∀ w ∈ ws, w < 2 ^ 32) (hl : ws.length ≤ maxWords) :
    ws.sum < 2 ^ 64 ∧ sum2 ws < 2 ^ 64 := by
  have h' : ∀ w ∈ ws, w ≤ 2 ^ 32 - 1 := fun w hw => by have := h w hw; omega
  have h1 := sum_le_of_lt ws h'
  have h2 := sum2_le_of_lt ws h'
  have h3 : ws.length * (2 ^ 32 - 1) ≤ maxWords * (2 ^ 32 - 1) := Nat.mul_le_mul_right _ hl
  have h4 : ws.length * (ws.length + 1) * (2 ^ 32 - 1) ≤ maxWords * (maxWords + 1) * (2 ^ 32 - 1) :=
    Nat.mul_le_mul_right _ (Nat.mul_le_mul hl (by omega))
  simp only [maxWords] at h3 h4
  omega

theorem fletcherFinish_valid (ws : List Nat) :
    ∃ c1 c2, fletcherFinish (ws.sum, sum2 ws) = c2 * 2 ^ 32 + c1 ∧ FletcherValid ws c1 c2 := by
  refine ⟨0xffffffff - ((ws.sum % 0xffffffff + sum2 ws % 0xffffffff) % 0xffffffff),
    0xffffffff - ((ws.sum % 0xffffffff + (0xffffffff - ((ws.sum % 0xffffffff + sum2 ws % 0xffffffff) % 0xffffffff))) % 0xffffffff), ?_, ?_⟩
  · simp only [fletcherFinish]
    have : (0xffffffff - ((ws.sum % 0xffffffff + sum2 ws % 0xffffffff) % 0xffffffff)) % 2 ^ 32
        = 0xffffffff - ((ws.sum % 0xffffffff + sum2 ws % 0xffffffff) % 0xffffffff) :=
      Nat.mod_eq_of_lt (by omega)
    rw [this]
  · constructor
    · omega
    · simp only [fletcherM]; omega
    · omega
    · simp only [fletcherM]; omega
    · simp only [fletcherM, List.sum_append, List.sum_cons, List.sum_nil]; omega
    · rw [sum2_append2]; simp only [fletcherM]; omega

theorem _root_.Verif.Spec.FletcherValid.unique {ws : List Nat} {c1 c2 d1 d2 : Nat}
    (h : FletcherValid ws c1 c2) (h' : FletcherValid ws d1 d2) : c1 = d1 ∧ c2 = d2 := by
  obtain ⟨a1, a2, a3, a4, a5, a6⟩ := h
  obtain ⟨b1, b2, b3, b4, b5, b6⟩ := h'
  rw [sum2_append2] at a6 b6
  simp only [fletcherM, List.sum_append, List.sum_cons, List.sum_nil] at *
  omega

theorem words_of_dvd (d : Bytes) (h : d.length % 4 = 0) :
    ∃ ws, words d = ok ws ∧ 4 * ws.length = d.length ∧ (∀ w ∈ ws, w < 2 ^ 32) := by
  induction d using words.induct with
  | case1 => exact ⟨[], rfl, rfl, by simp⟩
  | case2 a b c d rest ih =>
    simp only [List.length_cons] at h
    obtain ⟨ws, h1, h2, h3⟩ := ih (by omega)
    refine ⟨leNat [a, b, c, d] :: ws, by simp [words, h1], by simp; omega, ?_⟩
    intro w hw
    rcases List.mem_cons.1 hw with rfl | hw
    · have := leNat_lt [a, b, c, d]
      simpa using this
    · exact h3 w hw
  | case3 t h1 h2 =>
    exfalso
    match t, h1, h2 with
    | [], h1, _ => exact h1 rfl
    | [a], _, _ => simp at h
    | [a, b], _, _ => simp at h
    | [a, b, c], _, _ => simp at h
    | a :: b :: c :: d :: r, _, h2 => exact h2 a b c d r rfl

theorem words_append (a b : Bytes) (h : a.length % 4 = 0) :
    words (a ++ b) = (do let x ← words a; let y ← words b; return x ++ y) := by
  induction a using words.induct with
  | case1 => simp [words]
  | case2 x y z w rest ih =>
    simp only [List.length_cons] at h
    simp only [List.cons_append, words, ih (by omega), bind_assoc, pure_eq, ok_bind]
  | case3 t h1 h2 =>
    exfalso
    match t, h1, h2 with
    | [], h1, _ => exact h1 rfl
    | [a], _, _ => simp at h
    | [a, b], _, _ => simp at h
    | [a, b, c], _, _ => simp at h
    | a :: b :: c :: d :: r, _, h2 => exact h2 a b c d r rfl

theorem fletcher64_eq (d : Bytes) (h : d.length % 4 = 0) (hl : d.length ≤ 4 * maxWords) :
    ∃ ws c1 c2, words d = ok ws ∧ fletcher64 d 0 = ok (c2 * 2 ^ 32 + c1) ∧ FletcherValid ws c1 c2 := by
  obtain ⟨ws, h1, h2, h3⟩ := words_of_dvd d h
  obtain ⟨o1, o2⟩ := no_overflow ws h3 (by omega)
  obtain ⟨c1, c2, e, hv⟩ := fletcherFinish_valid ws
  refine ⟨ws, c1, c2, h1, ?_, hv⟩
  simp only [fletcher64, h, ne_eq, not_true, if_false, h1, ok_bind, pure_eq]
  rw [foldl_fletcherStep] <;> simp
  · exact e
  · exact o1
  · exact o2

theorem words_eq_leWords (d : Bytes) (h : d.length % 4 = 0) : words d = ok (leWords d) := by
  induction d using words.induct with
  | case1 => rfl
  | case2 a b c d rest ih =>
    simp only [List.length_cons] at h
    simp only [words, ih (by omega), ok_bind, pure_eq, leWords, ok.injEq, List.cons.injEq, and_true]
    simp [leNat]; omega
  | case3 t h1 h2 =>
    exfalso
    match t, h1, h2 with
    | [], h1, _ => exact h1 rfl
    | [a], _, _ => simp at h
    | [a, b], _, _ => simp at h
    | [a, b, c], _, _ => simp at h
    | a :: b :: c :: d :: r, _, h2 => exact h2 a b c d r rfl

theorem leWords_append (a b : Bytes) (h : a.length % 4 = 0) : leWords (a ++ b) = leWords a ++ leWords b := by
  induction a using leWords.induct with
  | case1 x y z w rest ih =>
    simp only [List.length_cons] at h
    simp only [List.cons_append, leWords, ih (by omega)]
  | case2 t h1 =>
    match t, h1 with
    | [], _ => simp [leWords]
    | [a], _ => simp at h
    | [a, b], _ => simp at h
    | [a, b, c], _ => simp at h
    | a :: b :: c :: d :: r, h2 => exact absurd rfl (h2 a b c d r)

theorem length_leWords (a : Bytes) (h : a.length % 4 = 0) : 4 * (leWords a).length = a.length := by
  obtain ⟨ws, h1, h2, _⟩ := words_of_dvd a h
  rw [words_eq_leWords a h] at h1
  cases h1; exact h2

/-- arithmetic core of burst detection -/
theorem burst_arith (n K1 K2 x y x' y' : Nat)
    (s1 : (K1 + (x + y)) % 4294967295 = 0) (s1' : (K1 + (x' + y')) % 4294967295 = 0)
    (s2 : (K2 + n * (x + y) + 4 * x + 3 * y) % 4294967295 = 0)
    (s2' : (K2 + n * (x' + y') + 4 * x' + 3 * y') % 4294967295 = 0) :
    x % 4294967295 = x' % 4294967295 ∧ y % 4294967295 = y' % 4294967295 := by
  have h : (x + y) % 4294967295 = (x' + y') % 4294967295 := by omega
  have g : (n * (x + y)) % 4294967295 = (n * (x' + y')) % 4294967295 := by
    rw [Nat.mul_mod, h, ← Nat.mul_mod]
  generalize n * (x + y) = u at *
  generalize n * (x' + y') = u' at *
  omega

/-! ## CRC -/

theorem tableStep_eq (s : BitVec 32) : tableStep 0x82f63b78#32 s = crcBit s false := by
  have : (s &&& 1#32 ≠ 0#32) ↔ s[0] = true := by
    constructor
    · intro h
      cases hs : s[0] with
      | true => rfl
      | false =>
        exfalso; apply h
        ext i hi
        simp only [BitVec.getElem_and, BitVec.getElem_one, BitVec.getElem_zero]
        by_cases h0 : i = 0
        · subst h0; simp [hs]
        · simp [h0]
    · intro h h0
      have := congrArg (fun x : BitVec 32 => x[0]) h0
      simp [h] at this
  simp only [tableStep, crcBit, Bool.xor_false]
  by_cases h : s[0] = true
  · simp only [this.2 h, if_true, h, ne_eq, not_false_eq_true]
    exact BitVec.xor_comm _ _
  · simp [h, this]

theorem crcBit_xor (a b : BitVec 32) (x y : Bool) :
    crcBit (a ^^^ b) (x ^^ y) = crcBit a x ^^^ crcBit b y := by
  have hcancel : ∀ u v p : BitVec 32, u ^^^ v = (u ^^^ p) ^^^ (v ^^^ p) := by
    intro u v p
    rw [BitVec.xor_assoc, ← BitVec.xor_assoc p v p, BitVec.xor_comm p v, BitVec.xor_assoc v p p]; simp
  unfold crcBit
  simp only [BitVec.getElem_xor, BitVec.ushiftRight_xor_distrib]
  cases ha : a[0] <;> cases hb : b[0] <;> cases x <;> cases y <;> simp
  all_goals first
    | exact hcancel _ _ _
    | (rw [BitVec.xor_assoc]; done)
    | (rw [BitVec.xor_assoc, BitVec.xor_assoc, BitVec.xor_comm (b >>> 1)])

/-- shifting bits in equals xor-ing them to the register first -/
theorem foldl_crcBit_zero_hi (h : BitVec 32) (n : Nat) (hz : ∀ i, i < n → h.getLsbD i = false) (hn : n ≤ 32) :
    (List.replicate n false).foldl crcBit h = h >>> n := by
  induction n generalizing h with
  | zero => simp
  | succ n ih =>
    have h0 : h[0] = false := by
      have := hz 0 (by omega)
      simpa [BitVec.getLsbD_eq_getElem] using this
    simp only [List.replicate_succ, List.foldl_cons]
    have hs : crcBit h false = h >>> 1 := by simp [crcBit, h0]
    rw [hs, ih (h >>> 1) ?_ (by omega), ← BitVec.shiftRight_add]
    · rw [Nat.add_comm]
    · intro i hi
      simp only [BitVec.getLsbD_ushiftRight]
      exact hz _ (by omega)

theorem foldl_crcBit_xor (xs ys : List Bool) (hl : xs.length = ys.length) (a b : BitVec 32) :
    (List.zipWith (· ^^ ·) xs ys).foldl crcBit (a ^^^ b) = xs.foldl crcBit a ^^^ ys.foldl crcBit b := by
  induction xs generalizing ys a b with
  | nil => cases ys <;> simp_all
  | cons x xs ih =>
    cases ys with
    | nil => simp at hl
    | cons y ys =>
      simp only [List.zipWith_cons_cons, List.foldl_cons, crcBit_xor]
      exact ih ys (by simpa using hl) _ _

/-- the register absorbing its own low `n` bits xor the message bits -/
theorem repeat_tableStep (n : Nat) (s : BitVec 32) :
    Nat.repeat (tableStep 0x82f63b78#32) n s = (List.replicate n false).foldl crcBit s := by
  have : ∀ n (s : BitVec 32), (List.replicate (n + 1) false).foldl crcBit s
      = crcBit ((List.replicate n false).foldl crcBit s) false := by
    intro n s
    rw [List.replicate_succ', List.foldl_append]; simp
  induction n with
  | zero => simp [Nat.repeat]
  | succ n ih => rw [this]; simp only [Nat.repeat, ih, tableStep_eq]

theorem byteBits_absorb_fin : ∀ n : Fin 256,
    (byteBits (UInt8.ofNat n.val)).foldl crcBit ((UInt8.ofNat n.val).toBitVec.setWidth 32) = 0#32 := by
  decide +kernel

theorem byteBits_absorb (b : UInt8) : (byteBits b).foldl crcBit (b.toBitVec.setWidth 32) = 0#32 := by
  have := byteBits_absorb_fin ⟨b.toNat, b.toNat_lt⟩
  simpa using this

theorem length_byteBits (b : UInt8) : (byteBits b).length = 8 := by simp [byteBits]

theorem foldl_byteBits (s : BitVec 32) (b : UInt8) :
    (byteBits b).foldl crcBit s
      = (List.replicate 8 false).foldl crcBit (s ^^^ b.toBitVec.setWidth 32) := by
  have h := foldl_crcBit_xor (List.replicate 8 false) (byteBits b) (by simp [length_byteBits])
    (s ^^^ b.toBitVec.setWidth 32) (b.toBitVec.setWidth 32)
  rw [byteBits_absorb, BitVec.xor_zero, BitVec.xor_assoc, BitVec.xor_self, BitVec.xor_zero] at h
  rw [← h]
  congr 1
  have : ∀ (l : List Bool), List.zipWith (· ^^ ·) (List.replicate l.length false) l = l := by
    intro l; induction l with
    | nil => rfl
    | cons x xs ih => simp [List.replicate_succ, ih]
  have := this (byteBits b)
  rw [length_byteBits] at this
  exact this.symm

theorem and_ff_toNat_lt (x : BitVec 32) : (x &&& 0xff#32).toNat < 256 := by
  rw [BitVec.toNat_and]
  have : x.toNat &&& 255 ≤ 255 := Nat.and_le_right
  simpa using Nat.lt_succ_of_le this

theorem crcByte_eq (s : BitVec 32) (b : UInt8) : crcByte s b = ok (crc s [b]) := by
  have hlt := and_ff_toNat_lt (s ^^^ b.toBitVec.setWidth 32)
  unfold crcByte
  simp only [crcTable, List.getElem?_map]
  rw [List.getElem?_range hlt]
  simp only [Option.map_some, ofMem_some, ok_bind, pure_eq, ok.injEq, crc, List.flatMap_cons,
    List.flatMap_nil, List.append_nil]
  rw [foldl_byteBits, tableEntry, repeat_tableStep, BitVec.ofNat_toNat]
  generalize hx : s ^^^ b.toBitVec.setWidth 32 = x
  have hs : x >>> 8 = s >>> 8 := by
    rw [← hx]
    ext i hi
    simp only [BitVec.getElem_ushiftRight, BitVec.getLsbD_xor, BitVec.getLsbD_setWidth]
    have : b.toBitVec.getLsbD (8 + i) = false := BitVec.getLsbD_of_ge _ _ (by omega)
    simp
  rw [← hs]
  have hsplit : x = (x &&& 0xff#32) ^^^ (x &&& 0xffffff00#32) := by
    ext i hi
    have h255 : ∀ i, i < 32 → ((0xff#32 : BitVec 32).getLsbD i = !(0xffffff00#32 : BitVec 32).getLsbD i) := by
      decide
    have := h255 i hi
    simp only [← BitVec.getLsbD_eq_getElem, BitVec.getLsbD_xor, BitVec.getLsbD_and]
    rw [this]
    cases x.getLsbD i <;> simp
  have hz : List.zipWith (· ^^ ·) (List.replicate 8 false) (List.replicate 8 false) = List.replicate 8 false := by
    decide
  have h := foldl_crcBit_xor (List.replicate 8 false) (List.replicate 8 false) rfl (x &&& 0xff#32) (x &&& 0xffffff00#32)
  rw [hz, ← hsplit] at h
  rw [h, foldl_crcBit_zero_hi (x &&& 0xffffff00#32) 8 ?_ (by omega)]
  · have : (x &&& 0xffffff00#32) >>> 8 = x >>> 8 := by
      ext i hi
      simp only [BitVec.getElem_ushiftRight, BitVec.getLsbD_and]
      have h1 : ∀ i, i < 24 → (0xffffff00#32 : BitVec 32).getLsbD (8 + i) = true := by decide
      by_cases hi' : i < 24
      · simp [h1 i hi']
      · have : x.getLsbD (8 + i) = false := BitVec.getLsbD_of_ge _ _ (by omega)
        simp [this]
    rw [this]
    simp
  · intro i hi
    have h1 : ∀ i, i < 8 → (0xffffff00#32 : BitVec 32).getLsbD i = false := by decide
    simp [h1 i hi]

theorem weakCrc32_eq (d : Bytes) (s : BitVec 32) : weakCrc32 d s = ok (crc s d) := by
  induction d generalizing s with
  | nil => rfl
  | cons b d ih =>
    have : weakCrc32 (b :: d) s = (crcByte s b >>= fun s' => weakCrc32 d s') := rfl
    rw [this, crcByte_eq]
    simp only [ok_bind, ih]
    simp [crc]

theorem checkObject_safe {d : Bytes} (h : 8 ≤ d.length) : Safe (checkObject d) := by
  unfold checkObject
  refine safe_bind (by rw [rdLE_le (by omega)]; exact safe_ok _) fun _ _ => safe_bind ?_ fun _ _ => safe_require
  unfold fletcher64
  split
  · exact safe_err
  · rename_i h4
    rw [words_eq_leWords _ (by omega)]
    exact safe_bind (safe_ok _) fun _ _ => safe_ok _

end Verif.Checksum
