import Verif.Model.Crypto
import Verif.Spec.KeyWrap
import Verif.Spec.Pbkdf2
/-! Lemmas: key unwrap, sector decryption, PBKDF2 -/
namespace Verif
open Res Spec

theorem length_xorBytes (a b : Bytes) : (xorBytes a b).length = min a.length b.length := by simp [xorBytes]

theorem xorBytes_comm (a b : Bytes) : xorBytes a b = xorBytes b a := by
  unfold xorBytes
  induction a generalizing b with
  | nil => cases b <;> rfl
  | cons x xs ih =>
    cases b with
    | nil => rfl
    | cons y ys => simp only [List.zipWith_cons_cons, ih ys, UInt8.xor_comm]

theorem xorBytes_cancel (a b : Bytes) (h : a.length = b.length) : xorBytes (xorBytes a b) b = a := by
  unfold xorBytes
  induction a generalizing b with
  | nil => cases b <;> rfl
  | cons x xs ih =>
    cases b with
    | nil => simp at h
    | cons y ys =>
      simp only [List.zipWith_cons_cons]
      rw [ih ys (by simpa using h), UInt8.xor_assoc, UInt8.xor_self, UInt8.xor_zero]

namespace Crypto

/-! ## key unwrap -/

/-- RFC 3394 2.2.2, one step -/
def unwrapBlock (dec : Bytes → Bytes) (t : Nat) (a r : Bytes) : Bytes × Bytes :=
  let b := dec (xorBytes (toBE 8 t) a ++ r)
  (b.take 8, b.drop 8)

def unwrapRound (dec : Bytes → Bytes) (t : Nat) (a : Bytes) : List Bytes → Bytes × List Bytes
  | [] => (a, [])
  | r :: rs =>
    let x := unwrapRound dec (t + 1) a rs
    let y := unwrapBlock dec t x.1 r
    (y.1, y.2 :: x.2)

def Blocks8 (rs : List Bytes) : Prop := ∀ r ∈ rs, r.length = 8

theorem length_flatten8 {rs : List Bytes} (h : Blocks8 rs) : rs.flatten.length = 8 * rs.length := by
  induction rs with
  | nil => rfl
  | cons r rs ih =>
    rw [List.flatten_cons, List.length_append, ih (fun x hx => h x (by simp [hx])), h r (by simp), List.length_cons]
    omega

variable {enc dec : Bytes → Bytes}

theorem unwrapBlock_len (hc : BlockCipher enc dec) {t : Nat} {a r : Bytes} (ha : a.length = 8) (hr : r.length = 8) :
    (unwrapBlock dec t a r).1.length = 8 ∧ (unwrapBlock dec t a r).2.length = 8 := by
  unfold unwrapBlock
  have := hc.decLen (xorBytes (toBE 8 t) a ++ r) (by simp [length_xorBytes, ha, hr])
  simp only [List.length_take, List.length_drop, this]
  decide

theorem wrapBlock_len (hc : BlockCipher enc dec) {t : Nat} {a r : Bytes} (ha : a.length = 8) (hr : r.length = 8) :
    (wrapBlock enc t a r).1.length = 8 ∧ (wrapBlock enc t a r).2.length = 8 := by
  unfold wrapBlock
  have := hc.encLen (a ++ r) (by simp [ha, hr])
  simp only [List.length_take, List.length_drop, length_xorBytes, length_toBE, this]
  decide

theorem unwrap_wrapBlock (hc : BlockCipher enc dec) {t : Nat} {a r : Bytes} (ha : a.length = 8) (hr : r.length = 8) :
    unwrapBlock dec t (wrapBlock enc t a r).1 (wrapBlock enc t a r).2 = (a, r) := by
  have hl := hc.encLen (a ++ r) (by simp [ha, hr])
  unfold unwrapBlock wrapBlock
  simp only
  rw [xorBytes_comm, xorBytes_cancel _ _ (by simp [hl]), List.take_append_drop, hc.decEnc _ (by simp [ha, hr])]
  simp [List.take_left' ha, List.drop_left' ha]

theorem wrap_unwrapBlock (hc : BlockCipher enc dec) {t : Nat} {a r : Bytes} (ha : a.length = 8) (hr : r.length = 8) :
    wrapBlock enc t (unwrapBlock dec t a r).1 (unwrapBlock dec t a r).2 = (a, r) := by
  have hx : (xorBytes (toBE 8 t) a ++ r).length = 16 := by simp [length_xorBytes, ha, hr]
  have hl := hc.decLen _ hx
  have h8 : (xorBytes (toBE 8 t) a).length = 8 := by simp [length_xorBytes, ha]
  unfold unwrapBlock wrapBlock
  simp only
  rw [List.take_append_drop, hc.encDec _ hx, List.take_left' h8, List.drop_left' h8, xorBytes_comm (toBE 8 t), xorBytes_cancel _ _ (by simp [ha])]

theorem unwrapRound_len (hc : BlockCipher enc dec) {t : Nat} {a : Bytes} {rs : List Bytes} (ha : a.length = 8) (hr : Blocks8 rs) :
    (unwrapRound dec t a rs).1.length = 8 ∧ Blocks8 (unwrapRound dec t a rs).2 ∧ (unwrapRound dec t a rs).2.length = rs.length := by
  induction rs generalizing t with
  | nil => exact ⟨ha, (fun r hr => by cases hr), rfl⟩
  | cons r rs ih =>
    have hr8 : r.length = 8 := hr r (by simp)
    obtain ⟨i1, i2, i3⟩ := ih (t := t + 1) (fun x hx => hr x (by simp [hx]))
    have := unwrapBlock_len hc (t := t) i1 hr8
    unfold unwrapRound
    refine ⟨this.1, ?_, by simp [i3]⟩
    intro x hx
    rcases List.mem_cons.1 hx with rfl | hx
    · exact this.2
    · exact i2 x hx

theorem wrapRound_len (hc : BlockCipher enc dec) {t : Nat} {a : Bytes} {rs : List Bytes} (ha : a.length = 8) (hr : Blocks8 rs) :
    (wrapRound enc t a rs).1.length = 8 ∧ Blocks8 (wrapRound enc t a rs).2 ∧ (wrapRound enc t a rs).2.length = rs.length := by
  induction rs generalizing t a with
  | nil => exact ⟨ha, (fun r hr => by cases hr), rfl⟩
  | cons r rs ih =>
    have hr8 : r.length = 8 := hr r (by simp)
    have hb := wrapBlock_len hc (t := t) ha hr8
    obtain ⟨i1, i2, i3⟩ := ih (t := t + 1) (a := (wrapBlock enc t a r).1) hb.1 (fun x hx => hr x (by simp [hx]))
    unfold wrapRound
    refine ⟨i1, ?_, by simp [i3]⟩
    intro x hx
    rcases List.mem_cons.1 hx with rfl | hx
    · exact hb.2
    · exact i2 x hx

theorem unwrap_wrapRound (hc : BlockCipher enc dec) {t : Nat} {a : Bytes} {rs : List Bytes} (ha : a.length = 8) (hr : Blocks8 rs) :
    unwrapRound dec t (wrapRound enc t a rs).1 (wrapRound enc t a rs).2 = (a, rs) := by
  induction rs generalizing t a with
  | nil => rfl
  | cons r rs ih =>
    have hr8 : r.length = 8 := hr r (by simp)
    have hb := wrapBlock_len hc (t := t) ha hr8
    have := ih (t := t + 1) (a := (wrapBlock enc t a r).1) hb.1 (fun x hx => hr x (by simp [hx]))
    unfold wrapRound unwrapRound
    simp only [this, unwrap_wrapBlock hc ha hr8]

theorem wrap_unwrapRound (hc : BlockCipher enc dec) {t : Nat} {a : Bytes} {rs : List Bytes} (ha : a.length = 8) (hr : Blocks8 rs) :
    wrapRound enc t (unwrapRound dec t a rs).1 (unwrapRound dec t a rs).2 = (a, rs) := by
  induction rs generalizing t a with
  | nil => rfl
  | cons r rs ih =>
    have hr8 : r.length = 8 := hr r (by simp)
    have hr' : Blocks8 rs := fun x hx => hr x (by simp [hx])
    have hl := unwrapRound_len hc (t := t + 1) ha hr'
    have := ih (t := t + 1) (a := a) ha hr'
    unfold unwrapRound wrapRound
    simp only [wrap_unwrapBlock hc hl.1 hr8, this]

theorem unwrapRound_snoc (dec : Bytes → Bytes) (t : Nat) (a : Bytes) (rs : List Bytes) (r : Bytes) :
    unwrapRound dec t a (rs ++ [r]) =
      ((unwrapRound dec t (unwrapBlock dec (t + rs.length) a r).1 rs).1,
       (unwrapRound dec t (unwrapBlock dec (t + rs.length) a r).1 rs).2 ++ [(unwrapBlock dec (t + rs.length) a r).2]) := by
  induction rs generalizing t with
  | nil => rfl
  | cons x xs ih =>
    have := ih (t + 1)
    rw [show t + 1 + xs.length = t + (x :: xs).length by simp; omega] at this
    rw [List.cons_append, unwrapRound, this]
    rfl

/-- the body of the loop is the RFC's step -/
theorem unwrapStep_eq (hc : BlockCipher enc dec) (n round : Nat) (a r mid rest : Bytes) (ha : a.length = 8) (hr : r.length = 8) (block : Nat)
    (hm : mid.length + 8 = block * 8) :
    unwrapStep dec n round block (a ++ (mid ++ (r ++ rest))) =
      ok ((unwrapBlock dec (round * (n - 1) + block) a r).1 ++ (mid ++ ((unwrapBlock dec (round * (n - 1) + block) a r).2 ++ rest))) := by
  have hl := unwrapBlock_len hc (t := round * (n - 1) + block) ha hr
  unfold unwrapBlock at *
  unfold unwrapStep
  rw [show rdN (a ++ (mid ++ (r ++ rest))) 0 8 = ok a from rdN_mid' [] a _ 0 8 rfl ha, ok_bind]
  have h2 : rdN (a ++ (mid ++ (r ++ rest))) (block * 8) 8 = ok r := by
    rw [← List.append_assoc]
    exact rdN_mid' (a ++ mid) r rest _ _ (by simp; omega) hr
  simp only [h2, ok_bind]
  simp only at hl
  generalize dec (xorBytes (toBE 8 (round * (n - 1) + block)) a ++ r) = b at *
  rw [show wrN (a ++ (mid ++ (r ++ rest))) 0 (b.take 8) = ok (b.take 8 ++ (mid ++ (r ++ rest))) from wrN_mid [] a _ _ 0 rfl (by omega), ok_bind]
  rw [List.take_of_length_le (l := b.drop 8) (by omega), ← List.append_assoc (List.take 8 b),
    wrN_mid (b.take 8 ++ mid) r rest _ _ (by simp at hl ⊢; omega) (by omega)]
  simp

theorem unwrapBlocks_eq (hc : BlockCipher enc dec) (n round : Nat) (rs : List Bytes) (a rest : Bytes) (ha : a.length = 8) (hr : Blocks8 rs) :
    unwrapBlocks dec n round rs.length (a ++ (rs.flatten ++ rest)) =
      ok ((unwrapRound dec (round * (n - 1) + 1) a rs).1 ++ ((unwrapRound dec (round * (n - 1) + 1) a rs).2.flatten ++ rest)) := by
  generalize hk : rs.length = k
  induction k generalizing rs a rest with
  | zero => rw [List.length_eq_zero_iff.1 hk]; rfl
  | succ k ih =>
    obtain ⟨init, r, rfl⟩ : ∃ init r, rs = init ++ [r] := by
      have hne : rs ≠ [] := by rintro rfl; simp at hk
      exact ⟨rs.dropLast, rs.getLast hne, (List.dropLast_concat_getLast hne).symm⟩
    have hk' : init.length = k := by simp at hk; exact hk
    have hi : Blocks8 init := fun x hx => hr x (by simp [hx])
    have hr8 : r.length = 8 := hr r (by simp)
    have hfl := length_flatten8 hi
    rw [unwrapBlocks, List.flatten_append, List.flatten_singleton, List.append_assoc,
      unwrapStep_eq hc n round a r init.flatten rest ha hr8 (k + 1) (by omega), ok_bind]
    have hl := unwrapBlock_len hc (t := round * (n - 1) + (k + 1)) ha hr8
    rw [ih init _ _ hl.1 hi hk', unwrapRound_snoc]
    rw [show round * (n - 1) + 1 + init.length = round * (n - 1) + (k + 1) by omega]
    simp [List.flatten_append]

/-- RFC 3394 2.2.2, all rounds -/
def unwrapAll (dec : Bytes → Bytes) : Nat → Bytes → List Bytes → Bytes × List Bytes
  | 0, a, rs => (a, rs)
  | j + 1, a, rs =>
    let x := unwrapRound dec (rs.length * j + 1) a rs
    unwrapAll dec j x.1 x.2

theorem unwrapRounds_eq (hc : BlockCipher enc dec) (rs : List Bytes) (a rest : Bytes) (ha : a.length = 8) (hr : Blocks8 rs) (j : Nat) :
    unwrapRounds dec (rs.length + 1) j (a ++ (rs.flatten ++ rest)) =
      ok ((unwrapAll dec j a rs).1 ++ ((unwrapAll dec j a rs).2.flatten ++ rest)) := by
  induction j generalizing a rs with
  | zero => rfl
  | succ j ih =>
    have hl := unwrapRound_len hc (t := rs.length * j + 1) ha hr
    have := ih _ _ hl.1 hl.2.1
    rw [hl.2.2] at this
    rw [unwrapRounds, Nat.add_sub_cancel, unwrapBlocks_eq hc _ _ rs a rest ha hr, ok_bind, Nat.add_sub_cancel, Nat.mul_comm j, this]
    rfl

theorem wrapRounds_len (hc : BlockCipher enc dec) {a : Bytes} {rs : List Bytes} (ha : a.length = 8) (hr : Blocks8 rs) (j : Nat) :
    (wrapRounds enc j a rs).1.length = 8 ∧ Blocks8 (wrapRounds enc j a rs).2 ∧ (wrapRounds enc j a rs).2.length = rs.length := by
  induction j with
  | zero => exact ⟨ha, hr, rfl⟩
  | succ j ih =>
    have := wrapRound_len hc (t := (wrapRounds enc j a rs).2.length * j + 1) ih.1 ih.2.1
    unfold wrapRounds
    exact ⟨this.1, this.2.1, this.2.2.trans ih.2.2⟩

theorem unwrapAll_len (hc : BlockCipher enc dec) {a : Bytes} {rs : List Bytes} (ha : a.length = 8) (hr : Blocks8 rs) (j : Nat) :
    (unwrapAll dec j a rs).1.length = 8 ∧ Blocks8 (unwrapAll dec j a rs).2 ∧ (unwrapAll dec j a rs).2.length = rs.length := by
  induction j generalizing a rs with
  | zero => exact ⟨ha, hr, rfl⟩
  | succ j ih =>
    have := unwrapRound_len hc (t := rs.length * j + 1) ha hr
    have h2 := ih this.1 this.2.1
    exact ⟨h2.1, h2.2.1, h2.2.2.trans this.2.2⟩

theorem unwrap_wrap (hc : BlockCipher enc dec) {a : Bytes} {rs : List Bytes} (ha : a.length = 8) (hr : Blocks8 rs) (j : Nat) :
    unwrapAll dec j (wrapRounds enc j a rs).1 (wrapRounds enc j a rs).2 = (a, rs) := by
  induction j with
  | zero => rfl
  | succ j ih =>
    have hl := wrapRounds_len hc ha hr j
    have hw := wrapRound_len hc (t := (wrapRounds enc j a rs).2.length * j + 1) hl.1 hl.2.1
    rw [unwrapAll, wrapRounds]
    simp only
    rw [hw.2.2, unwrap_wrapRound hc hl.1 hl.2.1]
    exact ih

theorem wrap_unwrap (hc : BlockCipher enc dec) {a : Bytes} {rs : List Bytes} (ha : a.length = 8) (hr : Blocks8 rs) (j : Nat) :
    wrapRounds enc j (unwrapAll dec j a rs).1 (unwrapAll dec j a rs).2 = (a, rs) := by
  induction j generalizing a rs with
  | zero => rfl
  | succ j ih =>
    have hl := unwrapRound_len hc (t := rs.length * j + 1) ha hr
    have h2 := ih hl.1 hl.2.1
    rw [unwrapAll, wrapRounds]
    simp only [h2]
    rw [hl.2.2, wrap_unwrapRound hc ha hr]

/-- split into blocks of 8 bytes -/
theorem exists_blocks8 (w : Bytes) (k : Nat) (h : w.length = 8 * k) : ∃ rs : List Bytes, w = rs.flatten ∧ Blocks8 rs ∧ rs.length = k := by
  induction k generalizing w with
  | zero => exact ⟨[], List.length_eq_zero_iff.1 (by omega), (fun r hr => by cases hr), rfl⟩
  | succ k ih =>
    obtain ⟨rs, h1, h2, h3⟩ := ih (w.drop 8) (by simp; omega)
    refine ⟨w.take 8 :: rs, ?_, ?_, by simp [h3]⟩
    · rw [List.flatten_cons, ← h1, List.take_append_drop]
    · intro r hr
      rcases List.mem_cons.1 hr with rfl | hr
      · simp; omega
      · exact h2 r hr

theorem keyUnwrap_eq {encK decK : Bytes → Bytes → Bytes} (key : Bytes) (keyBits : Nat) (hk : keyBits = 128 ∨ keyBits = 192 ∨ keyBits = 256)
    (hkey : keyBits / 8 ≤ key.length) (hc : BlockCipher (encK (key.take (keyBits / 8))) (decK (key.take (keyBits / 8))))
    (a : Bytes) (rs : List Bytes) (ha : a.length = 8) (hr : Blocks8 rs) (hn : 1 ≤ rs.length) (buf : Bytes)
    (hb : 8 * (rs.length + 1) ≤ buf.length) (hb2 : buf.length ≤ 2 ^ 63 - 1) :
    keyUnwrap decK key keyBits (a ++ rs.flatten) buf =
      ok ((unwrapAll (decK (key.take (keyBits / 8))) 6 a rs).1 ++ ((unwrapAll (decK (key.take (keyBits / 8))) 6 a rs).2.flatten
        ++ buf.drop (8 * (rs.length + 1)))) := by
  have hfl := length_flatten8 hr
  have hwl : (a ++ rs.flatten).length = 8 * (rs.length + 1) := by simp [ha, hfl]; omega
  unfold keyUnwrap
  rw [require_true (by omega), ok_bind, require_true (by omega), ok_bind, require_true (by omega), ok_bind, require_true (by omega), ok_bind,
    require_true (by omega), ok_bind, require_true (by omega), ok_bind, rdN_le (by omega), ok_bind, List.drop_zero]
  have hw : wrN buf 0 (a ++ rs.flatten) = ok (a ++ (rs.flatten ++ buf.drop (8 * (rs.length + 1)))) := by
    unfold wrN
    rw [if_pos (by omega), hwl]
    simp
  rw [hw, ok_bind, hwl, show 8 * (rs.length + 1) / 8 = rs.length + 1 by omega]
  exact unwrapRounds_eq hc rs a _ ha hr 6

/-! ## sectors -/

/-- sector-wise decryption starting with tweak number `first` -/
def sectors (xts : Bytes → Bytes → Bytes) (first : Nat) : List Bytes → List Bytes
  | [] => []
  | s :: ss => xts (toLE 8 first ++ List.replicate 8 0) s :: sectors xts (first + 1) ss

theorem toLE_mod (n v : Nat) : toLE n (v % 256 ^ n) = toLE n v := by
  induction n generalizing v with
  | zero => rfl
  | succ n ih =>
    rw [toLE, toLE]
    have h1 : v % 256 ^ (n + 1) % 256 = v % 256 := by rw [Nat.pow_succ, Nat.mul_comm, Nat.mod_mul_right_mod]
    have h2 : v % 256 ^ (n + 1) / 256 = v / 256 % 256 ^ n := by rw [Nat.pow_succ, Nat.mul_comm, Nat.mod_mul_right_div_self]
    rw [h2, ih]
    congr 1
    have : ∀ x : Nat, UInt8.ofNat (x % 256) = UInt8.ofNat x := fun x => by
      apply UInt8.toNat.inj; simp
    first
    | rw [← this v, ← h1, this]
    | rw [h1]

theorem sectors_mod (xts : Bytes → Bytes → Bytes) (first : Nat) (ss : List Bytes) : sectors xts (first % 2 ^ 64) ss = sectors xts first ss := by
  induction ss generalizing first with
  | nil => rfl
  | cons s ss ih =>
    rw [sectors, sectors, show (2 ^ 64 : Nat) = 256 ^ 8 from rfl, toLE_mod]
    congr 1
    rw [← ih (first % 256 ^ 8 + 1), ← ih (first + 1)]
    congr 1
    show (first % 2 ^ 64 + 1) % 2 ^ 64 = (first + 1) % 2 ^ 64
    omega

theorem cryptLoop_eq (xts : Bytes → Bytes → Bytes) (bps : Nat) (hb : 0 < bps) (hx : ∀ t d, (xts t d).length = d.length)
    (pre : Bytes) (ss : List Bytes) (hs : ∀ s ∈ ss, s.length = bps) (sector : Nat) (done out rest : Bytes)
    (hd : done.length = pre.length) (ho : out.length = ss.flatten.length) :
    cryptLoop xts (pre ++ ss.flatten) bps sector pre.length (done ++ (out ++ rest)) = ok (done ++ ((sectors xts sector ss).flatten ++ rest)) := by
  induction ss generalizing pre done sector out with
  | nil =>
    unfold cryptLoop
    have : out = [] := List.length_eq_zero_iff.1 ho
    rw [if_neg (by simp), this]
    rfl
  | cons s ss ih =>
    have hl : s.length = bps := hs s (by simp)
    rw [List.flatten_cons, List.length_append] at ho
    unfold cryptLoop
    rw [if_pos (by simp; omega), dif_neg (by omega), List.flatten_cons, rdN_mid' pre s _ _ _ rfl hl]
    simp only
    have hxl := hx (toLE 8 sector ++ List.replicate 8 0) s
    rw [sectors]
    generalize hg : xts (toLE 8 sector ++ List.replicate 8 0) s = xd at *
    have ho2 : out = out.take bps ++ out.drop bps := (List.take_append_drop _ _).symm
    have hw : wrN (done ++ (out ++ rest)) pre.length xd = ok (done ++ (xd ++ (out.drop bps ++ rest))) := by
      rw [ho2, List.append_assoc]
      rw [wrN_mid done (out.take bps) (out.drop bps ++ rest) _ _ hd (by simp; omega), ← ho2]
    rw [hw]
    simp only
    have := ih (pre := pre ++ s) (done := done ++ xd) (sector := (sector + 1) % 2 ^ 64) (out := out.drop bps)
      (fun x hx => hs x (by simp [hx])) (by simp; omega) (by rw [List.length_drop]; omega)
    rw [List.length_append, hl, List.append_assoc, List.append_assoc] at this
    rw [this, sectors_mod]
    simp

/-! ## PBKDF2 -/

theorem xorLoop_eq (hash : Bytes) (pre cur rest : Bytes) (k i off : Nat) (hoff : pre.length = off + i) (hk : cur.length = k)
    (hh : i + k ≤ hash.length) :
    xorLoop hash off k i (pre ++ (cur ++ rest)) = ok (pre ++ (xorBytes cur ((hash.drop i).take k) ++ rest)) := by
  induction k generalizing pre cur i with
  | zero =>
    have : cur = [] := List.length_eq_zero_iff.1 hk
    subst this
    rfl
  | succ k ih =>
    cases cur with
    | nil => simp at hk
    | cons c cs =>
      have hi : i < hash.length := by omega
      rw [xorLoop, rd_lt (by simp; omega), ok_bind, rd_lt hi, ok_bind]
      have hg : (pre ++ (c :: cs ++ rest))[off + i]'(by simp; omega) = c := by
        rw [List.getElem_append_right (by omega)]
        simp [hoff]
      rw [hg]
      have hset : wr (pre ++ (c :: cs ++ rest)) (off + i) (c ^^^ hash[i]) = ok ((pre ++ [c ^^^ hash[i]]) ++ (cs ++ rest)) := by
        unfold wr
        rw [if_pos (by simp; omega), List.set_append_right _ _ (by omega)]
        simp [hoff]
      rw [hset, ok_bind, ih (pre ++ [c ^^^ hash[i]]) cs (i + 1) (by simp; omega) (by simpa using hk) (by omega)]
      rw [List.drop_eq_getElem_cons hi, List.take_succ_cons]
      simp [xorBytes]

theorem take_xorBytes (a b : Bytes) (k : Nat) : (xorBytes a b).take k = xorBytes (a.take k) (b.take k) := by
  simp [xorBytes, List.take_zipWith]

theorem iterLoop_eq (prf : Bytes → Bytes → Bytes) (hp : ∀ p d, (prf p d).length = 32) (p s : Bytes) (i off k : Nat) (hk : k ≤ 32)
    (pre rest : Bytes) (hoff : pre.length = off) (n c : Nat) :
    iterLoop prf p off k n (pbkdf2U prf p s i c) (pre ++ ((pbkdf2F prf p s i c).take k ++ rest)) =
      ok (pre ++ ((pbkdf2F prf p s i (c + n)).take k ++ rest)) := by
  induction n generalizing c with
  | zero => rfl
  | succ n ih =>
    have hU : ∀ c, (pbkdf2U prf p s i c).length = 32 := by intro c; cases c <;> exact hp _ _
    have hF : (pbkdf2F prf p s i c).length = 32 := by
      induction c with
      | zero => exact hU 0
      | succ c ihc => rw [pbkdf2F, length_xorBytes, ihc, hU]; rfl
    rw [iterLoop]
    have := ih (c + 1)
    rw [pbkdf2U, pbkdf2F] at this
    have hx := xorLoop_eq (prf p (pbkdf2U prf p s i c)) pre ((pbkdf2F prf p s i c).take k) rest k 0 off (by omega) (by simp; omega)
      (by rw [hp]; omega)
    simp only [hx, ok_bind, List.drop_zero]
    rw [← take_xorBytes]
    rw [show c + (n + 1) = c + 1 + n by omega]
    exact this

theorem pbkdf2F_len (prf : Bytes → Bytes → Bytes) (hp : ∀ p d, (prf p d).length = 32) (p s : Bytes) (i c : Nat) :
    (pbkdf2F prf p s i c).length = 32 := by
  have hU : ∀ c, (pbkdf2U prf p s i c).length = 32 := by intro c; cases c <;> exact hp _ _
  induction c with
  | zero => exact hU 0
  | succ c ihc => rw [pbkdf2F, length_xorBytes, ihc, hU]; rfl

theorem pbkdf2Block_eq (prf : Bytes → Bytes → Bytes) (hp : ∀ p d, (prf p d).length = 32) (p s old : Bytes) (ho : old.length = 4)
    (iterations index off k : Nat) (hi : index + 1 < 2 ^ 32) (hk : k ≤ 32) (pre cur rest : Bytes) (hoff : pre.length = off) (hc : cur.length = k) :
    pbkdf2Block prf p s.length iterations index off k (s ++ old) (pre ++ (cur ++ rest)) =
      ok (pre ++ ((pbkdf2F prf p s (index + 1) (iterations - 1)).take k ++ rest)) := by
  unfold pbkdf2Block
  have hw : wrN (s ++ old) s.length (toBE 4 ((index + 1) % 2 ^ 32)) = ok (s ++ toBE 4 (index + 1)) := by
    have := wrN_mid s old [] (toBE 4 (index + 1)) s.length rfl (by simp [ho])
    simp only [List.append_nil] at this
    rw [Nat.mod_eq_of_lt hi]
    exact this
  simp only [hw, ok_bind]
  rw [rdN_le (by rw [hp]; omega), ok_bind, List.drop_zero]
  rw [wrN_mid pre cur rest _ off hoff (by simp [hp, hc]; omega), ok_bind]
  have := iterLoop_eq prf hp p s (index + 1) off k hk pre rest hoff (iterations - 1) 0
  rw [Nat.zero_add] at this
  exact this

theorem pbkdf2Blocks_eq (prf : Bytes → Bytes → Bytes) (hp : ∀ p d, (prf p d).length = 32) (p s old : Bytes) (ho : old.length = 4)
    (iterations n index : Nat) (hi : index + n < 2 ^ 32) (pre cur rest : Bytes) (hpre : pre.length = index * 32) (hc : cur.length = n * 32) :
    pbkdf2Blocks prf p s.length iterations (s ++ old) n index (pre ++ (cur ++ rest)) =
      ok (pre ++ (pbkdf2T prf p s iterations index n ++ rest)) := by
  induction n generalizing index pre cur with
  | zero =>
    have : cur = [] := List.length_eq_zero_iff.1 (by omega)
    subst this
    rfl
  | succ n ih =>
    rw [pbkdf2Blocks]
    have hcur : cur = cur.take 32 ++ cur.drop 32 := (List.take_append_drop _ _).symm
    have hF := pbkdf2F_len prf hp p s (index + 1) (iterations - 1)
    have h1 := pbkdf2Block_eq prf hp p s old ho iterations index (index * 32) 32 (by omega) (by omega) pre (cur.take 32) (cur.drop 32 ++ rest)
      hpre (by simp; omega)
    rw [← List.append_assoc (cur.take 32), ← hcur, List.take_of_length_le (by omega)] at h1
    rw [h1, ok_bind]
    have := ih (index + 1) (by omega) (pre ++ pbkdf2F prf p s (index + 1) (iterations - 1)) (cur.drop 32) (by simp [hF, hpre]; omega) (by simp; omega)
    rw [List.append_assoc] at this
    rw [this, pbkdf2T]
    simp

theorem pbkdf2T_snoc (prf : Bytes → Bytes → Bytes) (p s : Bytes) (c i n : Nat) :
    pbkdf2T prf p s c i (n + 1) = pbkdf2T prf p s c i n ++ pbkdf2F prf p s (i + n + 1) (c - 1) := by
  induction n generalizing i with
  | zero => simp [pbkdf2T]
  | succ n ih =>
    rw [pbkdf2T, ih (i + 1), pbkdf2T, List.append_assoc, show i + 1 + n + 1 = i + (n + 1) + 1 by omega]

theorem pbkdf2T_len (prf : Bytes → Bytes → Bytes) (hp : ∀ p d, (prf p d).length = 32) (p s : Bytes) (c i n : Nat) :
    (pbkdf2T prf p s c i n).length = n * 32 := by
  induction n generalizing i with
  | zero => rfl
  | succ n ih => rw [pbkdf2T, List.length_append, ih, pbkdf2F_len prf hp]; omega

end Crypto
end Verif
