/-!
# Common modelling vocabulary

`Res` is the outcome of a modelled C function; see DESIGN.md "Modelling conventions".
-/
namespace Verif

abbrev Bytes := List UInt8

/-- Outcome of a modelled C function: success, `return( -1 )`, or undefined behaviour
(an access outside of the object being accessed). -/
inductive Res (α : Type u) where
  | ok (a : α)
  | err
  | ub
deriving Repr, DecidableEq

namespace Res

@[inline] protected def bind {α : Type u} {β : Type v} (x : Res α) (f : α → Res β) : Res β :=
  match x with
  | ok a => f a
  | err => err
  | ub => ub

instance : Monad Res where
  pure := ok
  bind := Res.bind

@[simp] theorem pure_eq {α : Type u} (a : α) : (pure a : Res α) = ok a := rfl
@[simp] theorem ok_bind {α β : Type u} (a : α) (f : α → Res β) : (ok a >>= f) = f a := rfl
@[simp] theorem err_bind {α β : Type u} (f : α → Res β) : ((err : Res α) >>= f) = err := rfl
@[simp] theorem ub_bind {α β : Type u} (f : α → Res β) : ((ub : Res α) >>= f) = ub := rfl

@[simp] theorem bind_ok_right {α : Type u} (x : Res α) : (x >>= fun a => ok a) = x := by cases x <;> rfl

instance : LawfulMonad Res := LawfulMonad.mk'
  (id_map := by intro α x; cases x <;> rfl)
  (pure_bind := by intros; rfl)
  (bind_assoc := by intro α β γ x f g; cases x <;> rfl)

/-- A result is safe when it is not undefined behaviour. -/
def Safe {α : Type u} (r : Res α) : Prop := r ≠ ub

@[simp] theorem safe_ok {α : Type u} (a : α) : Safe (ok a) := by simp [Safe]
@[simp] theorem safe_err {α : Type u} : Safe (err : Res α) := by simp [Safe]
@[simp] theorem not_safe_ub {α : Type u} : ¬ Safe (ub : Res α) := by simp [Safe]

theorem safe_bind {α β : Type u} {x : Res α} {f : α → Res β}
    (hx : Safe x) (hf : ∀ a, x = ok a → Safe (f a)) : Safe (x >>= f) := by
  cases x with
  | ok a => exact hf a rfl
  | err => simp
  | ub => exact absurd rfl hx

theorem bind_eq_ok {α β : Type u} {x : Res α} {f : α → Res β} {b : β} :
    (x >>= f) = ok b ↔ ∃ a, x = ok a ∧ f a = ok b := by
  cases x <;> simp

/-- An explicit `if( !cond ) return( -1 );`. -/
def require (c : Prop) [Decidable c] : Res Unit := if c then ok () else err

@[simp] theorem require_eq_ok {c : Prop} [Decidable c] (u : Unit) : require c = ok u ↔ c := by
  unfold require; split <;> simp_all

theorem require_true {c : Prop} [Decidable c] (h : c) : require c = ok () := by simp [require, h]
theorem require_false {c : Prop} [Decidable c] (h : ¬ c) : require c = err := by simp [require, h]

@[simp] theorem safe_require {c : Prop} [Decidable c] : Safe (require c) := by
  unfold require; split <;> simp

/-- Lift an `Option` lookup of memory: missing element is undefined behaviour. -/
def ofMem {α : Type u} : Option α → Res α
  | some a => ok a
  | none => ub

@[simp] theorem ofMem_some {α : Type u} (a : α) : ofMem (some a) = ok a := rfl
@[simp] theorem ofMem_none {α : Type u} : ofMem (none : Option α) = ub := rfl

end Res

open Res

/-- `data[ i ]` -/
def rd (d : Bytes) (i : Nat) : Res UInt8 := ofMem d[i]?

/-- `memory_copy( dst, &( data[ off ] ), n )`: the `n` bytes at `off`. -/
def rdN (d : Bytes) (off n : Nat) : Res Bytes :=
  if off + n ≤ d.length then ok ((d.drop off).take n) else ub

/-- little-endian number of a byte string -/
def leNat : Bytes → Nat
  | [] => 0
  | b :: bs => b.toNat + 256 * leNat bs

/-- big-endian number of a byte string -/
def beNat (bs : Bytes) : Nat := bs.foldl (fun a b => a * 256 + b.toNat) 0

/-- `byte_stream_copy_to_uintN_little_endian( &( data[ off ] ), v )` -/
def rdLE (d : Bytes) (off n : Nat) : Res Nat := do
  let bs ← rdN d off n
  return leNat bs

/-- `n` little-endian bytes of `v` -/
def toLE : Nat → Nat → Bytes
  | 0, _ => []
  | n + 1, v => UInt8.ofNat (v % 256) :: toLE n (v / 256)

/-- `n` big-endian bytes of `v` -/
def toBE (n v : Nat) : Bytes := (toLE n v).reverse

/-- byte-wise exclusive or, as long as the shorter one -/
def xorBytes (a b : Bytes) : Bytes := List.zipWith (· ^^^ ·) a b

/-- `memory_copy( &( data[ off ] ), bs, size of bs )`: the object `d` with `bs` written at `off`. -/
def wrN (d : Bytes) (off : Nat) (bs : Bytes) : Res Bytes :=
  if off + bs.length ≤ d.length then ok (d.take off ++ bs ++ d.drop (off + bs.length)) else ub

/-- `data[ i ] = b` -/
def wr (d : Bytes) (i : Nat) (b : UInt8) : Res Bytes := if i < d.length then ok (d.set i b) else ub

theorem wrN_mid (a f b bs : Bytes) (off : Nat) (h1 : a.length = off) (h2 : bs.length = f.length) :
    wrN (a ++ (f ++ b)) off bs = ok (a ++ (bs ++ b)) := by
  subst h1
  unfold wrN
  rw [if_pos (by simp; omega)]
  simp [List.take_left', ← List.drop_drop, h2]

theorem rd_lt {d : Bytes} {i : Nat} (h : i < d.length) : rd d i = ok d[i] := by
  simp [rd, List.getElem?_eq_getElem h]

theorem rd_ge {d : Bytes} {i : Nat} (h : d.length ≤ i) : rd d i = ub := by
  simp [rd, List.getElem?_eq_none h]

theorem rdN_le {d : Bytes} {off n : Nat} (h : off + n ≤ d.length) :
    rdN d off n = ok ((d.drop off).take n) := by simp [rdN, h]

theorem rdN_gt {d : Bytes} {off n : Nat} (h : d.length < off + n) :
    rdN d off n = ub := by simp [rdN]; omega

theorem rdLE_le {d : Bytes} {off n : Nat} (h : off + n ≤ d.length) :
    rdLE d off n = ok (leNat ((d.drop off).take n)) := by simp [rdLE, rdN_le h]

theorem rdLE_gt {d : Bytes} {off n : Nat} (h : d.length < off + n) :
    rdLE d off n = ub := by simp [rdLE, rdN_gt h]

theorem leNat_lt (bs : Bytes) : leNat bs < 256 ^ bs.length := by
  induction bs with
  | nil => simp [leNat]
  | cons b bs ih =>
    have := b.toNat_lt
    simp only [leNat, List.length_cons, Nat.pow_succ]
    omega

theorem leNat_append (a b : Bytes) : leNat (a ++ b) = leNat a + 256 ^ a.length * leNat b := by
  induction a with
  | nil => simp [leNat]
  | cons x xs ih =>
    simp only [List.cons_append, leNat, ih, List.length_cons, Nat.pow_succ]
    rw [Nat.mul_add, Nat.mul_comm (256 ^ xs.length) 256, Nat.mul_assoc, Nat.add_assoc]

@[simp] theorem length_toLE (n v : Nat) : (toLE n v).length = n := by
  induction n generalizing v with
  | zero => rfl
  | succ n ih => simp [toLE, ih]

@[simp] theorem length_toBE (n v : Nat) : (toBE n v).length = n := by simp [toBE]

theorem leNat_toLE (n v : Nat) (h : v < 256 ^ n) : leNat (toLE n v) = v := by
  induction n generalizing v with
  | zero => simp at h; simp [toLE, leNat, h]
  | succ n ih =>
    have hv : v / 256 < 256 ^ n := by
      rw [Nat.pow_succ] at h
      exact Nat.div_lt_of_lt_mul (by omega)
    simp only [toLE, leNat, ih _ hv]
    have : (UInt8.ofNat (v % 256)).toNat = v % 256 := by
      simp
    omega

theorem toLE_leNat (bs : Bytes) : toLE bs.length (leNat bs) = bs := by
  induction bs with
  | nil => rfl
  | cons b bs ih =>
    have hb := b.toNat_lt
    simp only [List.length_cons, leNat, toLE]
    have h1 : (b.toNat + 256 * leNat bs) % 256 = b.toNat := by omega
    have h2 : (b.toNat + 256 * leNat bs) / 256 = leNat bs := by omega
    rw [h1, h2, ih]
    simp

theorem leNat_inj {a b : Bytes} (hl : a.length = b.length) (h : leNat a = leNat b) : a = b := by
  rw [← toLE_leNat a, ← toLE_leNat b, hl, h]

/-- reading a field that was laid out at its offset -/
theorem rdN_mid (a f b : Bytes) (n : Nat) (h : f.length = n) :
    rdN (a ++ f ++ b) a.length n = ok f := by
  subst h
  rw [rdN_le (by simp)]
  simp

theorem rdN_mid' (a f b : Bytes) (off n : Nat) (h1 : a.length = off) (h : f.length = n) :
    rdN (a ++ (f ++ b)) off n = ok f := by
  subst h1
  rw [← List.append_assoc]
  exact rdN_mid a f b n h

theorem rdN_length {d : Bytes} {off n : Nat} {r : Bytes} (h : rdN d off n = ok r) : r.length = n := by
  unfold rdN at h
  split at h
  · cases h; simp; omega
  · cases h

end Verif
