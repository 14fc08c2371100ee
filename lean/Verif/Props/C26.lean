import Verif.Lemmas.Crypto
import Verif.Spec.Xts
/-!
# C26 Each encrypted sector is decrypted with its own tweak number
-/
namespace Verif.Props
open Verif Res Spec Crypto

theorem tweak_eq {n : Nat} (h : n < 2 ^ 64) : toLE 8 n ++ List.replicate 8 0 = tweak n := by
  have key : ∀ k m v : Nat, v < 256 ^ k → toLE k v ++ List.replicate m 0 = toLE (k + m) v := by
    intro k
    induction k with
    | zero =>
      intro m v hv
      have hv : v = 0 := by simpa using hv
      subst hv
      rw [Nat.zero_add]
      clear hv
      induction m with
      | zero => rfl
      | succ m ih =>
        show 0 :: List.replicate m 0 = UInt8.ofNat (0 % 256) :: toLE m (0 / 256)
        rw [Nat.zero_div, ← ih]
        rfl
    | succ k ih =>
      intro m v hv
      rw [show k + 1 + m = (k + m) + 1 by omega, toLE, toLE, List.cons_append, ih m (v / 256)]
      rw [Nat.pow_succ] at hv
      omega
  exact key 8 8 n (by omega)

theorem tweak_inj {a b : Nat} (ha : a < 2 ^ 64) (hb : b < 2 ^ 64) (h : tweak a = tweak b) : a = b := by
  have h1 := leNat_toLE 16 a (Nat.lt_trans ha (by decide))
  have h2 := leNat_toLE 16 b (Nat.lt_trans hb (by decide))
  unfold tweak at h
  rw [h, h2] at h1
  exact h1.symm

theorem sectors_eq (dec : Bytes → Bytes → Bytes) (first : Nat) (ss : List Bytes) (h : first + ss.length ≤ 2 ^ 64) :
    sectors dec first ss = ss.mapIdx (fun i s => dec (tweak (first + i)) s) := by
  induction ss generalizing first with
  | nil => rfl
  | cons s ss ih =>
    simp only [List.length_cons] at h
    rw [sectors, tweak_eq (by omega), ih (first + 1) (by omega), List.mapIdx_cons, Nat.add_zero]
    congr 2
    funext i s
    rw [show first + 1 + i = first + (i + 1) by omega]

/-- Sector `i` of the output is sector `i` of the input decrypted with tweak number `first + i`; bytes behind the data remain. -/
theorem c26_sector_tweaks (bps : Nat) (hb : 0 < bps) (dec : Bytes → Bytes → Bytes) (hd : ∀ t d, (dec t d).length = d.length)
    (ss : List Bytes) (hs : ∀ s ∈ ss, s.length = bps) (first : Nat) (hf : first + ss.length ≤ 2 ^ 64)
    (out : Bytes) (ho : ss.flatten.length ≤ out.length) (ho2 : out.length ≤ 2 ^ 63 - 1) :
    crypt dec ss.flatten first bps out = ok ((ss.mapIdx (fun i s => dec (tweak (first + i)) s)).flatten ++ out.drop ss.flatten.length) := by
  unfold crypt
  rw [require_true (by omega), ok_bind, require_true (by omega), ok_bind, require_true (by omega), ok_bind]
  have := cryptLoop_eq dec bps hb hd [] ss hs first [] (out.take ss.flatten.length) (out.drop ss.flatten.length) rfl
    (by rw [List.length_take]; omega)
  simp only [List.nil_append, List.take_append_drop, List.length_nil] at this
  rw [this, sectors_eq _ _ _ hf]

/-- Decrypting inverts encrypting sector by sector. -/
theorem c26_roundtrip (bps : Nat) (hb : 0 < bps) (enc dec : Bytes → Bytes → Bytes) (hc : TweakableCipher bps enc dec)
    (plain : List Bytes) (hs : ∀ s ∈ plain, s.length = bps) (first : Nat) (hf : first + plain.length ≤ 2 ^ 64)
    (out : Bytes) (ho : out.length = (encryptSectors enc first plain).flatten.length) (ho2 : out.length ≤ 2 ^ 63 - 1) :
    crypt dec (encryptSectors enc first plain).flatten first bps out = ok plain.flatten := by
  have hl : ∀ s ∈ encryptSectors enc first plain, s.length = bps := by
    intro s h
    unfold encryptSectors at h
    obtain ⟨i, hi, rfl⟩ := List.mem_mapIdx.1 h
    exact hc.encLen _ _ (hs _ (List.getElem_mem _))
  rw [c26_sector_tweaks bps hb dec hc.decLen _ hl first (by simpa [encryptSectors] using hf) out (by omega) ho2]
  rw [List.drop_of_length_le (by omega), List.append_nil]
  congr 2
  apply List.ext_getElem
  · simp [encryptSectors]
  · intro i h1 h2
    simp only [encryptSectors, List.getElem_mapIdx]
    exact hc.decEnc _ _ (hs _ (List.getElem_mem _))

/-- A data block with identifier `id` consisting of `n` sectors is decrypted with the tweak numbers `id * n`, ..., `id * n + n - 1`. -/
theorem c26_block_partial (bps : Nat) (hb : 0 < bps) (enc dec : Bytes → Bytes → Bytes) (hc : TweakableCipher bps enc dec)
    (plain : List Bytes) (hs : ∀ s ∈ plain, s.length = bps) (id : Nat) (hid : (id + 1) * (plain.length * bps) ≤ 2 ^ 64)
    (hz : plain.length * bps ≤ 2 ^ 63 - 1) (out : Bytes) (ho : out.length = plain.length * bps) :
    readDataBlock (some dec) (encryptSectors enc (id * plain.length) plain).flatten out id bps = ok plain.flatten := by
  have hl : (encryptSectors enc (id * plain.length) plain).flatten.length = plain.length * bps := by
    have key : ∀ l : List Bytes, (∀ s ∈ l, s.length = bps) → l.flatten.length = l.length * bps := by
      intro l h
      induction l with
      | nil => simp
      | cons a l ih =>
        rw [List.flatten_cons, List.length_append, ih (fun s hs => h s (by simp [hs])), h a (by simp), List.length_cons, Nat.succ_mul]
        omega
    rw [key]
    · simp [encryptSectors]
    · intro s h
      unfold encryptSectors at h
      obtain ⟨i, hi, rfl⟩ := List.mem_mapIdx.1 h
      exact hc.encLen _ _ (hs _ (List.getElem_mem _))
  unfold readDataBlock
  rw [require_true (by omega), ok_bind, hl]
  have h1 : (id + 1) * (plain.length * bps) = id * plain.length * bps + plain.length * bps := by
    rw [Nat.succ_mul, Nat.mul_assoc]
  by_cases hp : plain = []
  · subst hp
    have : out = [] := List.length_eq_zero_iff.1 (by simpa using ho)
    subst this
    exact c26_roundtrip bps hb enc dec hc [] (by simp) (id * (([] : List Bytes).length * bps) % 2 ^ 64 / bps)
      (by
        have := Nat.div_le_self (id * (([] : List Bytes).length * bps) % 2 ^ 64) bps
        have := Nat.mod_lt (id * (([] : List Bytes).length * bps)) (show 2 ^ 64 > 0 by decide)
        simp only [List.length_nil] at *
        omega) [] rfl (by simp)
  · have hpl := List.length_pos_iff.2 hp
    have hpb : plain.length ≤ plain.length * bps := Nat.le_mul_of_pos_right _ hb
    have hpb2 : id * plain.length ≤ id * plain.length * bps := Nat.le_mul_of_pos_right _ hb
    have hmod : id * (plain.length * bps) % 2 ^ 64 = id * plain.length * bps := by
      rw [← Nat.mul_assoc]
      exact Nat.mod_eq_of_lt (by omega)
    simp only [hmod, Nat.mul_div_cancel _ hb]
    exact c26_roundtrip bps hb enc dec hc plain hs _ (by omega) out (by omega) (by omega)

/-- Two different sectors (block identifier, index in the block) never share a tweak. -/
theorem c26_tweak_unique (n id i id' i' : Nat) (hi : i < n) (hi' : i' < n) (hid : (id + 1) * n ≤ 2 ^ 64) (hid' : (id' + 1) * n ≤ 2 ^ 64)
    (h : tweak (id * n + i) = tweak (id' * n + i')) : id = id' ∧ i = i' := by
  rw [Nat.succ_mul] at hid hid'
  have he := tweak_inj (by omega) (by omega) h
  have h1 : (i + n * id) / n = id := by rw [Nat.add_mul_div_left _ _ (by omega), Nat.div_eq_of_lt hi, Nat.zero_add]
  have h2 : (i' + n * id') / n = id' := by rw [Nat.add_mul_div_left _ _ (by omega), Nat.div_eq_of_lt hi', Nat.zero_add]
  have he' : i + n * id = i' + n * id' := by rw [Nat.mul_comm n, Nat.mul_comm n]; omega
  rw [he'] at h1
  have hii : id = id' := by omega
  subst hii
  exact ⟨rfl, by omega⟩

/-- The bound on the identifier in `c26_block_partial` is needed: the identifiers 0 and 2^52 lead to the same tweak numbers for
4096-byte blocks, for the product is computed modulo 2^64 before the division. -/
theorem c26_identifier_wraps (dec : Bytes → Bytes → Bytes) (data out : Bytes) (hd : data.length = 4096) :
    readDataBlock (some dec) data out (2 ^ 52) 512 = readDataBlock (some dec) data out 0 512 := by
  unfold readDataBlock
  simp only [hd]

/-- Data that is not a multiple of the sector size is read past its end. -/
theorem c26_partial_sector (dec : Bytes → Bytes → Bytes) : crypt dec [1, 2, 3, 4, 5] 0 8 [0, 0, 0, 0, 0] = ub := by
  unfold crypt cryptLoop
  rfl

/-- a cipher depending on the tweak, meeting the hypotheses -/
def addTweak (t d : Bytes) : Bytes := d.map (· + t.headD 0)
def subTweak (t d : Bytes) : Bytes := d.map (· - t.headD 0)

theorem tweakable_add (bps : Nat) : TweakableCipher bps addTweak subTweak :=
  ⟨by simp [addTweak], by simp [subTweak], by
    intro t d _
    simp only [addTweak, subTweak, List.map_map]
    conv => rhs; rw [← List.map_id d]
    congr 1
    funext x
    simp⟩

example : readDataBlock (some subTweak) [7, 8, 10, 11] [0, 0, 0, 0] 3 2 = ok [1, 2, 3, 4] :=
  c26_block_partial 2 (by decide) addTweak subTweak (tweakable_add 2) [[1, 2], [3, 4]] (by decide) 3 (by decide) (by decide) [0, 0, 0, 0] (by decide)

example : (3 : Nat) = 3 ∧ (1 : Nat) = 1 := c26_tweak_unique 8 3 1 3 1 (by decide) (by decide) (by decide) (by decide) rfl

end Verif.Props
