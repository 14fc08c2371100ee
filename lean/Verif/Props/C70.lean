import Verif.Model.Program
import Verif.Spec.Decimal
import Verif.Spec.FileObject
import Verif.Props.C33
import Verif.Props.C46
import Verif.Props.C56Volumes
/-!
# C70: fsapfsmount mounts the volume that its options name, or none
-/
namespace Verif.Props
open Verif Res Spec
open Verif.Spec.Decimal (Digit Numeral)
open Verif.Program (Options Machine Selected Obtained)

/-! Numerals -/

theorem digit_ne_zero {c : UInt8} (h : Digit c) : c ≠ 0 := by
  rintro rfl
  exact absurd h.1 (by decide)

theorem mod_linear (x p w m : Nat) : (x % m * p + w) % m = (x * p + w) % m := by
  rw [Nat.add_mod, Nat.mul_mod, Nat.mod_mod, ← Nat.mul_mod, ← Nat.add_mod]

/-- the loop over the characters of an argument -/
theorem decimalLoop_eq : ∀ (s pre : Bytes) (maximum v : Nat), 0 ∉ s → v < 2 ^ 64 → Program.decimalLoop (pre ++ s ++ [0]) maximum (s.length + 1) pre.length v =
    if (∀ c ∈ s, Digit c) ∧ (s ≠ [] → pre.length + s.length ≤ maximum + 1) then ok ((v * 10 ^ s.length + Decimal.value s) % 2 ^ 64) else err
  | [], pre, maximum, v, _, hv => by
    rw [Program.decimalLoop, List.length_nil, rd_lt (by simp), ok_bind]
    simp only [List.append_nil, List.getElem_append_right (Nat.le_refl _), Nat.sub_self, List.getElem_cons_zero, if_true]
    rw [if_pos ⟨(fun c h => nomatch h), fun h => absurd rfl h⟩, Nat.pow_zero, Nat.mul_one, Decimal.value, Nat.add_zero, Nat.mod_eq_of_lt hv]
  | c :: s, pre, maximum, v, h0, hv => by
    have hc : c ≠ 0 := fun e => h0 (by simp [e])
    rw [Program.decimalLoop, rd_lt (by simp), ok_bind]
    have hg : (pre ++ c :: s ++ [0])[pre.length]'(by simp) = c := by simp
    rw [hg, if_neg hc]
    by_cases hm : pre.length > maximum
    · rw [require_false (by omega), err_bind, if_neg]
      rintro ⟨_, h⟩
      have := h (by simp)
      simp only [List.length_cons] at this
      omega
    · rw [require_true (by omega), ok_bind]
      by_cases hd : Digit c
      · rw [require_true (show 48 ≤ c.toNat ∧ c.toNat ≤ 57 from hd), ok_bind]
        have := decimalLoop_eq s (pre ++ [c]) maximum ((v * 10 % 2 ^ 64 + (c.toNat - 0x30)) % 2 ^ 64) (fun e => h0 (by simp [e])) (Nat.mod_lt _ (by decide))
        rw [show pre ++ [c] ++ s ++ [0] = pre ++ c :: s ++ [0] by simp, show (pre ++ [c]).length = pre.length + 1 by simp] at this
        rw [List.length_cons, this]
        have hiff : ((∀ c ∈ s, Digit c) ∧ (s ≠ [] → pre.length + 1 + s.length ≤ maximum + 1)) ↔ ((∀ x ∈ c :: s, Digit x) ∧ (c :: s ≠ [] → pre.length + (s.length + 1) ≤ maximum + 1)) := by
          constructor
          · rintro ⟨h1, h2⟩
            refine ⟨fun x hx => ?_, fun _ => ?_⟩
            · rcases List.mem_cons.1 hx with rfl | hx
              · exact hd
              · exact h1 x hx
            · cases s with
              | nil => simp only [List.length_nil]; omega
              | cons a s => have := h2 (by simp); omega
          · rintro ⟨h1, h2⟩
            exact ⟨fun x hx => h1 x (List.mem_cons_of_mem _ hx), fun _ => by have := h2 (by simp); omega⟩
        by_cases hh : (∀ c ∈ s, Digit c) ∧ (s ≠ [] → pre.length + 1 + s.length ≤ maximum + 1)
        · rw [if_pos hh, if_pos (hiff.1 hh)]
          congr 1
          rw [Decimal.value, mod_linear, Nat.add_mul, Nat.add_assoc, mod_linear, Nat.mul_assoc, Nat.mul_comm 10]
          rfl
        · rw [if_neg hh, if_neg (fun e => hh (hiff.2 e))]
      · rw [require_false (show ¬ (48 ≤ c.toNat ∧ c.toNat ≤ 57) from hd), err_bind, if_neg]
        exact fun h => hd (h.1 c (by simp))

/-- how the programs read an argument: an optional sign, then digits, of which at most 21 are accepted -/
theorem decimal_eq {s : Bytes} (h0 : 0 ∉ s) (hl : s.length < 2 ^ 63 - 1) (h1 : s.head? ≠ some 0x2d) (h2 : s.head? ≠ some 0x2b) :
    Program.decimal (s ++ [0]) (s.length + 1) = if (∀ c ∈ s, Digit c) ∧ s.length ≤ 21 then ok (Decimal.value s % 2 ^ 64) else err := by
  have hc : ∃ c, rd (s ++ [0]) 0 = ok c ∧ c ≠ 0x2d ∧ c ≠ 0x2b := by
    cases s with
    | nil => exact ⟨0, rfl, by decide, by decide⟩
    | cons c s => exact ⟨c, rd_lt (by simp), fun e => h1 (by simp [e]), fun e => h2 (by simp [e])⟩
  obtain ⟨c, e, n1, n2⟩ := hc
  unfold Program.decimal
  rw [require_true (by omega), ok_bind, e, ok_bind]
  simp only [n1, n2, or_self, if_false, Nat.sub_zero, Nat.add_zero]
  have := decimalLoop_eq s [] 20 0 h0 (by decide)
  simp only [List.nil_append, List.length_nil, Nat.zero_add, Nat.zero_mul] at this
  rw [this]
  have hiff : ((∀ c ∈ s, Digit c) ∧ (s ≠ [] → s.length ≤ 20 + 1)) ↔ ((∀ c ∈ s, Digit c) ∧ s.length ≤ 21) := by
    cases s with
    | nil => simp
    | cons a s => simp
  by_cases hh : (∀ c ∈ s, Digit c) ∧ s.length ≤ 21
  · rw [if_pos hh, if_pos (hiff.2 hh), ok_bind]
  · rw [if_neg hh, if_neg (fun e => hh (hiff.1 e)), err_bind]

theorem decimal_sign {s : Bytes} (h0 : 0 ∉ s) (hl : s.length + 1 < 2 ^ 63 - 1) {c : UInt8} (hc : c = 0x2d ∨ c = 0x2b) :
    Program.decimal (c :: s ++ [0]) ((c :: s).length + 1) = if (∀ c ∈ s, Digit c) ∧ s.length ≤ 21 then ok (if c = 0x2d then Decimal.value s % 2 ^ 64 * (2 ^ 64 - 1) % 2 ^ 64 else Decimal.value s % 2 ^ 64) else err := by
  unfold Program.decimal
  have e : rd (c :: s ++ [0]) 0 = ok c := rd_lt (by simp)
  rw [require_true (by simp only [List.length_cons]; omega), ok_bind, e, ok_bind]
  simp only [hc, if_true]
  have := decimalLoop_eq s [c] 21 0 h0 (by decide)
  simp only [List.length_singleton, Nat.zero_mul, Nat.zero_add, List.singleton_append] at this
  rw [show (c :: s).length + 1 - 1 = s.length + 1 from rfl, this]
  have hiff : ((∀ c ∈ s, Digit c) ∧ (s ≠ [] → 1 + s.length ≤ 21 + 1)) ↔ ((∀ c ∈ s, Digit c) ∧ s.length ≤ 21) := by
    cases s with
    | nil => simp
    | cons a s => simp; omega
  by_cases hh : (∀ c ∈ s, Digit c) ∧ s.length ≤ 21
  · rw [if_pos hh, if_pos (hiff.2 hh), ok_bind]
    split <;> rfl
  · rw [if_neg hh, if_neg (fun e => hh (hiff.1 e)), err_bind]

/-! Options -/

/-- arguments are strings of C -/
def Argument (s : Bytes) : Prop := 0 ∉ s ∧ s.length < 2 ^ 63 - 1

theorem numeral_argument {s : Bytes} {n : Nat} (h : Numeral s n) (hl : s.length ≤ 21) : Argument s :=
  ⟨fun e => digit_ne_zero (h.2.1 0 e) rfl, Nat.lt_of_le_of_lt hl (by decide)⟩

theorem decimal_numeral {s : Bytes} {n : Nat} (h : Numeral s n) (hl : s.length ≤ 21) : Program.decimal (s ++ [0]) (s.length + 1) = ok (n % 2 ^ 64) := by
  have ha := numeral_argument h hl
  have hh : ∀ c : UInt8, s.head? = some c → Digit c := fun c e => h.2.1 c (List.mem_of_mem_head? e)
  rw [decimal_eq ha.1 ha.2 (fun e => absurd (hh _ e) (by decide)) (fun e => absurd (hh _ e) (by decide)), if_pos ⟨h.2.1, hl⟩, h.2.2]

/-- what the programs make of an argument that has no sign -/
theorem decimal_other {s : Bytes} (ha : Argument s) (h : ¬ ((∀ c ∈ s, Digit c) ∧ s.length ≤ 21)) (hs : ∀ c, s.head? = some c → c ≠ 0x2d ∧ c ≠ 0x2b) :
    Program.decimal (s ++ [0]) (s.length + 1) = err := by
  rw [decimal_eq ha.1 ha.2 (fun e => (hs _ e).1 rfl) (fun e => (hs _ e).2 rfl), if_neg h]

theorem decimal_safe {s : Bytes} (ha : Argument s) : Program.decimal (s ++ [0]) (s.length + 1) ≠ ub := by
  by_cases h1 : s.head? = some 0x2d
  · cases s with
    | nil => cases h1
    | cons c s =>
      cases h1
      rw [decimal_sign (fun e => ha.1 (by simp [e])) (by have := ha.2; simp only [List.length_cons] at this; omega) (.inl rfl)]
      split <;> exact nofun
  · by_cases h2 : s.head? = some 0x2b
    · cases s with
      | nil => cases h2
      | cons c s =>
        cases h2
        rw [decimal_sign (fun e => ha.1 (by simp [e])) (by have := ha.2; simp only [List.length_cons] at this; omega) (.inr rfl)]
        split <;> exact nofun
    · rw [decimal_eq ha.1 ha.2 h1 h2]
      split <;> exact nofun

theorem setIndex_numeral {s : Bytes} {n : Nat} (h : Numeral s n) (hl : s.length ≤ 21) (h1 : 1 ≤ n % 2 ^ 64) (h2 : n % 2 ^ 64 ≤ 100) : Program.setIndex s = ok (n % 2 ^ 64) := by
  unfold Program.setIndex
  rw [decimal_numeral h hl, ok_bind, require_true (by omega), ok_bind]
  rfl

theorem mountOpen_ok {m : Machine} {o : Options} {source : Nat → Container.Image} {index : Nat} {offset : Int} {v : Selected} (h : Program.mountOpen m o source index offset = ok v) :
    0 ≤ offset ∧ v.image = source offset.toNat ∧ Container.openRead m.xts m.vector v.image = ok v.container ∧ v.index < Container.numberOfVolumes v.container ∧
      (index ≠ 0 → v.index + 1 = index) ∧ (index = 0 → Container.numberOfVolumes v.container = 1) ∧ Program.getVolume m o v.image v.container (v.index : Int) = ok v.obtained := by
  unfold Program.mountOpen Program.openAt at h
  obtain ⟨⟨image, k⟩, h1, h⟩ := bind_eq_ok.1 h
  obtain ⟨_, h2, h1⟩ := bind_eq_ok.1 h1
  obtain ⟨k', h3, h1⟩ := bind_eq_ok.1 h1
  cases h1
  have h2 := (require_eq_ok _).1 h2
  dsimp only at h
  obtain ⟨_, h4, h⟩ := bind_eq_ok.1 h
  have h4 := (require_eq_ok _).1 h4
  obtain ⟨r, h5, h⟩ := bind_eq_ok.1 h
  cases h
  refine ⟨by omega, rfl, h3, ?_, ?_, ?_, h5⟩
  · dsimp only; omega
  · intro hi
    rw [if_neg (fun e => hi e.1)] at h4 ⊢
    dsimp only
    omega
  · intro hi
    dsimp only
    split at h4 <;> omega

/-- the parts of a mount -/
theorem mount_ok {m : Machine} {o : Options} {source : Nat → Container.Image} {v : Selected} (h : Program.mount m o source = ok v) :
    ∃ index offset, Program.indexOption o = ok index ∧ (match o.offset with | none => ok 0 | some s => Program.setOffset s) = ok offset ∧ Program.mountOpen m o source index offset = ok v ∧
      v.obtained.state.isLocked = false := by
  unfold Program.mount at h
  obtain ⟨index, h1, h⟩ := bind_eq_ok.1 h
  obtain ⟨offset, h2, h⟩ := bind_eq_ok.1 h
  obtain ⟨w, h3, h⟩ := bind_eq_ok.1 h
  obtain ⟨_, h4, h⟩ := bind_eq_ok.1 h
  cases h
  exact ⟨index, offset, h1, h2, h3, (require_eq_ok _).1 h4⟩

theorem getVolume_volume {m : Machine} {o : Options} {image : Container.Image} {k : Container.Opened} {i : Int} {r : Obtained} (h : Program.getVolume m o image k i = ok r) :
    VolumeOpen.volumeByIndex m.cipher m.vector image k i = ok r.volume := by
  unfold Program.getVolume at h
  obtain ⟨v, h1, h⟩ := bind_eq_ok.1 h
  obtain ⟨_, _, h⟩ := bind_eq_ok.1 h
  obtain ⟨_, _, h⟩ := bind_eq_ok.1 h
  dsimp only at h
  split at h
  · obtain ⟨_, _, h⟩ := bind_eq_ok.1 h
    cases h
    exact h1
  · cases h
    exact h1

/-- **C70, the volume that is asked for.** With the option `-f` and a number of a volume, the volume with that number is mounted or none.

What is missing: numbers that no volume can have and arguments that are not numerals (refuted by `c70_ignored` and `c70_wraps`), and numerals with more than 21 digits. -/
theorem c70_asked_partial {m : Machine} {o : Options} {source : Nat → Container.Image} {s : Bytes} {n : Nat} (ho : o.index = some s) (hn : Numeral s n) (hl : s.length ≤ 21) (h1 : 1 ≤ n) (h2 : n ≤ 100)
    {v : Selected} (h : Program.mount m o source = ok v) :
    v.index + 1 = n ∧ n ≤ Container.numberOfVolumes v.container ∧ Container.openRead m.xts m.vector v.image = ok v.container ∧
      VolumeOpen.volumeByIndex m.cipher m.vector v.image v.container ((n - 1 : Nat) : Int) = ok v.obtained.volume := by
  obtain ⟨index, offset, g1, _, g3, _⟩ := mount_ok h
  have hm : n % 2 ^ 64 = n := Nat.mod_eq_of_lt (by omega)
  have hi := setIndex_numeral hn hl (by omega) (by omega)
  unfold Program.indexOption at g1
  rw [ho] at g1
  dsimp only at g1
  rw [hi, hm] at g1
  cases g1
  obtain ⟨_, _, k3, k4, k5, _, k7⟩ := mountOpen_ok g3
  have := k5 (by omega)
  have e : n - 1 = v.index := by omega
  refine ⟨this, by omega, k3, ?_⟩
  rw [e]
  exact getVolume_volume k7

/-- **C70, the only volume.** Without the option `-f` a volume is mounted only if the container has no other. -/
theorem c70_only {m : Machine} {o : Options} {source : Nat → Container.Image} (ho : o.index = none) {v : Selected} (h : Program.mount m o source = ok v) :
    Container.numberOfVolumes v.container = 1 ∧ v.index = 0 ∧ VolumeOpen.volumeByIndex m.cipher m.vector v.image v.container 0 = ok v.obtained.volume := by
  obtain ⟨index, offset, g1, _, g3, _⟩ := mount_ok h
  unfold Program.indexOption at g1
  rw [ho] at g1
  cases g1
  obtain ⟨_, _, _, k4, _, k6, k7⟩ := mountOpen_ok g3
  have h1 := k6 rfl
  have h0 : v.index = 0 := by omega
  rw [h0] at k7
  exact ⟨h1, h0, getVolume_volume k7⟩

theorem setIndex_refused {s : Bytes} (h : Program.decimal (s ++ [0]) (s.length + 1) = err ∨ ∃ n, Program.decimal (s ++ [0]) (s.length + 1) = ok n ∧ (n = 0 ∨ n > 100)) : Program.setIndex s = err := by
  unfold Program.setIndex
  rcases h with h | ⟨n, h, hn⟩
  · rw [h]; rfl
  · rw [h, ok_bind, require_false (by omega)]; rfl

theorem mount_index {m : Machine} {o o' : Options} (h : Program.indexOption o = Program.indexOption o') (h1 : o.offset = o'.offset) (h2 : o.password = o'.password) (h3 : o.recovery = o'.recovery) (source : Nat → Container.Image) :
    Program.mount m o source = Program.mount m o' source := by
  unfold Program.mount Program.mountOpen Program.getVolume
  rw [h, h1, h2, h3]

/-- **C70, refuted: arguments that name no volume.** An argument that is not a numeral, and a number that is 0 or larger than 100, are as good as no option: the only volume of a container is mounted. -/
theorem c70_ignored (m : Machine) (o : Options) (source : Nat → Container.Image) {s : Bytes} (ha : Argument s) (hs : ∀ c, s.head? = some c → c ≠ 0x2d ∧ c ≠ 0x2b)
    (h : (¬ ∀ c ∈ s, Digit c) ∨ 21 < s.length ∨ ∃ n, Numeral s n ∧ n < 2 ^ 64 ∧ (n = 0 ∨ 100 < n)) :
    Program.mount m { o with index := some s } source = Program.mount m { o with index := none } source := by
  have : Program.setIndex s = err := by
    apply setIndex_refused
    by_cases hd : (∀ c ∈ s, Digit c) ∧ s.length ≤ 21
    · rcases h with h | h | ⟨n, hn, hn2, h⟩
      · exact absurd hd.1 h
      · exact absurd hd.2 (by omega)
      · refine .inr ⟨n, ?_, by omega⟩
        rw [decimal_numeral hn hd.2, Nat.mod_eq_of_lt hn2]
    · exact .inl (decimal_other ha hd hs)
  refine mount_index (o := { o with index := some s }) (o' := { o with index := none }) ?_ rfl rfl rfl source
  unfold Program.indexOption
  dsimp only
  rw [this]

/-- **C70, refuted: numbers that are too large.** Numbers that differ by a multiple of 2⁶⁴ mean the same volume. -/
theorem c70_wraps (m : Machine) (o : Options) (source : Nat → Container.Image) {s t : Bytes} {n j : Nat} (hs : Numeral s n) (hl : s.length ≤ 21) (ht : Numeral t (n + 2 ^ 64 * j)) (hl' : t.length ≤ 21) :
    Program.mount m { o with index := some t } source = Program.mount m { o with index := some s } source := by
  refine mount_index (o := { o with index := some t }) (o' := { o with index := some s }) ?_ rfl rfl rfl source
  unfold Program.indexOption Program.setIndex
  dsimp only
  rw [decimal_numeral hs hl, decimal_numeral ht hl', Nat.add_mul_mod_self_left]

/-- **C70, refuted: negative numbers.** A negative number means the volume with a number that differs from it by a multiple of 2⁶⁴. -/
theorem c70_negative (m : Machine) (o : Options) (source : Nat → Container.Image) {s t : Bytes} {n p : Nat} (hs : Numeral s n) (hl : s.length ≤ 21) (ht : Numeral t p) (hl' : t.length ≤ 21) (hp : (n + p) % 2 ^ 64 = 0) :
    Program.mount m { o with index := some (0x2d :: t) } source = Program.mount m { o with index := some s } source := by
  refine mount_index (o := { o with index := some (0x2d :: t) }) (o' := { o with index := some s }) ?_ rfl rfl rfl source
  unfold Program.indexOption Program.setIndex
  dsimp only
  have ha := numeral_argument ht hl'
  rw [decimal_numeral hs hl, decimal_sign ha.1 (by omega) (.inl rfl), if_pos ⟨ht.2.1, hl'⟩, if_pos rfl, ht.2.2]
  have : p % 2 ^ 64 * (2 ^ 64 - 1) % 2 ^ 64 = n % 2 ^ 64 := by omega
  rw [this]

/-! The offset -/

theorem mount_offset {m : Machine} {o : Options} {s : Bytes} {i : Int} (hs : Program.setOffset s = ok i) (source : Nat → Container.Image) :
    Program.mount m { o with offset := some s } source = if i < 0 then (do let _ ← Program.indexOption o; err) else Program.mount m { o with offset := none } (fun b => source (i.toNat + b)) := by
  unfold Program.mount Program.mountOpen Program.openAt Program.getVolume
  dsimp only
  rw [hs, show Program.indexOption { o with offset := some s } = Program.indexOption o from rfl, show Program.indexOption { o with offset := none } = Program.indexOption o from rfl]
  by_cases hi : i < 0
  · rw [if_pos hi]
    congr 1
    funext index
    rw [ok_bind, require_false (by omega)]
    rfl
  · rw [if_neg hi]
    congr 1
    funext index
    rw [ok_bind, ok_bind, require_true (by omega), require_true (by omega), ok_bind, ok_bind]
    rfl

/-- **C70, the offset.** With the option `-o` the container is read from the byte with that number on.

What is missing: numerals of more than 21 digits, which are refused, and numbers from 2⁶³ on (`c70_offset_far` and `c70_offset_wraps`). -/
theorem c70_offset_partial (m : Machine) (o : Options) (source : Nat → Container.Image) {s : Bytes} {n : Nat} (hs : Numeral s n) (hl : s.length ≤ 21) (hn : n < 2 ^ 63) :
    Program.mount m { o with offset := some s } source = Program.mount m { o with offset := none } (fun b => source (n + b)) := by
  have : Program.setOffset s = ok (n : Int) := by
    unfold Program.setOffset Program.off64
    rw [decimal_numeral hs hl, ok_bind, Nat.mod_eq_of_lt (by omega), if_pos hn]
    rfl
  rw [mount_offset this, if_neg (by omega)]
  rfl

/-- Offsets that files do not have are errors, unless they are larger than what 64 bits hold. -/
theorem c70_offset_far (m : Machine) (o : Options) (source : Nat → Container.Image) {s : Bytes} {n : Nat} (hs : Numeral s n) (hl : s.length ≤ 21) (hn : 2 ^ 63 ≤ n % 2 ^ 64) (v : Selected) :
    Program.mount m { o with offset := some s } source ≠ ok v := by
  have : Program.setOffset s = ok ((n % 2 ^ 64 : Nat) - 2 ^ 64 : Int) := by
    unfold Program.setOffset Program.off64
    rw [decimal_numeral hs hl, ok_bind, if_neg (by omega)]
    rfl
  rw [mount_offset this, if_pos (by omega)]
  intro h
  obtain ⟨_, _, h⟩ := bind_eq_ok.1 h
  cases h

/-- **C70, refuted: offsets that are too large.** -/
theorem c70_offset_wraps (m : Machine) (o : Options) (source : Nat → Container.Image) {s : Bytes} {n : Nat} (hs : Numeral s n) (hl : s.length ≤ 21) (hn : n % 2 ^ 64 < 2 ^ 63) :
    Program.mount m { o with offset := some s } source = Program.mount m { o with offset := none } (fun b => source (n % 2 ^ 64 + b)) := by
  have : Program.setOffset s = ok ((n % 2 ^ 64 : Nat) : Int) := by
    unfold Program.setOffset Program.off64
    rw [decimal_numeral hs hl, ok_bind, if_pos hn]
    rfl
  rw [mount_offset this, if_neg (by omega)]
  rfl

/-- An offset that is not a number is an error. -/
theorem c70_offset_text (m : Machine) (o : Options) (source : Nat → Container.Image) {s : Bytes} (ha : Argument s) (hs : ∀ c, s.head? = some c → c ≠ 0x2d ∧ c ≠ 0x2b) (h : ¬ ∀ c ∈ s, Digit c) (v : Selected) :
    Program.mount m { o with offset := some s } source ≠ ok v := by
  intro hm
  obtain ⟨_, offset, _, h2, _⟩ := mount_ok hm
  dsimp only at h2
  unfold Program.setOffset at h2
  rw [decimal_other ha (fun e => h e.1) hs] at h2
  cases h2

/-! Locked volumes -/

/-- the calls of the programs on a volume -/
def callsOf (m : Machine) (o : Options) : List Volume.Op :=
  (match o.password with | some s => [Volume.Op.setUser (some s)] | none => []) ++ ((match o.recovery with | some s => [Volume.Op.setRecovery (some s)] | none => []) ++ [.unlock m.volumeKey m.masterKey])

/-- a password that libfsapfs takes: not empty and not larger than what it allocates -/
def Passphrase (s : Bytes) : Prop := 0 ∉ s ∧ 1 ≤ s.length ∧ s.length ≤ 128 * 1024 * 1024 - 1

theorem initialised_some (s : Bytes) : Program.initialised (s.map some) = ok s := by
  induction s with
  | nil => rfl
  | cons b s ih => rw [List.map_cons, Program.initialised, ih]; rfl

theorem setPassword_eq {s : Bytes} (h0 : 0 ∉ s) (current : Option Bytes) :
    (Passphrase s ∧ Program.setPassword (some s) current = ok (some s)) ∨ (¬ Passphrase s ∧ Program.setPassword (some s) current = err) := by
  unfold Program.setPassword
  dsimp only
  by_cases h : 1 ≤ s.length ∧ s.length ≤ 128 * 1024 * 1024 - 1
  · obtain ⟨b, h1, h2⟩ := c33_exact_partial s [] h0 h.1 h.2
    rw [h1, ok_bind, h2, initialised_some, ok_bind]
    exact .inl ⟨⟨h0, h.1, h.2⟩, rfl⟩
  · refine .inr ⟨fun e => h ⟨e.2.1, e.2.2⟩, ?_⟩
    unfold Volume.setUtf8
    rw [stringLength_eq s [] h0, ok_bind, require_false (by omega)]
    rfl

/-- the options with passwords are strings of C -/
def Passwords (o : Options) : Prop := (∀ s, o.password = some s → 0 ∉ s) ∧ ∀ s, o.recovery = some s → 0 ∉ s

theorem getVolume_calls {m : Machine} {o : Options} (ho : Passwords o) {image : Container.Image} {k : Container.Opened} {i : Int} {r : Obtained} (h : Program.getVolume m o image k i = ok r) :
    Volume.run m.prims r.volume.state (callsOf m o) = ok r.state ∧ (∀ s, o.password = some s → Passphrase s) ∧ ∀ s, o.recovery = some s → Passphrase s := by
  have hv := getVolume_volume h
  unfold Program.getVolume at h
  rw [hv, ok_bind] at h
  obtain ⟨user, h2, h⟩ := bind_eq_ok.1 h
  obtain ⟨recovery, h3, h⟩ := bind_eq_ok.1 h
  dsimp only at h
  have e2 : (o.password = none ∧ user = r.volume.state.user) ∨ ∃ s, o.password = some s ∧ user = some s ∧ Passphrase s := by
    cases hp : o.password with
    | none => rw [hp] at h2; cases h2; exact .inl ⟨rfl, rfl⟩
    | some s =>
      rw [hp] at h2
      rcases setPassword_eq (ho.1 s hp) r.volume.state.user with ⟨q, e⟩ | ⟨_, e⟩
      · rw [e] at h2; cases h2; exact .inr ⟨s, rfl, rfl, q⟩
      · rw [e] at h2; cases h2
  have e3 : (o.recovery = none ∧ recovery = r.volume.state.recovery) ∨ ∃ s, o.recovery = some s ∧ recovery = some s ∧ Passphrase s := by
    cases hp : o.recovery with
    | none => rw [hp] at h3; cases h3; exact .inl ⟨rfl, rfl⟩
    | some s =>
      rw [hp] at h3
      rcases setPassword_eq (ho.2 s hp) r.volume.state.recovery with ⟨q, e⟩ | ⟨_, e⟩
      · rw [e] at h3; cases h3; exact .inr ⟨s, rfl, rfl, q⟩
      · rw [e] at h3; cases h3
  have hlast : Volume.run m.prims { r.volume.state with user := user, recovery := recovery } [.unlock m.volumeKey m.masterKey] = ok r.state := by
    rw [Volume.run, Volume.step]
    dsimp only
    split at h
    · rename_i hl
      obtain ⟨r', h4, h⟩ := bind_eq_ok.1 h
      rw [if_pos hl, h4, ← ok.inj h]
      rfl
    · rename_i hl
      rw [if_neg hl, ← ok.inj h]
      rfl
  refine ⟨?_, ?_, ?_⟩
  · unfold callsOf
    rcases e2 with ⟨p1, p2⟩ | ⟨s, p1, p2, _⟩ <;> rcases e3 with ⟨q1, q2⟩ | ⟨t, q1, q2, _⟩ <;> rw [p1, q1] <;> subst p2 <;> subst q2 <;> exact hlast
  · rcases e2 with ⟨p1, p2⟩ | ⟨s, p1, p2, p3⟩
    · intro s e; rw [p1] at e; cases e
    · intro s' e; rw [p1] at e; cases e; exact p3
  · rcases e3 with ⟨p1, p2⟩ | ⟨s, p1, p2, p3⟩
    · intro s e; rw [p1] at e; cases e
    · intro s' e; rw [p1] at e; cases e; exact p3

/-- a volume that the calls unlock is obtained -/
theorem getVolume_of_calls {m : Machine} {o : Options} (h1 : ∀ s, o.password = some s → Passphrase s) (h2 : ∀ s, o.recovery = some s → Passphrase s) {image : Container.Image} {k : Container.Opened} {i : Int}
    {v : VolumeOpen.Opened} (hv : VolumeOpen.volumeByIndex m.cipher m.vector image k i = ok v) {s : Volume.State} (hs : Volume.run m.prims v.state (callsOf m o) = ok s) (hl : s.isLocked = false) :
    Program.getVolume m o image k i = ok { volume := v, state := s } := by
  obtain ⟨user, recovery, e1, e2, hlast⟩ : ∃ user recovery, Program.setPassword o.password v.state.user = ok user ∧ Program.setPassword o.recovery v.state.recovery = ok recovery ∧
      Volume.run m.prims { v.state with user := user, recovery := recovery } [.unlock m.volumeKey m.masterKey] = ok s := by
    have set : ∀ {o current}, (∀ s, o = some s → Passphrase s) → Program.setPassword o current = ok (o.or current) := by
      intro o current ho
      cases o with
      | none => rfl
      | some s =>
        rcases setPassword_eq (ho s rfl).1 current with ⟨_, e⟩ | ⟨n, _⟩
        · exact e
        · exact absurd (ho s rfl) n
    refine ⟨_, _, set h1, set h2, ?_⟩
    unfold callsOf at hs
    cases hp : o.password <;> cases hr : o.recovery <;> rw [hp, hr] at hs <;> exact hs
  unfold Program.getVolume
  rw [hv, ok_bind, e1, ok_bind, e2, ok_bind]
  dsimp only
  rw [Volume.run, Volume.step] at hlast
  dsimp only at hlast
  by_cases hlk : v.state.isLocked = true
  · rw [if_pos hlk] at hlast ⊢
    cases hu : Volume.unlock m.prims m.volumeKey m.masterKey { v.state with user := user, recovery := recovery } with
    | ok r => rw [hu] at hlast; cases hlast; rfl
    | err => rw [hu] at hlast; cases hlast; rw [hlk] at hl; cases hl
    | ub => rw [hu] at hlast; cases hlast
  · rw [if_neg hlk] at hlast ⊢
    cases hlast
    rfl

/-- what `Volume.openRead` tells of the passwords and keys of a new volume -/
theorem openRead_new {bag : Option (Bool × List KeyBag.Entry)} {flags : Nat} {uuid : Bytes} {readBag : Nat → Nat → Res (List KeyBag.Entry)} {s : Volume.State} (h : Volume.openRead bag flags uuid readBag = ok s) :
    s.user = none ∧ s.recovery = none ∧ s.uuid = uuid := by
  unfold Volume.openRead at h
  split at h
  · cases h; exact ⟨rfl, rfl, rfl⟩
  · split at h
    · obtain ⟨r, _, h⟩ := bind_eq_ok.1 h
      split at h
      · cases h; exact ⟨rfl, rfl, rfl⟩
      · obtain ⟨_, _, h⟩ := bind_eq_ok.1 h
        obtain ⟨_, _, h⟩ := bind_eq_ok.1 h
        cases h; exact ⟨rfl, rfl, rfl⟩
    · cases h; exact ⟨rfl, rfl, rfl⟩

theorem volumeByIndex_state {c : VolumeOpen.Cipher} {vector : Nat → Bool} {image : Container.Image} {k : Container.Opened} {i : Int} {v : VolumeOpen.Opened} (h : VolumeOpen.volumeByIndex c vector image k i = ok v) :
    Volume.openRead (VolumeOpen.containerBag k.keyBag) v.superblock.flags v.superblock.identifier (VolumeOpen.readVolumeKeyBag c image v.superblock.identifier) = ok v.state := by
  unfold VolumeOpen.volumeByIndex VolumeOpen.openRead at h
  obtain ⟨_, _, h⟩ := bind_eq_ok.1 h
  obtain ⟨_, _, h⟩ := bind_eq_ok.1 h
  obtain ⟨_, _, h⟩ := bind_eq_ok.1 h
  obtain ⟨_, _, h⟩ := bind_eq_ok.1 h
  obtain ⟨_, _, h⟩ := bind_eq_ok.1 h
  obtain ⟨_, _, h⟩ := bind_eq_ok.1 h
  obtain ⟨_, _, h⟩ := bind_eq_ok.1 h
  obtain ⟨_, _, h⟩ := bind_eq_ok.1 h
  obtain ⟨s, hs, h⟩ := bind_eq_ok.1 h
  obtain ⟨_, _, h⟩ := bind_eq_ok.1 h
  obtain ⟨_, _, h⟩ := bind_eq_ok.1 h
  cases h
  exact hs

theorem callsOf_ok {m : Machine} {o : Options} (hv : m.volumeKey.length = 32) (hm : m.masterKey.length = 32) (h1 : ∀ s, o.password = some s → Passphrase s) (h2 : ∀ s, o.recovery = some s → Passphrase s) :
    (∀ c ∈ callsOf m o, OpOk c) ∧ ∀ q ∈ secretsOf (callsOf m o), o.password = some q ∨ o.recovery = some q := by
  have le : ∀ {s : Bytes}, Passphrase s → s.length ≤ 2 ^ 63 - 1 := fun h => Nat.le_trans h.2.2 (by decide)
  unfold callsOf
  cases hp : o.password with
  | none =>
    cases hr : o.recovery with
    | none => exact ⟨by simp [OpOk, hv, hm], by simp [secretsOf]⟩
    | some t => exact ⟨by simpa [OpOk, hv, hm] using le (h2 t hr), by simp [secretsOf]⟩
  | some s =>
    cases hr : o.recovery with
    | none => exact ⟨by simpa [OpOk, hv, hm] using le (h1 s hp), by simp [secretsOf]⟩
    | some t => exact ⟨by simpa [OpOk, hv, hm] using ⟨le (h1 s hp), le (h2 t hr)⟩, by simp [secretsOf, eq_comm]⟩

/-- **C70, locked volumes.** A volume with a key bag is mounted only if one of the passwords that were given opens it, and then its files are decrypted with the keys that this password gives.

What is missing: volumes of a container whose key bag cannot be read, refuted by `c70_locked_container`. -/
theorem c70_secret_partial {m : Machine} {enc : Bytes → Bytes → Bytes} (hp : KeyBag.PrimsOk m.prims enc) (hv : m.volumeKey.length = 32) (hm : m.masterKey.length = 32) {o : Options} (ho : Passwords o)
    {source : Nat → Container.Image} {v : Selected} (h : Program.mount m o source = ok v) {es : List KeyBag.Entry} (hb : v.obtained.volume.state.keyBag = some es) :
    v.obtained.state.isLocked = false ∧ ∃ pw keys, (o.password = some pw ∨ o.recovery = some pw) ∧ v.obtained.state.keys = some keys ∧
      Opens m.prims enc es v.obtained.volume.state.containerBag v.obtained.volume.superblock.identifier pw keys := by
  obtain ⟨_, _, _, _, g3, g4⟩ := mount_ok h
  obtain ⟨_, _, _, _, _, _, k7⟩ := mountOpen_ok g3
  obtain ⟨c1, c2, c3⟩ := getVolume_calls ho k7
  obtain ⟨d1, d2⟩ := callsOf_ok hv hm c2 c3
  obtain ⟨pw, hpw, keys, h1, h2⟩ := c32_only_secret_partial hp _ _ _ _ _ _ es (volumeByIndex_state (getVolume_volume k7)) hb _ d1 c1 g4
  exact ⟨g4, pw, keys, d2 pw hpw, h1, h2⟩

/-! From the command line to the files -/

/-- the options name the byte `n` as start of the container -/
def StartsAt (o : Options) (n : Nat) : Prop := (o.offset = none ∧ n = 0) ∨ ∃ t, o.offset = some t ∧ Numeral t n ∧ t.length ≤ 21 ∧ n < 2 ^ 63

/-- the options name the volume with index `i` of a container with a number of volumes -/
def Names (o : Options) (number i : Nat) : Prop := (∃ s, o.index = some s ∧ Numeral s (i + 1) ∧ s.length ≤ 21 ∧ i < 100) ∨ (o.index = none ∧ number = 1 ∧ i = 0)

theorem mount_of {m : Machine} {o : Options} {source : Nat → Container.Image} {at_ i : Nat} {k : Container.Opened} (h1 : StartsAt o at_) (hk : Container.openRead m.xts m.vector (source at_) = ok k)
    (h2 : Names o (Container.numberOfVolumes k) i) (hi : i < Container.numberOfVolumes k) {r : Obtained} (hr : Program.getVolume m o (source at_) k (i : Int) = ok r) (hl : r.state.isLocked = false) :
    Program.mount m o source = ok { image := source at_, container := k, index := i, obtained := r } := by
  have hoff : (match o.offset with | none => ok 0 | some s => Program.setOffset s) = ok (at_ : Int) := by
    rcases h1 with ⟨e, rfl⟩ | ⟨t, e, ht, hl, hn⟩
    · rw [e]; rfl
    · rw [e]
      dsimp only
      unfold Program.setOffset Program.off64
      rw [decimal_numeral ht hl, ok_bind, Nat.mod_eq_of_lt (by omega), if_pos hn]
      rfl
  obtain ⟨index, hidx, hsel⟩ : ∃ index, Program.indexOption o = ok index ∧ (if index = 0 ∧ Container.numberOfVolumes k = 1 then 1 else index) = i + 1 := by
    unfold Program.indexOption
    rcases h2 with ⟨s, e, hs, hsl, hi100⟩ | ⟨e, e1, rfl⟩
    · have : (i + 1) % 2 ^ 64 = i + 1 := Nat.mod_eq_of_lt (by omega)
      have := setIndex_numeral hs hsl (by omega) (by omega)
      rw [e]
      dsimp only
      rw [this]
      exact ⟨_, rfl, by rw [if_neg (by omega)]; omega⟩
    · rw [e]
      exact ⟨0, rfl, by rw [if_pos ⟨rfl, e1⟩]⟩
  unfold Program.mount
  rw [hidx, ok_bind]
  refine bind_eq_ok.2 ⟨_, hoff, ?_⟩
  unfold Program.mountOpen Program.openAt
  rw [require_true (by omega), ok_bind]
  simp only [Int.toNat_natCast]
  rw [hk, ok_bind, ok_bind]
  dsimp only
  rw [hsel, require_true (by omega), ok_bind, Nat.add_sub_cancel, hr, ok_bind, ok_bind]
  dsimp only
  rw [require_true hl]
  rfl

theorem run_unlocked {m : Machine} {o : Options} {s : Volume.State} (h : s.isLocked = false) : ∃ s', Volume.run m.prims s (callsOf m o) = ok s' ∧ s'.isLocked = false := by
  unfold callsOf
  cases o.password <;> cases o.recovery <;> simp [Volume.run, Volume.step, h, Res.ok_bind]

/-- the calls of the programs unlock a volume if a password is correct -/
theorem unlocked_calls {m : Machine} {o : Options} {state : Volume.State} {S secret : Bytes → Prop} (hvk : m.volumeKey.length = 32) (hmk : m.masterKey.length = 32) (hp1 : ∀ s, o.password = some s → Passphrase s)
    (hp2 : ∀ s, o.recovery = some s → Passphrase s)
    (h2 : ∀ ops, (∀ o ∈ ops, OpOk o) → (∀ q ∈ secretsOf ops, S q) → ∀ s, Volume.run m.prims state ops = ok s → ∀ pw, s.user = some pw ∨ s.recovery = some pw → secret pw → ∀ bk bm : Bytes, bk.length = 32 →
      bm.length = 32 → ∃ s', Volume.run m.prims state (ops ++ [.unlock bk bm]) = ok s' ∧ s'.isLocked = false)
    (hS : ∀ s, o.password = some s ∨ o.recovery = some s → S s) {pw : Bytes} (hpw : o.password = some pw ∨ o.recovery = some pw) (hsecret : secret pw) :
    ∃ s, Volume.run m.prims state (callsOf m o) = ok s ∧ s.isLocked = false := by
  obtain ⟨d1, d2⟩ := callsOf_ok (m := m) hvk hmk hp1 hp2
  obtain ⟨before, hc, huser⟩ : ∃ before, callsOf m o = before ++ [.unlock m.volumeKey m.masterKey] ∧ ∃ s, Volume.run m.prims state before = ok s ∧ (s.user = some pw ∨ s.recovery = some pw) := by
    unfold callsOf
    refine ⟨_, (List.append_assoc _ _ _).symm, ?_⟩
    cases hp : o.password with
    | none =>
      cases hr : o.recovery with
      | none => rw [hp, hr] at hpw; rcases hpw with h | h <;> cases h
      | some t =>
        rw [hp, hr] at hpw
        rcases hpw with h | h
        · cases h
        · cases h; exact ⟨_, rfl, .inr rfl⟩
    | some t =>
      cases hr : o.recovery with
      | none =>
        rw [hp, hr] at hpw
        rcases hpw with h | h
        · cases h; exact ⟨_, rfl, .inl rfl⟩
        · cases h
      | some u =>
        rw [hp, hr] at hpw
        rcases hpw with h | h
        · cases h; exact ⟨_, rfl, .inl rfl⟩
        · cases h; exact ⟨_, rfl, .inr rfl⟩
  obtain ⟨s0, hs0, hu⟩ := huser
  have secrets_append : ∀ (a b : List Volume.Op), ∀ q ∈ secretsOf a, q ∈ secretsOf (a ++ b) := by
    intro a b
    induction a with
    | nil => intro q h; cases h
    | cons x a ih =>
      intro q h
      cases x with
      | setUser p => cases p with
        | none => exact ih q h
        | some p =>
          rcases List.mem_cons.1 h with rfl | h
          · exact List.mem_cons_self
          · exact List.mem_cons_of_mem _ (ih q h)
      | setRecovery p => cases p with
        | none => exact ih q h
        | some p =>
          rcases List.mem_cons.1 h with rfl | h
          · exact List.mem_cons_self
          · exact List.mem_cons_of_mem _ (ih q h)
      | unlock => exact ih q h
      | getFileSystem => exact ih q h
      | isLocked => exact ih q h
  rw [hc]
  exact h2 before (fun c h => d1 c (by rw [hc]; exact List.mem_append_left _ h)) (fun q h => hS q (d2 q (by rw [hc]; exact secrets_append _ _ q h))) s0 hs0 pw hu hsecret _ _ hvk hmk

section
open Container VolumeOpen
variable {img : Container.Image} {k : Container.Opened} {d0 d : Bytes} {records files : List Record}

/-- **C70, from the command line to the files, without encryption.** If the options name a container and an unencrypted volume of it, the volume is mounted and programs see its files.

What is missing: as in `c56_volume_partial`, and passwords that libfsapfs refuses, for which see `c70_empty_password`. -/
theorem c70_files_partial {m : Machine} {o : Options} {source : Nat → Container.Image} {at_ index : Nat} (ha : StartsAt o at_) (himg : source at_ = img) (hopen : Container.openRead m.xts m.vector img = ok k)
    (hn : Names o (numberOfVolumes k) index) (hp1 : ∀ s, o.password = some s → Passphrase s) (hp2 : ∀ s, o.recovery = some s → Passphrase s)
    (hb : Blocks img) (hs : k.superblock = Container.superblockOf d0) (hv : Nx.Valid d0) (hvec : m.vector k.size = true)
    (ht : OmTree (containerBlocks img k.size) k.tree records) (hi : index < numberOfVolumes k) (h0 : Nx.volume d0 index ≠ 0) {root : Nat} {vs : List SnapValue}
    (hr : ∀ r, Newest records (Nx.volume d0 index) (objectXid d0) r → StoredVolume img (field r.2 8 8) d root) (hx : HasVersion records (Nx.volume d0 index) (objectXid d0))
    (hsn : HasSnapshots (containerBlocks img k.size) root d vs) (hun : k.keyBag = none ∨ Apsb.unencrypted d)
    {mappings : List Record} (hm : OmTree (containerBlocks img k.size) root mappings) (hrx : HasVersion mappings (Apsb.fsRoot d) (objectXid d))
    (hfs : ∀ r, Newest mappings (Apsb.fsRoot d) (objectXid d) r → FsHolds (plainStorage img k.size root (field r.2 8 8)) (objectXid d) files)
    {V : View} (hfold : V.format.caseInsensitive = true ↔ Apsb.incompatible d % 2 = 1) (hT : V.text = shownName) {c : Codec} (hV : VolumeHas c files (dataBlocks img) none V) :
    ∃ v F, Program.mount m o source = ok v ∧ v.index = index ∧ FileRead.files m.cipher v.image v.container v.obtained.volume v.obtained.state = ok F ∧
      ∀ w : Mount.Mounted, w.files = F → w.unpack = c → Libraries w → (∀ i, Reach V.dirs i → Compares w.compare (V.file i).stored) →
        ∀ requests : List Fuse.Request, (∀ r ∈ requests, Asked V r) → V.Trace Terms.shown [] requests (Mount.serveAll w requests {}).1 := by
  obtain ⟨v, h1, _, _, _, hl, _, _, _⟩ := c50_opens_partial (c := m.cipher) hb hs hv hvec ht hi h0 hr hx hsn hun
  obtain ⟨s, hrun, hls⟩ := run_unlocked (m := m) (o := o) hl
  obtain ⟨v', h1', h2⟩ := c56_volume_partial (cx := m.cipher) hb hs hv hvec ht hi h0 hr hx hsn hun hm hrx hfs hfold hT hV m.prims (callsOf m o)
  rw [h1] at h1'
  cases h1'
  obtain ⟨F, h3, h4⟩ := h2 s hrun
  subst himg
  exact ⟨_, F, mount_of ha hopen hn hi (getVolume_of_calls hp1 hp2 h1 hrun hls) hls, rfl, h3, h4⟩

/-- **C70, from the command line to the files, with a password.** If the options name a container and an encrypted volume of it, and one of the passwords is correct, the volume is mounted and programs see its files.

What is missing: as in `c56_encrypted_partial`. -/
theorem c70_encrypted_partial {m : Machine} {enc : Bytes → Bytes → Bytes} (hpr : KeyBag.PrimsOk m.prims enc) (hvk : m.volumeKey.length = 32) (hmk : m.masterKey.length = 32)
    {o : Options} {source : Nat → Container.Image} {at_ index : Nat} (ha : StartsAt o at_) (himg : source at_ = img) (hopen : Container.openRead m.xts m.vector img = ok k)
    (hn : Names o (numberOfVolumes k) index) (hp1 : ∀ s, o.password = some s → Passphrase s) (hp2 : ∀ s, o.recovery = some s → Passphrase s)
    {encX : Bytes × Bytes → Bytes → Bytes → Bytes}
    (hX : ∀ ks, TweakableCipher 512 (encX ks) (m.cipher.xts ks)) (hb : Blocks img) (hs : k.superblock = Container.superblockOf d0) (hv : Nx.Valid d0) (hvec : m.vector k.size = true)
    (ht : OmTree (containerBlocks img k.size) k.tree records) (hi : index < numberOfVolumes k) (h0 : Nx.volume d0 index ≠ 0) {root : Nat} {vs : List SnapValue}
    (hr : ∀ r, Newest records (Nx.volume d0 index) (objectXid d0) r → StoredVolume img (field r.2 8 8) d root) (hx : HasVersion records (Nx.volume d0 index) (objectXid d0))
    (hsn : HasSnapshots (containerBlocks img k.size) root d vs) {cb vb : List BagEntry} (hkb : k.keyBag = some (some (entriesOf cb))) (he : EncryptedVolume encX img cb vb d)
    {S : Bytes → Prop} {vk : Bytes} {keys : Bytes × Bytes} (hsec : Secrets m.prims.prf enc m.prims.sha vb cb (Apsb.uuid d) S vk keys) {mappings : List Record}
    (hm : OmTree (containerBlocks img k.size) root mappings) (hrx : HasVersion mappings (Apsb.fsRoot d) (objectXid d)) {plain : Nat → Option Bytes}
    (hpl : EncryptedBlocks (encX keys) img plain) (hrange : ∀ b d, plain b = some d → b * 4096 < k.size ∧ b < 2 ^ 31)
    (hfs : ∀ r, Newest mappings (Apsb.fsRoot d) (objectXid d) r → FsHolds (encryptedStorage img plain k.size root (field r.2 8 8)) (objectXid d) files)
    {V : View} (hfold : V.format.caseInsensitive = true ↔ Apsb.incompatible d % 2 = 1) (hT : V.text = shownName) {c : Codec} (hV : VolumeHas c files (dataBlocks img) (some (encX keys)) V)
    (hS : ∀ s, o.password = some s ∨ o.recovery = some s → S s) {pw : Bytes} (hpw : o.password = some pw ∨ o.recovery = some pw) (hsecret : IsSecret m.prims.prf enc vb pw) :
    ∃ v F, Program.mount m o source = ok v ∧ v.index = index ∧ FileRead.files m.cipher v.image v.container v.obtained.volume v.obtained.state = ok F ∧
      ∀ w : Mount.Mounted, w.files = F → w.unpack = c → Libraries w → (∀ i, Reach V.dirs i → Compares w.compare (V.file i).stored) →
        ∀ requests : List Fuse.Request, (∀ r ∈ requests, Asked V r) → V.Trace Terms.shown [] requests (Mount.serveAll w requests {}).1 := by
  obtain ⟨v, h1, hl, h2⟩ := c56_encrypted_partial (cx := m.cipher) hpr hX hb hs hv hvec ht hi h0 hr hx hsn hkb he hsec hm hrx hpl hrange hfs hfold hT hV
  obtain ⟨d1, d2⟩ := callsOf_ok (m := m) hvk hmk hp1 hp2
  obtain ⟨s, h3, h4⟩ := unlocked_calls hvk hmk hp1 hp2 (fun ops g1 g2 s g3 => (h2 ops g1 g2 s g3).1) hS hpw hsecret
  obtain ⟨F, h5, h6⟩ := (h2 (callsOf m o) d1 (fun q h => hS q (d2 q h)) s h3).2 h4
  subst himg
  exact ⟨_, F, mount_of ha hopen hn hi (getVolume_of_calls hp1 hp2 h1 h3 h4) h4, rfl, h5, h6⟩

/-- **C70, refuted: locked containers.** An encrypted volume of a container whose key bag cannot be read is mounted without a password. -/
theorem c70_locked_container {m : Machine} {o : Options} {source : Nat → Container.Image} {at_ index : Nat} (ha : StartsAt o at_) (himg : source at_ = img) (hopen : Container.openRead m.xts m.vector img = ok k)
    (hn : Names o (numberOfVolumes k) index) (hp1 : o.password = none) (hp2 : o.recovery = none)
    (hb : Blocks img) (hs : k.superblock = Container.superblockOf d0) (hv : Nx.Valid d0) (hvec : m.vector k.size = true)
    (ht : OmTree (containerBlocks img k.size) k.tree records) (hi : index < numberOfVolumes k) (h0 : Nx.volume d0 index ≠ 0) {root : Nat} {vs : List SnapValue}
    (hr : ∀ r, Newest records (Nx.volume d0 index) (objectXid d0) r → StoredVolume img (field r.2 8 8) d root) (hx : HasVersion records (Nx.volume d0 index) (objectXid d0))
    (hsn : HasSnapshots (containerBlocks img k.size) root d vs) (hkb : k.keyBag = some none) (he : ¬ Apsb.unencrypted d) :
    ∃ v, Program.mount m o source = ok v ∧ v.index = index ∧ v.obtained.volume.state.isLocked = true := by
  obtain ⟨v, h1, h2, h3⟩ := c51_no_container_bag (c := m.cipher) hb hs hv hvec ht hi h0 hr hx hsn hkb he
  obtain ⟨s, h4, h5, _⟩ := h3 m.prims m.volumeKey m.masterKey
  have hrun : Volume.run m.prims v.state (callsOf m o) = ok s := by
    unfold callsOf
    rw [hp1, hp2]
    show Volume.run m.prims v.state [.unlock m.volumeKey m.masterKey] = ok s
    rw [Volume.run, Volume.step, if_pos h2, h4]
    rfl
  subst himg
  exact ⟨_, mount_of ha hopen hn hi (getVolume_of_calls (fun s e => by rw [hp1] at e; cases e) (fun s e => by rw [hp2] at e; cases e) h1 hrun h5) h5, rfl, h2⟩

end

/-- **C70, refuted: empty passwords.** An empty password is an error, also for volumes that are not encrypted. -/
theorem c70_empty_password (m : Machine) (o : Options) (source : Nat → Container.Image) (h : o.password = some [] ∨ o.recovery = some []) (ho : Passwords o) (v : Selected) : Program.mount m o source ≠ ok v := by
  intro hm
  obtain ⟨_, _, _, _, g3, _⟩ := mount_ok hm
  obtain ⟨_, _, _, _, _, _, k7⟩ := mountOpen_ok g3
  obtain ⟨_, c2, c3⟩ := getVolume_calls ho k7
  rcases h with h | h
  · exact absurd (c2 _ h).2.1 (by decide)
  · exact absurd (c3 _ h).2.1 (by decide)

/-! fsapfsinfo -/

/-- **C70, fsapfsinfo.** With the option `-f` and a number, the volume with that number is selected; the volumes are all volumes of the container that the options name, in order. -/
theorem c70_info_partial {m : Machine} {o : Options} {source : Nat → Container.Image} {at_ : Nat} {k : Container.Opened} (h1 : StartsAt o at_) (hk : Container.openRead m.xts m.vector (source at_) = ok k) :
    (o.index = none → Program.info m o source = ok ⟨source at_, k, 0, (List.range (Container.numberOfVolumes k)).map fun (i : Nat) => Program.getVolume m o (source at_) k (i : Int)⟩) ∧
    ∀ s n, o.index = some s → Numeral s n → s.length ≤ 21 → 1 ≤ n → n ≤ 100 →
      Program.info m o source = ok ⟨source at_, k, n, (List.range (Container.numberOfVolumes k)).map fun (i : Nat) => Program.getVolume m o (source at_) k (i : Int)⟩ := by
  have hoff : Program.offsetOption o = ok (at_ : Int) := by
    unfold Program.offsetOption
    rcases h1 with ⟨e, rfl⟩ | ⟨t, e, ht, hl, hn⟩
    · rw [e]; rfl
    · rw [e]
      dsimp only
      have : Program.setOffset t = ok (at_ : Int) := by
        unfold Program.setOffset Program.off64
        rw [decimal_numeral ht hl, ok_bind, Nat.mod_eq_of_lt (by omega), if_pos hn]
        rfl
      rw [this]
  have key : ∀ index, Program.indexOption o = ok index →
      Program.info m o source = ok ⟨source at_, k, index, (List.range (Container.numberOfVolumes k)).map fun (i : Nat) => Program.getVolume m o (source at_) k (i : Int)⟩ := by
    intro index hidx
    unfold Program.info
    rw [hidx, ok_bind, hoff, ok_bind]
    unfold Program.openAt
    rw [require_true (by omega), ok_bind]
    simp only [Int.toNat_natCast]
    rw [hk, ok_bind, ok_bind]
  constructor
  · intro e
    apply key
    unfold Program.indexOption
    rw [e]
  · intro s n e hs hl h1 h2
    apply key
    unfold Program.indexOption
    rw [e]
    dsimp only
    have hm : n % 2 ^ 64 = n := Nat.mod_eq_of_lt (by omega)
    rw [setIndex_numeral hs hl (by omega) (by omega), hm]

/-- **C70, refuted: offsets for fsapfsinfo.** Where fsapfsmount reports an error for an offset that is not a number, fsapfsinfo reads from the first byte of the file. -/
theorem c70_info_offset (m : Machine) (o : Options) (source : Nat → Container.Image) {s : Bytes} (ha : Argument s) (hs : ∀ c, s.head? = some c → c ≠ 0x2d ∧ c ≠ 0x2b) (h : ¬ ∀ c ∈ s, Digit c) :
    Program.info m { o with offset := some s } source = Program.info m { o with offset := none } source := by
  have : Program.offsetOption { o with offset := some s } = Program.offsetOption { o with offset := none } := by
    unfold Program.offsetOption Program.setOffset
    dsimp only
    rw [decimal_other ha (fun e => h e.1) hs]
    rfl
  unfold Program.info
  rw [this]
  rfl

/-- The options of both programs are read within their memory. -/
theorem c70_options_safe {o : Options} (h1 : ∀ s, o.index = some s → Argument s) (h2 : ∀ s, o.offset = some s → Argument s) :
    Program.indexOption o ≠ ub ∧ Program.offsetOption o ≠ ub ∧ ∀ s, o.offset = some s → Program.setOffset s ≠ ub := by
  have hoff : ∀ s, o.offset = some s → Program.setOffset s ≠ ub := by
    intro s e
    unfold Program.setOffset
    have := decimal_safe (h2 s e)
    cases hd : Program.decimal (s ++ [0]) (s.length + 1) with
    | ok n => exact nofun
    | err => exact nofun
    | ub => exact absurd hd this
  refine ⟨?_, ?_, hoff⟩
  · unfold Program.indexOption
    cases e : o.index with
    | none => exact nofun
    | some s =>
      dsimp only
      have : Program.setIndex s ≠ ub := by
        unfold Program.setIndex
        have := decimal_safe (h1 s e)
        cases hd : Program.decimal (s ++ [0]) (s.length + 1) with
        | ok n =>
          rw [ok_bind]
          by_cases hr : ¬ (n = 0 ∨ n > 100)
          · rw [require_true hr]; exact nofun
          · rw [require_false hr]; exact nofun
        | err => exact nofun
        | ub => exact absurd hd this
      split
      · exact nofun
      · exact nofun
      · rename_i h; exact absurd h this
  · unfold Program.offsetOption
    cases e : o.offset with
    | none => exact nofun
    | some s =>
      dsimp only
      split
      · exact nofun
      · exact nofun
      · rename_i h; exact absurd h (hoff s e)

end Verif.Props
