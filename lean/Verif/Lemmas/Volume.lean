import Verif.Model.Volume
import Verif.Lemmas.KeyBag
import Verif.Props.C13
import Verif.Props.C14
import Verif.Spec.Unlock
/-! Lemmas: unlocking -/
namespace Verif
open Res Spec

namespace KeyBag

/-- field sizes of the structure -/
structure Kek.Sized (k : Kek) : Prop where
  identifier : k.identifier.length = 16
  salt : k.salt.length = 16
  wrapped : k.wrapped.length = 40

theorem attrLoop_pres {σ : Type} {mem : Bytes} {size : Nat} {inner : Bool} {f : Nat → Nat → Nat → σ → Res σ} (P : σ → Prop)
    (hf : ∀ t l o s s', f t l o s = ok s' → P s → P s') (off : Nat) (s s' : σ) (hP : P s) (h : attrLoop mem size inner f off s = ok s') : P s' := by
  fun_induction attrLoop mem size inner f off s with
  | case1 off s h1 h2 => cases h; exact hP
  | case2 off s h1 tag len o h2 s1 h3 ih => exact ih (hf _ _ _ _ _ h3 hP) h
  | case3 => cases h
  | case4 => cases h
  | case5 => cases h
  | case6 => cases h
  | case7 => cases h; exact hP

theorem outerAttr_sized {mem : Bytes} (t l o : Nat) (s s' : Kek × Option (Nat × Nat)) (h : outerAttr mem t l o s = ok s') (hP : s.1.Sized) : s'.1.Sized := by
  unfold outerAttr at h
  split at h
  · obtain ⟨_, _, h⟩ := bind_eq_ok.1 h
    obtain ⟨_, _, h⟩ := bind_eq_ok.1 h
    cases h
    exact ⟨hP.1, hP.2, hP.3⟩
  · split at h
    · obtain ⟨_, _, h⟩ := bind_eq_ok.1 h
      cases h
      exact hP
    · split at h
      · obtain ⟨_, _, h⟩ := bind_eq_ok.1 h
        cases h
        exact hP
      · cases h
        exact hP

theorem innerAttr_sized {mem : Bytes} (t l o : Nat) (s s' : Kek) (h : innerAttr mem t l o s = ok s') (hP : s.Sized) : s'.Sized := by
  unfold innerAttr at h
  repeat' split at h
  all_goals first
    | (obtain ⟨_, g, h1⟩ := bind_eq_ok.1 h
       obtain ⟨_, g2, h2⟩ := bind_eq_ok.1 h1
       cases h2
       first
       | exact ⟨hP.1, hP.2, hP.3⟩
       | exact ⟨rdN_length g2, hP.2, hP.3⟩
       | exact ⟨hP.1, rdN_length g2, hP.3⟩
       | exact ⟨hP.1, hP.2, rdN_length g2⟩)
    | (cases h; exact hP)

theorem readKek_sized {mem : Bytes} {size : Nat} {k : Kek} (h : readKek mem size = ok k) : k.Sized := by
  unfold readKek at h
  obtain ⟨_, _, h⟩ := bind_eq_ok.1 h
  obtain ⟨_, _, h⟩ := bind_eq_ok.1 h
  obtain ⟨_, _, h⟩ := bind_eq_ok.1 h
  obtain ⟨_, _, h⟩ := bind_eq_ok.1 h
  obtain ⟨_, _, h⟩ := bind_eq_ok.1 h
  obtain ⟨⟨k0, o⟩, h1, h⟩ := bind_eq_ok.1 h
  have s0 := attrLoop_pres (fun s : Kek × Option (Nat × Nat) => s.1.Sized) (fun t l o s s' hs hP => outerAttr_sized t l o s s' hs hP) _ _ _
    ⟨by simp, by simp, by simp⟩ h1
  simp only at h
  split at h
  · cases h
  · unfold readInner at h
    obtain ⟨_, _, h⟩ := bind_eq_ok.1 h
    obtain ⟨_, _, h⟩ := bind_eq_ok.1 h
    obtain ⟨_, _, h⟩ := bind_eq_ok.1 h
    obtain ⟨_, _, h⟩ := bind_eq_ok.1 h
    exact attrLoop_pres (fun s : Kek => s.Sized) (fun t l o s s' hs hP => innerAttr_sized t l o s s' hs hP) _ _ _ s0 h

theorem kekIv_eq : kekIv = defaultIv := rfl

variable {enc dec : Bytes → Bytes → Bytes}

/-- unwrapping `n` bytes (16 or 32) always works and shows what was wrapped -/
theorem keyUnwrap_total (hc : ∀ k, BlockCipher (enc k) (dec k)) (key w : Bytes) (n : Nat) (hn : n = 16 ∨ n = 32) (hk : n ≤ key.length) (hw : w.length = n + 8) :
    ∃ (iv : Bytes) (bs : List Bytes), iv.length = 8 ∧ (∀ b ∈ bs, b.length = 8) ∧ bs.flatten.length = n ∧ w = keyWrap (enc (key.take n)) iv bs ∧
      Crypto.keyUnwrap dec key (n * 8) w (List.replicate (n + 8) 0) = ok (iv ++ bs.flatten) := by
  obtain ⟨rs, e1, e2, e3⟩ := Crypto.exists_blocks8 w (n / 8 + 1) (by omega)
  cases rs with
  | nil => simp at e3
  | cons a rs =>
    have ha := e2 a (by simp)
    have hr : Crypto.Blocks8 rs := fun x hx => e2 x (by simp [hx])
    have hl3 : rs.length = n / 8 := by simpa using e3
    have hd : n * 8 / 8 = n := by omega
    have := Crypto.keyUnwrap_eq (encK := enc) (decK := dec) key (n * 8) (by omega) (by omega) (by rw [hd]; exact hc _) a rs ha hr (by omega)
      (List.replicate (n + 8) 0) (by rw [List.length_replicate]; omega) (by rw [List.length_replicate]; omega)
    rw [hd] at this
    have hl := Crypto.unwrapAll_len (hc (key.take n)) ha hr 6
    refine ⟨_, _, hl.1, hl.2.1, ?_, ?_, ?_⟩
    · rw [Crypto.length_flatten8 hl.2.1, hl.2.2]; omega
    · unfold keyWrap
      simp only [Crypto.wrap_unwrap (hc _) ha hr]
      rw [e1, List.flatten_cons]
    · rw [e1, List.flatten_cons, this]
      have : 8 * (rs.length + 1) = n + 8 := by omega
      rw [this, show List.drop (n + 8) (List.replicate (n + 8) (0 : UInt8)) = [] by simp, List.append_nil]

/-- the same data is not the wrapping of anything else -/
theorem keyWrap_inj (hc : BlockCipher (enc k) (dec k)) {iv iv' : Bytes} {bs bs' : List Bytes} (h1 : iv.length = 8) (h1' : iv'.length = 8)
    (h2 : ∀ b ∈ bs, b.length = 8) (h2' : ∀ b ∈ bs', b.length = 8) (h : keyWrap (enc k) iv bs = keyWrap (enc k) iv' bs') : iv = iv' ∧ bs = bs' := by
  have l := Crypto.wrapRounds_len hc h1 h2 6
  have l' := Crypto.wrapRounds_len hc h1' h2' 6
  unfold keyWrap at h
  simp only at h
  obtain ⟨e1, e2⟩ := List.append_inj h (by rw [l.1, l'.1])
  have e3 : (wrapRounds (enc k) 6 iv bs).2 = (wrapRounds (enc k) 6 iv' bs').2 := by
    have f1 := Crypto.length_flatten8 l.2.1
    have f2 := Crypto.length_flatten8 l'.2.1
    rw [e2] at f1
    have hlen : (wrapRounds (enc k) 6 iv bs).2.length = (wrapRounds (enc k) 6 iv' bs').2.length := by omega
    generalize (wrapRounds (enc k) 6 iv bs).2 = x at *
    generalize (wrapRounds (enc k) 6 iv' bs').2 = y at *
    have hx := l.2.1
    have hy := l'.2.1
    clear f1 f2 l l' h e1
    induction x generalizing y with
    | nil => cases y with
      | nil => rfl
      | cons b y => simp at hlen
    | cons a x ih => cases y with
      | nil => simp at hlen
      | cons b y =>
        simp only [List.flatten_cons] at e2
        obtain ⟨p1, p2⟩ := List.append_inj e2 (by rw [hx a (by simp), hy b (by simp)])
        rw [p1, ih y p2 (by simpa using hlen) (fun z hz => hx z (by simp [hz])) (fun z hz => hy z (by simp [hz]))]
  have u := Crypto.unwrap_wrap hc h1 h2 6
  have u' := Crypto.unwrap_wrap hc h1' h2' 6
  rw [e1, e3, u'] at u
  exact ⟨(Prod.mk.inj u).1.symm, (Prod.mk.inj u).2.symm⟩

/-- number of key bytes of a method for passwords -/
def PwSize (method n : Nat) : Prop := (method = 0 ∨ method = 16) ∧ n = 32 ∨ method = 2 ∧ n = 16
/-- number of key bytes of a method for volume keys -/
def KeySize (method n : Nat) : Prop := method = 0 ∧ n = 32 ∨ method = 2 ∧ n = 16

structure PrimsOk (p : Prims) (enc : Bytes → Bytes → Bytes) : Prop where
  prf : ∀ k d, (p.prf k d).length = 32
  cipher : ∀ k, BlockCipher (enc k) (p.dec k)
  sha : ∀ d, (p.sha d).length = 32

theorem PwSize.le {m n : Nat} (h : PwSize m n) : n = 16 ∨ n = 32 := by unfold PwSize at h; omega
theorem KeySize.le {m n : Nat} (h : KeySize m n) : n = 16 ∨ n = 32 := by unfold KeySize at h; omega

/-- what unlocking with a password does for a supported method -/
theorem unlockWithPassword_eq {p : Prims} (hp : PrimsOk p enc) {k : Kek} (hk : k.Sized) (pw key : Bytes) (hpw : pw.length ≤ 2 ^ 63 - 1) (hkey : key.length = 32)
    {n : Nat} (hn : PwSize k.method n) (hi : k.iterations % 2 ^ 32 ≠ 0) :
    ∃ (iv : Bytes) (bs : List Bytes), iv.length = 8 ∧ (∀ b ∈ bs, b.length = 8) ∧ bs.flatten.length = n ∧
      k.wrapped.take (n + 8) = keyWrap (enc (Spec.pbkdf2 p.prf pw k.salt (k.iterations % 2 ^ 32) n)) iv bs ∧
      unlockWithPassword p k pw key = if iv = kekIv then ok (some (bs.flatten ++ key.drop n)) else ok none := by
  have hn2 := hn.le
  have c14 := Props.c14_pbkdf2 p.prf hp.prf pw k.salt (List.replicate n 0) (k.iterations % 2 ^ 32) hpw (by rw [hk.salt]; omega) (by omega)
    (by rw [List.length_replicate]; omega)
  rw [List.length_replicate] at c14
  have lp : (Spec.pbkdf2 p.prf pw k.salt (k.iterations % 2 ^ 32) n).length = n := by
    unfold Spec.pbkdf2
    rw [List.length_take, Crypto.pbkdf2T_len _ hp.prf]
    omega
  obtain ⟨iv, bs, h1, h2, h3, h4, h5⟩ := keyUnwrap_total hp.cipher (Spec.pbkdf2 p.prf pw k.salt (k.iterations % 2 ^ 32) n) (k.wrapped.take (n + 8)) n hn2 (by omega)
    (by rw [List.length_take, hk.wrapped]; omega)
  rw [List.take_of_length_le (l := Spec.pbkdf2 p.prf pw k.salt (k.iterations % 2 ^ 32) n) (by omega)] at h4
  refine ⟨iv, bs, h1, h2, h3, h4, ?_⟩
  have hsel : (if k.method = 0 ∨ k.method = 16 then ok (32, 40) else if k.method = 2 then ok (16, 24) else err : Res (Nat × Nat)) = ok (n, n + 8) := by
    unfold PwSize at hn
    rcases hn with ⟨h, rfl⟩ | ⟨h, rfl⟩
    · rw [if_pos h]
    · rw [if_neg (by omega), if_pos h]
  unfold unlockWithPassword
  rw [hsel, ok_bind]
  simp only
  rw [c14, ok_bind, rdN_le (by rw [hk.wrapped]; omega), ok_bind, List.drop_zero, h5, ok_bind]
  rw [show rdN (iv ++ bs.flatten) 0 8 = ok iv from rdN_mid' [] iv bs.flatten 0 8 rfl h1, ok_bind]
  split
  · have r2 : rdN (iv ++ bs.flatten) 8 n = ok bs.flatten := by
      have := rdN_mid' iv bs.flatten [] 8 n h1 h3
      rwa [List.append_nil] at this
    rw [r2, ok_bind]
    unfold wrN
    rw [if_pos (by omega), ok_bind, Nat.zero_add, h3]
    rfl
  · rfl

theorem unlockWithPassword_method {p : Prims} {k : Kek} {pw key : Bytes} (h : unlockWithPassword p k pw key ≠ err) : ∃ n, PwSize k.method n := by
  unfold unlockWithPassword at h
  by_cases h1 : k.method = 0 ∨ k.method = 16
  · exact ⟨32, Or.inl ⟨h1, rfl⟩⟩
  · by_cases h2 : k.method = 2
    · exact ⟨16, Or.inr ⟨h2, rfl⟩⟩
    · rw [if_neg h1, if_neg h2] at h
      exact absurd rfl h

theorem unlockWithPassword_iter {p : Prims} {k : Kek} {pw key : Bytes} (hi : k.iterations % 2 ^ 32 = 0) : unlockWithPassword p k pw key = err := by
  unfold unlockWithPassword
  rw [hi]
  by_cases h1 : k.method = 0 ∨ k.method = 16
  · rw [if_pos h1, ok_bind]
    simp only [Props.c14_zero_iterations, err_bind]
  · by_cases h2 : k.method = 2
    · rw [if_neg h1, if_pos h2, ok_bind]
      simp only [Props.c14_zero_iterations, err_bind]
    · rw [if_neg h1, if_neg h2]
      rfl

theorem unlockWithPassword_safe {p : Prims} (hp : PrimsOk p enc) {k : Kek} (hk : k.Sized) (pw key : Bytes) (hpw : pw.length ≤ 2 ^ 63 - 1) (hkey : key.length = 32) :
    Safe (unlockWithPassword p k pw key) := by
  intro h
  obtain ⟨n, hn⟩ := unlockWithPassword_method (p := p) (k := k) (pw := pw) (key := key) (by rw [h]; simp)
  by_cases hi : k.iterations % 2 ^ 32 = 0
  · rw [unlockWithPassword_iter hi] at h; cases h
  · obtain ⟨iv, bs, _, _, _, _, e⟩ := unlockWithPassword_eq hp hk pw key hpw hkey hn hi
    rw [e] at h
    split at h <;> cases h

theorem unlockWithPassword_some {p : Prims} (hp : PrimsOk p enc) {k : Kek} (hk : k.Sized) (pw key : Bytes) (hpw : pw.length ≤ 2 ^ 63 - 1) (hkey : key.length = 32)
    {v : Bytes} (h : unlockWithPassword p k pw key = ok (some v)) :
    ∃ n vk, PwSize k.method n ∧ WrapsKey enc (Spec.pbkdf2 p.prf pw k.salt (k.iterations % 2 ^ 32) n) (k.wrapped.take (n + 8)) vk ∧ vk.length = n ∧
      v = vk ++ key.drop n := by
  obtain ⟨n, hn⟩ := unlockWithPassword_method (p := p) (k := k) (pw := pw) (key := key) (by rw [h]; simp)
  by_cases hi : k.iterations % 2 ^ 32 = 0
  · rw [unlockWithPassword_iter hi] at h; cases h
  · obtain ⟨iv, bs, h1, h2, h3, h4, e⟩ := unlockWithPassword_eq hp hk pw key hpw hkey hn hi
    rw [e] at h
    split at h
    · rename_i hiv
      subst hiv
      simp only [ok.injEq, Option.some.injEq] at h
      exact ⟨n, bs.flatten, hn, ⟨bs, h2, rfl, h4⟩, h3, h.symm⟩
    · cases h

/-- what unlocking with a key does for a supported method -/
theorem unlockWithKey_eq {p : Prims} (hp : PrimsOk p enc) {k : Kek} (hk : k.Sized) (vkey key : Bytes) (hv : vkey.length = 32) (hkey : key.length = 32)
    {n : Nat} (hn : KeySize k.method n) :
    ∃ (iv : Bytes) (bs : List Bytes), iv.length = 8 ∧ (∀ b ∈ bs, b.length = 8) ∧ bs.flatten.length = n ∧
      k.wrapped.take (n + 8) = keyWrap (enc (vkey.take n)) iv bs ∧
      unlockWithKey p k vkey key = if iv = kekIv then ok (some (if n = 32 then bs.flatten else bs.flatten ++ (p.sha (bs.flatten ++ k.identifier)).take 16)) else ok none := by
  have hn2 := hn.le
  obtain ⟨iv, bs, h1, h2, h3, h4, h5⟩ := keyUnwrap_total hp.cipher vkey (k.wrapped.take (n + 8)) n hn2 (by omega)
    (by rw [List.length_take, hk.wrapped]; omega)
  refine ⟨iv, bs, h1, h2, h3, h4, ?_⟩
  have hsel : (if k.method = 0 then ok (40, 32) else if k.method = 2 then ok (24, 16) else err : Res (Nat × Nat)) = ok (n + 8, n) := by
    unfold KeySize at hn
    rcases hn with ⟨h, rfl⟩ | ⟨h, rfl⟩
    · rw [if_pos h]
    · rw [if_neg (by omega), if_pos h]
  unfold unlockWithKey
  rw [hsel, ok_bind]
  simp only
  rw [rdN_le (by rw [hk.wrapped]; omega), ok_bind, List.drop_zero, h5, ok_bind]
  rw [show rdN (iv ++ bs.flatten) 0 8 = ok iv from rdN_mid' [] iv bs.flatten 0 8 rfl h1, ok_bind]
  split
  · have r2 : rdN (iv ++ bs.flatten) 8 n = ok bs.flatten := by
      have := rdN_mid' iv bs.flatten [] 8 n h1 h3
      rwa [List.append_nil] at this
    rw [r2, ok_bind]
    have w1 : wrN key 0 bs.flatten = ok (bs.flatten ++ key.drop n) := by
      unfold wrN
      rw [if_pos (by omega), Nat.zero_add, h3]
      rfl
    rw [w1, ok_bind]
    unfold KeySize at hn
    rcases hn with ⟨h, rfl⟩ | ⟨h, rfl⟩
    · rw [if_neg (by omega), if_pos rfl, List.drop_eq_nil_of_le (by omega), List.append_nil]
      rfl
    · rw [if_pos h, if_neg (by decide)]
      have l16 : (key.drop 16).length = 16 := by rw [List.length_drop]; omega
      have w2 : wrN (bs.flatten ++ key.drop 16) 16 k.identifier = ok (bs.flatten ++ k.identifier) := by
        have := wrN_mid bs.flatten (key.drop 16) [] k.identifier 16 h3 (by rw [hk.identifier, l16])
        simpa using this
      have r3 : rdN (bs.flatten ++ k.identifier) 0 32 = ok (bs.flatten ++ k.identifier) := by
        rw [rdN_le (by rw [List.length_append, h3, hk.identifier]; omega), List.drop_zero, List.take_of_length_le (by rw [List.length_append, h3, hk.identifier]; omega)]
      have w3 : wrN (bs.flatten ++ k.identifier) 16 ((p.sha (bs.flatten ++ k.identifier)).take 16) = ok (bs.flatten ++ (p.sha (bs.flatten ++ k.identifier)).take 16) := by
        have := wrN_mid bs.flatten k.identifier [] ((p.sha (bs.flatten ++ k.identifier)).take 16) 16 h3 (by rw [List.length_take, hp.sha, hk.identifier]; rfl)
        simpa using this
      rw [w2, ok_bind, r3, ok_bind, w3]
      rfl
  · rfl

theorem unlockWithKey_method {p : Prims} {k : Kek} {vkey key : Bytes} (h : unlockWithKey p k vkey key ≠ err) : ∃ n, KeySize k.method n := by
  unfold unlockWithKey at h
  by_cases h1 : k.method = 0
  · exact ⟨32, Or.inl ⟨h1, rfl⟩⟩
  · by_cases h2 : k.method = 2
    · exact ⟨16, Or.inr ⟨h2, rfl⟩⟩
    · rw [if_neg h1, if_neg h2] at h
      exact absurd rfl h

theorem unlockWithKey_safe {p : Prims} (hp : PrimsOk p enc) {k : Kek} (hk : k.Sized) (vkey key : Bytes) (hv : vkey.length = 32) (hkey : key.length = 32) :
    Safe (unlockWithKey p k vkey key) := by
  intro h
  obtain ⟨n, hn⟩ := unlockWithKey_method (p := p) (k := k) (vkey := vkey) (key := key) (by rw [h]; simp)
  obtain ⟨iv, bs, _, _, _, _, e⟩ := unlockWithKey_eq hp hk vkey key hv hkey hn
  rw [e] at h
  split at h <;> cases h

theorem unlockWithKey_some {p : Prims} (hp : PrimsOk p enc) {k : Kek} (hk : k.Sized) (vkey key : Bytes) (hv : vkey.length = 32) (hkey : key.length = 32)
    {v : Bytes} (h : unlockWithKey p k vkey key = ok (some v)) :
    ∃ n mk, KeySize k.method n ∧ WrapsKey enc (vkey.take n) (k.wrapped.take (n + 8)) mk ∧ mk.length = n ∧
      v = if n = 32 then mk else mk ++ (p.sha (mk ++ k.identifier)).take 16 := by
  obtain ⟨n, hn⟩ := unlockWithKey_method (p := p) (k := k) (vkey := vkey) (key := key) (by rw [h]; simp)
  obtain ⟨iv, bs, h1, h2, h3, h4, e⟩ := unlockWithKey_eq hp hk vkey key hv hkey hn
  rw [e] at h
  split at h
  · rename_i hiv
    subst hiv
    simp only [ok.injEq, Option.some.injEq] at h
    exact ⟨n, bs.flatten, hn, ⟨bs, h2, rfl, h4⟩, h3, h.symm⟩
  · cases h

end KeyBag
end Verif
