import Verif.Model.KeyBag
import Verif.Lemmas.Base
import Verif.Spec.KeyBag
import Verif.Lemmas.Crypto
/-! Lemmas: key-encrypted key and key bag parsing -/
namespace Verif
open Res
namespace KeyBag
open Spec

/-! ## safety of the key-encrypted key parser -/

theorem readSize_safe {mem : Bytes} {inner : Bool} {off : Nat} (h : off + 3 ≤ mem.length) : Safe (readSize mem inner off) := by
  unfold readSize
  refine safe_bind (safe_rd (by omega)) fun b _ => ?_
  split
  · exact safe_ok _
  · split
    · exact safe_bind (safe_rd (by omega)) fun _ _ => safe_ok _
    · split
      · exact safe_bind (safe_rdLE (by omega)) fun _ _ => safe_ok _
      · exact safe_err

theorem attrHeader_safe {mem : Bytes} {size : Nat} {inner : Bool} {off : Nat} (h : off + 4 ≤ mem.length) :
    Safe (attrHeader mem size inner off) := by
  unfold attrHeader
  refine safe_bind (safe_rd (by omega)) fun _ _ => safe_bind (readSize_safe (by omega)) fun x _ => ?_
  obtain ⟨l, o⟩ := x
  simp only
  split
  · exact safe_ok _
  · exact safe_bind safe_require fun _ _ => safe_ok _

theorem attrLoop_inv {σ : Type} {mem : Bytes} {size : Nat} {inner : Bool} {f : Nat → Nat → Nat → σ → Res σ} (P : σ → Prop)
    (hm : size + 3 ≤ mem.length)
    (hf : ∀ t l o s, o < size → 2 ≤ o → l ≤ size - o → P s → Safe (f t l o s) ∧ ∀ s', f t l o s = ok s' → P s') (off : Nat) (s : σ) (hP : P s) :
    Safe (attrLoop mem size inner f off s) ∧ ∀ s', attrLoop mem size inner f off s = ok s' → P s' := by
  fun_induction attrLoop mem size inner f off s with
  | case1 off s h h2 => exact ⟨safe_ok _, fun s' e => by cases e; exact hP⟩
  | case2 off s h tag len o h2 s1 h3 ih =>
    have g := attrHeader_gt h2
    have g2 : off + 2 ≤ o := by
      unfold attrHeader at h2
      obtain ⟨tag, _, h2⟩ := bind_eq_ok.1 h2
      obtain ⟨⟨l', o'⟩, h1, h2⟩ := bind_eq_ok.1 h2
      have := readSize_gt h1
      simp only at h2
      split at h2
      · simp at h2
      · obtain ⟨_, _, h2⟩ := bind_eq_ok.1 h2
        simp only [pure_eq, ok.injEq, Option.some.injEq, Prod.mk.injEq] at h2
        omega
    exact ih ((hf tag len o s (by omega) (by omega) (by omega) hP).2 s1 h3)
  | case3 off s h tag len o h2 h3 => exact ⟨safe_err, fun s' e => by cases e⟩
  | case4 off s h tag len o h2 h3 =>
    have g := attrHeader_gt h2
    have := (hf tag len o s (by omega) (by
      unfold attrHeader at h2
      obtain ⟨tag, _, h2⟩ := bind_eq_ok.1 h2
      obtain ⟨⟨l', o'⟩, h1, h2⟩ := bind_eq_ok.1 h2
      have := readSize_gt h1
      simp only at h2
      split at h2
      · simp at h2
      · obtain ⟨_, _, h2⟩ := bind_eq_ok.1 h2
        simp only [pure_eq, ok.injEq, Option.some.injEq, Prod.mk.injEq] at h2
        omega) (by omega) hP).1
    rw [h3] at this
    exact absurd this not_safe_ub
  | case5 off s h h2 => exact ⟨safe_err, fun s' e => by cases e⟩
  | case6 off s h h2 =>
    have := attrHeader_safe (mem := mem) (size := size) (inner := inner) (off := off) (by omega)
    rw [h2] at this
    exact absurd this not_safe_ub
  | case7 off s h => exact ⟨safe_ok _, fun s' e => by cases e; exact hP⟩

theorem innerAttr_safe {mem : Bytes} {t l o : Nat} {k : Kek} (h : o + l ≤ mem.length) : Safe (innerAttr mem t l o k) := by
  unfold innerAttr
  split
  · exact safe_bind safe_require fun _ g => safe_bind (safe_rdN (by simp only [require_eq_ok] at g; omega)) fun _ _ => safe_ok _
  · split
    · exact safe_bind safe_require fun _ g => safe_bind (safe_rdLE (by simp only [require_eq_ok] at g; omega)) fun _ _ => safe_ok _
    · split
      · exact safe_bind safe_require fun _ g => safe_bind (safe_rdN (by simp only [require_eq_ok] at g; omega)) fun _ _ => safe_ok _
      · split
        · exact safe_bind safe_require fun _ g => safe_bind (safe_rdN (by omega)) fun _ _ => safe_ok _
        · split
          · exact safe_bind safe_require fun _ g => safe_bind (safe_rdN (by simp only [require_eq_ok] at g; omega)) fun _ _ => safe_ok _
          · exact safe_ok _

theorem readInner_safe {mem : Bytes} {size : Nat} {k : Kek} (h : size + 3 ≤ mem.length) (h4 : 4 ≤ mem.length) : Safe (readInner mem size k) := by
  unfold readInner
  refine safe_bind (safe_rd (by omega)) fun _ _ => safe_bind (readSize_safe (by omega)) fun x _ =>
    safe_bind safe_require fun _ _ => safe_bind safe_require fun _ _ => ?_
  exact (attrLoop_inv (fun _ => True) h (fun t l o s h1 h2 h3 _ => ⟨innerAttr_safe (by omega), fun _ _ => trivial⟩) _ _ trivial).1

theorem readKek_safe {mem : Bytes} {size : Nat} (h : size + 3 ≤ mem.length) : Safe (readKek mem size) := by
  unfold readKek
  refine safe_bind safe_require fun _ g => ?_
  simp only [require_eq_ok] at g
  refine safe_bind (safe_rd (by omega)) fun _ _ => safe_bind (readSize_safe (by omega)) fun x _ =>
    safe_bind safe_require fun _ _ => safe_bind safe_require fun _ _ => ?_
  have := attrLoop_inv (inner := false) (f := outerAttr mem) (fun s => ∀ b z, s.2 = some (b, z) → b + z ≤ size ∧ b + 1 ≤ size) h (by
    intro t l o s h1 h2 h3 hP
    unfold outerAttr
    split
    · refine ⟨safe_bind safe_require fun _ g => safe_bind (safe_rdN (by simp only [require_eq_ok] at g; omega)) fun _ _ => safe_ok _, ?_⟩
      intro s' e
      obtain ⟨_, _, e⟩ := bind_eq_ok.1 e
      obtain ⟨_, _, e⟩ := bind_eq_ok.1 e
      cases e
      exact hP
    · split
      · refine ⟨safe_bind safe_require fun _ _ => safe_ok _, ?_⟩
        intro s' e
        obtain ⟨_, _, e⟩ := bind_eq_ok.1 e
        cases e
        exact hP
      · split
        · refine ⟨safe_bind safe_require fun _ _ => safe_ok _, ?_⟩
          intro s' e
          obtain ⟨_, _, e⟩ := bind_eq_ok.1 e
          cases e
          intro b z e
          simp only [Option.some.injEq, Prod.mk.injEq] at e
          omega
        · refine ⟨safe_ok _, ?_⟩
          intro s' e
          cases e
          exact hP) x.2 (({} : Kek), none) (by simp)
  refine safe_bind this.1 fun y hy => ?_
  obtain ⟨k, o⟩ := y
  match o with
  | none => exact safe_err
  | some (b, z) =>
    have := this.2 _ hy b z rfl
    exact readInner_safe (by rw [List.length_drop]; omega) (by rw [List.length_drop]; omega)

/-! ## a well-formed object -/

theorem der_short {v : Bytes} {tag : UInt8} (h : v.length < 128) : der tag v = [tag, UInt8.ofNat v.length] ++ v := by
  unfold der derLength
  rw [if_pos h]
  rfl

theorem attrHeader_der (pre v rest : Bytes) (tag : UInt8) (size : Nat) (inner : Bool) (h0 : 0 < v.length) (h : v.length < 128)
    (hs : pre.length + 2 + v.length ≤ size) :
    attrHeader (pre ++ (der tag v ++ rest)) size inner pre.length = ok (some (tag.toNat, v.length, pre.length + 2)) := by
  rw [der_short h]
  unfold attrHeader
  have hn : (UInt8.ofNat v.length).toNat = v.length := by simp; omega
  rw [rd_lt (by simp), ok_bind]
  have hb : rd (pre ++ ([tag, UInt8.ofNat v.length] ++ v ++ rest)) (pre.length + 1) = ok (UInt8.ofNat v.length) := by
    rw [rd_lt (by simp)]
    simp [List.getElem_append_right]
  unfold readSize
  rw [hb, ok_bind, hn, if_pos h]
  simp only [pure_eq, ok_bind]
  rw [if_neg (by omega), require_true (by omega)]
  simp

theorem attrLoop_der {σ : Type} (mem pre v rest : Bytes) (tag : UInt8) (size : Nat) (inner : Bool) (f : Nat → Nat → Nat → σ → Res σ) (s s' : σ)
    (hmem : mem = pre ++ (der tag v ++ rest)) (off : Nat) (hoff : off = pre.length)
    (h0 : 0 < v.length) (h : v.length < 128) (hs : pre.length + 2 + v.length ≤ size)
    (hf : f tag.toNat v.length (pre.length + 2) s = ok s') :
    attrLoop mem size inner f off s = attrLoop mem size inner f (pre.length + 2 + v.length) s' := by
  subst hmem hoff
  rw [attrLoop, if_pos (by omega)]
  split
  · rename_i e
    rw [attrHeader_der pre v rest tag size inner h0 h hs] at e
    simp at e
  · rename_i t l o e
    rw [attrHeader_der pre v rest tag size inner h0 h hs] at e
    simp only [ok.injEq, Option.some.injEq, Prod.mk.injEq] at e
    obtain ⟨rfl, rfl, rfl⟩ := e
    rw [hf]
  · rename_i e
    rw [attrHeader_der pre v rest tag size inner h0 h hs] at e
    simp at e
  · rename_i e
    rw [attrHeader_der pre v rest tag size inner h0 h hs] at e
    simp at e

theorem attrLoop_end {σ : Type} (mem : Bytes) (size : Nat) (inner : Bool) (f : Nat → Nat → Nat → σ → Res σ) (s : σ) (off : Nat) (h : size ≤ off) :
    attrLoop mem size inner f off s = ok s := by
  rw [attrLoop, if_neg (by omega)]

theorem length_der_short {v : Bytes} {tag : UInt8} (h : v.length < 128) : (der tag v).length = v.length + 2 := by
  rw [der_short h]
  simp

theorem rdN_der (pre v rest : Bytes) (tag : UInt8) (h : v.length < 128) (n : Nat) (hn : v.length = n) :
    rdN (pre ++ (der tag v ++ rest)) (pre.length + 2) n = ok v := by
  rw [der_short h]
  have := rdN_mid' (pre ++ [tag, UInt8.ofNat v.length]) v rest (pre.length + 2) n (by simp) hn
  rw [← this]
  simp

theorem readInner_encode (o : KekFields) (h : o.Wf) (k : Kek) (rest : Bytes) :
    let inner := der 0xa3 (der 0x81 o.uuid ++ (der 0x82 (toLE 4 o.method ++ o.flags) ++ (der 0x83 o.wrapped ++ (der 0x84 o.iterations ++ der 0x85 o.salt))))
    inner.length = 92 + o.iterations.length ∧
    readInner (inner ++ rest) inner.length k =
      ok { k with identifier := o.uuid, method := o.method, wrapped := o.wrapped, iterations := beNat o.iterations, salt := o.salt } := by
  intro inner
  have hinner : inner = der 0xa3 (der 0x81 o.uuid ++ (der 0x82 (toLE 4 o.method ++ o.flags) ++ (der 0x83 o.wrapped ++ (der 0x84 o.iterations ++ der 0x85 o.salt)))) := rfl
  clear_value inner
  have hit := h.iterations
  have hmet : (toLE 4 o.method ++ o.flags).length = 8 := by simp [h.flags]
  generalize hmv : toLE 4 o.method ++ o.flags = mv at *
  generalize hv : der 0x81 o.uuid ++ (der 0x82 mv ++ (der 0x83 o.wrapped ++ (der 0x84 o.iterations ++ der 0x85 o.salt))) = v at *
  have l1 : (der 0x81 o.uuid).length = 18 := by rw [length_der_short (by rw [h.uuid]; omega), h.uuid]
  have l2 : (der 0x82 mv).length = 10 := by rw [length_der_short (by omega), hmet]
  have l3 : (der 0x83 o.wrapped).length = 42 := by rw [length_der_short (by rw [h.wrapped]; omega), h.wrapped]
  have l4 : (der 0x84 o.iterations).length = o.iterations.length + 2 := length_der_short (by omega)
  have l5 : (der 0x85 o.salt).length = 18 := by rw [length_der_short (by rw [h.salt]; omega), h.salt]
  have lv : v.length = 90 + o.iterations.length := by
    rw [← hv]
    simp only [List.length_append, l1, l2, l3, l4, l5]
    omega
  have li : inner.length = 92 + o.iterations.length := by
    rw [hinner, length_der_short (by omega), lv]
    omega
  refine ⟨li, ?_⟩
  have hin : inner = [0xa3, UInt8.ofNat v.length] ++ v := by rw [hinner, der_short (by omega)]
  unfold readInner
  have h0 : rd (inner ++ rest) 0 = ok 0xa3 := by rw [hin]; rfl
  have hn : (UInt8.ofNat v.length).toNat = v.length := by simp; omega
  have h1 : readSize (inner ++ rest) true 1 = ok (v.length, 2) := by
    unfold readSize
    rw [show rd (inner ++ rest) 1 = ok (UInt8.ofNat v.length) by rw [hin]; rfl, ok_bind, hn, if_pos (by omega)]
    rfl
  rw [h0, ok_bind, h1]
  simp only [ok_bind]
  rw [require_true (by decide), ok_bind, require_true (by omega), ok_bind, hin]
  generalize hp : ([0xa3, UInt8.ofNat v.length] : Bytes) = p
  have lp : p.length = 2 := by rw [← hp]; rfl
  have lpv : (p ++ v).length = 92 + o.iterations.length := by rw [List.length_append, lp, lv]; omega
  rw [lpv]
  -- identifier
  have m1 : p ++ v ++ rest = p ++ (der 0x81 o.uuid ++ (der 0x82 mv ++ (der 0x83 o.wrapped ++ (der 0x84 o.iterations ++ (der 0x85 o.salt ++ rest))))) := by
    rw [← hv]; simp
  have m2 : p ++ v ++ rest = (p ++ der 0x81 o.uuid) ++ (der 0x82 mv ++ (der 0x83 o.wrapped ++ (der 0x84 o.iterations ++ (der 0x85 o.salt ++ rest)))) := by
    rw [← hv]; simp
  have m3 : p ++ v ++ rest = (p ++ der 0x81 o.uuid ++ der 0x82 mv) ++ (der 0x83 o.wrapped ++ (der 0x84 o.iterations ++ (der 0x85 o.salt ++ rest))) := by
    rw [← hv]; simp
  have m4 : p ++ v ++ rest = (p ++ der 0x81 o.uuid ++ der 0x82 mv ++ der 0x83 o.wrapped) ++ (der 0x84 o.iterations ++ (der 0x85 o.salt ++ rest)) := by
    rw [← hv]; simp
  have m5 : p ++ v ++ rest = (p ++ der 0x81 o.uuid ++ der 0x82 mv ++ der 0x83 o.wrapped ++ der 0x84 o.iterations) ++ (der 0x85 o.salt ++ rest) := by
    rw [← hv]; simp
  generalize p ++ v ++ rest = mem at *
  rw [attrLoop_der mem p o.uuid _ 0x81 _ true _ _ { k with identifier := o.uuid } m1 2 lp.symm (by rw [h.uuid]; omega) (by rw [h.uuid]; omega)
    (by rw [h.uuid]; omega) (by
      unfold innerAttr
      rw [if_pos (by decide), require_true h.uuid, ok_bind, m1, rdN_der p _ _ _ (by rw [h.uuid]; omega) 16 h.uuid]; rfl)]
  rw [attrLoop_der mem (p ++ der 0x81 o.uuid) mv _ 0x82 _ true _ _ { k with identifier := o.uuid, method := o.method } m2 _
    (by simp only [List.length_append]; have := h.uuid; omega) (by omega) (by omega) (by simp [l1, lp, hmet]; omega) (by
      unfold innerAttr
      rw [if_neg (by decide), if_pos (by decide), require_true hmet, ok_bind]
      have hrd : rdN mem ((p ++ der 0x81 o.uuid).length + 2) 4 = ok (toLE 4 o.method) := by
        have := rdN_mid' (p ++ der 0x81 o.uuid ++ [0x82, UInt8.ofNat mv.length]) (toLE 4 o.method)
          (o.flags ++ (der 0x83 o.wrapped ++ (der 0x84 o.iterations ++ (der 0x85 o.salt ++ rest)))) ((p ++ der 0x81 o.uuid).length + 2) 4 (by rw [List.length_append (bs := [0x82, UInt8.ofNat mv.length])]; rfl) (by simp)
        rw [← this, m2, der_short (v := mv) (by omega)]
        congr 1
        rw [← hmv]
        simp
      have hm := h.method
      unfold rdLE
      rw [hrd]
      simp only [ok_bind, pure_eq]
      rw [leNat_toLE 4 o.method (by omega)])]
  rw [attrLoop_der mem (p ++ der 0x81 o.uuid ++ der 0x82 mv) o.wrapped _ 0x83 _ true _ _ { k with identifier := o.uuid, method := o.method, wrapped := o.wrapped } m3 _
    (by simp only [List.length_append]; omega) (by rw [h.wrapped]; omega) (by rw [h.wrapped]; omega) (by simp [l1, l2, lp, h.wrapped]; omega) (by
      unfold innerAttr
      rw [if_neg (by decide), if_neg (by decide), if_pos (by decide), require_true h.wrapped, ok_bind, m3, rdN_der _ _ _ _ (by rw [h.wrapped]; omega) 40 h.wrapped]; rfl)]
  rw [attrLoop_der mem (p ++ der 0x81 o.uuid ++ der 0x82 mv ++ der 0x83 o.wrapped) o.iterations _ 0x84 _ true _ _
    { k with identifier := o.uuid, method := o.method, wrapped := o.wrapped, iterations := beNat o.iterations } m4 _
    (by simp only [List.length_append]; have := h.wrapped; omega) (by omega) (by omega) (by simp only [List.length_append]; omega) (by
      unfold innerAttr
      rw [if_neg (by decide), if_neg (by decide), if_neg (by decide), if_pos (by decide), require_true (by omega), ok_bind, m4, rdN_der _ _ _ _ (by omega) _ rfl]; rfl)]
  rw [attrLoop_der mem (p ++ der 0x81 o.uuid ++ der 0x82 mv ++ der 0x83 o.wrapped ++ der 0x84 o.iterations) o.salt _ 0x85 _ true _ _
    { k with identifier := o.uuid, method := o.method, wrapped := o.wrapped, iterations := beNat o.iterations, salt := o.salt } m5 _
    (by simp only [List.length_append]; omega) (by rw [h.salt]; omega) (by rw [h.salt]; omega) (by simp only [List.length_append]; have := h.salt; omega) (by
      unfold innerAttr
      rw [if_neg (by decide), if_neg (by decide), if_neg (by decide), if_neg (by decide), if_pos (by decide), require_true h.salt, ok_bind, m5,
        rdN_der _ _ _ _ (by rw [h.salt]; omega) 16 h.salt]; rfl)]
  exact attrLoop_end _ _ _ _ _ _ (by simp only [List.length_append]; have := h.salt; omega)

theorem readKek_encode (o : KekFields) (h : o.Wf) (rest : Bytes) :
    readKek (o.encode ++ rest) o.encode.length =
      ok { hmac := o.hmac, identifier := o.uuid, method := o.method, wrapped := o.wrapped, iterations := beNat o.iterations, salt := o.salt } := by
  have hit := h.iterations
  have hi := readInner_encode o h { hmac := o.hmac } rest
  simp only at hi
  unfold KekFields.encode
  generalize hinner : der 0xa3 (der 0x81 o.uuid ++ (der 0x82 (toLE 4 o.method ++ o.flags) ++ (der 0x83 o.wrapped ++ (der 0x84 o.iterations ++ der 0x85 o.salt)))) = inner at *
  obtain ⟨li, hi⟩ := hi
  generalize hvi : (der 0x81 o.uuid ++ (der 0x82 (toLE 4 o.method ++ o.flags) ++ (der 0x83 o.wrapped ++ (der 0x84 o.iterations ++ der 0x85 o.salt)))) = vi at *
  have lvi : vi.length = 90 + o.iterations.length := by
    by_cases hlt : vi.length < 128
    · have := length_der_short (tag := 0xa3) hlt
      rw [hinner] at this
      omega
    · exfalso
      have : inner.length ≥ vi.length := by rw [← hinner]; simp [der]; omega
      omega
  have l1 : (der 0x81 o.hmac).length = 34 := by rw [length_der_short (by rw [h.hmac]; omega), h.hmac]
  have l2 : (der 0x82 o.hmacSalt).length = 10 := by rw [length_der_short (by rw [h.hmacSalt]; omega), h.hmacSalt]
  generalize hv : der 0x81 o.hmac ++ (der 0x82 o.hmacSalt ++ inner) = v at *
  have lv : v.length = 136 + o.iterations.length := by
    rw [← hv]
    simp only [List.length_append, l1, l2, li]
    omega
  have ho : der 0x30 v = [0x30, 0x81, UInt8.ofNat v.length] ++ v := by
    unfold der derLength
    rw [if_neg (by omega), if_pos (by omega)]
    rfl
  rw [ho]
  have hn : (UInt8.ofNat v.length).toNat = v.length := by simp; omega
  unfold readKek
  rw [require_true (by simp; omega), ok_bind]
  have h0 : rd ([0x30, 0x81, UInt8.ofNat v.length] ++ v ++ rest) 0 = ok 0x30 := rfl
  have h1 : readSize ([0x30, 0x81, UInt8.ofNat v.length] ++ v ++ rest) false 1 = ok (v.length, 3) := by
    unfold readSize
    rw [show rd ([0x30, 0x81, UInt8.ofNat v.length] ++ v ++ rest) 1 = ok 0x81 from rfl, ok_bind, if_neg (by decide), if_pos (by decide),
      show rd ([0x30, 0x81, UInt8.ofNat v.length] ++ v ++ rest) (1 + 1) = ok (UInt8.ofNat v.length) from rfl, ok_bind, hn]
    rfl
  rw [h0, ok_bind, h1]
  simp only [ok_bind]
  rw [require_true (by decide), ok_bind, require_true (by simp), ok_bind]
  generalize hp : ([0x30, 0x81, UInt8.ofNat v.length] : Bytes) = p
  have lp : p.length = 3 := by rw [← hp]; rfl
  have lpv : (p ++ v).length = 139 + o.iterations.length := by rw [List.length_append, lp, lv]; omega
  rw [lpv]
  have m1 : p ++ v ++ rest = p ++ (der 0x81 o.hmac ++ (der 0x82 o.hmacSalt ++ (inner ++ rest))) := by rw [← hv]; simp
  have m2 : p ++ v ++ rest = (p ++ der 0x81 o.hmac) ++ (der 0x82 o.hmacSalt ++ (inner ++ rest)) := by rw [← hv]; simp
  have m3 : p ++ v ++ rest = (p ++ der 0x81 o.hmac ++ der 0x82 o.hmacSalt) ++ (der 0xa3 vi ++ rest) := by rw [← hv, hinner]; simp
  generalize p ++ v ++ rest = mem at *
  rw [attrLoop_der mem p o.hmac _ 0x81 _ false _ _ ({ hmac := o.hmac }, none) m1 3 lp.symm (by rw [h.hmac]; omega) (by rw [h.hmac]; omega)
    (by rw [h.hmac]; omega) (by
      unfold outerAttr
      rw [if_pos (by decide), require_true h.hmac, ok_bind, m1, rdN_der p _ _ _ (by rw [h.hmac]; omega) 32 h.hmac]; rfl)]
  rw [attrLoop_der mem (p ++ der 0x81 o.hmac) o.hmacSalt _ 0x82 _ false _ _ ({ hmac := o.hmac }, none) m2 _
    (by simp only [List.length_append]; have := h.hmac; omega) (by rw [h.hmacSalt]; omega) (by rw [h.hmacSalt]; omega) (by simp only [List.length_append]; have := h.hmacSalt; omega) (by
      unfold outerAttr
      rw [if_neg (by decide), if_pos (by decide), require_true h.hmacSalt]; rfl)]
  rw [attrLoop_der mem (p ++ der 0x81 o.hmac ++ der 0x82 o.hmacSalt) vi _ 0xa3 _ false _ _ ({ hmac := o.hmac }, some (47, inner.length)) m3 _
    (by simp only [List.length_append]; have := h.hmacSalt; omega) (by omega) (by omega) (by simp [l1, l2, lp]; omega) (by
      unfold outerAttr
      rw [if_neg (by decide), if_neg (by decide), if_pos (by decide), require_true (by omega), ok_bind]
      simp only [List.length_append, l1, l2, lp, pure_eq]
      rw [show (vi.length + 2) % 65536 = inner.length by omega])]
  rw [attrLoop_end _ _ _ _ _ _ (by simp only [List.length_append]; omega)]
  simp only [ok_bind]
  have hd : mem.drop 47 = inner ++ rest := by
    rw [m3, hinner]
    exact List.drop_left' (by simp [l1, l2, lp])
  rw [hd, hi]

/-! ## key bags -/

/-- an entry as the reader keeps it -/
def ofBag (e : BagEntry) : Entry := { identifier := e.identifier, type := e.type, data := e.data }

theorem length_encode {e : BagEntry} (h : e.Wf) : e.encode.length = 24 + e.data.length + e.pad.length := by
  simp [BagEntry.encode, h.identifier, h.reserved]
  omega

theorem readEntry_encode (pre rest : Bytes) (e : BagEntry) (h : e.Wf) (hl : (pre ++ (e.encode ++ rest)).length ≤ 2 ^ 63 - 1) :
    readEntry (pre ++ (e.encode ++ rest)) pre.length = ok (ofBag e) := by
  have hlen := length_encode h
  have hd := h.data
  have hty := h.type
  simp only [List.length_append] at hl
  have m1 : pre ++ (e.encode ++ rest) = pre ++ (e.identifier ++ (toLE 2 e.type ++ (toLE 2 e.data.length ++ (e.reserved ++ (e.data ++ (e.pad ++ rest)))))) := by
    simp [BagEntry.encode]
  have m2 : pre ++ (e.encode ++ rest) = (pre ++ e.identifier) ++ (toLE 2 e.type ++ (toLE 2 e.data.length ++ (e.reserved ++ (e.data ++ (e.pad ++ rest))))) := by
    simp [BagEntry.encode]
  have m3 : pre ++ (e.encode ++ rest) = (pre ++ e.identifier ++ toLE 2 e.type) ++ (toLE 2 e.data.length ++ (e.reserved ++ (e.data ++ (e.pad ++ rest)))) := by
    simp [BagEntry.encode]
  have m4 : pre ++ (e.encode ++ rest) = (pre ++ e.identifier ++ toLE 2 e.type ++ toLE 2 e.data.length ++ e.reserved) ++ (e.data ++ (e.pad ++ rest)) := by
    simp [BagEntry.encode]
  have ll : (pre ++ (e.encode ++ rest)).length = pre.length + (24 + e.data.length + e.pad.length + rest.length) := by
    simp only [List.length_append, hlen]
  generalize pre ++ (e.encode ++ rest) = d at *
  unfold readEntry
  rw [if_neg (by omega), require_true (by omega), ok_bind]
  have r1 : rdN d pre.length 16 = ok e.identifier := by rw [m1]; exact rdN_mid' _ _ _ _ _ rfl h.identifier
  have r2 : rdLE d (pre.length + 16) 2 = ok e.type := by rw [m2]; exact rdLE_mid _ _ _ _ _ (by simp [h.identifier]) (by omega)
  have r3 : rdLE d (pre.length + 18) 2 = ok e.data.length := by rw [m3]; exact rdLE_mid _ _ _ _ _ (by simp [h.identifier]) (by omega)
  have r4 : rdN d (pre.length + 24) e.data.length = ok e.data := by
    rw [m4]; exact rdN_mid' _ _ _ _ _ (by simp [h.identifier, h.reserved]) rfl
  rw [r1, ok_bind, r2, ok_bind, r3, ok_bind, require_true (by omega), ok_bind, r4]
  rfl

theorem readEntries_encode (es : List BagEntry) (h : ∀ e ∈ es, e.Wf) (pre rest : Bytes) (hpre : pre.length % 16 = 0)
    (hl : (pre ++ ((es.map BagEntry.encode).flatten ++ rest)).length ≤ 2 ^ 63 - 1) :
    readEntries (pre ++ ((es.map BagEntry.encode).flatten ++ rest)) es.length pre.length = ok (es.map ofBag) := by
  induction es generalizing pre with
  | nil => rfl
  | cons e es ih =>
    have he := h e (by simp)
    have hlen := length_encode he
    have hpad := he.pad
    rw [List.map_cons, List.flatten_cons, List.append_assoc] at hl ⊢
    rw [List.length_cons, readEntries, readEntry_encode pre _ e he hl, ok_bind]
    have := ih (fun x hx => h x (by simp [hx])) (pre ++ e.encode) (by rw [List.length_append]; omega) (by rw [List.append_assoc]; exact hl)
    rw [List.append_assoc, List.length_append, hlen] at this
    have lt : (pre ++ (e.encode ++ ((es.map BagEntry.encode).flatten ++ rest))).length ≥ pre.length + (24 + e.data.length + e.pad.length) := by
      simp only [List.length_append, hlen]
      omega
    generalize pre ++ (e.encode ++ ((es.map BagEntry.encode).flatten ++ rest)) = d at *
    show (if (pre.length + (24 + e.data.length)) % 16 ≠ 0 then _ else _) = _
    split
    · show (do require _; _ : Res _) = _
      have hp : 16 - (pre.length + (24 + e.data.length)) % 16 = e.pad.length := by omega
      simp only [ofBag, hp]
      rw [require_true (by omega), ok_bind, show pre.length + (24 + e.data.length) + e.pad.length = pre.length + (24 + e.data.length + e.pad.length) by omega, this]
      rfl
    · have hp : e.pad.length = 0 := by omega
      simp only [ofBag]
      rw [show pre.length + (24 + e.data.length) = pre.length + (24 + e.data.length + e.pad.length) by omega, this]
      rfl

theorem readEntry_inv {d : Bytes} {off : Nat} {e : Entry} (h : readEntry d off = ok e) :
    e.identifier.length = 16 ∧ e.type < 65536 ∧ 1 ≤ e.data.length ∧ e.data.length < 65536 ∧ off + (24 + e.data.length) ≤ d.length ∧
    ∃ reserved, reserved.length = 4 ∧ d.drop off = e.identifier ++ (toLE 2 e.type ++ (toLE 2 e.data.length ++ (reserved ++ (e.data ++ d.drop (off + (24 + e.data.length)))))) := by
  unfold readEntry at h
  split at h
  · cases h
  · obtain ⟨_, g, h⟩ := bind_eq_ok.1 h
    obtain ⟨id, h1, h⟩ := bind_eq_ok.1 h
    obtain ⟨ty, h2, h⟩ := bind_eq_ok.1 h
    obtain ⟨sz, h3, h⟩ := bind_eq_ok.1 h
    obtain ⟨_, g2, h⟩ := bind_eq_ok.1 h
    obtain ⟨v, h4, h⟩ := bind_eq_ok.1 h
    simp only [require_eq_ok] at g g2
    cases h
    obtain ⟨b1, e1⟩ := rdN_inv h1
    obtain ⟨b2, e2⟩ := rdLE_inv h2
    obtain ⟨b3, e3⟩ := rdLE_inv h3
    obtain ⟨b4, e4⟩ := rdN_inv h4
    have lv : v.length = sz := by rw [← e4, List.length_take, List.length_drop]; omega
    have t2 : ty < 65536 := by
      have := rdLE_lt h2
      omega
    have t3 : sz < 65536 := by
      have := rdLE_lt h3
      omega
    obtain ⟨q, hq⟩ : ∃ q, (d.drop (off + 20)).take 4 = q := ⟨_, rfl⟩
    refine ⟨by rw [← e1, List.length_take, List.length_drop]; omega, t2, by simp only; omega, by simp only; omega, by simp only; omega,
      q, by rw [← hq, List.length_take, List.length_drop]; omega, ?_⟩
    simp only
    have a1 : d.drop off = id ++ d.drop (off + 16) := by rw [← e1]; exact eq_take_drop d off 16
    have a2 : d.drop (off + 16) = toLE 2 ty ++ d.drop (off + 18) := by rw [← e2]; exact eq_take_drop d (off + 16) 2
    have a3 : d.drop (off + 18) = toLE 2 sz ++ d.drop (off + 20) := by rw [← e3]; exact eq_take_drop d (off + 18) 2
    have a4 : d.drop (off + 20) = q ++ d.drop (off + 24) := by rw [← hq]; exact eq_take_drop d (off + 20) 4
    have a5 : d.drop (off + 24) = v ++ d.drop (off + (24 + sz)) := by rw [← e4, ← Nat.add_assoc]; exact eq_take_drop d (off + 24) sz
    rw [lv, a1, a2, a3, a4, a5]

theorem readEntries_inv {d : Bytes} {n off : Nat} {es : List Entry} (h : readEntries d n off = ok es) (h16 : off % 16 = 0) :
    ∃ bs : List BagEntry, (∀ b ∈ bs, b.Wf) ∧ bs.length = n ∧ es = bs.map ofBag ∧ ∃ rest, d.drop off = (bs.map BagEntry.encode).flatten ++ rest := by
  induction n generalizing off es with
  | zero =>
    cases h
    exact ⟨[], by simp, rfl, rfl, d.drop off, by simp⟩
  | succ n ih =>
    rw [readEntries] at h
    obtain ⟨e, he, h⟩ := bind_eq_ok.1 h
    obtain ⟨g1, g2, g3, g4, g5, r, hr, hd⟩ := readEntry_inv he
    simp only at h
    have key : ∃ pad : Bytes, pad.length < 16 ∧ (24 + e.data.length + pad.length) % 16 = 0 ∧
        d.drop (off + (24 + e.data.length)) = pad ++ d.drop (off + (24 + e.data.length + pad.length)) ∧
        ∃ es', readEntries d n (off + (24 + e.data.length + pad.length)) = ok es' ∧ es = e :: es' := by
      split at h
      · obtain ⟨_, g, h⟩ := bind_eq_ok.1 h
        obtain ⟨es', h3, h2⟩ := bind_eq_ok.1 h
        cases h2
        simp only [require_eq_ok] at g
        generalize hp : 16 - (off + (24 + e.data.length)) % 16 = q at *
        have lq : ((d.drop (off + (24 + e.data.length))).take q).length = q := by rw [List.length_take, List.length_drop]; omega
        refine ⟨(d.drop (off + (24 + e.data.length))).take q, by omega, by omega, ?_, es', ?_, rfl⟩
        · rw [lq, ← Nat.add_assoc off (24 + e.data.length) q]
          exact eq_take_drop _ _ _
        · rw [lq, ← Nat.add_assoc off (24 + e.data.length) q]
          exact h3
      · obtain ⟨es', h3, h2⟩ := bind_eq_ok.1 h
        cases h2
        exact ⟨[], by simp, by simp; omega, by simp, es', by simpa using h3, rfl⟩
    obtain ⟨pad, p1, p2, p3, es', h', rfl⟩ := key
    obtain ⟨bs, i1, i2, i3, rest, i4⟩ := ih h' (by omega)
    refine ⟨{ identifier := e.identifier, type := e.type, reserved := r, data := e.data, pad := pad } :: bs, ?_, by simp [i2], by rw [i3]; rfl, rest, ?_⟩
    · intro b hb
      rcases List.mem_cons.1 hb with rfl | hb
      · exact ⟨g1, g2, hr, ⟨g3, g4⟩, p1, p2⟩
      · exact i1 b hb
    · rw [hd, p3, i4]
      simp [BagEntry.encode]

theorem readEntries_safe (d : Bytes) (n off : Nat) (h : off ≤ d.length) : Safe (readEntries d n off) := by
  induction n generalizing off with
  | zero => exact safe_ok _
  | succ n ih =>
    rw [readEntries]
    have hs : Safe (readEntry d off) := by
      unfold readEntry
      rw [if_neg (by omega)]
      refine safe_bind safe_require fun _ g => ?_
      simp only [require_eq_ok] at g
      refine safe_bind (safe_rdN (by omega)) fun _ _ => safe_bind (safe_rdLE (by omega)) fun _ _ => safe_bind (safe_rdLE (by omega)) fun sz _ =>
        safe_bind safe_require fun _ g2 => ?_
      simp only [require_eq_ok] at g2
      exact safe_bind (safe_rdN (by omega)) fun _ _ => safe_ok _
    refine safe_bind hs fun e he => ?_
    have := (readEntry_inv he).2.2.2.2.1
    simp only
    split
    · refine safe_bind safe_require fun _ g => ?_
      simp only [require_eq_ok] at g
      exact safe_bind (ih _ (by omega)) fun _ _ => safe_ok _
    · exact safe_bind (ih _ (by omega)) fun _ _ => safe_ok _

theorem readBag_safe (d : Bytes) : Safe (readBag d) := by
  unfold readBag
  refine safe_bind safe_require fun _ g => ?_
  simp only [require_eq_ok] at g
  exact safe_bind (safe_rdLE (by omega)) fun _ _ => safe_bind (safe_rdLE (by omega)) fun _ _ => safe_bind (safe_rdLE (by omega)) fun _ _ =>
    safe_bind safe_require fun _ _ => safe_bind safe_require fun _ _ => readEntries_safe _ _ _ (by omega)

end KeyBag
end Verif
