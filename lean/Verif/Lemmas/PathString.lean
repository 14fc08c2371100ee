import Verif.Model.PathString
import Verif.Spec.Escape
import Verif.Lemmas.Utf
/-! Lemmas for Model/PathString.lean -/
namespace Verif
open Res Spec
namespace PathString
open Name

/-- libuna reads and writes the UTF-8 of every character -/
structure Lawful (k : Codec) : Prop where
  reads : ∀ c, Scalar c → ∀ r, k.decoder.next (Utf8.encodeChar c ++ r) = some (c, r)
  writes : ∀ c, Scalar c → k.enc c = some (Utf8.encodeChar c)

theorem encodeChar_length (c : Nat) : 1 ≤ (Utf8.encodeChar c).length ∧ (Utf8.encodeChar c).length ≤ 4 := by
  unfold Utf8.encodeChar
  split
  · simp
  · split
    · simp
    · split <;> simp

/-- conversion from and to UTF-8 -/
def utf8Codec : Codec where
  decoder := utf8
  enc := fun c => if Scalar c then some (Utf8.encodeChar c) else none
  short := by
    intro c bs h
    split at h
    · cases h; have := encodeChar_length c; omega
    · cases h

theorem lawful_utf8Codec : Lawful utf8Codec :=
  ⟨fun c h r => utf8_encode c h r, fun c h => by simp [utf8Codec, h]⟩

/-! ## escaping does not leave the buffer -/

theorem hex_length (n v : Nat) : (hex n v).length = n := by
  induction n generalizing v with
  | zero => rfl
  | succ n ih => simp [hex, ih]

theorem fromCharacter_spec (k : Codec) (t : Tool) (size : Nat) (out : Bytes) (c : Nat) (h : out.length + 10 < size) :
    fromCharacter k t size out c = err ∨ ∃ o, fromCharacter k t size out c = ok (out ++ o) ∧ o.length ≤ 10 := by
  unfold fromCharacter sprintf
  split
  · right; rw [if_pos (by simp [hex_length]; omega)]; exact ⟨_, rfl, by simp [hex_length]⟩
  · split
    · right; rw [if_pos (by simp [hex_length]; omega)]; exact ⟨_, rfl, by simp [hex_length]⟩
    · split
      · right; rw [require_true (by omega)]; exact ⟨_, rfl, by simp⟩
      · split
        · exact .inl rfl
        · rename_i bs hbs
          have := k.short hbs
          right; rw [require_true (by omega)]; exact ⟨_, rfl, by omega⟩

theorem fromLoop_spec (k : Codec) (t : Tool) (size : Nat) (out s : Bytes) (h : out.length + 10 * s.length < size) :
    fromLoop k t size out s = err ∨ ∃ o, fromLoop k t size out s = ok o ∧ o.length < size := by
  induction hn : s.length using Nat.strongRecOn generalizing s out with
  | _ n ih =>
    subst hn
    unfold fromLoop
    split
    · exact .inr ⟨out, rfl, by omega⟩
    · rename_i hs
      split
      · exact .inl rfl
      · rename_i c r hr
        have hl := k.decoder.shorter hr
        split
        · exact .inr ⟨out, rfl, by omega⟩
        · rcases fromCharacter_spec k t size out c (by omega) with he | ⟨o, ho, hol⟩
          · rw [he]; exact .inl rfl
          · rw [ho]
            exact ih _ hl (out ++ o) r (by simp; omega) rfl

theorem copyFrom_total (k : Codec) (t : Tool) (s : Bytes) : Safe (copyFrom k t s) := by
  unfold copyFrom
  refine safe_bind safe_require fun _ _ => safe_bind safe_require fun _ _ => ?_
  rcases fromLoop_spec k t (s.length * 10 + 1) [] s (by simp; omega) with h | ⟨o, h, ho⟩
  · rw [h]; exact safe_err
  · rw [h, ok_bind]; unfold terminate; rw [if_pos ho]; exact safe_ok _

theorem safe_hexToInteger (bs : Bytes) (v : Nat) : Safe (hexToInteger bs v) := by
  induction bs generalizing v with
  | nil => exact safe_ok _
  | cons b bs ih =>
    unfold hexToInteger
    split
    · exact ih _
    · split
      · exact ih _
      · exact safe_err

theorem safe_unescapeCharacter (slash : Bool) (s : Bytes) : Safe (unescapeCharacter slash s) := by
  unfold unescapeCharacter
  refine safe_bind safe_require fun u hu => ?_
  rw [require_eq_ok] at hu
  rw [rd_lt (by omega), ok_bind]
  simp only
  split
  · exact safe_ok _
  · split
    · refine safe_bind safe_require fun u hu => ?_
      rw [require_eq_ok] at hu
      rw [rdN_le (by omega), ok_bind]
      exact safe_bind (safe_hexToInteger _ _) fun _ _ => safe_bind safe_require fun _ _ => safe_ok _
    · split
      · refine safe_bind safe_require fun u hu => ?_
        rw [require_eq_ok] at hu
        rw [rdN_le (by omega), ok_bind]
        exact safe_bind (safe_hexToInteger _ _) fun _ _ => safe_bind safe_require fun _ _ => safe_ok _
      · exact safe_err

theorem safe_toCharacter (k : Codec) (slash : Bool) (separator : Nat) (s : Bytes) : Safe (toCharacter k slash separator s) := by
  unfold toCharacter
  split
  · exact safe_err
  · refine safe_bind ?_ fun _ _ => safe_ok _
    unfold escapedOr
    split
    · exact safe_unescapeCharacter _ _
    · exact safe_ok _

theorem safe_toLoop (k : Codec) (slash : Bool) (separator size : Nat) (out s : Bytes) : Safe (toLoop k slash separator size out s) := by
  induction hn : s.length using Nat.strongRecOn generalizing s out with
  | _ n ih =>
    subst hn
    unfold toLoop
    split
    · exact safe_ok _
    · split
      · rename_i h; exact absurd h (safe_toCharacter _ _ _ _)
      · exact safe_err
      · rename_i c r h
        have hl := toCharacter_shorter h
        split
        · exact safe_err
        · split
          · exact ih _ hl _ _ rfl
          · exact safe_err

theorem safe_copyTo (k : Codec) (separator : Nat) (s : Bytes) : Safe (copyTo k separator s) := by
  unfold copyTo
  exact safe_bind safe_require fun _ _ => safe_bind safe_require fun _ _ => safe_bind (safe_toLoop _ _ _ _ _ _) fun _ _ => safe_bind safe_require fun _ _ => safe_ok _

theorem safe_mountCopyTo (k : Codec) (s : Bytes) : Safe (mountCopyTo k s) := by
  unfold mountCopyTo
  refine safe_bind safe_require fun u hu => ?_
  rw [require_eq_ok] at hu
  rw [rd_lt (by omega), ok_bind]
  exact safe_bind safe_require fun _ _ => safe_bind safe_require fun _ _ => safe_bind (safe_toLoop _ _ _ _ _ _) fun _ _ => safe_bind safe_require fun _ _ => safe_ok _

/-! ## what is written -/

/-- what is written for a character -/
def escaped (t : Tool) (c : Nat) : Bytes :=
  if isControl t c then 0x5c :: 0x78 :: hex 2 c
  else if isUnprintable c then 0x5c :: 0x55 :: hex 8 c
  else if c = 0x5c ∨ (t = .bodyfile ∧ c = 0x7c) then [0x5c, UInt8.ofNat c]
  else Utf8.encodeChar c

theorem escaped_length (t : Tool) (c : Nat) : 1 ≤ (escaped t c).length ∧ (escaped t c).length ≤ 10 := by
  unfold escaped
  have := encodeChar_length c
  split
  · simp [hex_length]
  · split
    · simp [hex_length]
    · split
      · simp
      · omega

theorem fromCharacter_escaped {k : Codec} (hk : Lawful k) (t : Tool) (size : Nat) (out : Bytes) (c : Nat) (hc : Scalar c) (h : out.length + 10 < size) :
    fromCharacter k t size out c = ok (out ++ escaped t c) := by
  have hl := encodeChar_length c
  unfold fromCharacter escaped sprintf
  split
  · rw [if_pos (by simp [hex_length]; omega)]
  · split
    · rw [if_pos (by simp [hex_length]; omega)]
    · split
      · rw [require_true (by omega)]; rfl
      · rw [hk.writes c hc]
        simp only
        rw [require_true (by omega)]; rfl

/-- names do not contain an end-of-string character -/
def Name (cs : List Nat) : Prop := ∀ c ∈ cs, Scalar c ∧ c ≠ 0

theorem encode_length (cs : List Nat) : cs.length ≤ (Utf8.encode cs).length := by
  induction cs with
  | nil => simp
  | cons c cs ih =>
    have := encodeChar_length c
    simp [Utf8.encode] at ih ⊢
    omega

theorem fromLoop_escaped {k : Codec} (hk : Lawful k) (t : Tool) (size : Nat) (out : Bytes) (cs : List Nat) (hc : Name cs)
    (h : out.length + 10 * cs.length < size) :
    fromLoop k t size out (Utf8.encode cs) = ok (out ++ cs.flatMap (escaped t)) := by
  induction cs generalizing out with
  | nil => unfold fromLoop; simp [Utf8.encode]
  | cons c cs ih =>
    have hs : Utf8.encode (c :: cs) = Utf8.encodeChar c ++ Utf8.encode cs := by simp [Utf8.encode]
    have hcs := (hc c (List.mem_cons_self ..))
    have hl := encodeChar_length c
    have hel := escaped_length t c
    rw [hs]
    unfold fromLoop
    simp only [List.length_cons] at h
    rw [if_neg (by intro e; have := congrArg List.length e; simp at this; simp [this] at hl)]
    split
    · rename_i hn; rw [hk.reads c hcs.1] at hn; cases hn
    · rename_i c' r hn
      rw [hk.reads c hcs.1] at hn
      cases hn
      rw [if_neg (fun e => hcs.2 e.2), fromCharacter_escaped hk t size out c hcs.1 (by omega)]
      simp only
      rw [ih _ (fun c h => hc c (List.mem_cons_of_mem _ h)) (by simp; omega)]
      simp

theorem copyFrom_escaped {k : Codec} (hk : Lawful k) (t : Tool) (cs : List Nat) (hc : Name cs) (h0 : cs ≠ []) (hl : (Utf8.encode cs).length ≤ (ssizeMax - 1) / 10) :
    copyFrom k t (Utf8.encode cs) = ok (cs.flatMap (escaped t)) := by
  have h1 := encode_length cs
  have h2 : 0 < cs.length := List.length_pos_iff.2 h0
  have hb : ∀ cs : List Nat, (cs.flatMap (escaped t)).length ≤ 10 * cs.length := by
    intro cs
    induction cs with
    | nil => simp
    | cons c cs ih => have := escaped_length t c; simp only [List.flatMap_cons, List.length_append, List.length_cons]; omega
  have hb' := hb cs
  unfold copyFrom
  rw [require_true (by unfold ssizeMax at *; omega), ok_bind, require_true (by omega), ok_bind, fromLoop_escaped hk t _ [] cs hc (by simp; omega), ok_bind]
  unfold terminate
  rw [if_pos (by simp only [List.nil_append]; omega)]
  rfl

/-! ## hexadecimal digits -/

theorem digit_hexDigit (v : Nat) (h : v < 16) : Escape.digit (hexDigit v) = some v := by
  have : ∀ v : Fin 16, Escape.digit (hexDigit v.1) = some v.1 := by decide +kernel
  exact this ⟨v, h⟩

theorem hexNumber_append (v : Nat) (a b : Bytes) : Escape.hexNumber v (a ++ b) = (Escape.hexNumber v a).bind fun v => Escape.hexNumber v b := by
  induction a generalizing v with
  | nil => rfl
  | cons x a ih =>
    simp only [List.cons_append, Escape.hexNumber]
    cases Escape.digit x with
    | none => rfl
    | some d => exact ih _

theorem hexNumber_hex (n v : Nat) (h : v < 16 ^ n) : Escape.hexNumber 0 (hex n v) = some v := by
  induction n generalizing v with
  | zero => simp at h; subst h; rfl
  | succ n ih =>
    rw [hex, hexNumber_append, ih (v / 16) (by rw [Nat.pow_succ] at h; omega)]
    simp only [Option.bind_some, Escape.hexNumber, digit_hexDigit (v % 16) (Nat.mod_lt _ (by decide))]
    congr 1; omega

theorem hexToInteger_append (v : Nat) (a b : Bytes) : hexToInteger (a ++ b) v = (hexToInteger a v >>= fun v => hexToInteger b v) := by
  induction a generalizing v with
  | nil => rfl
  | cons x a ih =>
    simp only [List.cons_append, hexToInteger]
    split
    · exact ih _
    · split
      · exact ih _
      · rfl

theorem hexToInteger_digit (v w : Nat) (h : v < 16) : hexToInteger [hexDigit v] w = ok (w * 16 % 2 ^ 32 + v) := by
  have : ∀ v : Fin 16, (0x30 ≤ (hexDigit v.1).toNat ∧ (hexDigit v.1).toNat ≤ 0x39 ∧ (hexDigit v.1).toNat - 0x30 = v.1) ∨
      (¬ (0x30 ≤ (hexDigit v.1).toNat ∧ (hexDigit v.1).toNat ≤ 0x39) ∧ 0x61 ≤ (hexDigit v.1).toNat ∧ (hexDigit v.1).toNat ≤ 0x66 ∧
        (hexDigit v.1).toNat - 0x61 + 10 = v.1) := by decide +kernel
  rcases this ⟨v, h⟩ with ⟨h1, h2, h3⟩ | ⟨h1, h2, h3, h4⟩
  · simp only [hexToInteger]; rw [if_pos ⟨h1, h2⟩, h3]
  · simp only [hexToInteger]; rw [if_neg h1, if_pos ⟨h2, h3⟩, h4]

theorem hexToInteger_hex (n v : Nat) (hn : n ≤ 8) (h : v < 16 ^ n) : hexToInteger (hex n v) 0 = ok v := by
  induction n generalizing v with
  | zero => simp at h; subst h; rfl
  | succ n ih =>
    have h16 : v / 16 < 16 ^ n := by rw [Nat.pow_succ] at h; omega
    have hle : 16 ^ n ≤ 16 ^ 7 := Nat.pow_le_pow_right (by decide) (by omega)
    rw [hex, hexToInteger_append, ih (v / 16) (by omega) h16, ok_bind, hexToInteger_digit _ _ (Nat.mod_lt _ (by decide)), Nat.mod_eq_of_lt (by omega)]
    congr 1; omega

/-! ## reading what was written -/

theorem isUnprintable_lt {c : Nat} (h : Scalar c) : c < 16 ^ 8 := by unfold Scalar at h; omega

theorem isControl_lt {t : Tool} {c : Nat} (h : isControl t c = true) : c < 0xa0 := by
  unfold isControl at h
  simp at h
  omega

theorem encodeChar_ascii {c : Nat} (h : c < 0x80) : Utf8.encodeChar c = [UInt8.ofNat c] := by
  unfold Utf8.encodeChar; rw [if_pos h]

theorem encodeChar_high {c : Nat} (h : 0x80 ≤ c) (hs : Scalar c) : ∀ b ∈ Utf8.encodeChar c, 0x80 ≤ b.toNat := by
  unfold Scalar at hs
  unfold Utf8.encodeChar
  rw [if_neg (by omega)]
  split
  · intro b hb; simp only [List.mem_cons, List.not_mem_nil, or_false] at hb; rcases hb with rfl | rfl <;> simp only [UInt8.toNat_ofNat'] <;> omega
  · split
    · intro b hb; simp only [List.mem_cons, List.not_mem_nil, or_false] at hb; rcases hb with rfl | rfl | rfl <;> simp only [UInt8.toNat_ofNat'] <;> omega
    · intro b hb; simp only [List.mem_cons, List.not_mem_nil, or_false] at hb; rcases hb with rfl | rfl | rfl | rfl <;> simp only [UInt8.toNat_ofNat'] <;> omega

theorem unescape_cons_plain {b : UInt8} (h : b ≠ 0x5c) (r : Bytes) : Escape.unescape (b :: r) = (Escape.unescape r).map (b :: ·) := by
  conv => lhs; unfold Escape.unescape
  rw [if_pos h]

theorem unescape_plain (bs : Bytes) (h : ∀ b ∈ bs, b ≠ 0x5c) (r : Bytes) : Escape.unescape (bs ++ r) = (Escape.unescape r).map (bs ++ ·) := by
  induction bs with
  | nil => simp
  | cons b bs ih =>
    rw [List.cons_append, unescape_cons_plain (h b (List.mem_cons_self ..)), ih (fun b hb => h b (List.mem_cons_of_mem _ hb))]
    cases Escape.unescape r <;> rfl

theorem hex2 (c : Nat) : hex 2 c = [hexDigit (c / 16 % 16), hexDigit (c % 16)] := by simp [hex]

theorem hex8 (c : Nat) : ∃ d1 d2 d3 d4 d5 d6 d7 d8, hex 8 c = [d1, d2, d3, d4, d5, d6, d7, d8] := by
  simp [hex]

theorem toNat_ne {b : UInt8} {n : Nat} (hn : n < 256) (h : b.toNat ≠ n) : b ≠ UInt8.ofNat n := by
  intro e; subst e; simp at h; omega

theorem encodeChar_ne {c : Nat} (hc : Scalar c) (a : UInt8) (ha : a.toNat < 0x80) (h : c ≠ a.toNat) : ∀ b ∈ Utf8.encodeChar c, b ≠ a := by
  intro b hb e
  subst e
  by_cases h8 : c < 0x80
  · rw [encodeChar_ascii h8] at hb
    simp at hb
    subst hb
    simp at h
    omega
  · have := encodeChar_high (by omega) hc _ hb
    omega

theorem unescape_escaped (t : Tool) (c : Nat) (hc : Scalar c) (r : Bytes) :
    Escape.unescape (escaped t c ++ r) = (Escape.unescape r).map (Utf8.encodeChar c ++ ·) := by
  unfold escaped
  split
  · rename_i h
    have hlt := isControl_lt h
    have hn := hexNumber_hex 2 c (by omega)
    rw [hex2] at hn ⊢
    simp only [List.cons_append, List.nil_append]
    conv => lhs; unfold Escape.unescape
    rw [if_neg (by decide)]
    simp only
    rw [if_neg (by decide), if_pos trivial, hn]
    rfl
  · split
    · have hn := hexNumber_hex 8 c (isUnprintable_lt hc)
      obtain ⟨d1, d2, d3, d4, d5, d6, d7, d8, e⟩ := hex8 c
      rw [e] at hn ⊢
      simp only [List.cons_append, List.nil_append]
      conv => lhs; unfold Escape.unescape
      rw [if_neg (by decide)]
      simp only
      rw [if_neg (by decide), if_neg (by decide), if_pos trivial, hn]
      rfl
    · split
      · rename_i h
        have hk : UInt8.ofNat c = 0x5c ∨ UInt8.ofNat c = 0x7c := by rcases h with rfl | ⟨_, rfl⟩ <;> simp
        have he : Utf8.encodeChar c = [UInt8.ofNat c] := encodeChar_ascii (by rcases h with rfl | ⟨_, rfl⟩ <;> decide)
        simp only [List.cons_append, List.nil_append]
        conv => lhs; unfold Escape.unescape
        rw [if_neg (by decide)]
        simp only
        rw [if_pos hk, he]
        rfl
      · rename_i h
        refine unescape_plain _ (encodeChar_ne hc 0x5c (by decide) ?_) r
        intro e
        exact h (.inl e)

theorem unescape_flatMap (t : Tool) (cs : List Nat) (hc : Name cs) (r : Bytes) :
    Escape.unescape (cs.flatMap (escaped t) ++ r) = (Escape.unescape r).map (Utf8.encode cs ++ ·) := by
  induction cs with
  | nil => simp [Utf8.encode]
  | cons c cs ih =>
    rw [List.flatMap_cons, List.append_assoc, unescape_escaped t c (hc c (List.mem_cons_self ..)).1, ih (fun c h => hc c (List.mem_cons_of_mem _ h))]
    cases Escape.unescape r <;> simp [Utf8.encode]

/-! ## the tools read what they wrote -/

theorem toCharacter_escaped {k : Codec} (hk : Lawful k) (t : Tool) (slash : Bool) (c : Nat) (hc : Scalar c) (h0 : c ≠ 0) (r : Bytes)
    (ht : t ≠ .bodyfile) (hs : t = .mount → slash = true) : toCharacter k slash 0x2f (escaped t c ++ r) = ok (c, r) := by
  have hfin : (if c = 0x2f then 0x2f else c) = c := by split <;> simp_all
  have h5c : ∀ r, k.decoder.next (0x5c :: r) = some (0x5c, r) := fun r => hk.reads 0x5c (by decide) r
  unfold escaped
  split
  · rename_i h
    have hlt := isControl_lt h
    have hn := hexToInteger_hex 2 c (by omega) (by omega)
    rw [hex2] at hn ⊢
    unfold toCharacter escapedOr
    simp only [List.cons_append, List.nil_append, h5c]
    rw [if_pos trivial]
    unfold unescapeCharacter
    rw [require_true (by simp), ok_bind, rd_lt (by simp), ok_bind]
    simp only [List.getElem_cons_zero, List.drop_succ_cons, List.drop_zero]
    rw [if_neg (by decide), if_pos (by decide), require_true (by simp), ok_bind, rdN_le (by simp), ok_bind]
    simp only [List.drop_zero, List.take_succ_cons, List.take_zero, hn, ok_bind]
    rw [require_true (by
      unfold isControl at h
      simp at h
      rcases h with (h | ⟨h, h'⟩) | h
      · exact .inl ⟨by omega, h⟩
      · exact .inr (.inl ⟨hs h, h'⟩)
      · exact .inr (.inr h)), ok_bind]
    simp only [pure_eq, ok_bind, hfin]
  · split
    · rename_i h
      have hn := hexToInteger_hex 8 c (by omega) (isUnprintable_lt hc)
      obtain ⟨d1, d2, d3, d4, d5, d6, d7, d8, e⟩ := hex8 c
      rw [e] at hn ⊢
      unfold toCharacter escapedOr
      simp only [List.cons_append, List.nil_append, h5c]
      rw [if_pos trivial]
      unfold unescapeCharacter
      rw [require_true (by simp), ok_bind, rd_lt (by simp), ok_bind]
      simp only [List.getElem_cons_zero, List.drop_succ_cons, List.drop_zero]
      rw [if_neg (by decide), if_neg (by decide), if_pos (by decide), require_true (by simp), ok_bind, rdN_le (by simp), ok_bind]
      simp only [List.drop_zero, List.take_succ_cons, List.take_zero, hn, ok_bind]
      rw [require_true h, ok_bind]
      simp only [pure_eq, ok_bind, hfin]
    · split
      · rename_i h
        have hc5 : c = 0x5c := by rcases h with h | h; exact h; exact absurd h.1 ht
        subst hc5
        unfold toCharacter escapedOr
        simp only [List.cons_append, List.nil_append, h5c]
        rw [if_pos trivial]
        unfold unescapeCharacter
        rw [require_true (by simp), ok_bind, rd_lt (by simp), ok_bind]
        simp only [List.getElem_cons_zero]
        rw [if_pos (by decide)]
        simp only [pure_eq, ok_bind]
        rfl
      · rename_i h
        unfold toCharacter escapedOr
        rw [hk.reads c hc]
        simp only
        rw [if_neg (fun e => h (.inl e))]
        simp only [pure_eq, ok_bind, hfin]

theorem toLoop_step {k : Codec} (slash : Bool) (size : Nat) (out s r bs : Bytes) (c : Nat) (h0 : s ≠ []) (h : toCharacter k slash 0x2f s = ok (c, r))
    (he : k.enc c = some bs) (hl : out.length + bs.length ≤ size) : toLoop k slash 0x2f size out s = toLoop k slash 0x2f size (out ++ bs) r := by
  conv => lhs; unfold toLoop
  rw [if_neg h0]
  split
  · rename_i e; rw [h] at e; cases e
  · rename_i e; rw [h] at e; cases e
  · rename_i c' r' e
    rw [h] at e
    cases e
    rw [he]
    simp only
    rw [if_pos hl]

theorem escaped_ne_nil (t : Tool) (c : Nat) (r : Bytes) : escaped t c ++ r ≠ [] := by
  intro e
  have h1 := congrArg List.length e
  have h2 := escaped_length t c
  simp only [List.length_append, List.length_nil] at h1
  omega

theorem toLoop_escaped {k : Codec} (hk : Lawful k) (t : Tool) (slash : Bool) (ht : t ≠ .bodyfile) (hs : t = .mount → slash = true) (size : Nat) (out : Bytes)
    (cs : List Nat) (hc : Name cs) (r : Bytes) (hl : out.length + (Utf8.encode cs).length ≤ size) :
    toLoop k slash 0x2f size out (cs.flatMap (escaped t) ++ r) = toLoop k slash 0x2f size (out ++ Utf8.encode cs) r := by
  induction cs generalizing out with
  | nil => simp [Utf8.encode]
  | cons c cs ih =>
    have hcs := hc c (List.mem_cons_self ..)
    have he : Utf8.encode (c :: cs) = Utf8.encodeChar c ++ Utf8.encode cs := by simp [Utf8.encode]
    rw [he] at hl ⊢
    simp only [List.length_append] at hl
    rw [List.flatMap_cons, List.append_assoc,
      toLoop_step slash size out _ _ _ c (escaped_ne_nil t c _) (toCharacter_escaped hk t slash c hcs.1 hcs.2 _ ht hs) (hk.writes c hcs.1) (by omega),
      ih _ (fun c h => hc c (List.mem_cons_of_mem _ h)) (by simp; omega)]
    simp

/-- an escape is not shorter than what it stands for -/
theorem encodeChar_le_escaped (t : Tool) (c : Nat) : (Utf8.encodeChar c).length ≤ (escaped t c).length := by
  have := encodeChar_length c
  unfold escaped
  split
  · simp [hex_length]; omega
  · split
    · simp [hex_length]; omega
    · split
      · rename_i h
        rw [encodeChar_ascii (by rcases h with rfl | ⟨_, rfl⟩ <;> decide)]; simp
      · exact Nat.le_refl _

theorem encode_le_escaped (t : Tool) (cs : List Nat) : (Utf8.encode cs).length ≤ (cs.flatMap (escaped t)).length := by
  induction cs with
  | nil => simp [Utf8.encode]
  | cons c cs ih =>
    have := encodeChar_le_escaped t c
    simp only [Utf8.encode, List.flatMap_cons, List.length_append] at *
    omega

theorem toLoop_nil (k : Codec) (slash : Bool) (size : Nat) (out : Bytes) : toLoop k slash 0x2f size out [] = ok out := by
  unfold toLoop; simp

theorem copyTo_escaped {k : Codec} (hk : Lawful k) (cs : List Nat) (hc : Name cs) (h0 : cs ≠ []) (hl : (Utf8.encode cs).length ≤ (ssizeMax - 1) / 10) :
    copyTo k 0x2f (cs.flatMap (escaped .info)) = ok (Utf8.encode cs) := by
  have hb : ∀ cs : List Nat, cs.length ≤ (cs.flatMap (escaped .info)).length ∧ (cs.flatMap (escaped .info)).length ≤ 10 * cs.length := by
    intro cs
    induction cs with
    | nil => simp
    | cons c cs ih => have := escaped_length .info c; simp only [List.flatMap_cons, List.length_append, List.length_cons]; omega
  have h1 := hb cs
  have h2 := encode_length cs
  have h3 := encode_le_escaped .info cs
  have h4 : 0 < cs.length := List.length_pos_iff.2 h0
  have := toLoop_escaped hk .info false (by decide) (by decide) ((cs.flatMap (escaped .info)).length + 1) [] cs hc [] (by simp only [List.length_nil]; omega)
  rw [List.append_nil, List.nil_append, toLoop_nil] at this
  unfold copyTo
  rw [require_true (by unfold ssizeMax at *; omega), ok_bind, require_true (by unfold ssizeMax at *; omega), ok_bind, this, ok_bind, require_true (by omega)]
  rfl

/-! ## printed characters -/

theorem encode_ascii (bs : Bytes) (h : ∀ b ∈ bs, b.toNat < 0x80) : Utf8.encode (bs.map UInt8.toNat) = bs := by
  induction bs with
  | nil => rfl
  | cons b bs ih =>
    have hb := h b (List.mem_cons_self ..)
    have := ih (fun b hb => h b (List.mem_cons_of_mem _ hb))
    simp only [Utf8.encode, List.map_cons, List.flatMap_cons] at this ⊢
    rw [this, encodeChar_ascii hb]
    simp

theorem mem_hex {n v : Nat} {b : UInt8} (h : b ∈ hex n v) : (0x30 ≤ b.toNat ∧ b.toNat ≤ 0x39) ∨ (0x61 ≤ b.toNat ∧ b.toNat ≤ 0x66) := by
  induction n generalizing v with
  | zero => cases h
  | succ n ih =>
    rw [hex, List.mem_append] at h
    rcases h with h | h
    · exact ih h
    · simp only [List.mem_singleton] at h
      subst h
      have : ∀ v : Fin 16, (0x30 ≤ (hexDigit v.1).toNat ∧ (hexDigit v.1).toNat ≤ 0x39) ∨ (0x61 ≤ (hexDigit v.1).toNat ∧ (hexDigit v.1).toNat ≤ 0x66) := by decide +kernel
      exact this ⟨v % 16, Nat.mod_lt _ (by decide)⟩

theorem printable_ascii {c : Nat} (h1 : 0x20 ≤ c) (h2 : c < 0x7f) : Escape.Printable c := by
  unfold Escape.Printable Scalar Escape.Control Escape.Separator Escape.Noncharacter
  omega

/-- an escape is printable ASCII without slash, bar or end-of-string character behind the escaped character -/
theorem escape_ascii {x : UInt8} (hx : x = 0x78 ∨ x = 0x55) {n v : Nat} {b : UInt8} (h : b ∈ 0x5c :: x :: hex n v) :
    (0x30 ≤ b.toNat ∧ b.toNat ≤ 0x39) ∨ (0x61 ≤ b.toNat ∧ b.toNat ≤ 0x66) ∨ b = 0x5c ∨ b = 0x78 ∨ b = 0x55 := by
  simp only [List.mem_cons] at h
  rcases h with rfl | rfl | h
  · exact .inr (.inr (.inl rfl))
  · rcases hx with rfl | rfl
    · exact .inr (.inr (.inr (.inl rfl)))
    · exact .inr (.inr (.inr (.inr rfl)))
  · rcases mem_hex h with h | h
    · exact .inl h
    · exact .inr (.inl h)

theorem escaped_printable (t : Tool) (c : Nat) (hc : Scalar c) (hx : ¬ (0xfde0 ≤ c ∧ c ≤ 0xfdef)) :
    ∃ ps, escaped t c = Utf8.encode ps ∧ ∀ p ∈ ps, Escape.Printable p := by
  have hasc : ∀ {x : UInt8} (_ : x = 0x78 ∨ x = 0x55) (n : Nat), ∃ ps, 0x5c :: x :: hex n c = Utf8.encode ps ∧ ∀ p ∈ ps, Escape.Printable p := by
    intro x hx n
    have hr : ∀ b ∈ 0x5c :: x :: hex n c, 0x20 ≤ b.toNat ∧ b.toNat < 0x7f := by
      intro b hb
      rcases escape_ascii hx hb with h | h | rfl | rfl | rfl
      · omega
      · omega
      · decide
      · decide
      · decide
    refine ⟨(0x5c :: x :: hex n c).map UInt8.toNat, (encode_ascii _ (fun b hb => ?_)).symm, ?_⟩
    · have := hr b hb; omega
    · intro p hp
      obtain ⟨b, hb, rfl⟩ := List.mem_map.1 hp
      exact printable_ascii (hr b hb).1 (hr b hb).2
  unfold escaped
  split
  · exact hasc (.inl rfl) 2
  · split
    · exact hasc (.inr rfl) 8
    · split
      · rename_i h
        refine ⟨[0x5c, c], ?_, ?_⟩
        · have : c < 0x80 := by rcases h with rfl | ⟨_, rfl⟩ <;> decide
          simp only [Utf8.encode, List.flatMap_cons, List.flatMap_nil, encodeChar_ascii this]
          rfl
        · intro p hp
          simp only [List.mem_cons, List.not_mem_nil, or_false] at hp
          rcases hp with rfl | rfl
          · decide
          · rcases h with rfl | ⟨_, rfl⟩ <;> decide
      · rename_i h1 h2 _
        refine ⟨[c], by simp [Utf8.encode], ?_⟩
        intro p hp
        simp only [List.mem_cons, List.not_mem_nil, or_false] at hp
        subst hp
        unfold isControl at h1
        unfold isUnprintable at h2
        simp at h1 h2
        refine ⟨hc, ?_, ?_, ?_⟩
        · unfold Escape.Control; omega
        · unfold Escape.Separator; omega
        · unfold Escape.Noncharacter; omega

theorem flatMap_printable (t : Tool) (cs : List Nat) (hc : Name cs) (hx : ∀ c ∈ cs, ¬ (0xfde0 ≤ c ∧ c ≤ 0xfdef)) :
    ∃ ps, cs.flatMap (escaped t) = Utf8.encode ps ∧ ∀ p ∈ ps, Escape.Printable p := by
  induction cs with
  | nil => exact ⟨[], rfl, by simp⟩
  | cons c cs ih =>
    obtain ⟨ps, h1, h2⟩ := ih (fun c h => hc c (List.mem_cons_of_mem _ h)) (fun c h => hx c (List.mem_cons_of_mem _ h))
    obtain ⟨qs, h3, h4⟩ := escaped_printable t c (hc c (List.mem_cons_self ..)).1 (hx c (List.mem_cons_self ..))
    refine ⟨qs ++ ps, by simp [Utf8.encode] at *; rw [h1, h3], ?_⟩
    intro p hp
    rcases List.mem_append.1 hp with h | h
    · exact h4 p h
    · exact h2 p h

/-- the bytes below 0x20 and delete do not occur, and a slash does not occur in what is written for mounting -/
theorem escaped_byte (t : Tool) (c : Nat) (hc : Scalar c) {b : UInt8} (h : b ∈ escaped t c) : 0x20 ≤ b.toNat ∧ b ≠ 0x7f ∧ (t = .mount → b ≠ 0x2f) := by
  have hasc : ∀ {x : UInt8} (_ : x = 0x78 ∨ x = 0x55) (n : Nat), b ∈ 0x5c :: x :: hex n c → 0x20 ≤ b.toNat ∧ b ≠ 0x7f ∧ (t = .mount → b ≠ 0x2f) := by
    intro x hx n hb
    rcases escape_ascii hx hb with h | h | rfl | rfl | rfl
    · exact ⟨by omega, toNat_ne (n := 0x7f) (by decide) (by omega), fun _ => toNat_ne (n := 0x2f) (by decide) (by omega)⟩
    · exact ⟨by omega, toNat_ne (n := 0x7f) (by decide) (by omega), fun _ => toNat_ne (n := 0x2f) (by decide) (by omega)⟩
    · exact ⟨by decide, by decide, fun _ => by decide⟩
    · exact ⟨by decide, by decide, fun _ => by decide⟩
    · exact ⟨by decide, by decide, fun _ => by decide⟩
  unfold escaped at h
  split at h
  · exact hasc (.inl rfl) 2 h
  · split at h
    · exact hasc (.inr rfl) 8 h
    · split at h
      · rename_i hcs
        simp only [List.mem_cons, List.not_mem_nil, or_false] at h
        rcases h with rfl | rfl
        · exact ⟨by decide, by decide, fun _ => by decide⟩
        · rcases hcs with rfl | ⟨_, rfl⟩ <;> exact ⟨by decide, by decide, fun _ => by decide⟩
      · rename_i h1 _ _
        unfold isControl at h1
        simp at h1
        by_cases h8 : c < 0x80
        · rw [encodeChar_ascii h8, List.mem_singleton] at h
          subst h
          have hm : (UInt8.ofNat c).toNat = c := by simp only [UInt8.toNat_ofNat']; omega
          exact ⟨by omega, toNat_ne (n := 0x7f) (by decide) (by omega), fun hm' => toNat_ne (n := 0x2f) (by decide) (by rw [hm]; exact h1.1.2 hm')⟩
        · have := encodeChar_high (by omega) hc b h
          exact ⟨by omega, toNat_ne (n := 0x7f) (by decide) (by omega), fun _ => toNat_ne (n := 0x2f) (by decide) (by omega)⟩

theorem encode_inj (cs cs' : List Nat) (hc : ∀ c ∈ cs, Scalar c) (hc' : ∀ c ∈ cs', Scalar c) (h : Utf8.encode cs = Utf8.encode cs') : cs = cs' := by
  induction cs generalizing cs' with
  | nil =>
    have := encode_length cs'
    rw [← h] at this
    simp [Utf8.encode] at this
    exact this.symm
  | cons c cs ih =>
    cases cs' with
    | nil =>
      have := encode_length (c :: cs)
      rw [h] at this
      simp [Utf8.encode] at this
    | cons c' cs' =>
      have e : ∀ (c : Nat) cs, Utf8.encode (c :: cs) = Utf8.encodeChar c ++ Utf8.encode cs := fun _ _ => by simp [Utf8.encode]
      rw [e, e] at h
      have h1 := utf8_encode c (hc c (List.mem_cons_self ..)) (Utf8.encode cs)
      have h2 := utf8_encode c' (hc' c' (List.mem_cons_self ..)) (Utf8.encode cs')
      rw [h, h2] at h1
      simp only [Option.some.injEq, Prod.mk.injEq] at h1
      rw [h1.1, ih cs' (fun c h => hc c (List.mem_cons_of_mem _ h)) (fun c h => hc' c (List.mem_cons_of_mem _ h)) h1.2.symm]

/-! ## paths of a mounted volume -/

theorem toLoop_slash {k : Codec} (hk : Lawful k) (size : Nat) (out r : Bytes) (hl : out.length + 1 ≤ size) :
    toLoop k true 0x2f size out (0x2f :: r) = toLoop k true 0x2f size (out ++ [0x2f]) r := by
  refine toLoop_step true size out _ _ _ 0x2f (by simp) ?_ (hk.writes 0x2f (by decide)) (by simpa using hl)
  unfold toCharacter escapedOr
  have : k.decoder.next (0x2f :: r) = some (0x2f, r) := hk.reads 0x2f (by decide) r
  rw [this]
  simp only
  rw [if_neg (by decide)]
  rfl

/-- a path: every name behind a slash -/
def slashed (names : List Bytes) : Bytes := names.flatMap (0x2f :: ·)

theorem toLoop_names {k : Codec} (hk : Lawful k) (size : Nat) (out : Bytes) (names : List (List Nat)) (hn : ∀ cs ∈ names, Name cs)
    (hl : out.length + (slashed (names.map Utf8.encode)).length ≤ size) :
    toLoop k true 0x2f size out (slashed (names.map fun cs => cs.flatMap (escaped .mount))) = ok (out ++ slashed (names.map Utf8.encode)) := by
  induction names generalizing out with
  | nil => simp [slashed, toLoop_nil]
  | cons cs names ih =>
    simp only [slashed, List.map_cons, List.flatMap_cons, List.length_append, List.length_cons] at hl ih ⊢
    rw [List.cons_append, toLoop_slash hk size out _ (by omega),
      toLoop_escaped hk .mount true (by decide) (fun _ => rfl) size _ cs (hn cs (List.mem_cons_self ..)) _ (by simp; omega),
      ih _ (fun cs h => hn cs (List.mem_cons_of_mem _ h)) (by simp only [List.length_append, List.length_cons, List.length_nil]; omega)]
    simp

theorem slashed_le (names : List (List Nat)) :
    (slashed (names.map Utf8.encode)).length ≤ (slashed (names.map fun cs => cs.flatMap (escaped .mount))).length := by
  induction names with
  | nil => simp [slashed]
  | cons cs names ih =>
    have := encode_le_escaped .mount cs
    simp only [slashed, List.map_cons, List.flatMap_cons, List.length_append, List.length_cons] at ih ⊢
    omega

theorem mountCopyTo_names {k : Codec} (hk : Lawful k) (names : List (List Nat)) (h0 : names ≠ []) (hn : ∀ cs ∈ names, Name cs)
    (hl : (slashed (names.map fun cs => cs.flatMap (escaped .mount))).length < ssizeMax) :
    mountCopyTo k (slashed (names.map fun cs => cs.flatMap (escaped .mount))) = ok (slashed (names.map Utf8.encode)) := by
  have hle := slashed_le names
  have := toLoop_names hk ((slashed (names.map fun cs => cs.flatMap (escaped .mount))).length + 1) [] names hn (by simp only [List.length_nil]; omega)
  rw [List.nil_append] at this
  unfold mountCopyTo
  cases names with
  | nil => exact absurd rfl h0
  | cons cs names =>
    have hpos : 0 < (slashed ((cs :: names).map fun cs => cs.flatMap (escaped .mount))).length := by simp [slashed]
    rw [require_true (by omega), ok_bind, rd_lt hpos, ok_bind, require_true (by simp [slashed]), ok_bind, require_true (by omega), ok_bind, this, ok_bind,
      require_true (by omega)]
    rfl

end PathString
end Verif
