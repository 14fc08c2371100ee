import Verif.Model.PathWindows
import Verif.Spec.Windows
import Verif.Lemmas.PathString
/-! Lemmas for Model/PathWindows.lean -/
namespace Verif
open Res Spec
namespace PathWindows
open Name
open PathString (isUnprintable ssizeMax isUnprintable_lt)

/-- libuna reads and writes the UTF-16 of every character -/
structure Lawful (k : Codec) : Prop where
  reads : ∀ c, Scalar c → ∀ r, k.decoder.next (Utf16.encodeChar c ++ r) = some (c, r)
  writes : ∀ c, Scalar c → k.enc c = some (Utf16.encodeChar c)

theorem encodeChar_length (c : Nat) : 1 ≤ (Utf16.encodeChar c).length ∧ (Utf16.encodeChar c).length ≤ 2 := by
  unfold Utf16.encodeChar
  split <;> simp

/-- conversion from and to UTF-16 -/
def utf16Codec : Codec where
  decoder := utf16
  enc := fun c => if Scalar c then some (Utf16.encodeChar c) else none
  short := by
    intro c us h
    split at h
    · cases h; exact (encodeChar_length c).2
    · cases h

theorem lawful_utf16Codec : Lawful utf16Codec :=
  ⟨fun c h r => utf16_encode c h r, fun c h => by simp [utf16Codec, h]⟩

/-! ## escaping does not leave the buffer -/

theorem hex_length (n v : Nat) : (hex n v).length = n := by
  unfold hex
  rw [List.length_map, PathString.hex_length]

theorem fromCharacter_spec (k : Codec) (size : Nat) (out : Wide) (c : Nat) (h : out.length + 10 < size) :
    fromCharacter k size out c = err ∨ ∃ o, fromCharacter k size out c = ok (out ++ o) ∧ o.length ≤ 10 := by
  unfold fromCharacter sprintf
  split
  · right; rw [if_pos (by simp [hex_length]; omega)]; exact ⟨_, rfl, by simp [hex_length]⟩
  · split
    · right; rw [if_pos (by simp [hex_length]; omega)]; exact ⟨_, rfl, by simp [hex_length]⟩
    · split
      · right; rw [require_true (by omega)]; exact ⟨_, rfl, by simp⟩
      · split
        · exact .inl rfl
        · rename_i bs hbs
          have := k.short hbs
          right; rw [require_true (by omega)]; exact ⟨_, rfl, by omega⟩

theorem fromLoop_spec (k : Codec) (size : Nat) (out s : Wide) (h : out.length + 10 * s.length < size) :
    fromLoop k size out s = err ∨ ∃ o, fromLoop k size out s = ok o ∧ o.length < size := by
  induction hn : s.length using Nat.strongRecOn generalizing s out with
  | _ n ih =>
    subst hn
    unfold fromLoop
    split
    · exact .inr ⟨out, rfl, by omega⟩
    · rename_i hs
      split
      · exact .inl rfl
      · rename_i c r hr
        have hl := k.decoder.shorter hr
        split
        · exact .inr ⟨out, rfl, by omega⟩
        · rcases fromCharacter_spec k size out c (by omega) with he | ⟨o, ho, hol⟩
          · rw [he]; exact .inl rfl
          · rw [ho]
            exact ih _ hl (out ++ o) r (by simp; omega) rfl

theorem safe_copyFrom (k : Codec) (s : Wide) : Safe (copyFrom k s) := by
  unfold copyFrom
  refine safe_bind safe_require fun _ _ => safe_bind safe_require fun _ _ => ?_
  rcases fromLoop_spec k (s.length * 10 + 1) [] s (by simp; omega) with h | ⟨o, h, ho⟩
  · rw [h]; exact safe_err
  · rw [h, ok_bind]; exact safe_bind safe_require fun _ _ => safe_ok _

theorem safe_hexToInteger (bs : Wide) (v : Nat) : Safe (hexToInteger bs v) := by
  induction bs generalizing v with
  | nil => exact safe_ok _
  | cons b bs ih =>
    unfold hexToInteger
    split
    · exact ih _
    · split
      · exact ih _
      · split
        · exact ih _
        · exact safe_err

theorem first_lt {s : Wide} (h : 0 < s.length) : ofMem s[0]? = ok s[0] := by
  rw [List.getElem?_eq_getElem h]
  rfl

theorem rdWide_le {s : Wide} {n : Nat} (h : n ≤ s.length) : rdWide s n = ok (s.take n) := by
  unfold rdWide
  rw [if_pos h]

theorem safe_unescapeCharacter (s : Wide) : Safe (unescapeCharacter s) := by
  unfold unescapeCharacter
  refine safe_bind safe_require fun u hu => ?_
  rw [require_eq_ok] at hu
  rw [first_lt (by omega), ok_bind]
  simp only
  split
  · exact safe_ok _
  · split
    · refine safe_bind safe_require fun u hu => ?_
      rw [require_eq_ok] at hu
      rw [rdWide_le (by omega), ok_bind]
      exact safe_bind (safe_hexToInteger _ _) fun _ _ => safe_bind safe_require fun _ _ => safe_ok _
    · split
      · refine safe_bind safe_require fun u hu => ?_
        rw [require_eq_ok] at hu
        rw [rdWide_le (by omega), ok_bind]
        exact safe_bind (safe_hexToInteger _ _) fun _ _ => safe_bind safe_require fun _ _ => safe_ok _
      · exact safe_err

theorem safe_toCharacter (k : Codec) (s : Wide) : Safe (toCharacter k s) := by
  unfold toCharacter
  split
  · exact safe_err
  · split
    · exact safe_ok _
    · split
      · exact safe_unescapeCharacter _
      · exact safe_ok _

theorem safe_toLoop (k : Codec) (size : Nat) (out s : Wide) : Safe (toLoop k size out s) := by
  induction hn : s.length using Nat.strongRecOn generalizing s out with
  | _ n ih =>
    subst hn
    unfold toLoop
    split
    · exact safe_ok _
    · split
      · rename_i h; exact absurd h (safe_toCharacter _ _)
      · exact safe_err
      · rename_i c r h
        have hl := toCharacter_shorter h
        split
        · exact safe_err
        · split
          · exact ih _ hl _ _ rfl
          · exact safe_err

theorem safe_copyTo (k : Codec) (s : Wide) : Safe (copyTo k s) := by
  unfold copyTo
  refine safe_bind safe_require fun u hu => ?_
  rw [require_eq_ok] at hu
  rw [first_lt (by omega), ok_bind]
  exact safe_bind safe_require fun _ _ => safe_bind safe_require fun _ _ => safe_bind (safe_toLoop _ _ _ _) fun _ _ => safe_bind safe_require fun _ _ => safe_ok _

/-! ## what is written -/

/-- what is written for a character -/
def escaped (c : Nat) : Wide :=
  if isControl c then 0x5e :: 0x78 :: hex 2 c
  else if isUnprintable c then 0x5e :: 0x55 :: hex 8 c
  else if c = 0x5e then [0x5e, 0x5e]
  else Utf16.encodeChar c

theorem escaped_length (c : Nat) : 1 ≤ (escaped c).length ∧ (escaped c).length ≤ 10 := by
  unfold escaped
  have := encodeChar_length c
  split
  · simp [hex_length]
  · split
    · simp [hex_length]
    · split
      · simp
      · omega

theorem fromCharacter_escaped {k : Codec} (hk : Lawful k) (size : Nat) (out : Wide) (c : Nat) (hc : Scalar c) (h : out.length + 10 < size) :
    fromCharacter k size out c = ok (out ++ escaped c) := by
  have hl := encodeChar_length c
  unfold fromCharacter escaped sprintf
  split
  · rw [if_pos (by simp [hex_length]; omega)]
  · split
    · rw [if_pos (by simp [hex_length]; omega)]
    · split
      · rename_i he
        rw [require_true (by omega), he]
        rfl
      · rw [hk.writes c hc]
        simp only
        rw [require_true (by omega)]; rfl

theorem encode_length (cs : List Nat) : cs.length ≤ (Utf16.encode cs).length := by
  induction cs with
  | nil => simp
  | cons c cs ih =>
    have := encodeChar_length c
    simp [Utf16.encode] at ih ⊢
    omega

theorem fromLoop_escaped {k : Codec} (hk : Lawful k) (size : Nat) (out : Wide) (cs : List Nat) (hc : PathString.Name cs)
    (h : out.length + 10 * cs.length < size) : fromLoop k size out (Utf16.encode cs) = ok (out ++ cs.flatMap escaped) := by
  induction cs generalizing out with
  | nil => unfold fromLoop; simp [Utf16.encode]
  | cons c cs ih =>
    have hs : Utf16.encode (c :: cs) = Utf16.encodeChar c ++ Utf16.encode cs := by simp [Utf16.encode]
    have hcs := (hc c (List.mem_cons_self ..))
    have hl := encodeChar_length c
    have hel := escaped_length c
    rw [hs]
    unfold fromLoop
    simp only [List.length_cons] at h
    rw [if_neg (by intro e; have := congrArg List.length e; simp at this; simp [this] at hl)]
    split
    · rename_i hn; rw [hk.reads c hcs.1] at hn; cases hn
    · rename_i c' r hn
      rw [hk.reads c hcs.1] at hn
      cases hn
      rw [if_neg hcs.2, fromCharacter_escaped hk size out c hcs.1 (by omega)]
      simp only
      rw [ih _ (fun c h => hc c (List.mem_cons_of_mem _ h)) (by simp; omega)]
      simp

theorem flatMap_length (cs : List Nat) : (cs.flatMap escaped).length ≤ 10 * cs.length := by
  induction cs with
  | nil => simp
  | cons c cs ih => have := escaped_length c; simp only [List.flatMap_cons, List.length_append, List.length_cons]; omega

theorem copyFrom_escaped {k : Codec} (hk : Lawful k) (cs : List Nat) (hc : PathString.Name cs) (h0 : cs ≠ []) (hl : (Utf16.encode cs).length ≤ (ssizeMax - 1) / 20) :
    copyFrom k (Utf16.encode cs) = ok (cs.flatMap escaped, (Utf16.encode cs).length * 10 + 1) := by
  have h1 := encode_length cs
  have h2 : 0 < cs.length := List.length_pos_iff.2 h0
  have hb' := flatMap_length cs
  unfold copyFrom
  rw [require_true (by unfold ssizeMax at *; omega), ok_bind, require_true (by omega), ok_bind, fromLoop_escaped hk _ [] cs hc (by simp; omega), ok_bind,
    require_true (by simp only [List.nil_append]; omega)]
  rfl

/-! ## hexadecimal digits -/

/-- a hexadecimal digit -/
def hexDigit (v : Nat) : UInt16 := UInt16.ofNat (PathString.hexDigit v).toNat

theorem digit_hexDigit (v : Nat) (h : v < 16) : Windows.digit (hexDigit v).toNat = some v := by
  have : ∀ v : Fin 16, Windows.digit (hexDigit v.1).toNat = some v.1 := by decide +kernel
  exact this ⟨v, h⟩

theorem hex_succ (n v : Nat) : hex (n + 1) v = hex n (v / 16) ++ [hexDigit (v % 16)] := by
  unfold hex hexDigit
  rw [PathString.hex, List.map_append]
  rfl

theorem hexNumber_append (v : Nat) (a b : Wide) : Windows.hexNumber v (a ++ b) = (Windows.hexNumber v a).bind fun v => Windows.hexNumber v b := by
  induction a generalizing v with
  | nil => rfl
  | cons x a ih =>
    simp only [List.cons_append, Windows.hexNumber]
    cases Windows.digit x.toNat with
    | none => rfl
    | some d => exact ih _

theorem hexNumber_hex (n v : Nat) (h : v < 16 ^ n) : Windows.hexNumber 0 (hex n v) = some v := by
  induction n generalizing v with
  | zero => simp at h; subst h; rfl
  | succ n ih =>
    rw [hex_succ, hexNumber_append, ih (v / 16) (by rw [Nat.pow_succ] at h; omega)]
    simp only [Option.bind_some, Windows.hexNumber, digit_hexDigit (v % 16) (Nat.mod_lt _ (by decide))]
    congr 1; omega

theorem hexToInteger_append (v : Nat) (a b : Wide) : hexToInteger (a ++ b) v = (hexToInteger a v >>= fun v => hexToInteger b v) := by
  induction a generalizing v with
  | nil => rfl
  | cons x a ih =>
    simp only [List.cons_append, hexToInteger]
    split
    · exact ih _
    · split
      · exact ih _
      · split
        · exact ih _
        · rfl

theorem hexToInteger_digit (v w : Nat) (h : v < 16) : hexToInteger [hexDigit v] w = ok (w * 16 % 2 ^ 32 + v) := by
  have : ∀ v : Fin 16, (0x30 ≤ (hexDigit v.1).toNat ∧ (hexDigit v.1).toNat ≤ 0x39 ∧ (hexDigit v.1).toNat - 0x30 = v.1) ∨
      (¬ (0x30 ≤ (hexDigit v.1).toNat ∧ (hexDigit v.1).toNat ≤ 0x39) ∧ ¬ (0x41 ≤ (hexDigit v.1).toNat ∧ (hexDigit v.1).toNat ≤ 0x46) ∧
        0x61 ≤ (hexDigit v.1).toNat ∧ (hexDigit v.1).toNat ≤ 0x66 ∧ (hexDigit v.1).toNat - 0x61 + 10 = v.1) := by decide +kernel
  rcases this ⟨v, h⟩ with ⟨h1, h2, h3⟩ | ⟨h1, h2, h3, h4, h5⟩
  · simp only [hexToInteger]; rw [if_pos ⟨h1, h2⟩, h3]
  · simp only [hexToInteger]; rw [if_neg h1, if_neg h2, if_pos ⟨h3, h4⟩, h5]

theorem hexToInteger_hex (n v : Nat) (hn : n ≤ 8) (h : v < 16 ^ n) : hexToInteger (hex n v) 0 = ok v := by
  induction n generalizing v with
  | zero => simp at h; subst h; rfl
  | succ n ih =>
    have h16 : v / 16 < 16 ^ n := by rw [Nat.pow_succ] at h; omega
    have hle : 16 ^ n ≤ 16 ^ 7 := Nat.pow_le_pow_right (by decide) (by omega)
    rw [hex_succ, hexToInteger_append, ih (v / 16) (by omega) h16, ok_bind, hexToInteger_digit _ _ (Nat.mod_lt _ (by decide)), Nat.mod_eq_of_lt (by omega)]
    congr 1; omega

theorem hex2 (c : Nat) : hex 2 c = [hexDigit (c / 16 % 16), hexDigit (c % 16)] := by
  rw [hex_succ, hex_succ]
  rfl

theorem hex8 (c : Nat) : ∃ d1 d2 d3 d4 d5 d6 d7 d8, hex 8 c = [d1, d2, d3, d4, d5, d6, d7, d8] := by
  simp [hex, PathString.hex]

/-! ## reading what was written -/

theorem isControl_lt {c : Nat} (h : isControl c = true) : c < 0xa0 := by
  unfold isControl isReserved at h
  simp at h
  omega

theorem encodeChar_small {c : Nat} (h : c < 0x10000) : Utf16.encodeChar c = [UInt16.ofNat c] := by
  unfold Utf16.encodeChar; rw [if_pos h]

theorem toNat_ne {b : UInt16} {n : Nat} (hn : n < 65536) (h : b.toNat ≠ n) : b ≠ UInt16.ofNat n := by
  intro e; subst e; rw [toNat16 n hn] at h; exact h rfl

/-- the units of a character are the character, or they are surrogates -/
theorem encodeChar_unit {c : Nat} (hc : Scalar c) {u : UInt16} (h : u ∈ Utf16.encodeChar c) : u.toNat = c ∨ 0xd800 ≤ u.toNat := by
  unfold Scalar at hc
  unfold Utf16.encodeChar at h
  split at h
  · simp only [List.mem_singleton] at h
    subst h
    rw [toNat16 _ (by assumption)]
    exact .inl rfl
  · simp only [List.mem_cons, List.not_mem_nil, or_false] at h
    right
    rcases h with rfl | rfl <;> rw [toNat16 _ (by omega)] <;> omega

theorem unescape_cons_plain {b : UInt16} (h : b ≠ 0x5e) (r : Wide) : Windows.unescape (b :: r) = (Windows.unescape r).map (b :: ·) := by
  conv => lhs; unfold Windows.unescape
  rw [if_pos h]

theorem unescape_plain (bs : Wide) (h : ∀ b ∈ bs, b ≠ 0x5e) (r : Wide) : Windows.unescape (bs ++ r) = (Windows.unescape r).map (bs ++ ·) := by
  induction bs with
  | nil => simp
  | cons b bs ih =>
    rw [List.cons_append, unescape_cons_plain (h b (List.mem_cons_self ..)), ih (fun b hb => h b (List.mem_cons_of_mem _ hb))]
    cases Windows.unescape r <;> rfl

theorem unescape_escaped (c : Nat) (hc : Scalar c) (r : Wide) : Windows.unescape (escaped c ++ r) = (Windows.unescape r).map (Utf16.encodeChar c ++ ·) := by
  unfold escaped
  split
  · rename_i h
    have hlt := isControl_lt h
    have hn := hexNumber_hex 2 c (by omega)
    rw [hex2] at hn ⊢
    simp only [List.cons_append, List.nil_append]
    conv => lhs; unfold Windows.unescape
    rw [if_neg (by decide)]
    simp only
    rw [if_neg (by decide), if_pos trivial, hn]
    rfl
  · split
    · have hn := hexNumber_hex 8 c (isUnprintable_lt hc)
      obtain ⟨d1, d2, d3, d4, d5, d6, d7, d8, e⟩ := hex8 c
      rw [e] at hn ⊢
      simp only [List.cons_append, List.nil_append]
      conv => lhs; unfold Windows.unescape
      rw [if_neg (by decide)]
      simp only
      rw [if_neg (by decide), if_neg (by decide), if_pos trivial, hn]
      rfl
    · split
      · rename_i h
        subst h
        simp only [List.cons_append, List.nil_append]
        conv => lhs; unfold Windows.unescape
        rw [if_neg (by decide)]
        simp only
        rw [if_pos trivial]
        rfl
      · rename_i h
        refine unescape_plain _ (fun b hb e => ?_) r
        subst e
        rcases encodeChar_unit hc hb with he | he
        · exact h he.symm
        · exact absurd he (by decide)

theorem unescape_flatMap (cs : List Nat) (hc : PathString.Name cs) (r : Wide) :
    Windows.unescape (cs.flatMap escaped ++ r) = (Windows.unescape r).map (Utf16.encode cs ++ ·) := by
  induction cs with
  | nil => simp [Utf16.encode]
  | cons c cs ih =>
    rw [List.flatMap_cons, List.append_assoc, unescape_escaped c (hc c (List.mem_cons_self ..)).1, ih (fun c h => hc c (List.mem_cons_of_mem _ h))]
    cases Windows.unescape r <;> simp [Utf16.encode]

theorem mem_hex {n v : Nat} {u : UInt16} (h : u ∈ hex n v) : (0x30 ≤ u.toNat ∧ u.toNat ≤ 0x39) ∨ (0x61 ≤ u.toNat ∧ u.toNat ≤ 0x66) := by
  unfold hex at h
  obtain ⟨b, hb, rfl⟩ := List.mem_map.1 h
  have := b.toNat_lt
  rw [toNat16 _ (by omega)]
  exact PathString.mem_hex hb

/-- what is written has no character that names cannot have -/
theorem escaped_allowed (c : Nat) (hc : Scalar c) {u : UInt16} (h : u ∈ escaped c) : ¬ Windows.Forbidden u.toNat := by
  have hasc : ∀ {x : UInt16} (_ : x = 0x78 ∨ x = 0x55) (n : Nat), u ∈ 0x5e :: x :: hex n c → ¬ Windows.Forbidden u.toNat := by
    intro x hx n hb
    simp only [List.mem_cons] at hb
    rcases hb with rfl | rfl | hb
    · decide
    · rcases hx with rfl | rfl <;> decide
    · have := mem_hex hb
      unfold Windows.Forbidden
      simp only [List.mem_cons, List.not_mem_nil, or_false]
      omega
  unfold escaped at h
  split at h
  · exact hasc (.inl rfl) 2 h
  · split at h
    · exact hasc (.inr rfl) 8 h
    · split at h
      · simp only [List.mem_cons, List.not_mem_nil, or_false] at h
        rcases h with rfl | rfl <;> decide
      · rename_i h1 _ _
        unfold isControl isReserved at h1
        simp at h1
        unfold Windows.Forbidden
        simp only [List.mem_cons, List.not_mem_nil, or_false]
        rcases encodeChar_unit hc h with he | he
        · rw [he]; omega
        · omega

theorem toCharacter_escaped {k : Codec} (hk : Lawful k) (c : Nat) (hc : Scalar c) (h0 : c ≠ 0) (r : Wide) : toCharacter k (escaped c ++ r) = ok (c, r) := by
  have h5e : ∀ r, k.decoder.next (0x5e :: r) = some (0x5e, r) := fun r => hk.reads 0x5e (by decide) r
  unfold escaped
  split
  · rename_i h
    have hlt := isControl_lt h
    have hn := hexToInteger_hex 2 c (by omega) (by omega)
    rw [hex2] at hn ⊢
    unfold toCharacter
    simp only [List.cons_append, List.nil_append, h5e]
    rw [if_neg (by decide), if_pos trivial]
    unfold unescapeCharacter
    rw [require_true (by simp), ok_bind, first_lt (by simp), ok_bind]
    simp only [List.getElem_cons_zero, List.drop_succ_cons, List.drop_zero]
    rw [if_neg (by decide), if_pos (by decide), require_true (by simp), ok_bind, rdWide_le (by simp), ok_bind]
    simp only [List.take_succ_cons, List.take_zero, hn, ok_bind]
    rw [require_true (by
      unfold isControl at h
      simp at h
      rcases h with (h | h) | h
      · exact .inl ⟨by omega, h⟩
      · exact .inr (.inl h)
      · exact .inr (.inr h)), ok_bind]
    rfl
  · split
    · rename_i h
      have hn := hexToInteger_hex 8 c (by omega) (isUnprintable_lt hc)
      obtain ⟨d1, d2, d3, d4, d5, d6, d7, d8, e⟩ := hex8 c
      rw [e] at hn ⊢
      unfold toCharacter
      simp only [List.cons_append, List.nil_append, h5e]
      rw [if_neg (by decide), if_pos trivial]
      unfold unescapeCharacter
      rw [require_true (by simp), ok_bind, first_lt (by simp), ok_bind]
      simp only [List.getElem_cons_zero, List.drop_succ_cons, List.drop_zero]
      rw [if_neg (by decide), if_neg (by decide), if_pos (by decide), require_true (by simp), ok_bind, rdWide_le (by simp), ok_bind]
      simp only [List.take_succ_cons, List.take_zero, hn, ok_bind]
      rw [require_true h, ok_bind]
      rfl
    · split
      · rename_i h
        subst h
        unfold toCharacter
        simp only [List.cons_append, List.nil_append, h5e]
        rw [if_neg (by decide), if_pos trivial]
        unfold unescapeCharacter
        rw [require_true (by simp), ok_bind, first_lt (by simp), ok_bind]
        simp only [List.getElem_cons_zero]
        rw [if_pos (by decide)]
        rfl
      · rename_i h1 _ h
        unfold toCharacter
        rw [hk.reads c hc]
        simp only
        rw [if_neg (by rintro rfl; exact h1 (by decide)), if_neg h]

theorem toLoop_step {k : Codec} (size : Nat) (out s r bs : Wide) (c : Nat) (h0 : s ≠ []) (h : toCharacter k s = ok (c, r))
    (he : k.enc c = some bs) (hl : out.length + bs.length ≤ size) : toLoop k size out s = toLoop k size (out ++ bs) r := by
  conv => lhs; unfold toLoop
  rw [if_neg h0]
  split
  · rename_i e; rw [h] at e; cases e
  · rename_i e; rw [h] at e; cases e
  · rename_i c' r' e
    rw [h] at e
    cases e
    rw [he]
    simp only
    rw [if_pos hl]

theorem escaped_ne_nil (c : Nat) (r : Wide) : escaped c ++ r ≠ [] := by
  intro e
  have h1 := congrArg List.length e
  have h2 := escaped_length c
  simp only [List.length_append, List.length_nil] at h1
  omega

theorem toLoop_escaped {k : Codec} (hk : Lawful k) (size : Nat) (out : Wide) (cs : List Nat) (hc : PathString.Name cs) (r : Wide)
    (hl : out.length + (Utf16.encode cs).length ≤ size) : toLoop k size out (cs.flatMap escaped ++ r) = toLoop k size (out ++ Utf16.encode cs) r := by
  induction cs generalizing out with
  | nil => simp [Utf16.encode]
  | cons c cs ih =>
    have hcs := hc c (List.mem_cons_self ..)
    have he : Utf16.encode (c :: cs) = Utf16.encodeChar c ++ Utf16.encode cs := by simp [Utf16.encode]
    rw [he] at hl ⊢
    simp only [List.length_append] at hl
    rw [List.flatMap_cons, List.append_assoc,
      toLoop_step size out _ _ _ c (escaped_ne_nil c _) (toCharacter_escaped hk c hcs.1 hcs.2 _) (hk.writes c hcs.1) (by omega),
      ih _ (fun c h => hc c (List.mem_cons_of_mem _ h)) (by simp; omega)]
    simp

/-- an escape is not shorter than what it stands for -/
theorem encodeChar_le_escaped (c : Nat) : (Utf16.encodeChar c).length ≤ (escaped c).length := by
  have := encodeChar_length c
  unfold escaped
  split
  · simp [hex_length]; omega
  · split
    · simp [hex_length]; omega
    · split
      · simp; omega
      · exact Nat.le_refl _

theorem encode_le_escaped (cs : List Nat) : (Utf16.encode cs).length ≤ (cs.flatMap escaped).length := by
  induction cs with
  | nil => simp [Utf16.encode]
  | cons c cs ih =>
    have := encodeChar_le_escaped c
    simp only [Utf16.encode, List.flatMap_cons, List.length_append] at *
    omega

theorem toLoop_nil (k : Codec) (size : Nat) (out : Wide) : toLoop k size out [] = ok out := by
  unfold toLoop; simp

/-! ## paths -/

theorem toLoop_separator {k : Codec} (hk : Lawful k) (size : Nat) (out r : Wide) (hl : out.length + 1 ≤ size) :
    toLoop k size out (0x5c :: r) = toLoop k size (out ++ [0x2f]) r := by
  refine toLoop_step size out _ _ _ 0x2f (by simp) ?_ (hk.writes 0x2f (by decide)) (by simpa using hl)
  unfold toCharacter
  have : k.decoder.next (0x5c :: r) = some (0x5c, r) := hk.reads 0x5c (by decide) r
  rw [this]
  simp only
  rw [if_pos trivial]

/-- a path: every name behind a separator -/
def separated (separator : UInt16) (names : List Wide) : Wide := names.flatMap (separator :: ·)

theorem toLoop_names {k : Codec} (hk : Lawful k) (size : Nat) (out : Wide) (names : List (List Nat)) (hn : ∀ cs ∈ names, PathString.Name cs)
    (hl : out.length + (separated 0x2f (names.map Utf16.encode)).length ≤ size) :
    toLoop k size out (separated 0x5c (names.map fun cs => cs.flatMap escaped)) = ok (out ++ separated 0x2f (names.map Utf16.encode)) := by
  induction names generalizing out with
  | nil => simp [separated, toLoop_nil]
  | cons cs names ih =>
    simp only [separated, List.map_cons, List.flatMap_cons, List.length_append, List.length_cons] at hl ih ⊢
    rw [List.cons_append, toLoop_separator hk size out _ (by omega),
      toLoop_escaped hk size _ cs (hn cs (List.mem_cons_self ..)) _ (by simp; omega),
      ih _ (fun cs h => hn cs (List.mem_cons_of_mem _ h)) (by simp only [List.length_append, List.length_cons, List.length_nil]; omega)]
    simp

theorem separated_le (names : List (List Nat)) :
    (separated 0x2f (names.map Utf16.encode)).length ≤ (separated 0x5c (names.map fun cs => cs.flatMap escaped)).length := by
  induction names with
  | nil => simp [separated]
  | cons cs names ih =>
    have := encode_le_escaped cs
    simp only [separated, List.map_cons, List.flatMap_cons, List.length_append, List.length_cons] at ih ⊢
    omega

theorem copyTo_names {k : Codec} (hk : Lawful k) (names : List (List Nat)) (h0 : names ≠ []) (hn : ∀ cs ∈ names, PathString.Name cs)
    (hl : (separated 0x5c (names.map fun cs => cs.flatMap escaped)).length < ssizeMax / 2) :
    copyTo k (separated 0x5c (names.map fun cs => cs.flatMap escaped)) = ok (separated 0x2f (names.map Utf16.encode)) := by
  have hle := separated_le names
  have := toLoop_names hk ((separated 0x5c (names.map fun cs => cs.flatMap escaped)).length + 1) [] names hn (by simp only [List.length_nil]; omega)
  rw [List.nil_append] at this
  have hm : ssizeMax / 2 ≤ ssizeMax - 1 := by decide
  unfold copyTo
  cases names with
  | nil => exact absurd rfl h0
  | cons cs names =>
    have hpos : 0 < (separated 0x5c ((cs :: names).map fun cs => cs.flatMap escaped)).length := by simp [separated]
    rw [require_true (by omega), ok_bind, first_lt hpos, ok_bind, require_true (by simp [separated]), ok_bind, require_true (by omega), ok_bind, this, ok_bind,
      require_true (by omega)]
    rfl

theorem cString_eq {s : Wide} (h : ∀ u ∈ s, u ≠ 0) : cString s = s := by
  unfold cString
  induction s with
  | nil => rfl
  | cons b s ih =>
    rw [List.takeWhile_cons, if_pos (by simpa using h b (by simp)), ih fun b hb => h b (by simp [hb])]

theorem encode_nonzero {cs : List Nat} (hc : PathString.Name cs) : ∀ u ∈ Utf16.encode cs, u ≠ 0 := by
  intro u hu e
  subst e
  obtain ⟨c, h1, h2⟩ := List.mem_flatMap.1 hu
  rcases encodeChar_unit (hc c h1).1 h2 with he | he
  · exact (hc c h1).2 he.symm
  · exact absurd he (by decide)

end PathWindows
end Verif
