import Verif.Lemmas.Records
/-!
# C36 Directory record keys and values decode to what was encoded
-/
namespace Verif.Props
open Verif Res Spec Records

/-- A directory record without name hash is decoded to its name, identifier and added time. -/
theorem c36_plain (parent : Nat) (name : Bytes) (h1 : 0 < name.length) (h2 : name.length < 1024) (identifier added flags : Nat) (hi : identifier < 2 ^ 64) (ha : added < 2 ^ 64)
    (fields : Option (List XField)) (hf : ∀ l ∈ fields, l.length < 65536 ∧ ∀ f ∈ l, f.type = 1 ∧ f.value.length < 65536)
    (hl : (drecValue identifier added flags fields).length < 2 ^ 63) :
    readDirectoryRecord (drecKey parent name, drecValue identifier added flags fields) = ok { name := name, hash := 0, identifier := identifier, added := added } := by
  unfold readDirectoryRecord
  rw [readDirectoryKey_plain h1 h2, ok_bind]
  simp only
  rw [readDirectoryValue_ok hi ha hf hl, ok_bind]
  rfl

/-- A directory record with name hash is decoded to its name, hash, identifier and added time. -/
theorem c36_hashed (parent hash : Nat) (hh : hash < 2 ^ 22) (name : Bytes) (h1 : 0 < name.length) (h2 : name.length < 1024) (identifier added flags : Nat)
    (hi : identifier < 2 ^ 64) (ha : added < 2 ^ 64)
    (fields : Option (List XField)) (hf : ∀ l ∈ fields, l.length < 65536 ∧ ∀ f ∈ l, f.type = 1 ∧ f.value.length < 65536)
    (hl : (drecValue identifier added flags fields).length < 2 ^ 63) :
    readDirectoryRecord (drecHashedKey parent hash name, drecValue identifier added flags fields) = ok { name := name, hash := hash, identifier := identifier, added := added } := by
  unfold readDirectoryRecord
  rw [readDirectoryKey_hashed h1 h2 hh, ok_bind]
  simp only
  rw [readDirectoryValue_ok hi ha hf hl, ok_bind]
  rfl

/-- Reading any bytes as a directory record stays within them. -/
theorem c36_safe (key value : Bytes) : Safe (readDirectoryRecord (key, value)) := by
  unfold readDirectoryRecord
  exact safe_bind (safe_readDirectoryKey _) fun _ _ => safe_bind (safe_readDirectoryValue _) fun _ _ => safe_ok _

/-- The name that is returned is a part of the key, not empty and less than 1024 bytes long. -/
theorem c36_name_within (key : Bytes) (name : Bytes) (hash : Nat) (h : readDirectoryKey key = ok (name, hash)) :
    (∃ a b, key = a ++ (name ++ b)) ∧ 0 < name.length ∧ name.length < 1024 ∧ hash < 2 ^ 22 := by
  unfold readDirectoryKey at h
  obtain ⟨_, h1, h⟩ := bind_eq_ok.1 h
  have := (require_eq_ok _).1 h1
  obtain ⟨v, hv, h⟩ := bind_eq_ok.1 h
  obtain ⟨⟨size, hs, off⟩, hr, h⟩ := bind_eq_ok.1 h
  have hsize : size < 1024 ∧ hs < 2 ^ 22 := by
    split at hr
    · obtain ⟨_, _, hr⟩ := bind_eq_ok.1 hr
      obtain ⟨w, hw, hr⟩ := bind_eq_ok.1 hr
      have := rdLE_lt hw
      cases hr
      omega
    · cases hr
      omega
  simp only at h
  obtain ⟨_, h2, h⟩ := bind_eq_ok.1 h
  have h2 := (require_eq_ok _).1 h2
  obtain ⟨n, hn, h⟩ := bind_eq_ok.1 h
  cases h
  obtain ⟨hle, hslice⟩ := rdN_inv hn
  have hnl := rdN_length hn
  refine ⟨⟨key.take off, key.drop (off + size), ?_⟩, by omega, by omega, hsize.2⟩
  rw [← hslice, ← eq_take_drop, List.take_append_drop]

/-- Type 1 (sibling identifier) is the only type of extended field that is accepted; any other makes the record, and with it the listing of the whole directory, fail. -/
theorem c36_other_field_refused (identifier added flags : Nat) (f : XField) (hf : f.type ≠ 1) (hs : f.value.length < 65536) :
    readDirectoryValue (drecValue identifier added flags (some [f])) = err := by
  have hd : drecValue identifier added flags (some [f]) = (toLE 8 identifier ++ (toLE 8 added ++ toLE 2 flags)) ++ xfields [f] := by
    unfold drecValue optionalFields
    simp only [List.append_assoc]
  have hx : (xfields [f]).length = 8 + f.padded.length := by
    unfold xfields
    simp [header_length]
    omega
  have hpad := padded_length f
  have hlen : (drecValue identifier added flags (some [f])).length = 26 + f.padded.length := by
    rw [hd, List.length_append, hx]
    simp
    omega
  have r0 : ∃ a, rdLE (drecValue identifier added flags (some [f])) 0 8 = ok a := ⟨_, BTree.rdLE_field (by omega)⟩
  have r1 : ∃ a, rdLE (drecValue identifier added flags (some [f])) 8 8 = ok a := ⟨_, BTree.rdLE_field (by omega)⟩
  obtain ⟨a0, r0⟩ := r0
  obtain ⟨a1, r1⟩ := r1
  have r3 : rdLE (drecValue identifier added flags (some [f])) 18 2 = ok 1 := by
    rw [hd]
    exact rdLE_mid _ _ 2 1 18 (by simp) (by omega)
  obtain ⟨q1, q2, q3, q4, q5, _⟩ := field_reads (d := drecValue identifier added flags (some [f])) (f := f)
    (a := (toLE 8 identifier ++ (toLE 8 added ++ toLE 2 flags)) ++ (toLE 2 1 ++ toLE 2 f.padded.length)) (b := f.padded)
    (a' := (toLE 8 identifier ++ (toLE 8 added ++ toLE 2 flags)) ++ (toLE 2 1 ++ (toLE 2 f.padded.length ++ f.header))) (b' := [])
    (by rw [hd]; unfold xfields; simp) (by rw [hd]; unfold xfields; simp) hs
  simp only [List.length_append, length_toLE, header_length] at q1 q2 q3 q4 q5
  unfold readDirectoryValue
  rw [require_true (by omega), ok_bind, r0, ok_bind, r1, ok_bind, if_pos (by omega), require_true (by omega), ok_bind, r3, ok_bind]
  unfold directoryFields
  rw [require_true q1, ok_bind, q2, ok_bind, q3, ok_bind, require_true q4, ok_bind, require_true (by omega), ok_bind, require_false hf]
  rfl

/-! Examples -/

example : readDirectoryRecord (drecHashedKey 2 0x12345 [97, 98, 0], drecValue 20 1000 8 (some [⟨1, 0, [1, 2, 3, 4, 5, 6, 7, 8]⟩])) =
    ok { name := [97, 98, 0], hash := 0x12345, identifier := 20, added := 1000 } := by decide +kernel

example : readDirectoryRecord (drecKey 2 [97, 98, 0], drecValue 20 1000 8 none) = ok { name := [97, 98, 0], hash := 0, identifier := 20, added := 1000 } := by decide +kernel

example : (⟨2, 0, [1]⟩ : XField).type ≠ 1 := by decide

end Verif.Props
