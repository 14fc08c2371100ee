import Verif.Lemmas.Records
/-!
# C38 Extended attribute records decode to what was encoded
-/
namespace Verif.Props
open Verif Res Spec Records

/-- Reading any bytes as an extended attribute record stays within them. -/
theorem c38_safe (key value : Bytes) : Safe (readAttribute (key, value)) := by
  unfold readAttribute
  exact safe_bind (safe_readAttributeKey _) fun _ _ => safe_bind (safe_readAttributeValue _) fun _ _ => safe_ok _

theorem readAttributeKey_ok (identifier : Nat) (name : Bytes) (h1 : 0 < name.length) (h2 : name.length < 65536) : readAttributeKey (xattrKey identifier name) = ok name := by
  have hl : (xattrKey identifier name).length = 10 + name.length := by simp [xattrKey]; omega
  unfold readAttributeKey
  have hr : rdLE (xattrKey identifier name) 8 2 = ok name.length := rdLE_mid _ _ 2 _ _ (by simp) (by omega)
  rw [hl, require_true (by omega), ok_bind, hr, ok_bind, require_true (by omega), ok_bind]
  have := rdN_mid' (toLE 8 (4 * 2 ^ 60 + identifier) ++ toLE 2 name.length) name [] 10 name.length (by simp) rfl
  simpa [xattrKey, List.append_assoc] using this

/-- An extended attribute with embedded data is decoded to its name, flags and data. -/
theorem c38_embedded (identifier : Nat) (name : Bytes) (h1 : 0 < name.length) (h2 : name.length < 65536) (flags : Nat) (hf : flags < 65536) (hb0 : flags % 2 = 0) (hb1 : flags / 2 % 2 = 1)
    (data : Bytes) (h3 : 0 < data.length) (h4 : data.length < 65536) :
    readAttribute (xattrKey identifier name, xattrValue flags data) = ok { name := name, flags := flags, data := some data, stream := 0, size := data.length } := by
  unfold readAttribute
  rw [readAttributeKey_ok identifier name h1 h2, ok_bind]
  have hl : (xattrValue flags data).length = 4 + data.length := by simp [xattrValue]; omega
  have r1 : rdLE (xattrValue flags data) 0 2 = ok flags := rdLE_mid [] _ 2 _ 0 rfl (by omega)
  have r2 : rdLE (xattrValue flags data) 2 2 = ok data.length := rdLE_mid _ _ 2 _ 2 (by simp) (by omega)
  have r3 : rdN (xattrValue flags data) 4 data.length = ok data := by
    have := rdN_mid' (toLE 2 flags ++ toLE 2 data.length) data [] 4 data.length (by simp) rfl
    simpa [xattrValue, List.append_assoc] using this
  unfold readAttributeValue
  simp only
  rw [hl, require_true (by omega), ok_bind, r1, ok_bind, r2, ok_bind, require_true (by omega), ok_bind, if_neg (by omega), if_pos (by omega), r3, ok_bind]
  rfl

/-- An extended attribute without data is decoded to no data. -/
theorem c38_empty (identifier : Nat) (name : Bytes) (h1 : 0 < name.length) (h2 : name.length < 65536) (flags : Nat) (hf : flags < 65536) (hb0 : flags % 2 = 0) :
    readAttribute (xattrKey identifier name, xattrValue flags []) = ok { name := name, flags := flags, data := none, stream := 0, size := 0 } := by
  unfold readAttribute
  rw [readAttributeKey_ok identifier name h1 h2, ok_bind]
  have hl : (xattrValue flags []).length = 4 := by simp [xattrValue]
  have r1 : rdLE (xattrValue flags []) 0 2 = ok flags := rdLE_mid [] _ 2 _ 0 rfl (by omega)
  have r2 : rdLE (xattrValue flags []) 2 2 = ok 0 := rdLE_mid _ _ 2 0 2 (by simp) (by omega)
  unfold readAttributeValue
  simp only
  rw [hl, require_true (by omega), ok_bind, r1, ok_bind, r2, ok_bind, require_true (by omega), ok_bind, if_neg (by omega), if_neg (by omega)]
  rfl

/-- An extended attribute in a data stream is decoded to the identifier and size of the data stream. -/
theorem c38_stream (identifier : Nat) (name : Bytes) (h1 : 0 < name.length) (h2 : name.length < 65536) (flags : Nat) (hf : flags < 65536) (hb0 : flags % 2 = 1)
    (stream size : Nat) (hs : stream < 2 ^ 64) (hz : size < 2 ^ 64) (rest : Bytes) (hr : rest.length = 32) :
    readAttribute (xattrKey identifier name, xattrValue flags (xattrStream stream size rest)) = ok { name := name, flags := flags, data := none, stream := stream, size := size } := by
  unfold readAttribute
  rw [readAttributeKey_ok identifier name h1 h2, ok_bind]
  have hd : (xattrStream stream size rest).length = 48 := by simp [xattrStream]; omega
  have hl : (xattrValue flags (xattrStream stream size rest)).length = 52 := by simp [xattrValue]; omega
  have r1 : rdLE (xattrValue flags (xattrStream stream size rest)) 0 2 = ok flags := rdLE_mid [] _ 2 _ 0 rfl (by omega)
  have r2 : rdLE (xattrValue flags (xattrStream stream size rest)) 2 2 = ok 48 := by
    rw [← hd]
    exact rdLE_mid _ _ 2 _ 2 (by simp) (by omega)
  have r3 : rdLE (xattrValue flags (xattrStream stream size rest)) 4 8 = ok stream := by
    have := rdLE_mid (toLE 2 flags ++ toLE 2 (xattrStream stream size rest).length) (toLE 8 size ++ rest) 8 stream 4 (by simp) (by omega)
    simpa [xattrValue, xattrStream, List.append_assoc] using this
  have r4 : rdLE (xattrValue flags (xattrStream stream size rest)) 12 8 = ok size := by
    have := rdLE_mid (toLE 2 flags ++ (toLE 2 (xattrStream stream size rest).length ++ toLE 8 stream)) rest 8 size 12 (by simp) (by omega)
    simpa [xattrValue, xattrStream, List.append_assoc] using this
  unfold readAttributeValue
  simp only
  rw [hl, require_true (by omega), ok_bind, r1, ok_bind, r2, ok_bind, require_true (by omega), ok_bind, if_pos (by omega), require_true rfl, ok_bind, r3, ok_bind, r4, ok_bind]
  rfl

/-- The name and the data that are returned are parts of the record. -/
theorem c38_within (key value : Bytes) (a : Attribute) (h : readAttribute (key, value) = ok a) :
    (∃ x y, key = x ++ (a.name ++ y)) ∧ 0 < a.name.length ∧ ∀ data ∈ a.data, data.length = a.size ∧ ∃ x y, value = x ++ (data ++ y) := by
  unfold readAttribute at h
  obtain ⟨name, hn, h⟩ := bind_eq_ok.1 h
  obtain ⟨⟨flags, data, stream, size⟩, hv, h⟩ := bind_eq_ok.1 h
  cases h
  have part : ∀ {d : Bytes} {off n : Nat} {x : Bytes}, rdN d off n = ok x → (∃ a b, d = a ++ (x ++ b)) ∧ x.length = n := by
    intro d off n x hx
    obtain ⟨hle, hslice⟩ := rdN_inv hx
    refine ⟨⟨d.take off, d.drop (off + n), ?_⟩, rdN_length hx⟩
    rw [← hslice, ← eq_take_drop, List.take_append_drop]
  refine ⟨?_, ?_, ?_⟩
  · unfold readAttributeKey at hn
    obtain ⟨_, _, hn⟩ := bind_eq_ok.1 hn
    obtain ⟨_, _, hn⟩ := bind_eq_ok.1 hn
    obtain ⟨_, _, hn⟩ := bind_eq_ok.1 hn
    exact (part hn).1
  · unfold readAttributeKey at hn
    obtain ⟨_, _, hn⟩ := bind_eq_ok.1 hn
    obtain ⟨_, _, hn⟩ := bind_eq_ok.1 hn
    obtain ⟨_, h2, hn⟩ := bind_eq_ok.1 hn
    have := (require_eq_ok _).1 h2
    have := (part hn).2
    simp only
    omega
  · intro x hx
    simp only at hx
    unfold readAttributeValue at hv
    obtain ⟨_, _, hv⟩ := bind_eq_ok.1 hv
    obtain ⟨_, _, hv⟩ := bind_eq_ok.1 hv
    obtain ⟨_, _, hv⟩ := bind_eq_ok.1 hv
    obtain ⟨_, _, hv⟩ := bind_eq_ok.1 hv
    split at hv
    · obtain ⟨_, _, hv⟩ := bind_eq_ok.1 hv
      obtain ⟨_, _, hv⟩ := bind_eq_ok.1 hv
      obtain ⟨_, _, hv⟩ := bind_eq_ok.1 hv
      cases hv
      cases hx
    · split at hv
      · obtain ⟨y, hy, hv⟩ := bind_eq_ok.1 hv
        cases hv
        cases hx
        exact ⟨(part hy).2, (part hy).1⟩
      · cases hv
        cases hx

example : readAttribute (xattrKey 3 [99, 111, 109, 0], xattrValue 2 [1, 2, 3, 4, 5]) = ok { name := [99, 111, 109, 0], flags := 2, data := some [1, 2, 3, 4, 5], stream := 0, size := 5 } := by
  decide +kernel

example : readAttribute (xattrKey 3 [99, 0], xattrValue 1 (xattrStream 77 70000 (List.replicate 32 0))) = ok { name := [99, 0], flags := 1, data := none, stream := 77, size := 70000 } := by
  decide +kernel

end Verif.Props
