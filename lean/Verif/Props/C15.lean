import Verif.Lemmas.KeyBag
/-!
# C15 Parsing a packed key-encrypted key never leaves the blob
-/
namespace Verif.Props
open Verif Res Spec KeyBag

/-- Partial: whatever the bytes, parsing reads nothing beyond the third byte behind the object. (The full claim, nothing beyond the
object, is false, see `c15_overread`.) -/
theorem c15_safe_partial (mem : Bytes) (size : Nat) (h : size + 3 ≤ mem.length) : Safe (readKek mem size) := readKek_safe h

/-- An object of 3 bytes for which the parser reads past the object. -/
theorem c15_overread : readKek [0x30, 0x00, 0x81] 3 = ub := by decide +kernel

/-- The same with 2 more readable bytes: all 3 bytes behind the object are read. -/
theorem c15_overread_three : readKek [0x30, 0x00, 0x81, 0x82, 0x01] 3 = ub := by decide +kernel

/-- A well-formed object yields exactly its fields, without a byte behind it being looked at. -/
theorem c15_fields (o : KekFields) (h : o.Wf) (rest : Bytes) :
    readKek (o.encode ++ rest) o.encode.length =
      ok { hmac := o.hmac, identifier := o.uuid, method := o.method, wrapped := o.wrapped, iterations := beNat o.iterations, salt := o.salt } :=
  readKek_encode o h rest

/-- An object holding a value of 256 bytes or more is not understood: sizes are read as little endian whereas DER stores
them as big endian. Here an additional attribute (tag 0x99) of 256 bytes precedes the others. -/
theorem c15_long_length_refused : readKek (der 0x30 (der 0x99 (List.replicate 256 1))) (der 0x30 (der 0x99 (List.replicate 256 1))).length = err := by
  decide +kernel

def kekExample : KekFields where
  hmac := List.replicate 32 1
  hmacSalt := List.replicate 8 2
  uuid := List.replicate 16 3
  method := 2
  flags := [0, 0, 0, 0]
  wrapped := List.replicate 40 4
  iterations := [1, 0x86, 0xa0]
  salt := List.replicate 16 5

example : kekExample.Wf := by constructor <;> decide
example : readKek kekExample.encode kekExample.encode.length = ok
    { hmac := List.replicate 32 1, identifier := List.replicate 16 3, method := 2, wrapped := List.replicate 40 4, iterations := 100000, salt := List.replicate 16 5 } := by
  have := c15_fields kekExample (by constructor <;> decide) []
  rw [List.append_nil] at this
  exact this
example : Safe (readKek [0x30, 0x00, 0x81, 0x82, 0x01, 0x02] 3) := c15_safe_partial _ 3 (by decide)

end Verif.Props
