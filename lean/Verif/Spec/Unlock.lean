import Verif.Spec.KeyWrap
import Verif.Spec.Pbkdf2
/-!
# What it means for a secret to open a key, and HMAC
-/
namespace Verif.Spec
open Verif

/-- `wrapped` is the RFC 3394 wrapping of `key` under `kek` with the default integrity value -/
def WrapsKey (enc : Bytes → Bytes → Bytes) (kek wrapped key : Bytes) : Prop :=
  ∃ blocks : List Bytes, (∀ b ∈ blocks, b.length = 8) ∧ blocks.flatten = key ∧ wrapped = keyWrap (enc kek) defaultIv blocks

/-- RFC 2104: the block-sized key used by HMAC with a hash of 64-byte blocks -/
def hmacKey (hash : Bytes → Bytes) (key : Bytes) : Bytes :=
  let k := if key.length > 64 then hash key else key
  k ++ List.replicate (64 - k.length) 0

/-- RFC 2104 HMAC -/
def hmac (hash : Bytes → Bytes) (key text : Bytes) : Bytes :=
  hash (xorBytes (hmacKey hash key) (List.replicate 64 0x5c) ++ hash (xorBytes (hmacKey hash key) (List.replicate 64 0x36) ++ text))

end Verif.Spec
