import Verif.Model.Base
/-!
# Layout of key bags and key-encrypted keys

APFS reference, "Encryption" (`media_keybag_t`, `kb_locker_t`, `keybag_entry_t`); the key-encrypted key is a DER object.
-/
namespace Verif.Spec
open Verif

/-- DER definite length -/
def derLength (n : Nat) : Bytes :=
  if n < 128 then [UInt8.ofNat n] else if n < 256 then [0x81, UInt8.ofNat n] else 0x82 :: toBE 2 n

/-- DER tag, length, value -/
def der (tag : UInt8) (value : Bytes) : Bytes := tag :: (derLength value.length ++ value)

/-- content of a key-encrypted key -/
structure KekFields where
  hmac : Bytes
  hmacSalt : Bytes
  uuid : Bytes
  method : Nat
  flags : Bytes
  wrapped : Bytes
  iterations : Bytes
  salt : Bytes

/-- the fields have the sizes the format asks for; the number of iterations is a big-endian number of 1 to 8 bytes -/
structure KekFields.Wf (o : KekFields) : Prop where
  hmac : o.hmac.length = 32
  hmacSalt : o.hmacSalt.length = 8
  uuid : o.uuid.length = 16
  method : o.method < 2 ^ 32
  flags : o.flags.length = 4
  wrapped : o.wrapped.length = 40
  iterations : 1 ≤ o.iterations.length ∧ o.iterations.length ≤ 8
  salt : o.salt.length = 16

/-- the object as stored -/
def KekFields.encode (o : KekFields) : Bytes :=
  der 0x30 (der 0x81 o.hmac ++ (der 0x82 o.hmacSalt ++ der 0xa3
    (der 0x81 o.uuid ++ (der 0x82 (toLE 4 o.method ++ o.flags) ++ (der 0x83 o.wrapped ++ (der 0x84 o.iterations ++ der 0x85 o.salt))))))

/-- an entry of a key bag as stored, `pad` aligns the next entry -/
structure BagEntry where
  identifier : Bytes
  type : Nat
  reserved : Bytes
  data : Bytes
  pad : Bytes

structure BagEntry.Wf (e : BagEntry) : Prop where
  identifier : e.identifier.length = 16
  type : e.type < 65536
  reserved : e.reserved.length = 4
  data : 1 ≤ e.data.length ∧ e.data.length < 65536
  pad : e.pad.length < 16 ∧ (24 + e.data.length + e.pad.length) % 16 = 0

def BagEntry.encode (e : BagEntry) : Bytes :=
  e.identifier ++ (toLE 2 e.type ++ (toLE 2 e.data.length ++ (e.reserved ++ (e.data ++ e.pad))))

/-- a key bag: object header (32 bytes), locker header, entries and whatever follows them -/
def bagBlock (object : Bytes) (n size : Nat) (reserved : Bytes) (es : List BagEntry) (rest : Bytes) : Bytes :=
  object ++ (toLE 2 2 ++ (toLE 2 n ++ (toLE 4 size ++ (reserved ++ ((es.map BagEntry.encode).flatten ++ rest)))))

end Verif.Spec
