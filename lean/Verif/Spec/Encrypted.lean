import Verif.Spec.KeyBag
import Verif.Spec.Unlock
import Verif.Spec.Xts
import Verif.Spec.Container
/-!
# Secrets and blocks of an encrypted volume

APFS reference, "Encryption": the volume key bag has key-encrypted keys (KEK) that wrap the volume key under keys derived from passwords; the container key bag has, for the volume, KEKs
that wrap the volume master key under the volume key. Blocks of metadata are encrypted with the volume master key sector by sector, sectors being numbered from the start of the
container.
-/
namespace Verif.Spec
open Verif

/-- entry `e` of a key bag has the KEK `o` -/
def HasKek (e : BagEntry) (o : KekFields) : Prop := o.Wf ∧ e.data = o.encode

/-- number of bytes of the key that a KEK for passwords wraps -/
def secretBytes (method : Nat) : Option Nat := if method = 0 ∨ method = 16 then some 32 else if method = 2 then some 16 else none

/-- number of bytes of the key that a KEK for the volume key wraps -/
def masterBytes (method : Nat) : Option Nat := if method = 0 then some 32 else if method = 2 then some 16 else none

/-- the KEK wraps key `x` of `n` bytes under password `pw` -/
def WrapsUnder (prf : Bytes → Bytes → Bytes) (enc : Bytes → Bytes → Bytes) (o : KekFields) (pw x : Bytes) : Prop :=
  secretBytes o.method = some x.length ∧ WrapsKey enc (pbkdf2 prf pw o.salt (beNat o.iterations) x.length) (o.wrapped.take (x.length + 8)) x

/-- the KEK wraps key `m` under the volume key -/
def WrapsMaster (enc : Bytes → Bytes → Bytes) (o : KekFields) (vk m : Bytes) : Prop :=
  masterBytes o.method = some m.length ∧ WrapsKey enc (vk.take m.length) (o.wrapped.take (m.length + 8)) m

/-- the two AES keys of a volume: the halves of a master key of 32 bytes; a master key of 16 bytes, followed by the start of its hash with the identifier -/
def volumeKeys (sha : Bytes → Bytes) (o : KekFields) (m : Bytes) : Bytes × Bytes :=
  if m.length = 32 then (m.take 16, m.drop 16) else (m, (sha (m ++ o.uuid)).take 16)

/-- The key bags of an encrypted volume are in order as far as the passwords in `S` are concerned: KEKs have supported methods, and passwords that open any of them lead to the
volume key `vk`, which leads to the AES keys `keys`. -/
structure Secrets (prf : Bytes → Bytes → Bytes) (enc : Bytes → Bytes → Bytes) (sha : Bytes → Bytes) (vb cb : List BagEntry) (uuid : Bytes) (S : Bytes → Prop) (vk : Bytes)
    (keys : Bytes × Bytes) : Prop where
  understood : ∀ e ∈ vb, e.type = 3 → ∃ o n, HasKek e o ∧ secretBytes o.method = some n ∧ 0 < beNat o.iterations ∧ beNat o.iterations < 2 ^ 32
  same : ∀ e ∈ vb, e.type = 3 → ∀ o, HasKek e o → ∀ pw, S pw → ∀ x, WrapsUnder prf enc o pw x → x = vk
  master : ∀ e ∈ cb, e.type = 2 → e.identifier = uuid → ∃ o n, HasKek e o ∧ masterBytes o.method = some n ∧ n ≤ vk.length
  sameMaster : ∀ e ∈ cb, e.type = 2 → e.identifier = uuid → ∀ o, HasKek e o → ∀ m, WrapsMaster enc o vk m → volumeKeys sha o m = keys
  wrapsMaster : ∃ e ∈ cb, e.type = 2 ∧ e.identifier = uuid ∧ ∃ o, HasKek e o ∧ ∃ m, WrapsMaster enc o vk m

/-- the password is a secret of the volume -/
def IsSecret (prf : Bytes → Bytes → Bytes) (enc : Bytes → Bytes → Bytes) (vb : List BagEntry) (pw : Bytes) : Prop :=
  ∃ e ∈ vb, e.type = 3 ∧ ∃ o, HasKek e o ∧ ∃ x, WrapsUnder prf enc o pw x

/-- `data` is stored in encrypted form in `n` blocks from block `b`; sectors are numbered from the start of the container -/
def StoredEncrypted (enc : Bytes → Bytes → Bytes) (image : Nat → Option Bytes) (b n : Nat) (data : Bytes) : Prop :=
  ∃ sectors blocks : List Bytes, sectors.length = n * 8 ∧ (∀ s ∈ sectors, s.length = 512) ∧ data = sectors.flatten ∧ blocks.length = n ∧ (∀ d ∈ blocks, d.length = 4096) ∧
    (∀ i, i < n → image (b + i) = blocks[i]?) ∧ blocks.flatten = (encryptSectors enc (b * 8) sectors).flatten

/-- `data` is a volume key bag with entries `vb` -/
def VolumeBag (data : Bytes) (vb : List BagEntry) : Prop :=
  ∃ (head : Bytes) (size : Nat) (reserved rest : Bytes), head.length = 24 ∧ size ≤ data.length - 32 ∧ size < 2 ^ 32 ∧ reserved.length = 8 ∧ vb.length < 65536 ∧ (∀ e ∈ vb, e.Wf) ∧
    data = bagBlock (head ++ toLE 4 0x72656373 ++ toLE 4 0) vb.length size reserved vb rest

/-- `data` is a container key bag with entries `cb` -/
def ContainerBag (data : Bytes) (cb : List BagEntry) : Prop :=
  Checked data ∧ ∃ (head : Bytes) (size : Nat) (reserved rest : Bytes), head.length = 24 ∧ size ≤ data.length - 32 ∧ size < 2 ^ 32 ∧ reserved.length = 8 ∧ cb.length < 65536 ∧
    (∀ e ∈ cb, e.Wf) ∧ data = bagBlock (head ++ toLE 4 0x6b657973 ++ toLE 4 0) cb.length size reserved cb rest

/-- the first entry of a container key bag for the key bag of volume `uuid` tells that it is in `n` blocks from block `b` -/
def BagExtent (cb : List BagEntry) (uuid : Bytes) (b n : Nat) : Prop :=
  ∃ pre e post, cb = pre ++ e :: post ∧ e.type = 3 ∧ e.identifier = uuid ∧ e.data = toLE 8 b ++ toLE 8 n ∧ ∀ x ∈ pre, ¬ (x.type = 3 ∧ x.identifier = uuid)

/-- the blocks `plain` are stored in encrypted form -/
def EncryptedBlocks (enc : Bytes → Bytes → Bytes) (image : Nat → Option Bytes) (plain : Nat → Option Bytes) : Prop :=
  ∀ b d, plain b = some d → StoredEncrypted enc image b 1 d

end Verif.Spec
