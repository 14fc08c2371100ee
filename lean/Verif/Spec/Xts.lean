import Verif.Model.Base
/-!
# Sector encryption of APFS

A tweakable cipher works on one sector. The tweak of sector number `n` is `n` as a little-endian 128-bit number
(IEEE 1619 section 5.1; APFS reference, "Encryption").
-/
namespace Verif.Spec
open Verif

/-- tweak of a sector -/
def tweak (n : Nat) : Bytes := toLE 16 n

/-- a tweakable cipher on sectors of `bps` bytes -/
structure TweakableCipher (bps : Nat) (enc dec : Bytes → Bytes → Bytes) : Prop where
  encLen : ∀ t d, d.length = bps → (enc t d).length = bps
  decLen : ∀ t d, (dec t d).length = d.length
  decEnc : ∀ t d, d.length = bps → dec t (enc t d) = d

/-- the sectors on storage of the plain text sectors `plain`, the first one having number `first` -/
def encryptSectors (enc : Bytes → Bytes → Bytes) (first : Nat) (plain : List Bytes) : List Bytes :=
  plain.mapIdx (fun i s => enc (tweak (first + i)) s)

end Verif.Spec
