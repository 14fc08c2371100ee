import Verif.Spec.Container
/-!
# Damage to a stored object

An object starts with eight bytes of checksum. Damage is confined to the checksum or to two adjacent 32-bit words of the rest; words that only differ as 0 and 2^32 - 1 do are
the same number modulo 2^32 - 1 and not told apart by the checksum.
-/
namespace Verif.Spec
open Verif

inductive Damaged : Bytes → Bytes → Prop
  | content (chk pre mid mid' post : Bytes) (hc : chk.length = 8) (hp : pre.length % 4 = 0) (hm : mid.length = 8) (hm' : mid'.length = 8) (hq : post.length % 4 = 0)
      (different : (leWords mid).map (· % (2 ^ 32 - 1)) ≠ (leWords mid').map (· % (2 ^ 32 - 1))) : Damaged (chk ++ (pre ++ mid ++ post)) (chk ++ (pre ++ mid' ++ post))
  | checksum (chk chk' rest : Bytes) (hc : chk.length = 8) (hc' : chk'.length = 8) (different : chk ≠ chk') : Damaged (chk ++ rest) (chk' ++ rest)

end Verif.Spec
