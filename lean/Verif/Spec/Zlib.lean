import Verif.Spec.Deflate
import Verif.Spec.Adler
/-!
# zlib streams, RFC 1950 (independent of the model)
-/
namespace Verif.Spec
open Verif

/-- big-endian value -/
def beVal : List UInt8 → Nat := fun bs => bs.foldl (fun v b => v * 256 + b.toNat) 0

/-- Header: CM = 8, CINFO ≤ 7, and with FDICT (bit 5 of FLG) a 4 byte dictionary identifier. The check bits FCHECK
are left out here, see `FCheck`. -/
def ZHeader (h : List UInt8) : Prop :=
  ∃ (cmf flg : UInt8) (dict : List UInt8), h = cmf :: flg :: dict ∧ cmf.toNat % 16 = 8 ∧ cmf.toNat / 16 ≤ 7 ∧
    dict.length = if flg.toNat / 32 % 2 = 1 then 4 else 0

/-- the check bits: CMF*256 + FLG is a multiple of 31 -/
def FCheck (h : List UInt8) : Prop := beVal (h.take 2) % 31 = 0

/-- `d` is an RFC 1950 stream of `out`: header, blocks ended by a last block, padding to a byte, Adler-32; bytes after
the stream are ignored. -/
def ZStream (D : List Nat → Prop) (d out : List UInt8) : Prop :=
  ∃ (h body trailer more : List UInt8) (bits pad : List Bool), d = h ++ (body ++ (trailer ++ more)) ∧ ZHeader h ∧ FCheck h ∧
    Blocks D true 0 [] bits out ∧ bytesBits body = bits ++ pad ∧ pad.length < 8 ∧ trailer.length = 4 ∧
    beVal trailer = adler32 1 out

end Verif.Spec
