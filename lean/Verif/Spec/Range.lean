import Verif.Model.Base
/-!
# The bytes of a range
-/
namespace Verif.Spec

/-- the bytes of a content in a range, as far as there are any: byte `i` is the one at `offset + i` -/
def InRange (content : Bytes) (offset n : Nat) (d : Bytes) : Prop := d.length = min n (content.length - offset) ∧ ∀ i < d.length, d[i]? = content[offset + i]?

end Verif.Spec
