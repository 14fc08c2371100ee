import Verif.Model.EntryName
import Verif.Lemmas.Transcode
import Verif.Spec.Directory
/-!
# What libuna does with well-formed names

Names are characters other than the end of string, stored as UTF-8 with an end of string. Nothing is assumed about other names.
-/
namespace Verif.Spec
open Res Name Transcode

/-- a name of characters other than the end of string -/
def Text (name : List Nat) : Prop := ∀ c ∈ name, Scalar c ∧ c ≠ 0

/-- strings of an encoding are given with an end of string, if the buffer is large enough, and compare equal if they have the same characters -/
structure Converts {α : Type} {dq : Decoder α} (e : Enc dq) (u : EntryName.Una α) : Prop where
  size : ∀ name, Text name → u.size (some (storedName name)) = ok ((e.str name).length + 1)
  copy : ∀ name capacity, Text name → u.copy (some (storedName name)) capacity = if (e.str name).length + 1 ≤ capacity then ok (e.str name ++ e.enc 0) else err
  compare : ∀ a b, Text a → Text b → a ≠ [] → b ≠ [] → u.compare (storedName a) (e.str b) = ok (decide (a = b))
  null : u.size none = err ∧ ∀ capacity, u.copy none capacity = err

end Verif.Spec
