import Verif.Lemmas.NameUnicode
/-!
# Evaluation of the table checks: characters with a decomposition
-/
namespace Verif
namespace Name
open Spec (excluded)

theorem checked_dec : ∀ p ∈ Spec.Unicode.decompositionPages, p.2.all (fun e => checked e.1) = true := by decide +kernel

theorem checkedCompare_dec : ∀ p ∈ Spec.Unicode.decompositionPages, p.2.all (fun e => checkedCompare e.1) = true := by decide +kernel

end Name
end Verif
