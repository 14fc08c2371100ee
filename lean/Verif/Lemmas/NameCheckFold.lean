import Verif.Lemmas.NameUnicode
/-!
# Evaluation of the table checks: characters with a case folding
-/
namespace Verif
namespace Name
open Spec (excluded)

theorem checked_cf : ∀ p ∈ Spec.Unicode.caseFoldingPages, p.2.all (fun e => checked e.1) = true := by decide +kernel

theorem checkedCompare_cf : ∀ p ∈ Spec.Unicode.caseFoldingPages, p.2.all (fun e => checkedCompare e.1) = true := by decide +kernel

theorem fold_values : foldTree.toList.all (fun e => (foldTree.find e.2).isNone) = true := by decide +kernel

theorem nfd_values : nfdSparse.all (fun e => e.2.all (fun d => !excluded d && (decTree.find d).isNone)) = true := by decide +kernel

end Name
end Verif
