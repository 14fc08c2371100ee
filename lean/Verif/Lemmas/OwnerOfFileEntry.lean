import Verif.Lemmas.OwnerRun
import Verif.Spec.OwnershipKnown

/-!
The checks of the functions of file entries and extended attributes.
-/

namespace Verif.Owner

open Verif.Spec.Owner

theorem lib_extended_attribute : ∀ e ∈ Lib.in_extended_attribute, Safe e.2 :=
  forall_cons (check_safe 20000 (by decide +kernel))
    (forall_cons (check_safe 20000 (by decide +kernel))
    (forall_cons (check_safe 20000 (by decide +kernel))
    (forall_cons (check_safe 20000 (by decide +kernel))
    (forall_cons (check_safe 20000 (by decide +kernel))
    (forall_cons (check_safe 20000 (by decide +kernel))
    (forall_cons (check_safe 20000 (by decide +kernel))
    (forall_cons (check_safe 20000 (by decide +kernel))
    (forall_cons (check_safe 20000 (by decide +kernel))
    (forall_cons (check_safe 20000 (by decide +kernel))
    (forall_cons (check_safe 20000 (by decide +kernel))
    (forall_cons (check_safe 20000 (by decide +kernel))
    (forall_cons (check_safe 20000 (by decide +kernel))
    (forall_nil)))))))))))))

theorem lib_extended_attribute_returns : ∀ e ∈ Lib.in_extended_attribute, e.1 ∉ notOne → Returns e.2 true :=
  forall_cons (fun _ => retRun_returns (bits 32 4294967274) (by decide +kernel))
    (forall_cons (fun _ => retRun_returns (bits 5 26) (by decide +kernel))
    (forall_cons (fun _ => retRun_returns (bits 6 61) (by decide +kernel))
    (forall_cons (fun _ => retRun_returns (bits 6 61) (by decide +kernel))
    (forall_cons (fun _ => retRun_returns (bits 6 61) (by decide +kernel))
    (forall_cons (fun _ => retRun_returns (bits 6 61) (by decide +kernel))
    (forall_cons (fun _ => retRun_returns (bits 14 16383) (by decide +kernel))
    (forall_cons (fun _ => retRun_returns (bits 17 126462) (by decide +kernel))
    (forall_cons (fun _ => retRun_returns (bits 17 126462) (by decide +kernel))
    (forall_cons (fun _ => retRun_returns (bits 17 126462) (by decide +kernel))
    (forall_cons (fun _ => retRun_returns (bits 20 1040381) (by decide +kernel))
    (forall_cons (fun _ => retRun_returns (bits 10 1013) (by decide +kernel))
    (forall_cons (fun _ => retRun_returns (bits 19 524097) (by decide +kernel))
    (forall_nil)))))))))))))

theorem lib_file_entry : ∀ e ∈ Lib.in_file_entry, e ∉ losing → Safe e.2 :=
  forall_cons (fun _ => check_safe 20000 (by decide +kernel))
    (forall_cons (fun _ => check_safe 20000 (by decide +kernel))
    (forall_cons (fun _ => check_safe 20000 (by decide +kernel))
    (forall_cons (fun _ => check_safe 20000 (by decide +kernel))
    (forall_cons (fun h => absurd (.tail _ (.tail _ (.tail _ (.tail _ (.tail _ (.head _)))))) h)
    (forall_cons (fun _ => check_safe 20000 (by decide +kernel))
    (forall_cons (fun _ => check_safe 20000 (by decide +kernel))
    (forall_cons (fun _ => check_safe 20000 (by decide +kernel))
    (forall_cons (fun _ => check_safe 20000 (by decide +kernel))
    (forall_cons (fun _ => check_safe 20000 (by decide +kernel))
    (forall_cons (fun _ => check_safe 20000 (by decide +kernel))
    (forall_cons (fun _ => check_safe 20000 (by decide +kernel))
    (forall_cons (fun _ => check_safe 20000 (by decide +kernel))
    (forall_cons (fun _ => check_safe 20000 (by decide +kernel))
    (forall_cons (fun _ => check_safe 20000 (by decide +kernel))
    (forall_cons (fun _ => check_safe 20000 (by decide +kernel))
    (forall_cons (fun _ => check_safe 20000 (by decide +kernel))
    (forall_cons (fun _ => check_safe 20000 (by decide +kernel))
    (forall_cons (fun _ => check_safe 20000 (by decide +kernel))
    (forall_cons (fun _ => check_safe 20000 (by decide +kernel))
    (forall_cons (fun _ => check_safe 20000 (by decide +kernel))
    (forall_cons (fun _ => check_safe 20000 (by decide +kernel))
    (forall_cons (fun _ => check_safe 20000 (by decide +kernel))
    (forall_cons (fun _ => check_safe 20000 (by decide +kernel))
    (forall_cons (fun _ => check_safe 20000 (by decide +kernel))
    (forall_cons (fun _ => check_safe 20000 (by decide +kernel))
    (forall_cons (fun _ => check_safe 20000 (by decide +kernel))
    (forall_cons (fun h => absurd (.tail _ (.tail _ (.tail _ (.tail _ (.tail _ (.tail _ (.head _))))))) h)
    (forall_cons (fun _ => check_safe 20000 (by decide +kernel))
    (forall_cons (fun _ => check_safe 20000 (by decide +kernel))
    (forall_cons (fun _ => check_safe 20000 (by decide +kernel))
    (forall_cons (fun _ => check_safe 20000 (by decide +kernel))
    (forall_cons (fun h => absurd (.tail _ (.tail _ (.tail _ (.tail _ (.tail _ (.tail _ (.tail _ (.head _)))))))) h)
    (forall_cons (fun h => absurd (.tail _ (.tail _ (.tail _ (.tail _ (.tail _ (.tail _ (.tail _ (.tail _ (.head _))))))))) h)
    (forall_cons (fun _ => check_safe 20000 (by decide +kernel))
    (forall_cons (fun _ => check_safe 20000 (by decide +kernel))
    (forall_cons (fun _ => check_safe 20000 (by decide +kernel))
    (forall_cons (fun _ => check_safe 20000 (by decide +kernel))
    (forall_cons (fun _ => check_safe 20000 (by decide +kernel))
    (forall_cons (fun _ => check_safe 20000 (by decide +kernel))
    (forall_cons (fun h => absurd (.tail _ (.tail _ (.tail _ (.tail _ (.tail _ (.tail _ (.tail _ (.tail _ (.tail _ (.head _)))))))))) h)
    (forall_cons (fun _ => check_safe 20000 (by decide +kernel))
    (forall_cons (fun h => absurd (.tail _ (.tail _ (.tail _ (.tail _ (.tail _ (.tail _ (.tail _ (.tail _ (.tail _ (.tail _ (.head _))))))))))) h)
    (forall_cons (fun _ => check_safe 20000 (by decide +kernel))
    (forall_cons (fun _ => check_safe 20000 (by decide +kernel))
    (forall_cons (fun _ => check_safe 20000 (by decide +kernel))
    (forall_nil))))))))))))))))))))))))))))))))))))))))))))))

theorem lib_file_entry_returns : ∀ e ∈ Lib.in_file_entry, e.1 ∉ notOne → Returns e.2 true :=
  forall_cons (fun _ => retRun_returns (bits 72 4722366482869645213678) (by decide +kernel))
    (forall_cons (fun _ => retRun_returns (bits 5 26) (by decide +kernel))
    (forall_cons (fun _ => retRun_returns (bits 6 61) (by decide +kernel))
    (forall_cons (fun _ => retRun_returns (bits 6 61) (by decide +kernel))
    (forall_cons (fun _ => retRun_returns (bits 23 8388582) (by decide +kernel))
    (forall_cons (fun _ => retRun_returns (bits 6 61) (by decide +kernel))
    (forall_cons (fun _ => retRun_returns (bits 6 61) (by decide +kernel))
    (forall_cons (fun _ => retRun_returns (bits 6 61) (by decide +kernel))
    (forall_cons (fun _ => retRun_returns (bits 6 61) (by decide +kernel))
    (forall_cons (fun _ => retRun_returns (bits 12 4093) (by decide +kernel))
    (forall_cons (fun _ => retRun_returns (bits 6 61) (by decide +kernel))
    (forall_cons (fun _ => retRun_returns (bits 6 61) (by decide +kernel))
    (forall_cons (fun _ => retRun_returns (bits 11 2045) (by decide +kernel))
    (forall_cons (fun _ => retRun_returns (bits 11 2045) (by decide +kernel))
    (forall_cons (fun _ => retRun_returns (bits 6 61) (by decide +kernel))
    (forall_cons (fun _ => retRun_returns (bits 6 61) (by decide +kernel))
    (forall_cons (fun _ => retRun_returns (bits 7 125) (by decide +kernel))
    (forall_cons (fun _ => retRun_returns (bits 7 125) (by decide +kernel))
    (forall_cons (fun _ => retRun_returns (bits 7 125) (by decide +kernel))
    (forall_cons (fun _ => retRun_returns (bits 7 125) (by decide +kernel))
    (forall_cons (fun _ => retRun_returns (bits 31 1610612727) (by decide +kernel))
    (forall_cons (fun _ => retRun_returns (bits 13 3071) (by decide +kernel))
    (forall_cons (fun _ => retRun_returns (bits 24 16777213) (by decide +kernel))
    (forall_cons (fun _ => retRun_returns (bits 24 16777213) (by decide +kernel))
    (forall_cons (fun _ => retRun_returns (bits 24 16777213) (by decide +kernel))
    (forall_cons (fun _ => retRun_returns (bits 24 16777213) (by decide +kernel))
    (forall_cons (fun _ => retRun_returns (bits 24 16777213) (by decide +kernel))
    (forall_cons (fun _ => retRun_returns (bits 37 137438953334) (by decide +kernel))
    (forall_cons (fun _ => retRun_returns (bits 18 262130) (by decide +kernel))
    (forall_cons (fun _ => retRun_returns (bits 18 262130) (by decide +kernel))
    (forall_cons (fun _ => retRun_returns (bits 12 4093) (by decide +kernel))
    (forall_cons (fun _ => retRun_returns (bits 12 4093) (by decide +kernel))
    (forall_cons (fun _ => retRun_returns (bits 25 33554406) (by decide +kernel))
    (forall_cons (fun _ => retRun_returns (bits 25 33554406) (by decide +kernel))
    (forall_cons (fun _ => retRun_returns (bits 24 16777215) (by decide +kernel))
    (forall_cons (fun _ => retRun_returns (bits 10 1013) (by decide +kernel))
    (forall_cons (fun _ => retRun_returns (bits 30 1073741746) (by decide +kernel))
    (forall_cons (fun _ => retRun_returns (bits 31 2147483622) (by decide +kernel))
    (forall_cons (fun _ => retRun_returns (bits 31 2147483622) (by decide +kernel))
    (forall_cons (fun _ => retRun_returns (bits 24 16777215) (by decide +kernel))
    (forall_cons (fun _ => retRun_returns (bits 25 33468159) (by decide +kernel))
    (forall_cons (fun _ => retRun_returns (bits 10 1013) (by decide +kernel))
    (forall_cons (fun _ => retRun_returns (bits 21 2054143) (by decide +kernel))
    (forall_cons (fun _ => retRun_returns (bits 7 105) (by decide +kernel))
    (forall_cons (fun _ => retRun_returns (bits 10 1013) (by decide +kernel))
    (forall_cons (fun _ => retRun_returns (bits 19 524097) (by decide +kernel))
    (forall_nil))))))))))))))))))))))))))))))))))))))))))))))

end Verif.Owner
