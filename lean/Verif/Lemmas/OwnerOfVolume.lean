import Verif.Lemmas.OwnerRun
import Verif.Spec.OwnershipKnown

/-!
The checks of the functions of containers, volumes and snapshots.
-/

namespace Verif.Owner

open Verif.Spec.Owner

theorem lib_container : ∀ e ∈ Lib.in_container, e ∉ losing → Safe e.2 :=
  forall_cons (fun h => absurd (.head _) h)
    (forall_cons (fun h => absurd (.tail _ (.head _)) h)
    (forall_cons (fun h => absurd (.tail _ (.tail _ (.head _))) h)
    (forall_cons (fun h => absurd (.tail _ (.tail _ (.tail _ (.head _)))) h)
    (forall_cons (fun _ => check_safe 20000 (by decide +kernel))
    (forall_cons (fun _ => check_safe 20000 (by decide +kernel))
    (forall_cons (fun _ => check_safe 20000 (by decide +kernel))
    (forall_cons (fun h => absurd (.tail _ (.tail _ (.tail _ (.tail _ (.head _))))) h)
    (forall_nil))))))))

theorem lib_container_returns : ∀ e ∈ Lib.in_container, e.1 ∉ notOne → Returns e.2 true :=
  forall_cons (fun _ => retRun_returns (bits 63 9223372036854775802) (by decide +kernel))
    (forall_cons (fun _ => retRun_returns (bits 5 26) (by decide +kernel))
    (forall_cons (fun _ => retRun_returns (bits 21 2097038) (by decide +kernel))
    (forall_cons (fun _ => retRun_returns (bits 21 2097038) (by decide +kernel))
    (forall_cons (fun h => absurd (.head _) h)
    (forall_cons (fun _ => retRun_returns (bits 89 309181597774800868450761727) (by decide +kernel))
    (forall_cons (fun _ => retRun_returns (bits 6 61) (by decide +kernel))
    (forall_cons (fun _ => retRun_returns (bits 23 8388482) (by decide +kernel))
    (forall_nil))))))))

theorem lib_snapshot : ∀ e ∈ Lib.in_snapshot, e ∉ losing → Safe e.2 :=
  forall_cons (fun _ => check_safe 20000 (by decide +kernel))
    (forall_cons (fun h => absurd (.tail _ (.tail _ (.tail _ (.tail _ (.tail _ (.tail _ (.tail _ (.tail _ (.tail _ (.tail _ (.tail _ (.tail _ (.tail _ (.tail _ (.tail _ (.head _)))))))))))))))) h)
    (forall_cons (fun _ => check_safe 20000 (by decide +kernel))
    (forall_cons (fun _ => check_safe 20000 (by decide +kernel))
    (forall_cons (fun _ => check_safe 20000 (by decide +kernel))
    (forall_cons (fun _ => check_safe 20000 (by decide +kernel))
    (forall_cons (fun _ => check_safe 20000 (by decide +kernel))
    (forall_cons (fun _ => check_safe 20000 (by decide +kernel))
    (forall_nil))))))))

theorem lib_snapshot_returns : ∀ e ∈ Lib.in_snapshot, e.1 ∉ notOne → Returns e.2 true :=
  forall_cons (fun _ => retRun_returns (bits 31 2147483530) (by decide +kernel))
    (forall_cons (fun _ => retRun_returns (bits 5 26) (by decide +kernel))
    (forall_cons (fun _ => retRun_returns (bits 16 65463) (by decide +kernel))
    (forall_cons (fun h => absurd (.tail _ (.tail _ (.tail _ (.head _)))) h)
    (forall_cons (fun _ => retRun_returns (bits 6 61) (by decide +kernel))
    (forall_cons (fun _ => retRun_returns (bits 6 61) (by decide +kernel))
    (forall_cons (fun _ => retRun_returns (bits 6 61) (by decide +kernel))
    (forall_cons (fun _ => retRun_returns (bits 6 61) (by decide +kernel))
    (forall_nil))))))))

theorem lib_volume : ∀ e ∈ Lib.in_volume, e ∉ losing → Safe e.2 :=
  forall_cons (fun _ => check_safe 20000 (by decide +kernel))
    (forall_cons (fun _ => check_safe 20000 (by decide +kernel))
    (forall_cons (fun _ => check_safe 20000 (by decide +kernel))
    (forall_cons (fun _ => check_safe 20000 (by decide +kernel))
    (forall_cons (fun _ => check_safe 20000 (by decide +kernel))
    (forall_cons (fun _ => check_safe 20000 (by decide +kernel))
    (forall_cons (fun _ => check_safe 20000 (by decide +kernel))
    (forall_cons (fun _ => check_safe 20000 (by decide +kernel))
    (forall_cons (fun _ => check_safe 20000 (by decide +kernel))
    (forall_cons (fun _ => check_safe 20000 (by decide +kernel))
    (forall_cons (fun _ => check_safe 20000 (by decide +kernel))
    (forall_cons (fun _ => check_safe 20000 (by decide +kernel))
    (forall_cons (fun _ => check_safe 20000 (by decide +kernel))
    (forall_cons (fun _ => check_safe 20000 (by decide +kernel))
    (forall_cons (fun _ => check_safe 20000 (by decide +kernel))
    (forall_cons (fun h => absurd (.tail _ (.tail _ (.tail _ (.tail _ (.tail _ (.tail _ (.tail _ (.tail _ (.tail _ (.tail _ (.tail _ (.tail _ (.tail _ (.tail _ (.tail _ (.tail _ (.tail _ (.head _)))))))))))))))))) h)
    (forall_cons (fun _ => check_safe 20000 (by decide +kernel))
    (forall_cons (fun h => absurd (.tail _ (.tail _ (.tail _ (.tail _ (.tail _ (.tail _ (.tail _ (.tail _ (.tail _ (.tail _ (.tail _ (.tail _ (.tail _ (.tail _ (.tail _ (.tail _ (.tail _ (.tail _ (.head _))))))))))))))))))) h)
    (forall_cons (fun h => absurd (.tail _ (.tail _ (.tail _ (.tail _ (.tail _ (.tail _ (.tail _ (.tail _ (.tail _ (.tail _ (.tail _ (.tail _ (.tail _ (.tail _ (.tail _ (.tail _ (.tail _ (.tail _ (.tail _ (.head _)))))))))))))))))))) h)
    (forall_cons (fun h => absurd (.tail _ (.tail _ (.tail _ (.tail _ (.tail _ (.tail _ (.tail _ (.tail _ (.tail _ (.tail _ (.tail _ (.tail _ (.tail _ (.tail _ (.tail _ (.tail _ (.tail _ (.tail _ (.tail _ (.tail _ (.head _))))))))))))))))))))) h)
    (forall_cons (fun _ => check_safe 20000 (by decide +kernel))
    (forall_cons (fun h => absurd (.tail _ (.tail _ (.tail _ (.tail _ (.tail _ (.tail _ (.tail _ (.tail _ (.tail _ (.tail _ (.tail _ (.tail _ (.tail _ (.tail _ (.tail _ (.tail _ (.tail _ (.tail _ (.tail _ (.tail _ (.tail _ (.head _)))))))))))))))))))))) h)
    (forall_nil))))))))))))))))))))))

theorem lib_volume_returns : ∀ e ∈ Lib.in_volume, e.1 ∉ notOne → Returns e.2 true :=
  forall_cons (fun _ => retRun_returns (bits 81 2417851639229258349412298) (by decide +kernel))
    (forall_cons (fun _ => retRun_returns (bits 5 26) (by decide +kernel))
    (forall_cons (fun _ => retRun_returns (bits 96 79227783543775374752398438271) (by decide +kernel))
    (forall_cons (fun h => absurd (.tail _ (.tail _ (.tail _ (.tail _ (.head _))))) h)
    (forall_cons (fun _ => retRun_returns (bits 7 121) (by decide +kernel))
    (forall_cons (fun _ => retRun_returns (bits 6 53) (by decide +kernel))
    (forall_cons (fun _ => retRun_returns (bits 7 121) (by decide +kernel))
    (forall_cons (fun _ => retRun_returns (bits 6 61) (by decide +kernel))
    (forall_cons (fun _ => retRun_returns (bits 6 61) (by decide +kernel))
    (forall_cons (fun _ => retRun_returns (bits 6 61) (by decide +kernel))
    (forall_cons (fun _ => retRun_returns (bits 6 61) (by decide +kernel))
    (forall_cons (fun _ => retRun_returns (bits 30 1073577599) (by decide +kernel))
    (forall_cons (fun _ => retRun_returns (bits 31 2147319679) (by decide +kernel))
    (forall_cons (fun _ => retRun_returns (bits 29 536788863) (by decide +kernel))
    (forall_cons (fun _ => retRun_returns (bits 31 2147319679) (by decide +kernel))
    (forall_cons (fun _ => retRun_returns (bits 19 524265) (by decide +kernel))
    (forall_cons (fun _ => retRun_returns (bits 32 4294964735) (by decide +kernel))
    (forall_cons (fun _ => retRun_returns (bits 19 524265) (by decide +kernel))
    (forall_cons (fun _ => retRun_returns (bits 23 8388294) (by decide +kernel))
    (forall_cons (fun _ => retRun_returns (bits 23 8388294) (by decide +kernel))
    (forall_cons (fun _ => retRun_returns (bits 6 61) (by decide +kernel))
    (forall_cons (fun _ => retRun_returns (bits 19 524274) (by decide +kernel))
    (forall_nil))))))))))))))))))))))

end Verif.Owner
