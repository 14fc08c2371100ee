import Verif.Lemmas.OwnerRun
import Verif.Spec.OwnershipKnownTools

/-!
The checks of the functions of fsapfstools.
-/

namespace Verif.Owner

open Verif.Spec.Owner

theorem tools_safe : ∀ e ∈ Tools.tools, e ∉ losingTools → Safe e.2 :=
  forall_cons (fun _ => check_safe 20000 (by decide +kernel))
    (forall_cons (fun _ => check_safe 20000 (by decide +kernel))
    (forall_cons (fun _ => check_safe 20000 (by decide +kernel))
    (forall_cons (fun _ => check_safe 20000 (by decide +kernel))
    (forall_cons (fun _ => check_safe 20000 (by decide +kernel))
    (forall_cons (fun _ => check_safe 20000 (by decide +kernel))
    (forall_cons (fun _ => check_safe 20000 (by decide +kernel))
    (forall_cons (fun _ => check_safe 20000 (by decide +kernel))
    (forall_cons (fun _ => check_safe 20000 (by decide +kernel))
    (forall_cons (fun _ => check_safe 20000 (by decide +kernel))
    (forall_cons (fun _ => check_safe 20000 (by decide +kernel))
    (forall_cons (fun _ => check_safe 20000 (by decide +kernel))
    (forall_cons (fun _ => check_safe 20000 (by decide +kernel))
    (forall_cons (fun _ => check_safe 20000 (by decide +kernel))
    (forall_cons (fun _ => check_safe 20000 (by decide +kernel))
    (forall_cons (fun _ => check_safe 20000 (by decide +kernel))
    (forall_cons (fun _ => check_safe 20000 (by decide +kernel))
    (forall_cons (fun _ => check_safe 20000 (by decide +kernel))
    (forall_cons (fun _ => check_safe 20000 (by decide +kernel))
    (forall_cons (fun _ => check_safe 20000 (by decide +kernel))
    (forall_cons (fun _ => check_safe 20000 (by decide +kernel))
    (forall_cons (fun _ => check_safe 20000 (by decide +kernel))
    (forall_cons (fun h => absurd (.head _) h)
    (forall_cons (fun _ => check_safe 20000 (by decide +kernel))
    (forall_cons (fun _ => check_safe 20000 (by decide +kernel))
    (forall_cons (fun _ => check_safe 20000 (by decide +kernel))
    (forall_cons (fun _ => check_safe 20000 (by decide +kernel))
    (forall_cons (fun _ => check_safe 20000 (by decide +kernel))
    (forall_cons (fun _ => check_safe 20000 (by decide +kernel))
    (forall_cons (fun _ => check_safe 20000 (by decide +kernel))
    (forall_cons (fun _ => check_safe 20000 (by decide +kernel))
    (forall_cons (fun _ => check_safe 20000 (by decide +kernel))
    (forall_cons (fun _ => check_safe 20000 (by decide +kernel))
    (forall_cons (fun _ => check_safe 20000 (by decide +kernel))
    (forall_cons (fun _ => check_safe 20000 (by decide +kernel))
    (forall_cons (fun _ => check_safe 20000 (by decide +kernel))
    (forall_cons (fun h => absurd (.tail _ (.head _)) h)
    (forall_cons (fun _ => check_safe 20000 (by decide +kernel))
    (forall_cons (fun _ => check_safe 20000 (by decide +kernel))
    (forall_cons (fun _ => check_safe 20000 (by decide +kernel))
    (forall_cons (fun h => absurd (.tail _ (.tail _ (.head _))) h)
    (forall_cons (fun _ => check_safe 20000 (by decide +kernel))
    (forall_cons (fun _ => check_safe 20000 (by decide +kernel))
    (forall_cons (fun _ => check_safe 20000 (by decide +kernel))
    (forall_cons (fun _ => check_safe 20000 (by decide +kernel))
    (forall_cons (fun _ => check_safe 20000 (by decide +kernel))
    (forall_cons (fun h => absurd (.tail _ (.tail _ (.tail _ (.head _)))) h)
    (forall_cons (fun _ => check_safe 20000 (by decide +kernel))
    (forall_cons (fun _ => check_safe 20000 (by decide +kernel))
    (forall_cons (fun _ => check_safe 20000 (by decide +kernel))
    (forall_cons (fun _ => check_safe 20000 (by decide +kernel))
    (forall_cons (fun _ => check_safe 20000 (by decide +kernel))
    (forall_cons (fun _ => check_safe 20000 (by decide +kernel))
    (forall_cons (fun _ => check_safe 20000 (by decide +kernel))
    (forall_cons (fun h => absurd (.tail _ (.tail _ (.tail _ (.tail _ (.head _))))) h)
    (forall_cons (fun _ => check_safe 20000 (by decide +kernel))
    (forall_cons (fun _ => check_safe 20000 (by decide +kernel))
    (forall_cons (fun _ => check_safe 20000 (by decide +kernel))
    (forall_cons (fun _ => check_safe 20000 (by decide +kernel))
    (forall_cons (fun _ => check_safe 20000 (by decide +kernel))
    (forall_cons (fun _ => check_safe 20000 (by decide +kernel))
    (forall_cons (fun _ => check_safe 20000 (by decide +kernel))
    (forall_cons (fun _ => check_safe 20000 (by decide +kernel))
    (forall_nil)))))))))))))))))))))))))))))))))))))))))))))))))))))))))))))))

theorem tools_returns : ∀ e ∈ Tools.tools, e.1 ∉ toolsNotOne → Returns e.2 true :=
  forall_cons (fun _ => retRun_returns (bits 15 30593) (by decide +kernel))
    (forall_cons (fun _ => retRun_returns (bits 1 0) (by decide +kernel))
    (forall_cons (fun _ => retRun_returns (bits 12 2063) (by decide +kernel))
    (forall_cons (fun _ => retRun_returns (bits 1 0) (by decide +kernel))
    (forall_cons (fun _ => retRun_returns (bits 9 287) (by decide +kernel))
    (forall_cons (fun _ => retRun_returns (bits 41 2199023255542) (by decide +kernel))
    (forall_cons (fun _ => retRun_returns (bits 6 54) (by decide +kernel))
    (forall_cons (fun _ => retRun_returns (bits 21 1048063) (by decide +kernel))
    (forall_cons (fun _ => retRun_returns (bits 21 1048063) (by decide +kernel))
    (forall_cons (fun _ => retRun_returns (bits 21 2091494) (by decide +kernel))
    (forall_cons (fun _ => retRun_returns (bits 13 8126) (by decide +kernel))
    (forall_cons (fun _ => retRun_returns (bits 6 62) (by decide +kernel))
    (forall_cons (fun _ => retRun_returns (bits 3 5) (by decide +kernel))
    (forall_cons (fun _ => retRun_returns (bits 17 131069) (by decide +kernel))
    (forall_cons (fun _ => retRun_returns (bits 13 8185) (by decide +kernel))
    (forall_cons (fun _ => retRun_returns (bits 7 126) (by decide +kernel))
    (forall_cons (fun _ => retRun_returns (bits 27 134213620) (by decide +kernel))
    (forall_cons (fun _ => retRun_returns (bits 19 458713) (by decide +kernel))
    (forall_cons (fun _ => retRun_returns (bits 6 5) (by decide +kernel))
    (forall_cons (fun _ => retRun_returns (bits 29 536870885) (by decide +kernel))
    (forall_cons (fun _ => retRun_returns (bits 38 274341035977) (by decide +kernel))
    (forall_cons (fun _ => retRun_returns (bits 14 15333) (by decide +kernel))
    (forall_cons (fun _ => retRun_returns (bits 20 523261) (by decide +kernel))
    (forall_cons (fun _ => retRun_returns (bits 12 2045) (by decide +kernel))
    (forall_cons (fun _ => retRun_returns (bits 28 251658030) (by decide +kernel))
    (forall_cons (fun _ => retRun_returns (bits 6 54) (by decide +kernel))
    (forall_cons (fun _ => retRun_returns (bits 31 2147483622) (by decide +kernel))
    (forall_cons (fun _ => retRun_returns (bits 21 2097138) (by decide +kernel))
    (forall_cons (fun _ => retRun_returns (bits 17 114678) (by decide +kernel))
    (forall_cons (fun _ => retRun_returns (bits 6 54) (by decide +kernel))
    (forall_cons (fun _ => retRun_returns (bits 9 495) (by decide +kernel))
    (forall_cons (fun _ => retRun_returns (bits 19 524285) (by decide +kernel))
    (forall_cons (fun _ => retRun_returns (bits 27 134216957) (by decide +kernel))
    (forall_cons (fun _ => retRun_returns (bits 19 515831) (by decide +kernel))
    (forall_cons (fun _ => retRun_returns (bits 13 8067) (by decide +kernel))
    (forall_cons (fun _ => retRun_returns (bits 10 983) (by decide +kernel))
    (forall_cons (fun _ => retRun_returns (bits 13 8131) (by decide +kernel))
    (forall_cons (fun _ => retRun_returns (bits 12 4065) (by decide +kernel))
    (forall_cons (fun _ => retRun_returns (bits 17 130807) (by decide +kernel))
    (forall_cons (fun _ => retRun_returns (bits 19 523489) (by decide +kernel))
    (forall_cons (fun _ => retRun_returns (bits 10 983) (by decide +kernel))
    (forall_cons (fun _ => retRun_returns (bits 11 2033) (by decide +kernel))
    (forall_cons (fun _ => retRun_returns (bits 10 1017) (by decide +kernel))
    (forall_cons (fun _ => retRun_returns (bits 2 2) (by decide +kernel))
    (forall_cons (fun _ => retRun_returns (bits 24 16777206) (by decide +kernel))
    (forall_cons (fun _ => retRun_returns (bits 6 54) (by decide +kernel))
    (forall_cons (fun _ => retRun_returns (bits 59 576459927669702519) (by decide +kernel))
    (forall_cons (fun h => absurd (.head _) h)
    (forall_cons (fun _ => retRun_returns (bits 21 2091494) (by decide +kernel))
    (forall_cons (fun _ => retRun_returns (bits 23 8388577) (by decide +kernel))
    (forall_cons (fun _ => retRun_returns (bits 16 59265) (by decide +kernel))
    (forall_cons (fun _ => retRun_returns (bits 17 118529) (by decide +kernel))
    (forall_cons (fun _ => retRun_returns (bits 15 30593) (by decide +kernel))
    (forall_cons (fun _ => retRun_returns (bits 16 59265) (by decide +kernel))
    (forall_cons (fun _ => retRun_returns (bits 9 287) (by decide +kernel))
    (forall_cons (fun _ => retRun_returns (bits 7 110) (by decide +kernel))
    (forall_cons (fun _ => retRun_returns (bits 17 130807) (by decide +kernel))
    (forall_cons (fun _ => retRun_returns (bits 10 983) (by decide +kernel))
    (forall_cons (fun _ => retRun_returns (bits 14 8067) (by decide +kernel))
    (forall_cons (fun _ => retRun_returns (bits 26 62914045) (by decide +kernel))
    (forall_cons (fun _ => retRun_returns (bits 21 2097149) (by decide +kernel))
    (forall_cons (fun _ => retRun_returns (bits 1 1) (by decide +kernel))
    (forall_cons (fun _ => retRun_returns (bits 7 110) (by decide +kernel))
    (forall_nil)))))))))))))))))))))))))))))))))))))))))))))))))))))))))))))))

end Verif.Owner
