import Verif.Lemmas.OwnerRun
import Verif.Spec.OwnershipKnownPython

/-!
The checks of the functions of pyfsapfs.
-/

namespace Verif.Owner

open Verif.Spec.Owner

theorem python1_safe : ∀ e ∈ Python.python1, e ∉ losingPython → Safe e.2 :=
  forall_cons (fun _ => check_safe 20000 (by decide +kernel))
    (forall_cons (fun _ => check_safe 20000 (by decide +kernel))
    (forall_cons (fun _ => check_safe 20000 (by decide +kernel))
    (forall_cons (fun h => absurd (.head _) h)
    (forall_cons (fun h => absurd (.tail _ (.head _)) h)
    (forall_cons (fun h => absurd (.tail _ (.tail _ (.head _))) h)
    (forall_cons (fun h => absurd (.tail _ (.tail _ (.tail _ (.head _)))) h)
    (forall_cons (fun h => absurd (.tail _ (.tail _ (.tail _ (.tail _ (.head _))))) h)
    (forall_cons (fun _ => check_safe 20000 (by decide +kernel))
    (forall_cons (fun _ => check_safe 20000 (by decide +kernel))
    (forall_cons (fun h => absurd (.tail _ (.tail _ (.tail _ (.tail _ (.tail _ (.head _)))))) h)
    (forall_cons (fun _ => check_safe 20000 (by decide +kernel))
    (forall_cons (fun _ => check_safe 20000 (by decide +kernel))
    (forall_cons (fun _ => check_safe 20000 (by decide +kernel))
    (forall_cons (fun _ => check_safe 20000 (by decide +kernel))
    (forall_cons (fun _ => check_safe 20000 (by decide +kernel))
    (forall_cons (fun _ => check_safe 20000 (by decide +kernel))
    (forall_cons (fun _ => check_safe 20000 (by decide +kernel))
    (forall_cons (fun _ => check_safe 20000 (by decide +kernel))
    (forall_cons (fun _ => check_safe 20000 (by decide +kernel))
    (forall_cons (fun _ => check_safe 20000 (by decide +kernel))
    (forall_cons (fun _ => check_safe 20000 (by decide +kernel))
    (forall_cons (fun _ => check_safe 20000 (by decide +kernel))
    (forall_cons (fun _ => check_safe 20000 (by decide +kernel))
    (forall_cons (fun _ => check_safe 20000 (by decide +kernel))
    (forall_cons (fun _ => check_safe 20000 (by decide +kernel))
    (forall_cons (fun h => absurd (.tail _ (.tail _ (.tail _ (.tail _ (.tail _ (.tail _ (.head _))))))) h)
    (forall_cons (fun h => absurd (.tail _ (.tail _ (.tail _ (.tail _ (.tail _ (.tail _ (.tail _ (.head _)))))))) h)
    (forall_cons (fun _ => check_safe 20000 (by decide +kernel))
    (forall_cons (fun _ => check_safe 20000 (by decide +kernel))
    (forall_cons (fun _ => check_safe 20000 (by decide +kernel))
    (forall_cons (fun _ => check_safe 20000 (by decide +kernel))
    (forall_cons (fun _ => check_safe 20000 (by decide +kernel))
    (forall_cons (fun _ => check_safe 20000 (by decide +kernel))
    (forall_cons (fun h => absurd (.tail _ (.tail _ (.tail _ (.tail _ (.tail _ (.tail _ (.tail _ (.tail _ (.head _))))))))) h)
    (forall_cons (fun h => absurd (.tail _ (.tail _ (.tail _ (.tail _ (.tail _ (.tail _ (.tail _ (.tail _ (.tail _ (.head _)))))))))) h)
    (forall_cons (fun _ => check_safe 20000 (by decide +kernel))
    (forall_cons (fun _ => check_safe 20000 (by decide +kernel))
    (forall_cons (fun _ => check_safe 20000 (by decide +kernel))
    (forall_cons (fun _ => check_safe 20000 (by decide +kernel))
    (forall_cons (fun h => absurd (.tail _ (.tail _ (.tail _ (.tail _ (.tail _ (.tail _ (.tail _ (.tail _ (.tail _ (.tail _ (.head _))))))))))) h)
    (forall_cons (fun _ => check_safe 20000 (by decide +kernel))
    (forall_cons (fun _ => check_safe 20000 (by decide +kernel))
    (forall_cons (fun _ => check_safe 20000 (by decide +kernel))
    (forall_cons (fun _ => check_safe 20000 (by decide +kernel))
    (forall_cons (fun _ => check_safe 20000 (by decide +kernel))
    (forall_cons (fun _ => check_safe 20000 (by decide +kernel))
    (forall_cons (fun _ => check_safe 20000 (by decide +kernel))
    (forall_cons (fun _ => check_safe 20000 (by decide +kernel))
    (forall_cons (fun _ => check_safe 20000 (by decide +kernel))
    (forall_nil))))))))))))))))))))))))))))))))))))))))))))))))))

theorem python1_returns : ∀ e ∈ Python.python1, e.1 ∉ pythonNotOne → Returns e.2 true :=
  forall_cons (fun _ => retRun_returns (bits 8 255) (by decide +kernel))
    (forall_cons (fun _ => retRun_returns (bits 62 4611684918915760127) (by decide +kernel))
    (forall_cons (fun _ => retRun_returns (bits 38 274877775871) (by decide +kernel))
    (forall_cons (fun _ => retRun_returns (bits 28 268435455) (by decide +kernel))
    (forall_cons (fun _ => retRun_returns (bits 31 2147483647) (by decide +kernel))
    (forall_cons (fun _ => retRun_returns (bits 40 1099511627775) (by decide +kernel))
    (forall_cons (fun _ => retRun_returns (bits 14 16383) (by decide +kernel))
    (forall_cons (fun _ => retRun_returns (bits 6 62) (by decide +kernel))
    (forall_cons (fun _ => retRun_returns (bits 24 16777215) (by decide +kernel))
    (forall_cons (fun _ => retRun_returns (bits 64 18446744073709551359) (by decide +kernel))
    (forall_cons (fun _ => retRun_returns (bits 67 147573952589676408831) (by decide +kernel))
    (forall_cons (fun _ => retRun_returns (bits 29 536869871) (by decide +kernel))
    (forall_cons (fun _ => retRun_returns (bits 27 134217215) (by decide +kernel))
    (forall_cons (fun _ => retRun_returns (bits 23 8388607) (by decide +kernel))
    (forall_cons (fun _ => retRun_returns (bits 24 16777215) (by decide +kernel))
    (forall_cons (fun _ => retRun_returns (bits 23 8388607) (by decide +kernel))
    (forall_cons (fun _ => retRun_returns (bits 29 536870911) (by decide +kernel))
    (forall_cons (fun _ => retRun_returns (bits 7 127) (by decide +kernel))
    (forall_cons (fun _ => retRun_returns (bits 25 33554431) (by decide +kernel))
    (forall_cons (fun _ => retRun_returns (bits 9 504) (by decide +kernel))
    (forall_cons (fun _ => retRun_returns (bits 9 505) (by decide +kernel))
    (forall_cons (fun _ => retRun_returns (bits 6 63) (by decide +kernel))
    (forall_cons (fun _ => retRun_returns (bits 9 504) (by decide +kernel))
    (forall_cons (fun _ => retRun_returns (bits 6 63) (by decide +kernel))
    (forall_cons (fun _ => retRun_returns (bits 6 63) (by decide +kernel))
    (forall_cons (fun _ => retRun_returns (bits 6 63) (by decide +kernel))
    (forall_cons (fun _ => retRun_returns (bits 4 15) (by decide +kernel))
    (forall_cons (fun _ => retRun_returns (bits 4 15) (by decide +kernel))
    (forall_cons (fun _ => retRun_returns (bits 4 15) (by decide +kernel))
    (forall_cons (fun _ => retRun_returns (bits 26 67108861) (by decide +kernel))
    (forall_cons (fun h => absurd (.head _) h)
    (forall_cons (fun _ => retRun_returns (bits 6 62) (by decide +kernel))
    (forall_cons (fun _ => retRun_returns (bits 23 8388607) (by decide +kernel))
    (forall_cons (fun _ => retRun_returns (bits 26 67108607) (by decide +kernel))
    (forall_cons (fun _ => retRun_returns (bits 34 17179869055) (by decide +kernel))
    (forall_cons (fun _ => retRun_returns (bits 33 8589934591) (by decide +kernel))
    (forall_cons (fun _ => retRun_returns (bits 26 67108863) (by decide +kernel))
    (forall_cons (fun _ => retRun_returns (bits 26 67108607) (by decide +kernel))
    (forall_cons (fun _ => retRun_returns (bits 23 8388607) (by decide +kernel))
    (forall_cons (fun _ => retRun_returns (bits 23 8388607) (by decide +kernel))
    (forall_cons (fun _ => retRun_returns (bits 50 1125899906842623) (by decide +kernel))
    (forall_cons (fun _ => retRun_returns (bits 7 127) (by decide +kernel))
    (forall_cons (fun _ => retRun_returns (bits 25 33554423) (by decide +kernel))
    (forall_cons (fun h => absurd (.tail _ (.head _)) h)
    (forall_cons (fun _ => retRun_returns (bits 4 14) (by decide +kernel))
    (forall_cons (fun _ => retRun_returns (bits 5 31) (by decide +kernel))
    (forall_cons (fun _ => retRun_returns (bits 17 130351) (by decide +kernel))
    (forall_cons (fun _ => retRun_returns (bits 9 511) (by decide +kernel))
    (forall_cons (fun _ => retRun_returns (bits 20 1047215) (by decide +kernel))
    (forall_cons (fun _ => retRun_returns (bits 25 33554423) (by decide +kernel))
    (forall_nil))))))))))))))))))))))))))))))))))))))))))))))))))

theorem python2_safe : ∀ e ∈ Python.python2, e ∉ losingPython → Safe e.2 :=
  forall_cons (fun _ => check_safe 20000 (by decide +kernel))
    (forall_cons (fun _ => check_safe 20000 (by decide +kernel))
    (forall_cons (fun _ => check_safe 20000 (by decide +kernel))
    (forall_cons (fun _ => check_safe 20000 (by decide +kernel))
    (forall_cons (fun _ => check_safe 20000 (by decide +kernel))
    (forall_cons (fun _ => check_safe 20000 (by decide +kernel))
    (forall_cons (fun _ => check_safe 20000 (by decide +kernel))
    (forall_cons (fun _ => check_safe 20000 (by decide +kernel))
    (forall_cons (fun _ => check_safe 20000 (by decide +kernel))
    (forall_cons (fun _ => check_safe 20000 (by decide +kernel))
    (forall_cons (fun _ => check_safe 20000 (by decide +kernel))
    (forall_cons (fun _ => check_safe 20000 (by decide +kernel))
    (forall_cons (fun _ => check_safe 20000 (by decide +kernel))
    (forall_cons (fun _ => check_safe 20000 (by decide +kernel))
    (forall_cons (fun _ => check_safe 20000 (by decide +kernel))
    (forall_cons (fun _ => check_safe 20000 (by decide +kernel))
    (forall_cons (fun _ => check_safe 20000 (by decide +kernel))
    (forall_cons (fun _ => check_safe 20000 (by decide +kernel))
    (forall_cons (fun _ => check_safe 20000 (by decide +kernel))
    (forall_cons (fun _ => check_safe 20000 (by decide +kernel))
    (forall_cons (fun _ => check_safe 20000 (by decide +kernel))
    (forall_cons (fun _ => check_safe 20000 (by decide +kernel))
    (forall_cons (fun _ => check_safe 20000 (by decide +kernel))
    (forall_cons (fun _ => check_safe 20000 (by decide +kernel))
    (forall_cons (fun h => absurd (.tail _ (.tail _ (.tail _ (.tail _ (.tail _ (.tail _ (.tail _ (.tail _ (.tail _ (.tail _ (.tail _ (.head _)))))))))))) h)
    (forall_cons (fun _ => check_safe 20000 (by decide +kernel))
    (forall_cons (fun _ => check_safe 20000 (by decide +kernel))
    (forall_cons (fun _ => check_safe 20000 (by decide +kernel))
    (forall_cons (fun _ => check_safe 20000 (by decide +kernel))
    (forall_cons (fun _ => check_safe 20000 (by decide +kernel))
    (forall_cons (fun _ => check_safe 20000 (by decide +kernel))
    (forall_cons (fun _ => check_safe 20000 (by decide +kernel))
    (forall_cons (fun _ => check_safe 20000 (by decide +kernel))
    (forall_cons (fun _ => check_safe 20000 (by decide +kernel))
    (forall_cons (fun _ => check_safe 20000 (by decide +kernel))
    (forall_cons (fun _ => check_safe 20000 (by decide +kernel))
    (forall_cons (fun _ => check_safe 20000 (by decide +kernel))
    (forall_cons (fun _ => check_safe 20000 (by decide +kernel))
    (forall_cons (fun _ => check_safe 20000 (by decide +kernel))
    (forall_cons (fun h => absurd (.tail _ (.tail _ (.tail _ (.tail _ (.tail _ (.tail _ (.tail _ (.tail _ (.tail _ (.tail _ (.tail _ (.tail _ (.head _))))))))))))) h)
    (forall_cons (fun h => absurd (.tail _ (.tail _ (.tail _ (.tail _ (.tail _ (.tail _ (.tail _ (.tail _ (.tail _ (.tail _ (.tail _ (.tail _ (.tail _ (.head _)))))))))))))) h)
    (forall_cons (fun _ => check_safe 20000 (by decide +kernel))
    (forall_cons (fun _ => check_safe 20000 (by decide +kernel))
    (forall_cons (fun _ => check_safe 20000 (by decide +kernel))
    (forall_cons (fun _ => check_safe 20000 (by decide +kernel))
    (forall_cons (fun h => absurd (.tail _ (.tail _ (.tail _ (.tail _ (.tail _ (.tail _ (.tail _ (.tail _ (.tail _ (.tail _ (.tail _ (.tail _ (.tail _ (.tail _ (.head _))))))))))))))) h)
    (forall_cons (fun _ => check_safe 20000 (by decide +kernel))
    (forall_cons (fun _ => check_safe 20000 (by decide +kernel))
    (forall_cons (fun _ => check_safe 20000 (by decide +kernel))
    (forall_cons (fun _ => check_safe 20000 (by decide +kernel))
    (forall_nil))))))))))))))))))))))))))))))))))))))))))))))))))

theorem python2_returns : ∀ e ∈ Python.python2, e.1 ∉ pythonNotOne → Returns e.2 true :=
  forall_cons (fun h => absurd (.tail _ (.tail _ (.head _))) h)
    (forall_cons (fun _ => retRun_returns (bits 4 14) (by decide +kernel))
    (forall_cons (fun _ => retRun_returns (bits 5 31) (by decide +kernel))
    (forall_cons (fun _ => retRun_returns (bits 17 130351) (by decide +kernel))
    (forall_cons (fun _ => retRun_returns (bits 9 511) (by decide +kernel))
    (forall_cons (fun _ => retRun_returns (bits 20 1047215) (by decide +kernel))
    (forall_cons (fun _ => retRun_returns (bits 26 67108861) (by decide +kernel))
    (forall_cons (fun h => absurd (.tail _ (.tail _ (.tail _ (.head _)))) h)
    (forall_cons (fun _ => retRun_returns (bits 6 62) (by decide +kernel))
    (forall_cons (fun _ => retRun_returns (bits 23 8388607) (by decide +kernel))
    (forall_cons (fun _ => retRun_returns (bits 23 8388607) (by decide +kernel))
    (forall_cons (fun _ => retRun_returns (bits 26 67108607) (by decide +kernel))
    (forall_cons (fun _ => retRun_returns (bits 26 67108607) (by decide +kernel))
    (forall_cons (fun _ => retRun_returns (bits 26 67108607) (by decide +kernel))
    (forall_cons (fun _ => retRun_returns (bits 26 67108607) (by decide +kernel))
    (forall_cons (fun _ => retRun_returns (bits 26 67108607) (by decide +kernel))
    (forall_cons (fun _ => retRun_returns (bits 26 67108607) (by decide +kernel))
    (forall_cons (fun _ => retRun_returns (bits 26 67108607) (by decide +kernel))
    (forall_cons (fun _ => retRun_returns (bits 26 67108607) (by decide +kernel))
    (forall_cons (fun _ => retRun_returns (bits 26 67108607) (by decide +kernel))
    (forall_cons (fun _ => retRun_returns (bits 26 67108607) (by decide +kernel))
    (forall_cons (fun _ => retRun_returns (bits 23 8388607) (by decide +kernel))
    (forall_cons (fun _ => retRun_returns (bits 23 8388607) (by decide +kernel))
    (forall_cons (fun _ => retRun_returns (bits 23 8388607) (by decide +kernel))
    (forall_cons (fun _ => retRun_returns (bits 26 67108607) (by decide +kernel))
    (forall_cons (fun _ => retRun_returns (bits 23 8388607) (by decide +kernel))
    (forall_cons (fun _ => retRun_returns (bits 26 67108607) (by decide +kernel))
    (forall_cons (fun _ => retRun_returns (bits 26 67108607) (by decide +kernel))
    (forall_cons (fun _ => retRun_returns (bits 23 8388607) (by decide +kernel))
    (forall_cons (fun _ => retRun_returns (bits 29 536870911) (by decide +kernel))
    (forall_cons (fun _ => retRun_returns (bits 7 127) (by decide +kernel))
    (forall_cons (fun _ => retRun_returns (bits 25 33554431) (by decide +kernel))
    (forall_cons (fun _ => retRun_returns (bits 33 8589901823) (by decide +kernel))
    (forall_cons (fun _ => retRun_returns (bits 32 4294950911) (by decide +kernel))
    (forall_cons (fun _ => retRun_returns (bits 23 8388607) (by decide +kernel))
    (forall_cons (fun _ => retRun_returns (bits 29 536870911) (by decide +kernel))
    (forall_cons (fun _ => retRun_returns (bits 7 127) (by decide +kernel))
    (forall_cons (fun _ => retRun_returns (bits 25 33554431) (by decide +kernel))
    (forall_cons (fun _ => retRun_returns (bits 32 4294950911) (by decide +kernel))
    (forall_cons (fun _ => retRun_returns (bits 34 17179869055) (by decide +kernel))
    (forall_cons (fun _ => retRun_returns (bits 33 8589934591) (by decide +kernel))
    (forall_cons (fun _ => retRun_returns (bits 26 67108863) (by decide +kernel))
    (forall_cons (fun _ => retRun_returns (bits 26 67108607) (by decide +kernel))
    (forall_cons (fun _ => retRun_returns (bits 23 8388607) (by decide +kernel))
    (forall_cons (fun _ => retRun_returns (bits 23 8388607) (by decide +kernel))
    (forall_cons (fun _ => retRun_returns (bits 50 1125899906842623) (by decide +kernel))
    (forall_cons (fun _ => retRun_returns (bits 7 127) (by decide +kernel))
    (forall_cons (fun _ => retRun_returns (bits 27 134217694) (by decide +kernel))
    (forall_cons (fun _ => retRun_returns (bits 14 16378) (by decide +kernel))
    (forall_cons (fun _ => retRun_returns (bits 5 26) (by decide +kernel))
    (forall_nil))))))))))))))))))))))))))))))))))))))))))))))))))

theorem python3_safe : ∀ e ∈ Python.python3, e ∉ losingPython → Safe e.2 :=
  forall_cons (fun h => absurd (.tail _ (.tail _ (.tail _ (.tail _ (.tail _ (.tail _ (.tail _ (.tail _ (.tail _ (.tail _ (.tail _ (.tail _ (.tail _ (.tail _ (.tail _ (.head _)))))))))))))))) h)
    (forall_cons (fun _ => check_safe 20000 (by decide +kernel))
    (forall_cons (fun _ => check_safe 20000 (by decide +kernel))
    (forall_cons (fun h => absurd (.tail _ (.tail _ (.tail _ (.tail _ (.tail _ (.tail _ (.tail _ (.tail _ (.tail _ (.tail _ (.tail _ (.tail _ (.tail _ (.tail _ (.tail _ (.tail _ (.head _))))))))))))))))) h)
    (forall_cons (fun _ => check_safe 20000 (by decide +kernel))
    (forall_cons (fun _ => check_safe 20000 (by decide +kernel))
    (forall_cons (fun _ => check_safe 20000 (by decide +kernel))
    (forall_cons (fun _ => check_safe 20000 (by decide +kernel))
    (forall_cons (fun h => absurd (.tail _ (.tail _ (.tail _ (.tail _ (.tail _ (.tail _ (.tail _ (.tail _ (.tail _ (.tail _ (.tail _ (.tail _ (.tail _ (.tail _ (.tail _ (.tail _ (.tail _ (.head _)))))))))))))))))) h)
    (forall_cons (fun _ => check_safe 20000 (by decide +kernel))
    (forall_cons (fun _ => check_safe 20000 (by decide +kernel))
    (forall_cons (fun _ => check_safe 20000 (by decide +kernel))
    (forall_cons (fun _ => check_safe 20000 (by decide +kernel))
    (forall_cons (fun h => absurd (.tail _ (.tail _ (.tail _ (.tail _ (.tail _ (.tail _ (.tail _ (.tail _ (.tail _ (.tail _ (.tail _ (.tail _ (.tail _ (.tail _ (.tail _ (.tail _ (.tail _ (.tail _ (.head _))))))))))))))))))) h)
    (forall_cons (fun _ => check_safe 20000 (by decide +kernel))
    (forall_cons (fun _ => check_safe 20000 (by decide +kernel))
    (forall_cons (fun _ => check_safe 20000 (by decide +kernel))
    (forall_cons (fun _ => check_safe 20000 (by decide +kernel))
    (forall_cons (fun _ => check_safe 20000 (by decide +kernel))
    (forall_cons (fun _ => check_safe 20000 (by decide +kernel))
    (forall_cons (fun _ => check_safe 20000 (by decide +kernel))
    (forall_cons (fun _ => check_safe 20000 (by decide +kernel))
    (forall_cons (fun _ => check_safe 20000 (by decide +kernel))
    (forall_cons (fun _ => check_safe 20000 (by decide +kernel))
    (forall_cons (fun _ => check_safe 20000 (by decide +kernel))
    (forall_cons (fun _ => check_safe 20000 (by decide +kernel))
    (forall_cons (fun _ => check_safe 20000 (by decide +kernel))
    (forall_cons (fun _ => check_safe 20000 (by decide +kernel))
    (forall_cons (fun _ => check_safe 20000 (by decide +kernel))
    (forall_cons (fun _ => check_safe 20000 (by decide +kernel))
    (forall_cons (fun _ => check_safe 20000 (by decide +kernel))
    (forall_cons (fun _ => check_safe 20000 (by decide +kernel))
    (forall_cons (fun _ => check_safe 20000 (by decide +kernel))
    (forall_cons (fun _ => check_safe 20000 (by decide +kernel))
    (forall_cons (fun _ => check_safe 20000 (by decide +kernel))
    (forall_cons (fun _ => check_safe 20000 (by decide +kernel))
    (forall_cons (fun _ => check_safe 20000 (by decide +kernel))
    (forall_cons (fun _ => check_safe 20000 (by decide +kernel))
    (forall_cons (fun _ => check_safe 20000 (by decide +kernel))
    (forall_cons (fun _ => check_safe 20000 (by decide +kernel))
    (forall_cons (fun h => absurd (.tail _ (.tail _ (.tail _ (.tail _ (.tail _ (.tail _ (.tail _ (.tail _ (.tail _ (.tail _ (.tail _ (.tail _ (.tail _ (.tail _ (.tail _ (.tail _ (.tail _ (.tail _ (.tail _ (.head _)))))))))))))))))))) h)
    (forall_cons (fun h => absurd (.tail _ (.tail _ (.tail _ (.tail _ (.tail _ (.tail _ (.tail _ (.tail _ (.tail _ (.tail _ (.tail _ (.tail _ (.tail _ (.tail _ (.tail _ (.tail _ (.tail _ (.tail _ (.tail _ (.tail _ (.head _))))))))))))))))))))) h)
    (forall_cons (fun h => absurd (.tail _ (.tail _ (.tail _ (.tail _ (.tail _ (.tail _ (.tail _ (.tail _ (.tail _ (.tail _ (.tail _ (.tail _ (.tail _ (.tail _ (.tail _ (.tail _ (.tail _ (.tail _ (.tail _ (.tail _ (.tail _ (.head _)))))))))))))))))))))) h)
    (forall_cons (fun h => absurd (.tail _ (.tail _ (.tail _ (.tail _ (.tail _ (.tail _ (.tail _ (.tail _ (.tail _ (.tail _ (.tail _ (.tail _ (.tail _ (.tail _ (.tail _ (.tail _ (.tail _ (.tail _ (.tail _ (.tail _ (.tail _ (.tail _ (.head _))))))))))))))))))))))) h)
    (forall_cons (fun h => absurd (.tail _ (.tail _ (.tail _ (.tail _ (.tail _ (.tail _ (.tail _ (.tail _ (.tail _ (.tail _ (.tail _ (.tail _ (.tail _ (.tail _ (.tail _ (.tail _ (.tail _ (.tail _ (.tail _ (.tail _ (.tail _ (.tail _ (.tail _ (.head _)))))))))))))))))))))))) h)
    (forall_cons (fun h => absurd (.tail _ (.tail _ (.tail _ (.tail _ (.tail _ (.tail _ (.tail _ (.tail _ (.tail _ (.tail _ (.tail _ (.tail _ (.tail _ (.tail _ (.tail _ (.tail _ (.tail _ (.tail _ (.tail _ (.tail _ (.tail _ (.tail _ (.tail _ (.tail _ (.head _))))))))))))))))))))))))) h)
    (forall_cons (fun _ => check_safe 20000 (by decide +kernel))
    (forall_cons (fun _ => check_safe 20000 (by decide +kernel))
    (forall_cons (fun _ => check_safe 20000 (by decide +kernel))
    (forall_cons (fun _ => check_safe 20000 (by decide +kernel))
    (forall_nil))))))))))))))))))))))))))))))))))))))))))))))))))

theorem python3_returns : ∀ e ∈ Python.python3, e.1 ∉ pythonNotOne → Returns e.2 true :=
  forall_cons (fun _ => retRun_returns (bits 9 498) (by decide +kernel))
    (forall_cons (fun _ => retRun_returns (bits 9 399) (by decide +kernel))
    (forall_cons (fun _ => retRun_returns (bits 7 111) (by decide +kernel))
    (forall_cons (fun _ => retRun_returns (bits 7 67) (by decide +kernel))
    (forall_cons (fun _ => retRun_returns (bits 19 524287) (by decide +kernel))
    (forall_cons (fun _ => retRun_returns (bits 5 16) (by decide +kernel))
    (forall_cons (fun _ => retRun_returns (bits 19 524287) (by decide +kernel))
    (forall_cons (fun _ => retRun_returns (bits 30 1073741816) (by decide +kernel))
    (forall_cons (fun _ => retRun_returns (bits 35 34359738351) (by decide +kernel))
    (forall_cons (fun _ => retRun_returns (bits 17 131071) (by decide +kernel))
    (forall_cons (fun _ => retRun_returns (bits 6 63) (by decide +kernel))
    (forall_cons (fun _ => retRun_returns (bits 6 47) (by decide +kernel))
    (forall_cons (fun _ => retRun_returns (bits 20 1048572) (by decide +kernel))
    (forall_cons (fun _ => retRun_returns (bits 42 4329192751095) (by decide +kernel))
    (forall_cons (fun _ => retRun_returns (bits 17 131071) (by decide +kernel))
    (forall_cons (fun _ => retRun_returns (bits 8 252) (by decide +kernel))
    (forall_cons (fun _ => retRun_returns (bits 7 126) (by decide +kernel))
    (forall_cons (fun _ => retRun_returns (bits 24 16777215) (by decide +kernel))
    (forall_cons (fun _ => retRun_returns (bits 25 25165823) (by decide +kernel))
    (forall_cons (fun _ => retRun_returns (bits 26 67108862) (by decide +kernel))
    (forall_cons (fun h => absurd (.tail _ (.tail _ (.tail _ (.tail _ (.head _))))) h)
    (forall_cons (fun _ => retRun_returns (bits 6 62) (by decide +kernel))
    (forall_cons (fun _ => retRun_returns (bits 27 134217215) (by decide +kernel))
    (forall_cons (fun _ => retRun_returns (bits 23 8388607) (by decide +kernel))
    (forall_cons (fun _ => retRun_returns (bits 24 16777215) (by decide +kernel))
    (forall_cons (fun _ => retRun_returns (bits 26 67108607) (by decide +kernel))
    (forall_cons (fun _ => retRun_returns (bits 27 134217215) (by decide +kernel))
    (forall_cons (fun _ => retRun_returns (bits 31 2147483647) (by decide +kernel))
    (forall_cons (fun _ => retRun_returns (bits 31 2147483647) (by decide +kernel))
    (forall_cons (fun _ => retRun_returns (bits 23 8388607) (by decide +kernel))
    (forall_cons (fun _ => retRun_returns (bits 35 34359738367) (by decide +kernel))
    (forall_cons (fun _ => retRun_returns (bits 26 67108607) (by decide +kernel))
    (forall_cons (fun _ => retRun_returns (bits 32 4294950911) (by decide +kernel))
    (forall_cons (fun _ => retRun_returns (bits 25 33554423) (by decide +kernel))
    (forall_cons (fun h => absurd (.tail _ (.tail _ (.tail _ (.tail _ (.tail _ (.head _)))))) h)
    (forall_cons (fun _ => retRun_returns (bits 4 14) (by decide +kernel))
    (forall_cons (fun _ => retRun_returns (bits 5 31) (by decide +kernel))
    (forall_cons (fun _ => retRun_returns (bits 17 130351) (by decide +kernel))
    (forall_cons (fun _ => retRun_returns (bits 9 511) (by decide +kernel))
    (forall_cons (fun _ => retRun_returns (bits 20 1047215) (by decide +kernel))
    (forall_cons (fun _ => retRun_returns (bits 4 15) (by decide +kernel))
    (forall_cons (fun _ => retRun_returns (bits 4 15) (by decide +kernel))
    (forall_cons (fun _ => retRun_returns (bits 34 17179869055) (by decide +kernel))
    (forall_cons (fun _ => retRun_returns (bits 36 68719476735) (by decide +kernel))
    (forall_cons (fun _ => retRun_returns (bits 34 17179869055) (by decide +kernel))
    (forall_cons (fun _ => retRun_returns (bits 36 68719476735) (by decide +kernel))
    (forall_cons (fun _ => retRun_returns (bits 27 134217727) (by decide +kernel))
    (forall_cons (fun _ => retRun_returns (bits 28 201326591) (by decide +kernel))
    (forall_cons (fun _ => retRun_returns (bits 55 36028779839094783) (by decide +kernel))
    (forall_cons (fun _ => retRun_returns (bits 57 144115188075855615) (by decide +kernel))
    (forall_nil))))))))))))))))))))))))))))))))))))))))))))))))))

theorem python_safe : ∀ e ∈ Python.python, e ∉ losingPython → Safe e.2 :=
  forall_append (forall_append (python1_safe)
    python2_safe)
    python3_safe

theorem python_returns : ∀ e ∈ Python.python, e.1 ∉ pythonNotOne → Returns e.2 true :=
  forall_append (forall_append (python1_returns)
    python2_returns)
    python3_returns

end Verif.Owner
