import Verif.Lemmas.OwnerRun
import Verif.Spec.OwnershipKnown

/-!
The checks of the functions of the B-trees.
-/

namespace Verif.Owner

open Verif.Spec.Owner

theorem lib_file_system : ∀ e ∈ Lib.in_file_system, Safe e.2 :=
  forall_cons (check_safe 20000 (by decide +kernel))
    (forall_cons (check_safe 20000 (by decide +kernel))
    (forall_cons (check_safe 20000 (by decide +kernel))
    (forall_cons (check_safe 20000 (by decide +kernel))
    (forall_cons (check_safe 20000 (by decide +kernel))
    (forall_nil)))))

theorem lib_file_system_returns : ∀ e ∈ Lib.in_file_system, e.1 ∉ notOne → Returns e.2 true :=
  forall_cons (fun _ => retRun_returns (bits 30 1073741806) (by decide +kernel))
    (forall_cons (fun _ => retRun_returns (bits 6 54) (by decide +kernel))
    (forall_cons (fun _ => retRun_returns (bits 24 16777190) (by decide +kernel))
    (forall_cons (fun _ => retRun_returns (bits 30 1073741798) (by decide +kernel))
    (forall_cons (fun _ => retRun_returns (bits 30 1073741798) (by decide +kernel))
    (forall_nil)))))

theorem lib_file_system_btree : ∀ e ∈ Lib.in_file_system_btree, e ∉ losing → Safe e.2 :=
  forall_cons (fun h => absurd (.tail _ (.tail _ (.tail _ (.tail _ (.tail _ (.tail _ (.tail _ (.tail _ (.tail _ (.tail _ (.tail _ (.head _)))))))))))) h)
    (forall_cons (fun _ => check_safe 20000 (by decide +kernel))
    (forall_cons (fun _ => check_safe 20000 (by decide +kernel))
    (forall_cons (fun _ => check_safe 20000 (by decide +kernel))
    (forall_cons (fun _ => check_safe 20000 (by decide +kernel))
    (forall_cons (fun _ => check_safe 20000 (by decide +kernel))
    (forall_cons (fun _ => check_safe 20000 (by decide +kernel))
    (forall_cons (fun _ => check_safe 20000 (by decide +kernel))
    (forall_cons (fun _ => check_safe 20000 (by decide +kernel))
    (forall_cons (fun _ => check_safe 20000 (by decide +kernel))
    (forall_cons (fun _ => check_safe 20000 (by decide +kernel))
    (forall_cons (fun _ => check_safe 20000 (by decide +kernel))
    (forall_cons (fun _ => check_safe 20000 (by decide +kernel))
    (forall_cons (fun _ => check_safe 20000 (by decide +kernel))
    (forall_cons (fun _ => check_safe 20000 (by decide +kernel))
    (forall_cons (fun _ => check_safe 20000 (by decide +kernel))
    (forall_cons (fun _ => check_safe 20000 (by decide +kernel))
    (forall_cons (fun _ => check_safe 20000 (by decide +kernel))
    (forall_cons (fun _ => check_safe 20000 (by decide +kernel))
    (forall_cons (fun _ => check_safe 20000 (by decide +kernel))
    (forall_cons (fun _ => check_safe 20000 (by decide +kernel))
    (forall_cons (fun _ => check_safe 20000 (by decide +kernel))
    (forall_cons (fun h => absurd (.tail _ (.tail _ (.tail _ (.tail _ (.tail _ (.tail _ (.tail _ (.tail _ (.tail _ (.tail _ (.tail _ (.tail _ (.head _))))))))))))) h)
    (forall_cons (fun _ => check_safe 20000 (by decide +kernel))
    (forall_cons (fun h => absurd (.tail _ (.tail _ (.tail _ (.tail _ (.tail _ (.tail _ (.tail _ (.tail _ (.tail _ (.tail _ (.tail _ (.tail _ (.tail _ (.head _)))))))))))))) h)
    (forall_nil)))))))))))))))))))))))))

theorem lib_file_system_btree_returns : ∀ e ∈ Lib.in_file_system_btree, e.1 ∉ notOne → Returns e.2 true :=
  forall_cons (fun _ => retRun_returns (bits 35 34359738358) (by decide +kernel))
    (forall_cons (fun _ => retRun_returns (bits 6 54) (by decide +kernel))
    (forall_cons (fun _ => retRun_returns (bits 22 4194241) (by decide +kernel))
    (forall_cons (fun _ => retRun_returns (bits 20 1048514) (by decide +kernel))
    (forall_cons (fun _ => retRun_returns (bits 20 1048514) (by decide +kernel))
    (forall_cons (fun _ => retRun_returns (bits 9 416) (by decide +kernel))
    (forall_cons (fun _ => retRun_returns (bits 36 68716592922) (by decide +kernel))
    (forall_cons (fun _ => retRun_returns (bits 30 1065342960) (by decide +kernel))
    (forall_cons (fun _ => retRun_returns (bits 30 1073675521) (by decide +kernel))
    (forall_cons (fun _ => retRun_returns (bits 30 1065342960) (by decide +kernel))
    (forall_cons (fun _ => retRun_returns (bits 30 1073675521) (by decide +kernel))
    (forall_cons (fun _ => retRun_returns (bits 6 16) (by decide +kernel))
    (forall_cons (fun _ => retRun_returns (bits 24 16744065) (by decide +kernel))
    (forall_cons (fun _ => retRun_returns (bits 24 16760829) (by decide +kernel))
    (forall_cons (fun _ => retRun_returns (bits 6 16) (by decide +kernel))
    (forall_cons (fun _ => retRun_returns (bits 24 16744065) (by decide +kernel))
    (forall_cons (fun _ => retRun_returns (bits 24 16760829) (by decide +kernel))
    (forall_cons (fun _ => retRun_returns (bits 5 8) (by decide +kernel))
    (forall_cons (fun _ => retRun_returns (bits 24 16744065) (by decide +kernel))
    (forall_cons (fun _ => retRun_returns (bits 23 8380413) (by decide +kernel))
    (forall_cons (fun _ => retRun_returns (bits 32 4294967270) (by decide +kernel))
    (forall_cons (fun h => absurd (.tail _ (.head _)) h)
    (forall_cons (fun _ => retRun_returns (bits 55 36028797010573850) (by decide +kernel))
    (forall_cons (fun h => absurd (.tail _ (.tail _ (.head _))) h)
    (forall_cons (fun _ => retRun_returns (bits 55 36028797010573850) (by decide +kernel))
    (forall_nil)))))))))))))))))))))))))

theorem lib_object_map_btree : ∀ e ∈ Lib.in_object_map_btree, e ∉ losing → Safe e.2 :=
  forall_cons (fun h => absurd (.tail _ (.tail _ (.tail _ (.tail _ (.tail _ (.tail _ (.tail _ (.tail _ (.tail _ (.tail _ (.tail _ (.tail _ (.tail _ (.tail _ (.head _))))))))))))))) h)
    (forall_cons (fun _ => check_safe 20000 (by decide +kernel))
    (forall_cons (fun _ => check_safe 20000 (by decide +kernel))
    (forall_cons (fun _ => check_safe 20000 (by decide +kernel))
    (forall_cons (fun _ => check_safe 20000 (by decide +kernel))
    (forall_cons (fun _ => check_safe 20000 (by decide +kernel))
    (forall_cons (fun _ => check_safe 20000 (by decide +kernel))
    (forall_nil)))))))

theorem lib_object_map_btree_returns : ∀ e ∈ Lib.in_object_map_btree, e.1 ∉ notOne → Returns e.2 true :=
  forall_cons (fun _ => retRun_returns (bits 32 4294967286) (by decide +kernel))
    (forall_cons (fun _ => retRun_returns (bits 6 54) (by decide +kernel))
    (forall_cons (fun _ => retRun_returns (bits 19 524258) (by decide +kernel))
    (forall_cons (fun _ => retRun_returns (bits 19 524258) (by decide +kernel))
    (forall_cons (fun _ => retRun_returns (bits 9 464) (by decide +kernel))
    (forall_cons (fun _ => retRun_returns (bits 27 134212036) (by decide +kernel))
    (forall_cons (fun _ => retRun_returns (bits 32 4294967270) (by decide +kernel))
    (forall_nil)))))))

theorem lib_snapshot_metadata_tree : ∀ e ∈ Lib.in_snapshot_metadata_tree, e ∉ losing → Safe e.2 :=
  forall_cons (fun h => absurd (.tail _ (.tail _ (.tail _ (.tail _ (.tail _ (.tail _ (.tail _ (.tail _ (.tail _ (.tail _ (.tail _ (.tail _ (.tail _ (.tail _ (.tail _ (.tail _ (.head _))))))))))))))))) h)
    (forall_cons (fun _ => check_safe 20000 (by decide +kernel))
    (forall_cons (fun _ => check_safe 20000 (by decide +kernel))
    (forall_cons (fun _ => check_safe 20000 (by decide +kernel))
    (forall_cons (fun _ => check_safe 20000 (by decide +kernel))
    (forall_cons (fun _ => check_safe 20000 (by decide +kernel))
    (forall_cons (fun _ => check_safe 20000 (by decide +kernel))
    (forall_cons (fun _ => check_safe 20000 (by decide +kernel))
    (forall_cons (fun _ => check_safe 20000 (by decide +kernel))
    (forall_cons (fun _ => check_safe 20000 (by decide +kernel))
    (forall_cons (fun _ => check_safe 20000 (by decide +kernel))
    (forall_nil)))))))))))

theorem lib_snapshot_metadata_tree_returns : ∀ e ∈ Lib.in_snapshot_metadata_tree, e.1 ∉ notOne → Returns e.2 true :=
  forall_cons (fun _ => retRun_returns (bits 33 8589934582) (by decide +kernel))
    (forall_cons (fun _ => retRun_returns (bits 6 54) (by decide +kernel))
    (forall_cons (fun _ => retRun_returns (bits 22 4194241) (by decide +kernel))
    (forall_cons (fun _ => retRun_returns (bits 19 524258) (by decide +kernel))
    (forall_cons (fun _ => retRun_returns (bits 19 524258) (by decide +kernel))
    (forall_cons (fun _ => retRun_returns (bits 8 208) (by decide +kernel))
    (forall_cons (fun _ => retRun_returns (bits 27 134212036) (by decide +kernel))
    (forall_cons (fun _ => retRun_returns (bits 31 2147483622) (by decide +kernel))
    (forall_cons (fun _ => retRun_returns (bits 6 16) (by decide +kernel))
    (forall_cons (fun _ => retRun_returns (bits 9 129) (by decide +kernel))
    (forall_cons (fun _ => retRun_returns (bits 17 130941) (by decide +kernel))
    (forall_nil)))))))))))

end Verif.Owner
