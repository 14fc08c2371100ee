import Verif.Lemmas.OwnerRun
import Verif.Spec.OwnershipKnown

/-!
The checks of the functions of the build without threads.
-/

namespace Verif.Owner

open Verif.Spec.Owner

theorem single_file_system_btree : ∀ e ∈ Lib.in_file_system_btree, e ∉ losingSingle → Safe e.2 :=
  forall_cons (fun h => absurd (.tail _ (.tail _ (.head _))) h)
    (forall_cons (fun _ => check_safe 20000 (by decide +kernel))
    (forall_cons (fun _ => check_safe 20000 (by decide +kernel))
    (forall_cons (fun _ => check_safe 20000 (by decide +kernel))
    (forall_cons (fun _ => check_safe 20000 (by decide +kernel))
    (forall_cons (fun _ => check_safe 20000 (by decide +kernel))
    (forall_cons (fun _ => check_safe 20000 (by decide +kernel))
    (forall_cons (fun _ => check_safe 20000 (by decide +kernel))
    (forall_cons (fun _ => check_safe 20000 (by decide +kernel))
    (forall_cons (fun _ => check_safe 20000 (by decide +kernel))
    (forall_cons (fun _ => check_safe 20000 (by decide +kernel))
    (forall_cons (fun _ => check_safe 20000 (by decide +kernel))
    (forall_cons (fun _ => check_safe 20000 (by decide +kernel))
    (forall_cons (fun _ => check_safe 20000 (by decide +kernel))
    (forall_cons (fun _ => check_safe 20000 (by decide +kernel))
    (forall_cons (fun _ => check_safe 20000 (by decide +kernel))
    (forall_cons (fun _ => check_safe 20000 (by decide +kernel))
    (forall_cons (fun _ => check_safe 20000 (by decide +kernel))
    (forall_cons (fun _ => check_safe 20000 (by decide +kernel))
    (forall_cons (fun _ => check_safe 20000 (by decide +kernel))
    (forall_cons (fun _ => check_safe 20000 (by decide +kernel))
    (forall_cons (fun _ => check_safe 20000 (by decide +kernel))
    (forall_cons (fun h => absurd (.tail _ (.tail _ (.tail _ (.head _)))) h)
    (forall_cons (fun _ => check_safe 20000 (by decide +kernel))
    (forall_cons (fun h => absurd (.tail _ (.tail _ (.tail _ (.tail _ (.head _))))) h)
    (forall_nil)))))))))))))))))))))))))

theorem single_object_map_btree : ∀ e ∈ Lib.in_object_map_btree, e ∉ losingSingle → Safe e.2 :=
  forall_cons (fun h => absurd (.tail _ (.tail _ (.tail _ (.tail _ (.tail _ (.head _)))))) h)
    (forall_cons (fun _ => check_safe 20000 (by decide +kernel))
    (forall_cons (fun _ => check_safe 20000 (by decide +kernel))
    (forall_cons (fun _ => check_safe 20000 (by decide +kernel))
    (forall_cons (fun _ => check_safe 20000 (by decide +kernel))
    (forall_cons (fun _ => check_safe 20000 (by decide +kernel))
    (forall_cons (fun _ => check_safe 20000 (by decide +kernel))
    (forall_nil)))))))

theorem single_snapshot_metadata_tree : ∀ e ∈ Lib.in_snapshot_metadata_tree, e ∉ losingSingle → Safe e.2 :=
  forall_cons (fun h => absurd (.tail _ (.tail _ (.tail _ (.tail _ (.tail _ (.tail _ (.tail _ (.head _)))))))) h)
    (forall_cons (fun _ => check_safe 20000 (by decide +kernel))
    (forall_cons (fun _ => check_safe 20000 (by decide +kernel))
    (forall_cons (fun _ => check_safe 20000 (by decide +kernel))
    (forall_cons (fun _ => check_safe 20000 (by decide +kernel))
    (forall_cons (fun _ => check_safe 20000 (by decide +kernel))
    (forall_cons (fun _ => check_safe 20000 (by decide +kernel))
    (forall_cons (fun _ => check_safe 20000 (by decide +kernel))
    (forall_cons (fun _ => check_safe 20000 (by decide +kernel))
    (forall_cons (fun _ => check_safe 20000 (by decide +kernel))
    (forall_cons (fun _ => check_safe 20000 (by decide +kernel))
    (forall_nil)))))))))))

theorem single_extended_attribute : ∀ e ∈ Single.in_extended_attribute, Safe e.2 :=
  forall_cons (check_safe 20000 (by decide +kernel))
    (forall_cons (check_safe 20000 (by decide +kernel))
    (forall_cons (check_safe 20000 (by decide +kernel))
    (forall_cons (check_safe 20000 (by decide +kernel))
    (forall_cons (check_safe 20000 (by decide +kernel))
    (forall_cons (check_safe 20000 (by decide +kernel))
    (forall_cons (check_safe 20000 (by decide +kernel))
    (forall_cons (check_safe 20000 (by decide +kernel))
    (forall_cons (check_safe 20000 (by decide +kernel))
    (forall_cons (check_safe 20000 (by decide +kernel))
    (forall_cons (check_safe 20000 (by decide +kernel))
    (forall_cons (check_safe 20000 (by decide +kernel))
    (forall_cons (check_safe 20000 (by decide +kernel))
    (forall_nil)))))))))))))

theorem single_extended_attribute_returns : ∀ e ∈ Single.in_extended_attribute, e.1 ∉ notOne → Returns e.2 true :=
  forall_cons (fun _ => retRun_returns (bits 32 4294967274) (by decide +kernel))
    (forall_cons (fun _ => retRun_returns (bits 5 26) (by decide +kernel))
    (forall_cons (fun _ => retRun_returns (bits 4 13) (by decide +kernel))
    (forall_cons (fun _ => retRun_returns (bits 4 13) (by decide +kernel))
    (forall_cons (fun _ => retRun_returns (bits 4 13) (by decide +kernel))
    (forall_cons (fun _ => retRun_returns (bits 4 13) (by decide +kernel))
    (forall_cons (fun _ => retRun_returns (bits 14 16383) (by decide +kernel))
    (forall_cons (fun _ => retRun_returns (bits 13 7038) (by decide +kernel))
    (forall_cons (fun _ => retRun_returns (bits 13 7038) (by decide +kernel))
    (forall_cons (fun _ => retRun_returns (bits 13 7038) (by decide +kernel))
    (forall_cons (fun _ => retRun_returns (bits 16 63485) (by decide +kernel))
    (forall_cons (fun _ => retRun_returns (bits 8 249) (by decide +kernel))
    (forall_cons (fun _ => retRun_returns (bits 17 130945) (by decide +kernel))
    (forall_nil)))))))))))))

theorem single_file_entry : ∀ e ∈ Single.in_file_entry, e ∉ losingSingle → Safe e.2 :=
  forall_cons (fun _ => check_safe 20000 (by decide +kernel))
    (forall_cons (fun _ => check_safe 20000 (by decide +kernel))
    (forall_cons (fun _ => check_safe 20000 (by decide +kernel))
    (forall_cons (fun _ => check_safe 20000 (by decide +kernel))
    (forall_cons (fun _ => check_safe 20000 (by decide +kernel))
    (forall_cons (fun _ => check_safe 20000 (by decide +kernel))
    (forall_cons (fun _ => check_safe 20000 (by decide +kernel))
    (forall_cons (fun _ => check_safe 20000 (by decide +kernel))
    (forall_cons (fun _ => check_safe 20000 (by decide +kernel))
    (forall_cons (fun _ => check_safe 20000 (by decide +kernel))
    (forall_cons (fun _ => check_safe 20000 (by decide +kernel))
    (forall_cons (fun _ => check_safe 20000 (by decide +kernel))
    (forall_cons (fun _ => check_safe 20000 (by decide +kernel))
    (forall_cons (fun _ => check_safe 20000 (by decide +kernel))
    (forall_cons (fun _ => check_safe 20000 (by decide +kernel))
    (forall_cons (fun _ => check_safe 20000 (by decide +kernel))
    (forall_cons (fun _ => check_safe 20000 (by decide +kernel))
    (forall_cons (fun _ => check_safe 20000 (by decide +kernel))
    (forall_cons (fun _ => check_safe 20000 (by decide +kernel))
    (forall_cons (fun _ => check_safe 20000 (by decide +kernel))
    (forall_cons (fun _ => check_safe 20000 (by decide +kernel))
    (forall_cons (fun _ => check_safe 20000 (by decide +kernel))
    (forall_cons (fun _ => check_safe 20000 (by decide +kernel))
    (forall_cons (fun _ => check_safe 20000 (by decide +kernel))
    (forall_cons (fun _ => check_safe 20000 (by decide +kernel))
    (forall_cons (fun _ => check_safe 20000 (by decide +kernel))
    (forall_cons (fun _ => check_safe 20000 (by decide +kernel))
    (forall_cons (fun _ => check_safe 20000 (by decide +kernel))
    (forall_cons (fun _ => check_safe 20000 (by decide +kernel))
    (forall_cons (fun _ => check_safe 20000 (by decide +kernel))
    (forall_cons (fun _ => check_safe 20000 (by decide +kernel))
    (forall_cons (fun _ => check_safe 20000 (by decide +kernel))
    (forall_cons (fun _ => check_safe 20000 (by decide +kernel))
    (forall_cons (fun _ => check_safe 20000 (by decide +kernel))
    (forall_cons (fun _ => check_safe 20000 (by decide +kernel))
    (forall_cons (fun _ => check_safe 20000 (by decide +kernel))
    (forall_cons (fun _ => check_safe 20000 (by decide +kernel))
    (forall_cons (fun _ => check_safe 20000 (by decide +kernel))
    (forall_cons (fun _ => check_safe 20000 (by decide +kernel))
    (forall_cons (fun _ => check_safe 20000 (by decide +kernel))
    (forall_cons (fun h => absurd (.head _) h)
    (forall_cons (fun _ => check_safe 20000 (by decide +kernel))
    (forall_cons (fun h => absurd (.tail _ (.head _)) h)
    (forall_cons (fun _ => check_safe 20000 (by decide +kernel))
    (forall_cons (fun _ => check_safe 20000 (by decide +kernel))
    (forall_cons (fun _ => check_safe 20000 (by decide +kernel))
    (forall_nil))))))))))))))))))))))))))))))))))))))))))))))

theorem single_file_entry_returns : ∀ e ∈ Single.in_file_entry, e.1 ∉ notOne → Returns e.2 true :=
  forall_cons (fun _ => retRun_returns (bits 72 4722366482869645213678) (by decide +kernel))
    (forall_cons (fun _ => retRun_returns (bits 5 26) (by decide +kernel))
    (forall_cons (fun _ => retRun_returns (bits 4 13) (by decide +kernel))
    (forall_cons (fun _ => retRun_returns (bits 4 13) (by decide +kernel))
    (forall_cons (fun _ => retRun_returns (bits 21 2097126) (by decide +kernel))
    (forall_cons (fun _ => retRun_returns (bits 4 13) (by decide +kernel))
    (forall_cons (fun _ => retRun_returns (bits 4 13) (by decide +kernel))
    (forall_cons (fun _ => retRun_returns (bits 4 13) (by decide +kernel))
    (forall_cons (fun _ => retRun_returns (bits 4 13) (by decide +kernel))
    (forall_cons (fun _ => retRun_returns (bits 10 1021) (by decide +kernel))
    (forall_cons (fun _ => retRun_returns (bits 4 13) (by decide +kernel))
    (forall_cons (fun _ => retRun_returns (bits 4 13) (by decide +kernel))
    (forall_cons (fun _ => retRun_returns (bits 9 509) (by decide +kernel))
    (forall_cons (fun _ => retRun_returns (bits 9 509) (by decide +kernel))
    (forall_cons (fun _ => retRun_returns (bits 4 13) (by decide +kernel))
    (forall_cons (fun _ => retRun_returns (bits 4 13) (by decide +kernel))
    (forall_cons (fun _ => retRun_returns (bits 5 29) (by decide +kernel))
    (forall_cons (fun _ => retRun_returns (bits 5 29) (by decide +kernel))
    (forall_cons (fun _ => retRun_returns (bits 5 29) (by decide +kernel))
    (forall_cons (fun _ => retRun_returns (bits 5 29) (by decide +kernel))
    (forall_cons (fun _ => retRun_returns (bits 31 1610612727) (by decide +kernel))
    (forall_cons (fun _ => retRun_returns (bits 13 3071) (by decide +kernel))
    (forall_cons (fun _ => retRun_returns (bits 20 1048573) (by decide +kernel))
    (forall_cons (fun _ => retRun_returns (bits 20 1048573) (by decide +kernel))
    (forall_cons (fun _ => retRun_returns (bits 20 1048573) (by decide +kernel))
    (forall_cons (fun _ => retRun_returns (bits 20 1048573) (by decide +kernel))
    (forall_cons (fun _ => retRun_returns (bits 20 1048573) (by decide +kernel))
    (forall_cons (fun _ => retRun_returns (bits 33 8589934454) (by decide +kernel))
    (forall_cons (fun _ => retRun_returns (bits 18 262130) (by decide +kernel))
    (forall_cons (fun _ => retRun_returns (bits 18 262130) (by decide +kernel))
    (forall_cons (fun _ => retRun_returns (bits 10 1021) (by decide +kernel))
    (forall_cons (fun _ => retRun_returns (bits 10 1021) (by decide +kernel))
    (forall_cons (fun _ => retRun_returns (bits 23 8388582) (by decide +kernel))
    (forall_cons (fun _ => retRun_returns (bits 23 8388582) (by decide +kernel))
    (forall_cons (fun _ => retRun_returns (bits 24 16777215) (by decide +kernel))
    (forall_cons (fun _ => retRun_returns (bits 8 249) (by decide +kernel))
    (forall_cons (fun _ => retRun_returns (bits 28 268435410) (by decide +kernel))
    (forall_cons (fun _ => retRun_returns (bits 29 536870886) (by decide +kernel))
    (forall_cons (fun _ => retRun_returns (bits 29 536870886) (by decide +kernel))
    (forall_cons (fun _ => retRun_returns (bits 24 16777215) (by decide +kernel))
    (forall_cons (fun _ => retRun_returns (bits 25 33468159) (by decide +kernel))
    (forall_cons (fun _ => retRun_returns (bits 8 249) (by decide +kernel))
    (forall_cons (fun _ => retRun_returns (bits 21 2054143) (by decide +kernel))
    (forall_cons (fun _ => retRun_returns (bits 5 17) (by decide +kernel))
    (forall_cons (fun _ => retRun_returns (bits 8 249) (by decide +kernel))
    (forall_cons (fun _ => retRun_returns (bits 17 130945) (by decide +kernel))
    (forall_nil))))))))))))))))))))))))))))))))))))))))))))))

theorem single_container : ∀ e ∈ Single.in_container, Safe e.2 :=
  forall_cons (check_safe 20000 (by decide +kernel))
    (forall_cons (check_safe 20000 (by decide +kernel))
    (forall_cons (check_safe 20000 (by decide +kernel))
    (forall_cons (check_safe 20000 (by decide +kernel))
    (forall_cons (check_safe 20000 (by decide +kernel))
    (forall_cons (check_safe 20000 (by decide +kernel))
    (forall_cons (check_safe 20000 (by decide +kernel))
    (forall_cons (check_safe 20000 (by decide +kernel))
    (forall_nil))))))))

theorem single_container_returns : ∀ e ∈ Single.in_container, e.1 ∉ notOne → Returns e.2 true :=
  forall_cons (fun _ => retRun_returns (bits 54 18014398509481978) (by decide +kernel))
    (forall_cons (fun _ => retRun_returns (bits 5 26) (by decide +kernel))
    (forall_cons (fun _ => retRun_returns (bits 17 130958) (by decide +kernel))
    (forall_cons (fun _ => retRun_returns (bits 17 130958) (by decide +kernel))
    (forall_cons (fun h => absurd (.head _) h)
    (forall_cons (fun _ => retRun_returns (bits 89 309181597774800868450761727) (by decide +kernel))
    (forall_cons (fun _ => retRun_returns (bits 4 13) (by decide +kernel))
    (forall_cons (fun _ => retRun_returns (bits 21 2097026) (by decide +kernel))
    (forall_nil))))))))

theorem single_snapshot : ∀ e ∈ Single.in_snapshot, e ∉ losingSingle → Safe e.2 :=
  forall_cons (fun _ => check_safe 20000 (by decide +kernel))
    (forall_cons (fun h => absurd (.tail _ (.tail _ (.tail _ (.tail _ (.tail _ (.tail _ (.head _))))))) h)
    (forall_cons (fun _ => check_safe 20000 (by decide +kernel))
    (forall_cons (fun _ => check_safe 20000 (by decide +kernel))
    (forall_cons (fun _ => check_safe 20000 (by decide +kernel))
    (forall_cons (fun _ => check_safe 20000 (by decide +kernel))
    (forall_cons (fun _ => check_safe 20000 (by decide +kernel))
    (forall_cons (fun _ => check_safe 20000 (by decide +kernel))
    (forall_nil))))))))

theorem single_snapshot_returns : ∀ e ∈ Single.in_snapshot, e.1 ∉ notOne → Returns e.2 true :=
  forall_cons (fun _ => retRun_returns (bits 22 4194186) (by decide +kernel))
    (forall_cons (fun _ => retRun_returns (bits 5 26) (by decide +kernel))
    (forall_cons (fun _ => retRun_returns (bits 16 65463) (by decide +kernel))
    (forall_cons (fun h => absurd (.tail _ (.tail _ (.tail _ (.head _)))) h)
    (forall_cons (fun _ => retRun_returns (bits 4 13) (by decide +kernel))
    (forall_cons (fun _ => retRun_returns (bits 4 13) (by decide +kernel))
    (forall_cons (fun _ => retRun_returns (bits 4 13) (by decide +kernel))
    (forall_cons (fun _ => retRun_returns (bits 4 13) (by decide +kernel))
    (forall_nil))))))))

theorem single_volume : ∀ e ∈ Single.in_volume, Safe e.2 :=
  forall_cons (check_safe 20000 (by decide +kernel))
    (forall_cons (check_safe 20000 (by decide +kernel))
    (forall_cons (check_safe 20000 (by decide +kernel))
    (forall_cons (check_safe 20000 (by decide +kernel))
    (forall_cons (check_safe 20000 (by decide +kernel))
    (forall_cons (check_safe 20000 (by decide +kernel))
    (forall_cons (check_safe 20000 (by decide +kernel))
    (forall_cons (check_safe 20000 (by decide +kernel))
    (forall_cons (check_safe 20000 (by decide +kernel))
    (forall_cons (check_safe 20000 (by decide +kernel))
    (forall_cons (check_safe 20000 (by decide +kernel))
    (forall_cons (check_safe 20000 (by decide +kernel))
    (forall_cons (check_safe 20000 (by decide +kernel))
    (forall_cons (check_safe 20000 (by decide +kernel))
    (forall_cons (check_safe 20000 (by decide +kernel))
    (forall_cons (check_safe 20000 (by decide +kernel))
    (forall_cons (check_safe 20000 (by decide +kernel))
    (forall_cons (check_safe 20000 (by decide +kernel))
    (forall_cons (check_safe 20000 (by decide +kernel))
    (forall_cons (check_safe 20000 (by decide +kernel))
    (forall_cons (check_safe 20000 (by decide +kernel))
    (forall_cons (check_safe 20000 (by decide +kernel))
    (forall_nil))))))))))))))))))))))

theorem single_volume_returns : ∀ e ∈ Single.in_volume, e.1 ∉ notOne → Returns e.2 true :=
  forall_cons (fun _ => retRun_returns (bits 72 4722366482869645213642) (by decide +kernel))
    (forall_cons (fun _ => retRun_returns (bits 5 26) (by decide +kernel))
    (forall_cons (fun _ => retRun_returns (bits 96 79227783543775374752398438271) (by decide +kernel))
    (forall_cons (fun h => absurd (.tail _ (.tail _ (.tail _ (.tail _ (.head _))))) h)
    (forall_cons (fun _ => retRun_returns (bits 7 121) (by decide +kernel))
    (forall_cons (fun _ => retRun_returns (bits 4 9) (by decide +kernel))
    (forall_cons (fun _ => retRun_returns (bits 5 25) (by decide +kernel))
    (forall_cons (fun _ => retRun_returns (bits 4 13) (by decide +kernel))
    (forall_cons (fun _ => retRun_returns (bits 4 13) (by decide +kernel))
    (forall_cons (fun _ => retRun_returns (bits 4 13) (by decide +kernel))
    (forall_cons (fun _ => retRun_returns (bits 4 13) (by decide +kernel))
    (forall_cons (fun _ => retRun_returns (bits 26 67067519) (by decide +kernel))
    (forall_cons (fun _ => retRun_returns (bits 27 134176639) (by decide +kernel))
    (forall_cons (fun _ => retRun_returns (bits 25 33533823) (by decide +kernel))
    (forall_cons (fun _ => retRun_returns (bits 27 134176639) (by decide +kernel))
    (forall_cons (fun _ => retRun_returns (bits 17 131057) (by decide +kernel))
    (forall_cons (fun _ => retRun_returns (bits 32 4294964735) (by decide +kernel))
    (forall_cons (fun _ => retRun_returns (bits 17 131057) (by decide +kernel))
    (forall_cons (fun _ => retRun_returns (bits 21 2096966) (by decide +kernel))
    (forall_cons (fun _ => retRun_returns (bits 21 2096966) (by decide +kernel))
    (forall_cons (fun _ => retRun_returns (bits 4 13) (by decide +kernel))
    (forall_cons (fun _ => retRun_returns (bits 17 131058) (by decide +kernel))
    (forall_nil))))))))))))))))))))))

end Verif.Owner
