import Verif.Lemmas.OwnerRun
import Verif.Spec.OwnershipKnown

/-!
The checks of the functions of records, keys and streams.
-/

namespace Verif.Owner

open Verif.Spec.Owner

theorem lib_encryption_context : ∀ e ∈ Lib.in_encryption_context, Safe e.2 :=
  forall_cons (check_safe 20000 (by decide +kernel))
    (forall_cons (check_safe 20000 (by decide +kernel))
    (forall_cons (check_safe 20000 (by decide +kernel))
    (forall_nil)))

theorem lib_encryption_context_returns : ∀ e ∈ Lib.in_encryption_context, e.1 ∉ notOne → Returns e.2 true :=
  forall_cons (fun _ => retRun_returns (bits 22 4194262) (by decide +kernel))
    (forall_cons (fun _ => retRun_returns (bits 6 54) (by decide +kernel))
    (forall_cons (fun _ => retRun_returns (bits 18 245248) (by decide +kernel))
    (forall_nil)))

theorem lib_extent_reference_tree : ∀ e ∈ Lib.in_extent_reference_tree, Safe e.2 :=
  forall_cons (check_safe 20000 (by decide +kernel))
    (forall_cons (check_safe 20000 (by decide +kernel))
    (forall_nil))

theorem lib_extent_reference_tree_returns : ∀ e ∈ Lib.in_extent_reference_tree, e.1 ∉ notOne → Returns e.2 true :=
  forall_cons (fun _ => retRun_returns (bits 10 1018) (by decide +kernel))
    (forall_cons (fun _ => retRun_returns (bits 3 4) (by decide +kernel))
    (forall_nil))

theorem lib_file_extent : ∀ e ∈ Lib.in_file_extent, Safe e.2 :=
  forall_cons (check_safe 20000 (by decide +kernel))
    (forall_cons (check_safe 20000 (by decide +kernel))
    (forall_nil))

theorem lib_file_extent_returns : ∀ e ∈ Lib.in_file_extent, e.1 ∉ notOne → Returns e.2 true :=
  forall_cons (fun _ => retRun_returns (bits 10 1018) (by decide +kernel))
    (forall_cons (fun _ => retRun_returns (bits 3 4) (by decide +kernel))
    (forall_nil))

theorem lib_file_system_data_handle : ∀ e ∈ Lib.in_file_system_data_handle, Safe e.2 :=
  forall_cons (check_safe 20000 (by decide +kernel))
    (forall_cons (check_safe 20000 (by decide +kernel))
    (forall_cons (check_safe 20000 (by decide +kernel))
    (forall_nil)))

theorem lib_file_system_data_handle_returns : ∀ e ∈ Lib.in_file_system_data_handle, e.1 ∉ notOne → Returns e.2 true :=
  forall_cons (fun _ => retRun_returns (bits 14 16362) (by decide +kernel))
    (forall_cons (fun _ => retRun_returns (bits 3 4) (by decide +kernel))
    (forall_cons (fun _ => retRun_returns (bits 12 4088) (by decide +kernel))
    (forall_nil)))

theorem lib_fusion_middle_tree : ∀ e ∈ Lib.in_fusion_middle_tree, Safe e.2 :=
  forall_cons (check_safe 20000 (by decide +kernel))
    (forall_cons (check_safe 20000 (by decide +kernel))
    (forall_nil))

theorem lib_fusion_middle_tree_returns : ∀ e ∈ Lib.in_fusion_middle_tree, e.1 ∉ notOne → Returns e.2 true :=
  forall_cons (fun _ => retRun_returns (bits 10 1018) (by decide +kernel))
    (forall_cons (fun _ => retRun_returns (bits 3 4) (by decide +kernel))
    (forall_nil))

theorem lib_huffman_tree : ∀ e ∈ Lib.in_huffman_tree, Safe e.2 :=
  forall_cons (check_safe 20000 (by decide +kernel))
    (forall_cons (check_safe 20000 (by decide +kernel))
    (forall_cons (check_safe 20000 (by decide +kernel))
    (forall_cons (check_safe 20000 (by decide +kernel))
    (forall_nil))))

theorem lib_huffman_tree_returns : ∀ e ∈ Lib.in_huffman_tree, e.1 ∉ notOne → Returns e.2 true :=
  forall_cons (fun _ => retRun_returns (bits 41 2199023255318) (by decide +kernel))
    (forall_cons (fun _ => retRun_returns (bits 4 10) (by decide +kernel))
    (forall_cons (fun _ => retRun_returns (bits 17 81664) (by decide +kernel))
    (forall_cons (fun _ => retRun_returns (bits 11 2033) (by decide +kernel))
    (forall_nil))))

theorem lib_inode : ∀ e ∈ Lib.in_inode, Safe e.2 :=
  forall_cons (check_safe 20000 (by decide +kernel))
    (forall_cons (check_safe 20000 (by decide +kernel))
    (forall_cons (check_safe 20000 (by decide +kernel))
    (forall_cons (check_safe 20000 (by decide +kernel))
    (forall_nil))))

theorem lib_inode_returns : ∀ e ∈ Lib.in_inode, e.1 ∉ notOne → Returns e.2 true :=
  forall_cons (fun _ => retRun_returns (bits 16 65526) (by decide +kernel))
    (forall_cons (fun _ => retRun_returns (bits 4 10) (by decide +kernel))
    (forall_cons (fun _ => retRun_returns (bits 24 8385023) (by decide +kernel))
    (forall_cons (fun _ => retRun_returns (bits 9 497) (by decide +kernel))
    (forall_nil))))

theorem lib_io_handle : ∀ e ∈ Lib.in_io_handle, Safe e.2 :=
  forall_cons (check_safe 20000 (by decide +kernel))
    (forall_cons (check_safe 20000 (by decide +kernel))
    (forall_nil))

theorem lib_io_handle_returns : ∀ e ∈ Lib.in_io_handle, e.1 ∉ notOne → Returns e.2 true :=
  forall_cons (fun _ => retRun_returns (bits 12 4090) (by decide +kernel))
    (forall_cons (fun _ => retRun_returns (bits 5 26) (by decide +kernel))
    (forall_nil))

theorem lib_key_bag_entry : ∀ e ∈ Lib.in_key_bag_entry, Safe e.2 :=
  forall_cons (check_safe 20000 (by decide +kernel))
    (forall_cons (check_safe 20000 (by decide +kernel))
    (forall_cons (check_safe 20000 (by decide +kernel))
    (forall_nil)))

theorem lib_key_bag_entry_returns : ∀ e ∈ Lib.in_key_bag_entry, e.1 ∉ notOne → Returns e.2 true :=
  forall_cons (fun _ => retRun_returns (bits 16 65526) (by decide +kernel))
    (forall_cons (fun _ => retRun_returns (bits 4 10) (by decide +kernel))
    (forall_cons (fun _ => retRun_returns (bits 29 536539647) (by decide +kernel))
    (forall_nil)))

theorem lib_key_bag_header : ∀ e ∈ Lib.in_key_bag_header, Safe e.2 :=
  forall_cons (check_safe 20000 (by decide +kernel))
    (forall_cons (check_safe 20000 (by decide +kernel))
    (forall_nil))

theorem lib_key_bag_header_returns : ∀ e ∈ Lib.in_key_bag_header, e.1 ∉ notOne → Returns e.2 true :=
  forall_cons (fun _ => retRun_returns (bits 10 1018) (by decide +kernel))
    (forall_cons (fun _ => retRun_returns (bits 3 4) (by decide +kernel))
    (forall_nil))

theorem lib_key_encrypted_key : ∀ e ∈ Lib.in_key_encrypted_key, Safe e.2 :=
  forall_cons (check_safe 20000 (by decide +kernel))
    (forall_cons (check_safe 20000 (by decide +kernel))
    (forall_cons (check_safe 20000 (by decide +kernel))
    (forall_cons (check_safe 20000 (by decide +kernel))
    (forall_nil))))

theorem lib_key_encrypted_key_returns : ∀ e ∈ Lib.in_key_encrypted_key, e.1 ∉ notOne → Returns e.2 true :=
  forall_cons (fun _ => retRun_returns (bits 10 1018) (by decide +kernel))
    (forall_cons (fun _ => retRun_returns (bits 3 4) (by decide +kernel))
    (forall_cons (fun _ => retRun_returns (bits 12 3205) (by decide +kernel))
    (forall_cons (fun _ => retRun_returns (bits 10 869) (by decide +kernel))
    (forall_nil))))

theorem lib_object : ∀ e ∈ Lib.in_object, Safe e.2 :=
  forall_cons (check_safe 20000 (by decide +kernel))
    (forall_cons (check_safe 20000 (by decide +kernel))
    (forall_nil))

theorem lib_object_returns : ∀ e ∈ Lib.in_object, e.1 ∉ notOne → Returns e.2 true :=
  forall_cons (fun _ => retRun_returns (bits 10 1018) (by decide +kernel))
    (forall_cons (fun _ => retRun_returns (bits 3 4) (by decide +kernel))
    (forall_nil))

theorem lib_object_map : ∀ e ∈ Lib.in_object_map, Safe e.2 :=
  forall_cons (check_safe 20000 (by decide +kernel))
    (forall_cons (check_safe 20000 (by decide +kernel))
    (forall_nil))

theorem lib_object_map_returns : ∀ e ∈ Lib.in_object_map, e.1 ∉ notOne → Returns e.2 true :=
  forall_cons (fun _ => retRun_returns (bits 10 1018) (by decide +kernel))
    (forall_cons (fun _ => retRun_returns (bits 3 4) (by decide +kernel))
    (forall_nil))

theorem lib_object_map_descriptor : ∀ e ∈ Lib.in_object_map_descriptor, Safe e.2 :=
  forall_cons (check_safe 20000 (by decide +kernel))
    (forall_cons (check_safe 20000 (by decide +kernel))
    (forall_nil))

theorem lib_object_map_descriptor_returns : ∀ e ∈ Lib.in_object_map_descriptor, e.1 ∉ notOne → Returns e.2 true :=
  forall_cons (fun _ => retRun_returns (bits 10 1018) (by decide +kernel))
    (forall_cons (fun _ => retRun_returns (bits 3 4) (by decide +kernel))
    (forall_nil))

theorem lib_password : ∀ e ∈ Lib.in_password, Safe e.2 :=
  forall_cons (check_safe 20000 (by decide +kernel))
    (forall_nil)

theorem lib_password_returns : ∀ e ∈ Lib.in_password, e.1 ∉ notOne → Returns e.2 true :=
  forall_cons (fun _ => retRun_returns (bits 19 425473) (by decide +kernel))
    (forall_nil)

theorem lib_snapshot_metadata : ∀ e ∈ Lib.in_snapshot_metadata, Safe e.2 :=
  forall_cons (check_safe 20000 (by decide +kernel))
    (forall_cons (check_safe 20000 (by decide +kernel))
    (forall_cons (check_safe 20000 (by decide +kernel))
    (forall_nil)))

theorem lib_snapshot_metadata_returns : ∀ e ∈ Lib.in_snapshot_metadata, e.1 ∉ notOne → Returns e.2 true :=
  forall_cons (fun _ => retRun_returns (bits 16 65526) (by decide +kernel))
    (forall_cons (fun _ => retRun_returns (bits 4 10) (by decide +kernel))
    (forall_cons (fun _ => retRun_returns (bits 21 2093623) (by decide +kernel))
    (forall_nil)))

theorem lib_space_manager : ∀ e ∈ Lib.in_space_manager, Safe e.2 :=
  forall_cons (check_safe 20000 (by decide +kernel))
    (forall_cons (check_safe 20000 (by decide +kernel))
    (forall_nil))

theorem lib_space_manager_returns : ∀ e ∈ Lib.in_space_manager, e.1 ∉ notOne → Returns e.2 true :=
  forall_cons (fun _ => retRun_returns (bits 10 1018) (by decide +kernel))
    (forall_cons (fun _ => retRun_returns (bits 3 4) (by decide +kernel))
    (forall_nil))

theorem lib_support : ∀ e ∈ Lib.in_support, Safe e.2 :=
  forall_cons (check_safe 20000 (by decide +kernel))
    (forall_cons (check_safe 20000 (by decide +kernel))
    (forall_cons (check_safe 20000 (by decide +kernel))
    (forall_cons (check_safe 20000 (by decide +kernel))
    (forall_nil))))

theorem lib_support_returns : ∀ e ∈ Lib.in_support, e.1 ∉ notOne → Returns e.2 true :=
  forall_cons (fun _ => retRun_returns (bits 19 524281) (by decide +kernel))
    (forall_cons (fun _ => retRun_returns (bits 19 524281) (by decide +kernel))
    (forall_cons (fun _ => retRun_returns (bits 19 524281) (by decide +kernel))
    (forall_cons (fun _ => retRun_returns (bits 19 524281) (by decide +kernel))
    (forall_nil))))

theorem lib_volume_key_bag : ∀ e ∈ Lib.in_volume_key_bag, Safe e.2 :=
  forall_cons (check_safe 20000 (by decide +kernel))
    (forall_cons (check_safe 20000 (by decide +kernel))
    (forall_cons (check_safe 20000 (by decide +kernel))
    (forall_cons (check_safe 20000 (by decide +kernel))
    (forall_cons (check_safe 20000 (by decide +kernel))
    (forall_nil)))))

theorem lib_volume_key_bag_returns : ∀ e ∈ Lib.in_volume_key_bag, e.1 ∉ notOne → Returns e.2 true :=
  forall_cons (fun _ => retRun_returns (bits 20 1048566) (by decide +kernel))
    (forall_cons (fun _ => retRun_returns (bits 6 54) (by decide +kernel))
    (forall_cons (fun _ => retRun_returns (bits 32 4294966240) (by decide +kernel))
    (forall_cons (fun _ => retRun_returns (bits 17 110528) (by decide +kernel))
    (forall_cons (fun _ => retRun_returns (bits 33 8589934077) (by decide +kernel))
    (forall_nil)))))

theorem lib_volume_superblock : ∀ e ∈ Lib.in_volume_superblock, Safe e.2 :=
  forall_cons (check_safe 20000 (by decide +kernel))
    (forall_cons (check_safe 20000 (by decide +kernel))
    (forall_nil))

theorem lib_volume_superblock_returns : ∀ e ∈ Lib.in_volume_superblock, e.1 ∉ notOne → Returns e.2 true :=
  forall_cons (fun _ => retRun_returns (bits 10 1018) (by decide +kernel))
    (forall_cons (fun _ => retRun_returns (bits 3 4) (by decide +kernel))
    (forall_nil))

end Verif.Owner
