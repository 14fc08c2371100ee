import Verif.Lemmas.OwnerRun
import Verif.Spec.OwnershipKnown

/-!
The checks of the functions of low level structures.
-/

namespace Verif.Owner

open Verif.Spec.Owner

theorem lib_attribute_values : ∀ e ∈ Lib.in_attribute_values, Safe e.2 :=
  forall_cons (check_safe 20000 (by decide +kernel))
    (forall_cons (check_safe 20000 (by decide +kernel))
    (forall_cons (check_safe 20000 (by decide +kernel))
    (forall_cons (check_safe 20000 (by decide +kernel))
    (forall_cons (check_safe 20000 (by decide +kernel))
    (forall_cons (check_safe 20000 (by decide +kernel))
    (forall_cons (check_safe 20000 (by decide +kernel))
    (forall_nil)))))))

theorem lib_attribute_values_returns : ∀ e ∈ Lib.in_attribute_values, e.1 ∉ notOne → Returns e.2 true :=
  forall_cons (fun _ => retRun_returns (bits 26 67108854) (by decide +kernel))
    (forall_cons (fun _ => retRun_returns (bits 6 54) (by decide +kernel))
    (forall_cons (fun _ => retRun_returns (bits 23 8372735) (by decide +kernel))
    (forall_cons (fun _ => retRun_returns (bits 18 86527) (by decide +kernel))
    (forall_cons (fun _ => retRun_returns (bits 9 509) (by decide +kernel))
    (forall_cons (fun _ => retRun_returns (bits 9 509) (by decide +kernel))
    (forall_cons (fun _ => retRun_returns (bits 5 28) (by decide +kernel))
    (forall_nil)))))))

theorem lib_attributes : ∀ e ∈ Lib.in_attributes, Safe e.2 :=
  forall_cons (check_safe 20000 (by decide +kernel))
    (forall_cons (check_safe 20000 (by decide +kernel))
    (forall_nil))

theorem lib_attributes_returns : ∀ e ∈ Lib.in_attributes, e.1 ∉ notOne → Returns e.2 true :=
  forall_cons (fun _ => retRun_returns (bits 22 4194303) (by decide +kernel))
    (forall_cons (fun _ => retRun_returns (bits 4 8) (by decide +kernel))
    (forall_nil))

theorem lib_bit_stream : ∀ e ∈ Lib.in_bit_stream, Safe e.2 :=
  forall_cons (check_safe 20000 (by decide +kernel))
    (forall_cons (check_safe 20000 (by decide +kernel))
    (forall_nil))

theorem lib_bit_stream_returns : ∀ e ∈ Lib.in_bit_stream, e.1 ∉ notOne → Returns e.2 true :=
  forall_cons (fun _ => retRun_returns (bits 18 261898) (by decide +kernel))
    (forall_cons (fun _ => retRun_returns (bits 3 4) (by decide +kernel))
    (forall_nil))

theorem lib_btree_entry : ∀ e ∈ Lib.in_btree_entry, Safe e.2 :=
  forall_cons (check_safe 20000 (by decide +kernel))
    (forall_cons (check_safe 20000 (by decide +kernel))
    (forall_cons (check_safe 20000 (by decide +kernel))
    (forall_cons (check_safe 20000 (by decide +kernel))
    (forall_nil))))

theorem lib_btree_entry_returns : ∀ e ∈ Lib.in_btree_entry, e.1 ∉ notOne → Returns e.2 true :=
  forall_cons (fun _ => retRun_returns (bits 21 2097142) (by decide +kernel))
    (forall_cons (fun _ => retRun_returns (bits 4 10) (by decide +kernel))
    (forall_cons (fun _ => retRun_returns (bits 11 511) (by decide +kernel))
    (forall_cons (fun _ => retRun_returns (bits 12 511) (by decide +kernel))
    (forall_nil))))

theorem lib_btree_footer : ∀ e ∈ Lib.in_btree_footer, Safe e.2 :=
  forall_cons (check_safe 20000 (by decide +kernel))
    (forall_cons (check_safe 20000 (by decide +kernel))
    (forall_nil))

theorem lib_btree_footer_returns : ∀ e ∈ Lib.in_btree_footer, e.1 ∉ notOne → Returns e.2 true :=
  forall_cons (fun _ => retRun_returns (bits 10 1018) (by decide +kernel))
    (forall_cons (fun _ => retRun_returns (bits 3 4) (by decide +kernel))
    (forall_nil))

theorem lib_btree_node : ∀ e ∈ Lib.in_btree_node, Safe e.2 :=
  forall_cons (check_safe 20000 (by decide +kernel))
    (forall_cons (check_safe 20000 (by decide +kernel))
    (forall_cons (check_safe 20000 (by decide +kernel))
    (forall_cons (check_safe 20000 (by decide +kernel))
    (forall_nil))))

theorem lib_btree_node_returns : ∀ e ∈ Lib.in_btree_node, e.1 ∉ notOne → Returns e.2 true :=
  forall_cons (fun _ => retRun_returns (bits 30 1073741814) (by decide +kernel))
    (forall_cons (fun _ => retRun_returns (bits 6 54) (by decide +kernel))
    (forall_cons (fun _ => retRun_returns (bits 38 127469089279) (by decide +kernel))
    (forall_cons (fun _ => retRun_returns (bits 5 28) (by decide +kernel))
    (forall_nil))))

theorem lib_btree_node_header : ∀ e ∈ Lib.in_btree_node_header, Safe e.2 :=
  forall_cons (check_safe 20000 (by decide +kernel))
    (forall_cons (check_safe 20000 (by decide +kernel))
    (forall_nil))

theorem lib_btree_node_header_returns : ∀ e ∈ Lib.in_btree_node_header, e.1 ∉ notOne → Returns e.2 true :=
  forall_cons (fun _ => retRun_returns (bits 10 1018) (by decide +kernel))
    (forall_cons (fun _ => retRun_returns (bits 3 4) (by decide +kernel))
    (forall_nil))

theorem lib_buffer_data_handle : ∀ e ∈ Lib.in_buffer_data_handle, Safe e.2 :=
  forall_cons (check_safe 20000 (by decide +kernel))
    (forall_cons (check_safe 20000 (by decide +kernel))
    (forall_nil))

theorem lib_buffer_data_handle_returns : ∀ e ∈ Lib.in_buffer_data_handle, e.1 ∉ notOne → Returns e.2 true :=
  forall_cons (fun _ => retRun_returns (bits 14 16330) (by decide +kernel))
    (forall_cons (fun _ => retRun_returns (bits 3 4) (by decide +kernel))
    (forall_nil))

theorem lib_checkpoint_map : ∀ e ∈ Lib.in_checkpoint_map, Safe e.2 :=
  forall_cons (check_safe 20000 (by decide +kernel))
    (forall_cons (check_safe 20000 (by decide +kernel))
    (forall_cons (check_safe 20000 (by decide +kernel))
    (forall_cons (check_safe 20000 (by decide +kernel))
    (forall_nil))))

theorem lib_checkpoint_map_returns : ∀ e ∈ Lib.in_checkpoint_map, e.1 ∉ notOne → Returns e.2 true :=
  forall_cons (fun _ => retRun_returns (bits 20 1048566) (by decide +kernel))
    (forall_cons (fun _ => retRun_returns (bits 6 54) (by decide +kernel))
    (forall_cons (fun _ => retRun_returns (bits 10 64) (by decide +kernel))
    (forall_cons (fun _ => retRun_returns (bits 11 2044) (by decide +kernel))
    (forall_nil))))

theorem lib_checkpoint_map_entry : ∀ e ∈ Lib.in_checkpoint_map_entry, Safe e.2 :=
  forall_cons (check_safe 20000 (by decide +kernel))
    (forall_cons (check_safe 20000 (by decide +kernel))
    (forall_nil))

theorem lib_checkpoint_map_entry_returns : ∀ e ∈ Lib.in_checkpoint_map_entry, e.1 ∉ notOne → Returns e.2 true :=
  forall_cons (fun _ => retRun_returns (bits 10 1018) (by decide +kernel))
    (forall_cons (fun _ => retRun_returns (bits 3 4) (by decide +kernel))
    (forall_nil))

theorem lib_chunk_information_block : ∀ e ∈ Lib.in_chunk_information_block, Safe e.2 :=
  forall_cons (check_safe 20000 (by decide +kernel))
    (forall_cons (check_safe 20000 (by decide +kernel))
    (forall_nil))

theorem lib_chunk_information_block_returns : ∀ e ∈ Lib.in_chunk_information_block, e.1 ∉ notOne → Returns e.2 true :=
  forall_cons (fun _ => retRun_returns (bits 10 1018) (by decide +kernel))
    (forall_cons (fun _ => retRun_returns (bits 3 4) (by decide +kernel))
    (forall_nil))

theorem lib_compressed_data_handle : ∀ e ∈ Lib.in_compressed_data_handle, Safe e.2 :=
  forall_cons (check_safe 20000 (by decide +kernel))
    (forall_cons (check_safe 20000 (by decide +kernel))
    (forall_cons (check_safe 20000 (by decide +kernel))
    (forall_nil)))

theorem lib_compressed_data_handle_returns : ∀ e ∈ Lib.in_compressed_data_handle, e.1 ∉ notOne → Returns e.2 true :=
  forall_cons (fun _ => retRun_returns (bits 39 541165879190) (by decide +kernel))
    (forall_cons (fun _ => retRun_returns (bits 4 10) (by decide +kernel))
    (forall_cons (fun _ => retRun_returns (bits 38 96634527743) (by decide +kernel))
    (forall_nil)))

theorem lib_compressed_data_header : ∀ e ∈ Lib.in_compressed_data_header, Safe e.2 :=
  forall_cons (check_safe 20000 (by decide +kernel))
    (forall_cons (check_safe 20000 (by decide +kernel))
    (forall_nil))

theorem lib_compressed_data_header_returns : ∀ e ∈ Lib.in_compressed_data_header, e.1 ∉ notOne → Returns e.2 true :=
  forall_cons (fun _ => retRun_returns (bits 10 1018) (by decide +kernel))
    (forall_cons (fun _ => retRun_returns (bits 3 4) (by decide +kernel))
    (forall_nil))

theorem lib_compression : ∀ e ∈ Lib.in_compression, Safe e.2 :=
  forall_cons (check_safe 20000 (by decide +kernel))
    (forall_nil)

theorem lib_compression_returns : ∀ e ∈ Lib.in_compression, e.1 ∉ notOne → Returns e.2 true :=
  forall_cons (fun _ => retRun_returns (bits 14 14561) (by decide +kernel))
    (forall_nil)

theorem lib_container_data_handle : ∀ e ∈ Lib.in_container_data_handle, Safe e.2 :=
  forall_cons (check_safe 20000 (by decide +kernel))
    (forall_cons (check_safe 20000 (by decide +kernel))
    (forall_cons (check_safe 20000 (by decide +kernel))
    (forall_nil)))

theorem lib_container_data_handle_returns : ∀ e ∈ Lib.in_container_data_handle, e.1 ∉ notOne → Returns e.2 true :=
  forall_cons (fun _ => retRun_returns (bits 12 4074) (by decide +kernel))
    (forall_cons (fun _ => retRun_returns (bits 3 4) (by decide +kernel))
    (forall_cons (fun _ => retRun_returns (bits 11 2040) (by decide +kernel))
    (forall_nil)))

theorem lib_container_key_bag : ∀ e ∈ Lib.in_container_key_bag, Safe e.2 :=
  forall_cons (check_safe 20000 (by decide +kernel))
    (forall_cons (check_safe 20000 (by decide +kernel))
    (forall_cons (check_safe 20000 (by decide +kernel))
    (forall_cons (check_safe 20000 (by decide +kernel))
    (forall_cons (check_safe 20000 (by decide +kernel))
    (forall_cons (check_safe 20000 (by decide +kernel))
    (forall_nil))))))

theorem lib_container_key_bag_returns : ∀ e ∈ Lib.in_container_key_bag, e.1 ∉ notOne → Returns e.2 true :=
  forall_cons (fun _ => retRun_returns (bits 20 1048566) (by decide +kernel))
    (forall_cons (fun _ => retRun_returns (bits 6 54) (by decide +kernel))
    (forall_cons (fun _ => retRun_returns (bits 39 549755811777) (by decide +kernel))
    (forall_cons (fun _ => retRun_returns (bits 19 442176) (by decide +kernel))
    (forall_cons (fun _ => retRun_returns (bits 20 874480) (by decide +kernel))
    (forall_cons (fun _ => retRun_returns (bits 32 4294962169) (by decide +kernel))
    (forall_nil))))))

theorem lib_container_reaper : ∀ e ∈ Lib.in_container_reaper, Safe e.2 :=
  forall_cons (check_safe 20000 (by decide +kernel))
    (forall_cons (check_safe 20000 (by decide +kernel))
    (forall_nil))

theorem lib_container_reaper_returns : ∀ e ∈ Lib.in_container_reaper, e.1 ∉ notOne → Returns e.2 true :=
  forall_cons (fun _ => retRun_returns (bits 10 1018) (by decide +kernel))
    (forall_cons (fun _ => retRun_returns (bits 3 4) (by decide +kernel))
    (forall_nil))

theorem lib_container_superblock : ∀ e ∈ Lib.in_container_superblock, Safe e.2 :=
  forall_cons (check_safe 20000 (by decide +kernel))
    (forall_cons (check_safe 20000 (by decide +kernel))
    (forall_nil))

theorem lib_container_superblock_returns : ∀ e ∈ Lib.in_container_superblock, e.1 ∉ notOne → Returns e.2 true :=
  forall_cons (fun _ => retRun_returns (bits 10 1018) (by decide +kernel))
    (forall_cons (fun _ => retRun_returns (bits 3 4) (by decide +kernel))
    (forall_nil))

theorem lib_data_block : ∀ e ∈ Lib.in_data_block, Safe e.2 :=
  forall_cons (check_safe 20000 (by decide +kernel))
    (forall_cons (check_safe 20000 (by decide +kernel))
    (forall_cons (check_safe 20000 (by decide +kernel))
    (forall_nil)))

theorem lib_data_block_returns : ∀ e ∈ Lib.in_data_block, e.1 ∉ notOne → Returns e.2 true :=
  forall_cons (fun _ => retRun_returns (bits 18 196566) (by decide +kernel))
    (forall_cons (fun _ => retRun_returns (bits 6 54) (by decide +kernel))
    (forall_cons (fun _ => retRun_returns (bits 24 12568555) (by decide +kernel))
    (forall_nil)))

theorem lib_data_block_data_handle : ∀ e ∈ Lib.in_data_block_data_handle, Safe e.2 :=
  forall_cons (check_safe 20000 (by decide +kernel))
    (forall_cons (check_safe 20000 (by decide +kernel))
    (forall_cons (check_safe 20000 (by decide +kernel))
    (forall_nil)))

theorem lib_data_block_data_handle_returns : ∀ e ∈ Lib.in_data_block_data_handle, e.1 ∉ notOne → Returns e.2 true :=
  forall_cons (fun _ => retRun_returns (bits 43 8796093022166) (by decide +kernel))
    (forall_cons (fun _ => retRun_returns (bits 6 54) (by decide +kernel))
    (forall_cons (fun _ => retRun_returns (bits 7 0) (by decide +kernel))
    (forall_nil)))

theorem lib_data_block_vector : ∀ e ∈ Lib.in_data_block_vector, Safe e.2 :=
  forall_cons (check_safe 20000 (by decide +kernel))
    (forall_nil)

theorem lib_data_block_vector_returns : ∀ e ∈ Lib.in_data_block_vector, e.1 ∉ notOne → Returns e.2 true :=
  forall_cons (fun _ => retRun_returns (bits 13 7114) (by decide +kernel))
    (forall_nil)

theorem lib_data_stream : ∀ e ∈ Lib.in_data_stream, Safe e.2 :=
  forall_cons (check_safe 20000 (by decide +kernel))
    (forall_cons (check_safe 20000 (by decide +kernel))
    (forall_cons (check_safe 20000 (by decide +kernel))
    (forall_nil)))

theorem lib_data_stream_returns : ∀ e ∈ Lib.in_data_stream, e.1 ∉ notOne → Returns e.2 true :=
  forall_cons (fun _ => retRun_returns (bits 14 16382) (by decide +kernel))
    (forall_cons (fun _ => retRun_returns (bits 15 32764) (by decide +kernel))
    (forall_cons (fun _ => retRun_returns (bits 14 16382) (by decide +kernel))
    (forall_nil)))

theorem lib_deflate : ∀ e ∈ Lib.in_deflate, Safe e.2 :=
  forall_cons (check_safe 20000 (by decide +kernel))
    (forall_cons (check_safe 20000 (by decide +kernel))
    (forall_cons (check_safe 20000 (by decide +kernel))
    (forall_cons (check_safe 20000 (by decide +kernel))
    (forall_nil))))

theorem lib_deflate_returns : ∀ e ∈ Lib.in_deflate, e.1 ∉ notOne → Returns e.2 true :=
  forall_cons (fun _ => retRun_returns (bits 16 62433) (by decide +kernel))
    (forall_cons (fun _ => retRun_returns (bits 7 96) (by decide +kernel))
    (forall_cons (fun _ => retRun_returns (bits 15 31680) (by decide +kernel))
    (forall_cons (fun _ => retRun_returns (bits 18 251808) (by decide +kernel))
    (forall_nil))))

theorem lib_directory_record : ∀ e ∈ Lib.in_directory_record, Safe e.2 :=
  forall_cons (check_safe 20000 (by decide +kernel))
    (forall_cons (check_safe 20000 (by decide +kernel))
    (forall_cons (check_safe 20000 (by decide +kernel))
    (forall_cons (check_safe 20000 (by decide +kernel))
    (forall_cons (check_safe 20000 (by decide +kernel))
    (forall_cons (check_safe 20000 (by decide +kernel))
    (forall_nil))))))

theorem lib_directory_record_returns : ∀ e ∈ Lib.in_directory_record, e.1 ∉ notOne → Returns e.2 true :=
  forall_cons (fun _ => retRun_returns (bits 16 65526) (by decide +kernel))
    (forall_cons (fun _ => retRun_returns (bits 4 10) (by decide +kernel))
    (forall_cons (fun _ => retRun_returns (bits 12 4074) (by decide +kernel))
    (forall_cons (fun _ => retRun_returns (bits 26 67043839) (by decide +kernel))
    (forall_cons (fun _ => retRun_returns (bits 7 119) (by decide +kernel))
    (forall_cons (fun _ => retRun_returns (bits 7 119) (by decide +kernel))
    (forall_nil))))))

end Verif.Owner
