import Verif.Lemmas.OwnerOfBlocks
import Verif.Lemmas.OwnerOfRecords
import Verif.Lemmas.OwnerOfTrees
import Verif.Lemmas.OwnerOfFileEntry
import Verif.Lemmas.OwnerOfVolume
import Verif.Lemmas.OwnerOfSingle

/-!
The checks put together.
-/

namespace Verif.Owner

open Verif.Spec.Owner

theorem library_safe : ∀ e ∈ library, e ∉ losing → Safe e.2 :=
  forall_append (forall_append (forall_append (forall_append (forall_append (forall_append (forall_append (forall_append (forall_append (forall_append (forall_append (forall_append (forall_append (forall_append (forall_append (forall_append (forall_append (forall_append (forall_append (forall_append (forall_append (forall_append (forall_append (forall_append (forall_append (forall_append (forall_append (forall_append (forall_append (forall_append (forall_append (forall_append (forall_append (forall_append (forall_append (forall_append (forall_append (forall_append (forall_append (forall_append (forall_append (forall_append (forall_append (forall_append (forall_append (forall_append (forall_append (forall_append (forall_append (forall_append (forall_append (forall_append (fun e h _ => lib_attribute_values e h)
    (fun e h _ => lib_attributes e h))
    (fun e h _ => lib_bit_stream e h))
    (fun e h _ => lib_btree_entry e h))
    (fun e h _ => lib_btree_footer e h))
    (fun e h _ => lib_btree_node e h))
    (fun e h _ => lib_btree_node_header e h))
    (fun e h _ => lib_buffer_data_handle e h))
    (fun e h _ => lib_checkpoint_map e h))
    (fun e h _ => lib_checkpoint_map_entry e h))
    (fun e h _ => lib_chunk_information_block e h))
    (fun e h _ => lib_compressed_data_handle e h))
    (fun e h _ => lib_compressed_data_header e h))
    (fun e h _ => lib_compression e h))
    (fun e h _ => lib_container_data_handle e h))
    (fun e h _ => lib_container_key_bag e h))
    (fun e h _ => lib_container_reaper e h))
    (fun e h _ => lib_container_superblock e h))
    (fun e h _ => lib_data_block e h))
    (fun e h _ => lib_data_block_data_handle e h))
    (fun e h _ => lib_data_block_vector e h))
    (fun e h _ => lib_data_stream e h))
    (fun e h _ => lib_deflate e h))
    (fun e h _ => lib_directory_record e h))
    (fun e h _ => lib_encryption_context e h))
    (fun e h _ => lib_extent_reference_tree e h))
    (fun e h _ => lib_file_extent e h))
    (fun e h _ => lib_file_system_data_handle e h))
    (fun e h _ => lib_fusion_middle_tree e h))
    (fun e h _ => lib_huffman_tree e h))
    (fun e h _ => lib_inode e h))
    (fun e h _ => lib_io_handle e h))
    (fun e h _ => lib_key_bag_entry e h))
    (fun e h _ => lib_key_bag_header e h))
    (fun e h _ => lib_key_encrypted_key e h))
    (fun e h _ => lib_object e h))
    (fun e h _ => lib_object_map e h))
    (fun e h _ => lib_object_map_descriptor e h))
    (fun e h _ => lib_password e h))
    (fun e h _ => lib_snapshot_metadata e h))
    (fun e h _ => lib_space_manager e h))
    (fun e h _ => lib_support e h))
    (fun e h _ => lib_volume_key_bag e h))
    (fun e h _ => lib_volume_superblock e h))
    (fun e h _ => lib_file_system e h))
    (lib_file_system_btree))
    (lib_object_map_btree))
    (lib_snapshot_metadata_tree))
    (fun e h _ => lib_extended_attribute e h))
    (lib_file_entry))
    (lib_container))
    (lib_snapshot))
    (lib_volume)

theorem librarySingle_safe : ∀ e ∈ librarySingle, e ∉ losingSingle → Safe e.2 :=
  forall_append (forall_append (forall_append (forall_append (forall_append (forall_append (forall_append (forall_append (forall_append (forall_append (forall_append (forall_append (forall_append (forall_append (forall_append (forall_append (forall_append (forall_append (forall_append (forall_append (forall_append (forall_append (forall_append (forall_append (forall_append (forall_append (forall_append (forall_append (forall_append (forall_append (forall_append (forall_append (forall_append (forall_append (forall_append (forall_append (forall_append (forall_append (forall_append (forall_append (forall_append (forall_append (forall_append (forall_append (forall_append (forall_append (forall_append (forall_append (forall_append (forall_append (forall_append (forall_append (fun e h _ => lib_attribute_values e h)
    (fun e h _ => lib_attributes e h))
    (fun e h _ => lib_bit_stream e h))
    (fun e h _ => lib_btree_entry e h))
    (fun e h _ => lib_btree_footer e h))
    (fun e h _ => lib_btree_node e h))
    (fun e h _ => lib_btree_node_header e h))
    (fun e h _ => lib_buffer_data_handle e h))
    (fun e h _ => lib_checkpoint_map e h))
    (fun e h _ => lib_checkpoint_map_entry e h))
    (fun e h _ => lib_chunk_information_block e h))
    (fun e h _ => lib_compressed_data_handle e h))
    (fun e h _ => lib_compressed_data_header e h))
    (fun e h _ => lib_compression e h))
    (fun e h _ => lib_container_data_handle e h))
    (fun e h _ => lib_container_key_bag e h))
    (fun e h _ => lib_container_reaper e h))
    (fun e h _ => lib_container_superblock e h))
    (fun e h _ => lib_data_block e h))
    (fun e h _ => lib_data_block_data_handle e h))
    (fun e h _ => lib_data_block_vector e h))
    (fun e h _ => lib_data_stream e h))
    (fun e h _ => lib_deflate e h))
    (fun e h _ => lib_directory_record e h))
    (fun e h _ => lib_encryption_context e h))
    (fun e h _ => lib_extent_reference_tree e h))
    (fun e h _ => lib_file_extent e h))
    (fun e h _ => lib_file_system_data_handle e h))
    (fun e h _ => lib_fusion_middle_tree e h))
    (fun e h _ => lib_huffman_tree e h))
    (fun e h _ => lib_inode e h))
    (fun e h _ => lib_io_handle e h))
    (fun e h _ => lib_key_bag_entry e h))
    (fun e h _ => lib_key_bag_header e h))
    (fun e h _ => lib_key_encrypted_key e h))
    (fun e h _ => lib_object e h))
    (fun e h _ => lib_object_map e h))
    (fun e h _ => lib_object_map_descriptor e h))
    (fun e h _ => lib_password e h))
    (fun e h _ => lib_snapshot_metadata e h))
    (fun e h _ => lib_space_manager e h))
    (fun e h _ => lib_support e h))
    (fun e h _ => lib_volume_key_bag e h))
    (fun e h _ => lib_volume_superblock e h))
    (fun e h _ => lib_file_system e h))
    (single_file_system_btree))
    (single_object_map_btree))
    (single_snapshot_metadata_tree))
    (fun e h _ => single_extended_attribute e h))
    (single_file_entry))
    (fun e h _ => single_container e h))
    (single_snapshot))
    (fun e h _ => single_volume e h)

theorem library_returns : ∀ e ∈ library, e.1 ∉ notOne → Returns e.2 true :=
  forall_append (forall_append (forall_append (forall_append (forall_append (forall_append (forall_append (forall_append (forall_append (forall_append (forall_append (forall_append (forall_append (forall_append (forall_append (forall_append (forall_append (forall_append (forall_append (forall_append (forall_append (forall_append (forall_append (forall_append (forall_append (forall_append (forall_append (forall_append (forall_append (forall_append (forall_append (forall_append (forall_append (forall_append (forall_append (forall_append (forall_append (forall_append (forall_append (forall_append (forall_append (forall_append (forall_append (forall_append (forall_append (forall_append (forall_append (forall_append (forall_append (forall_append (forall_append (forall_append (lib_attribute_values_returns)
    (lib_attributes_returns))
    (lib_bit_stream_returns))
    (lib_btree_entry_returns))
    (lib_btree_footer_returns))
    (lib_btree_node_returns))
    (lib_btree_node_header_returns))
    (lib_buffer_data_handle_returns))
    (lib_checkpoint_map_returns))
    (lib_checkpoint_map_entry_returns))
    (lib_chunk_information_block_returns))
    (lib_compressed_data_handle_returns))
    (lib_compressed_data_header_returns))
    (lib_compression_returns))
    (lib_container_data_handle_returns))
    (lib_container_key_bag_returns))
    (lib_container_reaper_returns))
    (lib_container_superblock_returns))
    (lib_data_block_returns))
    (lib_data_block_data_handle_returns))
    (lib_data_block_vector_returns))
    (lib_data_stream_returns))
    (lib_deflate_returns))
    (lib_directory_record_returns))
    (lib_encryption_context_returns))
    (lib_extent_reference_tree_returns))
    (lib_file_extent_returns))
    (lib_file_system_data_handle_returns))
    (lib_fusion_middle_tree_returns))
    (lib_huffman_tree_returns))
    (lib_inode_returns))
    (lib_io_handle_returns))
    (lib_key_bag_entry_returns))
    (lib_key_bag_header_returns))
    (lib_key_encrypted_key_returns))
    (lib_object_returns))
    (lib_object_map_returns))
    (lib_object_map_descriptor_returns))
    (lib_password_returns))
    (lib_snapshot_metadata_returns))
    (lib_space_manager_returns))
    (lib_support_returns))
    (lib_volume_key_bag_returns))
    (lib_volume_superblock_returns))
    (lib_file_system_returns))
    (lib_file_system_btree_returns))
    (lib_object_map_btree_returns))
    (lib_snapshot_metadata_tree_returns))
    (lib_extended_attribute_returns))
    (lib_file_entry_returns))
    (lib_container_returns))
    (lib_snapshot_returns))
    (lib_volume_returns)

theorem librarySingle_returns : ∀ e ∈ librarySingle, e.1 ∉ notOne → Returns e.2 true :=
  forall_append (forall_append (forall_append (forall_append (forall_append (forall_append (forall_append (forall_append (forall_append (forall_append (forall_append (forall_append (forall_append (forall_append (forall_append (forall_append (forall_append (forall_append (forall_append (forall_append (forall_append (forall_append (forall_append (forall_append (forall_append (forall_append (forall_append (forall_append (forall_append (forall_append (forall_append (forall_append (forall_append (forall_append (forall_append (forall_append (forall_append (forall_append (forall_append (forall_append (forall_append (forall_append (forall_append (forall_append (forall_append (forall_append (forall_append (forall_append (forall_append (forall_append (forall_append (forall_append (lib_attribute_values_returns)
    (lib_attributes_returns))
    (lib_bit_stream_returns))
    (lib_btree_entry_returns))
    (lib_btree_footer_returns))
    (lib_btree_node_returns))
    (lib_btree_node_header_returns))
    (lib_buffer_data_handle_returns))
    (lib_checkpoint_map_returns))
    (lib_checkpoint_map_entry_returns))
    (lib_chunk_information_block_returns))
    (lib_compressed_data_handle_returns))
    (lib_compressed_data_header_returns))
    (lib_compression_returns))
    (lib_container_data_handle_returns))
    (lib_container_key_bag_returns))
    (lib_container_reaper_returns))
    (lib_container_superblock_returns))
    (lib_data_block_returns))
    (lib_data_block_data_handle_returns))
    (lib_data_block_vector_returns))
    (lib_data_stream_returns))
    (lib_deflate_returns))
    (lib_directory_record_returns))
    (lib_encryption_context_returns))
    (lib_extent_reference_tree_returns))
    (lib_file_extent_returns))
    (lib_file_system_data_handle_returns))
    (lib_fusion_middle_tree_returns))
    (lib_huffman_tree_returns))
    (lib_inode_returns))
    (lib_io_handle_returns))
    (lib_key_bag_entry_returns))
    (lib_key_bag_header_returns))
    (lib_key_encrypted_key_returns))
    (lib_object_returns))
    (lib_object_map_returns))
    (lib_object_map_descriptor_returns))
    (lib_password_returns))
    (lib_snapshot_metadata_returns))
    (lib_space_manager_returns))
    (lib_support_returns))
    (lib_volume_key_bag_returns))
    (lib_volume_superblock_returns))
    (lib_file_system_returns))
    (lib_file_system_btree_returns))
    (lib_object_map_btree_returns))
    (lib_snapshot_metadata_tree_returns))
    (single_extended_attribute_returns))
    (single_file_entry_returns))
    (single_container_returns))
    (single_snapshot_returns))
    (single_volume_returns)

end Verif.Owner
