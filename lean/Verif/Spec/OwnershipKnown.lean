import Verif.Model.OwnerSingle

/-
The functions for which the property does not hold.
-/

namespace Verif.Spec.Owner

open Verif.Owner

/-- In the build with threads. -/
def losing : List (String × Fn) :=
  [("libfsapfs_container_initialize", Lib.container_initialize),
   ("libfsapfs_container_free", Lib.container_free),
   ("libfsapfs_container_open", Lib.container_open),
   ("libfsapfs_container_open_wide", Lib.container_open_wide),
   ("libfsapfs_container_get_volume_by_index", Lib.container_get_volume_by_index),
   ("libfsapfs_file_entry_get_parent_file_entry", Lib.file_entry_get_parent_file_entry),
   ("libfsapfs_file_entry_get_extended_attribute_by_index", Lib.file_entry_get_extended_attribute_by_index),
   ("libfsapfs_file_entry_get_extended_attribute_by_utf8_name", Lib.file_entry_get_extended_attribute_by_utf8_name),
   ("libfsapfs_file_entry_get_extended_attribute_by_utf16_name", Lib.file_entry_get_extended_attribute_by_utf16_name),
   ("libfsapfs_internal_file_entry_get_data_stream", Lib.internal_file_entry_get_data_stream),
   ("libfsapfs_internal_file_entry_get_data_size", Lib.internal_file_entry_get_data_size),
   ("libfsapfs_file_system_btree_initialize", Lib.file_system_btree_initialize),
   ("libfsapfs_file_system_btree_get_inode_by_utf8_path", Lib.file_system_btree_get_inode_by_utf8_path),
   ("libfsapfs_file_system_btree_get_inode_by_utf16_path", Lib.file_system_btree_get_inode_by_utf16_path),
   ("libfsapfs_object_map_btree_initialize", Lib.object_map_btree_initialize),
   ("libfsapfs_snapshot_free", Lib.snapshot_free),
   ("libfsapfs_snapshot_metadata_tree_initialize", Lib.snapshot_metadata_tree_initialize),
   ("libfsapfs_volume_get_root_directory", Lib.volume_get_root_directory),
   ("libfsapfs_volume_get_file_entry_by_identifier", Lib.volume_get_file_entry_by_identifier),
   ("libfsapfs_volume_get_file_entry_by_utf8_path", Lib.volume_get_file_entry_by_utf8_path),
   ("libfsapfs_volume_get_file_entry_by_utf16_path", Lib.volume_get_file_entry_by_utf16_path),
   ("libfsapfs_volume_get_snapshot_by_index", Lib.volume_get_snapshot_by_index)]

/-- In the build without threads. -/
def losingSingle : List (String × Fn) :=
  [("libfsapfs_internal_file_entry_get_data_stream", Lib.internal_file_entry_get_data_stream),
   ("libfsapfs_internal_file_entry_get_data_size", Lib.internal_file_entry_get_data_size),
   ("libfsapfs_file_system_btree_initialize", Lib.file_system_btree_initialize),
   ("libfsapfs_file_system_btree_get_inode_by_utf8_path", Lib.file_system_btree_get_inode_by_utf8_path),
   ("libfsapfs_file_system_btree_get_inode_by_utf16_path", Lib.file_system_btree_get_inode_by_utf16_path),
   ("libfsapfs_object_map_btree_initialize", Lib.object_map_btree_initialize),
   ("libfsapfs_snapshot_free", Single.snapshot_free),
   ("libfsapfs_snapshot_metadata_tree_initialize", Lib.snapshot_metadata_tree_initialize)]

/-- The functions that do not return 1: `_close` returns 0, and two that are not called by any other
take the success of the function that finds the inode for an error
(libfsapfs_file_system_btree.c:5562, 6279). -/
def notOne : List String :=
  ["libfsapfs_container_close",
   "libfsapfs_file_system_btree_get_inode_by_utf8_name",
   "libfsapfs_file_system_btree_get_inode_by_utf16_name",
   "libfsapfs_internal_snapshot_close",
   "libfsapfs_internal_volume_close"]

end Verif.Spec.Owner
