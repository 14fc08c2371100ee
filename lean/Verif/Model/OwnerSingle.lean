import Verif.Model.OwnerBlocks
import Verif.Model.OwnerRecords
import Verif.Model.OwnerTrees
import Verif.Model.OwnerFileEntry
import Verif.Model.OwnerVolume

/-
The functions that are different in the build without threads (without
HAVE_LIBFSAPFS_MULTI_THREAD_SUPPORT).
-/

namespace Verif.Owner.Single

/-- `libfsapfs_extended_attribute_get_utf8_name_size`
(libfsapfs/libfsapfs_extended_attribute.c:353-420).  Places: 0 `result`. -/
def extended_attribute_get_utf8_name_size : Fn :=
  ⟨[loc],
   [.setn 0 2, .choice 2 3, .ret false, .choice 5 4, .setn 0 0, .testn 0 2 6 7, .ret true,
    .ret false]⟩

/-- `libfsapfs_extended_attribute_get_utf8_name`
(libfsapfs/libfsapfs_extended_attribute.c:426-495).  Places: 0 `result`. -/
def extended_attribute_get_utf8_name : Fn :=
  ⟨[loc],
   [.setn 0 2, .choice 2 3, .ret false, .choice 5 4, .setn 0 0, .testn 0 2 6 7, .ret true,
    .ret false]⟩

/-- `libfsapfs_extended_attribute_get_utf16_name_size`
(libfsapfs/libfsapfs_extended_attribute.c:501-568).  Places: 0 `result`. -/
def extended_attribute_get_utf16_name_size : Fn :=
  ⟨[loc],
   [.setn 0 2, .choice 2 3, .ret false, .choice 5 4, .setn 0 0, .testn 0 2 6 7, .ret true,
    .ret false]⟩

/-- `libfsapfs_extended_attribute_get_utf16_name`
(libfsapfs/libfsapfs_extended_attribute.c:574-643).  Places: 0 `result`. -/
def extended_attribute_get_utf16_name : Fn :=
  ⟨[loc],
   [.setn 0 2, .choice 2 3, .ret false, .choice 5 4, .setn 0 0, .testn 0 2 6 7, .ret true,
    .ret false]⟩

/-- `libfsapfs_extended_attribute_read_buffer` (libfsapfs/libfsapfs_extended_attribute.c:701-793).
Places: 0 `internal_extended_attribute`, 1 `internal_extended_attribute->data_stream`. -/
def extended_attribute_read_buffer : Fn :=
  ⟨[loc, own 0],
   [.choice 1 2, .ret false, .forget 1, .null 1, .lend 0, .deref 0, .test 1 7 16, .use 0,
    .choice 9 13, .forget 1, .null 1, .maybe 1, .goto 16, .forget 1, .null 1, .maybe 1, .deref 0,
    .test 1 21 18, .deref 0, .use 1, .deref 0, .ret true]⟩

/-- `libfsapfs_extended_attribute_read_buffer_at_offset`
(libfsapfs/libfsapfs_extended_attribute.c:798-892).  Places: 0 `internal_extended_attribute`, 1
`internal_extended_attribute->data_stream`. -/
def extended_attribute_read_buffer_at_offset : Fn :=
  ⟨[loc, own 0],
   [.choice 1 2, .ret false, .forget 1, .null 1, .lend 0, .deref 0, .test 1 7 16, .use 0,
    .choice 9 13, .forget 1, .null 1, .maybe 1, .goto 16, .forget 1, .null 1, .maybe 1, .deref 0,
    .test 1 21 18, .deref 0, .use 1, .deref 0, .ret true]⟩

/-- `libfsapfs_extended_attribute_seek_offset` (libfsapfs/libfsapfs_extended_attribute.c:897-986).
Places: 0 `internal_extended_attribute`, 1 `internal_extended_attribute->data_stream`. -/
def extended_attribute_seek_offset : Fn :=
  ⟨[loc, own 0],
   [.choice 1 2, .ret false, .forget 1, .null 1, .lend 0, .deref 0, .test 1 7 16, .use 0,
    .choice 9 13, .forget 1, .null 1, .maybe 1, .goto 16, .forget 1, .null 1, .maybe 1, .deref 0,
    .test 1 21 18, .deref 0, .use 1, .deref 0, .ret true]⟩

/-- `libfsapfs_extended_attribute_get_offset` (libfsapfs/libfsapfs_extended_attribute.c:991-1077).
Places: 0 `internal_extended_attribute`, 1 `internal_extended_attribute->data_stream`, 2 `result`. -/
def extended_attribute_get_offset : Fn :=
  ⟨[loc, own 0, loc],
   [.setn 2 2, .choice 2 3, .ret false, .forget 1, .null 1, .lend 0, .deref 0, .test 1 8 18, .use 0,
    .choice 10 14, .forget 1, .null 1, .maybe 1, .goto 18, .forget 1, .null 1, .maybe 1, .setn 2 0,
    .deref 0, .test 1 24 20, .deref 0, .use 1, .choice 24 23, .setn 2 0, .testn 2 2 25 26,
    .ret true, .ret false]⟩

/-- `libfsapfs_extended_attribute_get_number_of_extents`
(libfsapfs/libfsapfs_extended_attribute.c:1163-1251).  Places: 0 `result`. -/
def extended_attribute_get_number_of_extents : Fn :=
  ⟨[loc],
   [.setn 0 2, .choice 2 3, .ret false, .choice 4 6, .choice 6 5, .setn 0 0, .testn 0 0 12 7,
    .testn 0 1 10 8, .testn 0 2 10 9, .choice 10 12, .choice 12 11, .setn 0 0, .testn 0 2 13 14,
    .ret true, .ret false]⟩

/-- `libfsapfs_extended_attribute_get_extent_by_index`
(libfsapfs/libfsapfs_extended_attribute.c:1256-1412).  Places: 0 `file_extent`, 1 `result`. -/
def extended_attribute_get_extent_by_index : Fn :=
  ⟨[loc, loc],
   [.setn 1 2, .choice 2 3, .ret false, .choice 4 5, .ret false, .choice 6 7, .ret false,
    .choice 8 9, .ret false, .choice 10 11, .ret false, .choice 12 14, .choice 14 13, .setn 1 0,
    .testn 1 0 30 15, .testn 1 1 18 16, .testn 1 2 18 17, .choice 18 30, .choice 19 21, .lend 0,
    .goto 25, .choice 22 23, .lend 0, .setn 1 0, .goto 30, .test 0 26 28, .setn 1 0, .goto 30,
    .deref 0, .deref 0, .testn 1 2 31 32, .ret true, .ret false]⟩

/-- The functions of libfsapfs/libfsapfs_extended_attribute.c. -/
def in_extended_attribute : List (String × Fn) :=
  [("libfsapfs_extended_attribute_initialize", Lib.extended_attribute_initialize),
   ("libfsapfs_extended_attribute_free", Lib.extended_attribute_free),
   ("libfsapfs_extended_attribute_get_utf8_name_size", extended_attribute_get_utf8_name_size),
   ("libfsapfs_extended_attribute_get_utf8_name", extended_attribute_get_utf8_name),
   ("libfsapfs_extended_attribute_get_utf16_name_size", extended_attribute_get_utf16_name_size),
   ("libfsapfs_extended_attribute_get_utf16_name", extended_attribute_get_utf16_name),
   ("libfsapfs_internal_extended_attribute_get_data_stream", Lib.internal_extended_attribute_get_data_stream),
   ("libfsapfs_extended_attribute_read_buffer", extended_attribute_read_buffer),
   ("libfsapfs_extended_attribute_read_buffer_at_offset", extended_attribute_read_buffer_at_offset),
   ("libfsapfs_extended_attribute_seek_offset", extended_attribute_seek_offset),
   ("libfsapfs_extended_attribute_get_offset", extended_attribute_get_offset),
   ("libfsapfs_extended_attribute_get_number_of_extents", extended_attribute_get_number_of_extents),
   ("libfsapfs_extended_attribute_get_extent_by_index", extended_attribute_get_extent_by_index)]

/-- `libfsapfs_file_entry_get_identifier` (libfsapfs/libfsapfs_file_entry.c:332-399).  Places: 0
`result`. -/
def file_entry_get_identifier : Fn :=
  ⟨[loc],
   [.setn 0 2, .choice 2 3, .ret false, .choice 5 4, .setn 0 0, .testn 0 2 6 7, .ret true,
    .ret false]⟩

/-- `libfsapfs_file_entry_get_parent_identifier` (libfsapfs/libfsapfs_file_entry.c:405-472).
Places: 0 `result`. -/
def file_entry_get_parent_identifier : Fn :=
  ⟨[loc],
   [.setn 0 2, .choice 2 3, .ret false, .choice 5 4, .setn 0 0, .testn 0 2 6 7, .ret true,
    .ret false]⟩

/-- `libfsapfs_file_entry_get_parent_file_entry` (libfsapfs/libfsapfs_file_entry.c:477-639).
Places: 0 `*parent_file_entry`, 1 `inode`, 2 `*parent_file_entry at the start`, 3 `result`. -/
def file_entry_get_parent_file_entry : Fn :=
  ⟨[out, loc, loc, loc],
   [.choice 1 4, .lend 0, .setn 2 2, .goto 5, .setn 2 1, .setn 3 1, .choice 7 10, .testn 2 1 8 9,
    .none 0, .ret false, .choice 11 15, .test 0 12 44, .testn 2 1 13 14, .none 0, .ret false,
    .test 0 19 16, .testn 2 1 17 18, .none 0, .ret false, .choice 20 38, .choice 21 32,
    .choice 22 38, .choice 23 38, .test 1 24 44, .fresh 1, .use 1, .choice 27 38, .test 0 28 44,
    .fresh 0, .give 1, .null 1, .setn 3 2, .testn 3 2 33 35, .live 0, .ret true, .testn 2 1 36 37,
    .none 0, .ret false, .test 1 41 39, .kill 1, .null 1, .testn 2 1 42 43, .none 0, .ret false,
    .goto 44]⟩

/-- `libfsapfs_file_entry_get_creation_time` (libfsapfs/libfsapfs_file_entry.c:646-713).  Places: 0
`result`. -/
def file_entry_get_creation_time : Fn :=
  ⟨[loc],
   [.setn 0 2, .choice 2 3, .ret false, .choice 5 4, .setn 0 0, .testn 0 2 6 7, .ret true,
    .ret false]⟩

/-- `libfsapfs_file_entry_get_modification_time` (libfsapfs/libfsapfs_file_entry.c:720-787).
Places: 0 `result`. -/
def file_entry_get_modification_time : Fn :=
  ⟨[loc],
   [.setn 0 2, .choice 2 3, .ret false, .choice 5 4, .setn 0 0, .testn 0 2 6 7, .ret true,
    .ret false]⟩

/-- `libfsapfs_file_entry_get_access_time` (libfsapfs/libfsapfs_file_entry.c:794-861).  Places: 0
`result`. -/
def file_entry_get_access_time : Fn :=
  ⟨[loc],
   [.setn 0 2, .choice 2 3, .ret false, .choice 5 4, .setn 0 0, .testn 0 2 6 7, .ret true,
    .ret false]⟩

/-- `libfsapfs_file_entry_get_inode_change_time` (libfsapfs/libfsapfs_file_entry.c:868-935).
Places: 0 `result`. -/
def file_entry_get_inode_change_time : Fn :=
  ⟨[loc],
   [.setn 0 2, .choice 2 3, .ret false, .choice 5 4, .setn 0 0, .testn 0 2 6 7, .ret true,
    .ret false]⟩

/-- `libfsapfs_file_entry_get_added_time` (libfsapfs/libfsapfs_file_entry.c:942-1014).  Places: 0
`result`. -/
def file_entry_get_added_time : Fn :=
  ⟨[loc],
   [.setn 0 1, .choice 2 3, .ret false, .choice 4 16, .choice 5 7, .setn 0 2, .goto 11,
    .choice 8 10, .setn 0 1, .goto 11, .setn 0 0, .testn 0 0 15 12, .testn 0 1 15 13,
    .testn 0 2 16 14, .choice 15 16, .setn 0 0, .testn 0 2 17 18, .ret true, .ret false]⟩

/-- `libfsapfs_file_entry_get_owner_identifier` (libfsapfs/libfsapfs_file_entry.c:1020-1087).
Places: 0 `result`. -/
def file_entry_get_owner_identifier : Fn :=
  ⟨[loc],
   [.setn 0 2, .choice 2 3, .ret false, .choice 5 4, .setn 0 0, .testn 0 2 6 7, .ret true,
    .ret false]⟩

/-- `libfsapfs_file_entry_get_group_identifier` (libfsapfs/libfsapfs_file_entry.c:1093-1160).
Places: 0 `result`. -/
def file_entry_get_group_identifier : Fn :=
  ⟨[loc],
   [.setn 0 2, .choice 2 3, .ret false, .choice 5 4, .setn 0 0, .testn 0 2 6 7, .ret true,
    .ret false]⟩

/-- `libfsapfs_file_entry_get_device_identifier` (libfsapfs/libfsapfs_file_entry.c:1166-1235).
Places: 0 `result`. -/
def file_entry_get_device_identifier : Fn :=
  ⟨[loc],
   [.setn 0 1, .choice 2 3, .ret false, .choice 4 6, .setn 0 2, .goto 10, .choice 7 9, .setn 0 1,
    .goto 10, .setn 0 0, .testn 0 0 14 11, .testn 0 1 15 12, .testn 0 2 15 13, .choice 14 15,
    .setn 0 0, .testn 0 2 16 17, .ret true, .ret false]⟩

/-- `libfsapfs_file_entry_get_device_number` (libfsapfs/libfsapfs_file_entry.c:1241-1312).  Places:
0 `result`. -/
def file_entry_get_device_number : Fn :=
  ⟨[loc],
   [.setn 0 1, .choice 2 3, .ret false, .choice 4 6, .setn 0 2, .goto 10, .choice 7 9, .setn 0 1,
    .goto 10, .setn 0 0, .testn 0 0 14 11, .testn 0 1 15 12, .testn 0 2 15 13, .choice 14 15,
    .setn 0 0, .testn 0 2 16 17, .ret true, .ret false]⟩

/-- `libfsapfs_file_entry_get_file_mode` (libfsapfs/libfsapfs_file_entry.c:1318-1385).  Places: 0
`result`. -/
def file_entry_get_file_mode : Fn :=
  ⟨[loc],
   [.setn 0 2, .choice 2 3, .ret false, .choice 5 4, .setn 0 0, .testn 0 2 6 7, .ret true,
    .ret false]⟩

/-- `libfsapfs_file_entry_get_number_of_links` (libfsapfs/libfsapfs_file_entry.c:1391-1458).
Places: 0 `result`. -/
def file_entry_get_number_of_links : Fn :=
  ⟨[loc],
   [.setn 0 2, .choice 2 3, .ret false, .choice 5 4, .setn 0 0, .testn 0 2 6 7, .ret true,
    .ret false]⟩

/-- `libfsapfs_file_entry_get_utf8_name_size` (libfsapfs/libfsapfs_file_entry.c:1465-1552).
Places: 0 `result`. -/
def file_entry_get_utf8_name_size : Fn :=
  ⟨[loc],
   [.setn 0 2, .choice 2 3, .ret false, .choice 4 7, .choice 9 5, .setn 0 0, .goto 9, .choice 9 8,
    .setn 0 0, .testn 0 2 10 11, .ret true, .ret false]⟩

/-- `libfsapfs_file_entry_get_utf8_name` (libfsapfs/libfsapfs_file_entry.c:1559-1649).  Places: 0
`result`. -/
def file_entry_get_utf8_name : Fn :=
  ⟨[loc],
   [.setn 0 2, .choice 2 3, .ret false, .choice 4 7, .choice 9 5, .setn 0 0, .goto 9, .choice 9 8,
    .setn 0 0, .testn 0 2 10 11, .ret true, .ret false]⟩

/-- `libfsapfs_file_entry_get_utf16_name_size` (libfsapfs/libfsapfs_file_entry.c:1656-1743).
Places: 0 `result`. -/
def file_entry_get_utf16_name_size : Fn :=
  ⟨[loc],
   [.setn 0 2, .choice 2 3, .ret false, .choice 4 7, .choice 9 5, .setn 0 0, .goto 9, .choice 9 8,
    .setn 0 0, .testn 0 2 10 11, .ret true, .ret false]⟩

/-- `libfsapfs_file_entry_get_utf16_name` (libfsapfs/libfsapfs_file_entry.c:1750-1840).  Places: 0
`result`. -/
def file_entry_get_utf16_name : Fn :=
  ⟨[loc],
   [.setn 0 2, .choice 2 3, .ret false, .choice 4 7, .choice 9 5, .setn 0 0, .goto 9, .choice 9 8,
    .setn 0 0, .testn 0 2 10 11, .ret true, .ret false]⟩

/-- `libfsapfs_file_entry_get_utf8_symbolic_link_target_size`
(libfsapfs/libfsapfs_file_entry.c:2203-2299).  Places: 0 `internal_file_entry`, 1
`internal_file_entry->symbolic_link_data`, 2 `result`. -/
def file_entry_get_utf8_symbolic_link_target_size : Fn :=
  ⟨[loc, own 0, loc],
   [.setn 2 1, .choice 2 3, .ret false, .forget 1, .null 1, .lend 0, .deref 0, .test 1 8 18, .use 0,
    .choice 10 14, .forget 1, .null 1, .maybe 1, .goto 18, .forget 1, .null 1, .maybe 1, .goto 27,
    .deref 0, .test 1 24 20, .deref 0, .use 1, .choice 23 27, .setn 2 2, .testn 2 2 25 26,
    .ret true, .ret false, .ret false]⟩

/-- `libfsapfs_file_entry_get_utf8_symbolic_link_target`
(libfsapfs/libfsapfs_file_entry.c:2306-2404).  Places: 0 `internal_file_entry`, 1
`internal_file_entry->symbolic_link_data`, 2 `result`. -/
def file_entry_get_utf8_symbolic_link_target : Fn :=
  ⟨[loc, own 0, loc],
   [.setn 2 1, .choice 2 3, .ret false, .forget 1, .null 1, .lend 0, .deref 0, .test 1 8 18, .use 0,
    .choice 10 14, .forget 1, .null 1, .maybe 1, .goto 18, .forget 1, .null 1, .maybe 1, .goto 27,
    .deref 0, .test 1 24 20, .deref 0, .use 1, .choice 23 27, .setn 2 2, .testn 2 2 25 26,
    .ret true, .ret false, .ret false]⟩

/-- `libfsapfs_file_entry_get_utf16_symbolic_link_target_size`
(libfsapfs/libfsapfs_file_entry.c:2411-2507).  Places: 0 `internal_file_entry`, 1
`internal_file_entry->symbolic_link_data`, 2 `result`. -/
def file_entry_get_utf16_symbolic_link_target_size : Fn :=
  ⟨[loc, own 0, loc],
   [.setn 2 1, .choice 2 3, .ret false, .forget 1, .null 1, .lend 0, .deref 0, .test 1 8 18, .use 0,
    .choice 10 14, .forget 1, .null 1, .maybe 1, .goto 18, .forget 1, .null 1, .maybe 1, .goto 27,
    .deref 0, .test 1 24 20, .deref 0, .use 1, .choice 23 27, .setn 2 2, .testn 2 2 25 26,
    .ret true, .ret false, .ret false]⟩

/-- `libfsapfs_file_entry_get_utf16_symbolic_link_target`
(libfsapfs/libfsapfs_file_entry.c:2514-2612).  Places: 0 `internal_file_entry`, 1
`internal_file_entry->symbolic_link_data`, 2 `result`. -/
def file_entry_get_utf16_symbolic_link_target : Fn :=
  ⟨[loc, own 0, loc],
   [.setn 2 1, .choice 2 3, .ret false, .forget 1, .null 1, .lend 0, .deref 0, .test 1 8 18, .use 0,
    .choice 10 14, .forget 1, .null 1, .maybe 1, .goto 18, .forget 1, .null 1, .maybe 1, .goto 27,
    .deref 0, .test 1 24 20, .deref 0, .use 1, .choice 23 27, .setn 2 2, .testn 2 2 25 26,
    .ret true, .ret false, .ret false]⟩

/-- `libfsapfs_file_entry_get_number_of_extended_attributes`
(libfsapfs/libfsapfs_file_entry.c:2617-2703).  Places: 0 `internal_file_entry`, 1
`internal_file_entry->extended_attributes_array`, 2 `result`. -/
def file_entry_get_number_of_extended_attributes : Fn :=
  ⟨[loc, own 0, loc],
   [.setn 2 2, .choice 2 3, .ret false, .forget 1, .null 1, .lend 0, .deref 0, .test 1 8 18, .use 0,
    .none 1, .choice 11 15, .forget 1, .null 1, .fresh 1, .goto 18, .forget 1, .null 1, .setn 2 0,
    .deref 0, .test 1 24 20, .deref 0, .use 1, .choice 24 23, .setn 2 0, .testn 2 2 25 26,
    .ret true, .ret false]⟩

/-- `libfsapfs_file_entry_get_extended_attribute_by_index`
(libfsapfs/libfsapfs_file_entry.c:2708-2842).  Places: 0 `*extended_attribute`, 1
`attribute_values`, 2 `internal_file_entry`, 3 `internal_file_entry->extended_attributes_array`, 4
`*extended_attribute at the start`, 5 `result`. -/
def file_entry_get_extended_attribute_by_index : Fn :=
  ⟨[out, loc, loc, own 2, loc, loc],
   [.choice 1 4, .lend 0, .setn 4 2, .goto 5, .setn 4 1, .setn 5 2, .choice 7 10, .testn 4 1 8 9,
    .none 0, .ret false, .forget 3, .null 3, .lend 2, .choice 14 18, .test 0 15 58,
    .testn 4 1 16 17, .none 0, .ret false, .test 0 22 19, .testn 4 1 20 21, .none 0, .ret false,
    .deref 2, .test 3 24 34, .use 2, .none 3, .choice 27 31, .forget 3, .null 3, .fresh 3, .goto 34,
    .forget 3, .null 3, .setn 5 0, .deref 2, .test 3 52 36, .deref 2, .use 3, .choice 39 41,
    .lend 1, .goto 45, .choice 42 43, .lend 1, .setn 5 0, .goto 52, .deref 2, .use 1, .choice 48 51,
    .test 0 49 58, .fresh 0, .goto 52, .setn 5 0, .testn 5 2 53 55, .live 0, .ret true,
    .testn 4 1 56 57, .none 0, .ret false, .goto 58]⟩

/-- `libfsapfs_file_entry_has_extended_attribute_by_utf8_name`
(libfsapfs/libfsapfs_file_entry.c:3057-3130).  Places: 0 `attribute_values`, 1 `result`. -/
def file_entry_has_extended_attribute_by_utf8_name : Fn :=
  ⟨[loc, loc],
   [.setn 1 1, .choice 2 3, .ret false, .choice 4 7, .lend 0, .setn 1 2, .goto 19, .choice 8 11,
    .lend 0, .setn 1 1, .goto 19, .choice 12 15, .lend 0, .setn 1 0, .goto 19, .choice 16 18,
    .setn 1 1, .goto 19, .setn 1 0, .testn 1 0 23 20, .testn 1 1 24 21, .testn 1 2 24 22,
    .choice 23 24, .setn 1 0, .testn 1 2 25 26, .ret true, .ret false]⟩

/-- `libfsapfs_file_entry_has_extended_attribute_by_utf16_name`
(libfsapfs/libfsapfs_file_entry.c:3135-3208).  Places: 0 `attribute_values`, 1 `result`. -/
def file_entry_has_extended_attribute_by_utf16_name : Fn :=
  ⟨[loc, loc],
   [.setn 1 1, .choice 2 3, .ret false, .choice 4 7, .lend 0, .setn 1 2, .goto 19, .choice 8 11,
    .lend 0, .setn 1 1, .goto 19, .choice 12 15, .lend 0, .setn 1 0, .goto 19, .choice 16 18,
    .setn 1 1, .goto 19, .setn 1 0, .testn 1 0 23 20, .testn 1 1 24 21, .testn 1 2 24 22,
    .choice 23 24, .setn 1 0, .testn 1 2 25 26, .ret true, .ret false]⟩

/-- `libfsapfs_file_entry_get_extended_attribute_by_utf8_name`
(libfsapfs/libfsapfs_file_entry.c:3213-3331).  Places: 0 `*extended_attribute`, 1
`attribute_values`, 2 `*extended_attribute at the start`, 3 `result`. -/
def file_entry_get_extended_attribute_by_utf8_name : Fn :=
  ⟨[out, loc, loc, loc],
   [.choice 1 4, .lend 0, .setn 2 2, .goto 5, .setn 2 1, .setn 3 1, .choice 7 10, .testn 2 1 8 9,
    .none 0, .ret false, .choice 11 15, .test 0 12 57, .testn 2 1 13 14, .none 0, .ret false,
    .test 0 19 16, .testn 2 1 17 18, .none 0, .ret false, .choice 20 23, .lend 1, .setn 3 2,
    .goto 35, .choice 24 27, .lend 1, .setn 3 1, .goto 35, .choice 28 31, .lend 1, .setn 3 0,
    .goto 35, .choice 32 34, .setn 3 1, .goto 35, .setn 3 0, .testn 3 0 39 36, .testn 3 1 41 37,
    .testn 3 2 41 38, .choice 39 41, .setn 3 0, .goto 51, .testn 3 0 45 42, .testn 3 1 51 43,
    .testn 3 2 45 44, .choice 45 51, .use 1, .choice 47 50, .test 0 48 57, .fresh 0, .goto 51,
    .setn 3 0, .testn 3 2 52 54, .live 0, .ret true, .testn 2 1 55 56, .none 0, .ret false,
    .goto 57]⟩

/-- `libfsapfs_file_entry_get_extended_attribute_by_utf16_name`
(libfsapfs/libfsapfs_file_entry.c:3336-3454).  Places: 0 `*extended_attribute`, 1
`attribute_values`, 2 `*extended_attribute at the start`, 3 `result`. -/
def file_entry_get_extended_attribute_by_utf16_name : Fn :=
  ⟨[out, loc, loc, loc],
   [.choice 1 4, .lend 0, .setn 2 2, .goto 5, .setn 2 1, .setn 3 1, .choice 7 10, .testn 2 1 8 9,
    .none 0, .ret false, .choice 11 15, .test 0 12 57, .testn 2 1 13 14, .none 0, .ret false,
    .test 0 19 16, .testn 2 1 17 18, .none 0, .ret false, .choice 20 23, .lend 1, .setn 3 2,
    .goto 35, .choice 24 27, .lend 1, .setn 3 1, .goto 35, .choice 28 31, .lend 1, .setn 3 0,
    .goto 35, .choice 32 34, .setn 3 1, .goto 35, .setn 3 0, .testn 3 0 39 36, .testn 3 1 41 37,
    .testn 3 2 41 38, .choice 39 41, .setn 3 0, .goto 51, .testn 3 0 45 42, .testn 3 1 51 43,
    .testn 3 2 45 44, .choice 45 51, .use 1, .choice 47 50, .test 0 48 57, .fresh 0, .goto 51,
    .setn 3 0, .testn 3 2 52 54, .live 0, .ret true, .testn 2 1 55 56, .none 0, .ret false,
    .goto 57]⟩

/-- `libfsapfs_file_entry_get_number_of_sub_file_entries`
(libfsapfs/libfsapfs_file_entry.c:3552-3638).  Places: 0 `result`. -/
def file_entry_get_number_of_sub_file_entries : Fn :=
  ⟨[loc],
   [.setn 0 2, .choice 2 3, .ret false, .choice 4 6, .choice 6 5, .setn 0 0, .testn 0 0 12 7,
    .testn 0 1 10 8, .testn 0 2 10 9, .choice 10 12, .choice 12 11, .setn 0 0, .testn 0 2 13 14,
    .ret true, .ret false]⟩

/-- `libfsapfs_file_entry_get_sub_file_entry_by_index`
(libfsapfs/libfsapfs_file_entry.c:3643-3848).  Places: 0 `*sub_file_entry`, 1 `directory_record`, 2
`directory_record_copy`, 3 `inode`, 4 `*sub_file_entry at the start`. -/
def file_entry_get_sub_file_entry_by_index : Fn :=
  ⟨[out, loc, loc, loc, loc],
   [.choice 1 4, .lend 0, .setn 4 2, .goto 5, .setn 4 1, .choice 6 9, .testn 4 1 7 8, .none 0,
    .ret false, .choice 10 14, .test 0 11 55, .testn 4 1 12 13, .none 0, .ret false, .test 0 18 15,
    .testn 4 1 16 17, .none 0, .ret false, .choice 19 20, .choice 20 46, .choice 21 23, .lend 1,
    .goto 26, .choice 24 46, .lend 1, .goto 46, .use 1, .choice 28 46, .choice 29 46, .test 3 30 55,
    .fresh 3, .use 1, .choice 33 46, .test 2 34 55, .maybe 2, .use 3, .use 2, .choice 38 46,
    .test 0 39 55, .fresh 0, .give 3, .give 2, .null 3, .null 2, .live 0, .ret true, .test 2 49 47,
    .kill 2, .null 2, .test 3 52 50, .kill 3, .null 3, .testn 4 1 53 54, .none 0, .ret false,
    .goto 55]⟩

/-- `libfsapfs_file_entry_get_sub_file_entry_by_utf8_name`
(libfsapfs/libfsapfs_file_entry.c:3853-4016).  Places: 0 `*sub_file_entry`, 1 `directory_record`, 2
`inode`, 3 `*sub_file_entry at the start`, 4 `result`. -/
def file_entry_get_sub_file_entry_by_utf8_name : Fn :=
  ⟨[out, loc, loc, loc, loc],
   [.choice 1 4, .lend 0, .setn 3 2, .goto 5, .setn 3 1, .setn 4 1, .choice 7 10, .testn 3 1 8 9,
    .none 0, .ret false, .choice 11 15, .test 0 12 61, .testn 3 1 13 14, .none 0, .ret false,
    .test 0 19 16, .testn 3 1 17 18, .none 0, .ret false, .choice 20 52, .choice 21 27,
    .test 2 22 61, .fresh 2, .test 1 24 61, .maybe 1, .setn 4 2, .goto 31, .choice 28 30, .setn 4 1,
    .goto 31, .setn 4 0, .testn 4 0 52 32, .testn 4 1 35 33, .testn 4 2 35 34, .choice 52 35,
    .testn 4 0 39 36, .testn 4 1 46 37, .testn 4 2 39 38, .choice 39 46, .use 2, .use 1,
    .choice 42 52, .test 0 43 61, .fresh 0, .give 2, .give 1, .testn 4 2 47 49, .live 0, .ret true,
    .testn 3 1 50 51, .none 0, .ret false, .test 1 55 53, .kill 1, .null 1, .test 2 58 56, .kill 2,
    .null 2, .testn 3 1 59 60, .none 0, .ret false, .goto 61]⟩

/-- `libfsapfs_file_entry_get_sub_file_entry_by_utf16_name`
(libfsapfs/libfsapfs_file_entry.c:4021-4184).  Places: 0 `*sub_file_entry`, 1 `directory_record`, 2
`inode`, 3 `*sub_file_entry at the start`, 4 `result`. -/
def file_entry_get_sub_file_entry_by_utf16_name : Fn :=
  ⟨[out, loc, loc, loc, loc],
   [.choice 1 4, .lend 0, .setn 3 2, .goto 5, .setn 3 1, .setn 4 1, .choice 7 10, .testn 3 1 8 9,
    .none 0, .ret false, .choice 11 15, .test 0 12 61, .testn 3 1 13 14, .none 0, .ret false,
    .test 0 19 16, .testn 3 1 17 18, .none 0, .ret false, .choice 20 52, .choice 21 27,
    .test 2 22 61, .fresh 2, .test 1 24 61, .maybe 1, .setn 4 2, .goto 31, .choice 28 30, .setn 4 1,
    .goto 31, .setn 4 0, .testn 4 0 52 32, .testn 4 1 35 33, .testn 4 2 35 34, .choice 52 35,
    .testn 4 0 39 36, .testn 4 1 46 37, .testn 4 2 39 38, .choice 39 46, .use 2, .use 1,
    .choice 42 52, .test 0 43 61, .fresh 0, .give 2, .give 1, .testn 4 2 47 49, .live 0, .ret true,
    .testn 3 1 50 51, .none 0, .ret false, .test 1 55 53, .kill 1, .null 1, .test 2 58 56, .kill 2,
    .null 2, .testn 3 1 59 60, .none 0, .ret false, .goto 61]⟩

/-- `libfsapfs_file_entry_get_offset` (libfsapfs/libfsapfs_file_entry.c:4811-4897).  Places: 0
`result`. -/
def file_entry_get_offset : Fn :=
  ⟨[loc],
   [.setn 0 2, .choice 2 3, .ret false, .choice 4 6, .choice 6 5, .setn 0 0, .testn 0 0 12 7,
    .testn 0 1 10 8, .testn 0 2 10 9, .choice 10 12, .choice 12 11, .setn 0 0, .testn 0 2 13 14,
    .ret true, .ret false]⟩

/-- `libfsapfs_file_entry_get_size` (libfsapfs/libfsapfs_file_entry.c:5109-5193).  Places: 0
`result`. -/
def file_entry_get_size : Fn :=
  ⟨[loc],
   [.setn 0 2, .choice 2 3, .ret false, .choice 4 5, .ret false, .choice 6 8, .choice 8 7,
    .setn 0 0, .testn 0 2 9 10, .ret true, .ret false]⟩

/-- `libfsapfs_file_entry_get_number_of_extents` (libfsapfs/libfsapfs_file_entry.c:5198-5284).
Places: 0 `result`. -/
def file_entry_get_number_of_extents : Fn :=
  ⟨[loc],
   [.setn 0 2, .choice 2 3, .ret false, .choice 4 6, .choice 6 5, .setn 0 0, .testn 0 0 12 7,
    .testn 0 1 10 8, .testn 0 2 10 9, .choice 10 12, .choice 12 11, .setn 0 0, .testn 0 2 13 14,
    .ret true, .ret false]⟩

/-- `libfsapfs_file_entry_get_extent_by_index` (libfsapfs/libfsapfs_file_entry.c:5289-5443).
Places: 0 `file_extent`, 1 `result`. -/
def file_entry_get_extent_by_index : Fn :=
  ⟨[loc, loc],
   [.setn 1 2, .choice 2 3, .ret false, .choice 4 5, .ret false, .choice 6 7, .ret false,
    .choice 8 9, .ret false, .choice 10 11, .ret false, .choice 12 14, .choice 14 13, .setn 1 0,
    .testn 1 0 30 15, .testn 1 1 18 16, .testn 1 2 18 17, .choice 18 30, .choice 19 21, .lend 0,
    .goto 25, .choice 22 23, .lend 0, .setn 1 0, .goto 30, .test 0 26 28, .setn 1 0, .goto 30,
    .deref 0, .deref 0, .testn 1 2 31 32, .ret true, .ret false]⟩

/-- The functions of libfsapfs/libfsapfs_file_entry.c. -/
def in_file_entry : List (String × Fn) :=
  [("libfsapfs_file_entry_initialize", Lib.file_entry_initialize),
   ("libfsapfs_file_entry_free", Lib.file_entry_free),
   ("libfsapfs_file_entry_get_identifier", file_entry_get_identifier),
   ("libfsapfs_file_entry_get_parent_identifier", file_entry_get_parent_identifier),
   ("libfsapfs_file_entry_get_parent_file_entry", file_entry_get_parent_file_entry),
   ("libfsapfs_file_entry_get_creation_time", file_entry_get_creation_time),
   ("libfsapfs_file_entry_get_modification_time", file_entry_get_modification_time),
   ("libfsapfs_file_entry_get_access_time", file_entry_get_access_time),
   ("libfsapfs_file_entry_get_inode_change_time", file_entry_get_inode_change_time),
   ("libfsapfs_file_entry_get_added_time", file_entry_get_added_time),
   ("libfsapfs_file_entry_get_owner_identifier", file_entry_get_owner_identifier),
   ("libfsapfs_file_entry_get_group_identifier", file_entry_get_group_identifier),
   ("libfsapfs_file_entry_get_device_identifier", file_entry_get_device_identifier),
   ("libfsapfs_file_entry_get_device_number", file_entry_get_device_number),
   ("libfsapfs_file_entry_get_file_mode", file_entry_get_file_mode),
   ("libfsapfs_file_entry_get_number_of_links", file_entry_get_number_of_links),
   ("libfsapfs_file_entry_get_utf8_name_size", file_entry_get_utf8_name_size),
   ("libfsapfs_file_entry_get_utf8_name", file_entry_get_utf8_name),
   ("libfsapfs_file_entry_get_utf16_name_size", file_entry_get_utf16_name_size),
   ("libfsapfs_file_entry_get_utf16_name", file_entry_get_utf16_name),
   ("libfsapfs_internal_file_entry_get_extended_attributes", Lib.internal_file_entry_get_extended_attributes),
   ("libfsapfs_internal_file_entry_get_symbolic_link_data", Lib.internal_file_entry_get_symbolic_link_data),
   ("libfsapfs_file_entry_get_utf8_symbolic_link_target_size", file_entry_get_utf8_symbolic_link_target_size),
   ("libfsapfs_file_entry_get_utf8_symbolic_link_target", file_entry_get_utf8_symbolic_link_target),
   ("libfsapfs_file_entry_get_utf16_symbolic_link_target_size", file_entry_get_utf16_symbolic_link_target_size),
   ("libfsapfs_file_entry_get_utf16_symbolic_link_target", file_entry_get_utf16_symbolic_link_target),
   ("libfsapfs_file_entry_get_number_of_extended_attributes", file_entry_get_number_of_extended_attributes),
   ("libfsapfs_file_entry_get_extended_attribute_by_index", file_entry_get_extended_attribute_by_index),
   ("libfsapfs_internal_file_entry_get_attribute_values_by_utf8_name", Lib.internal_file_entry_get_attribute_values_by_utf8_name),
   ("libfsapfs_internal_file_entry_get_attribute_values_by_utf16_name", Lib.internal_file_entry_get_attribute_values_by_utf16_name),
   ("libfsapfs_file_entry_has_extended_attribute_by_utf8_name", file_entry_has_extended_attribute_by_utf8_name),
   ("libfsapfs_file_entry_has_extended_attribute_by_utf16_name", file_entry_has_extended_attribute_by_utf16_name),
   ("libfsapfs_file_entry_get_extended_attribute_by_utf8_name", file_entry_get_extended_attribute_by_utf8_name),
   ("libfsapfs_file_entry_get_extended_attribute_by_utf16_name", file_entry_get_extended_attribute_by_utf16_name),
   ("libfsapfs_internal_file_entry_get_directory_entries", Lib.internal_file_entry_get_directory_entries),
   ("libfsapfs_file_entry_get_number_of_sub_file_entries", file_entry_get_number_of_sub_file_entries),
   ("libfsapfs_file_entry_get_sub_file_entry_by_index", file_entry_get_sub_file_entry_by_index),
   ("libfsapfs_file_entry_get_sub_file_entry_by_utf8_name", file_entry_get_sub_file_entry_by_utf8_name),
   ("libfsapfs_file_entry_get_sub_file_entry_by_utf16_name", file_entry_get_sub_file_entry_by_utf16_name),
   ("libfsapfs_internal_file_entry_get_file_extents", Lib.internal_file_entry_get_file_extents),
   ("libfsapfs_internal_file_entry_get_data_stream", Lib.internal_file_entry_get_data_stream),
   ("libfsapfs_file_entry_get_offset", file_entry_get_offset),
   ("libfsapfs_internal_file_entry_get_data_size", Lib.internal_file_entry_get_data_size),
   ("libfsapfs_file_entry_get_size", file_entry_get_size),
   ("libfsapfs_file_entry_get_number_of_extents", file_entry_get_number_of_extents),
   ("libfsapfs_file_entry_get_extent_by_index", file_entry_get_extent_by_index)]

/-- `libfsapfs_container_initialize` (libfsapfs/libfsapfs_container.c:54-150).  Places: 0
`*container`, 1 `internal_container`, 2 `internal_container->checkpoint_map`, 3
`internal_container->data_block_vector`, 4 `internal_container->file_io_handle`, 5
`internal_container->fusion_middle_tree`, 6 `internal_container->io_handle`, 7
`internal_container->key_bag`, 8 `internal_container->object_map_btree`, 9
`internal_container->superblock`, 10 `*container at the start`. -/
def container_initialize : Fn :=
  ⟨[out, loc, own 1, own 1, part 1, own 1, own 1, own 1, own 1, own 1, loc],
   [.choice 1 4, .lend 0, .setn 10 2, .goto 5, .setn 10 1, .choice 6 10, .test 0 7 79,
    .testn 10 1 8 9, .none 0, .ret false, .test 0 14 11, .testn 10 1 12 13, .none 0, .ret false,
    .forget 9, .null 9, .forget 8, .null 8, .forget 7, .null 7, .forget 6, .null 6, .forget 5,
    .null 5, .null 4, .forget 3, .null 3, .forget 2, .null 2, .choice 30 48, .fresh 1, .fresh 2,
    .kill 2, .fresh 3, .kill 3, .fresh 4, .kill 4, .fresh 5, .kill 5, .fresh 6, .kill 6, .fresh 7,
    .kill 7, .fresh 8, .kill 8, .fresh 9, .kill 9, .goto 49, .null 1, .test 1 66 50, .use 1,
    .null 2, .null 3, .null 4, .null 5, .null 6, .null 7, .null 8, .null 9, .deref 1, .choice 61 66,
    .test 6 62 79, .fresh 6, .copy 0 1, .live 0, .ret true, .test 1 76 67, .kill 1, .null 2,
    .null 3, .null 4, .null 5, .null 6, .null 7, .null 8, .null 9, .testn 10 1 77 78, .none 0,
    .ret false, .goto 79]⟩

/-- `libfsapfs_container_free` (libfsapfs/libfsapfs_container.c:155-228).  Places: 0 `*container`,
1 `internal_container`, 2 `internal_container->checkpoint_map`, 3
`internal_container->data_block_vector`, 4 `internal_container->file_io_handle`, 5
`internal_container->fusion_middle_tree`, 6 `internal_container->io_handle`, 7
`internal_container->key_bag`, 8 `internal_container->object_map_btree`, 9
`internal_container->superblock`, 10 `result`. -/
def container_free : Fn :=
  ⟨[arg, loc, own 1, own 1, part 1, own 1, own 1, own 1, own 1, own 1, loc],
   [.maybe 0, .setn 10 2, .choice 3 5, .test 0 4 82, .ret false, .test 0 79 6, .forget 9, .null 9,
    .forget 8, .null 8, .forget 7, .null 7, .forget 6, .null 6, .forget 5, .null 5, .null 4,
    .forget 3, .null 3, .forget 2, .null 2, .copy 1 0, .test 1 34 23, .choice 24 26, .maybe 6,
    .goto 34, .maybe 2, .maybe 3, .lend 4, .maybe 5, .maybe 6, .maybe 7, .maybe 8, .maybe 9,
    .deref 1, .test 4 66 36, .use 0, .choice 38 52, .kill 2, .null 2, .kill 3, .null 3, .null 4,
    .kill 5, .null 5, .kill 7, .null 7, .kill 8, .null 8, .kill 9, .null 9, .goto 66, .kill 2,
    .null 2, .kill 3, .null 3, .null 4, .kill 5, .null 5, .kill 7, .null 7, .kill 8, .null 8,
    .kill 9, .null 9, .setn 10 0, .null 0, .deref 1, .kill 6, .null 6, .kill 1, .null 2, .null 3,
    .null 4, .null 5, .null 6, .null 7, .null 8, .null 9, .testn 10 2 80 81, .ret true, .ret false,
    .goto 82]⟩

/-- `libfsapfs_container_open` (libfsapfs/libfsapfs_container.c:272-437).  Places: 0
`file_io_handle`, 1 `internal_container`, 2 `internal_container->file_io_handle`. -/
def container_open : Fn :=
  ⟨[loc, loc, own 1],
   [.choice 1 2, .ret false, .forget 2, .null 2, .lend 1, .choice 6 7, .ret false, .choice 8 10,
    .choice 9 10, .ret false, .choice 11 12, .ret false, .choice 13 23, .test 0 14 27, .fresh 0,
    .use 0, .choice 17 23, .use 0, .choice 19 23, .test 2 20 27, .copy 2 0, .deref 1, .ret true,
    .test 0 26 24, .kill 0, .null 0, .ret false, .goto 27]⟩

/-- `libfsapfs_container_open_wide` (libfsapfs/libfsapfs_container.c:444-609).  Places: 0
`file_io_handle`, 1 `internal_container`, 2 `internal_container->file_io_handle`. -/
def container_open_wide : Fn :=
  ⟨[loc, loc, own 1],
   [.choice 1 2, .ret false, .forget 2, .null 2, .lend 1, .choice 6 7, .ret false, .choice 8 10,
    .choice 9 10, .ret false, .choice 11 12, .ret false, .choice 13 23, .test 0 14 27, .fresh 0,
    .use 0, .choice 17 23, .use 0, .choice 19 23, .test 2 20 27, .copy 2 0, .deref 1, .ret true,
    .test 0 26 24, .kill 0, .null 0, .ret false, .goto 27]⟩

/-- `libfsapfs_container_close` (libfsapfs/libfsapfs_container.c:789-1015).  Places: 0 `container`,
1 `internal_container`, 2 `internal_container->checkpoint_map`, 3
`internal_container->data_block_vector`, 4 `internal_container->file_io_handle`, 5
`internal_container->fusion_middle_tree`, 6 `internal_container->key_bag`, 7
`internal_container->object_map_btree`, 8 `internal_container->superblock`, 9
`internal_container->file_io_handle_created_in_library`, 10 `result`. -/
def container_close : Fn :=
  ⟨[loc, loc, own 1, own 1, own 1, own 1, own 1, own 1, own 1, part 1, loc],
   [.choice 1 2, .lend 0, .setn 10 1, .test 0 4 5, .ret false, .forget 8, .null 8, .forget 7,
    .null 7, .forget 6, .null 6, .forget 5, .null 5, .forget 4, .null 4, .forget 3, .null 3,
    .forget 2, .null 2, .copy 1 0, .test 1 34 21, .maybe 2, .maybe 3, .maybe 5, .maybe 6, .maybe 7,
    .maybe 8, .choice 28 31, .setn 9 2, .maybe 4, .goto 34, .setn 9 1, .choice 33 34, .lend 4,
    .deref 1, .test 4 36 37, .ret false, .deref 1, .choice 39 44, .deref 1, .use 4, .choice 42 43,
    .setn 10 0, .deref 1, .testn 9 1 53 45, .testn 9 2 47 46, .choice 47 53, .deref 1, .kill 4,
    .null 4, .choice 52 51, .setn 10 0, .setn 9 1, .deref 1, .null 4, .deref 1, .choice 58 57,
    .setn 10 0, .deref 1, .test 8 63 60, .deref 1, .kill 8, .null 8, .deref 1, .test 5 68 65,
    .deref 1, .kill 5, .null 5, .deref 1, .test 2 75 70, .deref 1, .kill 2, .null 2, .choice 75 74,
    .setn 10 0, .deref 1, .kill 3, .null 3, .choice 80 79, .setn 10 0, .deref 1, .test 7 87 82,
    .deref 1, .kill 7, .null 7, .choice 87 86, .setn 10 0, .deref 1, .test 6 94 89, .deref 1,
    .kill 6, .null 6, .choice 94 93, .setn 10 0, .none 2, .none 3, .none 4, .none 5, .none 6,
    .none 7, .none 8, .testn 10 2 102 103, .ret true, .ret false]⟩

/-- `libfsapfs_container_get_identifier` (libfsapfs/libfsapfs_container.c:1978-2047).  Places: 0
`result`. -/
def container_get_identifier : Fn :=
  ⟨[loc],
   [.setn 0 2, .choice 2 3, .ret false, .choice 5 4, .setn 0 0, .testn 0 2 6 7, .ret true,
    .ret false]⟩

/-- `libfsapfs_container_get_volume_by_index` (libfsapfs/libfsapfs_container.c:2195-2392).  Places:
0 `*volume`, 1 `object_map_descriptor`, 2 `*volume at the start`. -/
def container_get_volume_by_index : Fn :=
  ⟨[out, loc, loc],
   [.choice 1 4, .lend 0, .setn 2 2, .goto 5, .setn 2 1, .choice 6 9, .testn 2 1 7 8, .none 0,
    .ret false, .choice 10 13, .testn 2 1 11 12, .none 0, .ret false, .choice 15 14, .choice 15 18,
    .testn 2 1 16 17, .none 0, .ret false, .choice 19 23, .test 0 20 50, .testn 2 1 21 22, .none 0,
    .ret false, .test 0 27 24, .testn 2 1 25 26, .none 0, .ret false, .choice 28 41, .test 1 29 50,
    .fresh 1, .test 1 41 31, .choice 32 41, .test 0 33 50, .fresh 0, .deref 1, .kill 1, .null 1,
    .use 0, .choice 39 41, .live 0, .ret true, .test 1 44 42, .kill 1, .null 1, .test 0 47 45,
    .kill 0, .null 0, .testn 2 1 48 49, .none 0, .ret false, .goto 50]⟩

/-- The functions of libfsapfs/libfsapfs_container.c. -/
def in_container : List (String × Fn) :=
  [("libfsapfs_container_initialize", container_initialize),
   ("libfsapfs_container_free", container_free),
   ("libfsapfs_container_open", container_open),
   ("libfsapfs_container_open_wide", container_open_wide),
   ("libfsapfs_container_close", container_close),
   ("libfsapfs_internal_container_open_read", Lib.internal_container_open_read),
   ("libfsapfs_container_get_identifier", container_get_identifier),
   ("libfsapfs_container_get_volume_by_index", container_get_volume_by_index)]

/-- `libfsapfs_snapshot_initialize` (libfsapfs/libfsapfs_snapshot.c:41-165).  Places: 0
`*snapshot`, 1 `internal_snapshot`, 2 `internal_snapshot->volume_superblock`, 3 `*snapshot at the
start`. -/
def snapshot_initialize : Fn :=
  ⟨[out, loc, own 1, loc],
   [.choice 1 4, .lend 0, .setn 3 2, .goto 5, .setn 3 1, .choice 6 10, .test 0 7 49, .testn 3 1 8 9,
    .none 0, .ret false, .test 0 14 11, .testn 3 1 12 13, .none 0, .ret false, .choice 15 18,
    .testn 3 1 16 17, .none 0, .ret false, .choice 19 22, .testn 3 1 20 21, .none 0, .ret false,
    .choice 23 26, .testn 3 1 24 25, .none 0, .ret false, .forget 2, .null 2, .choice 29 33,
    .fresh 1, .fresh 2, .kill 2, .goto 34, .null 1, .test 1 43 35, .use 1, .null 2, .deref 1,
    .deref 1, .deref 1, .copy 0 1, .live 0, .ret true, .test 1 46 44, .kill 1, .null 2,
    .testn 3 1 47 48, .none 0, .ret false, .goto 49]⟩

/-- `libfsapfs_snapshot_free` (libfsapfs/libfsapfs_snapshot.c:170-213).  Places: 0 `*snapshot`, 1
`internal_snapshot`, 2 `internal_snapshot->file_io_handle`, 3
`internal_snapshot->volume_superblock`, 4 `result`. -/
def snapshot_free : Fn :=
  ⟨[arg, loc, part 1, own 1, loc],
   [.maybe 0, .setn 4 2, .choice 3 5, .test 0 4 21, .ret false, .test 0 18 6, .forget 3, .null 3,
    .null 2, .copy 1 0, .test 1 14 11, .choice 14 12, .lend 2, .maybe 3, .null 0, .kill 1, .null 2,
    .null 3, .testn 4 2 19 20, .ret true, .ret false, .goto 21]⟩

/-- `libfsapfs_snapshot_get_utf8_name_size` (libfsapfs/libfsapfs_snapshot.c:361-428).  Places: 0
`result`. -/
def snapshot_get_utf8_name_size : Fn :=
  ⟨[loc],
   [.setn 0 2, .choice 2 3, .ret false, .choice 5 4, .setn 0 0, .testn 0 2 6 7, .ret true,
    .ret false]⟩

/-- `libfsapfs_snapshot_get_utf8_name` (libfsapfs/libfsapfs_snapshot.c:434-503).  Places: 0
`result`. -/
def snapshot_get_utf8_name : Fn :=
  ⟨[loc],
   [.setn 0 2, .choice 2 3, .ret false, .choice 5 4, .setn 0 0, .testn 0 2 6 7, .ret true,
    .ret false]⟩

/-- `libfsapfs_snapshot_get_utf16_name_size` (libfsapfs/libfsapfs_snapshot.c:509-576).  Places: 0
`result`. -/
def snapshot_get_utf16_name_size : Fn :=
  ⟨[loc],
   [.setn 0 2, .choice 2 3, .ret false, .choice 5 4, .setn 0 0, .testn 0 2 6 7, .ret true,
    .ret false]⟩

/-- `libfsapfs_snapshot_get_utf16_name` (libfsapfs/libfsapfs_snapshot.c:582-651).  Places: 0
`result`. -/
def snapshot_get_utf16_name : Fn :=
  ⟨[loc],
   [.setn 0 2, .choice 2 3, .ret false, .choice 5 4, .setn 0 0, .testn 0 2 6 7, .ret true,
    .ret false]⟩

/-- The functions of libfsapfs/libfsapfs_snapshot.c. -/
def in_snapshot : List (String × Fn) :=
  [("libfsapfs_snapshot_initialize", snapshot_initialize),
   ("libfsapfs_snapshot_free", snapshot_free),
   ("libfsapfs_internal_snapshot_open_read", Lib.internal_snapshot_open_read),
   ("libfsapfs_internal_snapshot_close", Lib.internal_snapshot_close),
   ("libfsapfs_snapshot_get_utf8_name_size", snapshot_get_utf8_name_size),
   ("libfsapfs_snapshot_get_utf8_name", snapshot_get_utf8_name),
   ("libfsapfs_snapshot_get_utf16_name_size", snapshot_get_utf16_name_size),
   ("libfsapfs_snapshot_get_utf16_name", snapshot_get_utf16_name)]

/-- `libfsapfs_volume_initialize` (libfsapfs/libfsapfs_volume.c:60-174).  Places: 0 `*volume`, 1
`internal_volume`, 2 `internal_volume->container_data_block_vector`, 3
`internal_volume->encryption_context`, 4 `internal_volume->file_system`, 5
`internal_volume->file_system_data_block_vector`, 6 `internal_volume->key_bag`, 7
`internal_volume->object_map_btree`, 8 `internal_volume->recovery_password`, 9
`internal_volume->snapshot_metadata_tree`, 10 `internal_volume->snapshots`, 11
`internal_volume->superblock`, 12 `internal_volume->user_password`, 13 `*volume at the start`. -/
def volume_initialize : Fn :=
  ⟨[out, loc, own 1, own 1, own 1, own 1, own 1, own 1, own 1, own 1, own 1, own 1, own 1, loc],
   [.choice 1 4, .lend 0, .setn 13 2, .goto 5, .setn 13 1, .choice 6 10, .test 0 7 106,
    .testn 13 1 8 9, .none 0, .ret false, .test 0 14 11, .testn 13 1 12 13, .none 0, .ret false,
    .choice 15 18, .testn 13 1 16 17, .none 0, .ret false, .choice 19 22, .testn 13 1 20 21,
    .none 0, .ret false, .forget 12, .null 12, .forget 11, .null 11, .forget 10, .null 10,
    .forget 9, .null 9, .forget 8, .null 8, .forget 7, .null 7, .forget 6, .null 6, .forget 5,
    .null 5, .forget 4, .null 4, .forget 3, .null 3, .forget 2, .null 2, .choice 45 69, .fresh 1,
    .fresh 2, .kill 2, .fresh 3, .kill 3, .fresh 4, .kill 4, .fresh 5, .kill 5, .fresh 6, .kill 6,
    .fresh 7, .kill 7, .fresh 8, .kill 8, .fresh 9, .kill 9, .fresh 10, .kill 10, .fresh 11,
    .kill 11, .fresh 12, .kill 12, .goto 70, .null 1, .test 1 90 71, .use 1, .null 2, .null 3,
    .null 4, .null 5, .null 6, .null 7, .null 8, .null 9, .null 10, .null 11, .null 12, .deref 1,
    .deref 1, .deref 1, .deref 1, .copy 0 1, .live 0, .ret true, .test 1 103 91, .kill 1, .null 2,
    .null 3, .null 4, .null 5, .null 6, .null 7, .null 8, .null 9, .null 10, .null 11, .null 12,
    .testn 13 1 104 105, .none 0, .ret false, .goto 106]⟩

/-- `libfsapfs_volume_free` (libfsapfs/libfsapfs_volume.c:179-238).  Places: 0 `*volume`, 1
`internal_volume`, 2 `internal_volume->container_data_block_vector`, 3
`internal_volume->encryption_context`, 4 `internal_volume->file_io_handle`, 5
`internal_volume->file_system`, 6 `internal_volume->file_system_data_block_vector`, 7
`internal_volume->key_bag`, 8 `internal_volume->object_map_btree`, 9
`internal_volume->recovery_password`, 10 `internal_volume->snapshot_metadata_tree`, 11
`internal_volume->snapshots`, 12 `internal_volume->superblock`, 13
`internal_volume->user_password`, 14 `result`. -/
def volume_free : Fn :=
  ⟨[arg, loc, own 1, own 1, part 1, own 1, own 1, own 1, own 1, own 1, own 1, own 1, own 1, own 1,
    loc],
   [.maybe 0, .setn 14 2, .choice 3 5, .test 0 4 111, .ret false, .test 0 108 6, .forget 13,
    .null 13, .forget 12, .null 12, .forget 11, .null 11, .forget 10, .null 10, .forget 9, .null 9,
    .forget 8, .null 8, .forget 7, .null 7, .forget 6, .null 6, .forget 5, .null 5, .null 4,
    .forget 3, .null 3, .forget 2, .null 2, .copy 1 0, .test 1 44 31, .choice 44 32, .maybe 2,
    .maybe 3, .lend 4, .maybe 5, .maybe 6, .maybe 7, .maybe 8, .maybe 9, .maybe 10, .maybe 11,
    .maybe 12, .maybe 13, .null 0, .deref 1, .test 4 95 47, .use 1, .choice 49 72, .kill 2, .null 2,
    .kill 3, .null 3, .kill 5, .null 5, .kill 6, .null 6, .kill 7, .null 7, .kill 8, .null 8,
    .kill 9, .null 9, .kill 10, .null 10, .kill 11, .null 11, .kill 12, .null 12, .kill 13,
    .null 13, .goto 95, .kill 2, .null 2, .kill 3, .null 3, .kill 5, .null 5, .kill 6, .null 6,
    .kill 7, .null 7, .kill 8, .null 8, .kill 9, .null 9, .kill 10, .null 10, .kill 11, .null 11,
    .kill 12, .null 12, .kill 13, .null 13, .setn 14 0, .kill 1, .null 2, .null 3, .null 4, .null 5,
    .null 6, .null 7, .null 8, .null 9, .null 10, .null 11, .null 12, .null 13, .testn 14 2 109 110,
    .ret true, .ret false, .goto 111]⟩

/-- `libfsapfs_volume_unlock` (libfsapfs/libfsapfs_volume.c:1247-1317).  Places: 0 `result`. -/
def volume_unlock : Fn :=
  ⟨[loc],
   [.setn 0 2, .choice 2 3, .ret false, .choice 4 16, .choice 5 7, .setn 0 2, .goto 11,
    .choice 8 10, .setn 0 1, .goto 11, .setn 0 0, .testn 0 0 15 12, .testn 0 1 16 13,
    .testn 0 2 16 14, .choice 15 16, .setn 0 0, .testn 0 2 17 18, .ret true, .ret false]⟩

/-- `libfsapfs_volume_get_identifier` (libfsapfs/libfsapfs_volume.c:1512-1592).  Places: 0
`result`. -/
def volume_get_identifier : Fn :=
  ⟨[loc],
   [.setn 0 2, .choice 2 3, .ret false, .choice 4 5, .ret false, .choice 7 6, .setn 0 0,
    .testn 0 2 8 9, .ret true, .ret false]⟩

/-- `libfsapfs_volume_get_utf8_name_size` (libfsapfs/libfsapfs_volume.c:1598-1665).  Places: 0
`result`. -/
def volume_get_utf8_name_size : Fn :=
  ⟨[loc],
   [.setn 0 2, .choice 2 3, .ret false, .choice 5 4, .setn 0 0, .testn 0 2 6 7, .ret true,
    .ret false]⟩

/-- `libfsapfs_volume_get_utf8_name` (libfsapfs/libfsapfs_volume.c:1671-1740).  Places: 0 `result`. -/
def volume_get_utf8_name : Fn :=
  ⟨[loc],
   [.setn 0 2, .choice 2 3, .ret false, .choice 5 4, .setn 0 0, .testn 0 2 6 7, .ret true,
    .ret false]⟩

/-- `libfsapfs_volume_get_utf16_name_size` (libfsapfs/libfsapfs_volume.c:1746-1813).  Places: 0
`result`. -/
def volume_get_utf16_name_size : Fn :=
  ⟨[loc],
   [.setn 0 2, .choice 2 3, .ret false, .choice 5 4, .setn 0 0, .testn 0 2 6 7, .ret true,
    .ret false]⟩

/-- `libfsapfs_volume_get_utf16_name` (libfsapfs/libfsapfs_volume.c:1819-1888).  Places: 0
`result`. -/
def volume_get_utf16_name : Fn :=
  ⟨[loc],
   [.setn 0 2, .choice 2 3, .ret false, .choice 5 4, .setn 0 0, .testn 0 2 6 7, .ret true,
    .ret false]⟩

/-- `libfsapfs_volume_set_utf8_password` (libfsapfs/libfsapfs_volume.c:1953-2116).  Places: 0
`internal_volume`, 1 `internal_volume->user_password`, 2 `volume`. -/
def volume_set_utf8_password : Fn :=
  ⟨[loc, own 0, loc],
   [.choice 1 2, .lend 2, .test 2 3 4, .ret false, .forget 1, .null 1, .copy 0 2, .test 0 9 8,
    .maybe 1, .choice 10 11, .ret false, .deref 0, .test 1 20 13, .deref 0, .use 1, .deref 0,
    .kill 1, .deref 0, .null 1, .deref 0, .deref 0, .deref 0, .choice 37 23, .deref 0,
    .choice 37 25, .deref 0, .deref 0, .choice 28 30, .fresh 1, .goto 31, .null 1, .deref 0,
    .test 1 37 33, .deref 0, .use 1, .deref 0, .ret true, .deref 0, .test 1 45 39, .deref 0, .use 1,
    .deref 0, .kill 1, .deref 0, .null 1, .deref 0, .ret false]⟩

/-- `libfsapfs_volume_set_utf16_password` (libfsapfs/libfsapfs_volume.c:2122-2288).  Places: 0
`internal_volume`, 1 `internal_volume->user_password`, 2 `volume`. -/
def volume_set_utf16_password : Fn :=
  ⟨[loc, own 0, loc],
   [.choice 1 2, .lend 2, .test 2 3 4, .ret false, .forget 1, .null 1, .copy 0 2, .test 0 9 8,
    .maybe 1, .deref 0, .test 1 18 11, .deref 0, .use 1, .deref 0, .kill 1, .deref 0, .null 1,
    .deref 0, .deref 0, .choice 20 37, .deref 0, .choice 37 22, .deref 0, .choice 37 24, .deref 0,
    .deref 0, .choice 27 29, .fresh 1, .goto 30, .null 1, .deref 0, .test 1 37 32, .deref 0, .use 1,
    .choice 35 37, .deref 0, .ret true, .deref 0, .test 1 45 39, .deref 0, .use 1, .deref 0,
    .kill 1, .deref 0, .null 1, .deref 0, .ret false]⟩

/-- `libfsapfs_volume_set_utf8_recovery_password` (libfsapfs/libfsapfs_volume.c:2294-2446).
Places: 0 `internal_volume`, 1 `internal_volume->recovery_password`, 2 `volume`. -/
def volume_set_utf8_recovery_password : Fn :=
  ⟨[loc, own 0, loc],
   [.choice 1 2, .lend 2, .test 2 3 4, .ret false, .forget 1, .null 1, .copy 0 2, .test 0 9 8,
    .maybe 1, .deref 0, .test 1 18 11, .deref 0, .use 1, .deref 0, .kill 1, .deref 0, .null 1,
    .deref 0, .deref 0, .deref 0, .choice 35 21, .deref 0, .choice 35 23, .deref 0, .deref 0,
    .choice 26 28, .fresh 1, .goto 29, .null 1, .deref 0, .test 1 35 31, .deref 0, .use 1, .deref 0,
    .ret true, .deref 0, .test 1 43 37, .deref 0, .use 1, .deref 0, .kill 1, .deref 0, .null 1,
    .deref 0, .ret false]⟩

/-- `libfsapfs_volume_set_utf16_recovery_password` (libfsapfs/libfsapfs_volume.c:2452-2618).
Places: 0 `internal_volume`, 1 `internal_volume->recovery_password`, 2 `volume`. -/
def volume_set_utf16_recovery_password : Fn :=
  ⟨[loc, own 0, loc],
   [.choice 1 2, .lend 2, .test 2 3 4, .ret false, .forget 1, .null 1, .copy 0 2, .test 0 9 8,
    .maybe 1, .deref 0, .test 1 18 11, .deref 0, .use 1, .deref 0, .kill 1, .deref 0, .null 1,
    .deref 0, .deref 0, .choice 20 37, .deref 0, .choice 37 22, .deref 0, .choice 37 24, .deref 0,
    .deref 0, .choice 27 29, .fresh 1, .goto 30, .null 1, .deref 0, .test 1 37 32, .deref 0, .use 1,
    .choice 35 37, .deref 0, .ret true, .deref 0, .test 1 45 39, .deref 0, .use 1, .deref 0,
    .kill 1, .deref 0, .null 1, .deref 0, .ret false]⟩

/-- `libfsapfs_volume_get_root_directory` (libfsapfs/libfsapfs_volume.c:2623-2725).  Places: 0
`*file_entry`, 1 `result`. -/
def volume_get_root_directory : Fn :=
  ⟨[out, loc],
   [.setn 1 2, .choice 2 4, .none 0, .ret false, .choice 5 7, .none 0, .ret false, .choice 8 10,
    .choice 10 9, .setn 1 0, .testn 1 0 28 11, .testn 1 1 14 12, .testn 1 2 14 13, .choice 14 28,
    .choice 15 19, .test 0 16 33, .fresh 0, .setn 1 2, .goto 23, .choice 20 22, .setn 1 1, .goto 23,
    .setn 1 0, .testn 1 0 27 24, .testn 1 1 28 25, .testn 1 2 28 26, .choice 27 28, .setn 1 0,
    .testn 1 2 29 31, .live 0, .ret true, .none 0, .ret false, .goto 33]⟩

/-- `libfsapfs_volume_get_file_entry_by_identifier` (libfsapfs/libfsapfs_volume.c:2970-3074).
Places: 0 `*file_entry`, 1 `result`. -/
def volume_get_file_entry_by_identifier : Fn :=
  ⟨[out, loc],
   [.setn 1 2, .choice 2 4, .none 0, .ret false, .choice 5 7, .none 0, .ret false, .choice 8 10,
    .choice 10 9, .setn 1 0, .testn 1 0 28 11, .testn 1 1 14 12, .testn 1 2 14 13, .choice 14 28,
    .choice 15 19, .test 0 16 33, .fresh 0, .setn 1 2, .goto 23, .choice 20 22, .setn 1 1, .goto 23,
    .setn 1 0, .testn 1 0 27 24, .testn 1 1 28 25, .testn 1 2 28 26, .choice 27 28, .setn 1 0,
    .testn 1 2 29 31, .live 0, .ret true, .none 0, .ret false, .goto 33]⟩

/-- `libfsapfs_volume_get_file_entry_by_utf8_path` (libfsapfs/libfsapfs_volume.c:3079-3206).
Places: 0 `*file_entry`, 1 `*file_entry at the start`, 2 `result`. -/
def volume_get_file_entry_by_utf8_path : Fn :=
  ⟨[out, loc, loc],
   [.choice 1 4, .lend 0, .setn 1 2, .goto 5, .setn 1 1, .setn 2 2, .choice 7 10, .testn 1 1 8 9,
    .none 0, .ret false, .choice 11 14, .testn 1 1 12 13, .none 0, .ret false, .choice 15 19,
    .test 0 16 50, .testn 1 1 17 18, .none 0, .ret false, .test 0 23 20, .testn 1 1 21 22, .none 0,
    .ret false, .choice 24 26, .choice 26 25, .setn 2 0, .testn 2 0 44 27, .testn 2 1 30 28,
    .testn 2 2 30 29, .choice 30 44, .choice 31 35, .test 0 32 50, .fresh 0, .setn 2 2, .goto 39,
    .choice 36 38, .setn 2 1, .goto 39, .setn 2 0, .testn 2 0 43 40, .testn 2 1 44 41,
    .testn 2 2 44 42, .choice 43 44, .setn 2 0, .testn 2 2 45 47, .live 0, .ret true,
    .testn 1 1 48 49, .none 0, .ret false, .goto 50]⟩

/-- `libfsapfs_volume_get_file_entry_by_utf16_path` (libfsapfs/libfsapfs_volume.c:3211-3338).
Places: 0 `*file_entry`, 1 `*file_entry at the start`, 2 `result`. -/
def volume_get_file_entry_by_utf16_path : Fn :=
  ⟨[out, loc, loc],
   [.choice 1 4, .lend 0, .setn 1 2, .goto 5, .setn 1 1, .setn 2 2, .choice 7 10, .testn 1 1 8 9,
    .none 0, .ret false, .choice 11 14, .testn 1 1 12 13, .none 0, .ret false, .choice 15 19,
    .test 0 16 50, .testn 1 1 17 18, .none 0, .ret false, .test 0 23 20, .testn 1 1 21 22, .none 0,
    .ret false, .choice 24 26, .choice 26 25, .setn 2 0, .testn 2 0 44 27, .testn 2 1 30 28,
    .testn 2 2 30 29, .choice 30 44, .choice 31 35, .test 0 32 50, .fresh 0, .setn 2 2, .goto 39,
    .choice 36 38, .setn 2 1, .goto 39, .setn 2 0, .testn 2 0 43 40, .testn 2 1 44 41,
    .testn 2 2 44 42, .choice 43 44, .setn 2 0, .testn 2 2 45 47, .live 0, .ret true,
    .testn 1 1 48 49, .none 0, .ret false, .goto 50]⟩

/-- `libfsapfs_volume_get_number_of_snapshots` (libfsapfs/libfsapfs_volume.c:3343-3410).  Places: 0
`result`. -/
def volume_get_number_of_snapshots : Fn :=
  ⟨[loc],
   [.setn 0 2, .choice 2 3, .ret false, .choice 5 4, .setn 0 0, .testn 0 2 6 7, .ret true,
    .ret false]⟩

/-- `libfsapfs_volume_get_snapshot_by_index` (libfsapfs/libfsapfs_volume.c:3416-3569).  Places: 0
`*snapshot`, 1 `snapshot_metadata`, 2 `*snapshot at the start`. -/
def volume_get_snapshot_by_index : Fn :=
  ⟨[out, loc, loc],
   [.choice 1 4, .lend 0, .setn 2 2, .goto 5, .setn 2 1, .choice 6 9, .testn 2 1 7 8, .none 0,
    .ret false, .choice 10 14, .test 0 11 42, .testn 2 1 12 13, .none 0, .ret false, .test 0 18 15,
    .testn 2 1 16 17, .none 0, .ret false, .choice 19 21, .lend 1, .goto 26, .choice 22 23, .lend 1,
    .testn 2 1 24 25, .none 0, .ret false, .test 1 36 27, .use 1, .choice 29 36, .test 0 30 42,
    .fresh 0, .deref 1, .use 0, .choice 34 36, .live 0, .ret true, .test 0 39 37, .kill 0, .null 0,
    .testn 2 1 40 41, .none 0, .ret false, .goto 42]⟩

/-- The functions of libfsapfs/libfsapfs_volume.c. -/
def in_volume : List (String × Fn) :=
  [("libfsapfs_volume_initialize", volume_initialize),
   ("libfsapfs_volume_free", volume_free),
   ("libfsapfs_internal_volume_open_read", Lib.internal_volume_open_read),
   ("libfsapfs_internal_volume_close", Lib.internal_volume_close),
   ("libfsapfs_internal_volume_unlock", Lib.internal_volume_unlock),
   ("libfsapfs_volume_unlock", volume_unlock),
   ("libfsapfs_volume_get_identifier", volume_get_identifier),
   ("libfsapfs_volume_get_utf8_name_size", volume_get_utf8_name_size),
   ("libfsapfs_volume_get_utf8_name", volume_get_utf8_name),
   ("libfsapfs_volume_get_utf16_name_size", volume_get_utf16_name_size),
   ("libfsapfs_volume_get_utf16_name", volume_get_utf16_name),
   ("libfsapfs_volume_set_utf8_password", volume_set_utf8_password),
   ("libfsapfs_volume_set_utf16_password", volume_set_utf16_password),
   ("libfsapfs_volume_set_utf8_recovery_password", volume_set_utf8_recovery_password),
   ("libfsapfs_volume_set_utf16_recovery_password", volume_set_utf16_recovery_password),
   ("libfsapfs_volume_get_root_directory", volume_get_root_directory),
   ("libfsapfs_internal_volume_get_file_system", Lib.internal_volume_get_file_system),
   ("libfsapfs_volume_get_file_entry_by_identifier", volume_get_file_entry_by_identifier),
   ("libfsapfs_volume_get_file_entry_by_utf8_path", volume_get_file_entry_by_utf8_path),
   ("libfsapfs_volume_get_file_entry_by_utf16_path", volume_get_file_entry_by_utf16_path),
   ("libfsapfs_volume_get_number_of_snapshots", volume_get_number_of_snapshots),
   ("libfsapfs_volume_get_snapshot_by_index", volume_get_snapshot_by_index)]

end Verif.Owner.Single

namespace Verif.Owner

/-- All functions of the library that handle memory, in the build with threads. -/
def library : List (String × Fn) :=
  Lib.in_attribute_values ++ Lib.in_attributes ++ Lib.in_bit_stream ++ Lib.in_btree_entry ++
    Lib.in_btree_footer ++ Lib.in_btree_node ++ Lib.in_btree_node_header ++
    Lib.in_buffer_data_handle ++ Lib.in_checkpoint_map ++ Lib.in_checkpoint_map_entry ++
    Lib.in_chunk_information_block ++ Lib.in_compressed_data_handle ++
    Lib.in_compressed_data_header ++ Lib.in_compression ++ Lib.in_container_data_handle ++
    Lib.in_container_key_bag ++ Lib.in_container_reaper ++ Lib.in_container_superblock ++
    Lib.in_data_block ++ Lib.in_data_block_data_handle ++ Lib.in_data_block_vector ++
    Lib.in_data_stream ++ Lib.in_deflate ++ Lib.in_directory_record ++
    Lib.in_encryption_context ++ Lib.in_extent_reference_tree ++ Lib.in_file_extent ++
    Lib.in_file_system_data_handle ++ Lib.in_fusion_middle_tree ++ Lib.in_huffman_tree ++
    Lib.in_inode ++ Lib.in_io_handle ++ Lib.in_key_bag_entry ++ Lib.in_key_bag_header ++
    Lib.in_key_encrypted_key ++ Lib.in_object ++ Lib.in_object_map ++
    Lib.in_object_map_descriptor ++ Lib.in_password ++ Lib.in_snapshot_metadata ++
    Lib.in_space_manager ++ Lib.in_support ++ Lib.in_volume_key_bag ++
    Lib.in_volume_superblock ++ Lib.in_file_system ++ Lib.in_file_system_btree ++
    Lib.in_object_map_btree ++ Lib.in_snapshot_metadata_tree ++ Lib.in_extended_attribute ++
    Lib.in_file_entry ++ Lib.in_container ++ Lib.in_snapshot ++ Lib.in_volume

/-- The same in the build without threads. -/
def librarySingle : List (String × Fn) :=
  Lib.in_attribute_values ++ Lib.in_attributes ++ Lib.in_bit_stream ++ Lib.in_btree_entry ++
    Lib.in_btree_footer ++ Lib.in_btree_node ++ Lib.in_btree_node_header ++
    Lib.in_buffer_data_handle ++ Lib.in_checkpoint_map ++ Lib.in_checkpoint_map_entry ++
    Lib.in_chunk_information_block ++ Lib.in_compressed_data_handle ++
    Lib.in_compressed_data_header ++ Lib.in_compression ++ Lib.in_container_data_handle ++
    Lib.in_container_key_bag ++ Lib.in_container_reaper ++ Lib.in_container_superblock ++
    Lib.in_data_block ++ Lib.in_data_block_data_handle ++ Lib.in_data_block_vector ++
    Lib.in_data_stream ++ Lib.in_deflate ++ Lib.in_directory_record ++
    Lib.in_encryption_context ++ Lib.in_extent_reference_tree ++ Lib.in_file_extent ++
    Lib.in_file_system_data_handle ++ Lib.in_fusion_middle_tree ++ Lib.in_huffman_tree ++
    Lib.in_inode ++ Lib.in_io_handle ++ Lib.in_key_bag_entry ++ Lib.in_key_bag_header ++
    Lib.in_key_encrypted_key ++ Lib.in_object ++ Lib.in_object_map ++
    Lib.in_object_map_descriptor ++ Lib.in_password ++ Lib.in_snapshot_metadata ++
    Lib.in_space_manager ++ Lib.in_support ++ Lib.in_volume_key_bag ++
    Lib.in_volume_superblock ++ Lib.in_file_system ++ Lib.in_file_system_btree ++
    Lib.in_object_map_btree ++ Lib.in_snapshot_metadata_tree ++ Single.in_extended_attribute ++
    Single.in_file_entry ++ Single.in_container ++ Single.in_snapshot ++ Single.in_volume

end Verif.Owner
