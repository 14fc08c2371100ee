import Verif.Model.Ownership

/-
What the functions of file entries and extended attributes do with memory: see Ownership.lean for what the
instructions mean and DESIGN.md for how they were made from the source.  The build with threads
(HAVE_LIBFSAPFS_MULTI_THREAD_SUPPORT).
-/

namespace Verif.Owner.Lib

/-- `libfsapfs_extended_attribute_initialize` (libfsapfs/libfsapfs_extended_attribute.c:47-157).
Places: 0 `*extended_attribute`, 1 `internal_extended_attribute`, 2
`internal_extended_attribute->data_stream`, 3 `internal_extended_attribute->read_write_lock`, 4
`*extended_attribute at the start`. -/
def extended_attribute_initialize : Fn :=
  ⟨[out, loc, own 1, own 1, loc],
   [.choice 1 4, .lend 0, .setn 4 2, .goto 5, .setn 4 1, .choice 6 10, .test 0 7 54, .testn 4 1 8 9,
    .none 0, .ret false, .test 0 14 11, .testn 4 1 12 13, .none 0, .ret false, .choice 15 18,
    .testn 4 1 16 17, .none 0, .ret false, .forget 3, .null 3, .forget 2, .null 2, .choice 23 29,
    .fresh 1, .fresh 2, .kill 2, .fresh 3, .kill 3, .goto 30, .null 1, .test 1 47 31, .use 1,
    .null 2, .null 3, .deref 1, .deref 1, .deref 1, .deref 1, .deref 1, .deref 1, .deref 1,
    .choice 42 47, .test 3 43 54, .fresh 3, .copy 0 1, .live 0, .ret true, .test 1 51 48, .kill 1,
    .null 2, .null 3, .testn 4 1 52 53, .none 0, .ret false, .goto 54]⟩

/-- `libfsapfs_extended_attribute_free` (libfsapfs/libfsapfs_extended_attribute.c:162-221).
Places: 0 `*extended_attribute`, 1 `internal_extended_attribute`, 2
`internal_extended_attribute->data_stream`, 3 `internal_extended_attribute->read_write_lock`, 4
`result`. -/
def extended_attribute_free : Fn :=
  ⟨[arg, loc, own 1, own 1, loc],
   [.maybe 0, .setn 4 2, .choice 3 5, .test 0 4 33, .ret false, .test 0 30 6, .forget 3, .null 3,
    .forget 2, .null 2, .copy 1 0, .test 1 14 12, .maybe 2, .maybe 3, .null 0, .deref 1, .kill 3,
    .null 3, .choice 20 19, .setn 4 0, .deref 1, .test 2 27 22, .deref 1, .kill 2, .null 2,
    .choice 27 26, .setn 4 0, .kill 1, .null 2, .null 3, .testn 4 2 31 32, .ret true, .ret false,
    .goto 33]⟩

/-- `libfsapfs_extended_attribute_get_utf8_name_size`
(libfsapfs/libfsapfs_extended_attribute.c:353-420).  Places: 0 `result`. -/
def extended_attribute_get_utf8_name_size : Fn :=
  ⟨[loc],
   [.setn 0 2, .choice 2 3, .ret false, .choice 5 4, .ret false, .choice 7 6, .setn 0 0,
    .choice 9 8, .ret false, .testn 0 2 10 11, .ret true, .ret false]⟩

/-- `libfsapfs_extended_attribute_get_utf8_name`
(libfsapfs/libfsapfs_extended_attribute.c:426-495).  Places: 0 `result`. -/
def extended_attribute_get_utf8_name : Fn :=
  ⟨[loc],
   [.setn 0 2, .choice 2 3, .ret false, .choice 5 4, .ret false, .choice 7 6, .setn 0 0,
    .choice 9 8, .ret false, .testn 0 2 10 11, .ret true, .ret false]⟩

/-- `libfsapfs_extended_attribute_get_utf16_name_size`
(libfsapfs/libfsapfs_extended_attribute.c:501-568).  Places: 0 `result`. -/
def extended_attribute_get_utf16_name_size : Fn :=
  ⟨[loc],
   [.setn 0 2, .choice 2 3, .ret false, .choice 5 4, .ret false, .choice 7 6, .setn 0 0,
    .choice 9 8, .ret false, .testn 0 2 10 11, .ret true, .ret false]⟩

/-- `libfsapfs_extended_attribute_get_utf16_name`
(libfsapfs/libfsapfs_extended_attribute.c:574-643).  Places: 0 `result`. -/
def extended_attribute_get_utf16_name : Fn :=
  ⟨[loc],
   [.setn 0 2, .choice 2 3, .ret false, .choice 5 4, .ret false, .choice 7 6, .setn 0 0,
    .choice 9 8, .ret false, .testn 0 2 10 11, .ret true, .ret false]⟩

/-- `libfsapfs_internal_extended_attribute_get_data_stream`
(libfsapfs/libfsapfs_extended_attribute.c:648-696).  Places: 0 `internal_extended_attribute`, 1
`internal_extended_attribute->data_stream`, 2 `internal_extended_attribute->members at the start`. -/
def internal_extended_attribute_get_data_stream : Fn :=
  ⟨[loc, own 0, part 0],
   [.choice 1 2, .lend 0, .test 0 8 3, .choice 4 6, .setn 2 1, .goto 8, .setn 2 2, .maybe 1,
    .test 0 9 12, .testn 2 1 10 11, .none 1, .ret false, .deref 0, .test 1 17 14, .testn 2 1 15 16,
    .none 1, .ret false, .deref 0, .choice 19 22, .none 1, .maybe 1, .goto 25, .testn 2 1 23 24,
    .none 1, .ret false, .ret true]⟩

/-- `libfsapfs_extended_attribute_read_buffer` (libfsapfs/libfsapfs_extended_attribute.c:701-793).
Places: 0 `internal_extended_attribute`, 1 `internal_extended_attribute->data_stream`. -/
def extended_attribute_read_buffer : Fn :=
  ⟨[loc, own 0],
   [.choice 1 2, .ret false, .forget 1, .null 1, .lend 0, .deref 0, .choice 8 7, .ret false,
    .deref 0, .test 1 10 19, .use 0, .choice 12 16, .forget 1, .null 1, .maybe 1, .goto 19,
    .forget 1, .null 1, .maybe 1, .deref 0, .test 1 24 21, .deref 0, .use 1, .deref 0, .deref 0,
    .choice 27 26, .ret false, .ret true]⟩

/-- `libfsapfs_extended_attribute_read_buffer_at_offset`
(libfsapfs/libfsapfs_extended_attribute.c:798-892).  Places: 0 `internal_extended_attribute`, 1
`internal_extended_attribute->data_stream`. -/
def extended_attribute_read_buffer_at_offset : Fn :=
  ⟨[loc, own 0],
   [.choice 1 2, .ret false, .forget 1, .null 1, .lend 0, .deref 0, .choice 8 7, .ret false,
    .deref 0, .test 1 10 19, .use 0, .choice 12 16, .forget 1, .null 1, .maybe 1, .goto 19,
    .forget 1, .null 1, .maybe 1, .deref 0, .test 1 24 21, .deref 0, .use 1, .deref 0, .deref 0,
    .choice 27 26, .ret false, .ret true]⟩

/-- `libfsapfs_extended_attribute_seek_offset` (libfsapfs/libfsapfs_extended_attribute.c:897-986).
Places: 0 `internal_extended_attribute`, 1 `internal_extended_attribute->data_stream`. -/
def extended_attribute_seek_offset : Fn :=
  ⟨[loc, own 0],
   [.choice 1 2, .ret false, .forget 1, .null 1, .lend 0, .deref 0, .choice 8 7, .ret false,
    .deref 0, .test 1 10 19, .use 0, .choice 12 16, .forget 1, .null 1, .maybe 1, .goto 19,
    .forget 1, .null 1, .maybe 1, .deref 0, .test 1 24 21, .deref 0, .use 1, .deref 0, .deref 0,
    .choice 27 26, .ret false, .ret true]⟩

/-- `libfsapfs_extended_attribute_get_offset` (libfsapfs/libfsapfs_extended_attribute.c:991-1077).
Places: 0 `internal_extended_attribute`, 1 `internal_extended_attribute->data_stream`, 2 `result`. -/
def extended_attribute_get_offset : Fn :=
  ⟨[loc, own 0, loc],
   [.setn 2 2, .choice 2 3, .ret false, .forget 1, .null 1, .lend 0, .deref 0, .choice 9 8,
    .ret false, .deref 0, .test 1 11 21, .use 0, .choice 13 17, .forget 1, .null 1, .maybe 1,
    .goto 21, .forget 1, .null 1, .maybe 1, .setn 2 0, .deref 0, .test 1 27 23, .deref 0, .use 1,
    .choice 27 26, .setn 2 0, .deref 0, .choice 30 29, .ret false, .testn 2 2 31 32, .ret true,
    .ret false]⟩

/-- `libfsapfs_extended_attribute_get_number_of_extents`
(libfsapfs/libfsapfs_extended_attribute.c:1163-1251).  Places: 0 `result`. -/
def extended_attribute_get_number_of_extents : Fn :=
  ⟨[loc],
   [.setn 0 2, .choice 2 3, .ret false, .choice 5 4, .ret false, .choice 6 8, .choice 8 7,
    .setn 0 0, .testn 0 0 14 9, .testn 0 1 12 10, .testn 0 2 12 11, .choice 12 14, .choice 14 13,
    .setn 0 0, .choice 16 15, .ret false, .testn 0 2 17 18, .ret true, .ret false]⟩

/-- `libfsapfs_extended_attribute_get_extent_by_index`
(libfsapfs/libfsapfs_extended_attribute.c:1256-1412).  Places: 0 `file_extent`, 1 `result`. -/
def extended_attribute_get_extent_by_index : Fn :=
  ⟨[loc, loc],
   [.setn 1 2, .choice 2 3, .ret false, .choice 4 5, .ret false, .choice 6 7, .ret false,
    .choice 8 9, .ret false, .choice 10 11, .ret false, .choice 13 12, .ret false, .choice 14 16,
    .choice 16 15, .setn 1 0, .testn 1 0 32 17, .testn 1 1 20 18, .testn 1 2 20 19, .choice 20 32,
    .choice 21 23, .lend 0, .goto 27, .choice 24 25, .lend 0, .setn 1 0, .goto 32, .test 0 28 30,
    .setn 1 0, .goto 32, .deref 0, .deref 0, .choice 34 33, .ret false, .testn 1 2 35 36, .ret true,
    .ret false]⟩

/-- The functions of libfsapfs/libfsapfs_extended_attribute.c. -/
def in_extended_attribute : List (String × Fn) :=
  [("libfsapfs_extended_attribute_initialize", extended_attribute_initialize),
   ("libfsapfs_extended_attribute_free", extended_attribute_free),
   ("libfsapfs_extended_attribute_get_utf8_name_size", extended_attribute_get_utf8_name_size),
   ("libfsapfs_extended_attribute_get_utf8_name", extended_attribute_get_utf8_name),
   ("libfsapfs_extended_attribute_get_utf16_name_size", extended_attribute_get_utf16_name_size),
   ("libfsapfs_extended_attribute_get_utf16_name", extended_attribute_get_utf16_name),
   ("libfsapfs_internal_extended_attribute_get_data_stream", internal_extended_attribute_get_data_stream),
   ("libfsapfs_extended_attribute_read_buffer", extended_attribute_read_buffer),
   ("libfsapfs_extended_attribute_read_buffer_at_offset", extended_attribute_read_buffer_at_offset),
   ("libfsapfs_extended_attribute_seek_offset", extended_attribute_seek_offset),
   ("libfsapfs_extended_attribute_get_offset", extended_attribute_get_offset),
   ("libfsapfs_extended_attribute_get_number_of_extents", extended_attribute_get_number_of_extents),
   ("libfsapfs_extended_attribute_get_extent_by_index", extended_attribute_get_extent_by_index)]

/-- `libfsapfs_file_entry_initialize` (libfsapfs/libfsapfs_file_entry.c:54-156).  Places: 0
`*file_entry`, 1 `directory_record`, 2 `inode`, 3 `internal_file_entry`, 4
`internal_file_entry->compressed_data_header`, 5 `internal_file_entry->data_stream`, 6
`internal_file_entry->directory_entries`, 7 `internal_file_entry->directory_record`, 8
`internal_file_entry->extended_attributes_array`, 9 `internal_file_entry->file_extents`, 10
`internal_file_entry->inode`, 11 `internal_file_entry->read_write_lock`, 12
`internal_file_entry->symbolic_link_data`, 13 `*file_entry at the start`. -/
def file_entry_initialize : Fn :=
  ⟨[out, loc, loc, loc, own 3, own 3, own 3, own 3, own 3, own 3, own 3, own 3, own 3, loc],
   [.choice 1 4, .lend 0, .setn 13 2, .goto 5, .setn 13 1, .maybe 1, .maybe 2, .choice 8 16,
    .test 0 9 110, .held 1, .forget 1, .held 2, .forget 2, .testn 13 1 14 15, .none 0, .ret false,
    .test 0 24 17, .held 1, .forget 1, .held 2, .forget 2, .testn 13 1 22 23, .none 0, .ret false,
    .forget 12, .null 12, .forget 11, .null 11, .forget 10, .null 10, .forget 9, .null 9, .forget 8,
    .null 8, .forget 7, .null 7, .forget 6, .null 6, .forget 5, .null 5, .forget 4, .null 4,
    .choice 43 63, .fresh 3, .fresh 4, .kill 4, .fresh 5, .kill 5, .fresh 6, .kill 6, .fresh 7,
    .kill 7, .fresh 8, .kill 8, .fresh 9, .kill 9, .fresh 10, .kill 10, .fresh 11, .kill 11,
    .fresh 12, .kill 12, .goto 64, .null 3, .test 3 92 65, .use 3, .null 4, .null 5, .null 6,
    .null 7, .null 8, .null 9, .null 10, .null 11, .null 12, .deref 3, .deref 3, .deref 3, .deref 3,
    .deref 3, .copy 10 2, .deref 3, .copy 7 1, .deref 3, .deref 3, .deref 3, .choice 87 92,
    .test 11 88 110, .fresh 11, .copy 0 3, .live 0, .ret true, .test 3 103 93, .kill 3, .null 4,
    .null 5, .null 6, .null 7, .null 8, .null 9, .null 10, .null 11, .null 12, .held 1, .forget 1,
    .held 2, .forget 2, .testn 13 1 108 109, .none 0, .ret false, .goto 110]⟩

/-- `libfsapfs_file_entry_free` (libfsapfs/libfsapfs_file_entry.c:161-326).  Places: 0
`*file_entry`, 1 `internal_file_entry`, 2 `internal_file_entry->compressed_data_header`, 3
`internal_file_entry->data_stream`, 4 `internal_file_entry->directory_entries`, 5
`internal_file_entry->directory_record`, 6 `internal_file_entry->extended_attributes_array`, 7
`internal_file_entry->file_extents`, 8 `internal_file_entry->inode`, 9
`internal_file_entry->read_write_lock`, 10 `internal_file_entry->symbolic_link_data`, 11 `result`. -/
def file_entry_free : Fn :=
  ⟨[arg, loc, own 1, own 1, own 1, own 1, own 1, own 1, own 1, own 1, own 1, loc],
   [.maybe 0, .setn 11 2, .choice 3 5, .test 0 4 101, .ret false, .test 0 98 6, .forget 10,
    .null 10, .forget 9, .null 9, .forget 8, .null 8, .forget 7, .null 7, .forget 6, .null 6,
    .forget 5, .null 5, .forget 4, .null 4, .forget 3, .null 3, .forget 2, .null 2, .copy 1 0,
    .test 1 35 26, .maybe 2, .maybe 3, .maybe 4, .maybe 5, .maybe 6, .maybe 7, .maybe 8, .maybe 9,
    .maybe 10, .null 0, .deref 1, .kill 9, .null 9, .choice 41 40, .setn 11 0, .deref 1,
    .test 8 46 43, .deref 1, .kill 8, .null 8, .deref 1, .test 5 51 48, .deref 1, .kill 5, .null 5,
    .deref 1, .test 6 58 53, .deref 1, .kill 6, .null 6, .choice 58 57, .setn 11 0, .deref 1,
    .test 2 63 60, .deref 1, .kill 2, .null 2, .deref 1, .test 10 67 65, .deref 1, .kill 10,
    .deref 1, .test 4 74 69, .deref 1, .kill 4, .null 4, .choice 74 73, .setn 11 0, .deref 1,
    .test 7 81 76, .deref 1, .kill 7, .null 7, .choice 81 80, .setn 11 0, .deref 1, .test 3 88 83,
    .deref 1, .kill 3, .null 3, .choice 88 87, .setn 11 0, .kill 1, .null 2, .null 3, .null 4,
    .null 5, .null 6, .null 7, .null 8, .null 9, .null 10, .testn 11 2 99 100, .ret true,
    .ret false, .goto 101]⟩

/-- `libfsapfs_file_entry_get_identifier` (libfsapfs/libfsapfs_file_entry.c:332-399).  Places: 0
`result`. -/
def file_entry_get_identifier : Fn :=
  ⟨[loc],
   [.setn 0 2, .choice 2 3, .ret false, .choice 5 4, .ret false, .choice 7 6, .setn 0 0,
    .choice 9 8, .ret false, .testn 0 2 10 11, .ret true, .ret false]⟩

/-- `libfsapfs_file_entry_get_parent_identifier` (libfsapfs/libfsapfs_file_entry.c:405-472).
Places: 0 `result`. -/
def file_entry_get_parent_identifier : Fn :=
  ⟨[loc],
   [.setn 0 2, .choice 2 3, .ret false, .choice 5 4, .ret false, .choice 7 6, .setn 0 0,
    .choice 9 8, .ret false, .testn 0 2 10 11, .ret true, .ret false]⟩

/-- `libfsapfs_file_entry_get_parent_file_entry` (libfsapfs/libfsapfs_file_entry.c:477-639).
Places: 0 `*parent_file_entry`, 1 `inode`, 2 `*parent_file_entry at the start`, 3 `result`. -/
def file_entry_get_parent_file_entry : Fn :=
  ⟨[out, loc, loc, loc],
   [.choice 1 4, .lend 0, .setn 2 2, .goto 5, .setn 2 1, .setn 3 1, .choice 7 10, .testn 2 1 8 9,
    .none 0, .ret false, .choice 11 15, .test 0 12 52, .testn 2 1 13 14, .none 0, .ret false,
    .test 0 19 16, .testn 2 1 17 18, .none 0, .ret false, .choice 23 20, .testn 2 1 21 22, .none 0,
    .ret false, .choice 24 46, .choice 25 36, .choice 26 46, .choice 27 46, .test 1 28 52, .fresh 1,
    .use 1, .choice 31 46, .test 0 32 52, .fresh 0, .give 1, .null 1, .setn 3 2, .choice 40 37,
    .testn 2 1 38 39, .none 0, .ret false, .testn 3 2 41 43, .live 0, .ret true, .testn 2 1 44 45,
    .none 0, .ret false, .test 1 49 47, .kill 1, .null 1, .testn 2 1 50 51, .none 0, .ret false,
    .goto 52]⟩

/-- `libfsapfs_file_entry_get_creation_time` (libfsapfs/libfsapfs_file_entry.c:646-713).  Places: 0
`result`. -/
def file_entry_get_creation_time : Fn :=
  ⟨[loc],
   [.setn 0 2, .choice 2 3, .ret false, .choice 5 4, .ret false, .choice 7 6, .setn 0 0,
    .choice 9 8, .ret false, .testn 0 2 10 11, .ret true, .ret false]⟩

/-- `libfsapfs_file_entry_get_modification_time` (libfsapfs/libfsapfs_file_entry.c:720-787).
Places: 0 `result`. -/
def file_entry_get_modification_time : Fn :=
  ⟨[loc],
   [.setn 0 2, .choice 2 3, .ret false, .choice 5 4, .ret false, .choice 7 6, .setn 0 0,
    .choice 9 8, .ret false, .testn 0 2 10 11, .ret true, .ret false]⟩

/-- `libfsapfs_file_entry_get_access_time` (libfsapfs/libfsapfs_file_entry.c:794-861).  Places: 0
`result`. -/
def file_entry_get_access_time : Fn :=
  ⟨[loc],
   [.setn 0 2, .choice 2 3, .ret false, .choice 5 4, .ret false, .choice 7 6, .setn 0 0,
    .choice 9 8, .ret false, .testn 0 2 10 11, .ret true, .ret false]⟩

/-- `libfsapfs_file_entry_get_inode_change_time` (libfsapfs/libfsapfs_file_entry.c:868-935).
Places: 0 `result`. -/
def file_entry_get_inode_change_time : Fn :=
  ⟨[loc],
   [.setn 0 2, .choice 2 3, .ret false, .choice 5 4, .ret false, .choice 7 6, .setn 0 0,
    .choice 9 8, .ret false, .testn 0 2 10 11, .ret true, .ret false]⟩

/-- `libfsapfs_file_entry_get_added_time` (libfsapfs/libfsapfs_file_entry.c:942-1014).  Places: 0
`result`. -/
def file_entry_get_added_time : Fn :=
  ⟨[loc],
   [.setn 0 1, .choice 2 3, .ret false, .choice 5 4, .ret false, .choice 6 18, .choice 7 9,
    .setn 0 2, .goto 13, .choice 10 12, .setn 0 1, .goto 13, .setn 0 0, .testn 0 0 17 14,
    .testn 0 1 17 15, .testn 0 2 18 16, .choice 17 18, .setn 0 0, .choice 20 19, .ret false,
    .testn 0 2 21 22, .ret true, .ret false]⟩

/-- `libfsapfs_file_entry_get_owner_identifier` (libfsapfs/libfsapfs_file_entry.c:1020-1087).
Places: 0 `result`. -/
def file_entry_get_owner_identifier : Fn :=
  ⟨[loc],
   [.setn 0 2, .choice 2 3, .ret false, .choice 5 4, .ret false, .choice 7 6, .setn 0 0,
    .choice 9 8, .ret false, .testn 0 2 10 11, .ret true, .ret false]⟩

/-- `libfsapfs_file_entry_get_group_identifier` (libfsapfs/libfsapfs_file_entry.c:1093-1160).
Places: 0 `result`. -/
def file_entry_get_group_identifier : Fn :=
  ⟨[loc],
   [.setn 0 2, .choice 2 3, .ret false, .choice 5 4, .ret false, .choice 7 6, .setn 0 0,
    .choice 9 8, .ret false, .testn 0 2 10 11, .ret true, .ret false]⟩

/-- `libfsapfs_file_entry_get_device_identifier` (libfsapfs/libfsapfs_file_entry.c:1166-1235).
Places: 0 `result`. -/
def file_entry_get_device_identifier : Fn :=
  ⟨[loc],
   [.setn 0 1, .choice 2 3, .ret false, .choice 5 4, .ret false, .choice 6 8, .setn 0 2, .goto 12,
    .choice 9 11, .setn 0 1, .goto 12, .setn 0 0, .testn 0 0 16 13, .testn 0 1 17 14,
    .testn 0 2 17 15, .choice 16 17, .setn 0 0, .choice 19 18, .ret false, .testn 0 2 20 21,
    .ret true, .ret false]⟩

/-- `libfsapfs_file_entry_get_device_number` (libfsapfs/libfsapfs_file_entry.c:1241-1312).  Places:
0 `result`. -/
def file_entry_get_device_number : Fn :=
  ⟨[loc],
   [.setn 0 1, .choice 2 3, .ret false, .choice 5 4, .ret false, .choice 6 8, .setn 0 2, .goto 12,
    .choice 9 11, .setn 0 1, .goto 12, .setn 0 0, .testn 0 0 16 13, .testn 0 1 17 14,
    .testn 0 2 17 15, .choice 16 17, .setn 0 0, .choice 19 18, .ret false, .testn 0 2 20 21,
    .ret true, .ret false]⟩

/-- `libfsapfs_file_entry_get_file_mode` (libfsapfs/libfsapfs_file_entry.c:1318-1385).  Places: 0
`result`. -/
def file_entry_get_file_mode : Fn :=
  ⟨[loc],
   [.setn 0 2, .choice 2 3, .ret false, .choice 5 4, .ret false, .choice 7 6, .setn 0 0,
    .choice 9 8, .ret false, .testn 0 2 10 11, .ret true, .ret false]⟩

/-- `libfsapfs_file_entry_get_number_of_links` (libfsapfs/libfsapfs_file_entry.c:1391-1458).
Places: 0 `result`. -/
def file_entry_get_number_of_links : Fn :=
  ⟨[loc],
   [.setn 0 2, .choice 2 3, .ret false, .choice 5 4, .ret false, .choice 7 6, .setn 0 0,
    .choice 9 8, .ret false, .testn 0 2 10 11, .ret true, .ret false]⟩

/-- `libfsapfs_file_entry_get_utf8_name_size` (libfsapfs/libfsapfs_file_entry.c:1465-1552).
Places: 0 `result`. -/
def file_entry_get_utf8_name_size : Fn :=
  ⟨[loc],
   [.setn 0 2, .choice 2 3, .ret false, .choice 5 4, .ret false, .choice 6 9, .choice 11 7,
    .setn 0 0, .goto 11, .choice 11 10, .setn 0 0, .choice 13 12, .ret false, .testn 0 2 14 15,
    .ret true, .ret false]⟩

/-- `libfsapfs_file_entry_get_utf8_name` (libfsapfs/libfsapfs_file_entry.c:1559-1649).  Places: 0
`result`. -/
def file_entry_get_utf8_name : Fn :=
  ⟨[loc],
   [.setn 0 2, .choice 2 3, .ret false, .choice 5 4, .ret false, .choice 6 9, .choice 11 7,
    .setn 0 0, .goto 11, .choice 11 10, .setn 0 0, .choice 13 12, .ret false, .testn 0 2 14 15,
    .ret true, .ret false]⟩

/-- `libfsapfs_file_entry_get_utf16_name_size` (libfsapfs/libfsapfs_file_entry.c:1656-1743).
Places: 0 `result`. -/
def file_entry_get_utf16_name_size : Fn :=
  ⟨[loc],
   [.setn 0 2, .choice 2 3, .ret false, .choice 5 4, .ret false, .choice 6 9, .choice 11 7,
    .setn 0 0, .goto 11, .choice 11 10, .setn 0 0, .choice 13 12, .ret false, .testn 0 2 14 15,
    .ret true, .ret false]⟩

/-- `libfsapfs_file_entry_get_utf16_name` (libfsapfs/libfsapfs_file_entry.c:1750-1840).  Places: 0
`result`. -/
def file_entry_get_utf16_name : Fn :=
  ⟨[loc],
   [.setn 0 2, .choice 2 3, .ret false, .choice 5 4, .ret false, .choice 6 9, .choice 11 7,
    .setn 0 0, .goto 11, .choice 11 10, .setn 0 0, .choice 13 12, .ret false, .testn 0 2 14 15,
    .ret true, .ret false]⟩

/-- `libfsapfs_internal_file_entry_get_extended_attributes`
(libfsapfs/libfsapfs_file_entry.c:1845-2040).  Places: 0 `attribute_values`, 1
`internal_file_entry`, 2 `internal_file_entry->compressed_data_attribute_values`, 3
`internal_file_entry->extended_attributes_array`, 4
`internal_file_entry->resource_fork_attribute_values`, 5
`internal_file_entry->symbolic_link_attribute_values`, 6 `internal_file_entry->members at the
start`, 7 `result`. -/
def internal_file_entry_get_extended_attributes : Fn :=
  ⟨[loc, loc, part 1, own 1, part 1, part 1, part 1, loc],
   [.choice 1 2, .lend 1, .test 1 13 3, .choice 4 9, .setn 6 1, .lend 2, .lend 4, .lend 5, .goto 13,
    .setn 6 2, .lend 2, .lend 4, .lend 5, .setn 7 1, .test 1 15 19, .none 3, .testn 6 1 17 18,
    .none 3, .ret false, .deref 1, .test 3 25 21, .none 3, .testn 6 1 23 24, .none 3, .ret false,
    .deref 1, .choice 27 106, .deref 1, .choice 29 106, .test 3 30 115, .fresh 3, .deref 1, .use 3,
    .choice 34 36, .setn 7 2, .goto 40, .choice 37 39, .setn 7 1, .goto 40, .setn 7 0,
    .testn 7 0 106 41, .testn 7 1 44 42, .testn 7 2 44 43, .choice 106 44, .deref 1, .use 3,
    .choice 47 106, .choice 48 104, .deref 1, .use 3, .choice 51 53, .lend 0, .goto 56,
    .choice 54 106, .lend 0, .goto 106, .use 0, .choice 58 60, .setn 7 2, .goto 64, .choice 61 63,
    .setn 7 1, .goto 64, .setn 7 0, .testn 7 0 106 65, .testn 7 1 68 66, .testn 7 2 68 67,
    .choice 106 68, .choice 69 72, .deref 1, .copy 2 0, .goto 47, .use 0, .choice 74 76, .setn 7 2,
    .goto 80, .choice 77 79, .setn 7 1, .goto 80, .setn 7 0, .testn 7 0 106 81, .testn 7 1 84 82,
    .testn 7 2 84 83, .choice 106 84, .choice 85 88, .deref 1, .copy 4 0, .goto 47, .use 0,
    .choice 90 92, .setn 7 2, .goto 96, .choice 93 95, .setn 7 1, .goto 96, .setn 7 0,
    .testn 7 0 106 97, .testn 7 1 100 98, .testn 7 2 100 99, .choice 106 100, .choice 101 47,
    .deref 1, .copy 5 0, .goto 47, .live 3, .ret true, .deref 1, .test 3 111 108, .deref 1, .kill 3,
    .null 3, .none 3, .testn 6 1 113 114, .none 3, .ret false, .goto 115]⟩

/-- `libfsapfs_internal_file_entry_get_symbolic_link_data`
(libfsapfs/libfsapfs_file_entry.c:2045-2196).  Places: 0 `data_stream`, 1 `internal_file_entry`, 2
`internal_file_entry->symbolic_link_data`, 3 `internal_file_entry->members at the start`. -/
def internal_file_entry_get_symbolic_link_data : Fn :=
  ⟨[loc, loc, own 1, part 1],
   [.choice 1 2, .lend 1, .test 1 8 3, .choice 4 6, .setn 3 1, .goto 8, .setn 3 2, .maybe 2,
    .test 1 9 12, .testn 3 1 10 11, .none 2, .ret false, .deref 1, .test 2 17 14, .testn 3 1 15 16,
    .none 2, .ret false, .deref 1, .choice 19 21, .use 1, .choice 21 50, .deref 1, .choice 23 49,
    .deref 1, .choice 50 25, .deref 1, .choice 50 27, .deref 1, .deref 1, .choice 30 32, .fresh 2,
    .goto 33, .null 2, .deref 1, .test 2 50 35, .deref 1, .deref 1, .choice 38 50, .none 0,
    .maybe 0, .deref 1, .use 0, .use 2, .deref 1, .deref 1, .choice 50 46, .kill 0, .null 0,
    .choice 49 50, .ret true, .test 0 53 51, .kill 0, .null 0, .deref 1, .test 2 59 55, .deref 1,
    .kill 2, .deref 1, .null 2, .deref 1, .testn 3 1 61 62, .none 2, .ret false]⟩

/-- `libfsapfs_file_entry_get_utf8_symbolic_link_target_size`
(libfsapfs/libfsapfs_file_entry.c:2203-2299).  Places: 0 `internal_file_entry`, 1
`internal_file_entry->symbolic_link_data`, 2 `result`. -/
def file_entry_get_utf8_symbolic_link_target_size : Fn :=
  ⟨[loc, own 0, loc],
   [.setn 2 1, .choice 2 3, .ret false, .forget 1, .null 1, .lend 0, .deref 0, .choice 9 8,
    .ret false, .deref 0, .test 1 11 21, .use 0, .choice 13 17, .forget 1, .null 1, .maybe 1,
    .goto 21, .forget 1, .null 1, .maybe 1, .goto 33, .deref 0, .test 1 27 23, .deref 0, .use 1,
    .choice 26 33, .setn 2 2, .deref 0, .choice 30 29, .ret false, .testn 2 2 31 32, .ret true,
    .ret false, .deref 0, .ret false]⟩

/-- `libfsapfs_file_entry_get_utf8_symbolic_link_target`
(libfsapfs/libfsapfs_file_entry.c:2306-2404).  Places: 0 `internal_file_entry`, 1
`internal_file_entry->symbolic_link_data`, 2 `result`. -/
def file_entry_get_utf8_symbolic_link_target : Fn :=
  ⟨[loc, own 0, loc],
   [.setn 2 1, .choice 2 3, .ret false, .forget 1, .null 1, .lend 0, .deref 0, .choice 9 8,
    .ret false, .deref 0, .test 1 11 21, .use 0, .choice 13 17, .forget 1, .null 1, .maybe 1,
    .goto 21, .forget 1, .null 1, .maybe 1, .goto 33, .deref 0, .test 1 27 23, .deref 0, .use 1,
    .choice 26 33, .setn 2 2, .deref 0, .choice 30 29, .ret false, .testn 2 2 31 32, .ret true,
    .ret false, .deref 0, .ret false]⟩

/-- `libfsapfs_file_entry_get_utf16_symbolic_link_target_size`
(libfsapfs/libfsapfs_file_entry.c:2411-2507).  Places: 0 `internal_file_entry`, 1
`internal_file_entry->symbolic_link_data`, 2 `result`. -/
def file_entry_get_utf16_symbolic_link_target_size : Fn :=
  ⟨[loc, own 0, loc],
   [.setn 2 1, .choice 2 3, .ret false, .forget 1, .null 1, .lend 0, .deref 0, .choice 9 8,
    .ret false, .deref 0, .test 1 11 21, .use 0, .choice 13 17, .forget 1, .null 1, .maybe 1,
    .goto 21, .forget 1, .null 1, .maybe 1, .goto 33, .deref 0, .test 1 27 23, .deref 0, .use 1,
    .choice 26 33, .setn 2 2, .deref 0, .choice 30 29, .ret false, .testn 2 2 31 32, .ret true,
    .ret false, .deref 0, .ret false]⟩

/-- `libfsapfs_file_entry_get_utf16_symbolic_link_target`
(libfsapfs/libfsapfs_file_entry.c:2514-2612).  Places: 0 `internal_file_entry`, 1
`internal_file_entry->symbolic_link_data`, 2 `result`. -/
def file_entry_get_utf16_symbolic_link_target : Fn :=
  ⟨[loc, own 0, loc],
   [.setn 2 1, .choice 2 3, .ret false, .forget 1, .null 1, .lend 0, .deref 0, .choice 9 8,
    .ret false, .deref 0, .test 1 11 21, .use 0, .choice 13 17, .forget 1, .null 1, .maybe 1,
    .goto 21, .forget 1, .null 1, .maybe 1, .goto 33, .deref 0, .test 1 27 23, .deref 0, .use 1,
    .choice 26 33, .setn 2 2, .deref 0, .choice 30 29, .ret false, .testn 2 2 31 32, .ret true,
    .ret false, .deref 0, .ret false]⟩

/-- `libfsapfs_file_entry_get_number_of_extended_attributes`
(libfsapfs/libfsapfs_file_entry.c:2617-2703).  Places: 0 `internal_file_entry`, 1
`internal_file_entry->extended_attributes_array`, 2 `result`. -/
def file_entry_get_number_of_extended_attributes : Fn :=
  ⟨[loc, own 0, loc],
   [.setn 2 2, .choice 2 3, .ret false, .forget 1, .null 1, .lend 0, .deref 0, .choice 9 8,
    .ret false, .deref 0, .test 1 11 21, .use 0, .none 1, .choice 14 18, .forget 1, .null 1,
    .fresh 1, .goto 21, .forget 1, .null 1, .setn 2 0, .deref 0, .test 1 27 23, .deref 0, .use 1,
    .choice 27 26, .setn 2 0, .deref 0, .choice 30 29, .ret false, .testn 2 2 31 32, .ret true,
    .ret false]⟩

/-- `libfsapfs_file_entry_get_extended_attribute_by_index`
(libfsapfs/libfsapfs_file_entry.c:2708-2842).  Places: 0 `*extended_attribute`, 1
`attribute_values`, 2 `internal_file_entry`, 3 `internal_file_entry->extended_attributes_array`, 4
`*extended_attribute at the start`, 5 `result`. -/
def file_entry_get_extended_attribute_by_index : Fn :=
  ⟨[out, loc, loc, own 2, loc, loc],
   [.choice 1 4, .lend 0, .setn 4 2, .goto 5, .setn 4 1, .setn 5 2, .choice 7 10, .testn 4 1 8 9,
    .none 0, .ret false, .forget 3, .null 3, .lend 2, .choice 14 18, .test 0 15 68,
    .testn 4 1 16 17, .none 0, .ret false, .test 0 22 19, .testn 4 1 20 21, .none 0, .ret false,
    .deref 2, .choice 27 24, .testn 4 1 25 26, .none 0, .ret false, .deref 2, .test 3 29 39, .use 2,
    .none 3, .choice 32 36, .forget 3, .null 3, .fresh 3, .goto 39, .forget 3, .null 3, .setn 5 0,
    .deref 2, .test 3 57 41, .deref 2, .use 3, .choice 44 46, .lend 1, .goto 50, .choice 47 48,
    .lend 1, .setn 5 0, .goto 57, .deref 2, .use 1, .choice 53 56, .test 0 54 68, .fresh 0,
    .goto 57, .setn 5 0, .deref 2, .choice 62 59, .testn 4 1 60 61, .none 0, .ret false,
    .testn 5 2 63 65, .live 0, .ret true, .testn 4 1 66 67, .none 0, .ret false, .goto 68]⟩

/-- `libfsapfs_internal_file_entry_get_attribute_values_by_utf8_name`
(libfsapfs/libfsapfs_file_entry.c:2847-2947).  Places: 0 `*attribute_values`, 1
`safe_attribute_values`, 2 `result`. -/
def internal_file_entry_get_attribute_values_by_utf8_name : Fn :=
  ⟨[arg, loc, loc],
   [.choice 1 2, .lend 0, .setn 2 1, .choice 4 5, .ret false, .choice 6 8, .choice 8 7, .ret false,
    .choice 10 9, .ret false, .choice 11 33, .choice 12 14, .lend 1, .goto 17, .choice 15 16,
    .lend 1, .ret false, .use 1, .choice 19 21, .setn 2 2, .goto 25, .choice 22 24, .setn 2 1,
    .goto 25, .setn 2 0, .testn 2 0 29 26, .testn 2 1 30 27, .testn 2 2 30 28, .choice 29 30,
    .ret false, .choice 31 10, .copy 0 1, .ret true, .ret false]⟩

/-- `libfsapfs_internal_file_entry_get_attribute_values_by_utf16_name`
(libfsapfs/libfsapfs_file_entry.c:2952-3052).  Places: 0 `*attribute_values`, 1
`safe_attribute_values`, 2 `result`. -/
def internal_file_entry_get_attribute_values_by_utf16_name : Fn :=
  ⟨[arg, loc, loc],
   [.choice 1 2, .lend 0, .setn 2 1, .choice 4 5, .ret false, .choice 6 8, .choice 8 7, .ret false,
    .choice 10 9, .ret false, .choice 11 33, .choice 12 14, .lend 1, .goto 17, .choice 15 16,
    .lend 1, .ret false, .use 1, .choice 19 21, .setn 2 2, .goto 25, .choice 22 24, .setn 2 1,
    .goto 25, .setn 2 0, .testn 2 0 29 26, .testn 2 1 30 27, .testn 2 2 30 28, .choice 29 30,
    .ret false, .choice 31 10, .copy 0 1, .ret true, .ret false]⟩

/-- `libfsapfs_file_entry_has_extended_attribute_by_utf8_name`
(libfsapfs/libfsapfs_file_entry.c:3057-3130).  Places: 0 `attribute_values`, 1 `result`. -/
def file_entry_has_extended_attribute_by_utf8_name : Fn :=
  ⟨[loc, loc],
   [.setn 1 1, .choice 2 3, .ret false, .choice 5 4, .ret false, .choice 6 9, .lend 0, .setn 1 2,
    .goto 21, .choice 10 13, .lend 0, .setn 1 1, .goto 21, .choice 14 17, .lend 0, .setn 1 0,
    .goto 21, .choice 18 20, .setn 1 1, .goto 21, .setn 1 0, .testn 1 0 25 22, .testn 1 1 26 23,
    .testn 1 2 26 24, .choice 25 26, .setn 1 0, .choice 28 27, .ret false, .testn 1 2 29 30,
    .ret true, .ret false]⟩

/-- `libfsapfs_file_entry_has_extended_attribute_by_utf16_name`
(libfsapfs/libfsapfs_file_entry.c:3135-3208).  Places: 0 `attribute_values`, 1 `result`. -/
def file_entry_has_extended_attribute_by_utf16_name : Fn :=
  ⟨[loc, loc],
   [.setn 1 1, .choice 2 3, .ret false, .choice 5 4, .ret false, .choice 6 9, .lend 0, .setn 1 2,
    .goto 21, .choice 10 13, .lend 0, .setn 1 1, .goto 21, .choice 14 17, .lend 0, .setn 1 0,
    .goto 21, .choice 18 20, .setn 1 1, .goto 21, .setn 1 0, .testn 1 0 25 22, .testn 1 1 26 23,
    .testn 1 2 26 24, .choice 25 26, .setn 1 0, .choice 28 27, .ret false, .testn 1 2 29 30,
    .ret true, .ret false]⟩

/-- `libfsapfs_file_entry_get_extended_attribute_by_utf8_name`
(libfsapfs/libfsapfs_file_entry.c:3213-3331).  Places: 0 `*extended_attribute`, 1
`attribute_values`, 2 `*extended_attribute at the start`, 3 `result`. -/
def file_entry_get_extended_attribute_by_utf8_name : Fn :=
  ⟨[out, loc, loc, loc],
   [.choice 1 4, .lend 0, .setn 2 2, .goto 5, .setn 2 1, .setn 3 1, .choice 7 10, .testn 2 1 8 9,
    .none 0, .ret false, .choice 11 15, .test 0 12 65, .testn 2 1 13 14, .none 0, .ret false,
    .test 0 19 16, .testn 2 1 17 18, .none 0, .ret false, .choice 23 20, .testn 2 1 21 22, .none 0,
    .ret false, .choice 24 27, .lend 1, .setn 3 2, .goto 39, .choice 28 31, .lend 1, .setn 3 1,
    .goto 39, .choice 32 35, .lend 1, .setn 3 0, .goto 39, .choice 36 38, .setn 3 1, .goto 39,
    .setn 3 0, .testn 3 0 43 40, .testn 3 1 45 41, .testn 3 2 45 42, .choice 43 45, .setn 3 0,
    .goto 55, .testn 3 0 49 46, .testn 3 1 55 47, .testn 3 2 49 48, .choice 49 55, .use 1,
    .choice 51 54, .test 0 52 65, .fresh 0, .goto 55, .setn 3 0, .choice 59 56, .testn 2 1 57 58,
    .none 0, .ret false, .testn 3 2 60 62, .live 0, .ret true, .testn 2 1 63 64, .none 0,
    .ret false, .goto 65]⟩

/-- `libfsapfs_file_entry_get_extended_attribute_by_utf16_name`
(libfsapfs/libfsapfs_file_entry.c:3336-3454).  Places: 0 `*extended_attribute`, 1
`attribute_values`, 2 `*extended_attribute at the start`, 3 `result`. -/
def file_entry_get_extended_attribute_by_utf16_name : Fn :=
  ⟨[out, loc, loc, loc],
   [.choice 1 4, .lend 0, .setn 2 2, .goto 5, .setn 2 1, .setn 3 1, .choice 7 10, .testn 2 1 8 9,
    .none 0, .ret false, .choice 11 15, .test 0 12 65, .testn 2 1 13 14, .none 0, .ret false,
    .test 0 19 16, .testn 2 1 17 18, .none 0, .ret false, .choice 23 20, .testn 2 1 21 22, .none 0,
    .ret false, .choice 24 27, .lend 1, .setn 3 2, .goto 39, .choice 28 31, .lend 1, .setn 3 1,
    .goto 39, .choice 32 35, .lend 1, .setn 3 0, .goto 39, .choice 36 38, .setn 3 1, .goto 39,
    .setn 3 0, .testn 3 0 43 40, .testn 3 1 45 41, .testn 3 2 45 42, .choice 43 45, .setn 3 0,
    .goto 55, .testn 3 0 49 46, .testn 3 1 55 47, .testn 3 2 49 48, .choice 49 55, .use 1,
    .choice 51 54, .test 0 52 65, .fresh 0, .goto 55, .setn 3 0, .choice 59 56, .testn 2 1 57 58,
    .none 0, .ret false, .testn 3 2 60 62, .live 0, .ret true, .testn 2 1 63 64, .none 0,
    .ret false, .goto 65]⟩

/-- `libfsapfs_internal_file_entry_get_directory_entries`
(libfsapfs/libfsapfs_file_entry.c:3459-3547).  Places: 0 `internal_file_entry`, 1
`internal_file_entry->directory_entries`, 2 `internal_file_entry->members at the start`, 3
`result`. -/
def internal_file_entry_get_directory_entries : Fn :=
  ⟨[loc, own 0, part 0, loc],
   [.choice 1 2, .lend 0, .test 0 8 3, .choice 4 6, .setn 2 1, .goto 8, .setn 2 2, .maybe 1,
    .setn 3 1, .test 0 10 13, .testn 2 1 11 12, .none 1, .ret false, .deref 0, .test 1 18 15,
    .testn 2 1 16 17, .none 1, .ret false, .deref 0, .choice 20 38, .deref 0, .choice 22 38,
    .test 1 23 46, .fresh 1, .deref 0, .use 1, .choice 27 29, .setn 3 2, .goto 33, .choice 30 32,
    .setn 3 1, .goto 33, .setn 3 0, .testn 3 0 38 34, .testn 3 1 37 35, .testn 3 2 37 36,
    .choice 38 37, .ret true, .deref 0, .test 1 43 40, .deref 0, .kill 1, .null 1, .testn 2 1 44 45,
    .none 1, .ret false, .goto 46]⟩

/-- `libfsapfs_file_entry_get_number_of_sub_file_entries`
(libfsapfs/libfsapfs_file_entry.c:3552-3638).  Places: 0 `result`. -/
def file_entry_get_number_of_sub_file_entries : Fn :=
  ⟨[loc],
   [.setn 0 2, .choice 2 3, .ret false, .choice 5 4, .ret false, .choice 6 8, .choice 8 7,
    .setn 0 0, .testn 0 0 14 9, .testn 0 1 12 10, .testn 0 2 12 11, .choice 12 14, .choice 14 13,
    .setn 0 0, .choice 16 15, .ret false, .testn 0 2 17 18, .ret true, .ret false]⟩

/-- `libfsapfs_file_entry_get_sub_file_entry_by_index`
(libfsapfs/libfsapfs_file_entry.c:3643-3848).  Places: 0 `*sub_file_entry`, 1 `directory_record`, 2
`directory_record_copy`, 3 `inode`, 4 `*sub_file_entry at the start`. -/
def file_entry_get_sub_file_entry_by_index : Fn :=
  ⟨[out, loc, loc, loc, loc],
   [.choice 1 4, .lend 0, .setn 4 2, .goto 5, .setn 4 1, .choice 6 9, .testn 4 1 7 8, .none 0,
    .ret false, .choice 10 14, .test 0 11 65, .testn 4 1 12 13, .none 0, .ret false, .test 0 18 15,
    .testn 4 1 16 17, .none 0, .ret false, .choice 22 19, .testn 4 1 20 21, .none 0, .ret false,
    .choice 23 24, .choice 24 56, .choice 25 27, .lend 1, .goto 30, .choice 28 56, .lend 1,
    .goto 56, .use 1, .choice 32 56, .choice 33 56, .test 3 34 65, .fresh 3, .use 1, .choice 37 56,
    .test 2 38 65, .maybe 2, .use 3, .use 2, .choice 42 56, .test 0 43 65, .fresh 0, .give 3,
    .give 2, .null 3, .null 2, .choice 54 49, .kill 0, .null 0, .testn 4 1 52 53, .none 0,
    .ret false, .live 0, .ret true, .test 2 59 57, .kill 2, .null 2, .test 3 62 60, .kill 3,
    .null 3, .testn 4 1 63 64, .none 0, .ret false, .goto 65]⟩

/-- `libfsapfs_file_entry_get_sub_file_entry_by_utf8_name`
(libfsapfs/libfsapfs_file_entry.c:3853-4016).  Places: 0 `*sub_file_entry`, 1 `directory_record`, 2
`inode`, 3 `*sub_file_entry at the start`, 4 `result`. -/
def file_entry_get_sub_file_entry_by_utf8_name : Fn :=
  ⟨[out, loc, loc, loc, loc],
   [.choice 1 4, .lend 0, .setn 3 2, .goto 5, .setn 3 1, .setn 4 1, .choice 7 10, .testn 3 1 8 9,
    .none 0, .ret false, .choice 11 15, .test 0 12 71, .testn 3 1 13 14, .none 0, .ret false,
    .test 0 19 16, .testn 3 1 17 18, .none 0, .ret false, .choice 23 20, .testn 3 1 21 22, .none 0,
    .ret false, .choice 24 62, .choice 25 31, .test 2 26 71, .fresh 2, .test 1 28 71, .maybe 1,
    .setn 4 2, .goto 35, .choice 32 34, .setn 4 1, .goto 35, .setn 4 0, .testn 4 0 62 36,
    .testn 4 1 39 37, .testn 4 2 39 38, .choice 62 39, .testn 4 0 43 40, .testn 4 1 50 41,
    .testn 4 2 43 42, .choice 43 50, .use 2, .use 1, .choice 46 62, .test 0 47 71, .fresh 0,
    .give 2, .give 1, .choice 56 51, .kill 0, .null 0, .testn 3 1 54 55, .none 0, .ret false,
    .testn 4 2 57 59, .live 0, .ret true, .testn 3 1 60 61, .none 0, .ret false, .test 1 65 63,
    .kill 1, .null 1, .test 2 68 66, .kill 2, .null 2, .testn 3 1 69 70, .none 0, .ret false,
    .goto 71]⟩

/-- `libfsapfs_file_entry_get_sub_file_entry_by_utf16_name`
(libfsapfs/libfsapfs_file_entry.c:4021-4184).  Places: 0 `*sub_file_entry`, 1 `directory_record`, 2
`inode`, 3 `*sub_file_entry at the start`, 4 `result`. -/
def file_entry_get_sub_file_entry_by_utf16_name : Fn :=
  ⟨[out, loc, loc, loc, loc],
   [.choice 1 4, .lend 0, .setn 3 2, .goto 5, .setn 3 1, .setn 4 1, .choice 7 10, .testn 3 1 8 9,
    .none 0, .ret false, .choice 11 15, .test 0 12 71, .testn 3 1 13 14, .none 0, .ret false,
    .test 0 19 16, .testn 3 1 17 18, .none 0, .ret false, .choice 23 20, .testn 3 1 21 22, .none 0,
    .ret false, .choice 24 62, .choice 25 31, .test 2 26 71, .fresh 2, .test 1 28 71, .maybe 1,
    .setn 4 2, .goto 35, .choice 32 34, .setn 4 1, .goto 35, .setn 4 0, .testn 4 0 62 36,
    .testn 4 1 39 37, .testn 4 2 39 38, .choice 62 39, .testn 4 0 43 40, .testn 4 1 50 41,
    .testn 4 2 43 42, .choice 43 50, .use 2, .use 1, .choice 46 62, .test 0 47 71, .fresh 0,
    .give 2, .give 1, .choice 56 51, .kill 0, .null 0, .testn 3 1 54 55, .none 0, .ret false,
    .testn 4 2 57 59, .live 0, .ret true, .testn 3 1 60 61, .none 0, .ret false, .test 1 65 63,
    .kill 1, .null 1, .test 2 68 66, .kill 2, .null 2, .testn 3 1 69 70, .none 0, .ret false,
    .goto 71]⟩

/-- `libfsapfs_internal_file_entry_get_file_extents` (libfsapfs/libfsapfs_file_entry.c:4189-4277).
Places: 0 `internal_file_entry`, 1 `internal_file_entry->file_extents`, 2
`internal_file_entry->members at the start`, 3 `result`. -/
def internal_file_entry_get_file_extents : Fn :=
  ⟨[loc, own 0, part 0, loc],
   [.choice 1 2, .lend 0, .test 0 8 3, .choice 4 6, .setn 2 1, .goto 8, .setn 2 2, .maybe 1,
    .setn 3 1, .test 0 10 13, .testn 2 1 11 12, .none 1, .ret false, .deref 0, .test 1 18 15,
    .testn 2 1 16 17, .none 1, .ret false, .deref 0, .choice 20 38, .deref 0, .choice 22 38,
    .test 1 23 46, .fresh 1, .deref 0, .use 1, .choice 27 29, .setn 3 2, .goto 33, .choice 30 32,
    .setn 3 1, .goto 33, .setn 3 0, .testn 3 0 38 34, .testn 3 1 37 35, .testn 3 2 37 36,
    .choice 38 37, .ret true, .deref 0, .test 1 43 40, .deref 0, .kill 1, .null 1, .testn 2 1 44 45,
    .none 1, .ret false, .goto 46]⟩

/-- `libfsapfs_internal_file_entry_get_data_stream` (libfsapfs/libfsapfs_file_entry.c:4282-4515).
Places: 0 `compressed_data_stream`, 1 `internal_file_entry`, 2 `internal_file_entry->data_stream`,
3 `internal_file_entry->members at the start`. -/
def internal_file_entry_get_data_stream : Fn :=
  ⟨[loc, loc, own 1, part 1],
   [.choice 1 2, .lend 1, .test 1 8 3, .choice 4 6, .setn 3 1, .goto 8, .setn 3 2, .maybe 2,
    .test 1 9 12, .testn 3 1 10 11, .none 2, .ret false, .deref 1, .choice 14 17, .testn 3 1 15 16,
    .none 2, .ret false, .deref 1, .test 2 22 19, .testn 3 1 20 21, .none 2, .ret false, .deref 1,
    .choice 24 26, .use 1, .choice 26 70, .deref 1, .choice 28 57, .deref 1, .choice 38 30,
    .choice 38 31, .choice 38 32, .choice 38 33, .choice 38 34, .choice 38 35, .choice 38 36,
    .deref 1, .goto 70, .deref 1, .choice 42 40, .deref 1, .choice 42 47, .deref 1, .choice 44 70,
    .none 0, .maybe 0, .goto 51, .deref 1, .choice 49 70, .none 0, .maybe 0, .deref 1, .use 0,
    .choice 54 70, .none 2, .fresh 2, .goto 69, .deref 1, .choice 59 61, .use 1, .choice 61 70,
    .deref 1, .choice 63 70, .deref 1, .choice 65 70, .deref 1, .choice 67 70, .none 2, .fresh 2,
    .ret true, .deref 1, .test 2 75 72, .deref 1, .kill 2, .null 2, .testn 3 1 76 77, .none 2,
    .ret false]⟩

/-- `libfsapfs_file_entry_get_offset` (libfsapfs/libfsapfs_file_entry.c:4811-4897).  Places: 0
`result`. -/
def file_entry_get_offset : Fn :=
  ⟨[loc],
   [.setn 0 2, .choice 2 3, .ret false, .choice 5 4, .ret false, .choice 6 8, .choice 8 7,
    .setn 0 0, .testn 0 0 14 9, .testn 0 1 12 10, .testn 0 2 12 11, .choice 12 14, .choice 14 13,
    .setn 0 0, .choice 16 15, .ret false, .testn 0 2 17 18, .ret true, .ret false]⟩

/-- `libfsapfs_internal_file_entry_get_data_size` (libfsapfs/libfsapfs_file_entry.c:4902-5104).
Places: 0 `data_stream`, 1 `internal_file_entry`, 2 `internal_file_entry->compressed_data_header`,
3 `internal_file_entry->members at the start`, 4 `result`. -/
def internal_file_entry_get_data_size : Fn :=
  ⟨[loc, loc, own 1, part 1, loc],
   [.choice 1 2, .lend 1, .test 1 8 3, .choice 4 6, .setn 3 1, .goto 8, .setn 3 2, .maybe 2,
    .setn 4 1, .test 1 10 13, .testn 3 1 11 12, .none 2, .ret false, .deref 1, .test 2 18 15,
    .testn 3 1 16 17, .none 2, .ret false, .deref 1, .choice 20 23, .testn 3 1 21 22, .none 2,
    .ret false, .deref 1, .choice 25 30, .use 1, .choice 30 27, .testn 3 1 28 29, .none 2,
    .ret false, .deref 1, .choice 32 72, .deref 1, .choice 34 83, .none 0, .maybe 0, .deref 1,
    .use 0, .deref 1, .choice 40 43, .testn 3 1 41 42, .none 2, .ret false, .kill 0, .null 0,
    .choice 46 83, .deref 1, .choice 48 83, .test 2 49 94, .fresh 2, .deref 1, .use 2,
    .choice 53 55, .setn 4 2, .goto 59, .choice 56 58, .setn 4 1, .goto 59, .setn 4 0,
    .testn 4 0 83 60, .testn 4 1 63 61, .testn 4 2 63 62, .choice 83 63, .testn 4 0 67 64,
    .testn 4 1 69 65, .testn 4 2 67 66, .choice 67 69, .deref 1, .goto 72, .deref 1, .kill 2,
    .null 2, .testn 4 0 81 73, .testn 4 1 76 74, .testn 4 2 81 75, .choice 76 81, .deref 1,
    .choice 81 78, .testn 3 1 79 80, .none 2, .ret false, .deref 1, .ret true, .test 0 86 84,
    .kill 0, .null 0, .deref 1, .test 2 91 88, .deref 1, .kill 2, .null 2, .testn 3 1 92 93,
    .none 2, .ret false, .goto 94]⟩

/-- `libfsapfs_file_entry_get_size` (libfsapfs/libfsapfs_file_entry.c:5109-5193).  Places: 0
`result`. -/
def file_entry_get_size : Fn :=
  ⟨[loc],
   [.setn 0 2, .choice 2 3, .ret false, .choice 4 5, .ret false, .choice 7 6, .ret false,
    .choice 8 10, .choice 10 9, .setn 0 0, .choice 12 11, .ret false, .testn 0 2 13 14, .ret true,
    .ret false]⟩

/-- `libfsapfs_file_entry_get_number_of_extents` (libfsapfs/libfsapfs_file_entry.c:5198-5284).
Places: 0 `result`. -/
def file_entry_get_number_of_extents : Fn :=
  ⟨[loc],
   [.setn 0 2, .choice 2 3, .ret false, .choice 5 4, .ret false, .choice 6 8, .choice 8 7,
    .setn 0 0, .testn 0 0 14 9, .testn 0 1 12 10, .testn 0 2 12 11, .choice 12 14, .choice 14 13,
    .setn 0 0, .choice 16 15, .ret false, .testn 0 2 17 18, .ret true, .ret false]⟩

/-- `libfsapfs_file_entry_get_extent_by_index` (libfsapfs/libfsapfs_file_entry.c:5289-5443).
Places: 0 `file_extent`, 1 `result`. -/
def file_entry_get_extent_by_index : Fn :=
  ⟨[loc, loc],
   [.setn 1 2, .choice 2 3, .ret false, .choice 4 5, .ret false, .choice 6 7, .ret false,
    .choice 8 9, .ret false, .choice 10 11, .ret false, .choice 13 12, .ret false, .choice 14 16,
    .choice 16 15, .setn 1 0, .testn 1 0 32 17, .testn 1 1 20 18, .testn 1 2 20 19, .choice 20 32,
    .choice 21 23, .lend 0, .goto 27, .choice 24 25, .lend 0, .setn 1 0, .goto 32, .test 0 28 30,
    .setn 1 0, .goto 32, .deref 0, .deref 0, .choice 34 33, .ret false, .testn 1 2 35 36, .ret true,
    .ret false]⟩

/-- The functions of libfsapfs/libfsapfs_file_entry.c. -/
def in_file_entry : List (String × Fn) :=
  [("libfsapfs_file_entry_initialize", file_entry_initialize),
   ("libfsapfs_file_entry_free", file_entry_free),
   ("libfsapfs_file_entry_get_identifier", file_entry_get_identifier),
   ("libfsapfs_file_entry_get_parent_identifier", file_entry_get_parent_identifier),
   ("libfsapfs_file_entry_get_parent_file_entry", file_entry_get_parent_file_entry),
   ("libfsapfs_file_entry_get_creation_time", file_entry_get_creation_time),
   ("libfsapfs_file_entry_get_modification_time", file_entry_get_modification_time),
   ("libfsapfs_file_entry_get_access_time", file_entry_get_access_time),
   ("libfsapfs_file_entry_get_inode_change_time", file_entry_get_inode_change_time),
   ("libfsapfs_file_entry_get_added_time", file_entry_get_added_time),
   ("libfsapfs_file_entry_get_owner_identifier", file_entry_get_owner_identifier),
   ("libfsapfs_file_entry_get_group_identifier", file_entry_get_group_identifier),
   ("libfsapfs_file_entry_get_device_identifier", file_entry_get_device_identifier),
   ("libfsapfs_file_entry_get_device_number", file_entry_get_device_number),
   ("libfsapfs_file_entry_get_file_mode", file_entry_get_file_mode),
   ("libfsapfs_file_entry_get_number_of_links", file_entry_get_number_of_links),
   ("libfsapfs_file_entry_get_utf8_name_size", file_entry_get_utf8_name_size),
   ("libfsapfs_file_entry_get_utf8_name", file_entry_get_utf8_name),
   ("libfsapfs_file_entry_get_utf16_name_size", file_entry_get_utf16_name_size),
   ("libfsapfs_file_entry_get_utf16_name", file_entry_get_utf16_name),
   ("libfsapfs_internal_file_entry_get_extended_attributes", internal_file_entry_get_extended_attributes),
   ("libfsapfs_internal_file_entry_get_symbolic_link_data", internal_file_entry_get_symbolic_link_data),
   ("libfsapfs_file_entry_get_utf8_symbolic_link_target_size", file_entry_get_utf8_symbolic_link_target_size),
   ("libfsapfs_file_entry_get_utf8_symbolic_link_target", file_entry_get_utf8_symbolic_link_target),
   ("libfsapfs_file_entry_get_utf16_symbolic_link_target_size", file_entry_get_utf16_symbolic_link_target_size),
   ("libfsapfs_file_entry_get_utf16_symbolic_link_target", file_entry_get_utf16_symbolic_link_target),
   ("libfsapfs_file_entry_get_number_of_extended_attributes", file_entry_get_number_of_extended_attributes),
   ("libfsapfs_file_entry_get_extended_attribute_by_index", file_entry_get_extended_attribute_by_index),
   ("libfsapfs_internal_file_entry_get_attribute_values_by_utf8_name", internal_file_entry_get_attribute_values_by_utf8_name),
   ("libfsapfs_internal_file_entry_get_attribute_values_by_utf16_name", internal_file_entry_get_attribute_values_by_utf16_name),
   ("libfsapfs_file_entry_has_extended_attribute_by_utf8_name", file_entry_has_extended_attribute_by_utf8_name),
   ("libfsapfs_file_entry_has_extended_attribute_by_utf16_name", file_entry_has_extended_attribute_by_utf16_name),
   ("libfsapfs_file_entry_get_extended_attribute_by_utf8_name", file_entry_get_extended_attribute_by_utf8_name),
   ("libfsapfs_file_entry_get_extended_attribute_by_utf16_name", file_entry_get_extended_attribute_by_utf16_name),
   ("libfsapfs_internal_file_entry_get_directory_entries", internal_file_entry_get_directory_entries),
   ("libfsapfs_file_entry_get_number_of_sub_file_entries", file_entry_get_number_of_sub_file_entries),
   ("libfsapfs_file_entry_get_sub_file_entry_by_index", file_entry_get_sub_file_entry_by_index),
   ("libfsapfs_file_entry_get_sub_file_entry_by_utf8_name", file_entry_get_sub_file_entry_by_utf8_name),
   ("libfsapfs_file_entry_get_sub_file_entry_by_utf16_name", file_entry_get_sub_file_entry_by_utf16_name),
   ("libfsapfs_internal_file_entry_get_file_extents", internal_file_entry_get_file_extents),
   ("libfsapfs_internal_file_entry_get_data_stream", internal_file_entry_get_data_stream),
   ("libfsapfs_file_entry_get_offset", file_entry_get_offset),
   ("libfsapfs_internal_file_entry_get_data_size", internal_file_entry_get_data_size),
   ("libfsapfs_file_entry_get_size", file_entry_get_size),
   ("libfsapfs_file_entry_get_number_of_extents", file_entry_get_number_of_extents),
   ("libfsapfs_file_entry_get_extent_by_index", file_entry_get_extent_by_index)]

end Verif.Owner.Lib
