import Verif.Model.Ownership

/-
What the functions of low level structures do with memory: see Ownership.lean for what the
instructions mean and DESIGN.md for how they were made from the source.  The build with threads
(HAVE_LIBFSAPFS_MULTI_THREAD_SUPPORT).
-/

namespace Verif.Owner.Lib

/-- `libfsapfs_attribute_values_initialize` (libfsapfs/libfsapfs_attribute_values.c:41-111).
Places: 0 `*attribute_values`, 1 `*attribute_values->name`, 2 `*attribute_values->value_data`, 3
`*attribute_values->value_data_file_extents`, 4 `*attribute_values at the start`. -/
def attribute_values_initialize : Fn :=
  ⟨[out, own 0, own 0, own 0, loc],
   [.choice 1 4, .lend 0, .setn 4 2, .goto 5, .setn 4 1, .test 0 9 6, .maybe 1, .maybe 2, .maybe 3,
    .choice 10 14, .test 0 11 56, .testn 4 1 12 13, .none 0, .ret false, .test 0 18 15,
    .testn 4 1 16 17, .none 0, .ret false, .forget 3, .null 3, .forget 2, .null 2, .forget 1,
    .null 1, .choice 25 33, .fresh 0, .fresh 1, .kill 1, .fresh 2, .kill 2, .fresh 3, .kill 3,
    .goto 34, .null 0, .test 0 41 35, .use 0, .null 1, .null 2, .null 3, .live 0, .ret true,
    .test 0 53 42, .kill 0, .null 1, .null 2, .null 3, .forget 3, .null 3, .forget 2, .null 2,
    .forget 1, .null 1, .null 0, .testn 4 1 54 55, .none 0, .ret false, .goto 56]⟩

/-- `libfsapfs_attribute_values_free` (libfsapfs/libfsapfs_attribute_values.c:116-169).  Places: 0
`*attribute_values`, 1 `*attribute_values->name`, 2 `*attribute_values->value_data`, 3
`*attribute_values->value_data_file_extents`, 4 `result`. -/
def attribute_values_free : Fn :=
  ⟨[arg, own 0, own 0, own 0, loc],
   [.maybe 0, .test 0 5 2, .maybe 1, .maybe 2, .maybe 3, .setn 4 2, .choice 7 9, .test 0 8 39,
    .ret false, .test 0 36 10, .deref 0, .test 3 17 12, .deref 0, .kill 3, .null 3, .choice 17 16,
    .setn 4 0, .deref 0, .test 2 21 19, .deref 0, .kill 2, .deref 0, .test 1 25 23, .deref 0,
    .kill 1, .kill 0, .null 1, .null 2, .null 3, .forget 3, .null 3, .forget 2, .null 2, .forget 1,
    .null 1, .null 0, .testn 4 2 37 38, .ret true, .ret false, .goto 39]⟩

/-- `libfsapfs_attribute_values_read_key_data` (libfsapfs/libfsapfs_attribute_values.c:174-336).
Places: 0 `attribute_values`, 1 `attribute_values->name`, 2 `attribute_values->members at the
start`. -/
def attribute_values_read_key_data : Fn :=
  ⟨[loc, own 0, part 0],
   [.choice 1 2, .lend 0, .test 0 8 3, .choice 4 6, .setn 2 1, .goto 8, .setn 2 2, .maybe 1,
    .test 0 9 12, .testn 2 1 10 11, .none 1, .ret false, .deref 0, .test 1 17 14, .testn 2 1 15 16,
    .none 1, .ret false, .choice 18 21, .testn 2 1 19 20, .none 1, .ret false, .choice 23 22,
    .choice 23 26, .testn 2 1 24 25, .none 1, .ret false, .choice 39 27, .choice 39 28, .deref 0,
    .choice 30 32, .fresh 1, .goto 33, .null 1, .deref 0, .test 1 39 35, .deref 0, .deref 0, .use 1,
    .ret true, .deref 0, .test 1 45 41, .deref 0, .kill 1, .deref 0, .null 1, .deref 0,
    .testn 2 1 47 48, .none 1, .ret false]⟩

/-- `libfsapfs_attribute_values_read_value_data` (libfsapfs/libfsapfs_attribute_values.c:341-589).
Places: 0 `attribute_values`, 1 `attribute_values->value_data`, 2 `attribute_values->members at the
start`. -/
def attribute_values_read_value_data : Fn :=
  ⟨[loc, own 0, part 0],
   [.choice 1 2, .lend 0, .test 0 8 3, .choice 4 6, .setn 2 1, .goto 8, .setn 2 2, .maybe 1,
    .test 0 9 12, .testn 2 1 10 11, .none 1, .ret false, .deref 0, .test 1 17 14, .testn 2 1 15 16,
    .none 1, .ret false, .choice 18 21, .testn 2 1 19 20, .none 1, .ret false, .choice 23 22,
    .choice 23 26, .testn 2 1 24 25, .none 1, .ret false, .deref 0, .choice 28 29, .choice 49 29,
    .deref 0, .choice 31 35, .choice 49 32, .deref 0, .deref 0, .goto 48, .deref 0, .choice 37 48,
    .choice 38 48, .deref 0, .choice 40 42, .fresh 1, .goto 43, .null 1, .deref 0, .test 1 49 45,
    .deref 0, .deref 0, .use 1, .ret true, .deref 0, .test 1 55 51, .deref 0, .kill 1, .deref 0,
    .null 1, .deref 0, .testn 2 1 57 58, .none 1, .ret false]⟩

/-- `libfsapfs_attribute_values_compare_name_with_utf8_string`
(libfsapfs/libfsapfs_attribute_values.c:594-633).  Places: 0 `result`. -/
def attribute_values_compare_name_with_utf8_string : Fn :=
  ⟨[loc],
   [.setn 0 1, .choice 2 3, .ret false, .choice 4 6, .setn 0 2, .goto 10, .choice 7 9, .setn 0 1,
    .goto 10, .setn 0 0, .testn 0 0 14 11, .testn 0 1 15 12, .testn 0 2 15 13, .choice 14 15,
    .ret false, .testn 0 2 16 17, .ret true, .ret false]⟩

/-- `libfsapfs_attribute_values_compare_name_with_utf16_string`
(libfsapfs/libfsapfs_attribute_values.c:720-759).  Places: 0 `result`. -/
def attribute_values_compare_name_with_utf16_string : Fn :=
  ⟨[loc],
   [.setn 0 1, .choice 2 3, .ret false, .choice 4 6, .setn 0 2, .goto 10, .choice 7 9, .setn 0 1,
    .goto 10, .setn 0 0, .testn 0 0 14 11, .testn 0 1 15 12, .testn 0 2 15 13, .choice 14 15,
    .ret false, .testn 0 2 16 17, .ret true, .ret false]⟩

/-- `libfsapfs_attribute_values_get_extent_by_index`
(libfsapfs/libfsapfs_attribute_values.c:902-938).  Places: 0 `*file_extent`. -/
def attribute_values_get_extent_by_index : Fn :=
  ⟨[arg],
   [.choice 1 2, .lend 0, .choice 3 4, .ret false, .choice 5 7, .lend 0, .goto 10, .choice 8 9,
    .lend 0, .ret false, .ret true]⟩

/-- The functions of libfsapfs/libfsapfs_attribute_values.c. -/
def in_attribute_values : List (String × Fn) :=
  [("libfsapfs_attribute_values_initialize", attribute_values_initialize),
   ("libfsapfs_attribute_values_free", attribute_values_free),
   ("libfsapfs_attribute_values_read_key_data", attribute_values_read_key_data),
   ("libfsapfs_attribute_values_read_value_data", attribute_values_read_value_data),
   ("libfsapfs_attribute_values_compare_name_with_utf8_string", attribute_values_compare_name_with_utf8_string),
   ("libfsapfs_attribute_values_compare_name_with_utf16_string", attribute_values_compare_name_with_utf16_string),
   ("libfsapfs_attribute_values_get_extent_by_index", attribute_values_get_extent_by_index)]

/-- `libfsapfs_attributes_get_file_extents` (libfsapfs/libfsapfs_attributes.c:40-116).  Places: 0
`attribute_values`, 1 `attribute_values->value_data_file_extents`, 2 `attribute_values->members at
the start`, 3 `result`. -/
def attributes_get_file_extents : Fn :=
  ⟨[loc, own 0, part 0, loc],
   [.choice 1 2, .lend 0, .test 0 8 3, .choice 4 6, .setn 2 1, .goto 8, .setn 2 2, .maybe 1,
    .setn 3 1, .test 0 10 13, .testn 2 1 11 12, .none 1, .ret false, .deref 0, .test 1 18 15,
    .testn 2 1 16 17, .none 1, .ret false, .deref 0, .choice 20 36, .test 1 21 44, .fresh 1,
    .deref 0, .use 1, .choice 25 27, .setn 3 2, .goto 31, .choice 28 30, .setn 3 1, .goto 31,
    .setn 3 0, .testn 3 0 36 32, .testn 3 1 35 33, .testn 3 2 35 34, .choice 36 35, .ret true,
    .deref 0, .test 1 41 38, .deref 0, .kill 1, .null 1, .testn 2 1 42 43, .none 1, .ret false,
    .goto 44]⟩

/-- `libfsapfs_attributes_get_data_stream` (libfsapfs/libfsapfs_attributes.c:121-203).  Places: 0
`*data_stream`. -/
def attributes_get_data_stream : Fn :=
  ⟨[out],
   [.choice 1 3, .none 0, .ret false, .choice 4 14, .choice 5 8, .choice 8 6, .none 0, .ret false,
    .choice 9 12, .none 0, .fresh 0, .goto 21, .none 0, .ret false, .choice 15 21, .choice 16 19,
    .none 0, .fresh 0, .goto 21, .none 0, .ret false, .held 0, .ret true]⟩

/-- The functions of libfsapfs/libfsapfs_attributes.c. -/
def in_attributes : List (String × Fn) :=
  [("libfsapfs_attributes_get_file_extents", attributes_get_file_extents),
   ("libfsapfs_attributes_get_data_stream", attributes_get_data_stream)]

/-- `libfsapfs_bit_stream_initialize` (libfsapfs/libfsapfs_bit_stream.c:35-156).  Places: 0
`*bit_stream`, 1 `*bit_stream at the start`. -/
def bit_stream_initialize : Fn :=
  ⟨[out, loc],
   [.choice 1 4, .lend 0, .setn 1 2, .goto 5, .setn 1 1, .choice 6 10, .test 0 7 49, .testn 1 1 8 9,
    .none 0, .ret false, .test 0 14 11, .testn 1 1 12 13, .none 0, .ret false, .choice 15 18,
    .testn 1 1 16 17, .none 0, .ret false, .choice 19 22, .testn 1 1 20 21, .none 0, .ret false,
    .choice 23 26, .testn 1 1 24 25, .none 0, .ret false, .choice 27 31, .choice 28 31,
    .testn 1 1 29 30, .none 0, .ret false, .choice 32 34, .fresh 0, .goto 35, .null 0,
    .test 0 43 36, .use 0, .deref 0, .deref 0, .deref 0, .deref 0, .live 0, .ret true,
    .test 0 46 44, .kill 0, .null 0, .testn 1 1 47 48, .none 0, .ret false, .goto 49]⟩

/-- `libfsapfs_bit_stream_free` (libfsapfs/libfsapfs_bit_stream.c:161-186).  Places: 0
`*bit_stream`. -/
def bit_stream_free : Fn :=
  ⟨[arg],
   [.maybe 0, .choice 2 4, .test 0 3 8, .ret false, .test 0 7 5, .kill 0, .null 0, .ret true,
    .goto 8]⟩

/-- The functions of libfsapfs/libfsapfs_bit_stream.c. -/
def in_bit_stream : List (String × Fn) :=
  [("libfsapfs_bit_stream_initialize", bit_stream_initialize),
   ("libfsapfs_bit_stream_free", bit_stream_free)]

/-- `libfsapfs_btree_entry_initialize` (libfsapfs/libfsapfs_btree_entry.c:38-105).  Places: 0
`*btree_entry`, 1 `*btree_entry->key_data`, 2 `*btree_entry->value_data`, 3 `*btree_entry at the
start`. -/
def btree_entry_initialize : Fn :=
  ⟨[out, own 0, own 0, loc],
   [.choice 1 4, .lend 0, .setn 3 2, .goto 5, .setn 3 1, .test 0 8 6, .maybe 1, .maybe 2,
    .choice 9 13, .test 0 10 47, .testn 3 1 11 12, .none 0, .ret false, .test 0 17 14,
    .testn 3 1 15 16, .none 0, .ret false, .forget 2, .null 2, .forget 1, .null 1, .choice 22 28,
    .fresh 0, .fresh 1, .kill 1, .fresh 2, .kill 2, .goto 29, .null 0, .test 0 35 30, .use 0,
    .null 1, .null 2, .live 0, .ret true, .test 0 44 36, .kill 0, .null 1, .null 2, .forget 2,
    .null 2, .forget 1, .null 1, .null 0, .testn 3 1 45 46, .none 0, .ret false, .goto 47]⟩

/-- `libfsapfs_btree_entry_free` (libfsapfs/libfsapfs_btree_entry.c:110-145).  Places: 0
`*btree_entry`, 1 `*btree_entry->key_data`, 2 `*btree_entry->value_data`. -/
def btree_entry_free : Fn :=
  ⟨[arg, own 0, own 0],
   [.maybe 0, .test 0 4 2, .maybe 1, .maybe 2, .choice 5 7, .test 0 6 25, .ret false, .test 0 24 8,
    .deref 0, .test 2 12 10, .deref 0, .kill 2, .deref 0, .test 1 16 14, .deref 0, .kill 1, .kill 0,
    .null 1, .null 2, .forget 2, .null 2, .forget 1, .null 1, .null 0, .ret true, .goto 25]⟩

/-- `libfsapfs_btree_entry_set_key_data` (libfsapfs/libfsapfs_btree_entry.c:150-247).  Places: 0
`btree_entry`, 1 `btree_entry->key_data`, 2 `btree_entry->members at the start`. -/
def btree_entry_set_key_data : Fn :=
  ⟨[loc, own 0, part 0],
   [.choice 1 2, .lend 0, .test 0 8 3, .choice 4 6, .setn 2 1, .goto 8, .setn 2 2, .maybe 1,
    .test 0 9 12, .testn 2 1 10 11, .none 1, .ret false, .deref 0, .test 1 17 14, .testn 2 1 15 16,
    .none 1, .ret false, .choice 18 21, .testn 2 1 19 20, .none 1, .ret false, .choice 22 36,
    .choice 23 26, .testn 2 1 24 25, .none 1, .ret false, .deref 0, .choice 28 30, .fresh 1,
    .goto 31, .null 1, .deref 0, .test 1 37 33, .deref 0, .use 1, .deref 0, .ret true, .deref 0,
    .test 1 43 39, .deref 0, .kill 1, .deref 0, .null 1, .deref 0, .testn 2 1 45 46, .none 1,
    .ret false]⟩

/-- `libfsapfs_btree_entry_set_value_data` (libfsapfs/libfsapfs_btree_entry.c:252-349).  Places: 0
`btree_entry`, 1 `btree_entry->value_data`, 2 `btree_entry->members at the start`. -/
def btree_entry_set_value_data : Fn :=
  ⟨[loc, own 0, part 0],
   [.choice 1 2, .lend 0, .test 0 8 3, .choice 4 6, .setn 2 1, .goto 8, .setn 2 2, .maybe 1,
    .test 0 9 12, .testn 2 1 10 11, .none 1, .ret false, .deref 0, .test 1 17 14, .testn 2 1 15 16,
    .none 1, .ret false, .choice 18 21, .testn 2 1 19 20, .none 1, .ret false, .choice 22 25,
    .testn 2 1 23 24, .none 1, .ret false, .choice 26 36, .deref 0, .choice 28 30, .fresh 1,
    .goto 31, .null 1, .deref 0, .test 1 37 33, .deref 0, .use 1, .deref 0, .ret true, .deref 0,
    .test 1 43 39, .deref 0, .kill 1, .deref 0, .null 1, .deref 0, .testn 2 1 45 46, .none 1,
    .ret false]⟩

/-- The functions of libfsapfs/libfsapfs_btree_entry.c. -/
def in_btree_entry : List (String × Fn) :=
  [("libfsapfs_btree_entry_initialize", btree_entry_initialize),
   ("libfsapfs_btree_entry_free", btree_entry_free),
   ("libfsapfs_btree_entry_set_key_data", btree_entry_set_key_data),
   ("libfsapfs_btree_entry_set_value_data", btree_entry_set_value_data)]

/-- `libfsapfs_btree_footer_initialize` (libfsapfs/libfsapfs_btree_footer.c:38-105).  Places: 0
`*btree_footer`, 1 `*btree_footer at the start`. -/
def btree_footer_initialize : Fn :=
  ⟨[out, loc],
   [.choice 1 4, .lend 0, .setn 1 2, .goto 5, .setn 1 1, .choice 6 10, .test 0 7 28, .testn 1 1 8 9,
    .none 0, .ret false, .test 0 14 11, .testn 1 1 12 13, .none 0, .ret false, .choice 15 17,
    .fresh 0, .goto 18, .null 0, .test 0 22 19, .use 0, .live 0, .ret true, .test 0 25 23, .kill 0,
    .null 0, .testn 1 1 26 27, .none 0, .ret false, .goto 28]⟩

/-- `libfsapfs_btree_footer_free` (libfsapfs/libfsapfs_btree_footer.c:110-135).  Places: 0
`*btree_footer`. -/
def btree_footer_free : Fn :=
  ⟨[arg],
   [.maybe 0, .choice 2 4, .test 0 3 8, .ret false, .test 0 7 5, .kill 0, .null 0, .ret true,
    .goto 8]⟩

/-- The functions of libfsapfs/libfsapfs_btree_footer.c. -/
def in_btree_footer : List (String × Fn) :=
  [("libfsapfs_btree_footer_initialize", btree_footer_initialize),
   ("libfsapfs_btree_footer_free", btree_footer_free)]

/-- `libfsapfs_btree_node_initialize` (libfsapfs/libfsapfs_btree_node.c:43-129).  Places: 0
`*btree_node`, 1 `*btree_node->entries_array`, 2 `*btree_node->footer`, 3
`*btree_node->node_header`, 4 `*btree_node at the start`. -/
def btree_node_initialize : Fn :=
  ⟨[out, own 0, own 0, own 0, loc],
   [.choice 1 4, .lend 0, .setn 4 2, .goto 5, .setn 4 1, .test 0 9 6, .maybe 1, .maybe 2, .maybe 3,
    .choice 10 14, .test 0 11 60, .testn 4 1 12 13, .none 0, .ret false, .test 0 18 15,
    .testn 4 1 16 17, .none 0, .ret false, .forget 3, .null 3, .forget 2, .null 2, .forget 1,
    .null 1, .choice 25 33, .fresh 0, .fresh 1, .kill 1, .fresh 2, .kill 2, .fresh 3, .kill 3,
    .goto 34, .null 0, .test 0 45 35, .use 0, .null 1, .null 2, .null 3, .deref 0, .choice 41 45,
    .test 1 42 60, .fresh 1, .live 0, .ret true, .test 0 57 46, .kill 0, .null 1, .null 2, .null 3,
    .forget 3, .null 3, .forget 2, .null 2, .forget 1, .null 1, .null 0, .testn 4 1 58 59, .none 0,
    .ret false, .goto 60]⟩

/-- `libfsapfs_btree_node_free` (libfsapfs/libfsapfs_btree_node.c:134-206).  Places: 0
`*btree_node`, 1 `*btree_node->entries_array`, 2 `*btree_node->footer`, 3
`*btree_node->node_header`, 4 `result`. -/
def btree_node_free : Fn :=
  ⟨[arg, own 0, own 0, own 0, loc],
   [.maybe 0, .test 0 5 2, .maybe 1, .maybe 2, .maybe 3, .setn 4 2, .choice 7 9, .test 0 8 39,
    .ret false, .test 0 36 10, .deref 0, .test 3 15 12, .deref 0, .kill 3, .null 3, .deref 0,
    .test 2 20 17, .deref 0, .kill 2, .null 2, .deref 0, .kill 1, .null 1, .choice 25 24, .setn 4 0,
    .kill 0, .null 1, .null 2, .null 3, .forget 3, .null 3, .forget 2, .null 2, .forget 1, .null 1,
    .null 0, .testn 4 2 37 38, .ret true, .ret false, .goto 39]⟩

/-- `libfsapfs_btree_node_read_data` (libfsapfs/libfsapfs_btree_node.c:211-683).  Places: 0
`btree_entry`, 1 `btree_node`, 2 `btree_node->footer`, 3 `btree_node->node_header`, 4
`btree_node->members at the start`. -/
def btree_node_read_data : Fn :=
  ⟨[loc, loc, own 1, own 1, part 1],
   [.choice 1 2, .lend 1, .test 1 9 3, .choice 4 6, .setn 4 1, .goto 9, .setn 4 2, .maybe 2,
    .maybe 3, .test 1 10 14, .testn 4 1 11 13, .none 2, .none 3, .ret false, .deref 1,
    .test 3 20 16, .testn 4 1 17 19, .none 2, .none 3, .ret false, .choice 21 25, .testn 4 1 22 24,
    .none 2, .none 3, .ret false, .choice 27 26, .choice 27 31, .testn 4 1 28 30, .none 2, .none 3,
    .ret false, .use 1, .choice 33 90, .deref 1, .choice 35 90, .test 3 36 107, .fresh 3, .deref 1,
    .use 3, .choice 40 90, .deref 1, .choice 90 42, .deref 1, .deref 1, .choice 90 45, .deref 1,
    .deref 1, .choice 90 48, .deref 1, .choice 50 57, .deref 1, .choice 52 90, .test 2 53 107,
    .fresh 2, .deref 1, .use 2, .choice 57 90, .deref 1, .deref 1, .choice 90 60, .deref 1,
    .deref 1, .deref 1, .choice 64 89, .deref 1, .choice 71 66, .deref 1, .choice 70 68, .deref 1,
    .goto 90, .deref 1, .deref 1, .choice 90 73, .choice 90 74, .choice 90 75, .choice 90 76,
    .choice 77 90, .test 0 78 107, .fresh 0, .use 0, .choice 81 90, .use 0, .choice 83 90, .deref 1,
    .use 0, .choice 86 90, .give 0, .null 0, .goto 62, .ret true, .test 0 93 91, .kill 0, .null 0,
    .deref 1, .test 2 98 95, .deref 1, .kill 2, .null 2, .deref 1, .test 3 103 100, .deref 1,
    .kill 3, .null 3, .testn 4 1 104 106, .none 2, .none 3, .ret false, .goto 107]⟩

/-- `libfsapfs_btree_node_get_entry_by_index` (libfsapfs/libfsapfs_btree_node.c:891-927).  Places:
0 `*btree_entry`. -/
def btree_node_get_entry_by_index : Fn :=
  ⟨[arg],
   [.choice 1 2, .lend 0, .choice 3 4, .ret false, .choice 5 7, .lend 0, .goto 10, .choice 8 9,
    .lend 0, .ret false, .ret true]⟩

/-- The functions of libfsapfs/libfsapfs_btree_node.c. -/
def in_btree_node : List (String × Fn) :=
  [("libfsapfs_btree_node_initialize", btree_node_initialize),
   ("libfsapfs_btree_node_free", btree_node_free),
   ("libfsapfs_btree_node_read_data", btree_node_read_data),
   ("libfsapfs_btree_node_get_entry_by_index", btree_node_get_entry_by_index)]

/-- `libfsapfs_btree_node_header_initialize` (libfsapfs/libfsapfs_btree_node_header.c:39-106).
Places: 0 `*btree_node_header`, 1 `*btree_node_header at the start`. -/
def btree_node_header_initialize : Fn :=
  ⟨[out, loc],
   [.choice 1 4, .lend 0, .setn 1 2, .goto 5, .setn 1 1, .choice 6 10, .test 0 7 28, .testn 1 1 8 9,
    .none 0, .ret false, .test 0 14 11, .testn 1 1 12 13, .none 0, .ret false, .choice 15 17,
    .fresh 0, .goto 18, .null 0, .test 0 22 19, .use 0, .live 0, .ret true, .test 0 25 23, .kill 0,
    .null 0, .testn 1 1 26 27, .none 0, .ret false, .goto 28]⟩

/-- `libfsapfs_btree_node_header_free` (libfsapfs/libfsapfs_btree_node_header.c:111-136).  Places:
0 `*btree_node_header`. -/
def btree_node_header_free : Fn :=
  ⟨[arg],
   [.maybe 0, .choice 2 4, .test 0 3 8, .ret false, .test 0 7 5, .kill 0, .null 0, .ret true,
    .goto 8]⟩

/-- The functions of libfsapfs/libfsapfs_btree_node_header.c. -/
def in_btree_node_header : List (String × Fn) :=
  [("libfsapfs_btree_node_header_initialize", btree_node_header_initialize),
   ("libfsapfs_btree_node_header_free", btree_node_header_free)]

/-- `libfsapfs_buffer_data_handle_initialize` (libfsapfs/libfsapfs_buffer_data_handle.c:34-131).
Places: 0 `*data_handle`, 1 `*data_handle at the start`. -/
def buffer_data_handle_initialize : Fn :=
  ⟨[out, loc],
   [.choice 1 4, .lend 0, .setn 1 2, .goto 5, .setn 1 1, .choice 6 10, .test 0 7 39, .testn 1 1 8 9,
    .none 0, .ret false, .test 0 14 11, .testn 1 1 12 13, .none 0, .ret false, .choice 15 19,
    .choice 16 19, .testn 1 1 17 18, .none 0, .ret false, .choice 20 23, .testn 1 1 21 22, .none 0,
    .ret false, .choice 24 26, .fresh 0, .goto 27, .null 0, .test 0 33 28, .use 0, .deref 0,
    .deref 0, .live 0, .ret true, .test 0 36 34, .kill 0, .null 0, .testn 1 1 37 38, .none 0,
    .ret false, .goto 39]⟩

/-- `libfsapfs_buffer_data_handle_free` (libfsapfs/libfsapfs_buffer_data_handle.c:136-161).
Places: 0 `*data_handle`. -/
def buffer_data_handle_free : Fn :=
  ⟨[arg],
   [.maybe 0, .choice 2 4, .test 0 3 8, .ret false, .test 0 7 5, .kill 0, .null 0, .ret true,
    .goto 8]⟩

/-- The functions of libfsapfs/libfsapfs_buffer_data_handle.c. -/
def in_buffer_data_handle : List (String × Fn) :=
  [("libfsapfs_buffer_data_handle_initialize", buffer_data_handle_initialize),
   ("libfsapfs_buffer_data_handle_free", buffer_data_handle_free)]

/-- `libfsapfs_checkpoint_map_initialize` (libfsapfs/libfsapfs_checkpoint_map.c:42-128).  Places: 0
`*checkpoint_map`, 1 `*checkpoint_map->entries_array`, 2 `*checkpoint_map at the start`. -/
def checkpoint_map_initialize : Fn :=
  ⟨[out, own 0, loc],
   [.choice 1 4, .lend 0, .setn 2 2, .goto 5, .setn 2 1, .test 0 7 6, .maybe 1, .choice 8 12,
    .test 0 9 42, .testn 2 1 10 11, .none 0, .ret false, .test 0 16 13, .testn 2 1 14 15, .none 0,
    .ret false, .forget 1, .null 1, .choice 19 23, .fresh 0, .fresh 1, .kill 1, .goto 24, .null 0,
    .test 0 33 25, .use 0, .null 1, .deref 0, .choice 29 33, .test 1 30 42, .fresh 1, .live 0,
    .ret true, .test 0 39 34, .kill 0, .null 1, .forget 1, .null 1, .null 0, .testn 2 1 40 41,
    .none 0, .ret false, .goto 42]⟩

/-- `libfsapfs_checkpoint_map_free` (libfsapfs/libfsapfs_checkpoint_map.c:133-173).  Places: 0
`*checkpoint_map`, 1 `*checkpoint_map->entries_array`, 2 `result`. -/
def checkpoint_map_free : Fn :=
  ⟨[arg, own 0, loc],
   [.maybe 0, .test 0 3 2, .maybe 1, .setn 2 2, .choice 5 7, .test 0 6 21, .ret false, .test 0 18 8,
    .deref 0, .kill 1, .null 1, .choice 13 12, .setn 2 0, .kill 0, .null 1, .forget 1, .null 1,
    .null 0, .testn 2 2 19 20, .ret true, .ret false, .goto 21]⟩

/-- `libfsapfs_checkpoint_map_read_data` (libfsapfs/libfsapfs_checkpoint_map.c:251-529).  Places: 0
`map_entry`. -/
def checkpoint_map_read_data : Fn :=
  ⟨[loc],
   [.choice 1 2, .ret false, .choice 3 4, .ret false, .choice 6 5, .choice 6 7, .ret false,
    .choice 24 8, .choice 24 9, .choice 10 24, .choice 24 11, .choice 24 12, .choice 13 23,
    .choice 14 24, .test 0 15 28, .fresh 0, .use 0, .choice 18 24, .use 0, .choice 20 24, .give 0,
    .null 0, .goto 12, .ret true, .test 0 27 25, .kill 0, .null 0, .ret false, .goto 28]⟩

/-- `libfsapfs_checkpoint_map_get_physical_address_by_object_identifier`
(libfsapfs/libfsapfs_checkpoint_map.c:534-622).  Places: 0 `map_entry`. -/
def checkpoint_map_get_physical_address_by_object_identifier : Fn :=
  ⟨[loc],
   [.choice 1 2, .ret false, .choice 3 4, .ret false, .choice 6 5, .ret false, .choice 7 21,
    .choice 8 10, .lend 0, .goto 13, .choice 11 12, .lend 0, .ret false, .test 0 14 15, .ret false,
    .deref 0, .choice 17 19, .deref 0, .ret true, .null 0, .goto 6, .ret false]⟩

/-- The functions of libfsapfs/libfsapfs_checkpoint_map.c. -/
def in_checkpoint_map : List (String × Fn) :=
  [("libfsapfs_checkpoint_map_initialize", checkpoint_map_initialize),
   ("libfsapfs_checkpoint_map_free", checkpoint_map_free),
   ("libfsapfs_checkpoint_map_read_data", checkpoint_map_read_data),
   ("libfsapfs_checkpoint_map_get_physical_address_by_object_identifier", checkpoint_map_get_physical_address_by_object_identifier)]

/-- `libfsapfs_checkpoint_map_entry_initialize`
(libfsapfs/libfsapfs_checkpoint_map_entry.c:37-104).  Places: 0 `*checkpoint_map_entry`, 1
`*checkpoint_map_entry at the start`. -/
def checkpoint_map_entry_initialize : Fn :=
  ⟨[out, loc],
   [.choice 1 4, .lend 0, .setn 1 2, .goto 5, .setn 1 1, .choice 6 10, .test 0 7 28, .testn 1 1 8 9,
    .none 0, .ret false, .test 0 14 11, .testn 1 1 12 13, .none 0, .ret false, .choice 15 17,
    .fresh 0, .goto 18, .null 0, .test 0 22 19, .use 0, .live 0, .ret true, .test 0 25 23, .kill 0,
    .null 0, .testn 1 1 26 27, .none 0, .ret false, .goto 28]⟩

/-- `libfsapfs_checkpoint_map_entry_free` (libfsapfs/libfsapfs_checkpoint_map_entry.c:109-134).
Places: 0 `*checkpoint_map_entry`. -/
def checkpoint_map_entry_free : Fn :=
  ⟨[arg],
   [.maybe 0, .choice 2 4, .test 0 3 8, .ret false, .test 0 7 5, .kill 0, .null 0, .ret true,
    .goto 8]⟩

/-- The functions of libfsapfs/libfsapfs_checkpoint_map_entry.c. -/
def in_checkpoint_map_entry : List (String × Fn) :=
  [("libfsapfs_checkpoint_map_entry_initialize", checkpoint_map_entry_initialize),
   ("libfsapfs_checkpoint_map_entry_free", checkpoint_map_entry_free)]

/-- `libfsapfs_chunk_information_block_initialize`
(libfsapfs/libfsapfs_chunk_information_block.c:38-105).  Places: 0 `*chunk_information_block`, 1
`*chunk_information_block at the start`. -/
def chunk_information_block_initialize : Fn :=
  ⟨[out, loc],
   [.choice 1 4, .lend 0, .setn 1 2, .goto 5, .setn 1 1, .choice 6 10, .test 0 7 28, .testn 1 1 8 9,
    .none 0, .ret false, .test 0 14 11, .testn 1 1 12 13, .none 0, .ret false, .choice 15 17,
    .fresh 0, .goto 18, .null 0, .test 0 22 19, .use 0, .live 0, .ret true, .test 0 25 23, .kill 0,
    .null 0, .testn 1 1 26 27, .none 0, .ret false, .goto 28]⟩

/-- `libfsapfs_chunk_information_block_free`
(libfsapfs/libfsapfs_chunk_information_block.c:110-135).  Places: 0 `*chunk_information_block`. -/
def chunk_information_block_free : Fn :=
  ⟨[arg],
   [.maybe 0, .choice 2 4, .test 0 3 8, .ret false, .test 0 7 5, .kill 0, .null 0, .ret true,
    .goto 8]⟩

/-- The functions of libfsapfs/libfsapfs_chunk_information_block.c. -/
def in_chunk_information_block : List (String × Fn) :=
  [("libfsapfs_chunk_information_block_initialize", chunk_information_block_initialize),
   ("libfsapfs_chunk_information_block_free", chunk_information_block_free)]

/-- `libfsapfs_compressed_data_handle_initialize`
(libfsapfs/libfsapfs_compressed_data_handle.c:41-186).  Places: 0 `*data_handle`, 1
`*data_handle->compressed_block_offsets`, 2 `*data_handle->compressed_segment_data`, 3
`*data_handle->segment_data`, 4 `*data_handle at the start`. -/
def compressed_data_handle_initialize : Fn :=
  ⟨[out, own 0, own 0, own 0, loc],
   [.choice 1 4, .lend 0, .setn 4 2, .goto 5, .setn 4 1, .test 0 9 6, .maybe 1, .maybe 2, .maybe 3,
    .choice 10 14, .test 0 11 93, .testn 4 1 12 13, .none 0, .ret false, .test 0 18 15,
    .testn 4 1 16 17, .none 0, .ret false, .choice 19 22, .testn 4 1 20 21, .none 0, .ret false,
    .choice 23 28, .choice 24 28, .choice 25 28, .testn 4 1 26 27, .none 0, .ret false, .forget 3,
    .null 3, .forget 2, .null 2, .forget 1, .null 1, .choice 35 43, .fresh 0, .fresh 1, .kill 1,
    .fresh 2, .kill 2, .fresh 3, .kill 3, .goto 44, .null 0, .test 0 70 45, .use 0, .null 1,
    .null 2, .null 3, .deref 0, .choice 51 53, .fresh 2, .goto 54, .null 2, .deref 0, .test 2 70 56,
    .choice 57 64, .deref 0, .choice 59 61, .fresh 3, .goto 62, .null 3, .deref 0, .test 3 70 64,
    .deref 0, .deref 0, .deref 0, .deref 0, .live 0, .ret true, .test 0 90 71, .deref 0,
    .test 3 75 73, .deref 0, .kill 3, .deref 0, .test 2 79 77, .deref 0, .kill 2, .kill 0, .null 1,
    .null 2, .null 3, .forget 3, .null 3, .forget 2, .null 2, .forget 1, .null 1, .null 0,
    .testn 4 1 91 92, .none 0, .ret false, .goto 93]⟩

/-- `libfsapfs_compressed_data_handle_free` (libfsapfs/libfsapfs_compressed_data_handle.c:191-231).
 Places: 0 `*data_handle`, 1 `*data_handle->compressed_block_offsets`, 2
`*data_handle->compressed_segment_data`, 3 `*data_handle->segment_data`. -/
def compressed_data_handle_free : Fn :=
  ⟨[arg, own 0, own 0, own 0],
   [.maybe 0, .test 0 5 2, .maybe 1, .maybe 2, .maybe 3, .choice 6 8, .test 0 7 33, .ret false,
    .test 0 32 9, .deref 0, .test 3 13 11, .deref 0, .kill 3, .deref 0, .test 2 17 15, .deref 0,
    .kill 2, .deref 0, .test 1 21 19, .deref 0, .kill 1, .kill 0, .null 1, .null 2, .null 3,
    .forget 3, .null 3, .forget 2, .null 2, .forget 1, .null 1, .null 0, .ret true, .goto 33]⟩

/-- `libfsapfs_compressed_data_handle_get_compressed_block_offsets`
(libfsapfs/libfsapfs_compressed_data_handle.c:236-801).  Places: 0 `data_handle`, 1
`data_handle->compressed_block_offsets`, 2 `data_handle->members at the start`. -/
def compressed_data_handle_get_compressed_block_offsets : Fn :=
  ⟨[loc, own 0, part 0],
   [.choice 1 2, .lend 0, .test 0 8 3, .choice 4 6, .setn 2 1, .goto 8, .setn 2 2, .maybe 1,
    .test 0 9 12, .testn 2 1 10 11, .none 1, .ret false, .deref 0, .test 1 17 14, .testn 2 1 15 16,
    .none 1, .ret false, .deref 0, .choice 19 90, .deref 0, .deref 0, .choice 90 22, .deref 0,
    .deref 0, .choice 25 28, .choice 90 26, .deref 0, .goto 46, .deref 0, .choice 30 40, .deref 0,
    .choice 90 32, .deref 0, .deref 0, .choice 90 35, .deref 0, .deref 0, .choice 90 38, .deref 0,
    .goto 46, .deref 0, .choice 42 46, .deref 0, .choice 90 44, .choice 90 45, .deref 0, .deref 0,
    .choice 90 48, .deref 0, .choice 50 52, .fresh 1, .goto 53, .null 1, .deref 0, .test 1 90 55,
    .choice 56 58, .deref 0, .goto 74, .deref 0, .deref 0, .deref 0, .choice 90 62, .choice 90 63,
    .choice 90 64, .deref 0, .deref 0, .deref 0, .choice 68 74, .deref 0, .choice 90 70,
    .choice 90 71, .deref 0, .deref 0, .goto 66, .choice 90 75, .choice 90 76, .deref 0, .deref 0,
    .choice 79 83, .choice 90 80, .deref 0, .deref 0, .choice 90 89, .deref 0, .choice 85 89,
    .choice 90 86, .deref 0, .deref 0, .choice 90 89, .ret true, .deref 0, .test 1 96 92, .deref 0,
    .kill 1, .deref 0, .null 1, .testn 2 1 97 98, .none 1, .ret false]⟩

/-- The functions of libfsapfs/libfsapfs_compressed_data_handle.c. -/
def in_compressed_data_handle : List (String × Fn) :=
  [("libfsapfs_compressed_data_handle_initialize", compressed_data_handle_initialize),
   ("libfsapfs_compressed_data_handle_free", compressed_data_handle_free),
   ("libfsapfs_compressed_data_handle_get_compressed_block_offsets", compressed_data_handle_get_compressed_block_offsets)]

/-- `libfsapfs_compressed_data_header_initialize`
(libfsapfs/libfsapfs_compressed_data_header.c:37-104).  Places: 0 `*compressed_data_header`, 1
`*compressed_data_header at the start`. -/
def compressed_data_header_initialize : Fn :=
  ⟨[out, loc],
   [.choice 1 4, .lend 0, .setn 1 2, .goto 5, .setn 1 1, .choice 6 10, .test 0 7 28, .testn 1 1 8 9,
    .none 0, .ret false, .test 0 14 11, .testn 1 1 12 13, .none 0, .ret false, .choice 15 17,
    .fresh 0, .goto 18, .null 0, .test 0 22 19, .use 0, .live 0, .ret true, .test 0 25 23, .kill 0,
    .null 0, .testn 1 1 26 27, .none 0, .ret false, .goto 28]⟩

/-- `libfsapfs_compressed_data_header_free` (libfsapfs/libfsapfs_compressed_data_header.c:109-134).
 Places: 0 `*compressed_data_header`. -/
def compressed_data_header_free : Fn :=
  ⟨[arg],
   [.maybe 0, .choice 2 4, .test 0 3 8, .ret false, .test 0 7 5, .kill 0, .null 0, .ret true,
    .goto 8]⟩

/-- The functions of libfsapfs/libfsapfs_compressed_data_header.c. -/
def in_compressed_data_header : List (String × Fn) :=
  [("libfsapfs_compressed_data_header_initialize", compressed_data_header_initialize),
   ("libfsapfs_compressed_data_header_free", compressed_data_header_free)]

/-- `libfsapfs_decompress_data` (libfsapfs/libfsapfs_compression.c:44-391).  Places: 0 `result`. -/
def decompress_data : Fn :=
  ⟨[loc],
   [.setn 0 1, .choice 2 3, .ret false, .choice 4 5, .ret false, .choice 6 7, .ret false,
    .choice 8 9, .ret false, .choice 10 32, .choice 11 20, .choice 12 20, .choice 13 14, .ret false,
    .choice 15 16, .ret false, .choice 17 18, .ret false, .setn 0 2, .goto 56, .choice 21 23,
    .setn 0 2, .goto 27, .choice 24 26, .setn 0 1, .goto 27, .setn 0 0, .testn 0 0 31 28,
    .testn 0 1 31 29, .testn 0 2 56 30, .choice 31 56, .ret false, .choice 33 55, .choice 34 43,
    .choice 35 43, .choice 36 37, .ret false, .choice 38 39, .ret false, .choice 40 41, .ret false,
    .setn 0 2, .goto 56, .choice 44 46, .setn 0 2, .goto 50, .choice 47 49, .setn 0 1, .goto 50,
    .setn 0 0, .testn 0 0 54 51, .testn 0 1 54 52, .testn 0 2 56 53, .choice 54 56, .ret false,
    .ret false, .testn 0 2 57 58, .ret true, .ret false]⟩

/-- The functions of libfsapfs/libfsapfs_compression.c. -/
def in_compression : List (String × Fn) :=
  [("libfsapfs_decompress_data", decompress_data)]

/-- `libfsapfs_container_data_handle_initialize`
(libfsapfs/libfsapfs_container_data_handle.c:40-121).  Places: 0 `*container_data_handle`, 1
`*container_data_handle at the start`. -/
def container_data_handle_initialize : Fn :=
  ⟨[out, loc],
   [.choice 1 4, .lend 0, .setn 1 2, .goto 5, .setn 1 1, .choice 6 10, .test 0 7 33, .testn 1 1 8 9,
    .none 0, .ret false, .test 0 14 11, .testn 1 1 12 13, .none 0, .ret false, .choice 15 18,
    .testn 1 1 16 17, .none 0, .ret false, .choice 19 21, .fresh 0, .goto 22, .null 0,
    .test 0 27 23, .use 0, .deref 0, .live 0, .ret true, .test 0 30 28, .kill 0, .null 0,
    .testn 1 1 31 32, .none 0, .ret false, .goto 33]⟩

/-- `libfsapfs_container_data_handle_free` (libfsapfs/libfsapfs_container_data_handle.c:126-151).
Places: 0 `*container_data_handle`. -/
def container_data_handle_free : Fn :=
  ⟨[arg],
   [.maybe 0, .choice 2 4, .test 0 3 8, .ret false, .test 0 7 5, .kill 0, .null 0, .ret true,
    .goto 8]⟩

/-- `libfsapfs_container_data_handle_read_data_block`
(libfsapfs/libfsapfs_container_data_handle.c:157-318).  Places: 0 `data_block`. -/
def container_data_handle_read_data_block : Fn :=
  ⟨[loc],
   [.choice 1 2, .ret false, .choice 3 4, .ret false, .choice 5 6, .ret false, .choice 7 15,
    .test 0 8 19, .fresh 0, .use 0, .choice 11 15, .use 0, .choice 13 15, .give 0, .ret true,
    .test 0 18 16, .kill 0, .null 0, .ret false, .goto 19]⟩

/-- The functions of libfsapfs/libfsapfs_container_data_handle.c. -/
def in_container_data_handle : List (String × Fn) :=
  [("libfsapfs_container_data_handle_initialize", container_data_handle_initialize),
   ("libfsapfs_container_data_handle_free", container_data_handle_free),
   ("libfsapfs_container_data_handle_read_data_block", container_data_handle_read_data_block)]

/-- `libfsapfs_container_key_bag_initialize` (libfsapfs/libfsapfs_container_key_bag.c:47-133).
Places: 0 `*container_key_bag`, 1 `*container_key_bag->entries_array`, 2 `*container_key_bag at the
start`. -/
def container_key_bag_initialize : Fn :=
  ⟨[out, own 0, loc],
   [.choice 1 4, .lend 0, .setn 2 2, .goto 5, .setn 2 1, .test 0 7 6, .maybe 1, .choice 8 12,
    .test 0 9 42, .testn 2 1 10 11, .none 0, .ret false, .test 0 16 13, .testn 2 1 14 15, .none 0,
    .ret false, .forget 1, .null 1, .choice 19 23, .fresh 0, .fresh 1, .kill 1, .goto 24, .null 0,
    .test 0 33 25, .use 0, .null 1, .deref 0, .choice 29 33, .test 1 30 42, .fresh 1, .live 0,
    .ret true, .test 0 39 34, .kill 0, .null 1, .forget 1, .null 1, .null 0, .testn 2 1 40 41,
    .none 0, .ret false, .goto 42]⟩

/-- `libfsapfs_container_key_bag_free` (libfsapfs/libfsapfs_container_key_bag.c:138-178).  Places:
0 `*container_key_bag`, 1 `*container_key_bag->entries_array`, 2 `result`. -/
def container_key_bag_free : Fn :=
  ⟨[arg, own 0, loc],
   [.maybe 0, .test 0 3 2, .maybe 1, .setn 2 2, .choice 5 7, .test 0 6 21, .ret false, .test 0 18 8,
    .deref 0, .kill 1, .null 1, .choice 13 12, .setn 2 0, .kill 0, .null 1, .forget 1, .null 1,
    .null 0, .testn 2 2 19 20, .ret true, .ret false, .goto 21]⟩

/-- `libfsapfs_container_key_bag_read_file_io_handle`
(libfsapfs/libfsapfs_container_key_bag.c:183-423).  Places: 0 `data`, 1 `encrypted_data`, 2
`encryption_context`, 3 `result`. -/
def container_key_bag_read_file_io_handle : Fn :=
  ⟨[loc, loc, loc, loc],
   [.setn 3 1, .choice 2 3, .ret false, .choice 4 5, .ret false, .choice 6 7, .ret false,
    .choice 9 8, .choice 9 10, .ret false, .choice 11 13, .fresh 1, .goto 14, .null 1,
    .test 1 52 15, .use 1, .choice 52 17, .choice 18 20, .fresh 0, .goto 21, .null 0, .test 0 52 22,
    .choice 23 52, .test 2 24 60, .fresh 2, .use 2, .choice 27 52, .use 2, .use 1, .use 0,
    .choice 31 52, .kill 2, .null 2, .choice 34 52, .kill 1, .null 1, .use 0, .choice 38 40,
    .setn 3 2, .goto 44, .choice 41 43, .setn 3 1, .goto 44, .setn 3 0, .testn 3 0 52 45,
    .testn 3 1 48 46, .testn 3 2 48 47, .choice 52 48, .kill 0, .testn 3 2 50 51, .ret true,
    .ret false, .test 2 55 53, .kill 2, .null 2, .test 0 57 56, .kill 0, .test 1 59 58, .kill 1,
    .ret false, .goto 60]⟩

/-- `libfsapfs_container_key_bag_read_data` (libfsapfs/libfsapfs_container_key_bag.c:428-762).
Places: 0 `bag_entry`, 1 `bag_header`. -/
def container_key_bag_read_data : Fn :=
  ⟨[loc, loc],
   [.choice 1 2, .ret false, .choice 3 4, .ret false, .choice 6 5, .choice 6 7, .ret false,
    .choice 8 9, .ret false, .choice 39 10, .choice 12 11, .ret false, .choice 13 14, .ret false,
    .choice 15 39, .test 1 16 46, .fresh 1, .use 1, .choice 19 39, .deref 1, .choice 39 21,
    .deref 1, .choice 23 36, .choice 24 39, .test 0 25 46, .fresh 0, .use 0, .choice 28 39, .use 0,
    .choice 30 39, .give 0, .deref 0, .null 0, .choice 34 21, .choice 39 35, .choice 39 21, .kill 1,
    .null 1, .ret true, .test 0 42 40, .kill 0, .null 0, .test 1 45 43, .kill 1, .null 1,
    .ret false, .goto 46]⟩

/-- `libfsapfs_container_key_bag_get_volume_key_bag_extent_by_identifier`
(libfsapfs/libfsapfs_container_key_bag.c:767-938).  Places: 0 `bag_entry`. -/
def container_key_bag_get_volume_key_bag_extent_by_identifier : Fn :=
  ⟨[loc],
   [.choice 1 2, .ret false, .choice 3 4, .ret false, .choice 5 6, .ret false, .choice 7 8,
    .ret false, .choice 10 9, .ret false, .choice 11 32, .choice 12 14, .lend 0, .goto 17,
    .choice 15 16, .lend 0, .ret false, .test 0 18 19, .ret false, .deref 0, .choice 10 21,
    .deref 0, .choice 10 23, .deref 0, .choice 25 26, .ret false, .deref 0, .choice 28 29,
    .ret false, .deref 0, .deref 0, .ret true, .ret false]⟩

/-- `libfsapfs_container_key_bag_get_volume_master_key_by_identifier`
(libfsapfs/libfsapfs_container_key_bag.c:943-1113).  Places: 0 `bag_entry`, 1 `key_encrypted_key`,
2 `result`. -/
def container_key_bag_get_volume_master_key_by_identifier : Fn :=
  ⟨[loc, loc, loc],
   [.setn 2 1, .choice 2 3, .ret false, .choice 4 5, .ret false, .choice 6 45, .choice 7 42,
    .choice 8 10, .lend 0, .goto 13, .choice 11 45, .lend 0, .goto 45, .test 0 45 14, .deref 0,
    .choice 6 16, .deref 0, .choice 6 18, .choice 19 45, .test 1 20 49, .fresh 1, .deref 0, .use 1,
    .choice 24 45, .use 1, .choice 26 28, .setn 2 2, .goto 32, .choice 29 31, .setn 2 1, .goto 32,
    .setn 2 0, .testn 2 0 45 33, .testn 2 1 36 34, .testn 2 2 36 35, .choice 45 36, .kill 1,
    .null 1, .testn 2 0 6 39, .testn 2 1 6 40, .testn 2 2 42 41, .choice 42 6, .testn 2 2 43 44,
    .ret true, .ret false, .test 1 48 46, .kill 1, .null 1, .ret false, .goto 49]⟩

/-- The functions of libfsapfs/libfsapfs_container_key_bag.c. -/
def in_container_key_bag : List (String × Fn) :=
  [("libfsapfs_container_key_bag_initialize", container_key_bag_initialize),
   ("libfsapfs_container_key_bag_free", container_key_bag_free),
   ("libfsapfs_container_key_bag_read_file_io_handle", container_key_bag_read_file_io_handle),
   ("libfsapfs_container_key_bag_read_data", container_key_bag_read_data),
   ("libfsapfs_container_key_bag_get_volume_key_bag_extent_by_identifier", container_key_bag_get_volume_key_bag_extent_by_identifier),
   ("libfsapfs_container_key_bag_get_volume_master_key_by_identifier", container_key_bag_get_volume_master_key_by_identifier)]

/-- `libfsapfs_container_reaper_initialize` (libfsapfs/libfsapfs_container_reaper.c:38-105).
Places: 0 `*container_reaper`, 1 `*container_reaper at the start`. -/
def container_reaper_initialize : Fn :=
  ⟨[out, loc],
   [.choice 1 4, .lend 0, .setn 1 2, .goto 5, .setn 1 1, .choice 6 10, .test 0 7 28, .testn 1 1 8 9,
    .none 0, .ret false, .test 0 14 11, .testn 1 1 12 13, .none 0, .ret false, .choice 15 17,
    .fresh 0, .goto 18, .null 0, .test 0 22 19, .use 0, .live 0, .ret true, .test 0 25 23, .kill 0,
    .null 0, .testn 1 1 26 27, .none 0, .ret false, .goto 28]⟩

/-- `libfsapfs_container_reaper_free` (libfsapfs/libfsapfs_container_reaper.c:110-135).  Places: 0
`*container_reaper`. -/
def container_reaper_free : Fn :=
  ⟨[arg],
   [.maybe 0, .choice 2 4, .test 0 3 8, .ret false, .test 0 7 5, .kill 0, .null 0, .ret true,
    .goto 8]⟩

/-- The functions of libfsapfs/libfsapfs_container_reaper.c. -/
def in_container_reaper : List (String × Fn) :=
  [("libfsapfs_container_reaper_initialize", container_reaper_initialize),
   ("libfsapfs_container_reaper_free", container_reaper_free)]

/-- `libfsapfs_container_superblock_initialize`
(libfsapfs/libfsapfs_container_superblock.c:42-109).  Places: 0 `*container_superblock`, 1
`*container_superblock at the start`. -/
def container_superblock_initialize : Fn :=
  ⟨[out, loc],
   [.choice 1 4, .lend 0, .setn 1 2, .goto 5, .setn 1 1, .choice 6 10, .test 0 7 28, .testn 1 1 8 9,
    .none 0, .ret false, .test 0 14 11, .testn 1 1 12 13, .none 0, .ret false, .choice 15 17,
    .fresh 0, .goto 18, .null 0, .test 0 22 19, .use 0, .live 0, .ret true, .test 0 25 23, .kill 0,
    .null 0, .testn 1 1 26 27, .none 0, .ret false, .goto 28]⟩

/-- `libfsapfs_container_superblock_free` (libfsapfs/libfsapfs_container_superblock.c:114-139).
Places: 0 `*container_superblock`. -/
def container_superblock_free : Fn :=
  ⟨[arg],
   [.maybe 0, .choice 2 4, .test 0 3 8, .ret false, .test 0 7 5, .kill 0, .null 0, .ret true,
    .goto 8]⟩

/-- The functions of libfsapfs/libfsapfs_container_superblock.c. -/
def in_container_superblock : List (String × Fn) :=
  [("libfsapfs_container_superblock_initialize", container_superblock_initialize),
   ("libfsapfs_container_superblock_free", container_superblock_free)]

/-- `libfsapfs_data_block_initialize` (libfsapfs/libfsapfs_data_block.c:39-141).  Places: 0
`*data_block`, 1 `*data_block->data`, 2 `*data_block at the start`. -/
def data_block_initialize : Fn :=
  ⟨[out, own 0, loc],
   [.choice 1 4, .lend 0, .setn 2 2, .goto 5, .setn 2 1, .test 0 7 6, .maybe 1, .choice 8 12,
    .test 0 9 51, .testn 2 1 10 11, .none 0, .ret false, .test 0 16 13, .testn 2 1 14 15, .none 0,
    .ret false, .choice 17 20, .testn 2 1 18 19, .none 0, .ret false, .forget 1, .null 1,
    .choice 23 27, .fresh 0, .fresh 1, .kill 1, .goto 28, .null 0, .test 0 42 29, .use 0, .null 1,
    .choice 32 40, .deref 0, .choice 34 36, .fresh 1, .goto 37, .null 1, .deref 0, .test 1 42 39,
    .deref 0, .live 0, .ret true, .test 0 48 43, .kill 0, .null 1, .forget 1, .null 1, .null 0,
    .testn 2 1 49 50, .none 0, .ret false, .goto 51]⟩

/-- `libfsapfs_data_block_free` (libfsapfs/libfsapfs_data_block.c:146-191).  Places: 0
`*data_block`, 1 `*data_block->data`, 2 `result`. -/
def data_block_free : Fn :=
  ⟨[arg, own 0, loc],
   [.maybe 0, .test 0 3 2, .maybe 1, .setn 2 2, .choice 5 7, .test 0 6 22, .ret false, .test 0 19 8,
    .deref 0, .test 1 14 10, .deref 0, .use 1, .deref 0, .kill 1, .kill 0, .null 1, .forget 1,
    .null 1, .null 0, .testn 2 2 20 21, .ret true, .ret false, .goto 22]⟩

/-- `libfsapfs_data_block_read` (libfsapfs/libfsapfs_data_block.c:255-438).  Places: 0
`data_block`, 1 `data_block->data`, 2 `encryption_context`, 3 `read_buffer`, 4 `data_block->members
at the start`. -/
def data_block_read : Fn :=
  ⟨[loc, own 0, loc, loc, part 0],
   [.choice 1 2, .lend 0, .choice 3 4, .lend 2, .test 0 10 5, .choice 6 8, .setn 4 1, .goto 10,
    .setn 4 2, .maybe 1, .test 0 11 14, .testn 4 1 12 13, .none 1, .ret false, .deref 0,
    .test 1 16 19, .testn 4 1 17 18, .none 1, .ret false, .deref 0, .choice 21 24, .testn 4 1 22 23,
    .none 1, .ret false, .choice 25 28, .testn 4 1 26 27, .none 1, .ret false, .choice 29 32,
    .testn 4 1 30 31, .none 1, .ret false, .test 2 33 36, .deref 0, .copy 3 1, .goto 41,
    .choice 37 39, .fresh 3, .goto 40, .null 3, .test 3 56 41, .deref 0, .use 3, .deref 0, .deref 0,
    .choice 56 46, .test 2 55 47, .deref 0, .deref 0, .use 2, .use 3, .use 1, .choice 53 56,
    .kill 3, .null 3, .ret true, .test 3 60 57, .deref 0, .same 3 1 60 59, .kill 3,
    .testn 4 1 61 62, .none 1, .ret false]⟩

/-- The functions of libfsapfs/libfsapfs_data_block.c. -/
def in_data_block : List (String × Fn) :=
  [("libfsapfs_data_block_initialize", data_block_initialize),
   ("libfsapfs_data_block_free", data_block_free),
   ("libfsapfs_data_block_read", data_block_read)]

/-- `libfsapfs_data_block_data_handle_initialize`
(libfsapfs/libfsapfs_data_block_data_handle.c:43-203).  Places: 0 `*data_handle`, 1
`*data_handle->data_block_cache`, 2 `*data_handle->data_block_vector`, 3
`*data_handle->file_system_data_handle`, 4 `*data_handle at the start`. -/
def data_block_data_handle_initialize : Fn :=
  ⟨[out, own 0, own 0, own 0, loc],
   [.choice 1 4, .lend 0, .setn 4 2, .goto 5, .setn 4 1, .test 0 9 6, .maybe 1, .maybe 2, .maybe 3,
    .choice 10 14, .test 0 11 86, .testn 4 1 12 13, .none 0, .ret false, .test 0 18 15,
    .testn 4 1 16 17, .none 0, .ret false, .choice 19 22, .testn 4 1 20 21, .none 0, .ret false,
    .forget 3, .null 3, .forget 2, .null 2, .forget 1, .null 1, .choice 29 37, .fresh 0, .fresh 1,
    .kill 1, .fresh 2, .kill 2, .fresh 3, .kill 3, .goto 38, .null 0, .test 0 61 39, .use 0,
    .null 1, .null 2, .null 3, .deref 0, .choice 45 61, .test 3 46 86, .fresh 3, .deref 0, .use 3,
    .choice 50 61, .test 2 51 86, .fresh 2, .deref 0, .use 2, .choice 55 61, .deref 0,
    .choice 57 61, .test 1 58 86, .fresh 1, .live 0, .ret true, .test 0 83 62, .deref 0,
    .test 2 67 64, .deref 0, .kill 2, .null 2, .deref 0, .test 3 72 69, .deref 0, .kill 3, .null 3,
    .kill 0, .null 1, .null 2, .null 3, .forget 3, .null 3, .forget 2, .null 2, .forget 1, .null 1,
    .null 0, .testn 4 1 84 85, .none 0, .ret false, .goto 86]⟩

/-- `libfsapfs_data_block_data_handle_free` (libfsapfs/libfsapfs_data_block_data_handle.c:208-273).
 Places: 0 `*data_handle`, 1 `*data_handle->data_block_cache`, 2 `*data_handle->data_block_vector`,
3 `*data_handle->file_system_data_handle`, 4 `result`. -/
def data_block_data_handle_free : Fn :=
  ⟨[arg, own 0, own 0, own 0, loc],
   [.maybe 0, .test 0 5 2, .maybe 1, .maybe 2, .maybe 3, .setn 4 2, .choice 7 9, .test 0 8 37,
    .ret false, .test 0 34 10, .deref 0, .kill 1, .null 1, .choice 15 14, .setn 4 0, .deref 0,
    .kill 2, .null 2, .choice 20 19, .setn 4 0, .deref 0, .kill 3, .null 3, .kill 0, .null 1,
    .null 2, .null 3, .forget 3, .null 3, .forget 2, .null 2, .forget 1, .null 1, .null 0,
    .testn 4 2 35 36, .ret true, .ret false, .goto 37]⟩

/-- `libfsapfs_data_block_data_handle_read_segment_data`
(libfsapfs/libfsapfs_data_block_data_handle.c:279-447).  Places: 0 `data_block`. -/
def data_block_data_handle_read_segment_data : Fn :=
  ⟨[loc],
   [.choice 1 2, .ret false, .choice 3 4, .ret false, .choice 5 6, .ret false, .choice 7 8,
    .ret false, .choice 9 10, .ret false, .choice 11 12, .ret false, .choice 13 31, .choice 14 16,
    .lend 0, .goto 19, .choice 17 18, .lend 0, .ret false, .test 0 20 21, .ret false, .deref 0,
    .choice 23 24, .ret false, .choice 27 25, .deref 0, .choice 27 28, .ret false, .deref 0,
    .deref 0, .choice 31 12, .ret true]⟩

/-- The functions of libfsapfs/libfsapfs_data_block_data_handle.c. -/
def in_data_block_data_handle : List (String × Fn) :=
  [("libfsapfs_data_block_data_handle_initialize", data_block_data_handle_initialize),
   ("libfsapfs_data_block_data_handle_free", data_block_data_handle_free),
   ("libfsapfs_data_block_data_handle_read_segment_data", data_block_data_handle_read_segment_data)]

/-- `libfsapfs_data_block_vector_initialize` (libfsapfs/libfsapfs_data_block_vector.c:36-219).
Places: 0 `*vector`, 1 `file_extent`, 2 `safe_vector`, 3 `*vector at the start`. -/
def data_block_vector_initialize : Fn :=
  ⟨[out, loc, loc, loc],
   [.choice 1 4, .lend 0, .setn 3 2, .goto 5, .setn 3 1, .choice 6 10, .test 0 7 55, .testn 3 1 8 9,
    .none 0, .ret false, .test 0 14 11, .testn 3 1 12 13, .none 0, .ret false, .choice 15 18,
    .testn 3 1 16 17, .none 0, .ret false, .choice 19 22, .testn 3 1 20 21, .none 0, .ret false,
    .choice 23 49, .test 2 24 55, .fresh 2, .choice 26 49, .choice 27 46, .choice 28 30, .lend 1,
    .goto 33, .choice 31 49, .lend 1, .goto 49, .test 1 49 34, .choice 37 35, .deref 1,
    .choice 37 39, .deref 1, .choice 49 39, .choice 40 41, .deref 1, .deref 1, .use 2,
    .choice 44 49, .deref 1, .goto 26, .copy 0 2, .live 0, .ret true, .test 2 52 50, .kill 2,
    .null 2, .testn 3 1 53 54, .none 0, .ret false, .goto 55]⟩

/-- The functions of libfsapfs/libfsapfs_data_block_vector.c. -/
def in_data_block_vector : List (String × Fn) :=
  [("libfsapfs_data_block_vector_initialize", data_block_vector_initialize)]

/-- `libfsapfs_data_stream_initialize_from_data` (libfsapfs/libfsapfs_data_stream.c:39-135).
Places: 0 `*data_stream`, 1 `data_handle`, 2 `safe_data_stream`. -/
def data_stream_initialize_from_data : Fn :=
  ⟨[out, loc, loc],
   [.choice 1 4, .test 0 2 26, .none 0, .ret false, .choice 5 18, .test 1 6 26, .fresh 1, .use 1,
    .choice 9 18, .test 2 10 26, .fresh 2, .give 1, .null 1, .use 2, .choice 15 18, .copy 0 2,
    .live 0, .ret true, .test 2 21 19, .kill 2, .null 2, .test 1 24 22, .kill 1, .null 1, .none 0,
    .ret false, .goto 26]⟩

/-- `libfsapfs_data_stream_initialize_from_file_extents`
(libfsapfs/libfsapfs_data_stream.c:141-253).  Places: 0 `*data_stream`, 1 `data_handle`, 2
`safe_data_stream`. -/
def data_stream_initialize_from_file_extents : Fn :=
  ⟨[out, loc, loc],
   [.choice 1 4, .test 0 2 29, .none 0, .ret false, .choice 5 7, .none 0, .ret false, .choice 8 21,
    .test 1 9 29, .fresh 1, .use 1, .choice 12 21, .test 2 13 29, .fresh 2, .give 1, .null 1,
    .use 2, .choice 18 21, .copy 0 2, .live 0, .ret true, .test 2 24 22, .kill 2, .null 2,
    .test 1 27 25, .kill 1, .null 1, .none 0, .ret false, .goto 29]⟩

/-- `libfsapfs_data_stream_initialize_from_compressed_data_stream`
(libfsapfs/libfsapfs_data_stream.c:259-357).  Places: 0 `*data_stream`, 1 `data_handle`, 2
`safe_data_stream`. -/
def data_stream_initialize_from_compressed_data_stream : Fn :=
  ⟨[out, loc, loc],
   [.choice 1 4, .test 0 2 26, .none 0, .ret false, .choice 5 18, .test 1 6 26, .fresh 1, .use 1,
    .choice 9 18, .test 2 10 26, .fresh 2, .give 1, .null 1, .use 2, .choice 15 18, .copy 0 2,
    .live 0, .ret true, .test 2 21 19, .kill 2, .null 2, .test 1 24 22, .kill 1, .null 1, .none 0,
    .ret false, .goto 26]⟩

/-- The functions of libfsapfs/libfsapfs_data_stream.c. -/
def in_data_stream : List (String × Fn) :=
  [("libfsapfs_data_stream_initialize_from_data", data_stream_initialize_from_data),
   ("libfsapfs_data_stream_initialize_from_file_extents", data_stream_initialize_from_file_extents),
   ("libfsapfs_data_stream_initialize_from_compressed_data_stream", data_stream_initialize_from_compressed_data_stream)]

/-- `libfsapfs_deflate_build_dynamic_huffman_trees` (libfsapfs/libfsapfs_deflate.c:57-375).
Places: 0 `codes_tree`. -/
def deflate_build_dynamic_huffman_trees : Fn :=
  ⟨[loc],
   [.choice 1 30, .choice 30 2, .choice 30 3, .choice 4 5, .choice 3 30, .choice 5 6, .choice 7 30,
    .test 0 8 34, .fresh 0, .use 0, .choice 11 30, .choice 12 24, .use 0, .choice 14 30,
    .choice 11 15, .choice 16 18, .choice 30 17, .choice 22 30, .choice 19 20, .choice 22 30,
    .choice 21 30, .choice 22 30, .choice 30 23, .choice 23 11, .choice 30 25, .kill 0, .null 0,
    .choice 28 30, .choice 29 30, .ret true, .test 0 33 31, .kill 0, .null 0, .ret false, .goto 34]⟩

/-- `libfsapfs_deflate_read_block` (libfsapfs/libfsapfs_deflate.c:1123-1436).  Places: 0
`dynamic_huffman_distances_tree`, 1 `dynamic_huffman_literals_tree`. -/
def deflate_read_block : Fn :=
  ⟨[loc, loc],
   [.choice 1 2, .ret false, .choice 3 4, .ret false, .choice 5 6, .ret false, .choice 7 8,
    .ret false, .choice 11 9, .choice 18 10, .choice 19 36, .choice 12 13, .choice 13 36,
    .choice 14 36, .choice 36 15, .choice 35 16, .choice 36 17, .choice 36 35, .choice 35 36,
    .choice 20 36, .test 1 21 43, .fresh 1, .choice 23 36, .test 0 24 43, .fresh 0, .use 1, .use 0,
    .choice 28 36, .use 1, .use 0, .choice 31 36, .kill 0, .null 0, .kill 1, .null 1, .ret true,
    .test 0 39 37, .kill 0, .null 0, .test 1 42 40, .kill 1, .null 1, .ret false, .goto 43]⟩

/-- `libfsapfs_deflate_decompress` (libfsapfs/libfsapfs_deflate.c:1441-1704).  Places: 0
`bit_stream`, 1 `fixed_huffman_distances_tree`, 2 `fixed_huffman_literals_tree`. -/
def deflate_decompress : Fn :=
  ⟨[loc, loc, loc],
   [.choice 1 2, .ret false, .choice 3 4, .ret false, .choice 5 6, .ret false, .choice 7 8,
    .ret false, .choice 9 10, .ret false, .choice 11 12, .ret false, .choice 13 45, .test 0 14 55,
    .fresh 0, .deref 0, .choice 17 36, .use 0, .choice 19 45, .choice 20 31, .test 2 21 31,
    .test 1 22 31, .choice 23 45, .test 2 24 55, .fresh 2, .choice 26 45, .test 1 27 55, .fresh 1,
    .use 2, .use 1, .choice 31 45, .use 0, .use 2, .use 1, .choice 35 45, .choice 36 15,
    .test 1 39 37, .kill 1, .null 1, .test 2 42 40, .kill 2, .null 2, .kill 0, .null 0, .ret true,
    .test 1 48 46, .kill 1, .null 1, .test 2 51 49, .kill 2, .null 2, .test 0 54 52, .kill 0,
    .null 0, .ret false, .goto 55]⟩

/-- `libfsapfs_deflate_decompress_zlib` (libfsapfs/libfsapfs_deflate.c:1709-2030).  Places: 0
`bit_stream`, 1 `fixed_huffman_distances_tree`, 2 `fixed_huffman_literals_tree`. -/
def deflate_decompress_zlib : Fn :=
  ⟨[loc, loc, loc],
   [.choice 1 2, .ret false, .choice 3 4, .ret false, .choice 5 6, .ret false, .choice 7 8,
    .ret false, .choice 9 10, .ret false, .choice 11 55, .choice 55 12, .choice 13 55,
    .test 0 14 65, .fresh 0, .deref 0, .choice 17 36, .use 0, .choice 19 55, .choice 20 31,
    .test 2 21 31, .test 1 22 31, .choice 23 55, .test 2 24 65, .fresh 2, .choice 26 55,
    .test 1 27 65, .fresh 1, .use 2, .use 1, .choice 31 55, .use 0, .use 2, .use 1, .choice 35 55,
    .choice 36 15, .deref 0, .choice 38 46, .deref 0, .choice 40 43, .deref 0, .deref 0, .goto 38,
    .deref 0, .choice 45 55, .choice 55 46, .test 1 49 47, .kill 1, .null 1, .test 2 52 50, .kill 2,
    .null 2, .kill 0, .null 0, .ret true, .test 1 58 56, .kill 1, .null 1, .test 2 61 59, .kill 2,
    .null 2, .test 0 64 62, .kill 0, .null 0, .ret false, .goto 65]⟩

/-- The functions of libfsapfs/libfsapfs_deflate.c. -/
def in_deflate : List (String × Fn) :=
  [("libfsapfs_deflate_build_dynamic_huffman_trees", deflate_build_dynamic_huffman_trees),
   ("libfsapfs_deflate_read_block", deflate_read_block),
   ("libfsapfs_deflate_decompress", deflate_decompress),
   ("libfsapfs_deflate_decompress_zlib", deflate_decompress_zlib)]

/-- `libfsapfs_directory_record_initialize` (libfsapfs/libfsapfs_directory_record.c:41-108).
Places: 0 `*directory_record`, 1 `*directory_record->name`, 2 `*directory_record at the start`. -/
def directory_record_initialize : Fn :=
  ⟨[out, own 0, loc],
   [.choice 1 4, .lend 0, .setn 2 2, .goto 5, .setn 2 1, .test 0 7 6, .maybe 1, .choice 8 12,
    .test 0 9 38, .testn 2 1 10 11, .none 0, .ret false, .test 0 16 13, .testn 2 1 14 15, .none 0,
    .ret false, .forget 1, .null 1, .choice 19 23, .fresh 0, .fresh 1, .kill 1, .goto 24, .null 0,
    .test 0 29 25, .use 0, .null 1, .live 0, .ret true, .test 0 35 30, .kill 0, .null 1, .forget 1,
    .null 1, .null 0, .testn 2 1 36 37, .none 0, .ret false, .goto 38]⟩

/-- `libfsapfs_directory_record_free` (libfsapfs/libfsapfs_directory_record.c:113-143).  Places: 0
`*directory_record`, 1 `*directory_record->name`. -/
def directory_record_free : Fn :=
  ⟨[arg, own 0],
   [.maybe 0, .test 0 3 2, .maybe 1, .choice 4 6, .test 0 5 17, .ret false, .test 0 16 7, .deref 0,
    .test 1 11 9, .deref 0, .kill 1, .kill 0, .null 1, .forget 1, .null 1, .null 0, .ret true,
    .goto 17]⟩

/-- `libfsapfs_directory_record_clone` (libfsapfs/libfsapfs_directory_record.c:148-259).  Places: 0
`*destination_directory_record`, 1 `*destination_directory_record->name`, 2
`source_directory_record`, 3 `*destination_directory_record at the start`, 4
`*destination_directory_record->members at the start`. -/
def directory_record_clone : Fn :=
  ⟨[out, own 0, loc, loc, part 0],
   [.choice 1 4, .lend 0, .setn 3 2, .goto 5, .setn 3 1, .choice 6 7, .lend 2, .test 0 13 8,
    .choice 9 11, .setn 4 1, .goto 13, .setn 4 2, .maybe 1, .choice 14 20, .test 0 15 76,
    .testn 4 1 16 17, .none 1, .testn 3 1 18 19, .none 0, .ret false, .test 0 26 21,
    .testn 4 1 22 23, .none 1, .testn 3 1 24 25, .none 0, .ret false, .test 2 27 34, .forget 1,
    .null 1, .copy 0 2, .test 0 32 31, .maybe 1, .held 0, .ret true, .forget 1, .null 1,
    .choice 37 41, .fresh 0, .fresh 1, .kill 1, .goto 42, .null 0, .test 0 61 43, .use 0, .use 2,
    .lend 1, .deref 0, .choice 48 50, .fresh 1, .goto 51, .null 1, .deref 0, .test 1 53 56,
    .deref 0, .null 1, .goto 61, .deref 0, .deref 2, .use 1, .held 0, .ret true, .test 0 71 62,
    .deref 0, .test 1 66 64, .deref 0, .kill 1, .kill 0, .null 1, .forget 1, .null 1, .null 0,
    .testn 4 1 72 73, .none 1, .testn 3 1 74 75, .none 0, .ret false, .goto 76]⟩

/-- `libfsapfs_directory_record_read_key_data` (libfsapfs/libfsapfs_directory_record.c:264-486).
Places: 0 `directory_record`, 1 `directory_record->name`, 2 `directory_record->members at the
start`. -/
def directory_record_read_key_data : Fn :=
  ⟨[loc, own 0, part 0],
   [.choice 1 2, .lend 0, .test 0 8 3, .choice 4 6, .setn 2 1, .goto 8, .setn 2 2, .maybe 1,
    .test 0 9 12, .testn 2 1 10 11, .none 1, .ret false, .deref 0, .test 1 17 14, .testn 2 1 15 16,
    .none 1, .ret false, .choice 18 21, .testn 2 1 19 20, .none 1, .ret false, .choice 23 22,
    .choice 23 26, .testn 2 1 24 25, .none 1, .ret false, .choice 27 31, .choice 28 31,
    .testn 2 1 29 30, .none 1, .ret false, .choice 46 32, .choice 46 33, .choice 46 34, .deref 0,
    .choice 36 38, .fresh 1, .goto 39, .null 1, .deref 0, .test 1 46 41, .deref 0, .deref 0, .use 1,
    .deref 0, .ret true, .deref 0, .test 1 52 48, .deref 0, .kill 1, .deref 0, .null 1, .deref 0,
    .testn 2 1 54 55, .none 1, .ret false]⟩

/-- `libfsapfs_directory_record_compare_name_with_utf8_string`
(libfsapfs/libfsapfs_directory_record.c:912-969).  Places: 0 `result`. -/
def directory_record_compare_name_with_utf8_string : Fn :=
  ⟨[loc],
   [.choice 1 3, .setn 0 0, .goto 7, .choice 4 6, .setn 0 1, .goto 7, .setn 0 2, .choice 8 9,
    .ret false, .choice 10 15, .choice 11 15, .choice 12 13, .ret true, .choice 14 15, .ret true,
    .choice 16 28, .choice 17 19, .setn 0 2, .goto 23, .choice 20 22, .setn 0 1, .goto 23,
    .setn 0 0, .testn 0 0 27 24, .testn 0 1 28 25, .testn 0 2 28 26, .choice 27 28, .ret false,
    .testn 0 2 29 30, .ret true, .ret false]⟩

/-- `libfsapfs_directory_record_compare_name_with_utf16_string`
(libfsapfs/libfsapfs_directory_record.c:1056-1113).  Places: 0 `result`. -/
def directory_record_compare_name_with_utf16_string : Fn :=
  ⟨[loc],
   [.choice 1 3, .setn 0 0, .goto 7, .choice 4 6, .setn 0 1, .goto 7, .setn 0 2, .choice 8 9,
    .ret false, .choice 10 15, .choice 11 15, .choice 12 13, .ret true, .choice 14 15, .ret true,
    .choice 16 28, .choice 17 19, .setn 0 2, .goto 23, .choice 20 22, .setn 0 1, .goto 23,
    .setn 0 0, .testn 0 0 27 24, .testn 0 1 28 25, .testn 0 2 28 26, .choice 27 28, .ret false,
    .testn 0 2 29 30, .ret true, .ret false]⟩

/-- The functions of libfsapfs/libfsapfs_directory_record.c. -/
def in_directory_record : List (String × Fn) :=
  [("libfsapfs_directory_record_initialize", directory_record_initialize),
   ("libfsapfs_directory_record_free", directory_record_free),
   ("libfsapfs_directory_record_clone", directory_record_clone),
   ("libfsapfs_directory_record_read_key_data", directory_record_read_key_data),
   ("libfsapfs_directory_record_compare_name_with_utf8_string", directory_record_compare_name_with_utf8_string),
   ("libfsapfs_directory_record_compare_name_with_utf16_string", directory_record_compare_name_with_utf16_string)]

end Verif.Owner.Lib
