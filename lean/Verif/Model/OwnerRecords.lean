import Verif.Model.Ownership

/-
What the functions of records, keys and streams do with memory: see Ownership.lean for what the
instructions mean and DESIGN.md for how they were made from the source.  The build with threads
(HAVE_LIBFSAPFS_MULTI_THREAD_SUPPORT).
-/

namespace Verif.Owner.Lib

/-- `libfsapfs_encryption_context_initialize` (libfsapfs/libfsapfs_encryption_context.c:37-142).
Places: 0 `*context`, 1 `*context->decryption_context`, 2 `*context at the start`. -/
def encryption_context_initialize : Fn :=
  ⟨[out, own 0, loc],
   [.choice 1 4, .lend 0, .setn 2 2, .goto 5, .setn 2 1, .test 0 7 6, .maybe 1, .choice 8 12,
    .test 0 9 52, .testn 2 1 10 11, .none 0, .ret false, .test 0 16 13, .testn 2 1 14 15, .none 0,
    .ret false, .choice 17 20, .testn 2 1 18 19, .none 0, .ret false, .forget 1, .null 1,
    .choice 23 27, .fresh 0, .fresh 1, .kill 1, .goto 28, .null 0, .test 0 38 29, .use 0, .null 1,
    .deref 0, .choice 33 38, .test 1 34 52, .fresh 1, .deref 0, .live 0, .ret true, .test 0 49 39,
    .deref 0, .test 1 44 41, .deref 0, .kill 1, .null 1, .kill 0, .null 1, .forget 1, .null 1,
    .null 0, .testn 2 1 50 51, .none 0, .ret false, .goto 52]⟩

/-- `libfsapfs_encryption_context_free` (libfsapfs/libfsapfs_encryption_context.c:147-186).
Places: 0 `*context`, 1 `*context->decryption_context`, 2 `result`. -/
def encryption_context_free : Fn :=
  ⟨[arg, own 0, loc],
   [.maybe 0, .test 0 3 2, .maybe 1, .setn 2 2, .choice 5 7, .test 0 6 21, .ret false, .test 0 18 8,
    .deref 0, .kill 1, .null 1, .choice 13 12, .setn 2 0, .kill 0, .null 1, .forget 1, .null 1,
    .null 0, .testn 2 2 19 20, .ret true, .ret false, .goto 21]⟩

/-- `libfsapfs_encryption_aes_key_unwrap` (libfsapfs/libfsapfs_encryption_context.c:461-782).
Places: 0 `aes_context`. -/
def encryption_aes_key_unwrap : Fn :=
  ⟨[loc],
   [.choice 1 2, .ret false, .choice 3 6, .choice 4 6, .choice 5 6, .ret false, .choice 7 8,
    .ret false, .choice 9 10, .ret false, .choice 11 12, .ret false, .choice 13 14, .ret false,
    .choice 15 16, .ret false, .choice 17 18, .ret false, .choice 19 20, .ret false, .choice 21 33,
    .test 0 22 37, .fresh 0, .use 0, .choice 25 33, .choice 26 29, .choice 27 25, .use 0,
    .choice 26 33, .kill 0, .null 0, .choice 32 33, .ret true, .test 0 36 34, .kill 0, .null 0,
    .ret false, .goto 37]⟩

/-- The functions of libfsapfs/libfsapfs_encryption_context.c. -/
def in_encryption_context : List (String × Fn) :=
  [("libfsapfs_encryption_context_initialize", encryption_context_initialize),
   ("libfsapfs_encryption_context_free", encryption_context_free),
   ("libfsapfs_encryption_aes_key_unwrap", encryption_aes_key_unwrap)]

/-- `libfsapfs_extent_reference_tree_initialize`
(libfsapfs/libfsapfs_extent_reference_tree.c:38-105).  Places: 0 `*extent_reference_tree`, 1
`*extent_reference_tree at the start`. -/
def extent_reference_tree_initialize : Fn :=
  ⟨[out, loc],
   [.choice 1 4, .lend 0, .setn 1 2, .goto 5, .setn 1 1, .choice 6 10, .test 0 7 28, .testn 1 1 8 9,
    .none 0, .ret false, .test 0 14 11, .testn 1 1 12 13, .none 0, .ret false, .choice 15 17,
    .fresh 0, .goto 18, .null 0, .test 0 22 19, .use 0, .live 0, .ret true, .test 0 25 23, .kill 0,
    .null 0, .testn 1 1 26 27, .none 0, .ret false, .goto 28]⟩

/-- `libfsapfs_extent_reference_tree_free` (libfsapfs/libfsapfs_extent_reference_tree.c:110-135).
Places: 0 `*extent_reference_tree`. -/
def extent_reference_tree_free : Fn :=
  ⟨[arg],
   [.maybe 0, .choice 2 4, .test 0 3 8, .ret false, .test 0 7 5, .kill 0, .null 0, .ret true,
    .goto 8]⟩

/-- The functions of libfsapfs/libfsapfs_extent_reference_tree.c. -/
def in_extent_reference_tree : List (String × Fn) :=
  [("libfsapfs_extent_reference_tree_initialize", extent_reference_tree_initialize),
   ("libfsapfs_extent_reference_tree_free", extent_reference_tree_free)]

/-- `libfsapfs_file_extent_initialize` (libfsapfs/libfsapfs_file_extent.c:40-107).  Places: 0
`*file_extent`, 1 `*file_extent at the start`. -/
def file_extent_initialize : Fn :=
  ⟨[out, loc],
   [.choice 1 4, .lend 0, .setn 1 2, .goto 5, .setn 1 1, .choice 6 10, .test 0 7 28, .testn 1 1 8 9,
    .none 0, .ret false, .test 0 14 11, .testn 1 1 12 13, .none 0, .ret false, .choice 15 17,
    .fresh 0, .goto 18, .null 0, .test 0 22 19, .use 0, .live 0, .ret true, .test 0 25 23, .kill 0,
    .null 0, .testn 1 1 26 27, .none 0, .ret false, .goto 28]⟩

/-- `libfsapfs_file_extent_free` (libfsapfs/libfsapfs_file_extent.c:112-137).  Places: 0
`*file_extent`. -/
def file_extent_free : Fn :=
  ⟨[arg],
   [.maybe 0, .choice 2 4, .test 0 3 8, .ret false, .test 0 7 5, .kill 0, .null 0, .ret true,
    .goto 8]⟩

/-- The functions of libfsapfs/libfsapfs_file_extent.c. -/
def in_file_extent : List (String × Fn) :=
  [("libfsapfs_file_extent_initialize", file_extent_initialize),
   ("libfsapfs_file_extent_free", file_extent_free)]

/-- `libfsapfs_file_system_data_handle_initialize`
(libfsapfs/libfsapfs_file_system_data_handle.c:43-128).  Places: 0 `*file_system_data_handle`, 1
`*file_system_data_handle at the start`. -/
def file_system_data_handle_initialize : Fn :=
  ⟨[out, loc],
   [.choice 1 4, .lend 0, .setn 1 2, .goto 5, .setn 1 1, .choice 6 10, .test 0 7 35, .testn 1 1 8 9,
    .none 0, .ret false, .test 0 14 11, .testn 1 1 12 13, .none 0, .ret false, .choice 15 18,
    .testn 1 1 16 17, .none 0, .ret false, .choice 19 21, .fresh 0, .goto 22, .null 0,
    .test 0 29 23, .use 0, .deref 0, .deref 0, .deref 0, .live 0, .ret true, .test 0 32 30, .kill 0,
    .null 0, .testn 1 1 33 34, .none 0, .ret false, .goto 35]⟩

/-- `libfsapfs_file_system_data_handle_free`
(libfsapfs/libfsapfs_file_system_data_handle.c:133-158).  Places: 0 `*file_system_data_handle`. -/
def file_system_data_handle_free : Fn :=
  ⟨[arg],
   [.maybe 0, .choice 2 4, .test 0 3 8, .ret false, .test 0 7 5, .kill 0, .null 0, .ret true,
    .goto 8]⟩

/-- `libfsapfs_file_system_data_handle_read_data_block`
(libfsapfs/libfsapfs_file_system_data_handle.c:164-380).  Places: 0 `data_block`, 1 `file_extent`. -/
def file_system_data_handle_read_data_block : Fn :=
  ⟨[loc, loc],
   [.choice 1 2, .ret false, .choice 3 4, .ret false, .choice 5 6, .ret false, .choice 7 28,
    .test 0 8 32, .fresh 0, .choice 10 12, .use 0, .choice 24 28, .choice 13 22, .choice 14 16,
    .lend 1, .goto 19, .choice 17 28, .lend 1, .goto 28, .test 1 28 20, .deref 1, .deref 1, .use 0,
    .choice 24 28, .use 0, .choice 26 28, .give 0, .ret true, .test 0 31 29, .kill 0, .null 0,
    .ret false, .goto 32]⟩

/-- The functions of libfsapfs/libfsapfs_file_system_data_handle.c. -/
def in_file_system_data_handle : List (String × Fn) :=
  [("libfsapfs_file_system_data_handle_initialize", file_system_data_handle_initialize),
   ("libfsapfs_file_system_data_handle_free", file_system_data_handle_free),
   ("libfsapfs_file_system_data_handle_read_data_block", file_system_data_handle_read_data_block)]

/-- `libfsapfs_fusion_middle_tree_initialize` (libfsapfs/libfsapfs_fusion_middle_tree.c:38-105).
Places: 0 `*fusion_middle_tree`, 1 `*fusion_middle_tree at the start`. -/
def fusion_middle_tree_initialize : Fn :=
  ⟨[out, loc],
   [.choice 1 4, .lend 0, .setn 1 2, .goto 5, .setn 1 1, .choice 6 10, .test 0 7 28, .testn 1 1 8 9,
    .none 0, .ret false, .test 0 14 11, .testn 1 1 12 13, .none 0, .ret false, .choice 15 17,
    .fresh 0, .goto 18, .null 0, .test 0 22 19, .use 0, .live 0, .ret true, .test 0 25 23, .kill 0,
    .null 0, .testn 1 1 26 27, .none 0, .ret false, .goto 28]⟩

/-- `libfsapfs_fusion_middle_tree_free` (libfsapfs/libfsapfs_fusion_middle_tree.c:110-135).
Places: 0 `*fusion_middle_tree`. -/
def fusion_middle_tree_free : Fn :=
  ⟨[arg],
   [.maybe 0, .choice 2 4, .test 0 3 8, .ret false, .test 0 7 5, .kill 0, .null 0, .ret true,
    .goto 8]⟩

/-- The functions of libfsapfs/libfsapfs_fusion_middle_tree.c. -/
def in_fusion_middle_tree : List (String × Fn) :=
  [("libfsapfs_fusion_middle_tree_initialize", fusion_middle_tree_initialize),
   ("libfsapfs_fusion_middle_tree_free", fusion_middle_tree_free)]

/-- `libfsapfs_huffman_tree_initialize` (libfsapfs/libfsapfs_huffman_tree.c:35-205).  Places: 0
`*huffman_tree`, 1 `*huffman_tree->code_size_counts`, 2 `*huffman_tree->symbols`, 3 `*huffman_tree
at the start`. -/
def huffman_tree_initialize : Fn :=
  ⟨[out, own 0, own 0, loc],
   [.choice 1 4, .lend 0, .setn 3 2, .goto 5, .setn 3 1, .test 0 8 6, .maybe 1, .maybe 2,
    .choice 9 13, .test 0 10 83, .testn 3 1 11 12, .none 0, .ret false, .test 0 17 14,
    .testn 3 1 15 16, .none 0, .ret false, .choice 19 18, .choice 19 22, .testn 3 1 20 21, .none 0,
    .ret false, .choice 23 26, .testn 3 1 24 25, .none 0, .ret false, .forget 2, .null 2, .forget 1,
    .null 1, .choice 31 37, .fresh 0, .fresh 1, .kill 1, .fresh 2, .kill 2, .goto 38, .null 0,
    .test 0 63 39, .use 0, .null 1, .null 2, .deref 0, .choice 44 46, .fresh 2, .goto 47, .null 2,
    .deref 0, .test 2 63 49, .deref 0, .use 2, .deref 0, .choice 53 55, .fresh 1, .goto 56, .null 1,
    .deref 0, .test 1 63 58, .deref 0, .use 1, .deref 0, .live 0, .ret true, .test 0 80 64,
    .deref 0, .test 1 68 66, .deref 0, .kill 1, .deref 0, .test 2 72 70, .deref 0, .kill 2, .kill 0,
    .null 1, .null 2, .forget 2, .null 2, .forget 1, .null 1, .null 0, .testn 3 1 81 82, .none 0,
    .ret false, .goto 83]⟩

/-- `libfsapfs_huffman_tree_free` (libfsapfs/libfsapfs_huffman_tree.c:210-245).  Places: 0
`*huffman_tree`, 1 `*huffman_tree->code_size_counts`, 2 `*huffman_tree->symbols`. -/
def huffman_tree_free : Fn :=
  ⟨[arg, own 0, own 0],
   [.maybe 0, .test 0 4 2, .maybe 1, .maybe 2, .choice 5 7, .test 0 6 25, .ret false, .test 0 24 8,
    .deref 0, .test 1 12 10, .deref 0, .kill 1, .deref 0, .test 2 16 14, .deref 0, .kill 2, .kill 0,
    .null 1, .null 2, .forget 2, .null 2, .forget 1, .null 1, .null 0, .ret true, .goto 25]⟩

/-- `libfsapfs_huffman_tree_build` (libfsapfs/libfsapfs_huffman_tree.c:250-460).  Places: 0
`symbol_offsets`. -/
def huffman_tree_build : Fn :=
  ⟨[loc],
   [.choice 1 2, .ret false, .choice 3 4, .ret false, .choice 5 6, .ret false, .choice 8 7,
    .choice 8 9, .ret false, .choice 10 11, .choice 35 9, .choice 12 13, .ret false, .choice 14 15,
    .choice 35 13, .choice 16 18, .fresh 0, .goto 19, .null 0, .test 0 35 20, .deref 0, .deref 0,
    .choice 23 26, .deref 0, .deref 0, .goto 22, .choice 27 33, .choice 26 28, .deref 0,
    .choice 35 30, .choice 35 31, .deref 0, .goto 26, .kill 0, .ret true, .test 0 37 36, .kill 0,
    .ret false]⟩

/-- `libfsapfs_huffman_tree_get_symbol_from_bit_stream`
(libfsapfs/libfsapfs_huffman_tree.c:465-567).  Places: 0 `result`. -/
def huffman_tree_get_symbol_from_bit_stream : Fn :=
  ⟨[loc],
   [.setn 0 1, .choice 2 3, .ret false, .choice 4 5, .ret false, .choice 6 7, .ret false,
    .choice 8 12, .choice 10 9, .ret false, .choice 11 7, .setn 0 2, .testn 0 0 16 13,
    .testn 0 1 16 14, .testn 0 2 17 15, .choice 16 17, .ret false, .ret true]⟩

/-- The functions of libfsapfs/libfsapfs_huffman_tree.c. -/
def in_huffman_tree : List (String × Fn) :=
  [("libfsapfs_huffman_tree_initialize", huffman_tree_initialize),
   ("libfsapfs_huffman_tree_free", huffman_tree_free),
   ("libfsapfs_huffman_tree_build", huffman_tree_build),
   ("libfsapfs_huffman_tree_get_symbol_from_bit_stream", huffman_tree_get_symbol_from_bit_stream)]

/-- `libfsapfs_inode_initialize` (libfsapfs/libfsapfs_inode.c:41-108).  Places: 0 `*inode`, 1
`*inode->name`, 2 `*inode at the start`. -/
def inode_initialize : Fn :=
  ⟨[out, own 0, loc],
   [.choice 1 4, .lend 0, .setn 2 2, .goto 5, .setn 2 1, .test 0 7 6, .maybe 1, .choice 8 12,
    .test 0 9 38, .testn 2 1 10 11, .none 0, .ret false, .test 0 16 13, .testn 2 1 14 15, .none 0,
    .ret false, .forget 1, .null 1, .choice 19 23, .fresh 0, .fresh 1, .kill 1, .goto 24, .null 0,
    .test 0 29 25, .use 0, .null 1, .live 0, .ret true, .test 0 35 30, .kill 0, .null 1, .forget 1,
    .null 1, .null 0, .testn 2 1 36 37, .none 0, .ret false, .goto 38]⟩

/-- `libfsapfs_inode_free` (libfsapfs/libfsapfs_inode.c:113-143).  Places: 0 `*inode`, 1
`*inode->name`. -/
def inode_free : Fn :=
  ⟨[arg, own 0],
   [.maybe 0, .test 0 3 2, .maybe 1, .choice 4 6, .test 0 5 17, .ret false, .test 0 16 7, .deref 0,
    .test 1 11 9, .deref 0, .kill 1, .kill 0, .null 1, .forget 1, .null 1, .null 0, .ret true,
    .goto 17]⟩

/-- `libfsapfs_inode_read_value_data` (libfsapfs/libfsapfs_inode.c:227-873).  Places: 0 `inode`, 1
`inode->name`, 2 `inode->members at the start`. -/
def inode_read_value_data : Fn :=
  ⟨[loc, own 0, part 0],
   [.choice 1 2, .lend 0, .test 0 8 3, .choice 4 6, .setn 2 1, .goto 8, .setn 2 2, .maybe 1,
    .test 0 9 12, .testn 2 1 10 11, .none 1, .ret false, .deref 0, .test 1 17 14, .testn 2 1 15 16,
    .none 1, .ret false, .choice 18 21, .testn 2 1 19 20, .none 1, .ret false, .choice 23 22,
    .choice 23 26, .testn 2 1 24 25, .none 1, .ret false, .deref 0, .deref 0, .deref 0, .deref 0,
    .deref 0, .deref 0, .deref 0, .deref 0, .deref 0, .deref 0, .deref 0, .choice 38 75,
    .choice 76 39, .choice 40 75, .choice 76 41, .choice 76 42, .choice 76 43, .choice 76 44,
    .choice 39 45, .choice 39 46, .choice 39 47, .choice 39 48, .choice 39 49, .choice 39 50,
    .choice 39 51, .choice 39 52, .choice 39 53, .choice 56 54, .choice 69 55, .choice 72 76,
    .deref 0, .test 1 58 76, .deref 0, .choice 60 62, .fresh 1, .goto 63, .null 1, .deref 0,
    .test 1 76 65, .deref 0, .deref 0, .use 1, .goto 39, .choice 76 70, .deref 0, .goto 39,
    .choice 76 73, .deref 0, .goto 39, .ret true, .deref 0, .test 1 82 78, .deref 0, .kill 1,
    .deref 0, .null 1, .deref 0, .testn 2 1 84 85, .none 1, .ret false]⟩

/-- `libfsapfs_inode_get_device_number` (libfsapfs/libfsapfs_inode.c:1220-1281).  Places: 0
`result`. -/
def inode_get_device_number : Fn :=
  ⟨[loc],
   [.setn 0 1, .choice 2 3, .ret false, .choice 4 5, .ret false, .choice 6 7, .ret false,
    .choice 9 8, .choice 9 14, .choice 10 12, .setn 0 2, .goto 14, .choice 13 14, .setn 0 2,
    .testn 0 2 15 16, .ret true, .ret false]⟩

/-- The functions of libfsapfs/libfsapfs_inode.c. -/
def in_inode : List (String × Fn) :=
  [("libfsapfs_inode_initialize", inode_initialize),
   ("libfsapfs_inode_free", inode_free),
   ("libfsapfs_inode_read_value_data", inode_read_value_data),
   ("libfsapfs_inode_get_device_number", inode_get_device_number)]

/-- `libfsapfs_io_handle_initialize` (libfsapfs/libfsapfs_io_handle.c:37-150).  Places: 0
`*io_handle`, 1 `*io_handle at the start`. -/
def io_handle_initialize : Fn :=
  ⟨[out, loc],
   [.choice 1 4, .lend 0, .setn 1 2, .goto 5, .setn 1 1, .choice 6 10, .test 0 7 30, .testn 1 1 8 9,
    .none 0, .ret false, .test 0 14 11, .testn 1 1 12 13, .none 0, .ret false, .choice 15 17,
    .fresh 0, .goto 18, .null 0, .test 0 24 19, .use 0, .deref 0, .deref 0, .live 0, .ret true,
    .test 0 27 25, .kill 0, .null 0, .testn 1 1 28 29, .none 0, .ret false, .goto 30]⟩

/-- `libfsapfs_io_handle_free` (libfsapfs/libfsapfs_io_handle.c:155-210).  Places: 0 `*io_handle`,
1 `result`. -/
def io_handle_free : Fn :=
  ⟨[arg, loc],
   [.maybe 0, .setn 1 2, .choice 3 5, .test 0 4 11, .ret false, .test 0 8 6, .kill 0, .null 0,
    .testn 1 2 9 10, .ret true, .ret false, .goto 11]⟩

/-- The functions of libfsapfs/libfsapfs_io_handle.c. -/
def in_io_handle : List (String × Fn) :=
  [("libfsapfs_io_handle_initialize", io_handle_initialize),
   ("libfsapfs_io_handle_free", io_handle_free)]

/-- `libfsapfs_key_bag_entry_initialize` (libfsapfs/libfsapfs_key_bag_entry.c:39-106).  Places: 0
`*key_bag_entry`, 1 `*key_bag_entry->data`, 2 `*key_bag_entry at the start`. -/
def key_bag_entry_initialize : Fn :=
  ⟨[out, own 0, loc],
   [.choice 1 4, .lend 0, .setn 2 2, .goto 5, .setn 2 1, .test 0 7 6, .maybe 1, .choice 8 12,
    .test 0 9 38, .testn 2 1 10 11, .none 0, .ret false, .test 0 16 13, .testn 2 1 14 15, .none 0,
    .ret false, .forget 1, .null 1, .choice 19 23, .fresh 0, .fresh 1, .kill 1, .goto 24, .null 0,
    .test 0 29 25, .use 0, .null 1, .live 0, .ret true, .test 0 35 30, .kill 0, .null 1, .forget 1,
    .null 1, .null 0, .testn 2 1 36 37, .none 0, .ret false, .goto 38]⟩

/-- `libfsapfs_key_bag_entry_free` (libfsapfs/libfsapfs_key_bag_entry.c:111-141).  Places: 0
`*key_bag_entry`, 1 `*key_bag_entry->data`. -/
def key_bag_entry_free : Fn :=
  ⟨[arg, own 0],
   [.maybe 0, .test 0 3 2, .maybe 1, .choice 4 6, .test 0 5 17, .ret false, .test 0 16 7, .deref 0,
    .test 1 11 9, .deref 0, .kill 1, .kill 0, .null 1, .forget 1, .null 1, .null 0, .ret true,
    .goto 17]⟩

/-- `libfsapfs_key_bag_entry_read_data` (libfsapfs/libfsapfs_key_bag_entry.c:146-346).  Places: 0
`key_bag_entry`, 1 `key_bag_entry->data`, 2 `key_bag_entry->members at the start`. -/
def key_bag_entry_read_data : Fn :=
  ⟨[loc, own 0, part 0],
   [.choice 1 2, .lend 0, .test 0 8 3, .choice 4 6, .setn 2 1, .goto 8, .setn 2 2, .maybe 1,
    .test 0 9 12, .testn 2 1 10 11, .none 1, .ret false, .deref 0, .test 1 17 14, .testn 2 1 15 16,
    .none 1, .ret false, .choice 18 21, .testn 2 1 19 20, .none 1, .ret false, .choice 23 22,
    .choice 23 26, .testn 2 1 24 25, .none 1, .ret false, .deref 0, .deref 0, .deref 0, .deref 0,
    .choice 45 31, .deref 0, .choice 45 33, .deref 0, .choice 35 37, .fresh 1, .goto 38, .null 1,
    .deref 0, .test 1 45 40, .deref 0, .use 1, .deref 0, .deref 0, .ret true, .deref 0,
    .test 1 51 47, .deref 0, .kill 1, .deref 0, .null 1, .testn 2 1 52 53, .none 1, .ret false]⟩

/-- The functions of libfsapfs/libfsapfs_key_bag_entry.c. -/
def in_key_bag_entry : List (String × Fn) :=
  [("libfsapfs_key_bag_entry_initialize", key_bag_entry_initialize),
   ("libfsapfs_key_bag_entry_free", key_bag_entry_free),
   ("libfsapfs_key_bag_entry_read_data", key_bag_entry_read_data)]

/-- `libfsapfs_key_bag_header_initialize` (libfsapfs/libfsapfs_key_bag_header.c:39-106).  Places: 0
`*key_bag_header`, 1 `*key_bag_header at the start`. -/
def key_bag_header_initialize : Fn :=
  ⟨[out, loc],
   [.choice 1 4, .lend 0, .setn 1 2, .goto 5, .setn 1 1, .choice 6 10, .test 0 7 28, .testn 1 1 8 9,
    .none 0, .ret false, .test 0 14 11, .testn 1 1 12 13, .none 0, .ret false, .choice 15 17,
    .fresh 0, .goto 18, .null 0, .test 0 22 19, .use 0, .live 0, .ret true, .test 0 25 23, .kill 0,
    .null 0, .testn 1 1 26 27, .none 0, .ret false, .goto 28]⟩

/-- `libfsapfs_key_bag_header_free` (libfsapfs/libfsapfs_key_bag_header.c:111-136).  Places: 0
`*key_bag_header`. -/
def key_bag_header_free : Fn :=
  ⟨[arg],
   [.maybe 0, .choice 2 4, .test 0 3 8, .ret false, .test 0 7 5, .kill 0, .null 0, .ret true,
    .goto 8]⟩

/-- The functions of libfsapfs/libfsapfs_key_bag_header.c. -/
def in_key_bag_header : List (String × Fn) :=
  [("libfsapfs_key_bag_header_initialize", key_bag_header_initialize),
   ("libfsapfs_key_bag_header_free", key_bag_header_free)]

/-- `libfsapfs_key_encrypted_key_initialize` (libfsapfs/libfsapfs_key_encrypted_key.c:45-112).
Places: 0 `*key_encrypted_key`, 1 `*key_encrypted_key at the start`. -/
def key_encrypted_key_initialize : Fn :=
  ⟨[out, loc],
   [.choice 1 4, .lend 0, .setn 1 2, .goto 5, .setn 1 1, .choice 6 10, .test 0 7 28, .testn 1 1 8 9,
    .none 0, .ret false, .test 0 14 11, .testn 1 1 12 13, .none 0, .ret false, .choice 15 17,
    .fresh 0, .goto 18, .null 0, .test 0 22 19, .use 0, .live 0, .ret true, .test 0 25 23, .kill 0,
    .null 0, .testn 1 1 26 27, .none 0, .ret false, .goto 28]⟩

/-- `libfsapfs_key_encrypted_key_free` (libfsapfs/libfsapfs_key_encrypted_key.c:117-142).  Places:
0 `*key_encrypted_key`. -/
def key_encrypted_key_free : Fn :=
  ⟨[arg],
   [.maybe 0, .choice 2 4, .test 0 3 8, .ret false, .test 0 7 5, .kill 0, .null 0, .ret true,
    .goto 8]⟩

/-- `libfsapfs_key_encrypted_key_unlock_with_key`
(libfsapfs/libfsapfs_key_encrypted_key.c:834-1059).  Places: 0 `result`. -/
def key_encrypted_key_unlock_with_key : Fn :=
  ⟨[loc],
   [.setn 0 1, .choice 2 3, .ret false, .choice 6 4, .choice 6 5, .ret false, .choice 7 8,
    .ret false, .choice 9 10, .ret false, .choice 11 12, .ret false, .choice 13 14, .ret false,
    .choice 15 22, .choice 19 16, .choice 17 18, .choice 18 22, .setn 0 2, .testn 0 2 20 21,
    .ret true, .ret false, .ret false]⟩

/-- `libfsapfs_key_encrypted_key_unlock_with_password`
(libfsapfs/libfsapfs_key_encrypted_key.c:1064-1241).  Places: 0 `result`. -/
def key_encrypted_key_unlock_with_password : Fn :=
  ⟨[loc],
   [.setn 0 1, .choice 2 3, .ret false, .choice 7 4, .choice 7 5, .choice 7 6, .ret false,
    .choice 8 9, .ret false, .choice 10 11, .ret false, .choice 12 18, .choice 13 18, .choice 15 14,
    .setn 0 2, .testn 0 2 16 17, .ret true, .ret false, .ret false]⟩

/-- The functions of libfsapfs/libfsapfs_key_encrypted_key.c. -/
def in_key_encrypted_key : List (String × Fn) :=
  [("libfsapfs_key_encrypted_key_initialize", key_encrypted_key_initialize),
   ("libfsapfs_key_encrypted_key_free", key_encrypted_key_free),
   ("libfsapfs_key_encrypted_key_unlock_with_key", key_encrypted_key_unlock_with_key),
   ("libfsapfs_key_encrypted_key_unlock_with_password", key_encrypted_key_unlock_with_password)]

/-- `libfsapfs_object_initialize` (libfsapfs/libfsapfs_object.c:41-108).  Places: 0 `*object`, 1
`*object at the start`. -/
def object_initialize : Fn :=
  ⟨[out, loc],
   [.choice 1 4, .lend 0, .setn 1 2, .goto 5, .setn 1 1, .choice 6 10, .test 0 7 28, .testn 1 1 8 9,
    .none 0, .ret false, .test 0 14 11, .testn 1 1 12 13, .none 0, .ret false, .choice 15 17,
    .fresh 0, .goto 18, .null 0, .test 0 22 19, .use 0, .live 0, .ret true, .test 0 25 23, .kill 0,
    .null 0, .testn 1 1 26 27, .none 0, .ret false, .goto 28]⟩

/-- `libfsapfs_object_free` (libfsapfs/libfsapfs_object.c:113-138).  Places: 0 `*object`. -/
def object_free : Fn :=
  ⟨[arg],
   [.maybe 0, .choice 2 4, .test 0 3 8, .ret false, .test 0 7 5, .kill 0, .null 0, .ret true,
    .goto 8]⟩

/-- The functions of libfsapfs/libfsapfs_object.c. -/
def in_object : List (String × Fn) :=
  [("libfsapfs_object_initialize", object_initialize),
   ("libfsapfs_object_free", object_free)]

/-- `libfsapfs_object_map_initialize` (libfsapfs/libfsapfs_object_map.c:38-105).  Places: 0
`*object_map`, 1 `*object_map at the start`. -/
def object_map_initialize : Fn :=
  ⟨[out, loc],
   [.choice 1 4, .lend 0, .setn 1 2, .goto 5, .setn 1 1, .choice 6 10, .test 0 7 28, .testn 1 1 8 9,
    .none 0, .ret false, .test 0 14 11, .testn 1 1 12 13, .none 0, .ret false, .choice 15 17,
    .fresh 0, .goto 18, .null 0, .test 0 22 19, .use 0, .live 0, .ret true, .test 0 25 23, .kill 0,
    .null 0, .testn 1 1 26 27, .none 0, .ret false, .goto 28]⟩

/-- `libfsapfs_object_map_free` (libfsapfs/libfsapfs_object_map.c:110-135).  Places: 0
`*object_map`. -/
def object_map_free : Fn :=
  ⟨[arg],
   [.maybe 0, .choice 2 4, .test 0 3 8, .ret false, .test 0 7 5, .kill 0, .null 0, .ret true,
    .goto 8]⟩

/-- The functions of libfsapfs/libfsapfs_object_map.c. -/
def in_object_map : List (String × Fn) :=
  [("libfsapfs_object_map_initialize", object_map_initialize),
   ("libfsapfs_object_map_free", object_map_free)]

/-- `libfsapfs_object_map_descriptor_initialize`
(libfsapfs/libfsapfs_object_map_descriptor.c:37-104).  Places: 0 `*object_map_descriptor`, 1
`*object_map_descriptor at the start`. -/
def object_map_descriptor_initialize : Fn :=
  ⟨[out, loc],
   [.choice 1 4, .lend 0, .setn 1 2, .goto 5, .setn 1 1, .choice 6 10, .test 0 7 28, .testn 1 1 8 9,
    .none 0, .ret false, .test 0 14 11, .testn 1 1 12 13, .none 0, .ret false, .choice 15 17,
    .fresh 0, .goto 18, .null 0, .test 0 22 19, .use 0, .live 0, .ret true, .test 0 25 23, .kill 0,
    .null 0, .testn 1 1 26 27, .none 0, .ret false, .goto 28]⟩

/-- `libfsapfs_object_map_descriptor_free` (libfsapfs/libfsapfs_object_map_descriptor.c:109-134).
Places: 0 `*object_map_descriptor`. -/
def object_map_descriptor_free : Fn :=
  ⟨[arg],
   [.maybe 0, .choice 2 4, .test 0 3 8, .ret false, .test 0 7 5, .kill 0, .null 0, .ret true,
    .goto 8]⟩

/-- The functions of libfsapfs/libfsapfs_object_map_descriptor.c. -/
def in_object_map_descriptor : List (String × Fn) :=
  [("libfsapfs_object_map_descriptor_initialize", object_map_descriptor_initialize),
   ("libfsapfs_object_map_descriptor_free", object_map_descriptor_free)]

/-- `libfsapfs_password_pbkdf2` (libfsapfs/libfsapfs_password.c:36-417).  Places: 0 `data_buffer`,
1 `result`. -/
def password_pbkdf2 : Fn :=
  ⟨[loc, loc],
   [.setn 1 1, .choice 2 3, .ret false, .choice 4 5, .ret false, .choice 6 7, .ret false,
    .choice 8 9, .ret false, .choice 10 11, .ret false, .choice 12 13, .ret false, .choice 14 15,
    .ret false, .choice 80 16, .choice 17 19, .fresh 0, .goto 20, .null 0, .test 0 80 21, .use 0,
    .use 0, .choice 24 50, .deref 0, .use 0, .choice 27 29, .setn 1 2, .goto 33, .choice 30 32,
    .setn 1 1, .goto 33, .setn 1 0, .testn 1 0 80 34, .testn 1 1 80 35, .testn 1 2 37 36,
    .choice 80 37, .choice 38 23, .choice 39 41, .setn 1 2, .goto 45, .choice 42 44, .setn 1 1,
    .goto 45, .setn 1 0, .testn 1 0 80 46, .testn 1 1 80 47, .testn 1 2 49 48, .choice 80 49,
    .choice 49 37, .choice 51 77, .deref 0, .use 0, .choice 54 56, .setn 1 2, .goto 60,
    .choice 57 59, .setn 1 1, .goto 60, .setn 1 0, .testn 1 0 80 61, .testn 1 1 80 62,
    .testn 1 2 64 63, .choice 80 64, .choice 65 77, .choice 66 68, .setn 1 2, .goto 72,
    .choice 69 71, .setn 1 1, .goto 72, .setn 1 0, .testn 1 0 80 73, .testn 1 1 80 74,
    .testn 1 2 76 75, .choice 80 76, .choice 76 64, .test 0 79 78, .kill 0, .ret true,
    .test 0 82 81, .kill 0, .ret false]⟩

/-- The functions of libfsapfs/libfsapfs_password.c. -/
def in_password : List (String × Fn) :=
  [("libfsapfs_password_pbkdf2", password_pbkdf2)]

/-- `libfsapfs_snapshot_metadata_initialize` (libfsapfs/libfsapfs_snapshot_metadata.c:40-107).
Places: 0 `*snapshot_metadata`, 1 `*snapshot_metadata->name`, 2 `*snapshot_metadata at the start`. -/
def snapshot_metadata_initialize : Fn :=
  ⟨[out, own 0, loc],
   [.choice 1 4, .lend 0, .setn 2 2, .goto 5, .setn 2 1, .test 0 7 6, .maybe 1, .choice 8 12,
    .test 0 9 38, .testn 2 1 10 11, .none 0, .ret false, .test 0 16 13, .testn 2 1 14 15, .none 0,
    .ret false, .forget 1, .null 1, .choice 19 23, .fresh 0, .fresh 1, .kill 1, .goto 24, .null 0,
    .test 0 29 25, .use 0, .null 1, .live 0, .ret true, .test 0 35 30, .kill 0, .null 1, .forget 1,
    .null 1, .null 0, .testn 2 1 36 37, .none 0, .ret false, .goto 38]⟩

/-- `libfsapfs_snapshot_metadata_free` (libfsapfs/libfsapfs_snapshot_metadata.c:112-142).  Places:
0 `*snapshot_metadata`, 1 `*snapshot_metadata->name`. -/
def snapshot_metadata_free : Fn :=
  ⟨[arg, own 0],
   [.maybe 0, .test 0 3 2, .maybe 1, .choice 4 6, .test 0 5 17, .ret false, .test 0 16 7, .deref 0,
    .test 1 11 9, .deref 0, .kill 1, .kill 0, .null 1, .forget 1, .null 1, .null 0, .ret true,
    .goto 17]⟩

/-- `libfsapfs_snapshot_metadata_read_value_data`
(libfsapfs/libfsapfs_snapshot_metadata.c:228-456).  Places: 0 `snapshot_metadata`, 1
`snapshot_metadata->name`, 2 `snapshot_metadata->members at the start`. -/
def snapshot_metadata_read_value_data : Fn :=
  ⟨[loc, own 0, part 0],
   [.choice 1 2, .lend 0, .test 0 7 3, .choice 4 6, .setn 2 1, .goto 7, .setn 2 2, .test 0 8 11,
    .testn 2 1 9 10, .none 1, .ret false, .choice 12 15, .testn 2 1 13 14, .none 1, .ret false,
    .choice 17 16, .choice 17 20, .testn 2 1 18 19, .none 1, .ret false, .deref 0, .choice 34 22,
    .choice 34 23, .deref 0, .choice 25 27, .fresh 1, .goto 28, .null 1, .deref 0, .test 1 34 30,
    .deref 0, .deref 0, .use 1, .ret true, .deref 0, .test 1 40 36, .deref 0, .kill 1, .deref 0,
    .null 1, .deref 0, .testn 2 1 42 43, .none 1, .ret false]⟩

/-- The functions of libfsapfs/libfsapfs_snapshot_metadata.c. -/
def in_snapshot_metadata : List (String × Fn) :=
  [("libfsapfs_snapshot_metadata_initialize", snapshot_metadata_initialize),
   ("libfsapfs_snapshot_metadata_free", snapshot_metadata_free),
   ("libfsapfs_snapshot_metadata_read_value_data", snapshot_metadata_read_value_data)]

/-- `libfsapfs_space_manager_initialize` (libfsapfs/libfsapfs_space_manager.c:38-105).  Places: 0
`*space_manager`, 1 `*space_manager at the start`. -/
def space_manager_initialize : Fn :=
  ⟨[out, loc],
   [.choice 1 4, .lend 0, .setn 1 2, .goto 5, .setn 1 1, .choice 6 10, .test 0 7 28, .testn 1 1 8 9,
    .none 0, .ret false, .test 0 14 11, .testn 1 1 12 13, .none 0, .ret false, .choice 15 17,
    .fresh 0, .goto 18, .null 0, .test 0 22 19, .use 0, .live 0, .ret true, .test 0 25 23, .kill 0,
    .null 0, .testn 1 1 26 27, .none 0, .ret false, .goto 28]⟩

/-- `libfsapfs_space_manager_free` (libfsapfs/libfsapfs_space_manager.c:110-135).  Places: 0
`*space_manager`. -/
def space_manager_free : Fn :=
  ⟨[arg],
   [.maybe 0, .choice 2 4, .test 0 3 8, .ret false, .test 0 7 5, .kill 0, .null 0, .ret true,
    .goto 8]⟩

/-- The functions of libfsapfs/libfsapfs_space_manager.c. -/
def in_space_manager : List (String × Fn) :=
  [("libfsapfs_space_manager_initialize", space_manager_initialize),
   ("libfsapfs_space_manager_free", space_manager_free)]

/-- `libfsapfs_check_container_signature` (libfsapfs/libfsapfs_support.c:111-211).  Places: 0
`file_io_handle`, 1 `result`. -/
def check_container_signature : Fn :=
  ⟨[loc, loc],
   [.setn 1 1, .choice 2 3, .ret false, .choice 27 4, .choice 5 27, .test 0 6 31, .fresh 0, .use 0,
    .choice 9 27, .use 0, .choice 11 13, .setn 1 2, .goto 17, .choice 14 16, .setn 1 1, .goto 17,
    .setn 1 0, .testn 1 0 27 18, .testn 1 1 21 19, .testn 1 2 21 20, .choice 27 21, .kill 0,
    .null 0, .choice 24 27, .testn 1 2 25 26, .ret true, .ret false, .test 0 30 28, .kill 0,
    .null 0, .ret false, .goto 31]⟩

/-- `libfsapfs_check_volume_signature` (libfsapfs/libfsapfs_support.c:216-316).  Places: 0
`file_io_handle`, 1 `result`. -/
def check_volume_signature : Fn :=
  ⟨[loc, loc],
   [.setn 1 1, .choice 2 3, .ret false, .choice 27 4, .choice 5 27, .test 0 6 31, .fresh 0, .use 0,
    .choice 9 27, .use 0, .choice 11 13, .setn 1 2, .goto 17, .choice 14 16, .setn 1 1, .goto 17,
    .setn 1 0, .testn 1 0 27 18, .testn 1 1 21 19, .testn 1 2 21 20, .choice 27 21, .kill 0,
    .null 0, .choice 24 27, .testn 1 2 25 26, .ret true, .ret false, .test 0 30 28, .kill 0,
    .null 0, .ret false, .goto 31]⟩

/-- `libfsapfs_check_container_signature_wide` (libfsapfs/libfsapfs_support.c:323-423).  Places: 0
`file_io_handle`, 1 `result`. -/
def check_container_signature_wide : Fn :=
  ⟨[loc, loc],
   [.setn 1 1, .choice 2 3, .ret false, .choice 27 4, .choice 5 27, .test 0 6 31, .fresh 0, .use 0,
    .choice 9 27, .use 0, .choice 11 13, .setn 1 2, .goto 17, .choice 14 16, .setn 1 1, .goto 17,
    .setn 1 0, .testn 1 0 27 18, .testn 1 1 21 19, .testn 1 2 21 20, .choice 27 21, .kill 0,
    .null 0, .choice 24 27, .testn 1 2 25 26, .ret true, .ret false, .test 0 30 28, .kill 0,
    .null 0, .ret false, .goto 31]⟩

/-- `libfsapfs_check_volume_signature_wide` (libfsapfs/libfsapfs_support.c:428-528).  Places: 0
`file_io_handle`, 1 `result`. -/
def check_volume_signature_wide : Fn :=
  ⟨[loc, loc],
   [.setn 1 1, .choice 2 3, .ret false, .choice 27 4, .choice 5 27, .test 0 6 31, .fresh 0, .use 0,
    .choice 9 27, .use 0, .choice 11 13, .setn 1 2, .goto 17, .choice 14 16, .setn 1 1, .goto 17,
    .setn 1 0, .testn 1 0 27 18, .testn 1 1 21 19, .testn 1 2 21 20, .choice 27 21, .kill 0,
    .null 0, .choice 24 27, .testn 1 2 25 26, .ret true, .ret false, .test 0 30 28, .kill 0,
    .null 0, .ret false, .goto 31]⟩

/-- The functions of libfsapfs/libfsapfs_support.c. -/
def in_support : List (String × Fn) :=
  [("libfsapfs_check_container_signature", check_container_signature),
   ("libfsapfs_check_volume_signature", check_volume_signature),
   ("libfsapfs_check_container_signature_wide", check_container_signature_wide),
   ("libfsapfs_check_volume_signature_wide", check_volume_signature_wide)]

/-- `libfsapfs_volume_key_bag_initialize` (libfsapfs/libfsapfs_volume_key_bag.c:46-132).  Places: 0
`*volume_key_bag`, 1 `*volume_key_bag->entries_array`, 2 `*volume_key_bag at the start`. -/
def volume_key_bag_initialize : Fn :=
  ⟨[out, own 0, loc],
   [.choice 1 4, .lend 0, .setn 2 2, .goto 5, .setn 2 1, .test 0 7 6, .maybe 1, .choice 8 12,
    .test 0 9 42, .testn 2 1 10 11, .none 0, .ret false, .test 0 16 13, .testn 2 1 14 15, .none 0,
    .ret false, .forget 1, .null 1, .choice 19 23, .fresh 0, .fresh 1, .kill 1, .goto 24, .null 0,
    .test 0 33 25, .use 0, .null 1, .deref 0, .choice 29 33, .test 1 30 42, .fresh 1, .live 0,
    .ret true, .test 0 39 34, .kill 0, .null 1, .forget 1, .null 1, .null 0, .testn 2 1 40 41,
    .none 0, .ret false, .goto 42]⟩

/-- `libfsapfs_volume_key_bag_free` (libfsapfs/libfsapfs_volume_key_bag.c:137-177).  Places: 0
`*volume_key_bag`, 1 `*volume_key_bag->entries_array`, 2 `result`. -/
def volume_key_bag_free : Fn :=
  ⟨[arg, own 0, loc],
   [.maybe 0, .test 0 3 2, .maybe 1, .setn 2 2, .choice 5 7, .test 0 6 21, .ret false, .test 0 18 8,
    .deref 0, .kill 1, .null 1, .choice 13 12, .setn 2 0, .kill 0, .null 1, .forget 1, .null 1,
    .null 0, .testn 2 2 19 20, .ret true, .ret false, .goto 21]⟩

/-- `libfsapfs_volume_key_bag_read_file_io_handle` (libfsapfs/libfsapfs_volume_key_bag.c:182-419).
Places: 0 `data`, 1 `encrypted_data`, 2 `encryption_context`. -/
def volume_key_bag_read_file_io_handle : Fn :=
  ⟨[loc, loc, loc],
   [.choice 1 2, .ret false, .choice 3 4, .ret false, .choice 5 6, .ret false, .choice 8 7,
    .choice 8 9, .ret false, .choice 10 12, .fresh 1, .goto 13, .null 1, .test 1 39 14, .use 1,
    .choice 39 16, .choice 17 19, .fresh 0, .goto 20, .null 0, .test 0 39 21, .choice 22 39,
    .test 2 23 47, .fresh 2, .use 2, .choice 26 39, .use 2, .use 1, .use 0, .choice 30 39, .kill 2,
    .null 2, .choice 33 39, .kill 1, .null 1, .use 0, .choice 37 39, .kill 0, .ret true,
    .test 2 42 40, .kill 2, .null 2, .test 0 44 43, .kill 0, .test 1 46 45, .kill 1, .ret false,
    .goto 47]⟩

/-- `libfsapfs_volume_key_bag_read_data` (libfsapfs/libfsapfs_volume_key_bag.c:424-725).  Places: 0
`bag_entry`, 1 `bag_header`. -/
def volume_key_bag_read_data : Fn :=
  ⟨[loc, loc],
   [.choice 1 2, .ret false, .choice 3 4, .ret false, .choice 6 5, .choice 6 7, .ret false,
    .choice 34 8, .choice 34 9, .choice 10 34, .test 1 11 41, .fresh 1, .use 1, .choice 14 34,
    .deref 1, .choice 34 16, .deref 1, .choice 18 31, .choice 19 34, .test 0 20 41, .fresh 0,
    .use 0, .choice 23 34, .use 0, .choice 25 34, .give 0, .deref 0, .null 0, .choice 29 16,
    .choice 34 30, .choice 34 16, .kill 1, .null 1, .ret true, .test 0 37 35, .kill 0, .null 0,
    .test 1 40 38, .kill 1, .null 1, .ret false, .goto 41]⟩

/-- `libfsapfs_volume_key_bag_get_volume_key` (libfsapfs/libfsapfs_volume_key_bag.c:730-909).
Places: 0 `bag_entry`, 1 `key_encrypted_key`, 2 `result`. -/
def volume_key_bag_get_volume_key : Fn :=
  ⟨[loc, loc, loc],
   [.setn 2 1, .choice 2 3, .ret false, .choice 4 59, .choice 5 56, .choice 6 8, .lend 0, .goto 11,
    .choice 9 59, .lend 0, .goto 59, .test 0 59 12, .deref 0, .choice 4 14, .choice 15 59,
    .test 1 16 63, .fresh 1, .deref 0, .use 1, .choice 20 59, .choice 21 33, .use 1, .choice 23 25,
    .setn 2 2, .goto 29, .choice 26 28, .setn 2 1, .goto 29, .setn 2 0, .testn 2 0 59 30,
    .testn 2 1 33 31, .testn 2 2 33 32, .choice 59 33, .testn 2 0 50 34, .testn 2 1 37 35,
    .testn 2 2 50 36, .choice 37 50, .choice 38 50, .use 1, .choice 40 42, .setn 2 2, .goto 46,
    .choice 43 45, .setn 2 1, .goto 46, .setn 2 0, .testn 2 0 59 47, .testn 2 1 50 48,
    .testn 2 2 50 49, .choice 59 50, .kill 1, .null 1, .testn 2 0 4 53, .testn 2 1 4 54,
    .testn 2 2 56 55, .choice 56 4, .testn 2 2 57 58, .ret true, .ret false, .test 1 62 60, .kill 1,
    .null 1, .ret false, .goto 63]⟩

/-- The functions of libfsapfs/libfsapfs_volume_key_bag.c. -/
def in_volume_key_bag : List (String × Fn) :=
  [("libfsapfs_volume_key_bag_initialize", volume_key_bag_initialize),
   ("libfsapfs_volume_key_bag_free", volume_key_bag_free),
   ("libfsapfs_volume_key_bag_read_file_io_handle", volume_key_bag_read_file_io_handle),
   ("libfsapfs_volume_key_bag_read_data", volume_key_bag_read_data),
   ("libfsapfs_volume_key_bag_get_volume_key", volume_key_bag_get_volume_key)]

/-- `libfsapfs_volume_superblock_initialize` (libfsapfs/libfsapfs_volume_superblock.c:44-111).
Places: 0 `*volume_superblock`, 1 `*volume_superblock at the start`. -/
def volume_superblock_initialize : Fn :=
  ⟨[out, loc],
   [.choice 1 4, .lend 0, .setn 1 2, .goto 5, .setn 1 1, .choice 6 10, .test 0 7 28, .testn 1 1 8 9,
    .none 0, .ret false, .test 0 14 11, .testn 1 1 12 13, .none 0, .ret false, .choice 15 17,
    .fresh 0, .goto 18, .null 0, .test 0 22 19, .use 0, .live 0, .ret true, .test 0 25 23, .kill 0,
    .null 0, .testn 1 1 26 27, .none 0, .ret false, .goto 28]⟩

/-- `libfsapfs_volume_superblock_free` (libfsapfs/libfsapfs_volume_superblock.c:116-141).  Places:
0 `*volume_superblock`. -/
def volume_superblock_free : Fn :=
  ⟨[arg],
   [.maybe 0, .choice 2 4, .test 0 3 8, .ret false, .test 0 7 5, .kill 0, .null 0, .ret true,
    .goto 8]⟩

/-- The functions of libfsapfs/libfsapfs_volume_superblock.c. -/
def in_volume_superblock : List (String × Fn) :=
  [("libfsapfs_volume_superblock_initialize", volume_superblock_initialize),
   ("libfsapfs_volume_superblock_free", volume_superblock_free)]

end Verif.Owner.Lib
