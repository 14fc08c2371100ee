import Verif.Model.Ownership

/-
What the functions of the B-trees do with memory: see Ownership.lean for what the
instructions mean and DESIGN.md for how they were made from the source.  The build with threads
(HAVE_LIBFSAPFS_MULTI_THREAD_SUPPORT).
-/

namespace Verif.Owner.Lib

/-- `libfsapfs_file_system_initialize` (libfsapfs/libfsapfs_file_system.c:41-135).  Places: 0
`*file_system`, 1 `*file_system->file_system_btree`, 2 `*file_system->read_write_lock`, 3
`file_system_btree`, 4 `*file_system at the start`. -/
def file_system_initialize : Fn :=
  ⟨[out, own 0, own 0, loc, loc],
   [.choice 1 4, .lend 0, .setn 4 2, .goto 5, .setn 4 1, .maybe 3, .test 0 9 7, .maybe 1, .maybe 2,
    .choice 10 16, .test 0 11 62, .held 3, .forget 3, .testn 4 1 14 15, .none 0, .ret false,
    .test 0 22 17, .held 3, .forget 3, .testn 4 1 20 21, .none 0, .ret false, .forget 2, .null 2,
    .forget 1, .null 1, .choice 27 33, .fresh 0, .fresh 1, .kill 1, .fresh 2, .kill 2, .goto 34,
    .null 0, .test 0 48 35, .use 0, .null 1, .null 2, .deref 0, .choice 40 48, .test 2 41 62,
    .fresh 2, .deref 0, .deref 0, .deref 0, .copy 1 3, .live 0, .ret true, .test 0 57 49, .kill 0,
    .null 1, .null 2, .forget 2, .null 2, .forget 1, .null 1, .null 0, .held 3, .forget 3,
    .testn 4 1 60 61, .none 0, .ret false, .goto 62]⟩

/-- `libfsapfs_file_system_free` (libfsapfs/libfsapfs_file_system.c:140-197).  Places: 0
`*file_system`, 1 `*file_system->file_system_btree`, 2 `*file_system->read_write_lock`, 3 `result`. -/
def file_system_free : Fn :=
  ⟨[arg, own 0, own 0, loc],
   [.maybe 0, .test 0 4 2, .maybe 1, .maybe 2, .setn 3 2, .choice 6 8, .test 0 7 32, .ret false,
    .test 0 29 9, .deref 0, .test 1 16 11, .deref 0, .kill 1, .null 1, .choice 16 15, .setn 3 0,
    .deref 0, .kill 2, .null 2, .choice 21 20, .setn 3 0, .kill 0, .null 1, .null 2, .forget 2,
    .null 2, .forget 1, .null 1, .null 0, .testn 3 2 30 31, .ret true, .ret false, .goto 32]⟩

/-- `libfsapfs_file_system_get_file_entry_by_identifier`
(libfsapfs/libfsapfs_file_system.c:202-300).  Places: 0 `*file_entry`, 1 `inode`, 2 `*file_entry at
the start`, 3 `result`. -/
def file_system_get_file_entry_by_identifier : Fn :=
  ⟨[out, loc, loc, loc],
   [.choice 1 4, .lend 0, .setn 2 2, .goto 5, .setn 2 1, .setn 3 1, .choice 7 10, .testn 2 1 8 9,
    .none 0, .ret false, .choice 11 15, .test 0 12 53, .testn 2 1 13 14, .none 0, .ret false,
    .test 0 19 16, .testn 2 1 17 18, .none 0, .ret false, .choice 20 24, .test 1 21 53, .fresh 1,
    .setn 3 2, .goto 28, .choice 25 27, .setn 3 1, .goto 28, .setn 3 0, .testn 3 0 47 29,
    .testn 3 1 32 30, .testn 3 2 32 31, .choice 47 32, .testn 3 0 36 33, .testn 3 1 41 34,
    .testn 3 2 36 35, .choice 36 41, .use 1, .choice 38 47, .test 0 39 53, .fresh 0, .give 1,
    .testn 3 2 42 44, .live 0, .ret true, .testn 2 1 45 46, .none 0, .ret false, .test 1 50 48,
    .kill 1, .null 1, .testn 2 1 51 52, .none 0, .ret false, .goto 53]⟩

/-- `libfsapfs_file_system_get_file_entry_by_utf8_path`
(libfsapfs/libfsapfs_file_system.c:305-415).  Places: 0 `*file_entry`, 1 `directory_record`, 2
`inode`, 3 `*file_entry at the start`, 4 `result`. -/
def file_system_get_file_entry_by_utf8_path : Fn :=
  ⟨[out, loc, loc, loc, loc],
   [.choice 1 4, .lend 0, .setn 3 2, .goto 5, .setn 3 1, .setn 4 1, .choice 7 10, .testn 3 1 8 9,
    .none 0, .ret false, .choice 11 15, .test 0 12 62, .testn 3 1 13 14, .none 0, .ret false,
    .test 0 19 16, .testn 3 1 17 18, .none 0, .ret false, .choice 20 26, .test 2 21 62, .fresh 2,
    .test 1 23 62, .maybe 1, .setn 4 2, .goto 30, .choice 27 29, .setn 4 1, .goto 30, .setn 4 0,
    .testn 4 0 53 31, .testn 4 1 34 32, .testn 4 2 34 33, .choice 53 34, .testn 4 0 38 35,
    .testn 4 1 47 36, .testn 4 2 38 37, .choice 38 47, .use 2, .use 1, .choice 41 53, .test 0 42 62,
    .fresh 0, .give 2, .give 1, .null 2, .null 1, .testn 4 2 48 50, .live 0, .ret true,
    .testn 3 1 51 52, .none 0, .ret false, .test 1 56 54, .kill 1, .null 1, .test 2 59 57, .kill 2,
    .null 2, .testn 3 1 60 61, .none 0, .ret false, .goto 62]⟩

/-- `libfsapfs_file_system_get_file_entry_by_utf16_path`
(libfsapfs/libfsapfs_file_system.c:420-530).  Places: 0 `*file_entry`, 1 `directory_record`, 2
`inode`, 3 `*file_entry at the start`, 4 `result`. -/
def file_system_get_file_entry_by_utf16_path : Fn :=
  ⟨[out, loc, loc, loc, loc],
   [.choice 1 4, .lend 0, .setn 3 2, .goto 5, .setn 3 1, .setn 4 1, .choice 7 10, .testn 3 1 8 9,
    .none 0, .ret false, .choice 11 15, .test 0 12 62, .testn 3 1 13 14, .none 0, .ret false,
    .test 0 19 16, .testn 3 1 17 18, .none 0, .ret false, .choice 20 26, .test 2 21 62, .fresh 2,
    .test 1 23 62, .maybe 1, .setn 4 2, .goto 30, .choice 27 29, .setn 4 1, .goto 30, .setn 4 0,
    .testn 4 0 53 31, .testn 4 1 34 32, .testn 4 2 34 33, .choice 53 34, .testn 4 0 38 35,
    .testn 4 1 47 36, .testn 4 2 38 37, .choice 38 47, .use 2, .use 1, .choice 41 53, .test 0 42 62,
    .fresh 0, .give 2, .give 1, .null 2, .null 1, .testn 4 2 48 50, .live 0, .ret true,
    .testn 3 1 51 52, .none 0, .ret false, .test 1 56 54, .kill 1, .null 1, .test 2 59 57, .kill 2,
    .null 2, .testn 3 1 60 61, .none 0, .ret false, .goto 62]⟩

/-- The functions of libfsapfs/libfsapfs_file_system.c. -/
def in_file_system : List (String × Fn) :=
  [("libfsapfs_file_system_initialize", file_system_initialize),
   ("libfsapfs_file_system_free", file_system_free),
   ("libfsapfs_file_system_get_file_entry_by_identifier", file_system_get_file_entry_by_identifier),
   ("libfsapfs_file_system_get_file_entry_by_utf8_path", file_system_get_file_entry_by_utf8_path),
   ("libfsapfs_file_system_get_file_entry_by_utf16_path", file_system_get_file_entry_by_utf16_path)]

/-- `libfsapfs_file_system_btree_initialize` (libfsapfs/libfsapfs_file_system_btree.c:57-170).
Places: 0 `*file_system_btree`, 1 `*file_system_btree->data_block_cache`, 2
`*file_system_btree->node_cache`, 3 `*file_system_btree at the start`. -/
def file_system_btree_initialize : Fn :=
  ⟨[out, own 0, own 0, loc],
   [.choice 1 4, .lend 0, .setn 3 2, .goto 5, .setn 3 1, .test 0 8 6, .maybe 1, .maybe 2,
    .choice 9 13, .test 0 10 61, .testn 3 1 11 12, .none 0, .ret false, .test 0 17 14,
    .testn 3 1 15 16, .none 0, .ret false, .forget 2, .null 2, .forget 1, .null 1, .choice 22 28,
    .fresh 0, .fresh 1, .kill 1, .fresh 2, .kill 2, .goto 29, .null 0, .test 0 49 30, .use 0,
    .null 1, .null 2, .deref 0, .choice 35 49, .test 1 36 61, .fresh 1, .deref 0, .choice 39 49,
    .test 2 40 61, .fresh 2, .deref 0, .deref 0, .deref 0, .deref 0, .deref 0, .deref 0, .live 0,
    .ret true, .test 0 58 50, .kill 0, .null 1, .null 2, .forget 2, .null 2, .forget 1, .null 1,
    .null 0, .testn 3 1 59 60, .none 0, .ret false, .goto 61]⟩

/-- `libfsapfs_file_system_btree_free` (libfsapfs/libfsapfs_file_system_btree.c:175-229).  Places:
0 `*file_system_btree`, 1 `*file_system_btree->data_block_cache`, 2
`*file_system_btree->node_cache`, 3 `result`. -/
def file_system_btree_free : Fn :=
  ⟨[arg, own 0, own 0, loc],
   [.maybe 0, .test 0 4 2, .maybe 1, .maybe 2, .setn 3 2, .choice 6 8, .test 0 7 30, .ret false,
    .test 0 27 9, .deref 0, .kill 2, .null 2, .choice 14 13, .setn 3 0, .deref 0, .kill 1, .null 1,
    .choice 19 18, .setn 3 0, .kill 0, .null 1, .null 2, .forget 2, .null 2, .forget 1, .null 1,
    .null 0, .testn 3 2 28 29, .ret true, .ret false, .goto 30]⟩

/-- `libfsapfs_file_system_btree_get_sub_node_block_number_from_entry`
(libfsapfs/libfsapfs_file_system_btree.c:234-385).  Places: 0 `object_map_descriptor`, 1 `result`. -/
def file_system_btree_get_sub_node_block_number_from_entry : Fn :=
  ⟨[loc, loc],
   [.setn 1 1, .choice 2 3, .ret false, .choice 4 5, .ret false, .choice 6 7, .ret false,
    .choice 8 9, .ret false, .choice 10 11, .ret false, .choice 12 16, .test 0 13 39, .fresh 0,
    .setn 1 2, .goto 20, .choice 17 19, .setn 1 1, .goto 20, .setn 1 0, .testn 1 0 35 21,
    .testn 1 1 24 22, .testn 1 2 24 23, .choice 35 24, .testn 1 0 28 25, .testn 1 1 32 26,
    .testn 1 2 28 27, .choice 28 32, .test 0 35 29, .deref 0, .kill 0, .null 0, .testn 1 2 33 34,
    .ret true, .ret false, .test 0 38 36, .kill 0, .null 0, .ret false, .goto 39]⟩

/-- `libfsapfs_file_system_btree_get_root_node` (libfsapfs/libfsapfs_file_system_btree.c:390-725).
Places: 0 `*root_node`, 1 `cache_value`, 2 `data_block`, 3 `node`, 4 `result`. -/
def file_system_btree_get_root_node : Fn :=
  ⟨[arg, loc, loc, loc, loc],
   [.choice 1 2, .lend 0, .setn 4 1, .choice 4 5, .ret false, .choice 6 7, .ret false, .choice 8 9,
    .ret false, .choice 10 12, .test 0 11 99, .ret false, .choice 13 16, .lend 1, .setn 4 2,
    .goto 28, .choice 17 20, .lend 1, .setn 4 1, .goto 28, .choice 21 24, .lend 1, .setn 4 0,
    .goto 28, .choice 25 27, .setn 4 1, .goto 28, .setn 4 0, .testn 4 0 95 29, .testn 4 1 32 30,
    .testn 4 2 32 31, .choice 95 32, .testn 4 0 87 33, .testn 4 1 36 34, .testn 4 2 87 35,
    .choice 36 87, .choice 37 39, .lend 2, .goto 42, .choice 40 95, .lend 2, .goto 95,
    .test 2 95 43, .choice 44 95, .test 3 45 99, .fresh 3, .deref 2, .use 3, .choice 49 95,
    .deref 3, .choice 51 55, .kill 3, .null 3, .choice 54 95, .ret false, .deref 3, .choice 57 61,
    .deref 3, .choice 59 61, .deref 3, .goto 95, .deref 3, .choice 63 65, .deref 3, .goto 95,
    .deref 3, .choice 69 67, .deref 3, .choice 69 71, .deref 3, .goto 95, .deref 3, .choice 95 73,
    .deref 3, .choice 95 75, .deref 3, .choice 95 77, .use 3, .choice 79 95, .give 3, .null 3,
    .choice 82 84, .lend 1, .goto 87, .choice 85 95, .lend 1, .goto 95, .use 1, .choice 89 91,
    .lend 0, .goto 94, .choice 92 95, .lend 0, .goto 95, .ret true, .test 3 98 96, .kill 3, .null 3,
    .ret false, .goto 99]⟩

/-- `libfsapfs_file_system_btree_get_sub_node` (libfsapfs/libfsapfs_file_system_btree.c:730-1015).
Places: 0 `*sub_node`, 1 `cache_value`, 2 `data_block`, 3 `node`, 4 `result`. -/
def file_system_btree_get_sub_node : Fn :=
  ⟨[arg, loc, loc, loc, loc],
   [.choice 1 2, .lend 0, .setn 4 1, .choice 4 5, .ret false, .choice 6 7, .ret false, .choice 8 9,
    .ret false, .choice 10 12, .test 0 11 87, .ret false, .choice 13 16, .lend 1, .setn 4 2,
    .goto 28, .choice 17 20, .lend 1, .setn 4 1, .goto 28, .choice 21 24, .lend 1, .setn 4 0,
    .goto 28, .choice 25 27, .setn 4 1, .goto 28, .setn 4 0, .testn 4 0 83 29, .testn 4 1 32 30,
    .testn 4 2 32 31, .choice 83 32, .testn 4 0 75 33, .testn 4 1 36 34, .testn 4 2 75 35,
    .choice 36 75, .choice 37 39, .lend 2, .goto 42, .choice 40 83, .lend 2, .goto 83,
    .test 2 83 43, .choice 44 83, .test 3 45 87, .fresh 3, .deref 2, .use 3, .choice 49 83,
    .deref 3, .choice 51 55, .deref 3, .choice 53 55, .deref 3, .goto 83, .deref 3, .choice 57 59,
    .deref 3, .goto 83, .deref 3, .choice 63 61, .deref 3, .choice 63 65, .deref 3, .goto 83,
    .use 3, .choice 67 83, .give 3, .null 3, .choice 70 72, .lend 1, .goto 75, .choice 73 83,
    .lend 1, .goto 83, .use 1, .choice 77 79, .lend 0, .goto 82, .choice 80 83, .lend 0, .goto 83,
    .ret true, .test 3 86 84, .kill 3, .null 3, .ret false, .goto 87]⟩

/-- `libfsapfs_file_system_btree_get_entry_from_node_by_identifier`
(libfsapfs/libfsapfs_file_system_btree.c:1020-1223).  Places: 0 `*btree_entry`, 1 `entry`, 2
`previous_entry`. -/
def file_system_btree_get_entry_from_node_by_identifier : Fn :=
  ⟨[arg, loc, loc],
   [.choice 1 2, .lend 0, .choice 3 4, .ret false, .choice 5 6, .ret false, .choice 7 9,
    .test 0 8 46, .ret false, .choice 10 11, .ret false, .choice 13 12, .ret false, .choice 14 42,
    .choice 15 17, .lend 1, .goto 20, .choice 18 19, .lend 1, .ret false, .test 1 21 22, .ret false,
    .deref 1, .choice 24 25, .ret false, .deref 1, .choice 27 28, .ret false, .deref 1,
    .choice 30 33, .choice 31 13, .copy 0 1, .ret true, .choice 34 40, .test 2 37 35, .choice 36 38,
    .choice 37 38, .copy 2 1, .copy 0 2, .ret true, .copy 2 1, .goto 13, .choice 43 45, .copy 0 2,
    .ret true, .ret false, .goto 46]⟩

/-- `libfsapfs_file_system_btree_get_entry_by_identifier`
(libfsapfs/libfsapfs_file_system_btree.c:1228-1401).  Places: 0 `*btree_entry`, 1 `*btree_node`, 2
`entry`, 3 `node`, 4 `*btree_entry at the start`, 5 `*btree_node at the start`, 6 `result`. -/
def file_system_btree_get_entry_by_identifier : Fn :=
  ⟨[arg, arg, loc, loc, loc, loc, loc],
   [.choice 1 4, .lend 0, .setn 4 2, .goto 5, .setn 4 1, .choice 6 9, .lend 1, .setn 5 2, .goto 10,
    .setn 5 1, .setn 6 1, .choice 12 17, .testn 4 1 13 14, .none 0, .testn 5 1 15 16, .none 1,
    .ret false, .choice 18 24, .test 1 19 137, .testn 4 1 20 21, .none 0, .testn 5 1 22 23, .none 1,
    .ret false, .choice 25 31, .test 0 26 137, .testn 4 1 27 28, .none 0, .testn 5 1 29 30, .none 1,
    .ret false, .choice 32 35, .lend 3, .setn 6 2, .goto 47, .choice 36 39, .lend 3, .setn 6 1,
    .goto 47, .choice 40 43, .lend 3, .setn 6 0, .goto 47, .choice 44 46, .setn 6 1, .goto 47,
    .setn 6 0, .testn 6 0 51 48, .testn 6 1 56 49, .testn 6 2 56 50, .choice 51 56,
    .testn 4 1 52 53, .none 0, .testn 5 1 54 55, .none 1, .ret false, .testn 6 0 65 57,
    .testn 6 1 60 58, .testn 6 2 65 59, .choice 60 65, .testn 4 1 61 62, .none 0, .testn 5 1 63 64,
    .none 1, .ret false, .choice 67 66, .choice 67 72, .testn 4 1 68 69, .none 0, .testn 5 1 70 71,
    .none 1, .ret false, .use 3, .choice 74 79, .testn 4 1 75 76, .none 0, .testn 5 1 77 78,
    .none 1, .ret false, .use 3, .choice 81 84, .lend 2, .setn 6 2, .goto 96, .choice 85 88,
    .lend 2, .setn 6 1, .goto 96, .choice 89 92, .lend 2, .setn 6 0, .goto 96, .choice 93 95,
    .setn 6 1, .goto 96, .setn 6 0, .testn 6 0 100 97, .testn 6 1 105 98, .testn 6 2 105 99,
    .choice 100 105, .testn 4 1 101 102, .none 0, .testn 5 1 103 104, .none 1, .ret false,
    .testn 6 0 109 106, .testn 6 1 132 107, .testn 6 2 109 108, .choice 132 109, .choice 110 113,
    .copy 1 3, .copy 0 2, .ret true, .use 2, .choice 120 115, .testn 4 1 116 117, .none 0,
    .testn 5 1 118 119, .none 1, .ret false, .null 3, .choice 122 124, .lend 3, .goto 131,
    .choice 125 126, .lend 3, .testn 4 1 127 128, .none 0, .testn 5 1 129 130, .none 1, .ret false,
    .choice 65 132, .testn 4 1 133 134, .none 0, .testn 5 1 135 136, .none 1, .ret false,
    .goto 137]⟩

/-- `libfsapfs_file_system_btree_get_directory_record_from_leaf_node_by_utf8_name`
(libfsapfs/libfsapfs_file_system_btree.c:1406-1672).  Places: 0 `*directory_record`, 1 `entry`, 2
`safe_directory_record`. -/
def file_system_btree_get_directory_record_from_leaf_node_by_utf8_name : Fn :=
  ⟨[out, loc, loc],
   [.choice 1 3, .none 0, .ret false, .choice 4 7, .test 0 5 49, .none 0, .ret false, .choice 44 8,
    .choice 44 9, .choice 10 44, .choice 11 42, .choice 12 14, .lend 1, .goto 17, .choice 15 44,
    .lend 1, .goto 44, .test 1 44 18, .deref 1, .choice 44 20, .deref 1, .choice 44 22, .deref 1,
    .choice 24 10, .choice 25 44, .test 2 26 49, .fresh 2, .deref 1, .use 2, .choice 30 44, .use 2,
    .choice 44 32, .choice 33 39, .deref 1, .use 2, .choice 36 44, .copy 0 2, .live 0, .ret true,
    .kill 2, .null 2, .goto 10, .none 0, .ret false, .test 2 47 45, .kill 2, .null 2, .none 0,
    .ret false, .goto 49]⟩

/-- `libfsapfs_file_system_btree_get_directory_record_from_branch_node_by_utf8_name`
(libfsapfs/libfsapfs_file_system_btree.c:1677-2058).  Places: 0 `*directory_record`, 1 `entry`, 2
`previous_entry`, 3 `safe_directory_record`, 4 `sub_node`, 5 `result`. -/
def file_system_btree_get_directory_record_from_branch_node_by_utf8_name : Fn :=
  ⟨[out, loc, loc, loc, loc, loc],
   [.setn 5 1, .choice 2 4, .none 0, .ret false, .choice 5 7, .none 0, .ret false, .choice 8 11,
    .test 0 9 99, .none 0, .ret false, .choice 13 12, .choice 13 15, .none 0, .ret false,
    .choice 91 16, .choice 91 17, .choice 18 91, .choice 19 49, .choice 20 22, .lend 1, .goto 25,
    .choice 23 91, .lend 1, .goto 91, .test 1 91 26, .deref 1, .choice 91 28, .deref 1,
    .choice 91 30, .deref 1, .choice 49 32, .choice 33 34, .choice 49 34, .choice 35 47,
    .choice 36 47, .choice 37 91, .test 3 38 99, .fresh 3, .deref 1, .use 3, .choice 42 91, .use 3,
    .choice 91 44, .kill 3, .null 3, .choice 49 47, .copy 2 1, .goto 18, .use 2, .choice 51 91,
    .choice 52 54, .lend 4, .goto 57, .choice 55 91, .lend 4, .goto 91, .use 4, .choice 91 59,
    .choice 60 71, .use 4, .choice 62 66, .none 0, .fresh 0, .setn 5 2, .goto 81, .choice 67 69,
    .setn 5 1, .goto 81, .setn 5 0, .goto 81, .use 4, .choice 73 77, .none 0, .fresh 0, .setn 5 2,
    .goto 81, .choice 78 80, .setn 5 1, .goto 81, .setn 5 0, .testn 5 0 91 82, .testn 5 1 85 83,
    .testn 5 2 85 84, .choice 91 85, .null 4, .testn 5 2 87 89, .live 0, .ret true, .none 0,
    .ret false, .test 0 94 92, .kill 0, .null 0, .test 3 97 95, .kill 3, .null 3, .none 0,
    .ret false, .goto 99]⟩

/-- `libfsapfs_file_system_btree_get_directory_record_from_leaf_node_by_utf16_name`
(libfsapfs/libfsapfs_file_system_btree.c:2063-2329).  Places: 0 `*directory_record`, 1 `entry`, 2
`safe_directory_record`. -/
def file_system_btree_get_directory_record_from_leaf_node_by_utf16_name : Fn :=
  ⟨[out, loc, loc],
   [.choice 1 3, .none 0, .ret false, .choice 4 7, .test 0 5 49, .none 0, .ret false, .choice 44 8,
    .choice 44 9, .choice 10 44, .choice 11 42, .choice 12 14, .lend 1, .goto 17, .choice 15 44,
    .lend 1, .goto 44, .test 1 44 18, .deref 1, .choice 44 20, .deref 1, .choice 44 22, .deref 1,
    .choice 24 10, .choice 25 44, .test 2 26 49, .fresh 2, .deref 1, .use 2, .choice 30 44, .use 2,
    .choice 44 32, .choice 33 39, .deref 1, .use 2, .choice 36 44, .copy 0 2, .live 0, .ret true,
    .kill 2, .null 2, .goto 10, .none 0, .ret false, .test 2 47 45, .kill 2, .null 2, .none 0,
    .ret false, .goto 49]⟩

/-- `libfsapfs_file_system_btree_get_directory_record_from_branch_node_by_utf16_name`
(libfsapfs/libfsapfs_file_system_btree.c:2334-2715).  Places: 0 `*directory_record`, 1 `entry`, 2
`previous_entry`, 3 `safe_directory_record`, 4 `sub_node`, 5 `result`. -/
def file_system_btree_get_directory_record_from_branch_node_by_utf16_name : Fn :=
  ⟨[out, loc, loc, loc, loc, loc],
   [.setn 5 1, .choice 2 4, .none 0, .ret false, .choice 5 7, .none 0, .ret false, .choice 8 11,
    .test 0 9 99, .none 0, .ret false, .choice 13 12, .choice 13 15, .none 0, .ret false,
    .choice 91 16, .choice 91 17, .choice 18 91, .choice 19 49, .choice 20 22, .lend 1, .goto 25,
    .choice 23 91, .lend 1, .goto 91, .test 1 91 26, .deref 1, .choice 91 28, .deref 1,
    .choice 91 30, .deref 1, .choice 49 32, .choice 33 34, .choice 49 34, .choice 35 47,
    .choice 36 47, .choice 37 91, .test 3 38 99, .fresh 3, .deref 1, .use 3, .choice 42 91, .use 3,
    .choice 91 44, .kill 3, .null 3, .choice 49 47, .copy 2 1, .goto 18, .use 2, .choice 51 91,
    .choice 52 54, .lend 4, .goto 57, .choice 55 91, .lend 4, .goto 91, .use 4, .choice 91 59,
    .choice 60 71, .use 4, .choice 62 66, .none 0, .fresh 0, .setn 5 2, .goto 81, .choice 67 69,
    .setn 5 1, .goto 81, .setn 5 0, .goto 81, .use 4, .choice 73 77, .none 0, .fresh 0, .setn 5 2,
    .goto 81, .choice 78 80, .setn 5 1, .goto 81, .setn 5 0, .testn 5 0 91 82, .testn 5 1 85 83,
    .testn 5 2 85 84, .choice 91 85, .null 4, .testn 5 2 87 89, .live 0, .ret true, .none 0,
    .ret false, .test 0 94 92, .kill 0, .null 0, .test 3 97 95, .kill 3, .null 3, .none 0,
    .ret false, .goto 99]⟩

/-- `libfsapfs_file_system_btree_get_directory_entries_from_leaf_node`
(libfsapfs/libfsapfs_file_system_btree.c:2720-2974).  Places: 0 `btree_entry`, 1
`directory_record`. -/
def file_system_btree_get_directory_entries_from_leaf_node : Fn :=
  ⟨[loc, loc],
   [.choice 1 2, .ret false, .choice 3 4, .ret false, .choice 37 5, .choice 37 6, .choice 7 37,
    .choice 8 36, .choice 9 11, .lend 0, .goto 14, .choice 12 37, .lend 0, .goto 37, .test 0 37 15,
    .deref 0, .choice 37 17, .deref 0, .choice 37 19, .deref 0, .choice 36 21, .choice 7 22,
    .choice 23 37, .test 1 24 41, .fresh 1, .deref 0, .use 1, .choice 28 37, .deref 0, .use 1,
    .choice 31 37, .use 1, .choice 33 37, .give 1, .null 1, .goto 7, .ret true, .test 1 40 38,
    .kill 1, .null 1, .ret false, .goto 41]⟩

/-- `libfsapfs_file_system_btree_get_directory_entries_from_branch_node`
(libfsapfs/libfsapfs_file_system_btree.c:2979-3357).  Places: 0 `entry`, 1 `previous_entry`, 2
`sub_node`, 3 `result`. -/
def file_system_btree_get_directory_entries_from_branch_node : Fn :=
  ⟨[loc, loc, loc, loc],
   [.setn 3 1, .choice 2 3, .ret false, .choice 4 5, .ret false, .choice 7 6, .choice 7 8,
    .ret false, .choice 98 9, .choice 98 10, .choice 11 98, .choice 12 65, .choice 13 15, .lend 0,
    .goto 18, .choice 16 98, .lend 0, .goto 98, .test 0 98 19, .deref 0, .choice 98 21, .deref 0,
    .choice 98 23, .deref 0, .choice 65 25, .choice 26 27, .choice 65 27, .choice 28 63,
    .choice 29 63, .test 1 63 30, .use 1, .choice 32 98, .choice 33 35, .lend 2, .goto 38,
    .choice 36 98, .lend 2, .goto 98, .use 2, .choice 98 40, .choice 41 50, .use 2, .choice 43 45,
    .setn 3 2, .goto 58, .choice 46 48, .setn 3 1, .goto 58, .setn 3 0, .goto 58, .use 2,
    .choice 52 54, .setn 3 2, .goto 58, .choice 55 57, .setn 3 1, .goto 58, .setn 3 0,
    .testn 3 0 98 59, .testn 3 1 62 60, .testn 3 2 62 61, .choice 98 62, .null 2, .copy 1 0,
    .goto 11, .use 1, .choice 67 98, .choice 68 70, .lend 2, .goto 73, .choice 71 98, .lend 2,
    .goto 98, .use 2, .choice 98 75, .choice 76 85, .use 2, .choice 78 80, .setn 3 2, .goto 93,
    .choice 81 83, .setn 3 1, .goto 93, .setn 3 0, .goto 93, .use 2, .choice 87 89, .setn 3 2,
    .goto 93, .choice 90 92, .setn 3 1, .goto 93, .setn 3 0, .testn 3 0 98 94, .testn 3 1 97 95,
    .testn 3 2 97 96, .choice 98 97, .ret true, .ret false]⟩

/-- `libfsapfs_file_system_btree_get_directory_entries`
(libfsapfs/libfsapfs_file_system_btree.c:3362-3533).  Places: 0 `root_node`, 1 `result`. -/
def file_system_btree_get_directory_entries : Fn :=
  ⟨[loc, loc],
   [.setn 1 1, .choice 2 3, .ret false, .choice 4 7, .lend 0, .setn 1 2, .goto 19, .choice 8 11,
    .lend 0, .setn 1 1, .goto 19, .choice 12 15, .lend 0, .setn 1 0, .goto 19, .choice 16 18,
    .setn 1 1, .goto 19, .setn 1 0, .testn 1 0 56 20, .testn 1 1 23 21, .testn 1 2 23 22,
    .choice 56 23, .testn 1 0 28 24, .testn 1 1 27 25, .testn 1 2 28 26, .choice 27 28, .ret false,
    .test 0 56 29, .use 0, .choice 56 31, .choice 32 41, .use 0, .choice 34 36, .setn 1 2, .goto 49,
    .choice 37 39, .setn 1 1, .goto 49, .setn 1 0, .goto 49, .use 0, .choice 43 45, .setn 1 2,
    .goto 49, .choice 46 48, .setn 1 1, .goto 49, .setn 1 0, .testn 1 0 56 50, .testn 1 1 53 51,
    .testn 1 2 53 52, .choice 56 53, .testn 1 2 54 55, .ret true, .ret false, .ret false]⟩

/-- `libfsapfs_file_system_btree_get_attributes_from_leaf_node`
(libfsapfs/libfsapfs_file_system_btree.c:3538-3792).  Places: 0 `attribute_values`, 1
`btree_entry`. -/
def file_system_btree_get_attributes_from_leaf_node : Fn :=
  ⟨[loc, loc],
   [.choice 1 2, .ret false, .choice 3 4, .ret false, .choice 37 5, .choice 37 6, .choice 7 37,
    .choice 8 36, .choice 9 11, .lend 1, .goto 14, .choice 12 37, .lend 1, .goto 37, .test 1 37 15,
    .deref 1, .choice 37 17, .deref 1, .choice 37 19, .deref 1, .choice 36 21, .choice 7 22,
    .choice 23 37, .test 0 24 41, .fresh 0, .deref 1, .use 0, .choice 28 37, .deref 1, .use 0,
    .choice 31 37, .use 0, .choice 33 37, .give 0, .null 0, .goto 7, .ret true, .test 0 40 38,
    .kill 0, .null 0, .ret false, .goto 41]⟩

/-- `libfsapfs_file_system_btree_get_attributes_from_branch_node`
(libfsapfs/libfsapfs_file_system_btree.c:3797-4175).  Places: 0 `entry`, 1 `previous_entry`, 2
`sub_node`, 3 `result`. -/
def file_system_btree_get_attributes_from_branch_node : Fn :=
  ⟨[loc, loc, loc, loc],
   [.setn 3 1, .choice 2 3, .ret false, .choice 4 5, .ret false, .choice 7 6, .choice 7 8,
    .ret false, .choice 98 9, .choice 98 10, .choice 11 98, .choice 12 65, .choice 13 15, .lend 0,
    .goto 18, .choice 16 98, .lend 0, .goto 98, .test 0 98 19, .deref 0, .choice 98 21, .deref 0,
    .choice 98 23, .deref 0, .choice 65 25, .choice 26 27, .choice 65 27, .choice 28 63,
    .choice 29 63, .test 1 63 30, .use 1, .choice 32 98, .choice 33 35, .lend 2, .goto 38,
    .choice 36 98, .lend 2, .goto 98, .use 2, .choice 98 40, .choice 41 50, .use 2, .choice 43 45,
    .setn 3 2, .goto 58, .choice 46 48, .setn 3 1, .goto 58, .setn 3 0, .goto 58, .use 2,
    .choice 52 54, .setn 3 2, .goto 58, .choice 55 57, .setn 3 1, .goto 58, .setn 3 0,
    .testn 3 0 98 59, .testn 3 1 62 60, .testn 3 2 62 61, .choice 98 62, .null 2, .copy 1 0,
    .goto 11, .use 1, .choice 67 98, .choice 68 70, .lend 2, .goto 73, .choice 71 98, .lend 2,
    .goto 98, .use 2, .choice 98 75, .choice 76 85, .use 2, .choice 78 80, .setn 3 2, .goto 93,
    .choice 81 83, .setn 3 1, .goto 93, .setn 3 0, .goto 93, .use 2, .choice 87 89, .setn 3 2,
    .goto 93, .choice 90 92, .setn 3 1, .goto 93, .setn 3 0, .testn 3 0 98 94, .testn 3 1 97 95,
    .testn 3 2 97 96, .choice 98 97, .ret true, .ret false]⟩

/-- `libfsapfs_file_system_btree_get_attributes`
(libfsapfs/libfsapfs_file_system_btree.c:4180-4351).  Places: 0 `root_node`, 1 `result`. -/
def file_system_btree_get_attributes : Fn :=
  ⟨[loc, loc],
   [.setn 1 1, .choice 2 3, .ret false, .choice 4 7, .lend 0, .setn 1 2, .goto 19, .choice 8 11,
    .lend 0, .setn 1 1, .goto 19, .choice 12 15, .lend 0, .setn 1 0, .goto 19, .choice 16 18,
    .setn 1 1, .goto 19, .setn 1 0, .testn 1 0 56 20, .testn 1 1 23 21, .testn 1 2 23 22,
    .choice 56 23, .testn 1 0 28 24, .testn 1 1 27 25, .testn 1 2 28 26, .choice 27 28, .ret false,
    .test 0 56 29, .use 0, .choice 56 31, .choice 32 41, .use 0, .choice 34 36, .setn 1 2, .goto 49,
    .choice 37 39, .setn 1 1, .goto 49, .setn 1 0, .goto 49, .use 0, .choice 43 45, .setn 1 2,
    .goto 49, .choice 46 48, .setn 1 1, .goto 49, .setn 1 0, .testn 1 0 56 50, .testn 1 1 53 51,
    .testn 1 2 53 52, .choice 56 53, .testn 1 2 54 55, .ret true, .ret false, .ret false]⟩

/-- `libfsapfs_file_system_btree_get_file_extents_from_leaf_node`
(libfsapfs/libfsapfs_file_system_btree.c:4356-4599).  Places: 0 `btree_entry`, 1 `file_extent`. -/
def file_system_btree_get_file_extents_from_leaf_node : Fn :=
  ⟨[loc, loc],
   [.choice 1 2, .ret false, .choice 35 3, .choice 35 4, .choice 5 35, .choice 6 34, .choice 7 9,
    .lend 0, .goto 12, .choice 10 35, .lend 0, .goto 35, .test 0 35 13, .deref 0, .choice 35 15,
    .deref 0, .choice 35 17, .deref 0, .choice 34 19, .choice 5 20, .choice 21 35, .test 1 22 39,
    .fresh 1, .deref 0, .use 1, .choice 26 35, .deref 0, .use 1, .choice 29 35, .use 1,
    .choice 31 35, .give 1, .null 1, .goto 5, .ret true, .test 1 38 36, .kill 1, .null 1,
    .ret false, .goto 39]⟩

/-- `libfsapfs_file_system_btree_get_file_extents_from_branch_node`
(libfsapfs/libfsapfs_file_system_btree.c:4604-5009).  Places: 0 `entry`, 1 `previous_entry`, 2
`sub_node`, 3 `result`. -/
def file_system_btree_get_file_extents_from_branch_node : Fn :=
  ⟨[loc, loc, loc, loc],
   [.setn 3 1, .choice 2 3, .ret false, .choice 4 5, .ret false, .choice 7 6, .choice 7 8,
    .ret false, .choice 104 9, .choice 104 10, .choice 11 104, .choice 12 71, .choice 13 15,
    .lend 0, .goto 18, .choice 16 104, .lend 0, .goto 104, .test 0 104 19, .deref 0, .choice 104 21,
    .deref 0, .choice 104 23, .deref 0, .choice 71 25, .choice 26 27, .choice 71 27, .choice 28 32,
    .choice 29 32, .deref 0, .choice 104 31, .deref 0, .choice 33 69, .choice 34 69, .choice 35 69,
    .test 1 69 36, .use 1, .choice 38 104, .choice 39 41, .lend 2, .goto 44, .choice 42 104,
    .lend 2, .goto 104, .use 2, .choice 104 46, .choice 47 56, .use 2, .choice 49 51, .setn 3 2,
    .goto 64, .choice 52 54, .setn 3 1, .goto 64, .setn 3 0, .goto 64, .use 2, .choice 58 60,
    .setn 3 2, .goto 64, .choice 61 63, .setn 3 1, .goto 64, .setn 3 0, .testn 3 0 104 65,
    .testn 3 1 68 66, .testn 3 2 68 67, .choice 104 68, .null 2, .copy 1 0, .goto 11, .use 1,
    .choice 73 104, .choice 74 76, .lend 2, .goto 79, .choice 77 104, .lend 2, .goto 104, .use 2,
    .choice 104 81, .choice 82 91, .use 2, .choice 84 86, .setn 3 2, .goto 99, .choice 87 89,
    .setn 3 1, .goto 99, .setn 3 0, .goto 99, .use 2, .choice 93 95, .setn 3 2, .goto 99,
    .choice 96 98, .setn 3 1, .goto 99, .setn 3 0, .testn 3 0 104 100, .testn 3 1 103 101,
    .testn 3 2 103 102, .choice 104 103, .ret true, .ret false]⟩

/-- `libfsapfs_file_system_btree_get_file_extents`
(libfsapfs/libfsapfs_file_system_btree.c:5014-5127).  Places: 0 `root_node`, 1 `result`. -/
def file_system_btree_get_file_extents : Fn :=
  ⟨[loc, loc],
   [.setn 1 1, .choice 2 3, .ret false, .choice 4 7, .lend 0, .setn 1 2, .goto 19, .choice 8 11,
    .lend 0, .setn 1 1, .goto 19, .choice 12 15, .lend 0, .setn 1 0, .goto 19, .choice 16 18,
    .setn 1 1, .goto 19, .setn 1 0, .testn 1 0 55 20, .testn 1 1 23 21, .testn 1 2 23 22,
    .choice 55 23, .testn 1 0 28 24, .testn 1 1 27 25, .testn 1 2 28 26, .choice 27 28, .ret false,
    .use 0, .choice 55 30, .choice 31 40, .use 0, .choice 33 35, .setn 1 2, .goto 48, .choice 36 38,
    .setn 1 1, .goto 48, .setn 1 0, .goto 48, .use 0, .choice 42 44, .setn 1 2, .goto 48,
    .choice 45 47, .setn 1 1, .goto 48, .setn 1 0, .testn 1 0 55 49, .testn 1 1 52 50,
    .testn 1 2 52 51, .choice 55 52, .testn 1 2 53 54, .ret true, .ret false, .ret false]⟩

/-- `libfsapfs_file_system_btree_get_inode_by_identifier`
(libfsapfs/libfsapfs_file_system_btree.c:5132-5338).  Places: 0 `*inode`, 1 `btree_entry`, 2
`btree_node`, 3 `safe_inode`, 4 `*inode at the start`, 5 `result`. -/
def file_system_btree_get_inode_by_identifier : Fn :=
  ⟨[out, loc, loc, loc, loc, loc],
   [.choice 1 4, .lend 0, .setn 4 2, .goto 5, .setn 4 1, .setn 5 1, .choice 7 10, .testn 4 1 8 9,
    .none 0, .ret false, .choice 11 15, .test 0 12 61, .testn 4 1 13 14, .none 0, .ret false,
    .test 0 19 16, .testn 4 1 17 18, .none 0, .ret false, .choice 20 24, .lend 2, .lend 1,
    .setn 5 2, .goto 28, .choice 25 27, .setn 5 1, .goto 28, .setn 5 0, .testn 5 0 55 29,
    .testn 5 1 32 30, .testn 5 2 32 31, .choice 55 32, .testn 5 0 36 33, .testn 5 1 48 34,
    .testn 5 2 36 35, .choice 36 48, .test 2 55 37, .test 1 55 38, .choice 39 55, .test 3 40 61,
    .fresh 3, .deref 1, .use 3, .choice 44 55, .deref 1, .use 3, .choice 47 55, .null 2, .copy 0 3,
    .testn 5 2 50 52, .live 0, .ret true, .testn 4 1 53 54, .none 0, .ret false, .test 3 58 56,
    .kill 3, .null 3, .testn 4 1 59 60, .none 0, .ret false, .goto 61]⟩

/-- `libfsapfs_file_system_btree_get_inode_by_utf8_name`
(libfsapfs/libfsapfs_file_system_btree.c:5343-5656).  Places: 0 `*directory_record`, 1 `*inode`, 2
`btree_entry`, 3 `btree_node`, 4 `root_node`, 5 `result`. -/
def file_system_btree_get_inode_by_utf8_name : Fn :=
  ⟨[arg, arg, loc, loc, loc, loc],
   [.choice 1 2, .lend 0, .choice 3 4, .lend 1, .setn 5 1, .choice 6 7, .ret false, .choice 8 9,
    .ret false, .choice 10 11, .ret false, .choice 12 14, .test 1 13 121, .ret false, .test 1 16 15,
    .ret false, .choice 17 19, .test 0 18 121, .ret false, .test 0 21 20, .ret false, .choice 22 25,
    .lend 4, .setn 5 2, .goto 37, .choice 26 29, .lend 4, .setn 5 1, .goto 37, .choice 30 33,
    .lend 4, .setn 5 0, .goto 37, .choice 34 36, .setn 5 1, .goto 37, .setn 5 0, .testn 5 0 114 38,
    .testn 5 1 41 39, .testn 5 2 41 40, .choice 114 41, .testn 5 0 46 42, .testn 5 1 45 43,
    .testn 5 2 46 44, .choice 45 46, .ret false, .use 4, .choice 114 48, .choice 49 114,
    .choice 50 61, .use 4, .choice 52 56, .none 0, .fresh 0, .setn 5 2, .goto 71, .choice 57 59,
    .setn 5 1, .goto 71, .setn 5 0, .goto 71, .use 4, .choice 63 67, .none 0, .fresh 0, .setn 5 2,
    .goto 71, .choice 68 70, .setn 5 1, .goto 71, .setn 5 0, .testn 5 0 114 72, .testn 5 1 75 73,
    .testn 5 2 75 74, .choice 114 75, .testn 5 0 79 76, .testn 5 1 81 77, .testn 5 2 79 78,
    .choice 79 81, .use 0, .choice 81 114, .null 4, .testn 5 0 86 83, .testn 5 1 111 84,
    .testn 5 2 86 85, .choice 86 111, .choice 87 91, .lend 3, .lend 2, .setn 5 2, .goto 95,
    .choice 92 94, .setn 5 1, .goto 95, .setn 5 0, .testn 5 0 114 96, .testn 5 1 99 97,
    .testn 5 2 114 98, .choice 114 99, .test 3 114 100, .test 2 114 101, .choice 102 114,
    .test 1 103 121, .fresh 1, .deref 2, .use 1, .choice 107 114, .deref 2, .use 1, .choice 110 114,
    .null 3, .testn 5 2 112 113, .ret true, .ret false, .test 0 117 115, .kill 0, .null 0,
    .test 1 120 118, .kill 1, .null 1, .ret false, .goto 121]⟩

/-- `libfsapfs_file_system_btree_get_inode_by_utf8_path`
(libfsapfs/libfsapfs_file_system_btree.c:5661-6055).  Places: 0 `*directory_record`, 1 `*inode`, 2
`btree_entry`, 3 `btree_node`, 4 `root_node`, 5 `safe_directory_record`, 6 `*directory_record at
the start`, 7 `*inode at the start`, 8 `result`. -/
def file_system_btree_get_inode_by_utf8_path : Fn :=
  ⟨[out, out, loc, loc, loc, loc, loc, loc, loc],
   [.choice 1 4, .lend 0, .setn 6 2, .goto 5, .setn 6 1, .choice 6 9, .lend 1, .setn 7 2, .goto 10,
    .setn 7 1, .setn 8 1, .choice 12 17, .testn 6 1 13 14, .none 0, .testn 7 1 15 16, .none 1,
    .ret false, .choice 18 23, .testn 6 1 19 20, .none 0, .testn 7 1 21 22, .none 1, .ret false,
    .choice 24 29, .testn 6 1 25 26, .none 0, .testn 7 1 27 28, .none 1, .ret false, .choice 30 36,
    .test 1 31 185, .testn 6 1 32 33, .none 0, .testn 7 1 34 35, .none 1, .ret false, .test 1 42 37,
    .testn 6 1 38 39, .none 0, .testn 7 1 40 41, .none 1, .ret false, .choice 43 49, .test 0 44 185,
    .testn 6 1 45 46, .none 0, .testn 7 1 47 48, .none 1, .ret false, .test 0 55 50,
    .testn 6 1 51 52, .none 0, .testn 7 1 53 54, .none 1, .ret false, .choice 56 59, .lend 4,
    .setn 8 2, .goto 71, .choice 60 63, .lend 4, .setn 8 1, .goto 71, .choice 64 67, .lend 4,
    .setn 8 0, .goto 71, .choice 68 70, .setn 8 1, .goto 71, .setn 8 0, .testn 8 0 174 72,
    .testn 8 1 75 73, .testn 8 2 75 74, .choice 174 75, .testn 8 0 84 76, .testn 8 1 79 77,
    .testn 8 2 84 78, .choice 79 84, .testn 6 1 80 81, .none 0, .testn 7 1 82 83, .none 1,
    .ret false, .use 4, .choice 174 86, .choice 88 87, .choice 88 90, .setn 8 2, .goto 134,
    .choice 91 134, .choice 92 95, .choice 93 174, .choice 95 94, .choice 95 91, .choice 96 98,
    .setn 8 1, .goto 124, .choice 99 174, .test 5 102 100, .kill 5, .null 5, .choice 103 114,
    .use 4, .choice 105 109, .none 5, .fresh 5, .setn 8 2, .goto 124, .choice 110 112, .setn 8 1,
    .goto 124, .setn 8 0, .goto 124, .use 4, .choice 116 120, .none 5, .fresh 5, .setn 8 2,
    .goto 124, .choice 121 123, .setn 8 1, .goto 124, .setn 8 0, .testn 8 0 174 125,
    .testn 8 1 128 126, .testn 8 2 128 127, .choice 174 128, .testn 8 0 132 129, .testn 8 1 134 130,
    .testn 8 2 132 131, .choice 134 132, .use 5, .choice 90 174, .null 4, .testn 8 0 139 136,
    .testn 8 1 165 137, .testn 8 2 139 138, .choice 139 165, .choice 140 144, .lend 3, .lend 2,
    .setn 8 2, .goto 148, .choice 145 147, .setn 8 1, .goto 148, .setn 8 0, .testn 8 0 174 149,
    .testn 8 1 174 150, .testn 8 2 152 151, .choice 174 152, .test 3 174 153, .test 2 174 154,
    .choice 155 174, .test 1 156 185, .fresh 1, .deref 2, .use 1, .choice 160 174, .deref 2, .use 1,
    .choice 163 174, .null 3, .copy 0 5, .testn 8 2 166 169, .held 0, .live 1, .ret true,
    .testn 6 1 170 171, .none 0, .testn 7 1 172 173, .none 1, .ret false, .test 5 177 175, .kill 5,
    .null 5, .test 1 180 178, .kill 1, .null 1, .testn 6 1 181 182, .none 0, .testn 7 1 183 184,
    .none 1, .ret false, .goto 185]⟩

/-- `libfsapfs_file_system_btree_get_inode_by_utf16_name`
(libfsapfs/libfsapfs_file_system_btree.c:6060-6373).  Places: 0 `*directory_record`, 1 `*inode`, 2
`btree_entry`, 3 `btree_node`, 4 `root_node`, 5 `result`. -/
def file_system_btree_get_inode_by_utf16_name : Fn :=
  ⟨[arg, arg, loc, loc, loc, loc],
   [.choice 1 2, .lend 0, .choice 3 4, .lend 1, .setn 5 1, .choice 6 7, .ret false, .choice 8 9,
    .ret false, .choice 10 11, .ret false, .choice 12 14, .test 1 13 121, .ret false, .test 1 16 15,
    .ret false, .choice 17 19, .test 0 18 121, .ret false, .test 0 21 20, .ret false, .choice 22 25,
    .lend 4, .setn 5 2, .goto 37, .choice 26 29, .lend 4, .setn 5 1, .goto 37, .choice 30 33,
    .lend 4, .setn 5 0, .goto 37, .choice 34 36, .setn 5 1, .goto 37, .setn 5 0, .testn 5 0 114 38,
    .testn 5 1 41 39, .testn 5 2 41 40, .choice 114 41, .testn 5 0 46 42, .testn 5 1 45 43,
    .testn 5 2 46 44, .choice 45 46, .ret false, .use 4, .choice 114 48, .choice 49 114,
    .choice 50 61, .use 4, .choice 52 56, .none 0, .fresh 0, .setn 5 2, .goto 71, .choice 57 59,
    .setn 5 1, .goto 71, .setn 5 0, .goto 71, .use 4, .choice 63 67, .none 0, .fresh 0, .setn 5 2,
    .goto 71, .choice 68 70, .setn 5 1, .goto 71, .setn 5 0, .testn 5 0 114 72, .testn 5 1 75 73,
    .testn 5 2 75 74, .choice 114 75, .testn 5 0 79 76, .testn 5 1 81 77, .testn 5 2 79 78,
    .choice 79 81, .use 0, .choice 81 114, .null 4, .testn 5 0 86 83, .testn 5 1 111 84,
    .testn 5 2 86 85, .choice 86 111, .choice 87 91, .lend 3, .lend 2, .setn 5 2, .goto 95,
    .choice 92 94, .setn 5 1, .goto 95, .setn 5 0, .testn 5 0 114 96, .testn 5 1 99 97,
    .testn 5 2 114 98, .choice 114 99, .test 3 114 100, .test 2 114 101, .choice 102 114,
    .test 1 103 121, .fresh 1, .deref 2, .use 1, .choice 107 114, .deref 2, .use 1, .choice 110 114,
    .null 3, .testn 5 2 112 113, .ret true, .ret false, .test 0 117 115, .kill 0, .null 0,
    .test 1 120 118, .kill 1, .null 1, .ret false, .goto 121]⟩

/-- `libfsapfs_file_system_btree_get_inode_by_utf16_path`
(libfsapfs/libfsapfs_file_system_btree.c:6378-6772).  Places: 0 `*directory_record`, 1 `*inode`, 2
`btree_entry`, 3 `btree_node`, 4 `root_node`, 5 `safe_directory_record`, 6 `*directory_record at
the start`, 7 `*inode at the start`, 8 `result`. -/
def file_system_btree_get_inode_by_utf16_path : Fn :=
  ⟨[out, out, loc, loc, loc, loc, loc, loc, loc],
   [.choice 1 4, .lend 0, .setn 6 2, .goto 5, .setn 6 1, .choice 6 9, .lend 1, .setn 7 2, .goto 10,
    .setn 7 1, .setn 8 1, .choice 12 17, .testn 6 1 13 14, .none 0, .testn 7 1 15 16, .none 1,
    .ret false, .choice 18 23, .testn 6 1 19 20, .none 0, .testn 7 1 21 22, .none 1, .ret false,
    .choice 24 29, .testn 6 1 25 26, .none 0, .testn 7 1 27 28, .none 1, .ret false, .choice 30 36,
    .test 1 31 185, .testn 6 1 32 33, .none 0, .testn 7 1 34 35, .none 1, .ret false, .test 1 42 37,
    .testn 6 1 38 39, .none 0, .testn 7 1 40 41, .none 1, .ret false, .choice 43 49, .test 0 44 185,
    .testn 6 1 45 46, .none 0, .testn 7 1 47 48, .none 1, .ret false, .test 0 55 50,
    .testn 6 1 51 52, .none 0, .testn 7 1 53 54, .none 1, .ret false, .choice 56 59, .lend 4,
    .setn 8 2, .goto 71, .choice 60 63, .lend 4, .setn 8 1, .goto 71, .choice 64 67, .lend 4,
    .setn 8 0, .goto 71, .choice 68 70, .setn 8 1, .goto 71, .setn 8 0, .testn 8 0 174 72,
    .testn 8 1 75 73, .testn 8 2 75 74, .choice 174 75, .testn 8 0 84 76, .testn 8 1 79 77,
    .testn 8 2 84 78, .choice 79 84, .testn 6 1 80 81, .none 0, .testn 7 1 82 83, .none 1,
    .ret false, .use 4, .choice 174 86, .choice 88 87, .choice 88 90, .setn 8 2, .goto 134,
    .choice 91 134, .choice 92 95, .choice 93 174, .choice 95 94, .choice 95 91, .choice 96 98,
    .setn 8 1, .goto 124, .choice 99 174, .test 5 102 100, .kill 5, .null 5, .choice 103 114,
    .use 4, .choice 105 109, .none 5, .fresh 5, .setn 8 2, .goto 124, .choice 110 112, .setn 8 1,
    .goto 124, .setn 8 0, .goto 124, .use 4, .choice 116 120, .none 5, .fresh 5, .setn 8 2,
    .goto 124, .choice 121 123, .setn 8 1, .goto 124, .setn 8 0, .testn 8 0 174 125,
    .testn 8 1 128 126, .testn 8 2 128 127, .choice 174 128, .testn 8 0 132 129, .testn 8 1 134 130,
    .testn 8 2 132 131, .choice 134 132, .use 5, .choice 90 174, .null 4, .testn 8 0 139 136,
    .testn 8 1 165 137, .testn 8 2 139 138, .choice 139 165, .choice 140 144, .lend 3, .lend 2,
    .setn 8 2, .goto 148, .choice 145 147, .setn 8 1, .goto 148, .setn 8 0, .testn 8 0 174 149,
    .testn 8 1 174 150, .testn 8 2 152 151, .choice 174 152, .test 3 174 153, .test 2 174 154,
    .choice 155 174, .test 1 156 185, .fresh 1, .deref 2, .use 1, .choice 160 174, .deref 2, .use 1,
    .choice 163 174, .null 3, .copy 0 5, .testn 8 2 166 169, .held 0, .live 1, .ret true,
    .testn 6 1 170 171, .none 0, .testn 7 1 172 173, .none 1, .ret false, .test 5 177 175, .kill 5,
    .null 5, .test 1 180 178, .kill 1, .null 1, .testn 6 1 181 182, .none 0, .testn 7 1 183 184,
    .none 1, .ret false, .goto 185]⟩

/-- The functions of libfsapfs/libfsapfs_file_system_btree.c. -/
def in_file_system_btree : List (String × Fn) :=
  [("libfsapfs_file_system_btree_initialize", file_system_btree_initialize),
   ("libfsapfs_file_system_btree_free", file_system_btree_free),
   ("libfsapfs_file_system_btree_get_sub_node_block_number_from_entry", file_system_btree_get_sub_node_block_number_from_entry),
   ("libfsapfs_file_system_btree_get_root_node", file_system_btree_get_root_node),
   ("libfsapfs_file_system_btree_get_sub_node", file_system_btree_get_sub_node),
   ("libfsapfs_file_system_btree_get_entry_from_node_by_identifier", file_system_btree_get_entry_from_node_by_identifier),
   ("libfsapfs_file_system_btree_get_entry_by_identifier", file_system_btree_get_entry_by_identifier),
   ("libfsapfs_file_system_btree_get_directory_record_from_leaf_node_by_utf8_name", file_system_btree_get_directory_record_from_leaf_node_by_utf8_name),
   ("libfsapfs_file_system_btree_get_directory_record_from_branch_node_by_utf8_name", file_system_btree_get_directory_record_from_branch_node_by_utf8_name),
   ("libfsapfs_file_system_btree_get_directory_record_from_leaf_node_by_utf16_name", file_system_btree_get_directory_record_from_leaf_node_by_utf16_name),
   ("libfsapfs_file_system_btree_get_directory_record_from_branch_node_by_utf16_name", file_system_btree_get_directory_record_from_branch_node_by_utf16_name),
   ("libfsapfs_file_system_btree_get_directory_entries_from_leaf_node", file_system_btree_get_directory_entries_from_leaf_node),
   ("libfsapfs_file_system_btree_get_directory_entries_from_branch_node", file_system_btree_get_directory_entries_from_branch_node),
   ("libfsapfs_file_system_btree_get_directory_entries", file_system_btree_get_directory_entries),
   ("libfsapfs_file_system_btree_get_attributes_from_leaf_node", file_system_btree_get_attributes_from_leaf_node),
   ("libfsapfs_file_system_btree_get_attributes_from_branch_node", file_system_btree_get_attributes_from_branch_node),
   ("libfsapfs_file_system_btree_get_attributes", file_system_btree_get_attributes),
   ("libfsapfs_file_system_btree_get_file_extents_from_leaf_node", file_system_btree_get_file_extents_from_leaf_node),
   ("libfsapfs_file_system_btree_get_file_extents_from_branch_node", file_system_btree_get_file_extents_from_branch_node),
   ("libfsapfs_file_system_btree_get_file_extents", file_system_btree_get_file_extents),
   ("libfsapfs_file_system_btree_get_inode_by_identifier", file_system_btree_get_inode_by_identifier),
   ("libfsapfs_file_system_btree_get_inode_by_utf8_name", file_system_btree_get_inode_by_utf8_name),
   ("libfsapfs_file_system_btree_get_inode_by_utf8_path", file_system_btree_get_inode_by_utf8_path),
   ("libfsapfs_file_system_btree_get_inode_by_utf16_name", file_system_btree_get_inode_by_utf16_name),
   ("libfsapfs_file_system_btree_get_inode_by_utf16_path", file_system_btree_get_inode_by_utf16_path)]

/-- `libfsapfs_object_map_btree_initialize` (libfsapfs/libfsapfs_object_map_btree.c:47-154).
Places: 0 `*object_map_btree`, 1 `*object_map_btree->data_block_cache`, 2
`*object_map_btree->node_cache`, 3 `*object_map_btree at the start`. -/
def object_map_btree_initialize : Fn :=
  ⟨[out, own 0, own 0, loc],
   [.choice 1 4, .lend 0, .setn 3 2, .goto 5, .setn 3 1, .test 0 8 6, .maybe 1, .maybe 2,
    .choice 9 13, .test 0 10 58, .testn 3 1 11 12, .none 0, .ret false, .test 0 17 14,
    .testn 3 1 15 16, .none 0, .ret false, .forget 2, .null 2, .forget 1, .null 1, .choice 22 28,
    .fresh 0, .fresh 1, .kill 1, .fresh 2, .kill 2, .goto 29, .null 0, .test 0 46 30, .use 0,
    .null 1, .null 2, .deref 0, .choice 35 46, .test 1 36 58, .fresh 1, .deref 0, .choice 39 46,
    .test 2 40 58, .fresh 2, .deref 0, .deref 0, .deref 0, .live 0, .ret true, .test 0 55 47,
    .kill 0, .null 1, .null 2, .forget 2, .null 2, .forget 1, .null 1, .null 0, .testn 3 1 56 57,
    .none 0, .ret false, .goto 58]⟩

/-- `libfsapfs_object_map_btree_free` (libfsapfs/libfsapfs_object_map_btree.c:159-213).  Places: 0
`*object_map_btree`, 1 `*object_map_btree->data_block_cache`, 2 `*object_map_btree->node_cache`, 3
`result`. -/
def object_map_btree_free : Fn :=
  ⟨[arg, own 0, own 0, loc],
   [.maybe 0, .test 0 4 2, .maybe 1, .maybe 2, .setn 3 2, .choice 6 8, .test 0 7 30, .ret false,
    .test 0 27 9, .deref 0, .kill 2, .null 2, .choice 14 13, .setn 3 0, .deref 0, .kill 1, .null 1,
    .choice 19 18, .setn 3 0, .kill 0, .null 1, .null 2, .forget 2, .null 2, .forget 1, .null 1,
    .null 0, .testn 3 2 28 29, .ret true, .ret false, .goto 30]⟩

/-- `libfsapfs_object_map_btree_get_root_node` (libfsapfs/libfsapfs_object_map_btree.c:218-524).
Places: 0 `*root_node`, 1 `cache_value`, 2 `data_block`, 3 `node`, 4 `result`. -/
def object_map_btree_get_root_node : Fn :=
  ⟨[arg, loc, loc, loc, loc],
   [.choice 1 2, .lend 0, .setn 4 1, .choice 4 5, .ret false, .choice 6 7, .ret false, .choice 8 10,
    .test 0 9 89, .ret false, .choice 11 14, .lend 1, .setn 4 2, .goto 26, .choice 15 18, .lend 1,
    .setn 4 1, .goto 26, .choice 19 22, .lend 1, .setn 4 0, .goto 26, .choice 23 25, .setn 4 1,
    .goto 26, .setn 4 0, .testn 4 0 85 27, .testn 4 1 30 28, .testn 4 2 30 29, .choice 85 30,
    .testn 4 0 77 31, .testn 4 1 34 32, .testn 4 2 77 33, .choice 34 77, .choice 35 37, .lend 2,
    .goto 40, .choice 38 85, .lend 2, .goto 85, .test 2 85 41, .choice 42 85, .test 3 43 89,
    .fresh 3, .deref 2, .use 3, .choice 47 85, .deref 3, .choice 49 51, .deref 3, .goto 85,
    .deref 3, .choice 53 55, .deref 3, .goto 85, .deref 3, .choice 59 57, .deref 3, .choice 59 61,
    .deref 3, .goto 85, .deref 3, .choice 85 63, .deref 3, .choice 85 65, .deref 3, .choice 85 67,
    .use 3, .choice 69 85, .give 3, .null 3, .choice 72 74, .lend 1, .goto 77, .choice 75 85,
    .lend 1, .goto 85, .use 1, .choice 79 81, .lend 0, .goto 84, .choice 82 85, .lend 0, .goto 85,
    .ret true, .test 3 88 86, .kill 3, .null 3, .ret false, .goto 89]⟩

/-- `libfsapfs_object_map_btree_get_sub_node` (libfsapfs/libfsapfs_object_map_btree.c:529-802).
Places: 0 `*sub_node`, 1 `cache_value`, 2 `data_block`, 3 `node`, 4 `result`. -/
def object_map_btree_get_sub_node : Fn :=
  ⟨[arg, loc, loc, loc, loc],
   [.choice 1 2, .lend 0, .setn 4 1, .choice 4 5, .ret false, .choice 6 7, .ret false, .choice 8 10,
    .test 0 9 83, .ret false, .choice 11 14, .lend 1, .setn 4 2, .goto 26, .choice 15 18, .lend 1,
    .setn 4 1, .goto 26, .choice 19 22, .lend 1, .setn 4 0, .goto 26, .choice 23 25, .setn 4 1,
    .goto 26, .setn 4 0, .testn 4 0 79 27, .testn 4 1 30 28, .testn 4 2 30 29, .choice 79 30,
    .testn 4 0 71 31, .testn 4 1 34 32, .testn 4 2 71 33, .choice 34 71, .choice 35 37, .lend 2,
    .goto 40, .choice 38 79, .lend 2, .goto 79, .test 2 79 41, .choice 42 79, .test 3 43 83,
    .fresh 3, .deref 2, .use 3, .choice 47 79, .deref 3, .choice 49 51, .deref 3, .goto 79,
    .deref 3, .choice 53 55, .deref 3, .goto 79, .deref 3, .choice 59 57, .deref 3, .choice 59 61,
    .deref 3, .goto 79, .use 3, .choice 63 79, .give 3, .null 3, .choice 66 68, .lend 1, .goto 71,
    .choice 69 79, .lend 1, .goto 79, .use 1, .choice 73 75, .lend 0, .goto 78, .choice 76 79,
    .lend 0, .goto 79, .ret true, .test 3 82 80, .kill 3, .null 3, .ret false, .goto 83]⟩

/-- `libfsapfs_object_map_btree_get_entry_from_node_by_identifier`
(libfsapfs/libfsapfs_object_map_btree.c:807-994).  Places: 0 `*btree_entry`, 1 `entry`, 2
`previous_entry`. -/
def object_map_btree_get_entry_from_node_by_identifier : Fn :=
  ⟨[arg, loc, loc],
   [.choice 1 2, .lend 0, .choice 3 4, .ret false, .choice 5 7, .test 0 6 44, .ret false,
    .choice 8 9, .ret false, .choice 11 10, .ret false, .choice 12 33, .choice 13 15, .lend 1,
    .goto 18, .choice 16 17, .lend 1, .ret false, .test 1 19 20, .ret false, .deref 1,
    .choice 22 23, .ret false, .deref 1, .choice 25 26, .ret false, .deref 1, .deref 1,
    .choice 33 29, .choice 30 31, .choice 33 31, .copy 2 1, .goto 11, .choice 34 37, .choice 35 43,
    .copy 0 2, .ret true, .test 2 40 38, .choice 39 41, .choice 40 41, .copy 2 1, .copy 0 2,
    .ret true, .ret false, .goto 44]⟩

/-- `libfsapfs_object_map_btree_get_entry_by_identifier`
(libfsapfs/libfsapfs_object_map_btree.c:999-1194).  Places: 0 `*btree_entry`, 1 `*btree_node`, 2
`entry`, 3 `node`, 4 `result`. -/
def object_map_btree_get_entry_by_identifier : Fn :=
  ⟨[arg, arg, loc, loc, loc],
   [.choice 1 2, .lend 0, .choice 3 4, .lend 1, .setn 4 1, .choice 6 7, .ret false, .choice 8 10,
    .test 1 9 73, .ret false, .choice 11 13, .test 0 12 73, .ret false, .choice 14 16, .lend 3,
    .goto 19, .choice 17 18, .lend 3, .ret false, .choice 21 20, .choice 21 22, .ret false, .use 3,
    .choice 24 25, .ret false, .use 3, .choice 27 30, .lend 2, .setn 4 2, .goto 42, .choice 31 34,
    .lend 2, .setn 4 1, .goto 42, .choice 35 38, .lend 2, .setn 4 0, .goto 42, .choice 39 41,
    .setn 4 1, .goto 42, .setn 4 0, .testn 4 0 46 43, .testn 4 1 47 44, .testn 4 2 47 45,
    .choice 46 47, .ret false, .testn 4 0 51 48, .testn 4 1 72 49, .testn 4 2 51 50, .choice 72 51,
    .choice 52 55, .copy 1 3, .copy 0 2, .ret true, .test 2 56 57, .ret false, .deref 2,
    .choice 59 60, .ret false, .deref 2, .choice 62 63, .ret false, .deref 2, .null 3,
    .choice 66 68, .lend 3, .goto 71, .choice 69 70, .lend 3, .ret false, .choice 19 72, .ret false,
    .goto 73]⟩

/-- `libfsapfs_object_map_btree_get_descriptor_by_object_identifier`
(libfsapfs/libfsapfs_object_map_btree.c:1199-1347).  Places: 0 `*descriptor`, 1 `entry`, 2 `node`,
3 `safe_descriptor`, 4 `*descriptor at the start`, 5 `result`. -/
def object_map_btree_get_descriptor_by_object_identifier : Fn :=
  ⟨[out, loc, loc, loc, loc, loc],
   [.choice 1 4, .lend 0, .setn 4 2, .goto 5, .setn 4 1, .setn 5 1, .choice 7 10, .testn 4 1 8 9,
    .none 0, .ret false, .choice 11 15, .test 0 12 71, .testn 4 1 13 14, .none 0, .ret false,
    .test 0 19 16, .testn 4 1 17 18, .none 0, .ret false, .choice 20 24, .lend 2, .lend 1,
    .setn 5 2, .goto 38, .choice 25 29, .lend 2, .lend 1, .setn 5 1, .goto 38, .choice 30 34,
    .lend 2, .lend 1, .setn 5 0, .goto 38, .choice 35 37, .setn 5 1, .goto 38, .setn 5 0,
    .testn 5 0 65 39, .testn 5 1 42 40, .testn 5 2 42 41, .choice 65 42, .testn 5 0 46 43,
    .testn 5 1 58 44, .testn 5 2 46 45, .choice 46 58, .test 2 65 47, .test 1 65 48, .choice 49 65,
    .test 3 50 71, .fresh 3, .deref 1, .use 3, .choice 54 65, .deref 1, .use 3, .choice 57 65,
    .null 2, .copy 0 3, .testn 5 2 60 62, .live 0, .ret true, .testn 4 1 63 64, .none 0, .ret false,
    .test 3 68 66, .kill 3, .null 3, .testn 4 1 69 70, .none 0, .ret false, .goto 71]⟩

/-- The functions of libfsapfs/libfsapfs_object_map_btree.c. -/
def in_object_map_btree : List (String × Fn) :=
  [("libfsapfs_object_map_btree_initialize", object_map_btree_initialize),
   ("libfsapfs_object_map_btree_free", object_map_btree_free),
   ("libfsapfs_object_map_btree_get_root_node", object_map_btree_get_root_node),
   ("libfsapfs_object_map_btree_get_sub_node", object_map_btree_get_sub_node),
   ("libfsapfs_object_map_btree_get_entry_from_node_by_identifier", object_map_btree_get_entry_from_node_by_identifier),
   ("libfsapfs_object_map_btree_get_entry_by_identifier", object_map_btree_get_entry_by_identifier),
   ("libfsapfs_object_map_btree_get_descriptor_by_object_identifier", object_map_btree_get_descriptor_by_object_identifier)]

/-- `libfsapfs_snapshot_metadata_tree_initialize`
(libfsapfs/libfsapfs_snapshot_metadata_tree.c:50-159).  Places: 0 `*snapshot_metadata_tree`, 1
`*snapshot_metadata_tree->data_block_cache`, 2 `*snapshot_metadata_tree->node_cache`, 3
`*snapshot_metadata_tree at the start`. -/
def snapshot_metadata_tree_initialize : Fn :=
  ⟨[out, own 0, own 0, loc],
   [.choice 1 4, .lend 0, .setn 3 2, .goto 5, .setn 3 1, .test 0 8 6, .maybe 1, .maybe 2,
    .choice 9 13, .test 0 10 59, .testn 3 1 11 12, .none 0, .ret false, .test 0 17 14,
    .testn 3 1 15 16, .none 0, .ret false, .forget 2, .null 2, .forget 1, .null 1, .choice 22 28,
    .fresh 0, .fresh 1, .kill 1, .fresh 2, .kill 2, .goto 29, .null 0, .test 0 47 30, .use 0,
    .null 1, .null 2, .deref 0, .choice 35 47, .test 1 36 59, .fresh 1, .deref 0, .choice 39 47,
    .test 2 40 59, .fresh 2, .deref 0, .deref 0, .deref 0, .deref 0, .live 0, .ret true,
    .test 0 56 48, .kill 0, .null 1, .null 2, .forget 2, .null 2, .forget 1, .null 1, .null 0,
    .testn 3 1 57 58, .none 0, .ret false, .goto 59]⟩

/-- `libfsapfs_snapshot_metadata_tree_free` (libfsapfs/libfsapfs_snapshot_metadata_tree.c:164-218).
 Places: 0 `*snapshot_metadata_tree`, 1 `*snapshot_metadata_tree->data_block_cache`, 2
`*snapshot_metadata_tree->node_cache`, 3 `result`. -/
def snapshot_metadata_tree_free : Fn :=
  ⟨[arg, own 0, own 0, loc],
   [.maybe 0, .test 0 4 2, .maybe 1, .maybe 2, .setn 3 2, .choice 6 8, .test 0 7 30, .ret false,
    .test 0 27 9, .deref 0, .kill 2, .null 2, .choice 14 13, .setn 3 0, .deref 0, .kill 1, .null 1,
    .choice 19 18, .setn 3 0, .kill 0, .null 1, .null 2, .forget 2, .null 2, .forget 1, .null 1,
    .null 0, .testn 3 2 28 29, .ret true, .ret false, .goto 30]⟩

/-- `libfsapfs_snapshot_metadata_tree_get_sub_node_block_number_from_entry`
(libfsapfs/libfsapfs_snapshot_metadata_tree.c:223-374).  Places: 0 `object_map_descriptor`, 1
`result`. -/
def snapshot_metadata_tree_get_sub_node_block_number_from_entry : Fn :=
  ⟨[loc, loc],
   [.setn 1 1, .choice 2 3, .ret false, .choice 4 5, .ret false, .choice 6 7, .ret false,
    .choice 8 9, .ret false, .choice 10 11, .ret false, .choice 12 16, .test 0 13 39, .fresh 0,
    .setn 1 2, .goto 20, .choice 17 19, .setn 1 1, .goto 20, .setn 1 0, .testn 1 0 35 21,
    .testn 1 1 24 22, .testn 1 2 24 23, .choice 35 24, .testn 1 0 28 25, .testn 1 1 32 26,
    .testn 1 2 28 27, .choice 28 32, .test 0 35 29, .deref 0, .kill 0, .null 0, .testn 1 2 33 34,
    .ret true, .ret false, .test 0 38 36, .kill 0, .null 0, .ret false, .goto 39]⟩

/-- `libfsapfs_snapshot_metadata_tree_get_root_node`
(libfsapfs/libfsapfs_snapshot_metadata_tree.c:379-684).  Places: 0 `*root_node`, 1 `cache_value`, 2
`data_block`, 3 `node`, 4 `result`. -/
def snapshot_metadata_tree_get_root_node : Fn :=
  ⟨[arg, loc, loc, loc, loc],
   [.choice 1 2, .lend 0, .setn 4 1, .choice 4 5, .ret false, .choice 6 7, .ret false, .choice 8 10,
    .test 0 9 87, .ret false, .choice 11 14, .lend 1, .setn 4 2, .goto 26, .choice 15 18, .lend 1,
    .setn 4 1, .goto 26, .choice 19 22, .lend 1, .setn 4 0, .goto 26, .choice 23 25, .setn 4 1,
    .goto 26, .setn 4 0, .testn 4 0 83 27, .testn 4 1 30 28, .testn 4 2 30 29, .choice 83 30,
    .testn 4 0 75 31, .testn 4 1 34 32, .testn 4 2 75 33, .choice 34 75, .choice 35 37, .lend 2,
    .goto 40, .choice 38 83, .lend 2, .goto 83, .test 2 83 41, .choice 42 83, .test 3 43 87,
    .fresh 3, .deref 2, .use 3, .choice 47 83, .deref 3, .choice 49 51, .deref 3, .goto 83,
    .deref 3, .choice 53 55, .deref 3, .goto 83, .deref 3, .choice 57 59, .deref 3, .goto 83,
    .deref 3, .choice 83 61, .deref 3, .choice 83 63, .deref 3, .choice 83 65, .use 3,
    .choice 67 83, .give 3, .null 3, .choice 70 72, .lend 1, .goto 75, .choice 73 83, .lend 1,
    .goto 83, .use 1, .choice 77 79, .lend 0, .goto 82, .choice 80 83, .lend 0, .goto 83, .ret true,
    .test 3 86 84, .kill 3, .null 3, .ret false, .goto 87]⟩

/-- `libfsapfs_snapshot_metadata_tree_get_sub_node`
(libfsapfs/libfsapfs_snapshot_metadata_tree.c:689-961).  Places: 0 `*sub_node`, 1 `cache_value`, 2
`data_block`, 3 `node`, 4 `result`. -/
def snapshot_metadata_tree_get_sub_node : Fn :=
  ⟨[arg, loc, loc, loc, loc],
   [.choice 1 2, .lend 0, .setn 4 1, .choice 4 5, .ret false, .choice 6 7, .ret false, .choice 8 10,
    .test 0 9 81, .ret false, .choice 11 14, .lend 1, .setn 4 2, .goto 26, .choice 15 18, .lend 1,
    .setn 4 1, .goto 26, .choice 19 22, .lend 1, .setn 4 0, .goto 26, .choice 23 25, .setn 4 1,
    .goto 26, .setn 4 0, .testn 4 0 77 27, .testn 4 1 30 28, .testn 4 2 30 29, .choice 77 30,
    .testn 4 0 69 31, .testn 4 1 34 32, .testn 4 2 69 33, .choice 34 69, .choice 35 37, .lend 2,
    .goto 40, .choice 38 77, .lend 2, .goto 77, .test 2 77 41, .choice 42 77, .test 3 43 81,
    .fresh 3, .deref 2, .use 3, .choice 47 77, .deref 3, .choice 49 51, .deref 3, .goto 77,
    .deref 3, .choice 53 55, .deref 3, .goto 77, .deref 3, .choice 57 59, .deref 3, .goto 77,
    .use 3, .choice 61 77, .give 3, .null 3, .choice 64 66, .lend 1, .goto 69, .choice 67 77,
    .lend 1, .goto 77, .use 1, .choice 71 73, .lend 0, .goto 76, .choice 74 77, .lend 0, .goto 77,
    .ret true, .test 3 80 78, .kill 3, .null 3, .ret false, .goto 81]⟩

/-- `libfsapfs_snapshot_metadata_tree_get_entry_from_node_by_identifier`
(libfsapfs/libfsapfs_snapshot_metadata_tree.c:966-1153).  Places: 0 `*btree_entry`, 1 `entry`, 2
`previous_entry`. -/
def snapshot_metadata_tree_get_entry_from_node_by_identifier : Fn :=
  ⟨[arg, loc, loc],
   [.choice 1 2, .lend 0, .choice 3 4, .ret false, .choice 5 7, .test 0 6 43, .ret false,
    .choice 8 9, .ret false, .choice 11 10, .ret false, .choice 12 39, .choice 13 15, .lend 1,
    .goto 18, .choice 16 17, .lend 1, .ret false, .test 1 19 20, .ret false, .deref 1,
    .choice 22 23, .ret false, .deref 1, .choice 25 26, .ret false, .deref 1, .choice 28 31,
    .choice 29 11, .copy 0 1, .ret true, .choice 32 37, .test 2 34 33, .choice 34 35, .copy 2 1,
    .copy 0 2, .ret true, .copy 2 1, .goto 11, .choice 40 42, .copy 0 2, .ret true, .ret false,
    .goto 43]⟩

/-- `libfsapfs_snapshot_metadata_tree_get_entry_by_identifier`
(libfsapfs/libfsapfs_snapshot_metadata_tree.c:1158-1351).  Places: 0 `*btree_entry`, 1
`*btree_node`, 2 `entry`, 3 `node`, 4 `result`. -/
def snapshot_metadata_tree_get_entry_by_identifier : Fn :=
  ⟨[arg, arg, loc, loc, loc],
   [.choice 1 2, .lend 0, .choice 3 4, .lend 1, .setn 4 1, .choice 6 7, .ret false, .choice 8 10,
    .test 1 9 73, .ret false, .choice 11 13, .test 0 12 73, .ret false, .choice 14 16, .lend 3,
    .goto 19, .choice 17 18, .lend 3, .ret false, .choice 21 20, .choice 21 22, .ret false, .use 3,
    .choice 24 25, .ret false, .use 3, .choice 27 30, .lend 2, .setn 4 2, .goto 42, .choice 31 34,
    .lend 2, .setn 4 1, .goto 42, .choice 35 38, .lend 2, .setn 4 0, .goto 42, .choice 39 41,
    .setn 4 1, .goto 42, .setn 4 0, .testn 4 0 46 43, .testn 4 1 47 44, .testn 4 2 47 45,
    .choice 46 47, .ret false, .testn 4 0 51 48, .testn 4 1 72 49, .testn 4 2 51 50, .choice 72 51,
    .choice 52 55, .copy 1 3, .copy 0 2, .ret true, .test 2 56 57, .ret false, .deref 2,
    .choice 59 60, .ret false, .deref 2, .choice 62 63, .ret false, .deref 2, .null 3,
    .choice 66 68, .lend 3, .goto 71, .choice 69 70, .lend 3, .ret false, .choice 19 72, .ret false,
    .goto 73]⟩

/-- `libfsapfs_snapshot_metadata_tree_get_metadata_by_object_identifier`
(libfsapfs/libfsapfs_snapshot_metadata_tree.c:1356-1499).  Places: 0 `*metadata`, 1 `entry`, 2
`node`, 3 `*metadata at the start`, 4 `result`. -/
def snapshot_metadata_tree_get_metadata_by_object_identifier : Fn :=
  ⟨[out, loc, loc, loc, loc],
   [.choice 1 4, .lend 0, .setn 3 2, .goto 5, .setn 3 1, .setn 4 1, .choice 7 10, .testn 3 1 8 9,
    .none 0, .ret false, .choice 11 15, .test 0 12 70, .testn 3 1 13 14, .none 0, .ret false,
    .test 0 19 16, .testn 3 1 17 18, .none 0, .ret false, .choice 20 24, .lend 2, .lend 1,
    .setn 4 2, .goto 38, .choice 25 29, .lend 2, .lend 1, .setn 4 1, .goto 38, .choice 30 34,
    .lend 2, .lend 1, .setn 4 0, .goto 38, .choice 35 37, .setn 4 1, .goto 38, .setn 4 0,
    .testn 4 0 64 39, .testn 4 1 42 40, .testn 4 2 42 41, .choice 64 42, .testn 4 0 46 43,
    .testn 4 1 58 44, .testn 4 2 46 45, .choice 46 58, .test 2 64 47, .test 1 64 48, .choice 49 64,
    .test 0 50 70, .fresh 0, .deref 1, .use 0, .choice 54 64, .deref 1, .use 0, .choice 57 64,
    .null 2, .testn 4 2 59 61, .live 0, .ret true, .testn 3 1 62 63, .none 0, .ret false,
    .test 0 67 65, .kill 0, .null 0, .testn 3 1 68 69, .none 0, .ret false, .goto 70]⟩

/-- `libfsapfs_snapshot_metadata_tree_get_snapshots_from_leaf_node`
(libfsapfs/libfsapfs_snapshot_metadata_tree.c:1504-1738).  Places: 0 `entry`, 1
`snapshot_metadata`. -/
def snapshot_metadata_tree_get_snapshots_from_leaf_node : Fn :=
  ⟨[loc, loc],
   [.choice 1 2, .ret false, .choice 3 4, .ret false, .choice 37 5, .choice 37 6, .choice 7 37,
    .choice 8 36, .choice 9 11, .lend 0, .goto 14, .choice 12 37, .lend 0, .goto 37, .test 0 37 15,
    .deref 0, .choice 37 17, .deref 0, .choice 19 20, .ret false, .deref 0, .choice 36 22,
    .choice 23 37, .test 1 24 41, .fresh 1, .deref 0, .use 1, .choice 28 37, .deref 0, .use 1,
    .choice 31 37, .use 1, .choice 33 37, .give 1, .null 1, .goto 7, .ret true, .test 1 40 38,
    .kill 1, .null 1, .ret false, .goto 41]⟩

/-- `libfsapfs_snapshot_metadata_tree_get_snapshots_from_branch_node`
(libfsapfs/libfsapfs_snapshot_metadata_tree.c:1743-2010).  Places: 0 `entry`, 1 `sub_node`, 2
`result`. -/
def snapshot_metadata_tree_get_snapshots_from_branch_node : Fn :=
  ⟨[loc, loc, loc],
   [.setn 2 1, .choice 2 3, .ret false, .choice 4 5, .ret false, .choice 7 6, .choice 7 8,
    .ret false, .choice 60 9, .choice 60 10, .choice 11 60, .choice 12 59, .choice 13 15, .lend 0,
    .goto 18, .choice 16 60, .lend 0, .goto 60, .test 0 60 19, .deref 0, .choice 60 21, .deref 0,
    .choice 60 23, .deref 0, .choice 59 25, .use 0, .choice 27 60, .choice 28 30, .lend 1, .goto 33,
    .choice 31 60, .lend 1, .goto 60, .use 1, .choice 60 35, .choice 36 45, .use 1, .choice 38 40,
    .setn 2 2, .goto 53, .choice 41 43, .setn 2 1, .goto 53, .setn 2 0, .goto 53, .use 1,
    .choice 47 49, .setn 2 2, .goto 53, .choice 50 52, .setn 2 1, .goto 53, .setn 2 0,
    .testn 2 0 60 54, .testn 2 1 57 55, .testn 2 2 57 56, .choice 60 57, .null 1, .goto 11,
    .ret true, .ret false]⟩

/-- `libfsapfs_snapshot_metadata_tree_get_snapshots`
(libfsapfs/libfsapfs_snapshot_metadata_tree.c:2015-2166).  Places: 0 `root_node`, 1 `result`. -/
def snapshot_metadata_tree_get_snapshots : Fn :=
  ⟨[loc, loc],
   [.setn 1 1, .choice 2 3, .ret false, .choice 4 6, .lend 0, .goto 9, .choice 7 37, .lend 0,
    .goto 37, .test 0 37 10, .use 0, .choice 37 12, .choice 13 22, .use 0, .choice 15 17, .setn 1 2,
    .goto 30, .choice 18 20, .setn 1 1, .goto 30, .setn 1 0, .goto 30, .use 0, .choice 24 26,
    .setn 1 2, .goto 30, .choice 27 29, .setn 1 1, .goto 30, .setn 1 0, .testn 1 0 37 31,
    .testn 1 1 34 32, .testn 1 2 34 33, .choice 37 34, .testn 1 2 35 36, .ret true, .ret false,
    .ret false]⟩

/-- The functions of libfsapfs/libfsapfs_snapshot_metadata_tree.c. -/
def in_snapshot_metadata_tree : List (String × Fn) :=
  [("libfsapfs_snapshot_metadata_tree_initialize", snapshot_metadata_tree_initialize),
   ("libfsapfs_snapshot_metadata_tree_free", snapshot_metadata_tree_free),
   ("libfsapfs_snapshot_metadata_tree_get_sub_node_block_number_from_entry", snapshot_metadata_tree_get_sub_node_block_number_from_entry),
   ("libfsapfs_snapshot_metadata_tree_get_root_node", snapshot_metadata_tree_get_root_node),
   ("libfsapfs_snapshot_metadata_tree_get_sub_node", snapshot_metadata_tree_get_sub_node),
   ("libfsapfs_snapshot_metadata_tree_get_entry_from_node_by_identifier", snapshot_metadata_tree_get_entry_from_node_by_identifier),
   ("libfsapfs_snapshot_metadata_tree_get_entry_by_identifier", snapshot_metadata_tree_get_entry_by_identifier),
   ("libfsapfs_snapshot_metadata_tree_get_metadata_by_object_identifier", snapshot_metadata_tree_get_metadata_by_object_identifier),
   ("libfsapfs_snapshot_metadata_tree_get_snapshots_from_leaf_node", snapshot_metadata_tree_get_snapshots_from_leaf_node),
   ("libfsapfs_snapshot_metadata_tree_get_snapshots_from_branch_node", snapshot_metadata_tree_get_snapshots_from_branch_node),
   ("libfsapfs_snapshot_metadata_tree_get_snapshots", snapshot_metadata_tree_get_snapshots)]

end Verif.Owner.Lib
