import Verif.Model.Ownership

/-
What the functions of containers, volumes and snapshots do with memory: see Ownership.lean for what the
instructions mean and DESIGN.md for how they were made from the source.  The build with threads
(HAVE_LIBFSAPFS_MULTI_THREAD_SUPPORT).
-/

namespace Verif.Owner.Lib

/-- `libfsapfs_container_initialize` (libfsapfs/libfsapfs_container.c:54-150).  Places: 0
`*container`, 1 `internal_container`, 2 `internal_container->checkpoint_map`, 3
`internal_container->data_block_vector`, 4 `internal_container->file_io_handle`, 5
`internal_container->fusion_middle_tree`, 6 `internal_container->io_handle`, 7
`internal_container->key_bag`, 8 `internal_container->object_map_btree`, 9
`internal_container->read_write_lock`, 10 `internal_container->superblock`, 11 `*container at the
start`. -/
def container_initialize : Fn :=
  ⟨[out, loc, own 1, own 1, part 1, own 1, own 1, own 1, own 1, own 1, own 1, loc],
   [.choice 1 4, .lend 0, .setn 11 2, .goto 5, .setn 11 1, .choice 6 10, .test 0 7 89,
    .testn 11 1 8 9, .none 0, .ret false, .test 0 14 11, .testn 11 1 12 13, .none 0, .ret false,
    .forget 10, .null 10, .forget 9, .null 9, .forget 8, .null 8, .forget 7, .null 7, .forget 6,
    .null 6, .forget 5, .null 5, .null 4, .forget 3, .null 3, .forget 2, .null 2, .choice 32 52,
    .fresh 1, .fresh 2, .kill 2, .fresh 3, .kill 3, .fresh 4, .kill 4, .fresh 5, .kill 5, .fresh 6,
    .kill 6, .fresh 7, .kill 7, .fresh 8, .kill 8, .fresh 9, .kill 9, .fresh 10, .kill 10, .goto 53,
    .null 1, .test 1 75 54, .use 1, .null 2, .null 3, .null 4, .null 5, .null 6, .null 7, .null 8,
    .null 9, .null 10, .deref 1, .choice 66 75, .test 6 67 89, .fresh 6, .deref 1, .choice 70 75,
    .test 9 71 89, .fresh 9, .copy 0 1, .live 0, .ret true, .test 1 86 76, .kill 1, .null 2,
    .null 3, .null 4, .null 5, .null 6, .null 7, .null 8, .null 9, .null 10, .testn 11 1 87 88,
    .none 0, .ret false, .goto 89]⟩

/-- `libfsapfs_container_free` (libfsapfs/libfsapfs_container.c:155-228).  Places: 0 `*container`,
1 `internal_container`, 2 `internal_container->checkpoint_map`, 3
`internal_container->data_block_vector`, 4 `internal_container->file_io_handle`, 5
`internal_container->fusion_middle_tree`, 6 `internal_container->io_handle`, 7
`internal_container->key_bag`, 8 `internal_container->object_map_btree`, 9
`internal_container->read_write_lock`, 10 `internal_container->superblock`, 11 `result`. -/
def container_free : Fn :=
  ⟨[arg, loc, own 1, own 1, part 1, own 1, own 1, own 1, own 1, own 1, own 1, loc],
   [.maybe 0, .setn 11 2, .choice 3 5, .test 0 4 93, .ret false, .test 0 90 6, .forget 10, .null 10,
    .forget 9, .null 9, .forget 8, .null 8, .forget 7, .null 7, .forget 6, .null 6, .forget 5,
    .null 5, .null 4, .forget 3, .null 3, .forget 2, .null 2, .copy 1 0, .test 1 38 25,
    .choice 26 29, .maybe 6, .maybe 9, .goto 38, .maybe 2, .maybe 3, .lend 4, .maybe 5, .maybe 6,
    .maybe 7, .maybe 8, .maybe 9, .maybe 10, .deref 1, .test 4 71 40, .use 0, .choice 42 56,
    .kill 2, .null 2, .kill 3, .null 3, .null 4, .kill 5, .null 5, .kill 7, .null 7, .kill 8,
    .null 8, .kill 10, .null 10, .goto 71, .choice 57 70, .kill 2, .null 2, .kill 3, .null 3,
    .null 4, .kill 5, .null 5, .kill 7, .null 7, .kill 8, .null 8, .kill 10, .null 10, .setn 11 0,
    .null 0, .deref 1, .kill 9, .null 9, .choice 77 76, .setn 11 0, .deref 1, .kill 6, .null 6,
    .kill 1, .null 2, .null 3, .null 4, .null 5, .null 6, .null 7, .null 8, .null 9, .null 10,
    .testn 11 2 91 92, .ret true, .ret false, .goto 93]⟩

/-- `libfsapfs_container_open` (libfsapfs/libfsapfs_container.c:272-437).  Places: 0
`file_io_handle`, 1 `internal_container`, 2 `internal_container->file_io_handle`. -/
def container_open : Fn :=
  ⟨[loc, loc, own 1],
   [.choice 1 2, .ret false, .forget 2, .null 2, .lend 1, .choice 6 7, .ret false, .choice 8 10,
    .choice 9 10, .ret false, .choice 11 12, .ret false, .choice 13 29, .test 0 14 33, .fresh 0,
    .use 0, .choice 17 29, .use 0, .choice 19 29, .test 2 20 33, .copy 2 0, .deref 1, .choice 23 29,
    .deref 1, .deref 1, .choice 28 26, .deref 1, .goto 29, .ret true, .test 0 32 30, .kill 0,
    .null 0, .ret false, .goto 33]⟩

/-- `libfsapfs_container_open_wide` (libfsapfs/libfsapfs_container.c:444-609).  Places: 0
`file_io_handle`, 1 `internal_container`, 2 `internal_container->file_io_handle`. -/
def container_open_wide : Fn :=
  ⟨[loc, loc, own 1],
   [.choice 1 2, .ret false, .forget 2, .null 2, .lend 1, .choice 6 7, .ret false, .choice 8 10,
    .choice 9 10, .ret false, .choice 11 12, .ret false, .choice 13 29, .test 0 14 33, .fresh 0,
    .use 0, .choice 17 29, .use 0, .choice 19 29, .test 2 20 33, .copy 2 0, .deref 1, .choice 23 29,
    .deref 1, .deref 1, .choice 28 26, .deref 1, .goto 29, .ret true, .test 0 32 30, .kill 0,
    .null 0, .ret false, .goto 33]⟩

/-- `libfsapfs_container_close` (libfsapfs/libfsapfs_container.c:789-1015).  Places: 0 `container`,
1 `internal_container`, 2 `internal_container->checkpoint_map`, 3
`internal_container->data_block_vector`, 4 `internal_container->file_io_handle`, 5
`internal_container->fusion_middle_tree`, 6 `internal_container->key_bag`, 7
`internal_container->object_map_btree`, 8 `internal_container->superblock`, 9
`internal_container->file_io_handle_created_in_library`, 10 `result`. -/
def container_close : Fn :=
  ⟨[loc, loc, own 1, own 1, own 1, own 1, own 1, own 1, own 1, part 1, loc],
   [.choice 1 2, .lend 0, .setn 10 1, .test 0 4 5, .ret false, .forget 8, .null 8, .forget 7,
    .null 7, .forget 6, .null 6, .forget 5, .null 5, .forget 4, .null 4, .forget 3, .null 3,
    .forget 2, .null 2, .copy 1 0, .test 1 34 21, .maybe 2, .maybe 3, .maybe 5, .maybe 6, .maybe 7,
    .maybe 8, .choice 28 31, .setn 9 2, .maybe 4, .goto 34, .setn 9 1, .choice 33 34, .lend 4,
    .deref 1, .test 4 36 37, .ret false, .deref 1, .choice 40 39, .ret false, .deref 1,
    .choice 42 47, .deref 1, .use 4, .choice 45 46, .setn 10 0, .deref 1, .testn 9 1 56 48,
    .testn 9 2 50 49, .choice 50 56, .deref 1, .kill 4, .null 4, .choice 55 54, .setn 10 0,
    .setn 9 1, .deref 1, .null 4, .deref 1, .choice 61 60, .setn 10 0, .deref 1, .test 8 66 63,
    .deref 1, .kill 8, .null 8, .deref 1, .test 5 71 68, .deref 1, .kill 5, .null 5, .deref 1,
    .test 2 78 73, .deref 1, .kill 2, .null 2, .choice 78 77, .setn 10 0, .deref 1, .kill 3,
    .null 3, .choice 83 82, .setn 10 0, .deref 1, .test 7 90 85, .deref 1, .kill 7, .null 7,
    .choice 90 89, .setn 10 0, .deref 1, .test 6 97 92, .deref 1, .kill 6, .null 6, .choice 97 96,
    .setn 10 0, .deref 1, .choice 100 99, .ret false, .none 2, .none 3, .none 4, .none 5, .none 6,
    .none 7, .none 8, .testn 10 2 108 109, .ret true, .ret false]⟩

/-- `libfsapfs_internal_container_open_read` (libfsapfs/libfsapfs_container.c:1020-1880).  Places:
0 `container_data_handle`, 1 `container_superblock`, 2 `container_superblock_swap`, 3
`internal_container`, 4 `internal_container->checkpoint_map`, 5
`internal_container->container_data_handle`, 6 `internal_container->data_block_vector`, 7
`internal_container->fusion_middle_tree`, 8 `internal_container->key_bag`, 9
`internal_container->object_map_btree`, 10 `internal_container->superblock`, 11 `object`, 12
`object_map`, 13 `internal_container->members at the start`, 14 `result`. -/
def internal_container_open_read : Fn :=
  ⟨[loc, loc, loc, loc, own 3, part 3, own 3, own 3, own 3, own 3, own 3, loc, loc, part 3, loc],
   [.choice 1 2, .lend 3, .test 3 15 3, .choice 4 7, .setn 13 1, .lend 5, .goto 15, .setn 13 2,
    .maybe 4, .lend 5, .maybe 6, .maybe 7, .maybe 8, .maybe 9, .maybe 10, .setn 14 1, .test 3 17 25,
    .testn 13 1 18 24, .none 4, .none 6, .none 7, .none 8, .none 9, .none 10, .ret false, .deref 3,
    .choice 27 35, .testn 13 1 28 34, .none 4, .none 6, .none 7, .none 8, .none 9, .none 10,
    .ret false, .deref 3, .test 10 45 37, .testn 13 1 38 44, .none 4, .none 6, .none 7, .none 8,
    .none 9, .none 10, .ret false, .deref 3, .test 7 55 47, .testn 13 1 48 54, .none 4, .none 6,
    .none 7, .none 8, .none 9, .none 10, .ret false, .deref 3, .test 4 65 57, .testn 13 1 58 64,
    .none 4, .none 6, .none 7, .none 8, .none 9, .none 10, .ret false, .deref 3, .test 6 75 67,
    .testn 13 1 68 74, .none 4, .none 6, .none 7, .none 8, .none 9, .none 10, .ret false, .deref 3,
    .test 9 85 77, .testn 13 1 78 84, .none 4, .none 6, .none 7, .none 8, .none 9, .none 10,
    .ret false, .deref 3, .test 8 95 87, .testn 13 1 88 94, .none 4, .none 6, .none 7, .none 8,
    .none 9, .none 10, .ret false, .deref 3, .choice 97 214, .test 10 98 264, .fresh 10, .deref 3,
    .use 10, .choice 102 214, .deref 3, .deref 3, .deref 3, .deref 3, .deref 3, .choice 214 108,
    .choice 109 214, .test 11 110 264, .fresh 11, .deref 3, .deref 3, .choice 114 141, .use 11,
    .choice 116 214, .deref 11, .choice 119 118, .choice 124 139, .deref 11, .choice 121 139,
    .deref 3, .deref 11, .goto 139, .choice 125 214, .test 1 126 264, .fresh 1, .use 1,
    .choice 129 214, .deref 1, .deref 3, .choice 132 137, .deref 3, .copy 2 10, .deref 3,
    .copy 10 1, .copy 1 2, .kill 1, .null 1, .deref 3, .goto 112, .kill 11, .null 11,
    .choice 214 144, .deref 3, .choice 146 214, .test 4 147 264, .fresh 4, .deref 3, .deref 3,
    .use 4, .choice 152 214, .deref 3, .choice 154 214, .test 0 155 264, .fresh 0, .deref 3, .use 0,
    .choice 159 214, .test 6 160 264, .fresh 6, .give 0, .deref 3, .copy 5 0, .null 0, .deref 3,
    .use 6, .choice 168 214, .deref 3, .choice 214 170, .deref 3, .choice 172 214, .test 12 173 264,
    .fresh 12, .use 12, .choice 176 214, .deref 12, .choice 214 178, .deref 3, .deref 12, .use 6,
    .choice 182 214, .test 9 183 264, .fresh 9, .kill 12, .null 12, .deref 3, .choice 188 213,
    .deref 3, .choice 190 213, .deref 3, .choice 192 214, .test 8 193 264, .fresh 8, .deref 3,
    .deref 3, .use 8, .choice 198 200, .setn 14 2, .goto 204, .choice 201 203, .setn 14 1,
    .goto 204, .setn 14 0, .testn 14 0 214 205, .testn 14 1 208 206, .testn 14 2 208 207,
    .choice 214 208, .testn 14 0 213 209, .testn 14 1 212 210, .testn 14 2 213 211, .choice 212 213,
    .deref 3, .ret true, .deref 3, .test 8 219 216, .deref 3, .kill 8, .null 8, .deref 3,
    .test 9 224 221, .deref 3, .kill 9, .null 9, .test 12 227 225, .kill 12, .null 12, .deref 3,
    .test 6 232 229, .deref 3, .kill 6, .null 6, .test 0 235 233, .kill 0, .null 0, .deref 3,
    .test 4 240 237, .deref 3, .kill 4, .null 4, .test 1 243 241, .kill 1, .null 1, .deref 3,
    .test 7 248 245, .deref 3, .kill 7, .null 7, .test 11 251 249, .kill 11, .null 11, .deref 3,
    .test 10 256 253, .deref 3, .kill 10, .null 10, .testn 13 1 257 263, .none 4, .none 6, .none 7,
    .none 8, .none 9, .none 10, .ret false, .goto 264]⟩

/-- `libfsapfs_container_get_identifier` (libfsapfs/libfsapfs_container.c:1978-2047).  Places: 0
`result`. -/
def container_get_identifier : Fn :=
  ⟨[loc],
   [.setn 0 2, .choice 2 3, .ret false, .choice 5 4, .ret false, .choice 7 6, .setn 0 0,
    .choice 9 8, .ret false, .testn 0 2 10 11, .ret true, .ret false]⟩

/-- `libfsapfs_container_get_volume_by_index` (libfsapfs/libfsapfs_container.c:2195-2392).  Places:
0 `*volume`, 1 `object_map_descriptor`, 2 `*volume at the start`. -/
def container_get_volume_by_index : Fn :=
  ⟨[out, loc, loc],
   [.choice 1 4, .lend 0, .setn 2 2, .goto 5, .setn 2 1, .choice 6 9, .testn 2 1 7 8, .none 0,
    .ret false, .choice 10 13, .testn 2 1 11 12, .none 0, .ret false, .choice 15 14, .choice 15 18,
    .testn 2 1 16 17, .none 0, .ret false, .choice 19 23, .test 0 20 58, .testn 2 1 21 22, .none 0,
    .ret false, .test 0 27 24, .testn 2 1 25 26, .none 0, .ret false, .choice 31 28,
    .testn 2 1 29 30, .none 0, .ret false, .choice 32 49, .test 1 33 58, .fresh 1, .test 1 49 35,
    .choice 36 49, .test 0 37 58, .fresh 0, .deref 1, .kill 1, .null 1, .use 0, .choice 43 49,
    .choice 47 44, .testn 2 1 45 46, .none 0, .ret false, .live 0, .ret true, .test 1 52 50,
    .kill 1, .null 1, .test 0 55 53, .kill 0, .null 0, .testn 2 1 56 57, .none 0, .ret false,
    .goto 58]⟩

/-- The functions of libfsapfs/libfsapfs_container.c. -/
def in_container : List (String × Fn) :=
  [("libfsapfs_container_initialize", container_initialize),
   ("libfsapfs_container_free", container_free),
   ("libfsapfs_container_open", container_open),
   ("libfsapfs_container_open_wide", container_open_wide),
   ("libfsapfs_container_close", container_close),
   ("libfsapfs_internal_container_open_read", internal_container_open_read),
   ("libfsapfs_container_get_identifier", container_get_identifier),
   ("libfsapfs_container_get_volume_by_index", container_get_volume_by_index)]

/-- `libfsapfs_snapshot_initialize` (libfsapfs/libfsapfs_snapshot.c:41-165).  Places: 0
`*snapshot`, 1 `internal_snapshot`, 2 `internal_snapshot->read_write_lock`, 3
`internal_snapshot->volume_superblock`, 4 `*snapshot at the start`. -/
def snapshot_initialize : Fn :=
  ⟨[out, loc, own 1, own 1, loc],
   [.choice 1 4, .lend 0, .setn 4 2, .goto 5, .setn 4 1, .choice 6 10, .test 0 7 59, .testn 4 1 8 9,
    .none 0, .ret false, .test 0 14 11, .testn 4 1 12 13, .none 0, .ret false, .choice 15 18,
    .testn 4 1 16 17, .none 0, .ret false, .choice 19 22, .testn 4 1 20 21, .none 0, .ret false,
    .choice 23 26, .testn 4 1 24 25, .none 0, .ret false, .forget 3, .null 3, .forget 2, .null 2,
    .choice 31 37, .fresh 1, .fresh 2, .kill 2, .fresh 3, .kill 3, .goto 38, .null 1, .test 1 52 39,
    .use 1, .null 2, .null 3, .deref 1, .deref 1, .deref 1, .deref 1, .choice 47 52, .test 2 48 59,
    .fresh 2, .copy 0 1, .live 0, .ret true, .test 1 56 53, .kill 1, .null 2, .null 3,
    .testn 4 1 57 58, .none 0, .ret false, .goto 59]⟩

/-- `libfsapfs_snapshot_free` (libfsapfs/libfsapfs_snapshot.c:170-213).  Places: 0 `*snapshot`, 1
`internal_snapshot`, 2 `internal_snapshot->file_io_handle`, 3 `internal_snapshot->read_write_lock`,
4 `internal_snapshot->volume_superblock`, 5 `result`. -/
def snapshot_free : Fn :=
  ⟨[arg, loc, part 1, own 1, own 1, loc],
   [.maybe 0, .setn 5 2, .choice 3 5, .test 0 4 32, .ret false, .test 0 29 6, .forget 4, .null 4,
    .forget 3, .null 3, .null 2, .copy 1 0, .test 1 19 13, .choice 14 16, .maybe 3, .goto 19,
    .lend 2, .maybe 3, .maybe 4, .null 0, .deref 1, .kill 3, .null 3, .choice 25 24, .setn 5 0,
    .kill 1, .null 2, .null 3, .null 4, .testn 5 2 30 31, .ret true, .ret false, .goto 32]⟩

/-- `libfsapfs_internal_snapshot_open_read` (libfsapfs/libfsapfs_snapshot.c:218-301).  Places: 0
`internal_snapshot`, 1 `internal_snapshot->volume_superblock`. -/
def internal_snapshot_open_read : Fn :=
  ⟨[loc, own 0],
   [.choice 1 2, .lend 0, .test 0 4 3, .maybe 1, .test 0 5 6, .ret false, .deref 0, .choice 8 9,
    .ret false, .deref 0, .test 1 12 11, .ret false, .deref 0, .choice 14 20, .test 1 15 21,
    .fresh 1, .deref 0, .use 1, .choice 19 20, .ret true, .ret false, .goto 21]⟩

/-- `libfsapfs_internal_snapshot_close` (libfsapfs/libfsapfs_snapshot.c:306-355).  Places: 0
`internal_snapshot`, 1 `internal_snapshot->volume_superblock`, 2 `result`. -/
def internal_snapshot_close : Fn :=
  ⟨[loc, own 0, loc],
   [.choice 1 2, .lend 0, .test 0 4 3, .maybe 1, .setn 2 1, .test 0 6 7, .ret false, .deref 0,
    .choice 9 10, .ret false, .deref 0, .deref 0, .test 1 16 13, .deref 0, .kill 1, .null 1,
    .none 1, .testn 2 2 18 19, .ret true, .ret false]⟩

/-- `libfsapfs_snapshot_get_utf8_name_size` (libfsapfs/libfsapfs_snapshot.c:361-428).  Places: 0
`result`. -/
def snapshot_get_utf8_name_size : Fn :=
  ⟨[loc],
   [.setn 0 2, .choice 2 3, .ret false, .choice 5 4, .ret false, .choice 7 6, .setn 0 0,
    .choice 9 8, .ret false, .testn 0 2 10 11, .ret true, .ret false]⟩

/-- `libfsapfs_snapshot_get_utf8_name` (libfsapfs/libfsapfs_snapshot.c:434-503).  Places: 0
`result`. -/
def snapshot_get_utf8_name : Fn :=
  ⟨[loc],
   [.setn 0 2, .choice 2 3, .ret false, .choice 5 4, .ret false, .choice 7 6, .setn 0 0,
    .choice 9 8, .ret false, .testn 0 2 10 11, .ret true, .ret false]⟩

/-- `libfsapfs_snapshot_get_utf16_name_size` (libfsapfs/libfsapfs_snapshot.c:509-576).  Places: 0
`result`. -/
def snapshot_get_utf16_name_size : Fn :=
  ⟨[loc],
   [.setn 0 2, .choice 2 3, .ret false, .choice 5 4, .ret false, .choice 7 6, .setn 0 0,
    .choice 9 8, .ret false, .testn 0 2 10 11, .ret true, .ret false]⟩

/-- `libfsapfs_snapshot_get_utf16_name` (libfsapfs/libfsapfs_snapshot.c:582-651).  Places: 0
`result`. -/
def snapshot_get_utf16_name : Fn :=
  ⟨[loc],
   [.setn 0 2, .choice 2 3, .ret false, .choice 5 4, .ret false, .choice 7 6, .setn 0 0,
    .choice 9 8, .ret false, .testn 0 2 10 11, .ret true, .ret false]⟩

/-- The functions of libfsapfs/libfsapfs_snapshot.c. -/
def in_snapshot : List (String × Fn) :=
  [("libfsapfs_snapshot_initialize", snapshot_initialize),
   ("libfsapfs_snapshot_free", snapshot_free),
   ("libfsapfs_internal_snapshot_open_read", internal_snapshot_open_read),
   ("libfsapfs_internal_snapshot_close", internal_snapshot_close),
   ("libfsapfs_snapshot_get_utf8_name_size", snapshot_get_utf8_name_size),
   ("libfsapfs_snapshot_get_utf8_name", snapshot_get_utf8_name),
   ("libfsapfs_snapshot_get_utf16_name_size", snapshot_get_utf16_name_size),
   ("libfsapfs_snapshot_get_utf16_name", snapshot_get_utf16_name)]

/-- `libfsapfs_volume_initialize` (libfsapfs/libfsapfs_volume.c:60-174).  Places: 0 `*volume`, 1
`internal_volume`, 2 `internal_volume->container_data_block_vector`, 3
`internal_volume->encryption_context`, 4 `internal_volume->file_system`, 5
`internal_volume->file_system_data_block_vector`, 6 `internal_volume->key_bag`, 7
`internal_volume->object_map_btree`, 8 `internal_volume->read_write_lock`, 9
`internal_volume->recovery_password`, 10 `internal_volume->snapshot_metadata_tree`, 11
`internal_volume->snapshots`, 12 `internal_volume->superblock`, 13
`internal_volume->user_password`, 14 `*volume at the start`. -/
def volume_initialize : Fn :=
  ⟨[out, loc, own 1, own 1, own 1, own 1, own 1, own 1, own 1, own 1, own 1, own 1, own 1, own 1,
    loc],
   [.choice 1 4, .lend 0, .setn 14 2, .goto 5, .setn 14 1, .choice 6 10, .test 0 7 116,
    .testn 14 1 8 9, .none 0, .ret false, .test 0 14 11, .testn 14 1 12 13, .none 0, .ret false,
    .choice 15 18, .testn 14 1 16 17, .none 0, .ret false, .choice 19 22, .testn 14 1 20 21,
    .none 0, .ret false, .forget 13, .null 13, .forget 12, .null 12, .forget 11, .null 11,
    .forget 10, .null 10, .forget 9, .null 9, .forget 8, .null 8, .forget 7, .null 7, .forget 6,
    .null 6, .forget 5, .null 5, .forget 4, .null 4, .forget 3, .null 3, .forget 2, .null 2,
    .choice 47 73, .fresh 1, .fresh 2, .kill 2, .fresh 3, .kill 3, .fresh 4, .kill 4, .fresh 5,
    .kill 5, .fresh 6, .kill 6, .fresh 7, .kill 7, .fresh 8, .kill 8, .fresh 9, .kill 9, .fresh 10,
    .kill 10, .fresh 11, .kill 11, .fresh 12, .kill 12, .fresh 13, .kill 13, .goto 74, .null 1,
    .test 1 99 75, .use 1, .null 2, .null 3, .null 4, .null 5, .null 6, .null 7, .null 8, .null 9,
    .null 10, .null 11, .null 12, .null 13, .deref 1, .deref 1, .deref 1, .deref 1, .deref 1,
    .choice 94 99, .test 8 95 116, .fresh 8, .copy 0 1, .live 0, .ret true, .test 1 113 100,
    .kill 1, .null 2, .null 3, .null 4, .null 5, .null 6, .null 7, .null 8, .null 9, .null 10,
    .null 11, .null 12, .null 13, .testn 14 1 114 115, .none 0, .ret false, .goto 116]⟩

/-- `libfsapfs_volume_free` (libfsapfs/libfsapfs_volume.c:179-238).  Places: 0 `*volume`, 1
`internal_volume`, 2 `internal_volume->container_data_block_vector`, 3
`internal_volume->encryption_context`, 4 `internal_volume->file_io_handle`, 5
`internal_volume->file_system`, 6 `internal_volume->file_system_data_block_vector`, 7
`internal_volume->key_bag`, 8 `internal_volume->object_map_btree`, 9
`internal_volume->read_write_lock`, 10 `internal_volume->recovery_password`, 11
`internal_volume->snapshot_metadata_tree`, 12 `internal_volume->snapshots`, 13
`internal_volume->superblock`, 14 `internal_volume->user_password`, 15 `result`. -/
def volume_free : Fn :=
  ⟨[arg, loc, own 1, own 1, part 1, own 1, own 1, own 1, own 1, own 1, own 1, own 1, own 1, own 1,
    own 1, loc],
   [.maybe 0, .setn 15 2, .choice 3 5, .test 0 4 122, .ret false, .test 0 119 6, .forget 14,
    .null 14, .forget 13, .null 13, .forget 12, .null 12, .forget 11, .null 11, .forget 10,
    .null 10, .forget 9, .null 9, .forget 8, .null 8, .forget 7, .null 7, .forget 6, .null 6,
    .forget 5, .null 5, .null 4, .forget 3, .null 3, .forget 2, .null 2, .copy 1 0, .test 1 49 33,
    .choice 34 36, .maybe 9, .goto 49, .maybe 2, .maybe 3, .lend 4, .maybe 5, .maybe 6, .maybe 7,
    .maybe 8, .maybe 9, .maybe 10, .maybe 11, .maybe 12, .maybe 13, .maybe 14, .null 0, .deref 1,
    .test 4 100 52, .use 1, .choice 54 77, .kill 2, .null 2, .kill 3, .null 3, .kill 5, .null 5,
    .kill 6, .null 6, .kill 7, .null 7, .kill 8, .null 8, .kill 10, .null 10, .kill 11, .null 11,
    .kill 12, .null 12, .kill 13, .null 13, .kill 14, .null 14, .goto 100, .kill 2, .null 2,
    .kill 3, .null 3, .kill 5, .null 5, .kill 6, .null 6, .kill 7, .null 7, .kill 8, .null 8,
    .kill 10, .null 10, .kill 11, .null 11, .kill 12, .null 12, .kill 13, .null 13, .kill 14,
    .null 14, .setn 15 0, .deref 1, .kill 9, .null 9, .choice 105 104, .setn 15 0, .kill 1, .null 2,
    .null 3, .null 4, .null 5, .null 6, .null 7, .null 8, .null 9, .null 10, .null 11, .null 12,
    .null 13, .null 14, .testn 15 2 120 121, .ret true, .ret false, .goto 122]⟩

/-- `libfsapfs_internal_volume_open_read` (libfsapfs/libfsapfs_volume.c:243-891).  Places: 0
`container_data_handle`, 1 `file_system_data_handle`, 2 `internal_volume`, 3
`internal_volume->container_data_block_vector`, 4 `internal_volume->container_data_handle`, 5
`internal_volume->encryption_context`, 6 `internal_volume->file_system_data_block_vector`, 7
`internal_volume->file_system_data_handle`, 8 `internal_volume->key_bag`, 9
`internal_volume->object_map_btree`, 10 `internal_volume->snapshot_metadata_tree`, 11
`internal_volume->snapshots`, 12 `internal_volume->superblock`, 13 `object_map`, 14
`internal_volume->members at the start`, 15 `result`. -/
def internal_volume_open_read : Fn :=
  ⟨[loc, loc, loc, own 2, part 2, own 2, own 2, part 2, own 2, own 2, own 2, own 2, own 2, loc,
    part 2, loc],
   [.choice 1 2, .lend 2, .test 2 20 3, .choice 4 9, .setn 14 1, .lend 4, .lend 7, .maybe 11,
    .goto 20, .setn 14 2, .maybe 3, .lend 4, .maybe 5, .maybe 6, .lend 7, .maybe 8, .maybe 9,
    .maybe 10, .maybe 11, .maybe 12, .setn 15 1, .test 2 22 31, .testn 14 1 23 30, .none 3, .none 5,
    .none 6, .none 8, .none 9, .none 10, .none 12, .ret false, .deref 2, .choice 33 42,
    .testn 14 1 34 41, .none 3, .none 5, .none 6, .none 8, .none 9, .none 10, .none 12, .ret false,
    .deref 2, .test 12 53 44, .testn 14 1 45 52, .none 3, .none 5, .none 6, .none 8, .none 9,
    .none 10, .none 12, .ret false, .deref 2, .test 3 64 55, .testn 14 1 56 63, .none 3, .none 5,
    .none 6, .none 8, .none 9, .none 10, .none 12, .ret false, .deref 2, .test 9 75 66,
    .testn 14 1 67 74, .none 3, .none 5, .none 6, .none 8, .none 9, .none 10, .none 12, .ret false,
    .deref 2, .test 10 86 77, .testn 14 1 78 85, .none 3, .none 5, .none 6, .none 8, .none 9,
    .none 10, .none 12, .ret false, .deref 2, .test 8 97 88, .testn 14 1 89 96, .none 3, .none 5,
    .none 6, .none 8, .none 9, .none 10, .none 12, .ret false, .deref 2, .test 5 108 99,
    .testn 14 1 100 107, .none 3, .none 5, .none 6, .none 8, .none 9, .none 10, .none 12,
    .ret false, .deref 2, .test 6 119 110, .testn 14 1 111 118, .none 3, .none 5, .none 6, .none 8,
    .none 9, .none 10, .none 12, .ret false, .deref 2, .choice 121 234, .test 12 122 292, .fresh 12,
    .deref 2, .use 12, .choice 126 234, .deref 2, .choice 128 234, .test 0 129 292, .fresh 0,
    .deref 2, .use 0, .choice 133 234, .test 3 134 292, .fresh 3, .give 0, .deref 2, .copy 4 0,
    .null 0, .deref 2, .use 3, .choice 142 234, .deref 2, .choice 234 144, .deref 2,
    .choice 146 234, .test 13 147 292, .fresh 13, .use 13, .choice 150 234, .deref 13,
    .choice 234 152, .deref 2, .deref 13, .use 3, .choice 156 234, .test 9 157 292, .fresh 9,
    .kill 13, .null 13, .deref 2, .deref 2, .choice 163 198, .deref 2, .choice 165 198, .deref 2,
    .deref 2, .deref 2, .choice 169 171, .setn 15 2, .goto 175, .choice 172 174, .setn 15 1,
    .goto 175, .setn 15 0, .testn 15 0 234 176, .testn 15 1 179 177, .testn 15 2 179 178,
    .choice 234 179, .testn 15 0 183 180, .testn 15 1 198 181, .testn 15 2 183 182, .choice 183 198,
    .choice 234 184, .choice 234 185, .deref 2, .choice 187 234, .test 8 188 292, .fresh 8,
    .deref 2, .deref 2, .use 8, .choice 193 234, .deref 2, .choice 195 234, .test 5 196 292,
    .fresh 5, .deref 2, .deref 2, .choice 200 234, .test 11 201 292, .fresh 11, .deref 2,
    .choice 204 214, .deref 2, .use 3, .use 9, .choice 208 234, .test 10 209 292, .fresh 10,
    .deref 2, .use 10, .use 11, .choice 214 234, .deref 2, .choice 234 216, .deref 2, .use 5,
    .choice 219 234, .test 1 220 292, .fresh 1, .deref 2, .use 1, .choice 224 234, .test 6 225 292,
    .fresh 6, .give 1, .deref 2, .copy 7 1, .null 1, .deref 2, .use 6, .choice 233 234, .ret true,
    .deref 2, .test 6 239 236, .deref 2, .kill 6, .null 6, .test 1 242 240, .kill 1, .null 1,
    .deref 2, .test 5 247 244, .deref 2, .kill 5, .null 5, .deref 2, .test 8 252 249, .deref 2,
    .kill 8, .null 8, .deref 2, .test 10 257 254, .deref 2, .kill 11, .null 11, .deref 2,
    .test 10 262 259, .deref 2, .kill 10, .null 10, .deref 2, .test 9 267 264, .deref 2, .kill 9,
    .null 9, .test 13 270 268, .kill 13, .null 13, .deref 2, .test 3 275 272, .deref 2, .kill 3,
    .null 3, .test 0 278 276, .kill 0, .null 0, .deref 2, .test 12 283 280, .deref 2, .kill 12,
    .null 12, .testn 14 1 284 291, .none 3, .none 5, .none 6, .none 8, .none 9, .none 10, .none 12,
    .ret false, .goto 292]⟩

/-- `libfsapfs_internal_volume_close` (libfsapfs/libfsapfs_volume.c:896-1112).  Places: 0
`internal_volume`, 1 `internal_volume->container_data_block_vector`, 2
`internal_volume->encryption_context`, 3 `internal_volume->file_system`, 4
`internal_volume->file_system_data_block_vector`, 5 `internal_volume->key_bag`, 6
`internal_volume->object_map_btree`, 7 `internal_volume->recovery_password`, 8
`internal_volume->snapshot_metadata_tree`, 9 `internal_volume->snapshots`, 10
`internal_volume->superblock`, 11 `internal_volume->user_password`, 12 `result`. -/
def internal_volume_close : Fn :=
  ⟨[loc, own 0, own 0, own 0, own 0, own 0, own 0, own 0, own 0, own 0, own 0, own 0, loc],
   [.choice 1 2, .lend 0, .test 0 14 3, .maybe 1, .maybe 2, .maybe 3, .maybe 4, .maybe 5, .maybe 6,
    .maybe 7, .maybe 8, .maybe 9, .maybe 10, .maybe 11, .setn 12 1, .test 0 16 17, .ret false,
    .deref 0, .choice 19 20, .ret false, .deref 0, .deref 0, .deref 0, .test 11 31 24, .deref 0,
    .use 11, .deref 0, .kill 11, .deref 0, .null 11, .deref 0, .deref 0, .test 7 40 33, .deref 0,
    .use 7, .deref 0, .kill 7, .deref 0, .null 7, .deref 0, .deref 0, .test 10 45 42, .deref 0,
    .kill 10, .null 10, .deref 0, .kill 1, .null 1, .choice 50 49, .setn 12 0, .deref 0,
    .test 6 57 52, .deref 0, .kill 6, .null 6, .choice 57 56, .setn 12 0, .deref 0, .test 8 64 59,
    .deref 0, .kill 8, .null 8, .choice 64 63, .setn 12 0, .deref 0, .test 9 71 66, .deref 0,
    .kill 9, .null 9, .choice 71 70, .setn 12 0, .deref 0, .test 5 78 73, .deref 0, .kill 5,
    .null 5, .choice 78 77, .setn 12 0, .deref 0, .test 2 85 80, .deref 0, .kill 2, .null 2,
    .choice 85 84, .setn 12 0, .deref 0, .kill 4, .null 4, .choice 90 89, .setn 12 0, .deref 0,
    .test 3 97 92, .deref 0, .kill 3, .null 3, .choice 97 96, .setn 12 0, .none 1, .none 2, .none 3,
    .none 4, .none 5, .none 6, .none 7, .none 8, .none 9, .none 10, .none 11, .testn 12 2 109 110,
    .ret true, .ret false]⟩

/-- `libfsapfs_internal_volume_unlock` (libfsapfs/libfsapfs_volume.c:1117-1242).  Places: 0
`result`. -/
def internal_volume_unlock : Fn :=
  ⟨[loc],
   [.setn 0 1, .choice 2 3, .ret false, .choice 4 5, .ret false, .choice 6 8, .setn 0 2, .goto 25,
    .choice 9 11, .setn 0 2, .goto 15, .choice 12 14, .setn 0 1, .goto 15, .setn 0 0,
    .testn 0 0 28 16, .testn 0 1 19 17, .testn 0 2 19 18, .choice 28 19, .testn 0 0 23 20,
    .testn 0 1 25 21, .testn 0 2 23 22, .choice 23 25, .choice 24 28, .choice 25 28,
    .testn 0 2 26 27, .ret true, .ret false, .ret false]⟩

/-- `libfsapfs_volume_unlock` (libfsapfs/libfsapfs_volume.c:1247-1317).  Places: 0 `result`. -/
def volume_unlock : Fn :=
  ⟨[loc],
   [.setn 0 2, .choice 2 3, .ret false, .choice 5 4, .ret false, .choice 6 18, .choice 7 9,
    .setn 0 2, .goto 13, .choice 10 12, .setn 0 1, .goto 13, .setn 0 0, .testn 0 0 17 14,
    .testn 0 1 18 15, .testn 0 2 18 16, .choice 17 18, .setn 0 0, .choice 20 19, .ret false,
    .testn 0 2 21 22, .ret true, .ret false]⟩

/-- `libfsapfs_volume_get_identifier` (libfsapfs/libfsapfs_volume.c:1512-1592).  Places: 0
`result`. -/
def volume_get_identifier : Fn :=
  ⟨[loc],
   [.setn 0 2, .choice 2 3, .ret false, .choice 4 5, .ret false, .choice 7 6, .ret false,
    .choice 9 8, .setn 0 0, .choice 11 10, .ret false, .testn 0 2 12 13, .ret true, .ret false]⟩

/-- `libfsapfs_volume_get_utf8_name_size` (libfsapfs/libfsapfs_volume.c:1598-1665).  Places: 0
`result`. -/
def volume_get_utf8_name_size : Fn :=
  ⟨[loc],
   [.setn 0 2, .choice 2 3, .ret false, .choice 5 4, .ret false, .choice 7 6, .setn 0 0,
    .choice 9 8, .ret false, .testn 0 2 10 11, .ret true, .ret false]⟩

/-- `libfsapfs_volume_get_utf8_name` (libfsapfs/libfsapfs_volume.c:1671-1740).  Places: 0 `result`. -/
def volume_get_utf8_name : Fn :=
  ⟨[loc],
   [.setn 0 2, .choice 2 3, .ret false, .choice 5 4, .ret false, .choice 7 6, .setn 0 0,
    .choice 9 8, .ret false, .testn 0 2 10 11, .ret true, .ret false]⟩

/-- `libfsapfs_volume_get_utf16_name_size` (libfsapfs/libfsapfs_volume.c:1746-1813).  Places: 0
`result`. -/
def volume_get_utf16_name_size : Fn :=
  ⟨[loc],
   [.setn 0 2, .choice 2 3, .ret false, .choice 5 4, .ret false, .choice 7 6, .setn 0 0,
    .choice 9 8, .ret false, .testn 0 2 10 11, .ret true, .ret false]⟩

/-- `libfsapfs_volume_get_utf16_name` (libfsapfs/libfsapfs_volume.c:1819-1888).  Places: 0
`result`. -/
def volume_get_utf16_name : Fn :=
  ⟨[loc],
   [.setn 0 2, .choice 2 3, .ret false, .choice 5 4, .ret false, .choice 7 6, .setn 0 0,
    .choice 9 8, .ret false, .testn 0 2 10 11, .ret true, .ret false]⟩

/-- `libfsapfs_volume_set_utf8_password` (libfsapfs/libfsapfs_volume.c:1953-2116).  Places: 0
`internal_volume`, 1 `internal_volume->user_password`, 2 `volume`. -/
def volume_set_utf8_password : Fn :=
  ⟨[loc, own 0, loc],
   [.choice 1 2, .lend 2, .test 2 3 4, .ret false, .forget 1, .null 1, .copy 0 2, .test 0 9 8,
    .maybe 1, .choice 10 11, .ret false, .deref 0, .choice 14 13, .ret false, .deref 0,
    .test 1 23 16, .deref 0, .use 1, .deref 0, .kill 1, .deref 0, .null 1, .deref 0, .deref 0,
    .deref 0, .choice 43 26, .deref 0, .choice 43 28, .deref 0, .deref 0, .choice 31 33, .fresh 1,
    .goto 34, .null 1, .deref 0, .test 1 43 36, .deref 0, .use 1, .deref 0, .deref 0, .choice 42 41,
    .ret false, .ret true, .deref 0, .test 1 51 45, .deref 0, .use 1, .deref 0, .kill 1, .deref 0,
    .null 1, .deref 0, .deref 0, .ret false]⟩

/-- `libfsapfs_volume_set_utf16_password` (libfsapfs/libfsapfs_volume.c:2122-2288).  Places: 0
`internal_volume`, 1 `internal_volume->user_password`, 2 `volume`. -/
def volume_set_utf16_password : Fn :=
  ⟨[loc, own 0, loc],
   [.choice 1 2, .lend 2, .test 2 3 4, .ret false, .forget 1, .null 1, .copy 0 2, .test 0 9 8,
    .maybe 1, .deref 0, .choice 12 11, .ret false, .deref 0, .test 1 21 14, .deref 0, .use 1,
    .deref 0, .kill 1, .deref 0, .null 1, .deref 0, .deref 0, .choice 23 43, .deref 0,
    .choice 43 25, .deref 0, .choice 43 27, .deref 0, .deref 0, .choice 30 32, .fresh 1, .goto 33,
    .null 1, .deref 0, .test 1 43 35, .deref 0, .use 1, .choice 38 43, .deref 0, .deref 0,
    .choice 42 41, .ret false, .ret true, .deref 0, .test 1 51 45, .deref 0, .use 1, .deref 0,
    .kill 1, .deref 0, .null 1, .deref 0, .deref 0, .ret false]⟩

/-- `libfsapfs_volume_set_utf8_recovery_password` (libfsapfs/libfsapfs_volume.c:2294-2446).
Places: 0 `internal_volume`, 1 `internal_volume->recovery_password`, 2 `volume`. -/
def volume_set_utf8_recovery_password : Fn :=
  ⟨[loc, own 0, loc],
   [.choice 1 2, .lend 2, .test 2 3 4, .ret false, .forget 1, .null 1, .copy 0 2, .test 0 9 8,
    .maybe 1, .deref 0, .choice 12 11, .ret false, .deref 0, .test 1 21 14, .deref 0, .use 1,
    .deref 0, .kill 1, .deref 0, .null 1, .deref 0, .deref 0, .deref 0, .choice 41 24, .deref 0,
    .choice 41 26, .deref 0, .deref 0, .choice 29 31, .fresh 1, .goto 32, .null 1, .deref 0,
    .test 1 41 34, .deref 0, .use 1, .deref 0, .deref 0, .choice 40 39, .ret false, .ret true,
    .deref 0, .test 1 49 43, .deref 0, .use 1, .deref 0, .kill 1, .deref 0, .null 1, .deref 0,
    .deref 0, .ret false]⟩

/-- `libfsapfs_volume_set_utf16_recovery_password` (libfsapfs/libfsapfs_volume.c:2452-2618).
Places: 0 `internal_volume`, 1 `internal_volume->recovery_password`, 2 `volume`. -/
def volume_set_utf16_recovery_password : Fn :=
  ⟨[loc, own 0, loc],
   [.choice 1 2, .lend 2, .test 2 3 4, .ret false, .forget 1, .null 1, .copy 0 2, .test 0 9 8,
    .maybe 1, .deref 0, .choice 12 11, .ret false, .deref 0, .test 1 21 14, .deref 0, .use 1,
    .deref 0, .kill 1, .deref 0, .null 1, .deref 0, .deref 0, .choice 23 43, .deref 0,
    .choice 43 25, .deref 0, .choice 43 27, .deref 0, .deref 0, .choice 30 32, .fresh 1, .goto 33,
    .null 1, .deref 0, .test 1 43 35, .deref 0, .use 1, .choice 38 43, .deref 0, .deref 0,
    .choice 42 41, .ret false, .ret true, .deref 0, .test 1 51 45, .deref 0, .use 1, .deref 0,
    .kill 1, .deref 0, .null 1, .deref 0, .deref 0, .ret false]⟩

/-- `libfsapfs_volume_get_root_directory` (libfsapfs/libfsapfs_volume.c:2623-2725).  Places: 0
`*file_entry`, 1 `result`. -/
def volume_get_root_directory : Fn :=
  ⟨[out, loc],
   [.setn 1 2, .choice 2 4, .none 0, .ret false, .choice 5 7, .none 0, .ret false, .choice 10 8,
    .none 0, .ret false, .choice 11 13, .choice 13 12, .setn 1 0, .testn 1 0 31 14,
    .testn 1 1 17 15, .testn 1 2 17 16, .choice 17 31, .choice 18 22, .test 0 19 39, .fresh 0,
    .setn 1 2, .goto 26, .choice 23 25, .setn 1 1, .goto 26, .setn 1 0, .testn 1 0 30 27,
    .testn 1 1 31 28, .testn 1 2 31 29, .choice 30 31, .setn 1 0, .choice 34 32, .none 0,
    .ret false, .testn 1 2 35 37, .live 0, .ret true, .none 0, .ret false, .goto 39]⟩

/-- `libfsapfs_internal_volume_get_file_system` (libfsapfs/libfsapfs_volume.c:2800-2965).  Places:
0 `file_system_btree`, 1 `internal_volume`, 2 `internal_volume->file_system`, 3
`object_map_descriptor`, 4 `internal_volume->members at the start`, 5 `result`. -/
def internal_volume_get_file_system : Fn :=
  ⟨[loc, loc, own 1, loc, part 1, loc],
   [.choice 1 2, .lend 1, .test 1 8 3, .choice 4 6, .setn 4 1, .goto 8, .setn 4 2, .maybe 2,
    .setn 5 1, .test 1 10 13, .testn 4 1 11 12, .none 2, .ret false, .deref 1, .choice 15 18,
    .testn 4 1 16 17, .none 2, .ret false, .deref 1, .choice 20 32, .use 1, .choice 22 24,
    .setn 5 2, .goto 28, .choice 25 27, .setn 5 1, .goto 28, .setn 5 0, .testn 5 0 59 29,
    .testn 5 1 32 30, .testn 5 2 32 31, .choice 59 32, .deref 1, .choice 34 37, .test 3 35 73,
    .fresh 3, .goto 43, .testn 5 0 41 38, .testn 5 1 59 39, .testn 5 2 41 40, .choice 59 41,
    .deref 1, .goto 59, .test 3 59 44, .deref 1, .deref 1, .deref 3, .choice 48 59, .test 0 49 73,
    .fresh 0, .deref 1, .use 0, .choice 53 59, .test 2 54 73, .fresh 2, .give 0, .kill 3, .null 3,
    .ret true, .test 3 62 60, .kill 3, .null 3, .test 0 65 63, .kill 0, .null 0, .deref 1,
    .test 2 70 67, .deref 1, .kill 2, .null 2, .testn 4 1 71 72, .none 2, .ret false, .goto 73]⟩

/-- `libfsapfs_volume_get_file_entry_by_identifier` (libfsapfs/libfsapfs_volume.c:2970-3074).
Places: 0 `*file_entry`, 1 `result`. -/
def volume_get_file_entry_by_identifier : Fn :=
  ⟨[out, loc],
   [.setn 1 2, .choice 2 4, .none 0, .ret false, .choice 5 7, .none 0, .ret false, .choice 10 8,
    .none 0, .ret false, .choice 11 13, .choice 13 12, .setn 1 0, .testn 1 0 31 14,
    .testn 1 1 17 15, .testn 1 2 17 16, .choice 17 31, .choice 18 22, .test 0 19 39, .fresh 0,
    .setn 1 2, .goto 26, .choice 23 25, .setn 1 1, .goto 26, .setn 1 0, .testn 1 0 30 27,
    .testn 1 1 31 28, .testn 1 2 31 29, .choice 30 31, .setn 1 0, .choice 34 32, .none 0,
    .ret false, .testn 1 2 35 37, .live 0, .ret true, .none 0, .ret false, .goto 39]⟩

/-- `libfsapfs_volume_get_file_entry_by_utf8_path` (libfsapfs/libfsapfs_volume.c:3079-3206).
Places: 0 `*file_entry`, 1 `*file_entry at the start`, 2 `result`. -/
def volume_get_file_entry_by_utf8_path : Fn :=
  ⟨[out, loc, loc],
   [.choice 1 4, .lend 0, .setn 1 2, .goto 5, .setn 1 1, .setn 2 2, .choice 7 10, .testn 1 1 8 9,
    .none 0, .ret false, .choice 11 14, .testn 1 1 12 13, .none 0, .ret false, .choice 15 19,
    .test 0 16 58, .testn 1 1 17 18, .none 0, .ret false, .test 0 23 20, .testn 1 1 21 22, .none 0,
    .ret false, .choice 27 24, .testn 1 1 25 26, .none 0, .ret false, .choice 28 30, .choice 30 29,
    .setn 2 0, .testn 2 0 48 31, .testn 2 1 34 32, .testn 2 2 34 33, .choice 34 48, .choice 35 39,
    .test 0 36 58, .fresh 0, .setn 2 2, .goto 43, .choice 40 42, .setn 2 1, .goto 43, .setn 2 0,
    .testn 2 0 47 44, .testn 2 1 48 45, .testn 2 2 48 46, .choice 47 48, .setn 2 0, .choice 52 49,
    .testn 1 1 50 51, .none 0, .ret false, .testn 2 2 53 55, .live 0, .ret true, .testn 1 1 56 57,
    .none 0, .ret false, .goto 58]⟩

/-- `libfsapfs_volume_get_file_entry_by_utf16_path` (libfsapfs/libfsapfs_volume.c:3211-3338).
Places: 0 `*file_entry`, 1 `*file_entry at the start`, 2 `result`. -/
def volume_get_file_entry_by_utf16_path : Fn :=
  ⟨[out, loc, loc],
   [.choice 1 4, .lend 0, .setn 1 2, .goto 5, .setn 1 1, .setn 2 2, .choice 7 10, .testn 1 1 8 9,
    .none 0, .ret false, .choice 11 14, .testn 1 1 12 13, .none 0, .ret false, .choice 15 19,
    .test 0 16 58, .testn 1 1 17 18, .none 0, .ret false, .test 0 23 20, .testn 1 1 21 22, .none 0,
    .ret false, .choice 27 24, .testn 1 1 25 26, .none 0, .ret false, .choice 28 30, .choice 30 29,
    .setn 2 0, .testn 2 0 48 31, .testn 2 1 34 32, .testn 2 2 34 33, .choice 34 48, .choice 35 39,
    .test 0 36 58, .fresh 0, .setn 2 2, .goto 43, .choice 40 42, .setn 2 1, .goto 43, .setn 2 0,
    .testn 2 0 47 44, .testn 2 1 48 45, .testn 2 2 48 46, .choice 47 48, .setn 2 0, .choice 52 49,
    .testn 1 1 50 51, .none 0, .ret false, .testn 2 2 53 55, .live 0, .ret true, .testn 1 1 56 57,
    .none 0, .ret false, .goto 58]⟩

/-- `libfsapfs_volume_get_number_of_snapshots` (libfsapfs/libfsapfs_volume.c:3343-3410).  Places: 0
`result`. -/
def volume_get_number_of_snapshots : Fn :=
  ⟨[loc],
   [.setn 0 2, .choice 2 3, .ret false, .choice 5 4, .ret false, .choice 7 6, .setn 0 0,
    .choice 9 8, .ret false, .testn 0 2 10 11, .ret true, .ret false]⟩

/-- `libfsapfs_volume_get_snapshot_by_index` (libfsapfs/libfsapfs_volume.c:3416-3569).  Places: 0
`*snapshot`, 1 `snapshot_metadata`, 2 `*snapshot at the start`. -/
def volume_get_snapshot_by_index : Fn :=
  ⟨[out, loc, loc],
   [.choice 1 4, .lend 0, .setn 2 2, .goto 5, .setn 2 1, .choice 6 9, .testn 2 1 7 8, .none 0,
    .ret false, .choice 10 14, .test 0 11 50, .testn 2 1 12 13, .none 0, .ret false, .test 0 18 15,
    .testn 2 1 16 17, .none 0, .ret false, .choice 22 19, .testn 2 1 20 21, .none 0, .ret false,
    .choice 23 25, .lend 1, .goto 30, .choice 26 27, .lend 1, .testn 2 1 28 29, .none 0, .ret false,
    .test 1 44 31, .use 1, .choice 33 44, .test 0 34 50, .fresh 0, .deref 1, .use 0, .choice 38 44,
    .choice 42 39, .testn 2 1 40 41, .none 0, .ret false, .live 0, .ret true, .test 0 47 45,
    .kill 0, .null 0, .testn 2 1 48 49, .none 0, .ret false, .goto 50]⟩

/-- The functions of libfsapfs/libfsapfs_volume.c. -/
def in_volume : List (String × Fn) :=
  [("libfsapfs_volume_initialize", volume_initialize),
   ("libfsapfs_volume_free", volume_free),
   ("libfsapfs_internal_volume_open_read", internal_volume_open_read),
   ("libfsapfs_internal_volume_close", internal_volume_close),
   ("libfsapfs_internal_volume_unlock", internal_volume_unlock),
   ("libfsapfs_volume_unlock", volume_unlock),
   ("libfsapfs_volume_get_identifier", volume_get_identifier),
   ("libfsapfs_volume_get_utf8_name_size", volume_get_utf8_name_size),
   ("libfsapfs_volume_get_utf8_name", volume_get_utf8_name),
   ("libfsapfs_volume_get_utf16_name_size", volume_get_utf16_name_size),
   ("libfsapfs_volume_get_utf16_name", volume_get_utf16_name),
   ("libfsapfs_volume_set_utf8_password", volume_set_utf8_password),
   ("libfsapfs_volume_set_utf16_password", volume_set_utf16_password),
   ("libfsapfs_volume_set_utf8_recovery_password", volume_set_utf8_recovery_password),
   ("libfsapfs_volume_set_utf16_recovery_password", volume_set_utf16_recovery_password),
   ("libfsapfs_volume_get_root_directory", volume_get_root_directory),
   ("libfsapfs_internal_volume_get_file_system", internal_volume_get_file_system),
   ("libfsapfs_volume_get_file_entry_by_identifier", volume_get_file_entry_by_identifier),
   ("libfsapfs_volume_get_file_entry_by_utf8_path", volume_get_file_entry_by_utf8_path),
   ("libfsapfs_volume_get_file_entry_by_utf16_path", volume_get_file_entry_by_utf16_path),
   ("libfsapfs_volume_get_number_of_snapshots", volume_get_number_of_snapshots),
   ("libfsapfs_volume_get_snapshot_by_index", volume_get_snapshot_by_index)]

end Verif.Owner.Lib
