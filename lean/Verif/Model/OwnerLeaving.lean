import Verif.Model.Ownership

/-
The functions that leave members behind, with the check that after a failure the members that were
empty before are empty.
-/

namespace Verif.Owner.Leaving

/-- `libfsapfs_internal_snapshot_open_read` (libfsapfs/libfsapfs_snapshot.c:218-301).  Places: 0
`internal_snapshot`, 1 `internal_snapshot->volume_superblock`, 2 `internal_snapshot->members at the
start`. -/
def internal_snapshot_open_read : Fn :=
  ⟨[loc, own 0, part 0],
   [.choice 1 2, .lend 0, .test 0 8 3, .choice 4 6, .setn 2 1, .goto 8, .setn 2 2, .maybe 1,
    .test 0 9 12, .testn 2 1 10 11, .none 1, .ret false, .deref 0, .choice 14 17, .testn 2 1 15 16,
    .none 1, .ret false, .deref 0, .test 1 22 19, .testn 2 1 20 21, .none 1, .ret false, .deref 0,
    .choice 24 30, .test 1 25 33, .fresh 1, .deref 0, .use 1, .choice 29 30, .ret true,
    .testn 2 1 31 32, .none 1, .ret false, .goto 33]⟩

/-- `libfsapfs_internal_volume_open_read` (libfsapfs/libfsapfs_volume.c:243-891).  Places: 0
`container_data_handle`, 1 `file_system_data_handle`, 2 `internal_volume`, 3
`internal_volume->container_data_block_vector`, 4 `internal_volume->container_data_handle`, 5
`internal_volume->encryption_context`, 6 `internal_volume->file_system_data_block_vector`, 7
`internal_volume->file_system_data_handle`, 8 `internal_volume->key_bag`, 9
`internal_volume->object_map_btree`, 10 `internal_volume->snapshot_metadata_tree`, 11
`internal_volume->snapshots`, 12 `internal_volume->superblock`, 13 `object_map`, 14
`internal_volume->members at the start`, 15 `result`. -/
def internal_volume_open_read : Fn :=
  ⟨[loc, loc, loc, own 2, part 2, own 2, own 2, part 2, own 2, own 2, own 2, own 2, own 2, loc,
    part 2, loc],
   [.choice 1 2, .lend 2, .test 2 19 3, .choice 4 8, .setn 14 1, .lend 4, .lend 7, .goto 19,
    .setn 14 2, .maybe 3, .lend 4, .maybe 5, .maybe 6, .lend 7, .maybe 8, .maybe 9, .maybe 10,
    .maybe 11, .maybe 12, .setn 15 1, .test 2 21 31, .testn 14 1 22 30, .none 3, .none 5, .none 6,
    .none 8, .none 9, .none 10, .none 11, .none 12, .ret false, .deref 2, .choice 33 43,
    .testn 14 1 34 42, .none 3, .none 5, .none 6, .none 8, .none 9, .none 10, .none 11, .none 12,
    .ret false, .deref 2, .test 12 55 45, .testn 14 1 46 54, .none 3, .none 5, .none 6, .none 8,
    .none 9, .none 10, .none 11, .none 12, .ret false, .deref 2, .test 3 67 57, .testn 14 1 58 66,
    .none 3, .none 5, .none 6, .none 8, .none 9, .none 10, .none 11, .none 12, .ret false, .deref 2,
    .test 9 79 69, .testn 14 1 70 78, .none 3, .none 5, .none 6, .none 8, .none 9, .none 10,
    .none 11, .none 12, .ret false, .deref 2, .test 10 91 81, .testn 14 1 82 90, .none 3, .none 5,
    .none 6, .none 8, .none 9, .none 10, .none 11, .none 12, .ret false, .deref 2, .test 8 103 93,
    .testn 14 1 94 102, .none 3, .none 5, .none 6, .none 8, .none 9, .none 10, .none 11, .none 12,
    .ret false, .deref 2, .test 5 115 105, .testn 14 1 106 114, .none 3, .none 5, .none 6, .none 8,
    .none 9, .none 10, .none 11, .none 12, .ret false, .deref 2, .test 6 127 117,
    .testn 14 1 118 126, .none 3, .none 5, .none 6, .none 8, .none 9, .none 10, .none 11, .none 12,
    .ret false, .deref 2, .choice 129 242, .test 12 130 301, .fresh 12, .deref 2, .use 12,
    .choice 134 242, .deref 2, .choice 136 242, .test 0 137 301, .fresh 0, .deref 2, .use 0,
    .choice 141 242, .test 3 142 301, .fresh 3, .give 0, .deref 2, .copy 4 0, .null 0, .deref 2,
    .use 3, .choice 150 242, .deref 2, .choice 242 152, .deref 2, .choice 154 242, .test 13 155 301,
    .fresh 13, .use 13, .choice 158 242, .deref 13, .choice 242 160, .deref 2, .deref 13, .use 3,
    .choice 164 242, .test 9 165 301, .fresh 9, .kill 13, .null 13, .deref 2, .deref 2,
    .choice 171 206, .deref 2, .choice 173 206, .deref 2, .deref 2, .deref 2, .choice 177 179,
    .setn 15 2, .goto 183, .choice 180 182, .setn 15 1, .goto 183, .setn 15 0, .testn 15 0 242 184,
    .testn 15 1 187 185, .testn 15 2 187 186, .choice 242 187, .testn 15 0 191 188,
    .testn 15 1 206 189, .testn 15 2 191 190, .choice 191 206, .choice 242 192, .choice 242 193,
    .deref 2, .choice 195 242, .test 8 196 301, .fresh 8, .deref 2, .deref 2, .use 8,
    .choice 201 242, .deref 2, .choice 203 242, .test 5 204 301, .fresh 5, .deref 2, .deref 2,
    .choice 208 242, .test 11 209 301, .fresh 11, .deref 2, .choice 212 222, .deref 2, .use 3,
    .use 9, .choice 216 242, .test 10 217 301, .fresh 10, .deref 2, .use 10, .use 11,
    .choice 222 242, .deref 2, .choice 242 224, .deref 2, .use 5, .choice 227 242, .test 1 228 301,
    .fresh 1, .deref 2, .use 1, .choice 232 242, .test 6 233 301, .fresh 6, .give 1, .deref 2,
    .copy 7 1, .null 1, .deref 2, .use 6, .choice 241 242, .ret true, .deref 2, .test 6 247 244,
    .deref 2, .kill 6, .null 6, .test 1 250 248, .kill 1, .null 1, .deref 2, .test 5 255 252,
    .deref 2, .kill 5, .null 5, .deref 2, .test 8 260 257, .deref 2, .kill 8, .null 8, .deref 2,
    .test 10 265 262, .deref 2, .kill 11, .null 11, .deref 2, .test 10 270 267, .deref 2, .kill 10,
    .null 10, .deref 2, .test 9 275 272, .deref 2, .kill 9, .null 9, .test 13 278 276, .kill 13,
    .null 13, .deref 2, .test 3 283 280, .deref 2, .kill 3, .null 3, .test 0 286 284, .kill 0,
    .null 0, .deref 2, .test 12 291 288, .deref 2, .kill 12, .null 12, .testn 14 1 292 300, .none 3,
    .none 5, .none 6, .none 8, .none 9, .none 10, .none 11, .none 12, .ret false, .goto 301]⟩

end Verif.Owner.Leaving
