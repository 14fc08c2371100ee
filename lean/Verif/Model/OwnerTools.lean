import Verif.Model.Ownership

/-
What the functions of fsapfsinfo and fsapfsmount do with memory: see Ownership.lean for what the
instructions mean and DESIGN.md for how they were made from the source.  The error that a program or a
callback of the file system makes is one of the places: `error`.  The functions of mount_dokan.c and
those whose name here ends in _dokan are of the build with Dokan, the others of that with FUSE.
-/

namespace Verif.Owner.Tools

/-- `bodyfile_path_string_copy_from_file_entry_path` (fsapfstools/bodyfile.c:37-296).  Places: 0
`*path`, 1 `safe_path`, 2 `result`. -/
def bodyfile_path_string_copy_from_file_entry_path : Fn :=
  ⟨[out, loc, loc],
   [.setn 2 1, .choice 2 5, .test 0 3 84, .none 0, .ret false, .choice 6 8, .none 0, .ret false,
    .choice 9 11, .none 0, .ret false, .choice 13 12, .choice 13 15, .none 0, .ret false,
    .choice 16 18, .none 0, .ret false, .choice 19 21, .fresh 1, .goto 22, .null 1, .test 1 80 23,
    .choice 24 76, .choice 25 27, .setn 2 2, .goto 31, .choice 28 30, .setn 2 1, .goto 31,
    .setn 2 0, .testn 2 0 80 32, .testn 2 1 80 33, .testn 2 2 35 34, .choice 80 35, .choice 38 36,
    .choice 37 41, .choice 38 41, .deref 1, .deref 1, .choice 80 23, .choice 42 43, .choice 55 43,
    .choice 44 45, .choice 55 45, .choice 55 46, .choice 55 47, .choice 48 49, .choice 55 49,
    .choice 50 51, .choice 55 51, .choice 55 52, .choice 55 53, .choice 55 54, .choice 55 58,
    .deref 1, .deref 1, .choice 80 23, .choice 60 59, .choice 60 64, .choice 80 61, .deref 1,
    .deref 1, .goto 23, .use 1, .choice 66 68, .setn 2 2, .goto 72, .choice 69 71, .setn 2 1,
    .goto 72, .setn 2 0, .testn 2 0 80 73, .testn 2 1 80 74, .testn 2 2 23 75, .choice 80 23,
    .deref 1, .copy 0 1, .live 0, .ret true, .test 1 82 81, .kill 1, .none 0, .ret false, .goto 84]⟩

/-- `fsapfsinfo_signal_handler` (fsapfstools/fsapfsinfo.c:67-107).  Places: 0 `error`. -/
def fsapfsinfo_signal_handler : Fn :=
  ⟨[loc],
   [.choice 1 8, .choice 8 2, .choice 5 3, .test 0 4 5, .maybe 0, .use 0, .kill 0, .null 0,
    .ret true]⟩

/-- `main` (fsapfstools/fsapfsinfo.c:114-572).  Places: 0 `error`, 1 `fsapfsinfo_info_handle`. -/
def fsapfsinfo_main : Fn :=
  ⟨[loc, loc],
   [.choice 4 1, .test 0 2 138, .maybe 0, .goto 138, .choice 8 5, .test 0 6 138, .maybe 0,
    .goto 138, .choice 9 138, .choice 10 26, .choice 23 11, .choice 23 12, .choice 9 13,
    .choice 9 14, .choice 9 15, .choice 9 16, .choice 9 17, .choice 24 18, .choice 9 19,
    .choice 9 20, .choice 9 21, .choice 9 22, .choice 9 25, .ret false, .ret true, .ret true,
    .choice 27 28, .ret false, .choice 29 32, .test 1 30 146, .fresh 1, .goto 35, .test 0 33 138,
    .maybe 0, .goto 138, .choice 36 42, .use 1, .choice 42 38, .choice 138 39, .test 0 40 138,
    .maybe 0, .goto 138, .choice 43 51, .use 1, .choice 51 45, .choice 48 46, .test 0 47 48,
    .maybe 0, .use 0, .kill 0, .null 0, .choice 52 58, .use 1, .choice 58 54, .choice 138 55,
    .test 0 56 138, .maybe 0, .goto 138, .choice 59 65, .use 1, .choice 65 61, .choice 138 62,
    .test 0 63 138, .maybe 0, .goto 138, .choice 66 75, .use 1, .choice 75 68, .choice 71 69,
    .test 0 70 71, .maybe 0, .use 0, .kill 0, .null 0, .deref 1, .use 1, .choice 81 77,
    .choice 138 78, .test 0 79 138, .maybe 0, .goto 138, .choice 82 91, .choice 138 83,
    .choice 84 85, .choice 85 91, .choice 90 86, .choice 138 87, .test 0 88 138, .maybe 0,
    .goto 138, .choice 138 91, .choice 95 92, .choice 101 93, .choice 107 94, .choice 113 119,
    .use 1, .choice 125 97, .choice 138 98, .test 0 99 138, .maybe 0, .goto 138, .use 1,
    .choice 125 103, .choice 138 104, .test 0 105 138, .maybe 0, .goto 138, .use 1, .choice 125 109,
    .choice 138 110, .test 0 111 138, .maybe 0, .goto 138, .use 1, .choice 125 115, .choice 138 116,
    .test 0 117 138, .maybe 0, .goto 138, .use 1, .choice 125 121, .choice 138 122, .test 0 123 138,
    .maybe 0, .goto 138, .use 1, .choice 138 127, .choice 131 128, .test 0 129 138, .maybe 0,
    .goto 138, .kill 1, .null 1, .choice 137 134, .test 0 135 138, .maybe 0, .goto 138, .ret true,
    .test 0 142 139, .use 0, .kill 0, .null 0, .test 1 145 143, .kill 1, .null 1, .ret false,
    .goto 146]⟩

/-- `fsapfsmount_signal_handler` (fsapfstools/fsapfsmount.c:64-104).  Places: 0 `error`. -/
def fsapfsmount_signal_handler : Fn :=
  ⟨[loc],
   [.choice 1 8, .choice 8 2, .choice 5 3, .test 0 4 5, .maybe 0, .use 0, .kill 0, .null 0,
    .ret true]⟩

/-- `main` (fsapfstools/fsapfsmount.c:111-768).  Places: 0 `error`, 1 `fsapfsmount_mount_handle`, 2
`result`. -/
def fsapfsmount_main : Fn :=
  ⟨[loc, loc, loc],
   [.setn 2 1, .choice 5 2, .test 0 3 99, .maybe 0, .goto 99, .choice 9 6, .test 0 7 99, .maybe 0,
    .goto 99, .choice 10 99, .choice 11 23, .choice 20 12, .choice 20 13, .choice 10 14,
    .choice 21 15, .choice 10 16, .choice 10 17, .choice 10 18, .choice 10 19, .choice 22 10,
    .ret false, .ret true, .ret true, .choice 24 25, .ret false, .choice 26 27, .ret false,
    .choice 28 31, .test 1 29 110, .fresh 1, .goto 34, .test 0 32 99, .maybe 0, .goto 99,
    .choice 35 43, .use 1, .choice 43 37, .choice 40 38, .test 0 39 40, .maybe 0, .use 0, .kill 0,
    .null 0, .choice 44 50, .use 1, .choice 50 46, .choice 99 47, .test 0 48 99, .maybe 0, .goto 99,
    .choice 51 57, .use 1, .choice 57 53, .choice 99 54, .test 0 55 99, .maybe 0, .goto 99,
    .choice 58 64, .use 1, .choice 64 60, .choice 99 61, .test 0 62 99, .maybe 0, .goto 99, .use 1,
    .choice 70 66, .choice 99 67, .test 0 68 99, .maybe 0, .goto 99, .use 1, .choice 99 72,
    .choice 76 73, .test 0 74 99, .maybe 0, .goto 99, .choice 77 80, .choice 99 78, .choice 99 79,
    .choice 99 80, .choice 99 81, .use 1, .choice 99 83, .choice 84 85, .choice 99 85,
    .choice 86 88, .setn 2 2, .goto 92, .choice 89 91, .setn 2 1, .goto 92, .setn 2 0,
    .testn 2 0 99 93, .testn 2 1 96 94, .testn 2 2 99 95, .choice 99 96, .kill 1, .null 1,
    .ret true, .test 0 103 100, .use 0, .kill 0, .null 0, .choice 104 106, .kill 1, .null 1,
    .test 1 109 107, .kill 1, .null 1, .ret false, .goto 110]⟩

/-- `info_handle_initialize` (fsapfstools/info_handle.c:174-282).  Places: 0 `*info_handle`, 1
`*info_handle->input_container`, 2 `*info_handle->input_file_io_handle`, 3
`*info_handle->recovery_password`, 4 `*info_handle->user_password`, 5 `*info_handle at the start`. -/
def info_handle_initialize : Fn :=
  ⟨[out, own 0, own 0, own 0, own 0, loc],
   [.choice 1 4, .lend 0, .setn 5 2, .goto 5, .setn 5 1, .test 0 10 6, .maybe 1, .maybe 2, .maybe 3,
    .maybe 4, .choice 11 15, .test 0 12 80, .testn 5 1 13 14, .none 0, .ret false, .test 0 19 16,
    .testn 5 1 17 18, .none 0, .ret false, .forget 4, .null 4, .forget 3, .null 3, .forget 2,
    .null 2, .forget 1, .null 1, .choice 28 38, .fresh 0, .fresh 1, .kill 1, .fresh 2, .kill 2,
    .fresh 3, .kill 3, .fresh 4, .kill 4, .goto 39, .null 0, .test 0 57 40, .use 0, .null 1,
    .null 2, .null 3, .null 4, .deref 0, .choice 47 57, .test 2 48 80, .fresh 2, .deref 0,
    .choice 51 57, .test 1 52 80, .fresh 1, .deref 0, .deref 0, .live 0, .ret true, .test 0 77 58,
    .deref 0, .test 2 63 60, .deref 0, .kill 2, .null 2, .kill 0, .null 1, .null 2, .null 3,
    .null 4, .forget 4, .null 4, .forget 3, .null 3, .forget 2, .null 2, .forget 1, .null 1,
    .null 0, .testn 5 1 78 79, .none 0, .ret false, .goto 80]⟩

/-- `info_handle_free` (fsapfstools/info_handle.c:287-399).  Places: 0 `*info_handle`, 1
`*info_handle->input_container`, 2 `*info_handle->input_file_io_handle`, 3
`*info_handle->recovery_password`, 4 `*info_handle->user_password`, 5 `result`. -/
def info_handle_free : Fn :=
  ⟨[arg, own 0, own 0, own 0, own 0, loc],
   [.maybe 0, .test 0 6 2, .maybe 1, .maybe 2, .maybe 3, .maybe 4, .setn 5 2, .choice 8 10,
    .test 0 9 62, .ret false, .test 0 59 11, .deref 0, .kill 1, .null 1, .choice 16 15, .setn 5 0,
    .deref 0, .kill 2, .null 2, .choice 21 20, .setn 5 0, .deref 0, .choice 23 27, .deref 0,
    .choice 25 26, .setn 5 0, .deref 0, .deref 0, .test 3 36 29, .deref 0, .use 3, .deref 0,
    .kill 3, .deref 0, .null 3, .deref 0, .deref 0, .test 4 45 38, .deref 0, .use 4, .deref 0,
    .kill 4, .deref 0, .null 4, .deref 0, .kill 0, .null 1, .null 2, .null 3, .null 4, .forget 4,
    .null 4, .forget 3, .null 3, .forget 2, .null 2, .forget 1, .null 1, .null 0, .testn 5 2 60 61,
    .ret true, .ret false, .goto 62]⟩

/-- `info_handle_set_password` (fsapfstools/info_handle.c:569-656).  Places: 0 `info_handle`, 1
`info_handle->user_password`, 2 `info_handle->members at the start`. -/
def info_handle_set_password : Fn :=
  ⟨[loc, own 0, part 0],
   [.choice 1 2, .lend 0, .test 0 8 3, .choice 4 6, .setn 2 1, .goto 8, .setn 2 2, .maybe 1,
    .test 0 9 12, .testn 2 1 10 11, .none 1, .ret false, .deref 0, .test 1 17 14, .testn 2 1 15 16,
    .none 1, .ret false, .choice 18 21, .testn 2 1 19 20, .none 1, .ret false, .deref 0, .deref 0,
    .choice 24 26, .fresh 1, .goto 27, .null 1, .deref 0, .test 1 34 29, .deref 0, .use 1, .deref 0,
    .choice 34 33, .ret true, .deref 0, .test 1 40 36, .deref 0, .kill 1, .deref 0, .null 1,
    .deref 0, .testn 2 1 42 43, .none 1, .ret false]⟩

/-- `info_handle_set_recovery_password` (fsapfstools/info_handle.c:661-748).  Places: 0
`info_handle`, 1 `info_handle->recovery_password`, 2 `info_handle->members at the start`. -/
def info_handle_set_recovery_password : Fn :=
  ⟨[loc, own 0, part 0],
   [.choice 1 2, .lend 0, .test 0 8 3, .choice 4 6, .setn 2 1, .goto 8, .setn 2 2, .maybe 1,
    .test 0 9 12, .testn 2 1 10 11, .none 1, .ret false, .deref 0, .test 1 17 14, .testn 2 1 15 16,
    .none 1, .ret false, .choice 18 21, .testn 2 1 19 20, .none 1, .ret false, .deref 0, .deref 0,
    .choice 24 26, .fresh 1, .goto 27, .null 1, .deref 0, .test 1 34 29, .deref 0, .use 1, .deref 0,
    .choice 34 33, .ret true, .deref 0, .test 1 40 36, .deref 0, .kill 1, .deref 0, .null 1,
    .deref 0, .testn 2 1 42 43, .none 1, .ret false]⟩

/-- `info_handle_get_volume_by_index` (fsapfstools/info_handle.c:916-1070).  Places: 0 `*volume`, 1
`*volume at the start`, 2 `result`. -/
def info_handle_get_volume_by_index : Fn :=
  ⟨[out, loc, loc],
   [.choice 1 4, .lend 0, .setn 1 2, .goto 5, .setn 1 1, .setn 2 1, .choice 7 10, .testn 1 1 8 9,
    .none 0, .ret false, .choice 11 15, .test 0 12 55, .testn 1 1 13 14, .none 0, .ret false,
    .test 0 19 16, .testn 1 1 17 18, .none 0, .ret false, .choice 20 49, .test 0 21 55, .fresh 0,
    .choice 23 25, .use 0, .choice 25 49, .choice 26 28, .use 0, .choice 28 49, .use 0,
    .choice 30 32, .setn 2 2, .goto 36, .choice 33 35, .setn 2 1, .goto 36, .setn 2 0,
    .testn 2 0 49 37, .testn 2 1 40 38, .testn 2 2 40 39, .choice 49 40, .testn 2 0 44 41,
    .testn 2 1 47 42, .testn 2 2 44 43, .choice 44 47, .choice 45 47, .use 0, .choice 47 49,
    .live 0, .ret true, .test 0 52 50, .kill 0, .null 0, .testn 1 1 53 54, .none 0, .ret false,
    .goto 55]⟩

/-- `info_handle_file_entry_calculate_md5` (fsapfstools/info_handle.c:1075-1241).  Places: 0
`md5_context`. -/
def info_handle_file_entry_calculate_md5 : Fn :=
  ⟨[loc],
   [.choice 1 2, .ret false, .choice 3 18, .choice 4 18, .choice 5 18, .test 0 6 22, .fresh 0,
    .choice 8 11, .choice 18 9, .use 0, .choice 7 18, .use 0, .choice 13 18, .kill 0, .null 0,
    .choice 16 18, .choice 17 18, .ret true, .test 0 21 19, .kill 0, .null 0, .ret false, .goto 22]⟩

/-- `info_handle_name_value_fprint` (fsapfstools/info_handle.c:1246-1300).  Places: 0
`escaped_value_string`. -/
def info_handle_name_value_fprint : Fn :=
  ⟨[loc],
   [.choice 1 2, .ret false, .choice 3 8, .none 0, .fresh 0, .use 0, .kill 0, .ret true,
    .test 0 10 9, .kill 0, .ret false]⟩

/-- `info_handle_posix_time_in_nano_seconds_value_fprint` (fsapfstools/info_handle.c:1305-1421).
Places: 0 `posix_time`, 1 `result`. -/
def info_handle_posix_time_in_nano_seconds_value_fprint : Fn :=
  ⟨[loc, loc],
   [.setn 1 1, .choice 2 3, .ret false, .choice 24 4, .choice 5 25, .test 0 6 29, .fresh 0, .use 0,
    .choice 9 25, .use 0, .choice 11 13, .setn 1 2, .goto 17, .choice 14 16, .setn 1 1, .goto 17,
    .setn 1 0, .testn 1 0 25 18, .testn 1 1 25 19, .testn 1 2 21 20, .choice 25 21, .kill 0,
    .null 0, .choice 24 25, .ret true, .test 0 28 26, .kill 0, .null 0, .ret false, .goto 29]⟩

/-- `info_handle_uuid_value_fprint` (fsapfstools/info_handle.c:1426-1533).  Places: 0 `uuid`, 1
`result`. -/
def info_handle_uuid_value_fprint : Fn :=
  ⟨[loc, loc],
   [.setn 1 1, .choice 2 3, .ret false, .choice 4 24, .test 0 5 28, .fresh 0, .use 0, .choice 8 24,
    .use 0, .choice 10 12, .setn 1 2, .goto 16, .choice 13 15, .setn 1 1, .goto 16, .setn 1 0,
    .testn 1 0 24 17, .testn 1 1 24 18, .testn 1 2 20 19, .choice 24 20, .kill 0, .null 0,
    .choice 23 24, .ret true, .test 0 27 25, .kill 0, .null 0, .ret false, .goto 28]⟩

/-- `info_handle_file_entry_value_fprint` (fsapfstools/info_handle.c:1641-1764).  Places: 0
`file_entry_name`, 1 `result`. -/
def info_handle_file_entry_value_fprint : Fn :=
  ⟨[loc, loc],
   [.setn 1 1, .choice 2 3, .ret false, .choice 4 6, .setn 1 2, .goto 10, .choice 7 9, .setn 1 1,
    .goto 10, .setn 1 0, .testn 1 0 42 11, .testn 1 1 14 12, .testn 1 2 14 13, .choice 42 14,
    .testn 1 0 36 15, .testn 1 1 36 16, .testn 1 2 18 17, .choice 18 36, .choice 19 36,
    .choice 20 22, .fresh 0, .goto 23, .null 0, .test 0 42 24, .use 0, .choice 26 28, .setn 1 2,
    .goto 32, .choice 29 31, .setn 1 1, .goto 32, .setn 1 0, .testn 1 0 42 33, .testn 1 1 42 34,
    .testn 1 2 36 35, .choice 42 36, .use 0, .choice 38 42, .test 0 41 39, .kill 0, .null 0,
    .ret true, .test 0 44 43, .kill 0, .ret false]⟩

/-- `info_handle_bodyfile_name_value_fprint` (fsapfstools/info_handle.c:1769-1834).  Places: 0
`escaped_value_string`. -/
def info_handle_bodyfile_name_value_fprint : Fn :=
  ⟨[loc],
   [.choice 1 2, .ret false, .choice 3 9, .none 0, .fresh 0, .test 0 9 6, .use 0, .kill 0,
    .ret true, .test 0 11 10, .kill 0, .ret false]⟩

/-- `info_handle_file_entry_value_with_name_fprint` (fsapfstools/info_handle.c:1839-2623).  Places:
0 `extended_attribute`, 1 `extended_attribute_name`, 2 `file_entry_name`, 3 `path`, 4
`symbolic_link_target`, 5 `result`. -/
def info_handle_file_entry_value_with_name_fprint : Fn :=
  ⟨[loc, loc, loc, loc, loc, loc],
   [.choice 1 2, .lend 2, .choice 3 4, .lend 3, .setn 5 1, .choice 6 7, .ret false, .choice 8 153,
    .choice 9 153, .choice 10 153, .choice 11 153, .choice 12 153, .choice 13 153, .choice 14 153,
    .choice 15 153, .choice 16 18, .setn 5 2, .goto 22, .choice 19 21, .setn 5 1, .goto 22,
    .setn 5 0, .testn 5 0 153 23, .testn 5 1 26 24, .testn 5 2 26 25, .choice 153 26,
    .testn 5 0 30 27, .testn 5 1 47 28, .testn 5 2 30 29, .choice 30 47, .choice 31 33, .fresh 4,
    .goto 34, .null 4, .test 4 153 35, .use 4, .choice 37 39, .setn 5 2, .goto 43, .choice 40 42,
    .setn 5 1, .goto 43, .setn 5 0, .testn 5 0 153 44, .testn 5 1 153 45, .testn 5 2 47 46,
    .choice 153 47, .choice 48 153, .choice 49 62, .choice 52 50, .choice 51 52, .choice 52 153,
    .test 3 55 53, .use 3, .choice 55 153, .test 2 59 56, .choice 57 59, .use 2, .choice 59 153,
    .test 4 149 60, .use 4, .goto 149, .test 2 68 63, .test 3 66 64, .use 3, .choice 66 153, .use 2,
    .choice 68 153, .choice 69 153, .choice 70 153, .choice 71 153, .choice 72 153, .choice 73 75,
    .setn 5 2, .goto 79, .choice 76 78, .setn 5 1, .goto 79, .setn 5 0, .testn 5 0 153 80,
    .testn 5 1 83 81, .testn 5 2 83 82, .choice 153 83, .testn 5 0 87 84, .testn 5 1 88 85,
    .testn 5 2 87 86, .choice 87 88, .choice 88 153, .choice 89 153, .choice 90 92, .setn 5 2,
    .goto 96, .choice 93 95, .setn 5 1, .goto 96, .setn 5 0, .testn 5 0 153 97, .testn 5 1 100 98,
    .testn 5 2 100 99, .choice 153 100, .test 4 102 101, .use 4, .choice 103 153, .choice 104 149,
    .choice 105 149, .choice 106 153, .test 0 107 161, .fresh 0, .use 0, .choice 110 112, .setn 5 2,
    .goto 116, .choice 113 115, .setn 5 1, .goto 116, .setn 5 0, .testn 5 0 153 117,
    .testn 5 1 120 118, .testn 5 2 120 119, .choice 153 120, .testn 5 0 146 121, .testn 5 1 146 122,
    .testn 5 2 124 123, .choice 124 146, .choice 125 146, .choice 126 128, .fresh 1, .goto 129,
    .null 1, .test 1 153 130, .use 0, .use 1, .choice 133 135, .setn 5 2, .goto 139,
    .choice 136 138, .setn 5 1, .goto 139, .setn 5 0, .testn 5 0 153 140, .testn 5 1 153 141,
    .testn 5 2 143 142, .choice 153 143, .use 1, .kill 1, .null 1, .kill 0, .null 0,
    .choice 104 153, .test 4 152 150, .kill 4, .null 4, .ret true, .test 1 155 154, .kill 1,
    .test 0 158 156, .kill 0, .null 0, .test 4 160 159, .kill 4, .ret false, .goto 161]⟩

/-- `info_handle_file_system_hierarchy_fprint_file_entry` (fsapfstools/info_handle.c:2628-2970).
Places: 0 `file_entry_name`, 1 `sub_file_entry`, 2 `sub_path`, 3 `result`. -/
def info_handle_file_system_hierarchy_fprint_file_entry : Fn :=
  ⟨[loc, loc, loc, loc],
   [.setn 3 1, .choice 2 3, .ret false, .choice 4 5, .ret false, .choice 6 81, .choice 7 81,
    .choice 8 10, .setn 3 2, .goto 14, .choice 11 13, .setn 3 1, .goto 14, .setn 3 0,
    .testn 3 0 81 15, .testn 3 1 18 16, .testn 3 2 18 17, .choice 81 18, .testn 3 0 40 19,
    .testn 3 1 40 20, .testn 3 2 22 21, .choice 22 40, .choice 23 40, .choice 24 26, .fresh 0,
    .goto 27, .null 0, .test 0 81 28, .use 0, .choice 30 32, .setn 3 2, .goto 36, .choice 33 35,
    .setn 3 1, .goto 36, .setn 3 0, .testn 3 0 81 37, .testn 3 1 81 38, .testn 3 2 40 39,
    .choice 81 40, .choice 41 43, .use 0, .choice 48 81, .choice 44 81, .test 0 48 45,
    .choice 46 48, .use 0, .choice 48 81, .choice 49 74, .choice 50 52, .fresh 2, .goto 53, .null 2,
    .test 2 81 54, .use 2, .choice 81 56, .test 0 63 57, .choice 58 63, .deref 2, .use 0, .deref 2,
    .choice 81 62, .deref 2, .deref 2, .choice 65 74, .choice 66 81, .test 1 67 89, .fresh 1,
    .use 1, .use 2, .choice 71 81, .kill 1, .null 1, .choice 64 81, .test 2 77 75, .kill 2, .null 2,
    .test 0 80 78, .kill 0, .null 0, .ret true, .test 1 84 82, .kill 1, .null 1, .test 2 86 85,
    .kill 2, .test 0 88 87, .kill 0, .ret false, .goto 89]⟩

/-- `info_handle_file_system_hierarchy_fprint` (fsapfstools/info_handle.c:2975-3239).  Places: 0
`file_entry`, 1 `uuid`, 2 `volume`, 3 `result`. -/
def info_handle_file_system_hierarchy_fprint : Fn :=
  ⟨[loc, loc, loc, loc],
   [.setn 3 1, .choice 2 3, .ret false, .choice 4 61, .choice 61 5, .choice 61 6, .choice 7 60,
    .choice 8 9, .choice 6 9, .choice 10 61, .test 2 11 71, .fresh 2, .use 2, .choice 14 61,
    .choice 15 61, .test 1 16 71, .fresh 1, .use 1, .choice 19 61, .use 1, .choice 21 23, .setn 3 2,
    .goto 27, .choice 24 26, .setn 3 1, .goto 27, .setn 3 0, .testn 3 0 61 28, .testn 3 1 61 29,
    .testn 3 2 31 30, .choice 61 31, .kill 1, .null 1, .choice 34 61, .use 2, .choice 36 40,
    .none 0, .fresh 0, .setn 3 2, .goto 44, .choice 41 43, .setn 3 1, .goto 44, .setn 3 0,
    .testn 3 0 61 45, .testn 3 1 48 46, .testn 3 2 48 47, .choice 61 48, .testn 3 0 52 49,
    .testn 3 1 54 50, .testn 3 2 52 51, .choice 52 54, .use 0, .choice 54 61, .kill 0, .null 0,
    .choice 57 61, .kill 2, .null 2, .choice 6 61, .ret true, .test 0 64 62, .kill 0, .null 0,
    .test 1 67 65, .kill 1, .null 1, .test 2 70 68, .kill 2, .null 2, .ret false, .goto 71]⟩

/-- `info_handle_file_entry_fprint_by_identifier` (fsapfstools/info_handle.c:3244-3415).  Places: 0
`file_entry`, 1 `volume`, 2 `result`. -/
def info_handle_file_entry_fprint_by_identifier : Fn :=
  ⟨[loc, loc, loc],
   [.setn 2 1, .choice 2 3, .ret false, .choice 4 38, .choice 38 5, .choice 38 6, .choice 7 38,
    .test 1 8 45, .fresh 1, .use 1, .choice 11 15, .none 0, .fresh 0, .setn 2 2, .goto 19,
    .choice 16 18, .setn 2 1, .goto 19, .setn 2 0, .testn 2 0 38 20, .testn 2 1 23 21,
    .testn 2 2 23 22, .choice 38 23, .testn 2 0 27 24, .testn 2 1 32 25, .testn 2 2 27 26,
    .choice 27 32, .use 0, .choice 29 38, .kill 0, .null 0, .choice 32 38, .kill 1, .null 1,
    .choice 35 38, .testn 2 2 36 37, .ret true, .ret false, .test 0 41 39, .kill 0, .null 0,
    .test 1 44 42, .kill 1, .null 1, .ret false, .goto 45]⟩

/-- `info_handle_file_entry_fprint_by_path` (fsapfstools/info_handle.c:3420-3689).  Places: 0
`file_entry`, 1 `file_entry_path`, 2 `volume`, 3 `result`. -/
def info_handle_file_entry_fprint_by_path : Fn :=
  ⟨[loc, loc, loc, loc],
   [.setn 3 1, .choice 2 3, .ret false, .choice 4 5, .ret false, .choice 6 48, .choice 48 7,
    .choice 48 8, .choice 9 48, .test 2 10 57, .fresh 2, .choice 12 48, .none 1, .fresh 1,
    .test 1 48 15, .use 1, .use 2, .use 1, .choice 19 23, .test 0 20 57, .fresh 0, .setn 3 2,
    .goto 27, .choice 24 26, .setn 3 1, .goto 27, .setn 3 0, .testn 3 0 48 28, .testn 3 1 31 29,
    .testn 3 2 31 30, .choice 48 31, .testn 3 0 35 32, .testn 3 1 48 33, .testn 3 2 35 34,
    .choice 48 35, .kill 1, .null 1, .choice 38 39, .choice 39 48, .use 0, .choice 41 48, .kill 0,
    .null 0, .choice 44 48, .kill 2, .null 2, .choice 47 48, .ret true, .test 0 51 49, .kill 0,
    .null 0, .test 1 53 52, .kill 1, .test 2 56 54, .kill 2, .null 2, .ret false, .goto 57]⟩

/-- `info_handle_file_entries_fprint` (fsapfstools/info_handle.c:3694-3884).  Places: 0
`file_entry`, 1 `volume`, 2 `result`. -/
def info_handle_file_entries_fprint : Fn :=
  ⟨[loc, loc, loc],
   [.setn 2 1, .choice 2 3, .ret false, .choice 4 39, .choice 39 5, .choice 39 6, .choice 7 39,
    .test 1 8 46, .fresh 1, .use 1, .choice 11 39, .choice 12 35, .use 1, .choice 14 18, .none 0,
    .fresh 0, .setn 2 2, .goto 22, .choice 19 21, .setn 2 1, .goto 22, .setn 2 0, .testn 2 0 39 23,
    .testn 2 1 26 24, .testn 2 2 26 25, .choice 39 26, .testn 2 0 30 27, .testn 2 1 11 28,
    .testn 2 2 30 29, .choice 30 11, .use 0, .choice 32 39, .kill 0, .null 0, .choice 11 39,
    .kill 1, .null 1, .choice 38 39, .ret true, .test 0 42 40, .kill 0, .null 0, .test 1 45 43,
    .kill 1, .null 1, .ret false, .goto 46]⟩

/-- `info_handle_volume_fprint` (fsapfstools/info_handle.c:3889-4259).  Places: 0 `snapshot`, 1
`snapshot_name`, 2 `volume_name`, 3 `result`. -/
def info_handle_volume_fprint : Fn :=
  ⟨[loc, loc, loc, loc],
   [.setn 3 1, .choice 2 3, .ret false, .choice 4 93, .choice 5 93, .choice 6 8, .setn 3 2,
    .goto 12, .choice 9 11, .setn 3 1, .goto 12, .setn 3 0, .testn 3 0 93 13, .testn 3 1 93 14,
    .testn 3 2 16 15, .choice 93 16, .choice 17 37, .choice 18 20, .fresh 2, .goto 21, .null 2,
    .test 2 93 22, .use 2, .choice 24 26, .setn 3 2, .goto 30, .choice 27 29, .setn 3 1, .goto 30,
    .setn 3 0, .testn 3 0 93 31, .testn 3 1 93 32, .testn 3 2 34 33, .choice 93 34, .use 2, .kill 2,
    .null 2, .choice 38 93, .choice 39 41, .setn 3 2, .goto 45, .choice 42 44, .setn 3 1, .goto 45,
    .setn 3 0, .testn 3 0 93 46, .testn 3 1 49 47, .testn 3 2 49 48, .choice 93 49, .choice 50 93,
    .choice 51 92, .choice 52 92, .choice 53 93, .test 0 54 99, .fresh 0, .use 0, .choice 57 59,
    .setn 3 2, .goto 63, .choice 60 62, .setn 3 1, .goto 63, .setn 3 0, .testn 3 0 93 64,
    .testn 3 1 93 65, .testn 3 2 67 66, .choice 93 67, .choice 68 89, .choice 69 71, .fresh 1,
    .goto 72, .null 1, .test 1 93 73, .use 0, .use 1, .choice 76 78, .setn 3 2, .goto 82,
    .choice 79 81, .setn 3 1, .goto 82, .setn 3 0, .testn 3 0 93 83, .testn 3 1 93 84,
    .testn 3 2 86 85, .choice 93 86, .use 1, .kill 1, .null 1, .kill 0, .null 0, .choice 51 93,
    .ret true, .test 0 96 94, .kill 0, .null 0, .test 2 98 97, .kill 2, .ret false, .goto 99]⟩

/-- `info_handle_container_fprint` (fsapfstools/info_handle.c:4264-4433).  Places: 0 `volume`, 1
`result`. -/
def info_handle_container_fprint : Fn :=
  ⟨[loc, loc],
   [.setn 1 1, .choice 2 3, .ret false, .choice 4 27, .choice 5 27, .choice 6 27, .choice 7 9,
    .setn 1 2, .goto 13, .choice 10 12, .setn 1 1, .goto 13, .setn 1 0, .testn 1 0 27 14,
    .testn 1 1 17 15, .testn 1 2 17 16, .choice 27 17, .choice 18 26, .choice 19 27, .test 0 20 31,
    .fresh 0, .use 0, .choice 23 27, .kill 0, .null 0, .choice 17 27, .ret true, .test 0 30 28,
    .kill 0, .null 0, .ret false, .goto 31]⟩

/-- `mount_file_entry_initialize` (fsapfstools/mount_file_entry.c:50-194).  Places: 0
`*file_entry`, 1 `*file_entry->fsapfs_file_entry`, 2 `*file_entry->name`, 3 `fsapfs_file_entry`, 4
`*file_entry at the start`. -/
def mount_file_entry_initialize : Fn :=
  ⟨[out, own 0, own 0, loc, loc],
   [.choice 1 4, .lend 0, .setn 4 2, .goto 5, .setn 4 1, .maybe 3, .test 0 9 7, .maybe 1, .maybe 2,
    .choice 10 16, .test 0 11 88, .held 3, .forget 3, .testn 4 1 14 15, .none 0, .ret false,
    .test 0 22 17, .held 3, .forget 3, .testn 4 1 20 21, .none 0, .ret false, .choice 23 28,
    .held 3, .forget 3, .testn 4 1 26 27, .none 0, .ret false, .choice 29 34, .held 3, .forget 3,
    .testn 4 1 32 33, .none 0, .ret false, .forget 2, .null 2, .forget 1, .null 1, .choice 39 45,
    .fresh 0, .fresh 1, .kill 1, .fresh 2, .kill 2, .goto 46, .null 0, .test 0 70 47, .use 0,
    .null 1, .null 2, .deref 0, .choice 52 66, .deref 0, .choice 54 56, .fresh 2, .goto 57, .null 2,
    .deref 0, .test 2 70 59, .choice 60 64, .deref 0, .use 2, .deref 0, .choice 70 64, .deref 0,
    .deref 0, .deref 0, .copy 1 3, .live 0, .ret true, .test 0 83 71, .deref 0, .test 2 75 73,
    .deref 0, .kill 2, .kill 0, .null 1, .null 2, .forget 2, .null 2, .forget 1, .null 1, .null 0,
    .held 3, .forget 3, .testn 4 1 86 87, .none 0, .ret false, .goto 88]⟩

/-- `mount_file_entry_free` (fsapfstools/mount_file_entry.c:199-243).  Places: 0 `*file_entry`, 1
`*file_entry->fsapfs_file_entry`, 2 `*file_entry->name`, 3 `result`. -/
def mount_file_entry_free : Fn :=
  ⟨[arg, own 0, own 0, loc],
   [.maybe 0, .test 0 4 2, .maybe 1, .maybe 2, .setn 3 2, .choice 6 8, .test 0 7 29, .ret false,
    .test 0 26 9, .deref 0, .test 2 13 11, .deref 0, .kill 2, .deref 0, .kill 1, .null 1,
    .choice 18 17, .setn 3 0, .kill 0, .null 1, .null 2, .forget 2, .null 2, .forget 1, .null 1,
    .null 0, .testn 3 2 27 28, .ret true, .ret false, .goto 29]⟩

/-- `mount_file_entry_get_parent_file_entry` (fsapfstools/mount_file_entry.c:248-364).  Places: 0
`*parent_file_entry`, 1 `filename`, 2 `parent_fsapfs_file_entry`, 3 `*parent_file_entry at the
start`, 4 `result`. -/
def mount_file_entry_get_parent_file_entry : Fn :=
  ⟨[out, loc, loc, loc, loc],
   [.choice 1 4, .lend 0, .setn 3 2, .goto 5, .setn 3 1, .setn 4 1, .choice 7 10, .testn 3 1 8 9,
    .none 0, .ret false, .choice 11 15, .test 0 12 65, .testn 3 1 13 14, .none 0, .ret false,
    .test 0 19 16, .testn 3 1 17 18, .none 0, .ret false, .choice 20 24, .test 2 21 65, .fresh 2,
    .setn 4 2, .goto 28, .choice 25 27, .setn 4 1, .goto 28, .setn 4 0, .testn 4 0 32 29,
    .testn 4 1 35 30, .testn 4 2 35 31, .choice 32 35, .testn 3 1 33 34, .none 0, .ret false,
    .testn 4 0 39 36, .testn 4 1 49 37, .testn 4 2 39 38, .choice 39 49, .use 2, .choice 41 57,
    .none 1, .fresh 1, .use 1, .use 2, .choice 46 57, .test 0 47 65, .fresh 0, .give 2,
    .test 1 51 50, .kill 1, .testn 4 2 52 54, .live 0, .ret true, .testn 3 1 55 56, .none 0,
    .ret false, .test 1 59 58, .kill 1, .test 2 62 60, .kill 2, .null 2, .testn 3 1 63 64, .none 0,
    .ret false, .goto 65]⟩

/-- `mount_file_entry_get_sub_file_entry_by_index` (fsapfstools/mount_file_entry.c:905-1020).
Places: 0 `*sub_file_entry`, 1 `filename`, 2 `sub_fsapfs_file_entry`, 3 `*sub_file_entry at the
start`. -/
def mount_file_entry_get_sub_file_entry_by_index : Fn :=
  ⟨[out, loc, loc, loc],
   [.choice 1 4, .lend 0, .setn 3 2, .goto 5, .setn 3 1, .choice 6 9, .testn 3 1 7 8, .none 0,
    .ret false, .choice 10 14, .test 0 11 43, .testn 3 1 12 13, .none 0, .ret false, .test 0 18 15,
    .testn 3 1 16 17, .none 0, .ret false, .choice 19 35, .test 2 20 43, .fresh 2, .use 2,
    .choice 23 35, .none 1, .fresh 1, .use 1, .use 2, .choice 28 35, .test 0 29 43, .fresh 0,
    .give 2, .test 1 33 32, .kill 1, .live 0, .ret true, .test 1 37 36, .kill 1, .test 2 40 38,
    .kill 2, .null 2, .testn 3 1 41 42, .none 0, .ret false, .goto 43]⟩

/-- `mount_file_system_initialize` (fsapfstools/mount_file_system.c:50-210).  Places: 0
`*file_system`, 1 `*file_system->fsapfs_volume`, 2 `*file_system at the start`. -/
def mount_file_system_initialize : Fn :=
  ⟨[out, part 0, loc],
   [.choice 1 4, .lend 0, .setn 2 2, .goto 5, .setn 2 1, .test 0 7 6, .lend 1, .choice 8 12,
    .test 0 9 38, .testn 2 1 10 11, .none 0, .ret false, .test 0 16 13, .testn 2 1 14 15, .none 0,
    .ret false, .null 1, .choice 18 22, .fresh 0, .fresh 1, .kill 1, .goto 23, .null 0,
    .test 0 30 24, .use 0, .null 1, .choice 30 27, .deref 0, .live 0, .ret true, .test 0 35 31,
    .kill 0, .null 1, .null 1, .null 0, .testn 2 1 36 37, .none 0, .ret false, .goto 38]⟩

/-- `mount_file_system_free` (fsapfstools/mount_file_system.c:215-241).  Places: 0 `*file_system`,
1 `*file_system->fsapfs_volume`, 2 `result`. -/
def mount_file_system_free : Fn :=
  ⟨[arg, part 0, loc],
   [.maybe 0, .test 0 3 2, .lend 1, .setn 2 2, .choice 5 7, .test 0 6 15, .ret false, .test 0 12 8,
    .kill 0, .null 1, .null 1, .null 0, .testn 2 2 13 14, .ret true, .ret false, .goto 15]⟩

/-- `mount_file_system_set_volume` (fsapfstools/mount_file_system.c:270-291).  Places: 0
`file_system`, 1 `file_system->fsapfs_volume`, 2 `fsapfs_volume`, 3 `file_system->members at the
start`. -/
def mount_file_system_set_volume : Fn :=
  ⟨[loc, own 0, loc, part 0],
   [.choice 1 2, .lend 0, .maybe 2, .test 0 8 4, .choice 5 7, .setn 3 1, .goto 8, .setn 3 2,
    .test 0 9 14, .testn 3 1 10 11, .none 1, .held 2, .forget 2, .ret false, .deref 0, .copy 1 2,
    .ret true]⟩

/-- `mount_file_system_get_file_entry_by_path` (fsapfstools/mount_file_system.c:372-466).  Places:
0 `*fsapfs_file_entry`, 1 `file_entry_path`, 2 `result`. -/
def mount_file_system_get_file_entry_by_path : Fn :=
  ⟨[out, loc, loc],
   [.setn 2 1, .choice 2 4, .none 0, .ret false, .choice 5 29, .none 1, .fresh 1, .test 1 29 8,
    .use 1, .use 1, .choice 11 15, .test 0 12 33, .fresh 0, .setn 2 2, .goto 19, .choice 16 18,
    .setn 2 1, .goto 19, .setn 2 0, .testn 2 0 29 20, .testn 2 1 23 21, .testn 2 2 23 22,
    .choice 29 23, .kill 1, .testn 2 2 25 27, .live 0, .ret true, .none 0, .ret false,
    .test 1 31 30, .kill 1, .none 0, .ret false, .goto 33]⟩

/-- `mount_file_system_get_filename_from_file_entry` (fsapfstools/mount_file_system.c:471-594).
Places: 0 `*filename`, 1 `file_entry_name`, 2 `result`. -/
def mount_file_system_get_filename_from_file_entry : Fn :=
  ⟨[out, loc, loc],
   [.setn 2 1, .choice 2 4, .none 0, .ret false, .choice 5 7, .setn 2 2, .goto 11, .choice 8 10,
    .setn 2 1, .goto 11, .setn 2 0, .testn 2 0 41 12, .testn 2 1 41 13, .testn 2 2 15 14,
    .choice 41 15, .choice 41 16, .choice 41 17, .choice 18 20, .fresh 1, .goto 21, .null 1,
    .test 1 41 22, .use 1, .choice 24 26, .setn 2 2, .goto 30, .choice 27 29, .setn 2 1, .goto 30,
    .setn 2 0, .testn 2 0 41 31, .testn 2 1 41 32, .testn 2 2 34 33, .choice 41 34, .use 1,
    .choice 36 41, .none 0, .fresh 0, .kill 1, .live 0, .ret true, .test 1 43 42, .kill 1, .none 0,
    .ret false]⟩

/-- `mount_fuse_open` (fsapfstools/mount_fuse.c:319-417).  Places: 0 `error`, 1 `file_info`, 2
`file_info->fh`, 3 `file_info->fh at the start`, 4 `result`. -/
def mount_fuse_open : Fn :=
  ⟨[loc, loc, own 1, part 1, loc],
   [.choice 1 2, .lend 1, .test 1 4 3, .maybe 2, .test 1 9 5, .test 2 8 6, .setn 3 2, .goto 9,
    .setn 3 1, .setn 4 1, .choice 11 15, .test 0 12 13, .maybe 0, .setn 4 0, .goto 45,
    .test 1 16 20, .test 0 17 18, .maybe 0, .setn 4 0, .goto 45, .deref 1, .test 2 26 22,
    .test 0 23 24, .maybe 0, .setn 4 0, .goto 45, .deref 1, .choice 28 32, .test 0 29 30, .maybe 0,
    .setn 4 0, .goto 45, .deref 1, .choice 34 37, .none 2, .fresh 2, .goto 44, .choice 40 38,
    .test 0 39 40, .maybe 0, .test 0 41 42, .maybe 0, .setn 4 0, .goto 45, .ret true, .test 0 49 46,
    .use 0, .kill 0, .null 0, .testn 3 1 50 51, .none 2, .testn 4 1 52 53, .ret true, .ret false]⟩

/-- `mount_fuse_read` (fsapfstools/mount_fuse.c:422-526).  Places: 0 `error`, 1 `read_count`, 2
`result`. -/
def mount_fuse_read : Fn :=
  ⟨[loc, loc, loc],
   [.setn 1 1, .setn 2 1, .choice 3 7, .test 0 4 5, .maybe 0, .setn 2 0, .goto 42, .choice 8 12,
    .test 0 9 10, .maybe 0, .setn 2 0, .goto 42, .choice 13 17, .test 0 14 15, .maybe 0, .setn 2 0,
    .goto 42, .choice 18 22, .test 0 19 20, .maybe 0, .setn 2 0, .goto 42, .choice 23 25, .setn 1 2,
    .goto 31, .choice 26 28, .setn 1 1, .goto 31, .test 0 29 30, .maybe 0, .setn 1 0,
    .testn 1 0 35 32, .testn 1 1 39 33, .testn 1 2 39 34, .choice 35 39, .test 0 36 37, .maybe 0,
    .setn 2 0, .goto 42, .testn 1 1 40 41, .ret true, .ret false, .test 0 46 43, .use 0, .kill 0,
    .null 0, .testn 2 1 47 48, .ret true, .ret false]⟩

/-- `mount_fuse_release` (fsapfstools/mount_fuse.c:531-603).  Places: 0 `error`, 1 `file_info`, 2
`file_info->fh`, 3 `result`. -/
def mount_fuse_release : Fn :=
  ⟨[loc, loc, own 1, loc],
   [.choice 1 2, .lend 1, .test 1 4 3, .maybe 2, .setn 3 1, .choice 6 10, .test 0 7 8, .maybe 0,
    .setn 3 0, .goto 29, .test 1 11 15, .test 0 12 13, .maybe 0, .setn 3 0, .goto 29, .deref 1,
    .test 2 27 17, .deref 1, .kill 2, .null 2, .choice 27 21, .test 0 22 23, .maybe 0,
    .test 0 24 25, .maybe 0, .setn 3 0, .goto 29, .none 2, .ret true, .test 0 33 30, .use 0,
    .kill 0, .null 0, .testn 3 1 34 35, .ret true, .ret false]⟩

/-- `mount_fuse_getxattr` (fsapfstools/mount_fuse.c:616-857).  Places: 0 `error`, 1
`extended_attribute`, 2 `file_entry`, 3 `read_count`, 4 `result`. -/
def mount_fuse_getxattr : Fn :=
  ⟨[loc, loc, loc, loc, loc],
   [.setn 3 1, .setn 4 1, .choice 3 7, .test 0 4 5, .maybe 0, .setn 4 0, .goto 137, .choice 8 12,
    .test 0 9 10, .maybe 0, .setn 4 0, .goto 137, .choice 13 17, .test 0 14 15, .maybe 0, .setn 4 0,
    .goto 137, .choice 18 22, .none 2, .fresh 2, .setn 4 2, .goto 28, .choice 23 25, .setn 4 1,
    .goto 28, .test 0 26 27, .maybe 0, .setn 4 0, .testn 4 0 32 29, .testn 4 1 36 30,
    .testn 4 2 36 31, .choice 32 36, .test 0 33 34, .maybe 0, .setn 4 0, .goto 137,
    .testn 4 0 41 37, .testn 4 1 40 38, .testn 4 2 41 39, .choice 40 41, .ret true, .deref 2,
    .choice 43 47, .test 1 44 147, .fresh 1, .setn 4 2, .goto 53, .choice 48 50, .setn 4 1,
    .goto 53, .test 0 51 52, .maybe 0, .setn 4 0, .testn 4 0 57 54, .testn 4 1 61 55,
    .testn 4 2 61 56, .choice 57 61, .test 0 58 59, .maybe 0, .setn 4 0, .goto 137,
    .testn 4 0 65 62, .testn 4 1 111 63, .testn 4 2 65 64, .choice 65 111, .use 1, .choice 74 67,
    .choice 70 68, .test 0 69 70, .maybe 0, .test 0 71 72, .maybe 0, .setn 4 0, .goto 137,
    .choice 75 79, .test 0 76 77, .maybe 0, .setn 4 0, .goto 137, .choice 80 88, .choice 81 83,
    .setn 3 0, .goto 111, .choice 84 86, .setn 3 1, .goto 111, .setn 3 2, .goto 111, .choice 89 93,
    .test 0 90 91, .maybe 0, .setn 4 0, .goto 137, .use 1, .choice 95 97, .setn 3 2, .goto 103,
    .choice 98 100, .setn 3 1, .goto 103, .test 0 101 102, .maybe 0, .setn 3 0, .testn 3 0 107 104,
    .testn 3 1 111 105, .testn 3 2 111 106, .choice 107 111, .test 0 108 109, .maybe 0, .setn 4 0,
    .goto 137, .kill 1, .null 1, .choice 120 114, .test 0 115 116, .maybe 0, .test 0 117 118,
    .maybe 0, .setn 4 0, .goto 137, .kill 2, .null 2, .choice 129 123, .test 0 124 125, .maybe 0,
    .test 0 126 127, .maybe 0, .setn 4 0, .goto 137, .testn 4 0 134 130, .testn 4 1 133 131,
    .testn 4 2 134 132, .choice 133 134, .ret true, .testn 3 1 135 136, .ret true, .ret false,
    .test 0 141 138, .use 0, .kill 0, .null 0, .test 2 144 142, .kill 2, .null 2,
    .testn 4 1 145 146, .ret true, .ret false, .goto 147]⟩

/-- `mount_fuse_listxattr` (fsapfstools/mount_fuse.c:862-1100).  Places: 0 `error`, 1
`extended_attribute`, 2 `file_entry`, 3 `result`. -/
def mount_fuse_listxattr : Fn :=
  ⟨[loc, loc, loc, loc],
   [.setn 3 1, .choice 2 6, .test 0 3 4, .maybe 0, .setn 3 0, .goto 106, .choice 7 12, .choice 8 12,
    .test 0 9 10, .maybe 0, .setn 3 0, .goto 106, .choice 13 17, .test 0 14 15, .maybe 0, .setn 3 0,
    .goto 106, .choice 18 22, .none 2, .fresh 2, .setn 3 2, .goto 28, .choice 23 25, .setn 3 1,
    .goto 28, .test 0 26 27, .maybe 0, .setn 3 0, .testn 3 0 32 29, .testn 3 1 36 30,
    .testn 3 2 36 31, .choice 32 36, .test 0 33 34, .maybe 0, .setn 3 0, .goto 106,
    .testn 3 0 41 37, .testn 3 1 40 38, .testn 3 2 41 39, .choice 40 41, .ret true, .deref 2,
    .choice 50 43, .choice 46 44, .test 0 45 46, .maybe 0, .test 0 47 48, .maybe 0, .setn 3 0,
    .goto 106, .choice 51 96, .deref 2, .choice 53 56, .test 1 54 119, .fresh 1, .goto 63,
    .choice 59 57, .test 0 58 59, .maybe 0, .test 0 60 61, .maybe 0, .setn 3 0, .goto 106, .use 1,
    .choice 72 65, .choice 68 66, .test 0 67 68, .maybe 0, .test 0 69 70, .maybe 0, .setn 3 0,
    .goto 106, .choice 73 87, .choice 74 78, .test 0 75 76, .maybe 0, .setn 3 0, .goto 106, .use 1,
    .choice 87 80, .choice 83 81, .test 0 82 83, .maybe 0, .test 0 84 85, .maybe 0, .setn 3 0,
    .goto 106, .kill 1, .null 1, .choice 50 90, .test 0 91 92, .maybe 0, .test 0 93 94, .maybe 0,
    .setn 3 0, .goto 106, .kill 2, .null 2, .choice 105 99, .test 0 100 101, .maybe 0,
    .test 0 102 103, .maybe 0, .setn 3 0, .goto 106, .ret true, .test 0 110 107, .use 0, .kill 0,
    .null 0, .test 1 113 111, .kill 1, .null 1, .test 2 116 114, .kill 2, .null 2,
    .testn 3 1 117 118, .ret true, .ret false, .goto 119]⟩

/-- `mount_fuse_opendir` (fsapfstools/mount_fuse.c:1105-1190).  Places: 0 `error`, 1 `file_info`, 2
`file_info->fh`, 3 `file_info->fh at the start`, 4 `result`. -/
def mount_fuse_opendir : Fn :=
  ⟨[loc, loc, own 1, part 1, loc],
   [.choice 1 2, .lend 1, .test 1 4 3, .maybe 2, .test 1 9 5, .test 2 8 6, .setn 3 2, .goto 9,
    .setn 3 1, .setn 4 1, .choice 11 15, .test 0 12 13, .maybe 0, .setn 4 0, .goto 39,
    .test 1 16 20, .test 0 17 18, .maybe 0, .setn 4 0, .goto 39, .deref 1, .test 2 26 22,
    .test 0 23 24, .maybe 0, .setn 4 0, .goto 39, .deref 1, .choice 28 31, .none 2, .fresh 2,
    .goto 38, .choice 34 32, .test 0 33 34, .maybe 0, .test 0 35 36, .maybe 0, .setn 4 0, .goto 39,
    .ret true, .test 0 43 40, .use 0, .kill 0, .null 0, .testn 3 1 44 45, .none 2, .testn 4 1 46 47,
    .ret true, .ret false]⟩

/-- `mount_fuse_readdir` (fsapfstools/mount_fuse.c:1204-1530).  Places: 0 `error`, 1 `name`, 2
`parent_file_entry`, 3 `stat_info`, 4 `sub_file_entry`, 5 `result`. -/
def mount_fuse_readdir : Fn :=
  ⟨[loc, loc, loc, loc, loc, loc],
   [.setn 5 1, .choice 2 6, .test 0 3 4, .maybe 0, .setn 5 0, .goto 149, .choice 7 11, .test 0 8 9,
    .maybe 0, .setn 5 0, .goto 149, .choice 12 16, .test 0 13 14, .maybe 0, .setn 5 0, .goto 149,
    .choice 17 19, .fresh 3, .goto 20, .null 3, .test 3 21 31, .test 0 22 23, .maybe 0,
    .choice 24 26, .setn 5 0, .goto 149, .choice 27 29, .setn 5 1, .goto 149, .setn 5 2, .goto 149,
    .use 3, .choice 40 33, .choice 36 34, .test 0 35 36, .maybe 0, .test 0 37 38, .maybe 0,
    .setn 5 0, .goto 149, .choice 41 45, .test 2 42 166, .fresh 2, .setn 5 2, .goto 51,
    .choice 46 48, .setn 5 1, .goto 51, .test 0 49 50, .maybe 0, .setn 5 0, .testn 5 0 55 52,
    .testn 5 1 59 53, .testn 5 2 59 54, .choice 55 59, .test 0 56 57, .maybe 0, .setn 5 0,
    .goto 149, .use 3, .use 2, .choice 69 62, .choice 65 63, .test 0 64 65, .maybe 0, .test 0 66 67,
    .maybe 0, .setn 5 0, .goto 149, .kill 2, .null 2, .choice 78 72, .test 0 73 74, .maybe 0,
    .test 0 75 76, .maybe 0, .setn 5 0, .goto 149, .choice 86 79, .choice 82 80, .test 0 81 82,
    .maybe 0, .test 0 83 84, .maybe 0, .setn 5 0, .goto 149, .choice 87 147, .choice 88 91,
    .test 4 89 166, .fresh 4, .goto 97, .test 0 92 93, .maybe 0, .test 0 94 95, .maybe 0, .setn 5 0,
    .goto 149, .use 4, .choice 106 99, .choice 102 100, .test 0 101 102, .maybe 0, .test 0 103 104,
    .maybe 0, .setn 5 0, .goto 149, .choice 107 109, .fresh 1, .goto 110, .null 1, .test 1 111 115,
    .test 0 112 113, .maybe 0, .setn 5 0, .goto 149, .use 4, .use 1, .choice 125 118,
    .choice 121 119, .test 0 120 121, .maybe 0, .test 0 122 123, .maybe 0, .setn 5 0, .goto 149,
    .use 1, .use 3, .use 4, .choice 136 129, .choice 132 130, .test 0 131 132, .maybe 0,
    .test 0 133 134, .maybe 0, .setn 5 0, .goto 149, .kill 1, .null 1, .kill 4, .null 4,
    .choice 86 141, .test 0 142 143, .maybe 0, .test 0 144 145, .maybe 0, .setn 5 0, .goto 149,
    .kill 3, .ret true, .test 0 153 150, .use 0, .kill 0, .null 0, .test 1 155 154, .kill 1,
    .test 4 158 156, .kill 4, .null 4, .test 2 161 159, .kill 2, .null 2, .test 3 163 162, .kill 3,
    .testn 5 1 164 165, .ret true, .ret false, .goto 166]⟩

/-- `mount_fuse_releasedir` (fsapfstools/mount_fuse.c:1535-1593).  Places: 0 `error`, 1
`file_info`, 2 `file_info->fh`, 3 `result`. -/
def mount_fuse_releasedir : Fn :=
  ⟨[loc, loc, own 1, loc],
   [.choice 1 2, .lend 1, .test 1 4 3, .maybe 2, .setn 3 1, .choice 6 10, .test 0 7 8, .maybe 0,
    .setn 3 0, .goto 21, .test 1 11 15, .test 0 12 13, .maybe 0, .setn 3 0, .goto 21, .deref 1,
    .test 2 19 17, .deref 1, .null 2, .none 2, .ret true, .test 0 25 22, .use 0, .kill 0, .null 0,
    .testn 3 1 26 27, .ret true, .ret false]⟩

/-- `mount_fuse_getattr` (fsapfstools/mount_fuse.c:1604-1830).  Places: 0 `error`, 1 `file_entry`,
2 `result`. -/
def mount_fuse_getattr : Fn :=
  ⟨[loc, loc, loc],
   [.setn 2 1, .choice 2 6, .test 0 3 4, .maybe 0, .setn 2 0, .goto 98, .choice 7 11, .test 0 8 9,
    .maybe 0, .setn 2 0, .goto 98, .choice 12 16, .none 1, .fresh 1, .setn 2 2, .goto 22,
    .choice 17 19, .setn 2 1, .goto 22, .test 0 20 21, .maybe 0, .setn 2 0, .testn 2 0 26 23,
    .testn 2 1 30 24, .testn 2 2 30 25, .choice 26 30, .test 0 27 28, .maybe 0, .setn 2 0, .goto 98,
    .testn 2 0 35 31, .testn 2 1 34 32, .testn 2 2 35 33, .choice 34 35, .ret true, .use 1,
    .choice 44 37, .choice 40 38, .test 0 39 40, .maybe 0, .test 0 41 42, .maybe 0, .setn 2 0,
    .goto 98, .use 1, .choice 53 46, .choice 49 47, .test 0 48 49, .maybe 0, .test 0 50 51,
    .maybe 0, .setn 2 0, .goto 98, .use 1, .choice 62 55, .choice 58 56, .test 0 57 58, .maybe 0,
    .test 0 59 60, .maybe 0, .setn 2 0, .goto 98, .use 1, .choice 71 64, .choice 67 65,
    .test 0 66 67, .maybe 0, .test 0 68 69, .maybe 0, .setn 2 0, .goto 98, .use 1, .choice 80 73,
    .choice 76 74, .test 0 75 76, .maybe 0, .test 0 77 78, .maybe 0, .setn 2 0, .goto 98,
    .choice 88 81, .choice 84 82, .test 0 83 84, .maybe 0, .test 0 85 86, .maybe 0, .setn 2 0,
    .goto 98, .kill 1, .null 1, .choice 97 91, .test 0 92 93, .maybe 0, .test 0 94 95, .maybe 0,
    .setn 2 0, .goto 98, .ret true, .test 0 102 99, .use 0, .kill 0, .null 0, .test 1 105 103,
    .kill 1, .null 1, .testn 2 1 106 107, .ret true, .ret false]⟩

/-- `mount_fuse_readlink` (fsapfstools/mount_fuse.c:1835-1940).  Places: 0 `error`, 1 `file_entry`,
2 `result`. -/
def mount_fuse_readlink : Fn :=
  ⟨[loc, loc, loc],
   [.setn 2 1, .choice 2 6, .test 0 3 4, .maybe 0, .setn 2 0, .goto 49, .choice 7 11, .none 1,
    .fresh 1, .setn 2 2, .goto 17, .choice 12 14, .setn 2 1, .goto 17, .test 0 15 16, .maybe 0,
    .setn 2 0, .testn 2 0 21 18, .testn 2 1 25 19, .testn 2 2 25 20, .choice 21 25, .test 0 22 23,
    .maybe 0, .setn 2 0, .goto 49, .testn 2 0 30 26, .testn 2 1 29 27, .testn 2 2 30 28,
    .choice 29 30, .ret true, .use 1, .choice 39 32, .choice 35 33, .test 0 34 35, .maybe 0,
    .test 0 36 37, .maybe 0, .setn 2 0, .goto 49, .kill 1, .null 1, .choice 48 42, .test 0 43 44,
    .maybe 0, .test 0 45 46, .maybe 0, .setn 2 0, .goto 49, .ret true, .test 0 53 50, .use 0,
    .kill 0, .null 0, .test 1 56 54, .kill 1, .null 1, .testn 2 1 57 58, .ret true, .ret false]⟩

/-- `mount_fuse_destroy` (fsapfstools/mount_fuse.c:1944-1987).  Places: 0 `error`, 1
`fsapfsmount_mount_handle`. -/
def mount_fuse_destroy : Fn :=
  ⟨[loc, loc],
   [.maybe 1, .test 1 10 2, .kill 1, .null 1, .choice 10 5, .test 0 6 7, .maybe 0, .test 0 8 11,
    .maybe 0, .goto 11, .ret true, .test 0 15 12, .use 0, .kill 0, .null 0, .ret true]⟩

/-- `mount_handle_initialize` (fsapfstools/mount_handle.c:162-242).  Places: 0 `*mount_handle`, 1
`*mount_handle->file_io_handle`, 2 `*mount_handle->file_system`, 3 `*mount_handle at the start`. -/
def mount_handle_initialize : Fn :=
  ⟨[out, part 0, own 0, loc],
   [.choice 1 4, .lend 0, .setn 3 2, .goto 5, .setn 3 1, .test 0 8 6, .lend 1, .maybe 2,
    .choice 9 13, .test 0 10 49, .testn 3 1 11 12, .none 0, .ret false, .test 0 17 14,
    .testn 3 1 15 16, .none 0, .ret false, .forget 2, .null 2, .null 1, .choice 21 27, .fresh 0,
    .fresh 1, .kill 1, .fresh 2, .kill 2, .goto 28, .null 0, .test 0 38 29, .use 0, .null 1,
    .null 2, .deref 0, .choice 34 38, .test 2 35 49, .fresh 2, .live 0, .ret true, .test 0 46 39,
    .kill 0, .null 1, .null 2, .forget 2, .null 2, .null 1, .null 0, .testn 3 1 47 48, .none 0,
    .ret false, .goto 49]⟩

/-- `mount_handle_free` (fsapfstools/mount_handle.c:247-286).  Places: 0 `*mount_handle`, 1
`*mount_handle->file_io_handle`, 2 `*mount_handle->file_system`, 3 `result`. -/
def mount_handle_free : Fn :=
  ⟨[arg, part 0, own 0, loc],
   [.maybe 0, .test 0 4 2, .lend 1, .maybe 2, .setn 3 2, .choice 6 8, .test 0 7 22, .ret false,
    .test 0 19 9, .deref 0, .kill 2, .null 2, .kill 0, .null 1, .null 2, .forget 2, .null 2,
    .null 1, .null 0, .testn 3 2 20 21, .ret true, .ret false, .goto 22]⟩

/-- `mount_handle_open` (fsapfstools/mount_handle.c:515-760).  Places: 0 `file_io_handle`, 1
`fsapfs_container`, 2 `fsapfs_volume`, 3 `mount_handle`, 4 `mount_handle->file_io_handle`, 5
`mount_handle->members at the start`, 6 `result`. -/
def mount_handle_open : Fn :=
  ⟨[loc, loc, loc, loc, own 3, part 3, loc],
   [.choice 1 2, .lend 3, .test 3 7 3, .choice 4 6, .setn 5 1, .goto 7, .setn 5 2, .setn 6 1,
    .test 3 9 12, .testn 5 1 10 11, .none 4, .ret false, .choice 13 16, .testn 5 1 14 15, .none 4,
    .ret false, .choice 17 83, .test 0 18 95, .fresh 0, .use 0, .choice 21 83, .deref 3, .use 0,
    .choice 24 83, .choice 25 83, .test 1 26 95, .fresh 1, .use 1, .use 0, .choice 30 32, .setn 6 2,
    .goto 36, .choice 33 35, .setn 6 1, .goto 36, .setn 6 0, .testn 6 0 83 37, .testn 6 1 40 38,
    .testn 6 2 40 39, .choice 83 40, .use 1, .choice 42 83, .use 1, .choice 44 46, .setn 6 2,
    .goto 50, .choice 47 49, .setn 6 1, .goto 50, .setn 6 0, .testn 6 0 83 51, .testn 6 1 54 52,
    .testn 6 2 54 53, .choice 83 54, .deref 3, .deref 3, .choice 83 57, .choice 83 58, .use 3,
    .use 1, .choice 61 83, .test 2 62 95, .fresh 2, .use 2, .choice 65 67, .setn 6 2, .goto 71,
    .choice 68 70, .setn 6 1, .goto 71, .setn 6 0, .testn 6 0 83 72, .testn 6 1 75 73,
    .testn 6 2 75 74, .choice 83 75, .deref 3, .deref 3, .use 2, .choice 79 83, .give 2, .deref 3,
    .copy 4 0, .ret true, .test 2 86 84, .kill 2, .null 2, .test 1 89 87, .kill 1, .null 1,
    .test 0 92 90, .kill 0, .null 0, .testn 5 1 93 94, .none 4, .ret false, .goto 95]⟩

/-- `mount_handle_close` (fsapfstools/mount_handle.c:765-862).  Places: 0 `fsapfs_volume`, 1
`mount_handle`, 2 `mount_handle->file_io_handle`. -/
def mount_handle_close : Fn :=
  ⟨[loc, loc, own 1],
   [.choice 1 2, .lend 1, .test 1 4 3, .maybe 2, .test 1 5 6, .ret false, .deref 1, .choice 8 27,
    .lend 0, .deref 1, .choice 11 13, .maybe 0, .goto 15, .null 0, .goto 27, .kill 0, .null 0,
    .choice 18 27, .deref 1, .use 2, .choice 27 21, .deref 1, .kill 2, .null 2, .choice 25 27,
    .none 2, .ret false, .test 0 30 28, .kill 0, .null 0, .ret false]⟩

/-- `mount_handle_get_volume_by_index` (fsapfstools/mount_handle.c:890-1044).  Places: 0
`*fsapfs_volume`, 1 `*fsapfs_volume at the start`, 2 `result`. -/
def mount_handle_get_volume_by_index : Fn :=
  ⟨[out, loc, loc],
   [.choice 1 4, .lend 0, .setn 1 2, .goto 5, .setn 1 1, .setn 2 1, .choice 7 10, .testn 1 1 8 9,
    .none 0, .ret false, .choice 11 15, .test 0 12 54, .testn 1 1 13 14, .none 0, .ret false,
    .test 0 19 16, .testn 1 1 17 18, .none 0, .ret false, .choice 20 48, .test 0 21 54, .fresh 0,
    .choice 23 25, .use 0, .choice 25 48, .choice 26 28, .use 0, .choice 28 48, .use 0,
    .choice 30 32, .setn 2 2, .goto 36, .choice 33 35, .setn 2 1, .goto 36, .setn 2 0,
    .testn 2 0 48 37, .testn 2 1 40 38, .testn 2 2 40 39, .choice 48 40, .testn 2 0 44 41,
    .testn 2 1 46 42, .testn 2 2 44 43, .choice 44 46, .use 0, .choice 46 48, .live 0, .ret true,
    .test 0 51 49, .kill 0, .null 0, .testn 1 1 52 53, .none 0, .ret false, .goto 54]⟩

/-- `mount_handle_get_file_entry_by_path` (fsapfstools/mount_handle.c:1049-1174).  Places: 0
`*file_entry`, 1 `fsapfs_file_entry`, 2 `result`. -/
def mount_handle_get_file_entry_by_path : Fn :=
  ⟨[out, loc, loc],
   [.setn 2 1, .choice 2 4, .none 0, .ret false, .choice 5 7, .none 0, .ret false, .choice 37 8,
    .choice 9 10, .choice 10 8, .choice 11 15, .none 1, .fresh 1, .setn 2 2, .goto 19,
    .choice 16 18, .setn 2 1, .goto 19, .setn 2 0, .testn 2 0 37 20, .testn 2 1 23 21,
    .testn 2 2 23 22, .choice 37 23, .testn 2 0 27 24, .testn 2 1 32 25, .testn 2 2 27 26,
    .choice 27 32, .use 1, .choice 29 37, .test 0 30 42, .fresh 0, .give 1, .testn 2 2 33 35,
    .live 0, .ret true, .none 0, .ret false, .test 1 40 38, .kill 1, .null 1, .none 0, .ret false,
    .goto 42]⟩

/-- `mount_path_string_copy_from_file_entry_path` (fsapfstools/mount_path_string.c:136-423).
Places: 0 `*path`, 1 `safe_path`, 2 `result`. -/
def mount_path_string_copy_from_file_entry_path : Fn :=
  ⟨[out, loc, loc],
   [.setn 2 1, .choice 2 5, .test 0 3 86, .none 0, .ret false, .choice 6 8, .none 0, .ret false,
    .choice 9 11, .none 0, .ret false, .choice 13 12, .choice 13 15, .none 0, .ret false,
    .choice 16 18, .none 0, .ret false, .choice 19 21, .fresh 1, .goto 22, .null 1, .test 1 82 23,
    .choice 24 77, .choice 25 27, .setn 2 2, .goto 31, .choice 28 30, .setn 2 1, .goto 31,
    .setn 2 0, .testn 2 0 82 32, .testn 2 1 82 33, .testn 2 2 35 34, .choice 82 35, .choice 77 36,
    .choice 40 37, .choice 40 38, .choice 39 43, .choice 40 43, .deref 1, .deref 1, .choice 82 23,
    .choice 44 45, .choice 57 45, .choice 46 47, .choice 57 47, .choice 57 48, .choice 57 49,
    .choice 50 51, .choice 57 51, .choice 52 53, .choice 57 53, .choice 57 54, .choice 57 55,
    .choice 57 56, .choice 57 60, .deref 1, .deref 1, .choice 82 23, .choice 61 65, .choice 82 62,
    .deref 1, .deref 1, .goto 23, .use 1, .choice 67 69, .setn 2 2, .goto 73, .choice 70 72,
    .setn 2 1, .goto 73, .setn 2 0, .testn 2 0 82 74, .testn 2 1 82 75, .testn 2 2 23 76,
    .choice 82 23, .choice 82 78, .deref 1, .copy 0 1, .live 0, .ret true, .test 1 84 83, .kill 1,
    .none 0, .ret false, .goto 86]⟩

/-- `mount_path_string_copy_to_file_entry_path` (fsapfstools/mount_path_string.c:428-800).  Places:
0 `*file_entry_path`, 1 `safe_file_entry_path`, 2 `result`. -/
def mount_path_string_copy_to_file_entry_path : Fn :=
  ⟨[out, loc, loc],
   [.setn 2 1, .choice 2 4, .none 0, .ret false, .choice 6 5, .choice 6 8, .none 0, .ret false,
    .choice 9 12, .test 0 10 86, .none 0, .ret false, .choice 13 15, .none 0, .ret false,
    .choice 16 18, .none 0, .ret false, .choice 82 19, .choice 20 22, .fresh 1, .goto 23, .null 1,
    .test 1 82 24, .choice 25 77, .choice 26 28, .setn 2 2, .goto 32, .choice 29 31, .setn 2 1,
    .goto 32, .setn 2 0, .testn 2 0 82 33, .testn 2 1 82 34, .testn 2 2 36 35, .choice 82 36,
    .choice 65 37, .choice 38 65, .choice 82 39, .choice 65 40, .choice 41 48, .choice 82 42,
    .choice 43 82, .choice 44 45, .choice 65 45, .choice 65 46, .choice 47 82, .choice 65 82,
    .choice 49 82, .choice 82 50, .choice 51 82, .choice 52 53, .choice 65 53, .choice 54 55,
    .choice 65 55, .choice 65 56, .choice 65 57, .choice 58 59, .choice 65 59, .choice 60 61,
    .choice 65 61, .choice 65 62, .choice 65 63, .choice 65 64, .choice 65 82, .use 1,
    .choice 67 69, .setn 2 2, .goto 73, .choice 70 72, .setn 2 1, .goto 73, .setn 2 0,
    .testn 2 0 82 74, .testn 2 1 82 75, .testn 2 2 24 76, .choice 82 24, .choice 82 78, .deref 1,
    .copy 0 1, .live 0, .ret true, .test 1 84 83, .kill 1, .none 0, .ret false, .goto 86]⟩

/-- `path_string_copy_from_file_entry_path` (fsapfstools/path_string.c:122-379).  Places: 0
`*path`, 1 `safe_path`, 2 `result`. -/
def path_string_copy_from_file_entry_path : Fn :=
  ⟨[out, loc, loc],
   [.setn 2 1, .choice 2 5, .test 0 3 83, .none 0, .ret false, .choice 6 8, .none 0, .ret false,
    .choice 9 11, .none 0, .ret false, .choice 13 12, .choice 13 15, .none 0, .ret false,
    .choice 16 18, .none 0, .ret false, .choice 19 21, .fresh 1, .goto 22, .null 1, .test 1 79 23,
    .choice 24 75, .choice 25 27, .setn 2 2, .goto 31, .choice 28 30, .setn 2 1, .goto 31,
    .setn 2 0, .testn 2 0 79 32, .testn 2 1 79 33, .testn 2 2 35 34, .choice 79 35, .choice 38 36,
    .choice 37 41, .choice 38 41, .deref 1, .deref 1, .choice 79 23, .choice 42 43, .choice 55 43,
    .choice 44 45, .choice 55 45, .choice 55 46, .choice 55 47, .choice 48 49, .choice 55 49,
    .choice 50 51, .choice 55 51, .choice 55 52, .choice 55 53, .choice 55 54, .choice 55 58,
    .deref 1, .deref 1, .choice 79 23, .choice 59 63, .choice 79 60, .deref 1, .deref 1, .goto 23,
    .use 1, .choice 65 67, .setn 2 2, .goto 71, .choice 68 70, .setn 2 1, .goto 71, .setn 2 0,
    .testn 2 0 79 72, .testn 2 1 79 73, .testn 2 2 23 74, .choice 79 23, .deref 1, .copy 0 1,
    .live 0, .ret true, .test 1 81 80, .kill 1, .none 0, .ret false, .goto 83]⟩

/-- `path_string_copy_to_file_entry_path` (fsapfstools/path_string.c:384-722).  Places: 0
`*file_entry_path`, 1 `safe_file_entry_path`, 2 `result`. -/
def path_string_copy_to_file_entry_path : Fn :=
  ⟨[out, loc, loc],
   [.setn 2 1, .choice 2 4, .none 0, .ret false, .choice 6 5, .choice 6 8, .none 0, .ret false,
    .choice 9 12, .test 0 10 81, .none 0, .ret false, .choice 13 15, .none 0, .ret false,
    .choice 77 16, .choice 17 19, .fresh 1, .goto 20, .null 1, .test 1 77 21, .choice 22 72,
    .choice 23 25, .setn 2 2, .goto 29, .choice 26 28, .setn 2 1, .goto 29, .setn 2 0,
    .testn 2 0 77 30, .testn 2 1 77 31, .testn 2 2 33 32, .choice 77 33, .choice 34 60,
    .choice 77 35, .choice 60 36, .choice 37 43, .choice 77 38, .choice 39 77, .choice 40 41,
    .choice 60 41, .choice 42 77, .choice 60 77, .choice 44 77, .choice 77 45, .choice 46 77,
    .choice 47 48, .choice 60 48, .choice 49 50, .choice 60 50, .choice 60 51, .choice 60 52,
    .choice 53 54, .choice 60 54, .choice 55 56, .choice 60 56, .choice 60 57, .choice 60 58,
    .choice 60 59, .choice 60 77, .use 1, .choice 62 64, .setn 2 2, .goto 68, .choice 65 67,
    .setn 2 1, .goto 68, .setn 2 0, .testn 2 0 77 69, .testn 2 1 77 70, .testn 2 2 21 71,
    .choice 77 21, .choice 77 73, .deref 1, .copy 0 1, .live 0, .ret true, .test 1 79 78, .kill 1,
    .none 0, .ret false, .goto 81]⟩

/-- `main` (fsapfstools/fsapfsmount.c:111-768).  Places: 0 `error`, 1 `fsapfsmount_mount_handle`, 2
`result`. -/
def fsapfsmount_main_dokan : Fn :=
  ⟨[loc, loc, loc],
   [.setn 2 1, .choice 5 2, .test 0 3 83, .maybe 0, .goto 83, .choice 9 6, .test 0 7 83, .maybe 0,
    .goto 83, .choice 10 83, .choice 11 22, .choice 19 12, .choice 19 13, .choice 10 14,
    .choice 20 15, .choice 10 16, .choice 10 17, .choice 10 18, .choice 10 21, .ret false,
    .ret true, .ret true, .choice 23 24, .ret false, .choice 25 26, .ret false, .choice 27 30,
    .test 1 28 91, .fresh 1, .goto 33, .test 0 31 83, .maybe 0, .goto 83, .choice 34 42, .use 1,
    .choice 42 36, .choice 39 37, .test 0 38 39, .maybe 0, .use 0, .kill 0, .null 0, .choice 43 49,
    .use 1, .choice 49 45, .choice 83 46, .test 0 47 83, .maybe 0, .goto 83, .choice 50 56, .use 1,
    .choice 56 52, .choice 83 53, .test 0 54 83, .maybe 0, .goto 83, .choice 57 63, .use 1,
    .choice 63 59, .choice 83 60, .test 0 61 83, .maybe 0, .goto 83, .use 1, .choice 69 65,
    .choice 83 66, .test 0 67 83, .maybe 0, .goto 83, .use 1, .choice 83 71, .choice 75 72,
    .test 0 73 83, .maybe 0, .goto 83, .choice 76 78, .setn 2 2, .goto 82, .choice 79 81, .setn 2 1,
    .goto 82, .setn 2 0, .ret true, .test 0 87 84, .use 0, .kill 0, .null 0, .test 1 90 88, .kill 1,
    .null 1, .ret false, .goto 91]⟩

/-- `mount_dokan_CreateFile` (fsapfstools/mount_dokan.c:370-497).  Places: 0 `error`, 1
`file_info`, 2 `file_info->Context`, 3 `file_info->Context at the start`, 4 `result`. -/
def mount_dokan_CreateFile : Fn :=
  ⟨[loc, loc, own 1, part 1, loc],
   [.choice 1 2, .lend 1, .test 1 4 3, .maybe 2, .test 1 9 5, .test 2 8 6, .setn 3 2, .goto 9,
    .setn 3 1, .setn 4 1, .choice 11 21, .test 0 12 13, .maybe 0, .choice 14 16, .setn 4 0,
    .goto 94, .choice 17 19, .setn 4 1, .goto 94, .setn 4 2, .goto 94, .choice 22 25,
    .testn 3 1 23 24, .none 2, .ret true, .choice 26 29, .testn 3 1 27 28, .none 2, .ret true,
    .choice 30 33, .testn 3 1 31 32, .none 2, .ret true, .choice 34 37, .testn 3 1 35 36, .none 2,
    .ret true, .choice 38 41, .testn 3 1 39 40, .none 2, .ret true, .choice 42 52, .test 0 43 44,
    .maybe 0, .choice 45 47, .setn 4 0, .goto 94, .choice 48 50, .setn 4 1, .goto 94, .setn 4 2,
    .goto 94, .test 1 53 63, .test 0 54 55, .maybe 0, .choice 56 58, .setn 4 0, .goto 94,
    .choice 59 61, .setn 4 1, .goto 94, .setn 4 2, .goto 94, .deref 1, .test 2 75 65, .test 0 66 67,
    .maybe 0, .choice 68 70, .setn 4 0, .goto 94, .choice 71 73, .setn 4 1, .goto 94, .setn 4 2,
    .goto 94, .deref 1, .choice 77 80, .none 2, .fresh 2, .goto 93, .choice 83 81, .test 0 82 83,
    .maybe 0, .test 0 84 85, .maybe 0, .choice 86 88, .setn 4 0, .goto 94, .choice 89 91, .setn 4 1,
    .goto 94, .setn 4 2, .goto 94, .ret true, .test 0 98 95, .use 0, .kill 0, .null 0,
    .testn 3 1 99 100, .none 2, .testn 4 1 101 102, .ret true, .ret false]⟩

/-- `mount_dokan_OpenDirectory` (fsapfstools/mount_dokan.c:615-700).  Places: 0 `error`, 1
`file_info`, 2 `file_info->Context`, 3 `file_info->Context at the start`, 4 `result`. -/
def mount_dokan_OpenDirectory : Fn :=
  ⟨[loc, loc, own 1, part 1, loc],
   [.choice 1 2, .lend 1, .test 1 4 3, .maybe 2, .test 1 9 5, .test 2 8 6, .setn 3 2, .goto 9,
    .setn 3 1, .setn 4 1, .choice 11 15, .test 0 12 13, .maybe 0, .setn 4 0, .goto 39,
    .test 1 16 20, .test 0 17 18, .maybe 0, .setn 4 0, .goto 39, .deref 1, .test 2 26 22,
    .test 0 23 24, .maybe 0, .setn 4 0, .goto 39, .deref 1, .choice 28 31, .none 2, .fresh 2,
    .goto 38, .choice 34 32, .test 0 33 34, .maybe 0, .test 0 35 36, .maybe 0, .setn 4 0, .goto 39,
    .ret true, .test 0 43 40, .use 0, .kill 0, .null 0, .testn 3 1 44 45, .none 2, .testn 4 1 46 47,
    .ret true, .ret false]⟩

/-- `mount_dokan_CloseFile` (fsapfstools/mount_dokan.c:708-785).  Places: 0 `error`, 1 `file_info`,
2 `file_info->Context`, 3 `result`. -/
def mount_dokan_CloseFile : Fn :=
  ⟨[loc, loc, own 1, loc],
   [.choice 1 2, .lend 1, .test 1 4 3, .maybe 2, .setn 3 1, .choice 6 10, .test 0 7 8, .maybe 0,
    .setn 3 0, .goto 29, .test 1 11 15, .test 0 12 13, .maybe 0, .setn 3 0, .goto 29, .deref 1,
    .test 2 27 17, .deref 1, .kill 2, .null 2, .choice 27 21, .test 0 22 23, .maybe 0,
    .test 0 24 25, .maybe 0, .setn 3 0, .goto 29, .none 2, .ret true, .test 0 33 30, .use 0,
    .kill 0, .null 0, .testn 3 1 34 35, .ret true, .ret false]⟩

/-- `mount_dokan_ReadFile` (fsapfstools/mount_dokan.c:791-935).  Places: 0 `error`, 1 `read_count`,
2 `result`. -/
def mount_dokan_ReadFile : Fn :=
  ⟨[loc, loc, loc],
   [.setn 1 1, .setn 2 1, .choice 3 7, .test 0 4 5, .maybe 0, .setn 2 0, .goto 50, .choice 8 12,
    .test 0 9 10, .maybe 0, .setn 2 0, .goto 50, .choice 13 17, .test 0 14 15, .maybe 0, .setn 2 0,
    .goto 50, .choice 18 22, .test 0 19 20, .maybe 0, .setn 2 0, .goto 50, .choice 23 27,
    .test 0 24 25, .maybe 0, .setn 2 0, .goto 50, .choice 28 30, .setn 1 2, .goto 36, .choice 31 33,
    .setn 1 1, .goto 36, .test 0 34 35, .maybe 0, .setn 1 0, .testn 1 0 40 37, .testn 1 1 44 38,
    .testn 1 2 44 39, .choice 40 44, .test 0 41 42, .maybe 0, .setn 2 0, .goto 50, .choice 45 49,
    .test 0 46 47, .maybe 0, .setn 2 0, .goto 50, .ret true, .test 0 54 51, .use 0, .kill 0,
    .null 0, .testn 2 1 55 56, .ret true, .ret false]⟩

/-- `mount_dokan_FindFiles` (fsapfstools/mount_dokan.c:941-1259).  Places: 0 `error`, 1
`file_entry`, 2 `name`, 3 `parent_file_entry`, 4 `sub_file_entry`, 5 `result`. -/
def mount_dokan_FindFiles : Fn :=
  ⟨[loc, loc, loc, loc, loc, loc],
   [.setn 5 1, .choice 2 6, .test 0 3 4, .maybe 0, .setn 5 0, .goto 144, .choice 7 10, .none 1,
    .fresh 1, .goto 17, .choice 13 11, .test 0 12 13, .maybe 0, .test 0 14 15, .maybe 0, .setn 5 0,
    .goto 144, .use 1, .choice 26 19, .choice 22 20, .test 0 21 22, .maybe 0, .test 0 23 24,
    .maybe 0, .setn 5 0, .goto 144, .use 1, .choice 28 32, .test 3 29 162, .fresh 3, .setn 5 2,
    .goto 38, .choice 33 35, .setn 5 1, .goto 38, .test 0 36 37, .maybe 0, .setn 5 0,
    .testn 5 0 42 39, .testn 5 1 46 40, .testn 5 2 46 41, .choice 42 46, .test 0 43 44, .maybe 0,
    .setn 5 0, .goto 144, .use 3, .choice 55 48, .choice 51 49, .test 0 50 51, .maybe 0,
    .test 0 52 53, .maybe 0, .setn 5 0, .goto 144, .kill 3, .null 3, .choice 64 58, .test 0 59 60,
    .maybe 0, .test 0 61 62, .maybe 0, .setn 5 0, .goto 144, .use 1, .choice 73 66, .choice 69 67,
    .test 0 68 69, .maybe 0, .test 0 70 71, .maybe 0, .setn 5 0, .goto 144, .choice 74 134, .use 1,
    .choice 76 79, .test 4 77 162, .fresh 4, .goto 85, .test 0 80 81, .maybe 0, .test 0 82 83,
    .maybe 0, .setn 5 0, .goto 144, .use 4, .choice 94 87, .choice 90 88, .test 0 89 90, .maybe 0,
    .test 0 91 92, .maybe 0, .setn 5 0, .goto 144, .choice 95 97, .fresh 2, .goto 98, .null 2,
    .test 2 99 103, .test 0 100 101, .maybe 0, .setn 5 0, .goto 144, .use 4, .use 2,
    .choice 113 106, .choice 109 107, .test 0 108 109, .maybe 0, .test 0 110 111, .maybe 0,
    .setn 5 0, .goto 144, .use 2, .use 4, .choice 123 116, .choice 119 117, .test 0 118 119,
    .maybe 0, .test 0 120 121, .maybe 0, .setn 5 0, .goto 144, .kill 2, .null 2, .kill 4, .null 4,
    .choice 73 128, .test 0 129 130, .maybe 0, .test 0 131 132, .maybe 0, .setn 5 0, .goto 144,
    .kill 1, .null 1, .choice 143 137, .test 0 138 139, .maybe 0, .test 0 140 141, .maybe 0,
    .setn 5 0, .goto 144, .ret true, .test 0 148 145, .use 0, .kill 0, .null 0, .test 2 150 149,
    .kill 2, .test 4 153 151, .kill 4, .null 4, .test 3 156 154, .kill 3, .null 3, .test 1 159 157,
    .kill 1, .null 1, .testn 5 1 160 161, .ret true, .ret false, .goto 162]⟩

/-- `mount_dokan_GetFileInformation` (fsapfstools/mount_dokan.c:1265-1463).  Places: 0 `error`, 1
`file_entry`, 2 `result`. -/
def mount_dokan_GetFileInformation : Fn :=
  ⟨[loc, loc, loc],
   [.setn 2 1, .choice 2 6, .test 0 3 4, .maybe 0, .setn 2 0, .goto 81, .choice 7 10, .none 1,
    .fresh 1, .goto 17, .choice 13 11, .test 0 12 13, .maybe 0, .test 0 14 15, .maybe 0, .setn 2 0,
    .goto 81, .test 1 63 18, .use 1, .choice 27 20, .choice 23 21, .test 0 22 23, .maybe 0,
    .test 0 24 25, .maybe 0, .setn 2 0, .goto 81, .use 1, .choice 36 29, .choice 32 30,
    .test 0 31 32, .maybe 0, .test 0 33 34, .maybe 0, .setn 2 0, .goto 81, .use 1, .choice 45 38,
    .choice 41 39, .test 0 40 41, .maybe 0, .test 0 42 43, .maybe 0, .setn 2 0, .goto 81, .use 1,
    .choice 54 47, .choice 50 48, .test 0 49 50, .maybe 0, .test 0 51 52, .maybe 0, .setn 2 0,
    .goto 81, .use 1, .choice 63 56, .choice 59 57, .test 0 58 59, .maybe 0, .test 0 60 61,
    .maybe 0, .setn 2 0, .goto 81, .choice 71 64, .choice 67 65, .test 0 66 67, .maybe 0,
    .test 0 68 69, .maybe 0, .setn 2 0, .goto 81, .kill 1, .null 1, .choice 80 74, .test 0 75 76,
    .maybe 0, .test 0 77 78, .maybe 0, .setn 2 0, .goto 81, .ret true, .test 0 85 82, .use 0,
    .kill 0, .null 0, .test 1 88 86, .kill 1, .null 1, .testn 2 1 89 90, .ret true, .ret false]⟩

/-- `mount_dokan_GetVolumeInformation` (fsapfstools/mount_dokan.c:1469-1587).  Places: 0 `error`, 1
`result`. -/
def mount_dokan_GetVolumeInformation : Fn :=
  ⟨[loc, loc],
   [.setn 1 1, .ret true]⟩

/-- `mount_dokan_ZwCreateFile` (fsapfstools/mount_dokan.c:504-606).  Places: 0 `error`, 1
`file_info`, 2 `file_info->Context`, 3 `file_info->Context at the start`, 4 `result`. -/
def mount_dokan_ZwCreateFile : Fn :=
  ⟨[loc, loc, own 1, part 1, loc],
   [.choice 1 2, .lend 1, .test 1 4 3, .maybe 2, .test 1 9 5, .test 2 8 6, .setn 3 2, .goto 9,
    .setn 3 1, .setn 4 1, .choice 11 15, .test 0 12 13, .maybe 0, .setn 4 0, .goto 52,
    .choice 16 19, .testn 3 1 17 18, .none 2, .ret true, .choice 20 23, .testn 3 1 21 22, .none 2,
    .ret true, .choice 24 28, .choice 25 28, .testn 3 1 26 27, .none 2, .ret true, .test 1 29 33,
    .test 0 30 31, .maybe 0, .setn 4 0, .goto 52, .deref 1, .test 2 39 35, .test 0 36 37, .maybe 0,
    .setn 4 0, .goto 52, .deref 1, .choice 41 44, .none 2, .fresh 2, .goto 51, .choice 47 45,
    .test 0 46 47, .maybe 0, .test 0 48 49, .maybe 0, .setn 4 0, .goto 52, .ret true, .test 0 56 53,
    .use 0, .kill 0, .null 0, .testn 3 1 57 58, .none 2, .testn 4 1 59 60, .ret true, .ret false]⟩

/-- The functions of fsapfstools that handle memory. -/
def tools : List (String × Fn) :=
  [("bodyfile_path_string_copy_from_file_entry_path", bodyfile_path_string_copy_from_file_entry_path),
   ("fsapfsinfo_signal_handler", fsapfsinfo_signal_handler),
   ("fsapfsinfo_main", fsapfsinfo_main),
   ("fsapfsmount_signal_handler", fsapfsmount_signal_handler),
   ("fsapfsmount_main", fsapfsmount_main),
   ("info_handle_initialize", info_handle_initialize),
   ("info_handle_free", info_handle_free),
   ("info_handle_set_password", info_handle_set_password),
   ("info_handle_set_recovery_password", info_handle_set_recovery_password),
   ("info_handle_get_volume_by_index", info_handle_get_volume_by_index),
   ("info_handle_file_entry_calculate_md5", info_handle_file_entry_calculate_md5),
   ("info_handle_name_value_fprint", info_handle_name_value_fprint),
   ("info_handle_posix_time_in_nano_seconds_value_fprint", info_handle_posix_time_in_nano_seconds_value_fprint),
   ("info_handle_uuid_value_fprint", info_handle_uuid_value_fprint),
   ("info_handle_file_entry_value_fprint", info_handle_file_entry_value_fprint),
   ("info_handle_bodyfile_name_value_fprint", info_handle_bodyfile_name_value_fprint),
   ("info_handle_file_entry_value_with_name_fprint", info_handle_file_entry_value_with_name_fprint),
   ("info_handle_file_system_hierarchy_fprint_file_entry", info_handle_file_system_hierarchy_fprint_file_entry),
   ("info_handle_file_system_hierarchy_fprint", info_handle_file_system_hierarchy_fprint),
   ("info_handle_file_entry_fprint_by_identifier", info_handle_file_entry_fprint_by_identifier),
   ("info_handle_file_entry_fprint_by_path", info_handle_file_entry_fprint_by_path),
   ("info_handle_file_entries_fprint", info_handle_file_entries_fprint),
   ("info_handle_volume_fprint", info_handle_volume_fprint),
   ("info_handle_container_fprint", info_handle_container_fprint),
   ("mount_file_entry_initialize", mount_file_entry_initialize),
   ("mount_file_entry_free", mount_file_entry_free),
   ("mount_file_entry_get_parent_file_entry", mount_file_entry_get_parent_file_entry),
   ("mount_file_entry_get_sub_file_entry_by_index", mount_file_entry_get_sub_file_entry_by_index),
   ("mount_file_system_initialize", mount_file_system_initialize),
   ("mount_file_system_free", mount_file_system_free),
   ("mount_file_system_set_volume", mount_file_system_set_volume),
   ("mount_file_system_get_file_entry_by_path", mount_file_system_get_file_entry_by_path),
   ("mount_file_system_get_filename_from_file_entry", mount_file_system_get_filename_from_file_entry),
   ("mount_fuse_open", mount_fuse_open),
   ("mount_fuse_read", mount_fuse_read),
   ("mount_fuse_release", mount_fuse_release),
   ("mount_fuse_getxattr", mount_fuse_getxattr),
   ("mount_fuse_listxattr", mount_fuse_listxattr),
   ("mount_fuse_opendir", mount_fuse_opendir),
   ("mount_fuse_readdir", mount_fuse_readdir),
   ("mount_fuse_releasedir", mount_fuse_releasedir),
   ("mount_fuse_getattr", mount_fuse_getattr),
   ("mount_fuse_readlink", mount_fuse_readlink),
   ("mount_fuse_destroy", mount_fuse_destroy),
   ("mount_handle_initialize", mount_handle_initialize),
   ("mount_handle_free", mount_handle_free),
   ("mount_handle_open", mount_handle_open),
   ("mount_handle_close", mount_handle_close),
   ("mount_handle_get_volume_by_index", mount_handle_get_volume_by_index),
   ("mount_handle_get_file_entry_by_path", mount_handle_get_file_entry_by_path),
   ("mount_path_string_copy_from_file_entry_path", mount_path_string_copy_from_file_entry_path),
   ("mount_path_string_copy_to_file_entry_path", mount_path_string_copy_to_file_entry_path),
   ("path_string_copy_from_file_entry_path", path_string_copy_from_file_entry_path),
   ("path_string_copy_to_file_entry_path", path_string_copy_to_file_entry_path),
   ("fsapfsmount_main_dokan", fsapfsmount_main_dokan),
   ("mount_dokan_CreateFile", mount_dokan_CreateFile),
   ("mount_dokan_OpenDirectory", mount_dokan_OpenDirectory),
   ("mount_dokan_CloseFile", mount_dokan_CloseFile),
   ("mount_dokan_ReadFile", mount_dokan_ReadFile),
   ("mount_dokan_FindFiles", mount_dokan_FindFiles),
   ("mount_dokan_GetFileInformation", mount_dokan_GetFileInformation),
   ("mount_dokan_GetVolumeInformation", mount_dokan_GetVolumeInformation),
   ("mount_dokan_ZwCreateFile", mount_dokan_ZwCreateFile)]

end Verif.Owner.Tools
