import Verif.Model.Ownership

/-
What the functions of pyfsapfs do with memory, references to Python objects, exceptions and the lock of
the interpreter: see Ownership.lean for what the instructions mean and DESIGN.md for how they were made
from the source.  A reference that a function owns is something that it allocated: Py_DecRef releases
it.  Besides the pointers there are these places.  `exception` holds something while an exception is
set.  `threads allowed` does between Py_BEGIN_ALLOW_THREADS and Py_END_ALLOW_THREADS, and `gil_state`
between PyGILState_Ensure and PyGILState_Release.  `result that is not kept` is what a function
returned that the code ignores.  The functions whose name here ends in _python2 are of the build for
Python 2 and those that end in _wide of that for Windows, where they differ.
-/

namespace Verif.Owner.Python

/-- `pyfsapfs_get_version` (pyfsapfs/pyfsapfs.c:100-127).  Places: 0 `exception`, 1 `result that is
not kept`, 2 `threads allowed`. -/
def pyfsapfs_get_version : Fn :=
  ⟨[loc, loc, loc],
   [.none 2, .fresh 2, .live 2, .kill 2, .null 2, .none 2, .choice 7 9, .none 0, .ret true, .lend 0,
    .deref 0, .ret false]⟩

/-- `pyfsapfs_check_container_signature` (pyfsapfs/pyfsapfs.c:132-334).  Places: 0 `Py_False`, 1
`Py_True`, 2 `error`, 3 `exception`, 4 `filename_narrow`, 5 `result that is not kept`, 6
`string_object`, 7 `threads allowed`, 8 `utf8_string_object`, 9 `can be opened`, 10 `result`. -/
def pyfsapfs_check_container_signature : Fn :=
  ⟨[loc, loc, loc, loc, loc, loc, loc, loc, loc, loc, loc],
   [.lend 1, .lend 0, .setn 10 1, .none 7, .choice 5 7, .lend 6, .goto 10, .lend 3, .deref 3,
    .ret false, .none 7, .null 3, .none 7, .deref 6, .use 6, .choice 16 18, .setn 10 2, .goto 23,
    .choice 19 21, .setn 10 1, .goto 23, .lend 3, .setn 10 0, .testn 10 0 27 24, .testn 10 1 31 25,
    .testn 10 2 31 26, .choice 27 31, .none 7, .lend 3, .deref 3, .ret false, .testn 10 0 35 32,
    .testn 10 1 112 33, .testn 10 2 35 34, .choice 35 112, .none 7, .null 3, .none 7, .deref 6,
    .use 6, .choice 41 43, .fresh 8, .goto 45, .null 8, .lend 3, .test 8 46 50, .none 7, .lend 3,
    .deref 3, .ret false, .none 7, .deref 8, .use 8, .lend 4, .none 7, .fresh 7, .use 4, .setn 9 1,
    .test 4 60 59, .setn 9 2, .choice 61 64, .testn 9 2 62 206, .setn 10 2, .goto 71, .choice 65 68,
    .testn 9 2 66 206, .setn 10 1, .goto 71, .test 2 69 70, .maybe 2, .setn 10 0, .live 7, .kill 7,
    .null 7, .none 7, .use 8, .kill 8, .testn 10 0 81 78, .testn 10 1 88 79, .testn 10 2 88 80,
    .choice 81 88, .none 7, .use 2, .lend 3, .kill 2, .null 2, .deref 3, .ret false,
    .testn 10 0 92 89, .testn 10 1 102 90, .testn 10 2 92 91, .choice 92 102, .none 7, .use 1,
    .test 1 96 95, .fresh 1, .test 1 97 99, .deref 3, .ret false, .give 1, .none 3, .ret true,
    .none 7, .use 0, .test 0 106 105, .fresh 0, .test 0 107 109, .deref 3, .ret false, .give 0,
    .none 3, .ret true, .none 7, .null 3, .none 7, .deref 6, .use 6, .choice 118 120, .setn 10 2,
    .goto 125, .choice 121 123, .setn 10 1, .goto 125, .lend 3, .setn 10 0, .testn 10 0 129 126,
    .testn 10 1 133 127, .testn 10 2 133 128, .choice 129 133, .none 7, .lend 3, .deref 3,
    .ret false, .testn 10 0 137 134, .testn 10 1 202 135, .testn 10 2 137 136, .choice 137 202,
    .none 7, .null 3, .none 7, .deref 6, .use 6, .choice 143 145, .lend 4, .goto 147, .null 4,
    .lend 3, .none 7, .fresh 7, .use 4, .setn 9 1, .test 4 153 152, .setn 9 2, .choice 154 157,
    .testn 9 2 155 206, .setn 10 2, .goto 164, .choice 158 161, .testn 9 2 159 206, .setn 10 1,
    .goto 164, .test 2 162 163, .maybe 2, .setn 10 0, .live 7, .kill 7, .null 7,
    .testn 10 0 171 168, .testn 10 1 178 169, .testn 10 2 178 170, .choice 171 178, .none 7, .use 2,
    .lend 3, .kill 2, .null 2, .deref 3, .ret false, .testn 10 0 182 179, .testn 10 1 192 180,
    .testn 10 2 182 181, .choice 182 192, .none 7, .use 1, .test 1 186 185, .fresh 1,
    .test 1 187 189, .deref 3, .ret false, .give 1, .none 3, .ret true, .none 7, .use 0,
    .test 0 196 195, .fresh 0, .test 0 197 199, .deref 3, .ret false, .give 0, .none 3, .ret true,
    .none 7, .lend 3, .deref 3, .ret false, .goto 206]⟩

/-- `pyfsapfs_check_container_signature_file_object` (pyfsapfs/pyfsapfs.c:339-434).  Places: 0
`Py_False`, 1 `Py_True`, 2 `error`, 3 `exception`, 4 `file_io_handle`, 5 `file_object`, 6 `threads
allowed`, 7 `can be opened`, 8 `result`. -/
def pyfsapfs_check_container_signature_file_object : Fn :=
  ⟨[loc, loc, loc, loc, loc, loc, loc, loc, loc],
   [.lend 1, .lend 0, .setn 8 1, .none 6, .choice 5 7, .lend 5, .goto 10, .lend 3, .deref 3,
    .ret false, .none 6, .use 5, .use 5, .choice 14 17, .test 4 15 90, .fresh 4, .goto 25,
    .test 2 18 19, .maybe 2, .none 6, .use 2, .lend 3, .kill 2, .null 2, .goto 85, .none 6,
    .fresh 6, .use 4, .choice 29 31, .setn 8 2, .goto 37, .choice 32 34, .setn 8 1, .goto 37,
    .test 2 35 36, .maybe 2, .setn 8 0, .live 6, .kill 6, .null 6, .testn 8 0 44 41,
    .testn 8 1 50 42, .testn 8 2 50 43, .choice 44 50, .none 6, .use 2, .lend 3, .kill 2, .null 2,
    .goto 85, .kill 4, .null 4, .choice 61 53, .test 2 54 55, .maybe 2, .none 6, .use 2, .lend 3,
    .kill 2, .null 2, .goto 85, .testn 8 0 65 62, .testn 8 1 75 63, .testn 8 2 65 64, .choice 65 75,
    .none 6, .use 1, .test 1 69 68, .fresh 1, .test 1 70 72, .deref 3, .ret false, .give 1, .none 3,
    .ret true, .none 6, .use 0, .test 0 79 78, .fresh 0, .test 0 80 82, .deref 3, .ret false,
    .give 0, .none 3, .ret true, .test 4 88 86, .kill 4, .null 4, .deref 3, .ret false, .goto 90]⟩

/-- `pyfsapfs_open_new_container` (pyfsapfs/pyfsapfs.c:439-485).  Places: 0 `exception`, 1
`pyfsapfs_container`, 2 `pyfsapfs_container->container`, 3 `pyfsapfs_container->file_io_handle`, 4
`result that is not kept`. -/
def pyfsapfs_open_new_container : Fn :=
  ⟨[loc, loc, own 1, own 1, loc],
   [.forget 3, .null 3, .forget 2, .null 2, .choice 5 11, .fresh 1, .fresh 2, .kill 2, .fresh 3,
    .kill 3, .goto 13, .null 1, .lend 0, .test 1 14 16, .lend 0, .goto 45, .use 1, .choice 18 25,
    .forget 2, .null 2, .maybe 2, .forget 3, .null 3, .maybe 3, .goto 33, .forget 2, .null 2,
    .maybe 2, .forget 3, .null 3, .maybe 3, .lend 0, .goto 45, .use 1, .choice 35 37, .fresh 4,
    .goto 39, .lend 0, .goto 45, .test 1 40 42, .deref 0, .ret false, .give 1, .none 0, .ret true,
    .test 1 52 46, .use 1, .kill 1, .kill 2, .kill 3, .null 2, .null 3, .deref 0, .ret false]⟩

/-- `pyfsapfs_open_new_container_with_file_object` (pyfsapfs/pyfsapfs.c:490-536).  Places: 0
`exception`, 1 `pyfsapfs_container`, 2 `pyfsapfs_container->container`, 3
`pyfsapfs_container->file_io_handle`, 4 `result that is not kept`. -/
def pyfsapfs_open_new_container_with_file_object : Fn :=
  ⟨[loc, loc, own 1, own 1, loc],
   [.forget 3, .null 3, .forget 2, .null 2, .choice 5 11, .fresh 1, .fresh 2, .kill 2, .fresh 3,
    .kill 3, .goto 13, .null 1, .lend 0, .test 1 14 16, .lend 0, .goto 51, .use 1, .choice 18 25,
    .forget 2, .null 2, .maybe 2, .forget 3, .null 3, .maybe 3, .goto 33, .forget 2, .null 2,
    .maybe 2, .forget 3, .null 3, .maybe 3, .lend 0, .goto 51, .use 1, .choice 35 40, .forget 3,
    .null 3, .maybe 3, .fresh 4, .goto 45, .forget 3, .null 3, .maybe 3, .lend 0, .goto 51,
    .test 1 46 48, .deref 0, .ret false, .give 1, .none 0, .ret true, .test 1 58 52, .use 1,
    .kill 1, .kill 2, .kill 3, .null 2, .null 3, .deref 0, .ret false]⟩

/-- `PyInit_pyfsapfs` (pyfsapfs/pyfsapfs.c:568-749).  Places: 0 `exception`, 1 `gil_state`, 2
`module`, 3 `result that is not kept`. -/
def PyInit_pyfsapfs : Fn :=
  ⟨[loc, loc, loc, loc],
   [.choice 1 3, .fresh 2, .goto 5, .null 2, .lend 0, .test 2 6 8, .deref 0, .ret false, .none 1,
    .fresh 1, .choice 13 11, .lend 0, .goto 68, .deref 2, .use 2, .choice 17 16, .lend 0,
    .choice 20 18, .lend 0, .goto 68, .deref 2, .use 2, .choice 24 23, .lend 0, .choice 27 25,
    .lend 0, .goto 68, .deref 2, .use 2, .choice 31 30, .lend 0, .choice 34 32, .lend 0, .goto 68,
    .deref 2, .use 2, .choice 38 37, .lend 0, .choice 41 39, .lend 0, .goto 68, .deref 2, .use 2,
    .choice 45 44, .lend 0, .choice 48 46, .lend 0, .goto 68, .deref 2, .use 2, .choice 52 51,
    .lend 0, .choice 55 53, .lend 0, .goto 68, .deref 2, .use 2, .choice 59 58, .lend 0, .live 1,
    .kill 1, .null 1, .test 2 63 65, .deref 0, .ret false, .give 2, .none 0, .ret true, .live 1,
    .kill 1, .null 1, .deref 0, .ret false]⟩

/-- `pyfsapfs_container_init` (pyfsapfs/pyfsapfs_container.c:250-286).  Places: 0 `error`, 1
`exception`, 2 `pyfsapfs_container`, 3 `pyfsapfs_container->container`. -/
def pyfsapfs_container_init : Fn :=
  ⟨[loc, loc, loc, own 2],
   [.choice 1 2, .lend 2, .test 2 4 3, .maybe 3, .test 2 5 8, .lend 1, .deref 1, .ret false,
    .deref 2, .null 3, .deref 2, .deref 2, .choice 13 16, .test 3 14 26, .fresh 3, .goto 24,
    .test 0 17 18, .maybe 0, .use 0, .lend 1, .kill 0, .null 0, .deref 1, .ret false, .none 1,
    .ret true, .goto 26]⟩

/-- `pyfsapfs_container_free` (pyfsapfs/pyfsapfs_container.c:290-361).  Places: 0 `error`, 1
`exception`, 2 `pyfsapfs_container`, 3 `pyfsapfs_container->container`, 4
`pyfsapfs_container->file_io_handle`, 5 `result that is not kept`, 6 `threads allowed`, 7 `result`. -/
def pyfsapfs_container_free : Fn :=
  ⟨[loc, loc, loc, own 2, own 2, loc, loc, loc],
   [.maybe 2, .test 2 4 2, .maybe 3, .maybe 4, .setn 7 1, .test 2 6 9, .none 6, .lend 1, .ret true,
    .none 6, .deref 2, .use 2, .deref 2, .test 4 26 14, .none 6, .use 2, .choice 17 21, .fresh 5,
    .kill 4, .null 4, .goto 26, .lend 1, .kill 4, .null 4, .maybe 4, .ret true, .deref 2,
    .test 3 51 28, .none 6, .fresh 6, .deref 2, .kill 3, .null 3, .choice 34 36, .setn 7 2,
    .goto 39, .test 0 37 38, .maybe 0, .setn 7 0, .live 6, .kill 6, .null 6, .testn 7 0 46 43,
    .testn 7 1 46 44, .testn 7 2 51 45, .choice 46 51, .none 6, .use 0, .lend 1, .kill 0, .null 0,
    .kill 2, .null 3, .null 4, .ret true]⟩

/-- `pyfsapfs_container_signal_abort` (pyfsapfs/pyfsapfs_container.c:366-410).  Places: 0
`Py_None`, 1 `error`, 2 `exception`, 3 `pyfsapfs_container`, 4 `threads allowed`, 5 `result`. -/
def pyfsapfs_container_signal_abort : Fn :=
  ⟨[loc, loc, loc, loc, loc, loc],
   [.lend 0, .choice 2 3, .lend 3, .setn 5 1, .test 3 5 9, .none 4, .lend 2, .deref 2, .ret false,
    .none 4, .fresh 4, .deref 3, .choice 13 15, .setn 5 2, .goto 21, .choice 16 18, .setn 5 1,
    .goto 21, .test 1 19 20, .maybe 1, .setn 5 0, .live 4, .kill 4, .null 4, .testn 5 0 28 25,
    .testn 5 1 28 26, .testn 5 2 35 27, .choice 28 35, .none 4, .use 1, .lend 2, .kill 1, .null 1,
    .deref 2, .ret false, .none 4, .use 0, .test 0 39 38, .fresh 0, .test 0 40 42, .deref 2,
    .ret false, .give 0, .none 2, .ret true]⟩

/-- `pyfsapfs_container_open` (pyfsapfs/pyfsapfs_container.c:415-627).  Places: 0 `Py_None`, 1
`error`, 2 `exception`, 3 `filename_narrow`, 4 `mode`, 5 `pyfsapfs_container`, 6 `result that is
not kept`, 7 `string_object`, 8 `threads allowed`, 9 `utf8_string_object`, 10 `can be opened`, 11
`result`. -/
def pyfsapfs_container_open : Fn :=
  ⟨[loc, loc, loc, loc, loc, loc, loc, loc, loc, loc, loc, loc],
   [.lend 0, .choice 2 3, .lend 5, .setn 11 1, .test 5 5 9, .none 8, .lend 2, .deref 2, .ret false,
    .none 8, .choice 11 15, .lend 7, .choice 13 18, .lend 4, .goto 18, .lend 2, .deref 2,
    .ret false, .test 4 26 19, .deref 4, .choice 21 26, .none 8, .use 4, .lend 2, .deref 2,
    .ret false, .none 8, .null 2, .none 8, .deref 7, .use 7, .choice 32 34, .setn 11 2, .goto 39,
    .choice 35 37, .setn 11 1, .goto 39, .lend 2, .setn 11 0, .testn 11 0 43 40, .testn 11 1 47 41,
    .testn 11 2 47 42, .choice 43 47, .none 8, .lend 2, .deref 2, .ret false, .testn 11 0 51 48,
    .testn 11 1 115 49, .testn 11 2 51 50, .choice 51 115, .none 8, .null 2, .none 8, .deref 7,
    .use 7, .choice 57 59, .fresh 9, .goto 61, .null 9, .lend 2, .test 9 62 66, .none 8, .lend 2,
    .deref 2, .ret false, .none 8, .deref 9, .use 9, .lend 3, .none 8, .fresh 8, .deref 5, .use 3,
    .setn 10 1, .test 3 77 76, .setn 10 2, .choice 78 81, .testn 10 2 79 196, .setn 11 2, .goto 88,
    .choice 82 85, .testn 10 2 83 196, .setn 11 1, .goto 88, .test 1 86 87, .maybe 1, .setn 11 0,
    .live 8, .kill 8, .null 8, .none 8, .use 9, .kill 9, .testn 11 0 98 95, .testn 11 1 98 96,
    .testn 11 2 105 97, .choice 98 105, .none 8, .use 1, .lend 2, .kill 1, .null 1, .deref 2,
    .ret false, .none 8, .use 0, .test 0 109 108, .fresh 0, .test 0 110 112, .deref 2, .ret false,
    .give 0, .none 2, .ret true, .none 8, .null 2, .none 8, .deref 7, .use 7, .choice 121 123,
    .setn 11 2, .goto 128, .choice 124 126, .setn 11 1, .goto 128, .lend 2, .setn 11 0,
    .testn 11 0 132 129, .testn 11 1 136 130, .testn 11 2 136 131, .choice 132 136, .none 8,
    .lend 2, .deref 2, .ret false, .testn 11 0 140 137, .testn 11 1 192 138, .testn 11 2 140 139,
    .choice 140 192, .none 8, .null 2, .none 8, .deref 7, .use 7, .choice 146 148, .lend 3,
    .goto 150, .null 3, .lend 2, .none 8, .fresh 8, .deref 5, .use 3, .setn 10 1, .test 3 157 156,
    .setn 10 2, .choice 158 161, .testn 10 2 159 196, .setn 11 2, .goto 168, .choice 162 165,
    .testn 10 2 163 196, .setn 11 1, .goto 168, .test 1 166 167, .maybe 1, .setn 11 0, .live 8,
    .kill 8, .null 8, .testn 11 0 175 172, .testn 11 1 175 173, .testn 11 2 182 174,
    .choice 175 182, .none 8, .use 1, .lend 2, .kill 1, .null 1, .deref 2, .ret false, .none 8,
    .use 0, .test 0 186 185, .fresh 0, .test 0 187 189, .deref 2, .ret false, .give 0, .none 2,
    .ret true, .none 8, .lend 2, .deref 2, .ret false, .goto 196]⟩

/-- `pyfsapfs_container_open_file_object` (pyfsapfs/pyfsapfs_container.c:632-766).  Places: 0
`Py_None`, 1 `error`, 2 `exception`, 3 `file_object`, 4 `mode`, 5 `pyfsapfs_container`, 6
`pyfsapfs_container->file_io_handle`, 7 `threads allowed`, 8 `can be opened`, 9
`pyfsapfs_container->file_io_handle is set at the start`, 10 `pyfsapfs_container->members at the
start`, 11 `result`. -/
def pyfsapfs_container_open_file_object : Fn :=
  ⟨[loc, loc, loc, loc, loc, loc, own 5, loc, loc, part 5, part 5, loc],
   [.lend 0, .choice 2 3, .lend 5, .test 5 13 4, .choice 5 7, .setn 10 1, .goto 13, .setn 10 2,
    .maybe 6, .test 6 12 10, .setn 9 2, .goto 13, .setn 9 1, .setn 11 1, .test 5 15 24, .none 7,
    .lend 2, .deref 2, .testn 10 1 21 19, .testn 9 2 20 21, .live 6, .testn 10 1 22 23, .none 6,
    .ret false, .none 7, .choice 26 30, .lend 3, .choice 28 38, .lend 4, .goto 38, .lend 2,
    .deref 2, .testn 10 1 35 33, .testn 9 2 34 35, .live 6, .testn 10 1 36 37, .none 6, .ret false,
    .test 4 51 39, .deref 4, .choice 41 51, .none 7, .use 4, .lend 2, .deref 2, .testn 10 1 48 46,
    .testn 9 2 47 48, .live 6, .testn 10 1 49 50, .none 6, .ret false, .none 7, .null 2, .none 7,
    .deref 3, .use 3, .choice 57 59, .setn 11 2, .goto 60, .setn 11 1, .testn 11 0 64 61,
    .testn 11 1 64 62, .testn 11 2 73 63, .choice 64 73, .none 7, .lend 2, .deref 2,
    .testn 10 1 70 68, .testn 9 2 69 70, .live 6, .testn 10 1 71 72, .none 6, .ret false, .none 7,
    .null 2, .none 7, .deref 3, .use 3, .choice 79 81, .setn 11 2, .goto 82, .setn 11 1,
    .testn 11 0 86 83, .testn 11 1 86 84, .testn 11 2 95 85, .choice 86 95, .none 7, .lend 2,
    .deref 2, .testn 10 1 92 90, .testn 9 2 91 92, .live 6, .testn 10 1 93 94, .none 6, .ret false,
    .deref 5, .test 6 101 97, .none 7, .use 1, .lend 2, .goto 159, .deref 5, .none 7, .use 3,
    .deref 5, .use 3, .choice 107 110, .test 6 108 171, .fresh 6, .goto 118, .test 1 111 112,
    .maybe 1, .none 7, .use 1, .lend 2, .kill 1, .null 1, .goto 159, .none 7, .fresh 7, .deref 5,
    .use 6, .choice 123 125, .setn 11 2, .goto 131, .choice 126 128, .setn 11 1, .goto 131,
    .test 1 129 130, .maybe 1, .setn 11 0, .live 7, .kill 7, .null 7, .testn 11 0 138 135,
    .testn 11 1 138 136, .testn 11 2 144 137, .choice 138 144, .none 7, .use 1, .lend 2, .kill 1,
    .null 1, .goto 159, .none 7, .use 0, .test 0 148 147, .fresh 0, .test 0 149 156, .deref 2,
    .testn 10 1 153 151, .testn 9 2 152 153, .live 6, .testn 10 1 154 155, .none 6, .ret false,
    .give 0, .none 2, .ret true, .deref 5, .test 6 164 161, .deref 5, .kill 6, .null 6, .deref 2,
    .testn 10 1 168 166, .testn 9 2 167 168, .live 6, .testn 10 1 169 170, .none 6, .ret false,
    .goto 171]⟩

/-- `pyfsapfs_container_close` (pyfsapfs/pyfsapfs_container.c:771-839).  Places: 0 `Py_None`, 1
`error`, 2 `exception`, 3 `pyfsapfs_container`, 4 `pyfsapfs_container->file_io_handle`, 5 `threads
allowed`, 6 `result`. -/
def pyfsapfs_container_close : Fn :=
  ⟨[loc, loc, loc, loc, own 3, loc, loc],
   [.lend 0, .choice 2 3, .lend 3, .test 3 5 4, .maybe 4, .setn 6 1, .test 3 7 11, .none 5, .lend 2,
    .deref 2, .ret false, .none 5, .fresh 5, .deref 3, .choice 15 17, .setn 6 2, .goto 23,
    .choice 18 20, .setn 6 1, .goto 23, .test 1 21 22, .maybe 1, .setn 6 0, .live 5, .kill 5,
    .null 5, .testn 6 0 30 27, .testn 6 1 37 28, .testn 6 2 30 29, .choice 30 37, .none 5, .use 1,
    .lend 2, .kill 1, .null 1, .deref 2, .ret false, .deref 3, .test 4 64 39, .none 5, .fresh 5,
    .deref 3, .kill 4, .null 4, .choice 45 47, .setn 6 2, .goto 50, .test 1 48 49, .maybe 1,
    .setn 6 0, .live 5, .kill 5, .null 5, .testn 6 0 57 54, .testn 6 1 57 55, .testn 6 2 64 56,
    .choice 57 64, .none 5, .use 1, .lend 2, .kill 1, .null 1, .deref 2, .ret false, .none 5,
    .use 0, .test 0 68 67, .fresh 0, .test 0 69 71, .deref 2, .ret false, .give 0, .none 4, .none 2,
    .ret true]⟩

/-- `pyfsapfs_container_is_locked` (pyfsapfs/pyfsapfs_container.c:844-895).  Places: 0 `Py_False`,
1 `Py_True`, 2 `error`, 3 `exception`, 4 `pyfsapfs_container`, 5 `threads allowed`, 6 `result`. -/
def pyfsapfs_container_is_locked : Fn :=
  ⟨[loc, loc, loc, loc, loc, loc, loc],
   [.lend 1, .lend 0, .choice 3 4, .lend 4, .setn 6 1, .test 4 6 10, .none 5, .lend 3, .deref 3,
    .ret false, .none 5, .fresh 5, .deref 4, .choice 14 16, .setn 6 2, .goto 22, .choice 17 19,
    .setn 6 1, .goto 22, .test 2 20 21, .maybe 2, .setn 6 0, .live 5, .kill 5, .null 5,
    .testn 6 0 29 26, .testn 6 1 36 27, .testn 6 2 36 28, .choice 29 36, .none 5, .use 2, .lend 3,
    .kill 2, .null 2, .deref 3, .ret false, .testn 6 0 40 37, .testn 6 1 50 38, .testn 6 2 40 39,
    .choice 40 50, .none 5, .use 1, .test 1 44 43, .fresh 1, .test 1 45 47, .deref 3, .ret false,
    .give 1, .none 3, .ret true, .none 5, .use 0, .test 0 54 53, .fresh 0, .test 0 55 57, .deref 3,
    .ret false, .give 0, .none 3, .ret true]⟩

/-- `pyfsapfs_container_get_size` (pyfsapfs/pyfsapfs_container.c:900-947).  Places: 0 `error`, 1
`exception`, 2 `integer_object`, 3 `pyfsapfs_container`, 4 `result that is not kept`, 5 `threads
allowed`, 6 `result`. -/
def pyfsapfs_container_get_size : Fn :=
  ⟨[loc, loc, loc, loc, loc, loc, loc],
   [.choice 1 2, .lend 3, .setn 6 1, .test 3 4 8, .none 5, .lend 1, .deref 1, .ret false, .none 5,
    .fresh 5, .deref 3, .choice 12 14, .setn 6 2, .goto 20, .choice 15 17, .setn 6 1, .goto 20,
    .test 0 18 19, .maybe 0, .setn 6 0, .live 5, .kill 5, .null 5, .testn 6 0 27 24,
    .testn 6 1 27 25, .testn 6 2 34 26, .choice 27 34, .none 5, .use 0, .lend 1, .kill 0, .null 0,
    .deref 1, .ret false, .none 5, .choice 36 38, .fresh 2, .goto 40, .null 2, .lend 1,
    .test 2 41 43, .deref 1, .ret false, .give 2, .none 1, .ret true]⟩

/-- `pyfsapfs_container_get_identifier` (pyfsapfs/pyfsapfs_container.c:952-1011).  Places: 0
`error`, 1 `exception`, 2 `pyfsapfs_container`, 3 `result that is not kept`, 4 `string_object`, 5
`threads allowed`, 6 `result`. -/
def pyfsapfs_container_get_identifier : Fn :=
  ⟨[loc, loc, loc, loc, loc, loc, loc],
   [.choice 1 2, .lend 2, .setn 6 1, .test 2 4 8, .none 5, .lend 1, .deref 1, .ret false, .none 5,
    .fresh 5, .deref 2, .choice 12 14, .setn 6 2, .goto 20, .choice 15 17, .setn 6 1, .goto 20,
    .test 0 18 19, .maybe 0, .setn 6 0, .live 5, .kill 5, .null 5, .testn 6 0 27 24,
    .testn 6 1 27 25, .testn 6 2 34 26, .choice 27 34, .none 5, .use 0, .lend 1, .kill 0, .null 0,
    .deref 1, .ret false, .none 5, .choice 36 38, .fresh 4, .goto 40, .null 4, .lend 1,
    .test 4 41 45, .none 5, .lend 1, .deref 1, .ret false, .test 4 46 48, .deref 1, .ret false,
    .give 4, .none 1, .ret true]⟩

/-- `pyfsapfs_container_get_number_of_volumes` (pyfsapfs/pyfsapfs_container.c:1016-1067).  Places:
0 `error`, 1 `exception`, 2 `integer_object`, 3 `pyfsapfs_container`, 4 `result that is not kept`,
5 `threads allowed`, 6 `result`. -/
def pyfsapfs_container_get_number_of_volumes : Fn :=
  ⟨[loc, loc, loc, loc, loc, loc, loc],
   [.choice 1 2, .lend 3, .setn 6 1, .test 3 4 8, .none 5, .lend 1, .deref 1, .ret false, .none 5,
    .fresh 5, .deref 3, .choice 12 14, .setn 6 2, .goto 20, .choice 15 17, .setn 6 1, .goto 20,
    .test 0 18 19, .maybe 0, .setn 6 0, .live 5, .kill 5, .null 5, .testn 6 0 27 24,
    .testn 6 1 27 25, .testn 6 2 34 26, .choice 27 34, .none 5, .use 0, .lend 1, .kill 0, .null 0,
    .deref 1, .ret false, .none 5, .choice 36 38, .fresh 2, .goto 40, .null 2, .lend 1,
    .test 2 41 43, .deref 1, .ret false, .give 2, .none 1, .ret true]⟩

/-- `pyfsapfs_container_get_volume_by_index` (pyfsapfs/pyfsapfs_container.c:1072-1138).  Places: 0
`error`, 1 `exception`, 2 `pyfsapfs_container`, 3 `result that is not kept`, 4 `threads allowed`, 5
`volume`, 6 `volume_object`, 7 `result`. -/
def pyfsapfs_container_get_volume_by_index : Fn :=
  ⟨[loc, loc, loc, loc, loc, loc, loc, loc],
   [.choice 1 2, .lend 2, .setn 7 1, .test 2 4 8, .none 4, .lend 1, .deref 1, .ret false, .none 4,
    .fresh 4, .deref 2, .choice 12 16, .test 5 13 56, .fresh 5, .setn 7 2, .goto 19, .test 0 17 18,
    .maybe 0, .setn 7 0, .live 4, .kill 4, .null 4, .testn 7 0 26 23, .testn 7 1 26 24,
    .testn 7 2 32 25, .choice 26 32, .none 4, .use 0, .lend 1, .kill 0, .null 0, .goto 51, .none 4,
    .use 5, .use 2, .choice 36 39, .fresh 6, .give 5, .goto 41, .null 6, .lend 1, .test 6 42 45,
    .none 4, .lend 1, .goto 51, .test 6 46 48, .deref 1, .ret false, .give 6, .none 1, .ret true,
    .test 5 54 52, .kill 5, .null 5, .deref 1, .ret false, .goto 56]⟩

/-- `pyfsapfs_container_get_volume` (pyfsapfs/pyfsapfs_container.c:1143-1166).  Places: 0
`exception`, 1 `result that is not kept`, 2 `volume_object`. -/
def pyfsapfs_container_get_volume : Fn :=
  ⟨[loc, loc, loc],
   [.choice 4 1, .lend 0, .deref 0, .ret false, .choice 5 7, .fresh 2, .goto 9, .null 2, .lend 0,
    .test 2 10 12, .deref 0, .ret false, .give 2, .none 0, .ret true]⟩

/-- `pyfsapfs_container_get_volumes` (pyfsapfs/pyfsapfs_container.c:1171-1230).  Places: 0 `error`,
1 `exception`, 2 `pyfsapfs_container`, 3 `result that is not kept`, 4 `sequence_object`, 5 `threads
allowed`, 6 `result`. -/
def pyfsapfs_container_get_volumes : Fn :=
  ⟨[loc, loc, loc, loc, loc, loc, loc],
   [.choice 1 2, .lend 2, .setn 6 1, .test 2 4 8, .none 5, .lend 1, .deref 1, .ret false, .none 5,
    .fresh 5, .deref 2, .choice 12 14, .setn 6 2, .goto 20, .choice 15 17, .setn 6 1, .goto 20,
    .test 0 18 19, .maybe 0, .setn 6 0, .live 5, .kill 5, .null 5, .testn 6 0 27 24,
    .testn 6 1 27 25, .testn 6 2 34 26, .choice 27 34, .none 5, .use 0, .lend 1, .kill 0, .null 0,
    .deref 1, .ret false, .none 5, .use 2, .choice 37 39, .fresh 4, .goto 41, .null 4, .lend 1,
    .test 4 42 47, .none 5, .use 0, .lend 1, .deref 1, .ret false, .test 4 48 50, .deref 1,
    .ret false, .give 4, .none 1, .ret true]⟩

/-- `pyfsapfs_datetime_new_from_time_elements` (pyfsapfs/pyfsapfs_datetime.c:34-169).  Places: 0
`datetime_object`, 1 `exception`, 2 `result that is not kept`. -/
def pyfsapfs_datetime_new_from_time_elements : Fn :=
  ⟨[loc, loc, loc],
   [.choice 1 2, .choice 2 0, .choice 3 4, .choice 4 2, .choice 5 21, .choice 20 6, .choice 20 7,
    .choice 20 8, .choice 20 9, .choice 20 10, .choice 20 11, .choice 20 12, .choice 20 13,
    .choice 20 14, .choice 20 15, .choice 20 16, .choice 20 17, .lend 1, .deref 1, .ret false,
    .choice 21 4, .choice 22 24, .fresh 0, .goto 26, .null 0, .lend 1, .test 0 27 29, .deref 1,
    .ret false, .give 0, .none 1, .ret true]⟩

/-- `pyfsapfs_datetime_new_from_fat_date_time` (pyfsapfs/pyfsapfs_datetime.c:174-286).  Places: 0
`datetime_object`, 1 `exception`, 2 `result that is not kept`. -/
def pyfsapfs_datetime_new_from_fat_date_time : Fn :=
  ⟨[loc, loc, loc],
   [.choice 15 1, .choice 15 2, .choice 15 3, .choice 15 4, .choice 15 5, .choice 15 6,
    .choice 15 7, .choice 15 8, .choice 15 9, .choice 15 10, .choice 15 11, .choice 15 12, .lend 1,
    .deref 1, .ret false, .choice 17 16, .choice 17 20, .lend 1, .deref 1, .ret false,
    .choice 21 23, .fresh 0, .goto 25, .null 0, .lend 1, .test 0 26 28, .deref 1, .ret false,
    .give 0, .none 1, .ret true]⟩

/-- `pyfsapfs_datetime_new_from_filetime` (pyfsapfs/pyfsapfs_datetime.c:291-345).  Places: 0
`datetime_object`, 1 `exception`, 2 `result that is not kept`. -/
def pyfsapfs_datetime_new_from_filetime : Fn :=
  ⟨[loc, loc, loc],
   [.choice 1 3, .fresh 0, .goto 5, .null 0, .lend 1, .test 0 6 8, .deref 1, .ret false, .give 0,
    .none 1, .ret true]⟩

/-- `pyfsapfs_datetime_new_from_floatingtime` (pyfsapfs/pyfsapfs_datetime.c:350-525).  Places: 0
`datetime_object`, 1 `exception`, 2 `result that is not kept`. -/
def pyfsapfs_datetime_new_from_floatingtime : Fn :=
  ⟨[loc, loc, loc],
   [.choice 1 2, .choice 2 0, .choice 3 4, .choice 4 2, .choice 5 21, .choice 20 6, .choice 20 7,
    .choice 20 8, .choice 20 9, .choice 20 10, .choice 20 11, .choice 20 12, .choice 20 13,
    .choice 20 14, .choice 20 15, .choice 20 16, .choice 20 17, .lend 1, .deref 1, .ret false,
    .choice 21 4, .choice 22 24, .fresh 0, .goto 26, .null 0, .lend 1, .test 0 27 29, .deref 1,
    .ret false, .give 0, .none 1, .ret true]⟩

/-- `pyfsapfs_datetime_new_from_hfs_time` (pyfsapfs/pyfsapfs_datetime.c:530-578).  Places: 0
`datetime_object`, 1 `exception`, 2 `result that is not kept`. -/
def pyfsapfs_datetime_new_from_hfs_time : Fn :=
  ⟨[loc, loc, loc],
   [.choice 1 3, .fresh 0, .goto 5, .null 0, .lend 1, .test 0 6 8, .deref 1, .ret false, .give 0,
    .none 1, .ret true]⟩

/-- `pyfsapfs_datetime_new_from_posix_time` (pyfsapfs/pyfsapfs_datetime.c:583-631).  Places: 0
`datetime_object`, 1 `exception`, 2 `result that is not kept`. -/
def pyfsapfs_datetime_new_from_posix_time : Fn :=
  ⟨[loc, loc, loc],
   [.choice 1 3, .fresh 0, .goto 5, .null 0, .lend 1, .test 0 6 8, .deref 1, .ret false, .give 0,
    .none 1, .ret true]⟩

/-- `pyfsapfs_datetime_new_from_posix_time_in_micro_seconds`
(pyfsapfs/pyfsapfs_datetime.c:636-690).  Places: 0 `datetime_object`, 1 `exception`, 2 `result that
is not kept`. -/
def pyfsapfs_datetime_new_from_posix_time_in_micro_seconds : Fn :=
  ⟨[loc, loc, loc],
   [.choice 1 3, .fresh 0, .goto 5, .null 0, .lend 1, .test 0 6 8, .deref 1, .ret false, .give 0,
    .none 1, .ret true]⟩

/-- `pyfsapfs_error_fetch` (pyfsapfs/pyfsapfs_error.c:59-175).  Places: 0 `exception`, 1
`exception_string`, 2 `exception_traceback`, 3 `exception_type`, 4 `exception_value`, 5 `result
that is not kept`, 6 `string_object`, 7 `utf8_string_object`, 8 `print_count`. -/
def pyfsapfs_error_fetch : Fn :=
  ⟨[loc, loc, loc, loc, loc, loc, loc, loc, loc],
   [.setn 8 1, .choice 2 5, .lend 0, .none 0, .ret true, .testn 8 0 9 6, .testn 8 1 12 7,
    .testn 8 2 12 8, .choice 9 12, .lend 0, .none 0, .ret true, .null 0, .maybe 3, .maybe 4,
    .maybe 2, .use 4, .choice 18 20, .fresh 6, .goto 22, .null 6, .lend 0, .deref 6, .use 6,
    .choice 25 27, .fresh 7, .goto 29, .null 7, .lend 0, .test 7 33 30, .deref 7, .use 7, .lend 1,
    .test 1 35 34, .use 1, .test 7 38 36, .use 7, .kill 7, .use 6, .kill 6, .none 0, .ret true]⟩

/-- `pyfsapfs_error_fetch_and_raise` (pyfsapfs/pyfsapfs_error.c:201-304).  Places: 0 `exception`, 1
`exception_string`, 2 `exception_traceback`, 3 `exception_type`, 4 `exception_value`, 5 `result
that is not kept`, 6 `string_object`, 7 `utf8_string_object`, 8 `print_count`. -/
def pyfsapfs_error_fetch_and_raise : Fn :=
  ⟨[loc, loc, loc, loc, loc, loc, loc, loc, loc],
   [.setn 8 1, .choice 2 5, .lend 0, .deref 0, .ret true, .testn 8 0 9 6, .testn 8 1 12 7,
    .testn 8 2 12 8, .choice 9 12, .lend 0, .deref 0, .ret true, .null 0, .maybe 3, .maybe 4,
    .maybe 2, .use 4, .choice 18 20, .fresh 6, .goto 22, .null 6, .lend 0, .deref 6, .use 6,
    .choice 25 27, .fresh 7, .goto 29, .null 7, .lend 0, .test 7 33 30, .deref 7, .use 7, .lend 1,
    .test 1 37 34, .use 1, .lend 0, .goto 38, .lend 0, .use 6, .kill 6, .deref 0, .ret true]⟩

/-- `pyfsapfs_error_raise` (pyfsapfs/pyfsapfs_error.c:330-417).  Places: 0 `exception`, 1
`print_count`. -/
def pyfsapfs_error_raise : Fn :=
  ⟨[loc, loc],
   [.setn 1 1, .choice 2 5, .lend 0, .deref 0, .ret true, .testn 1 0 9 6, .testn 1 1 12 7,
    .testn 1 2 12 8, .choice 9 12, .lend 0, .deref 0, .ret true, .choice 13 19, .choice 14 19,
    .choice 15 16, .choice 16 14, .lend 0, .deref 0, .ret true, .lend 0, .deref 0, .ret true]⟩

/-- `pyfsapfs_extended_attribute_new` (pyfsapfs/pyfsapfs_extended_attribute.c:256-304).  Places: 0
`exception`, 1 `extended_attribute`, 2 `parent_object`, 3 `pyfsapfs_extended_attribute`, 4
`pyfsapfs_extended_attribute->extended_attribute`, 5 `pyfsapfs_extended_attribute->parent_object`,
6 `result that is not kept`. -/
def pyfsapfs_extended_attribute_new : Fn :=
  ⟨[loc, loc, loc, loc, own 3, own 3, loc],
   [.maybe 1, .choice 2 3, .lend 2, .test 1 4 9, .lend 0, .deref 0, .held 1, .forget 1, .ret false,
    .forget 5, .null 5, .forget 4, .null 4, .choice 14 20, .fresh 3, .fresh 4, .kill 4, .fresh 5,
    .kill 5, .goto 22, .null 3, .lend 0, .test 3 23 25, .lend 0, .goto 45, .deref 3, .copy 4 1,
    .deref 3, .copy 5 2, .deref 3, .test 5 35 31, .deref 3, .use 5, .test 5 35 34, .fresh 5,
    .test 3 36 40, .deref 0, .held 1, .forget 1, .ret false, .give 3, .live 4, .held 5, .none 0,
    .ret true, .test 3 52 46, .use 3, .kill 3, .kill 4, .kill 5, .null 4, .null 5, .deref 0,
    .held 1, .forget 1, .ret false]⟩

/-- `pyfsapfs_extended_attribute_init` (pyfsapfs/pyfsapfs_extended_attribute.c:309-333).  Places: 0
`exception`, 1 `pyfsapfs_extended_attribute`. -/
def pyfsapfs_extended_attribute_init : Fn :=
  ⟨[loc, loc],
   [.choice 1 2, .lend 1, .test 1 3 6, .lend 0, .deref 0, .ret false, .deref 1, .lend 0, .deref 0,
    .ret false]⟩

/-- `pyfsapfs_extended_attribute_free` (pyfsapfs/pyfsapfs_extended_attribute.c:337-404).  Places: 0
`error`, 1 `exception`, 2 `pyfsapfs_extended_attribute`, 3
`pyfsapfs_extended_attribute->extended_attribute`, 4 `pyfsapfs_extended_attribute->parent_object`,
5 `threads allowed`, 6 `result`. -/
def pyfsapfs_extended_attribute_free : Fn :=
  ⟨[loc, loc, loc, own 2, own 2, loc, loc],
   [.maybe 2, .test 2 4 2, .maybe 3, .maybe 4, .setn 6 1, .test 2 6 9, .none 5, .lend 1, .ret true,
    .none 5, .deref 2, .use 2, .deref 2, .test 3 37 14, .none 5, .fresh 5, .deref 2, .kill 3,
    .null 3, .choice 20 22, .setn 6 2, .goto 25, .test 0 23 24, .maybe 0, .setn 6 0, .live 5,
    .kill 5, .null 5, .testn 6 0 32 29, .testn 6 1 32 30, .testn 6 2 37 31, .choice 32 37, .none 5,
    .use 0, .lend 1, .kill 0, .null 0, .deref 2, .test 4 43 39, .deref 2, .none 5, .use 4, .kill 4,
    .kill 2, .null 3, .null 4, .ret true]⟩

/-- `pyfsapfs_extended_attribute_get_identifier` (pyfsapfs/pyfsapfs_extended_attribute.c:409-456).
Places: 0 `error`, 1 `exception`, 2 `integer_object`, 3 `pyfsapfs_extended_attribute`, 4 `result
that is not kept`, 5 `threads allowed`, 6 `result`. -/
def pyfsapfs_extended_attribute_get_identifier : Fn :=
  ⟨[loc, loc, loc, loc, loc, loc, loc],
   [.choice 1 2, .lend 3, .setn 6 1, .test 3 4 8, .none 5, .lend 1, .deref 1, .ret false, .none 5,
    .fresh 5, .deref 3, .choice 12 14, .setn 6 2, .goto 20, .choice 15 17, .setn 6 1, .goto 20,
    .test 0 18 19, .maybe 0, .setn 6 0, .live 5, .kill 5, .null 5, .testn 6 0 27 24,
    .testn 6 1 27 25, .testn 6 2 34 26, .choice 27 34, .none 5, .use 0, .lend 1, .kill 0, .null 0,
    .deref 1, .ret false, .none 5, .choice 36 38, .fresh 2, .goto 40, .null 2, .lend 1,
    .test 2 41 43, .deref 1, .ret false, .give 2, .none 1, .ret true]⟩

/-- `pyfsapfs_extended_attribute_get_name` (pyfsapfs/pyfsapfs_extended_attribute.c:461-577).
Places: 0 `Py_None`, 1 `error`, 2 `exception`, 3 `pyfsapfs_extended_attribute`, 4 `result that is
not kept`, 5 `string_object`, 6 `threads allowed`, 7 `utf8_string`, 8 `result`. -/
def pyfsapfs_extended_attribute_get_name : Fn :=
  ⟨[loc, loc, loc, loc, loc, loc, loc, loc, loc],
   [.lend 0, .choice 2 3, .lend 3, .setn 8 1, .test 3 5 9, .none 6, .lend 2, .deref 2, .ret false,
    .none 6, .fresh 6, .deref 3, .choice 13 15, .setn 8 2, .goto 21, .choice 16 18, .setn 8 1,
    .goto 21, .test 1 19 20, .maybe 1, .setn 8 0, .live 6, .kill 6, .null 6, .testn 8 0 28 25,
    .testn 8 1 34 26, .testn 8 2 34 27, .choice 28 34, .none 6, .use 1, .lend 2, .kill 1, .null 1,
    .goto 102, .testn 8 0 38 35, .testn 8 1 39 36, .testn 8 2 38 37, .choice 39 38, .choice 39 49,
    .none 6, .use 0, .test 0 43 42, .fresh 0, .test 0 44 46, .deref 2, .ret false, .give 0, .none 2,
    .ret true, .choice 50 52, .fresh 7, .goto 53, .null 7, .test 7 54 57, .none 6, .lend 2,
    .goto 102, .none 6, .fresh 6, .deref 3, .use 7, .choice 62 64, .setn 8 2, .goto 70,
    .choice 65 67, .setn 8 1, .goto 70, .test 1 68 69, .maybe 1, .setn 8 0, .live 6, .kill 6,
    .null 6, .testn 8 0 77 74, .testn 8 1 77 75, .testn 8 2 83 76, .choice 77 83, .none 6, .use 1,
    .lend 2, .kill 1, .null 1, .goto 102, .none 6, .use 7, .choice 86 88, .fresh 5, .goto 90,
    .null 5, .lend 2, .test 5 91 94, .none 6, .lend 2, .goto 102, .none 6, .kill 7, .test 5 97 99,
    .deref 2, .ret false, .give 5, .none 2, .ret true, .test 7 105 103, .none 6, .kill 7, .deref 2,
    .ret false]⟩

/-- `pyfsapfs_extended_attribute_read_buffer` (pyfsapfs/pyfsapfs_extended_attribute.c:582-802).
Places: 0 `buffer`, 1 `error`, 2 `exception`, 3 `integer_object`, 4 `pyfsapfs_extended_attribute`,
5 `result that is not kept`, 6 `string_object`, 7 `threads allowed`, 8 `read_count`, 9 `result`. -/
def pyfsapfs_extended_attribute_read_buffer : Fn :=
  ⟨[loc, loc, loc, loc, loc, loc, loc, loc, loc, loc],
   [.choice 1 2, .lend 4, .setn 8 1, .setn 9 1, .test 4 5 9, .none 7, .lend 2, .deref 2, .ret false,
    .none 7, .choice 11 14, .choice 12 17, .lend 3, .goto 17, .lend 2, .deref 2, .ret false,
    .test 3 18 20, .setn 9 1, .goto 39, .none 7, .deref 3, .use 3, .choice 24 26, .setn 9 2,
    .goto 31, .choice 27 29, .setn 9 1, .goto 31, .lend 2, .setn 9 0, .testn 9 0 35 32,
    .testn 9 1 39 33, .testn 9 2 39 34, .choice 35 39, .none 7, .lend 2, .deref 2, .ret false,
    .testn 9 0 43 40, .testn 9 1 57 41, .testn 9 2 43 42, .choice 43 57, .none 7, .use 3, .use 3,
    .choice 89 47, .choice 50 48, .test 1 49 50, .maybe 1, .none 7, .use 1, .lend 2, .kill 1,
    .null 1, .deref 2, .ret false, .test 3 59 58, .choice 59 85, .none 7, .fresh 7, .deref 4,
    .choice 63 65, .setn 9 2, .goto 71, .choice 66 68, .setn 9 1, .goto 71, .test 1 69 70, .maybe 1,
    .setn 9 0, .live 7, .kill 7, .null 7, .testn 9 0 78 75, .testn 9 1 78 76, .testn 9 2 89 77,
    .choice 78 89, .none 7, .use 1, .lend 2, .kill 1, .null 1, .deref 2, .ret false, .none 7,
    .lend 2, .deref 2, .ret false, .choice 90 102, .none 7, .choice 92 94, .fresh 6, .goto 96,
    .null 6, .lend 2, .test 6 97 99, .deref 2, .ret false, .give 6, .none 2, .ret true,
    .choice 103 107, .none 7, .lend 2, .deref 2, .ret false, .choice 109 108, .choice 109 113,
    .none 7, .lend 2, .deref 2, .ret false, .none 7, .choice 115 117, .fresh 6, .goto 119, .null 6,
    .lend 2, .none 7, .deref 6, .use 6, .lend 0, .none 7, .fresh 7, .deref 4, .use 0,
    .choice 128 130, .setn 8 2, .goto 136, .choice 131 133, .setn 8 1, .goto 136, .test 1 134 135,
    .maybe 1, .setn 8 0, .live 7, .kill 7, .null 7, .testn 8 0 143 140, .testn 8 1 153 141,
    .testn 8 2 153 142, .choice 143 153, .none 7, .use 1, .lend 2, .kill 1, .null 1, .none 7,
    .use 6, .kill 6, .deref 2, .ret false, .none 7, .deref 6, .choice 164 156, .kill 6, .null 6,
    .lend 2, .none 7, .use 6, .kill 6, .deref 2, .ret false, .test 6 165 167, .deref 2, .ret false,
    .give 6, .none 2, .ret true]⟩

/-- `pyfsapfs_extended_attribute_read_buffer_at_offset`
(pyfsapfs/pyfsapfs_extended_attribute.c:807-1006).  Places: 0 `buffer`, 1 `error`, 2 `exception`, 3
`integer_object`, 4 `pyfsapfs_extended_attribute`, 5 `result that is not kept`, 6 `string_object`,
7 `threads allowed`, 8 `read_count`, 9 `result`. -/
def pyfsapfs_extended_attribute_read_buffer_at_offset : Fn :=
  ⟨[loc, loc, loc, loc, loc, loc, loc, loc, loc, loc],
   [.choice 1 2, .lend 4, .setn 8 1, .setn 9 1, .test 4 5 9, .none 7, .lend 2, .deref 2, .ret false,
    .none 7, .choice 11 13, .lend 3, .goto 16, .lend 2, .deref 2, .ret false, .none 7, .deref 3,
    .use 3, .choice 20 22, .setn 9 2, .goto 27, .choice 23 25, .setn 9 1, .goto 27, .lend 2,
    .setn 9 0, .testn 9 0 31 28, .testn 9 1 35 29, .testn 9 2 35 30, .choice 31 35, .none 7,
    .lend 2, .deref 2, .ret false, .testn 9 0 39 36, .testn 9 1 53 37, .testn 9 2 39 38,
    .choice 39 53, .none 7, .use 3, .use 3, .choice 57 43, .choice 46 44, .test 1 45 46, .maybe 1,
    .none 7, .use 1, .lend 2, .kill 1, .null 1, .deref 2, .ret false, .none 7, .lend 2, .deref 2,
    .ret false, .choice 58 70, .none 7, .choice 60 62, .fresh 6, .goto 64, .null 6, .lend 2,
    .test 6 65 67, .deref 2, .ret false, .give 6, .none 2, .ret true, .choice 71 75, .none 7,
    .lend 2, .deref 2, .ret false, .choice 77 76, .choice 77 81, .none 7, .lend 2, .deref 2,
    .ret false, .choice 82 86, .none 7, .lend 2, .deref 2, .ret false, .none 7, .choice 88 90,
    .fresh 6, .goto 92, .null 6, .lend 2, .none 7, .deref 6, .use 6, .lend 0, .none 7, .fresh 7,
    .deref 4, .use 0, .choice 101 103, .setn 8 2, .goto 109, .choice 104 106, .setn 8 1, .goto 109,
    .test 1 107 108, .maybe 1, .setn 8 0, .live 7, .kill 7, .null 7, .testn 8 0 116 113,
    .testn 8 1 126 114, .testn 8 2 126 115, .choice 116 126, .none 7, .use 1, .lend 2, .kill 1,
    .null 1, .none 7, .use 6, .kill 6, .deref 2, .ret false, .none 7, .deref 6, .choice 137 129,
    .kill 6, .null 6, .lend 2, .none 7, .use 6, .kill 6, .deref 2, .ret false, .test 6 138 140,
    .deref 2, .ret false, .give 6, .none 2, .ret true]⟩

/-- `pyfsapfs_extended_attribute_seek_offset` (pyfsapfs/pyfsapfs_extended_attribute.c:1011-1068).
Places: 0 `Py_None`, 1 `error`, 2 `exception`, 3 `pyfsapfs_extended_attribute`, 4 `threads
allowed`, 5 `offset`. -/
def pyfsapfs_extended_attribute_seek_offset : Fn :=
  ⟨[loc, loc, loc, loc, loc, loc],
   [.lend 0, .choice 2 3, .lend 3, .setn 5 1, .test 3 5 9, .none 4, .lend 2, .deref 2, .ret false,
    .none 4, .choice 14 11, .lend 2, .deref 2, .ret false, .none 4, .fresh 4, .deref 3,
    .choice 18 20, .setn 5 2, .goto 26, .choice 21 23, .setn 5 1, .goto 26, .test 1 24 25, .maybe 1,
    .setn 5 0, .live 4, .kill 4, .null 4, .testn 5 0 33 30, .testn 5 1 40 31, .testn 5 2 40 32,
    .choice 33 40, .none 4, .use 1, .lend 2, .kill 1, .null 1, .deref 2, .ret false, .none 4,
    .use 0, .test 0 44 43, .fresh 0, .test 0 45 47, .deref 2, .ret false, .give 0, .none 2,
    .ret true]⟩

/-- `pyfsapfs_extended_attribute_get_offset` (pyfsapfs/pyfsapfs_extended_attribute.c:1073-1127).
Places: 0 `Py_None`, 1 `error`, 2 `exception`, 3 `integer_object`, 4 `pyfsapfs_extended_attribute`,
5 `result that is not kept`, 6 `threads allowed`, 7 `result`. -/
def pyfsapfs_extended_attribute_get_offset : Fn :=
  ⟨[loc, loc, loc, loc, loc, loc, loc, loc],
   [.lend 0, .choice 2 3, .lend 4, .setn 7 1, .test 4 5 9, .none 6, .lend 2, .deref 2, .ret false,
    .none 6, .fresh 6, .deref 4, .choice 13 15, .setn 7 2, .goto 21, .choice 16 18, .setn 7 1,
    .goto 21, .test 1 19 20, .maybe 1, .setn 7 0, .live 6, .kill 6, .null 6, .testn 7 0 28 25,
    .testn 7 1 35 26, .testn 7 2 35 27, .choice 28 35, .none 6, .use 1, .lend 2, .kill 1, .null 1,
    .deref 2, .ret false, .testn 7 0 49 36, .testn 7 1 39 37, .testn 7 2 49 38, .choice 39 49,
    .none 6, .use 0, .test 0 43 42, .fresh 0, .test 0 44 46, .deref 2, .ret false, .give 0, .none 2,
    .ret true, .none 6, .choice 51 53, .fresh 3, .goto 55, .null 3, .lend 2, .test 3 56 58,
    .deref 2, .ret false, .give 3, .none 2, .ret true]⟩

/-- `pyfsapfs_extended_attribute_get_size` (pyfsapfs/pyfsapfs_extended_attribute.c:1132-1179).
Places: 0 `error`, 1 `exception`, 2 `integer_object`, 3 `pyfsapfs_extended_attribute`, 4 `result
that is not kept`, 5 `threads allowed`, 6 `result`. -/
def pyfsapfs_extended_attribute_get_size : Fn :=
  ⟨[loc, loc, loc, loc, loc, loc, loc],
   [.choice 1 2, .lend 3, .setn 6 1, .test 3 4 8, .none 5, .lend 1, .deref 1, .ret false, .none 5,
    .fresh 5, .deref 3, .choice 12 14, .setn 6 2, .goto 20, .choice 15 17, .setn 6 1, .goto 20,
    .test 0 18 19, .maybe 0, .setn 6 0, .live 5, .kill 5, .null 5, .testn 6 0 27 24,
    .testn 6 1 27 25, .testn 6 2 34 26, .choice 27 34, .none 5, .use 0, .lend 1, .kill 0, .null 0,
    .deref 1, .ret false, .none 5, .choice 36 38, .fresh 2, .goto 40, .null 2, .lend 1,
    .test 2 41 43, .deref 1, .ret false, .give 2, .none 1, .ret true]⟩

/-- `pyfsapfs_extended_attribute_get_number_of_extents`
(pyfsapfs/pyfsapfs_extended_attribute.c:1184-1235).  Places: 0 `error`, 1 `exception`, 2
`integer_object`, 3 `pyfsapfs_extended_attribute`, 4 `result that is not kept`, 5 `threads
allowed`, 6 `result`. -/
def pyfsapfs_extended_attribute_get_number_of_extents : Fn :=
  ⟨[loc, loc, loc, loc, loc, loc, loc],
   [.choice 1 2, .lend 3, .setn 6 1, .test 3 4 8, .none 5, .lend 1, .deref 1, .ret false, .none 5,
    .fresh 5, .deref 3, .choice 12 14, .setn 6 2, .goto 20, .choice 15 17, .setn 6 1, .goto 20,
    .test 0 18 19, .maybe 0, .setn 6 0, .live 5, .kill 5, .null 5, .testn 6 0 27 24,
    .testn 6 1 27 25, .testn 6 2 34 26, .choice 27 34, .none 5, .use 0, .lend 1, .kill 0, .null 0,
    .deref 1, .ret false, .none 5, .choice 36 38, .fresh 2, .goto 40, .null 2, .lend 1,
    .test 2 41 43, .deref 1, .ret false, .give 2, .none 1, .ret true]⟩

/-- `pyfsapfs_extended_attribute_get_extent_by_index`
(pyfsapfs/pyfsapfs_extended_attribute.c:1240-1341).  Places: 0 `error`, 1 `exception`, 2
`integer_object`, 3 `pyfsapfs_extended_attribute`, 4 `result that is not kept`, 5 `threads
allowed`, 6 `tuple_object`, 7 `result`. -/
def pyfsapfs_extended_attribute_get_extent_by_index : Fn :=
  ⟨[loc, loc, loc, loc, loc, loc, loc, loc],
   [.choice 1 2, .lend 3, .setn 7 1, .test 3 4 8, .none 5, .lend 1, .deref 1, .ret false, .none 5,
    .fresh 5, .deref 3, .choice 12 14, .setn 7 2, .goto 20, .choice 15 17, .setn 7 1, .goto 20,
    .test 0 18 19, .maybe 0, .setn 7 0, .live 5, .kill 5, .null 5, .testn 7 0 27 24,
    .testn 7 1 27 25, .testn 7 2 33 26, .choice 27 33, .none 5, .use 0, .lend 1, .kill 0, .null 0,
    .goto 78, .none 5, .choice 35 37, .fresh 6, .goto 39, .null 6, .lend 1, .none 5, .choice 41 43,
    .fresh 2, .goto 45, .null 2, .lend 1, .none 5, .deref 6, .use 6, .use 2, .give 2, .none 5,
    .choice 52 54, .fresh 2, .goto 56, .null 2, .lend 1, .none 5, .deref 6, .use 6, .use 2, .give 2,
    .none 5, .choice 63 65, .fresh 2, .goto 67, .null 2, .lend 1, .none 5, .deref 6, .use 6, .use 2,
    .give 2, .test 6 73 75, .deref 1, .ret false, .give 6, .none 1, .ret true, .test 2 82 79,
    .none 5, .use 2, .kill 2, .test 6 86 83, .none 5, .use 6, .kill 6, .deref 1, .ret false]⟩

/-- `pyfsapfs_extended_attribute_get_extent` (pyfsapfs/pyfsapfs_extended_attribute.c:1346-1369).
Places: 0 `exception`, 1 `result that is not kept`, 2 `sequence_object`. -/
def pyfsapfs_extended_attribute_get_extent : Fn :=
  ⟨[loc, loc, loc],
   [.choice 4 1, .lend 0, .deref 0, .ret false, .choice 5 7, .fresh 2, .goto 9, .null 2, .lend 0,
    .test 2 10 12, .deref 0, .ret false, .give 2, .none 0, .ret true]⟩

/-- `pyfsapfs_extended_attributes_new` (pyfsapfs/pyfsapfs_extended_attributes.c:156-216).  Places:
0 `exception`, 1 `parent_object`, 2 `result that is not kept`, 3 `sequence_object`, 4
`sequence_object->parent_object`. -/
def pyfsapfs_extended_attributes_new : Fn :=
  ⟨[loc, loc, loc, loc, own 3],
   [.choice 1 2, .lend 1, .test 1 3 6, .lend 0, .deref 0, .ret false, .choice 7 10, .lend 0,
    .deref 0, .ret false, .forget 4, .null 4, .choice 13 17, .fresh 3, .fresh 4, .kill 4, .goto 19,
    .null 3, .lend 0, .test 3 20 22, .lend 0, .goto 38, .deref 3, .copy 4 1, .deref 3, .deref 3,
    .deref 3, .deref 3, .use 4, .test 4 31 30, .fresh 4, .test 3 32 34, .deref 0, .ret false,
    .give 3, .live 4, .none 0, .ret true, .test 3 43 39, .use 3, .kill 3, .kill 4, .null 4,
    .deref 0, .ret false]⟩

/-- `pyfsapfs_extended_attributes_init` (pyfsapfs/pyfsapfs_extended_attributes.c:221-248).  Places:
0 `exception`, 1 `sequence_object`. -/
def pyfsapfs_extended_attributes_init : Fn :=
  ⟨[loc, loc],
   [.choice 1 2, .lend 1, .test 1 3 6, .lend 0, .deref 0, .ret false, .deref 1, .deref 1, .deref 1,
    .deref 1, .lend 0, .deref 0, .ret false]⟩

/-- `pyfsapfs_extended_attributes_free` (pyfsapfs/pyfsapfs_extended_attributes.c:252-295).  Places:
0 `exception`, 1 `sequence_object`, 2 `sequence_object->parent_object`. -/
def pyfsapfs_extended_attributes_free : Fn :=
  ⟨[loc, loc, own 1],
   [.maybe 1, .test 1 3 2, .maybe 2, .test 1 4 6, .lend 0, .ret true, .deref 1, .use 1, .deref 1,
    .test 2 13 10, .deref 1, .use 2, .kill 2, .kill 1, .null 2, .ret true]⟩

/-- `pyfsapfs_extended_attributes_len` (pyfsapfs/pyfsapfs_extended_attributes.c:299-314).  Places:
0 `exception`, 1 `sequence_object`. -/
def pyfsapfs_extended_attributes_len : Fn :=
  ⟨[loc, loc],
   [.choice 1 2, .lend 1, .test 1 3 6, .lend 0, .deref 0, .ret false, .deref 1, .none 0, .ret true]⟩

/-- `pyfsapfs_extended_attributes_getitem` (pyfsapfs/pyfsapfs_extended_attributes.c:318-367).
Places: 0 `exception`, 1 `extended_attribute_object`, 2 `result that is not kept`, 3
`sequence_object`. -/
def pyfsapfs_extended_attributes_getitem : Fn :=
  ⟨[loc, loc, loc, loc],
   [.choice 1 2, .lend 3, .test 3 3 6, .lend 0, .deref 0, .ret false, .deref 3, .choice 8 11,
    .lend 0, .deref 0, .ret false, .deref 3, .choice 13 16, .lend 0, .deref 0, .ret false,
    .choice 19 17, .deref 3, .choice 19 22, .lend 0, .deref 0, .ret false, .deref 3, .choice 24 26,
    .fresh 1, .goto 28, .null 1, .lend 0, .test 1 29 31, .deref 0, .ret false, .give 1, .none 0,
    .ret true]⟩

/-- `pyfsapfs_extended_attributes_iter` (pyfsapfs/pyfsapfs_extended_attributes.c:371-389).  Places:
0 `exception`, 1 `sequence_object`. -/
def pyfsapfs_extended_attributes_iter : Fn :=
  ⟨[loc, loc],
   [.choice 1 2, .lend 1, .test 1 3 6, .lend 0, .deref 0, .ret false, .use 1, .test 1 9 8, .fresh 1,
    .test 1 10 12, .deref 0, .ret false, .give 1, .none 0, .ret true]⟩

/-- `pyfsapfs_extended_attributes_iternext` (pyfsapfs/pyfsapfs_extended_attributes.c:393-451).
Places: 0 `exception`, 1 `extended_attribute_object`, 2 `result that is not kept`, 3
`sequence_object`. -/
def pyfsapfs_extended_attributes_iternext : Fn :=
  ⟨[loc, loc, loc, loc],
   [.choice 1 2, .lend 3, .test 3 3 6, .lend 0, .deref 0, .ret false, .deref 3, .choice 8 11,
    .lend 0, .deref 0, .ret false, .deref 3, .choice 13 16, .lend 0, .deref 0, .ret false, .deref 3,
    .choice 18 21, .lend 0, .deref 0, .ret false, .deref 3, .choice 23 26, .lend 0, .deref 0,
    .ret false, .deref 3, .choice 28 30, .fresh 1, .goto 32, .null 1, .lend 0, .test 1 34 33,
    .deref 3, .test 1 35 37, .deref 0, .ret false, .give 1, .none 0, .ret true]⟩

/-- `pyfsapfs_file_entries_new` (pyfsapfs/pyfsapfs_file_entries.c:156-216).  Places: 0 `exception`,
1 `parent_object`, 2 `result that is not kept`, 3 `sequence_object`, 4
`sequence_object->parent_object`. -/
def pyfsapfs_file_entries_new : Fn :=
  ⟨[loc, loc, loc, loc, own 3],
   [.choice 1 2, .lend 1, .test 1 3 6, .lend 0, .deref 0, .ret false, .choice 7 10, .lend 0,
    .deref 0, .ret false, .forget 4, .null 4, .choice 13 17, .fresh 3, .fresh 4, .kill 4, .goto 19,
    .null 3, .lend 0, .test 3 20 22, .lend 0, .goto 38, .deref 3, .copy 4 1, .deref 3, .deref 3,
    .deref 3, .deref 3, .use 4, .test 4 31 30, .fresh 4, .test 3 32 34, .deref 0, .ret false,
    .give 3, .live 4, .none 0, .ret true, .test 3 43 39, .use 3, .kill 3, .kill 4, .null 4,
    .deref 0, .ret false]⟩

/-- `pyfsapfs_file_entries_init` (pyfsapfs/pyfsapfs_file_entries.c:221-248).  Places: 0
`exception`, 1 `sequence_object`. -/
def pyfsapfs_file_entries_init : Fn :=
  ⟨[loc, loc],
   [.choice 1 2, .lend 1, .test 1 3 6, .lend 0, .deref 0, .ret false, .deref 1, .deref 1, .deref 1,
    .deref 1, .lend 0, .deref 0, .ret false]⟩

/-- `pyfsapfs_file_entries_free` (pyfsapfs/pyfsapfs_file_entries.c:252-295).  Places: 0
`exception`, 1 `sequence_object`, 2 `sequence_object->parent_object`. -/
def pyfsapfs_file_entries_free : Fn :=
  ⟨[loc, loc, own 1],
   [.maybe 1, .test 1 3 2, .maybe 2, .test 1 4 6, .lend 0, .ret true, .deref 1, .use 1, .deref 1,
    .test 2 13 10, .deref 1, .use 2, .kill 2, .kill 1, .null 2, .ret true]⟩

/-- `pyfsapfs_file_entries_len` (pyfsapfs/pyfsapfs_file_entries.c:299-314).  Places: 0 `exception`,
1 `sequence_object`. -/
def pyfsapfs_file_entries_len : Fn :=
  ⟨[loc, loc],
   [.choice 1 2, .lend 1, .test 1 3 6, .lend 0, .deref 0, .ret false, .deref 1, .none 0, .ret true]⟩

/-- `pyfsapfs_file_entries_getitem` (pyfsapfs/pyfsapfs_file_entries.c:318-367).  Places: 0
`exception`, 1 `file_entry_object`, 2 `result that is not kept`, 3 `sequence_object`. -/
def pyfsapfs_file_entries_getitem : Fn :=
  ⟨[loc, loc, loc, loc],
   [.choice 1 2, .lend 3, .test 3 3 6, .lend 0, .deref 0, .ret false, .deref 3, .choice 8 11,
    .lend 0, .deref 0, .ret false, .deref 3, .choice 13 16, .lend 0, .deref 0, .ret false,
    .choice 19 17, .deref 3, .choice 19 22, .lend 0, .deref 0, .ret false, .deref 3, .choice 24 26,
    .fresh 1, .goto 28, .null 1, .lend 0, .test 1 29 31, .deref 0, .ret false, .give 1, .none 0,
    .ret true]⟩

/-- `pyfsapfs_file_entries_iter` (pyfsapfs/pyfsapfs_file_entries.c:371-389).  Places: 0
`exception`, 1 `sequence_object`. -/
def pyfsapfs_file_entries_iter : Fn :=
  ⟨[loc, loc],
   [.choice 1 2, .lend 1, .test 1 3 6, .lend 0, .deref 0, .ret false, .use 1, .test 1 9 8, .fresh 1,
    .test 1 10 12, .deref 0, .ret false, .give 1, .none 0, .ret true]⟩

/-- `pyfsapfs_file_entries_iternext` (pyfsapfs/pyfsapfs_file_entries.c:393-451).  Places: 0
`exception`, 1 `file_entry_object`, 2 `result that is not kept`, 3 `sequence_object`. -/
def pyfsapfs_file_entries_iternext : Fn :=
  ⟨[loc, loc, loc, loc],
   [.choice 1 2, .lend 3, .test 3 3 6, .lend 0, .deref 0, .ret false, .deref 3, .choice 8 11,
    .lend 0, .deref 0, .ret false, .deref 3, .choice 13 16, .lend 0, .deref 0, .ret false, .deref 3,
    .choice 18 21, .lend 0, .deref 0, .ret false, .deref 3, .choice 23 26, .lend 0, .deref 0,
    .ret false, .deref 3, .choice 28 30, .fresh 1, .goto 32, .null 1, .lend 0, .test 1 34 33,
    .deref 3, .test 1 35 37, .deref 0, .ret false, .give 1, .none 0, .ret true]⟩

/-- `pyfsapfs_file_entry_new` (pyfsapfs/pyfsapfs_file_entry.c:525-573).  Places: 0 `exception`, 1
`file_entry`, 2 `parent_object`, 3 `pyfsapfs_file_entry`, 4 `pyfsapfs_file_entry->file_entry`, 5
`pyfsapfs_file_entry->parent_object`, 6 `result that is not kept`. -/
def pyfsapfs_file_entry_new : Fn :=
  ⟨[loc, loc, loc, loc, own 3, own 3, loc],
   [.maybe 1, .choice 2 3, .lend 2, .test 1 4 9, .lend 0, .deref 0, .held 1, .forget 1, .ret false,
    .forget 5, .null 5, .forget 4, .null 4, .choice 14 20, .fresh 3, .fresh 4, .kill 4, .fresh 5,
    .kill 5, .goto 22, .null 3, .lend 0, .test 3 23 25, .lend 0, .goto 45, .deref 3, .copy 4 1,
    .deref 3, .copy 5 2, .deref 3, .test 5 35 31, .deref 3, .use 5, .test 5 35 34, .fresh 5,
    .test 3 36 40, .deref 0, .held 1, .forget 1, .ret false, .give 3, .live 4, .held 5, .none 0,
    .ret true, .test 3 52 46, .use 3, .kill 3, .kill 4, .kill 5, .null 4, .null 5, .deref 0,
    .held 1, .forget 1, .ret false]⟩

/-- `pyfsapfs_file_entry_init` (pyfsapfs/pyfsapfs_file_entry.c:578-602).  Places: 0 `exception`, 1
`pyfsapfs_file_entry`. -/
def pyfsapfs_file_entry_init : Fn :=
  ⟨[loc, loc],
   [.choice 1 2, .lend 1, .test 1 3 6, .lend 0, .deref 0, .ret false, .deref 1, .lend 0, .deref 0,
    .ret false]⟩

/-- `pyfsapfs_file_entry_free` (pyfsapfs/pyfsapfs_file_entry.c:606-673).  Places: 0 `error`, 1
`exception`, 2 `pyfsapfs_file_entry`, 3 `pyfsapfs_file_entry->file_entry`, 4
`pyfsapfs_file_entry->parent_object`, 5 `threads allowed`, 6 `result`. -/
def pyfsapfs_file_entry_free : Fn :=
  ⟨[loc, loc, loc, own 2, own 2, loc, loc],
   [.maybe 2, .test 2 4 2, .maybe 3, .maybe 4, .setn 6 1, .test 2 6 9, .none 5, .lend 1, .ret true,
    .none 5, .deref 2, .use 2, .deref 2, .test 3 37 14, .none 5, .fresh 5, .deref 2, .kill 3,
    .null 3, .choice 20 22, .setn 6 2, .goto 25, .test 0 23 24, .maybe 0, .setn 6 0, .live 5,
    .kill 5, .null 5, .testn 6 0 32 29, .testn 6 1 32 30, .testn 6 2 37 31, .choice 32 37, .none 5,
    .use 0, .lend 1, .kill 0, .null 0, .deref 2, .test 4 43 39, .deref 2, .none 5, .use 4, .kill 4,
    .kill 2, .null 3, .null 4, .ret true]⟩

/-- `pyfsapfs_file_entry_get_identifier` (pyfsapfs/pyfsapfs_file_entry.c:678-725).  Places: 0
`error`, 1 `exception`, 2 `integer_object`, 3 `pyfsapfs_file_entry`, 4 `result that is not kept`, 5
`threads allowed`, 6 `result`. -/
def pyfsapfs_file_entry_get_identifier : Fn :=
  ⟨[loc, loc, loc, loc, loc, loc, loc],
   [.choice 1 2, .lend 3, .setn 6 1, .test 3 4 8, .none 5, .lend 1, .deref 1, .ret false, .none 5,
    .fresh 5, .deref 3, .choice 12 14, .setn 6 2, .goto 20, .choice 15 17, .setn 6 1, .goto 20,
    .test 0 18 19, .maybe 0, .setn 6 0, .live 5, .kill 5, .null 5, .testn 6 0 27 24,
    .testn 6 1 27 25, .testn 6 2 34 26, .choice 27 34, .none 5, .use 0, .lend 1, .kill 0, .null 0,
    .deref 1, .ret false, .none 5, .choice 36 38, .fresh 2, .goto 40, .null 2, .lend 1,
    .test 2 41 43, .deref 1, .ret false, .give 2, .none 1, .ret true]⟩

/-- `pyfsapfs_file_entry_get_parent_identifier` (pyfsapfs/pyfsapfs_file_entry.c:730-777).  Places:
0 `error`, 1 `exception`, 2 `integer_object`, 3 `pyfsapfs_file_entry`, 4 `result that is not kept`,
5 `threads allowed`, 6 `result`. -/
def pyfsapfs_file_entry_get_parent_identifier : Fn :=
  ⟨[loc, loc, loc, loc, loc, loc, loc],
   [.choice 1 2, .lend 3, .setn 6 1, .test 3 4 8, .none 5, .lend 1, .deref 1, .ret false, .none 5,
    .fresh 5, .deref 3, .choice 12 14, .setn 6 2, .goto 20, .choice 15 17, .setn 6 1, .goto 20,
    .test 0 18 19, .maybe 0, .setn 6 0, .live 5, .kill 5, .null 5, .testn 6 0 27 24,
    .testn 6 1 27 25, .testn 6 2 34 26, .choice 27 34, .none 5, .use 0, .lend 1, .kill 0, .null 0,
    .deref 1, .ret false, .none 5, .choice 36 38, .fresh 2, .goto 40, .null 2, .lend 1,
    .test 2 41 43, .deref 1, .ret false, .give 2, .none 1, .ret true]⟩

/-- `pyfsapfs_file_entry_get_creation_time` (pyfsapfs/pyfsapfs_file_entry.c:782-836).  Places: 0
`Py_None`, 1 `datetime_object`, 2 `error`, 3 `exception`, 4 `pyfsapfs_file_entry`, 5 `result that
is not kept`, 6 `threads allowed`, 7 `result`. -/
def pyfsapfs_file_entry_get_creation_time : Fn :=
  ⟨[loc, loc, loc, loc, loc, loc, loc, loc],
   [.lend 0, .choice 2 3, .lend 4, .setn 7 1, .test 4 5 9, .none 6, .lend 3, .deref 3, .ret false,
    .none 6, .fresh 6, .deref 4, .choice 13 15, .setn 7 2, .goto 21, .choice 16 18, .setn 7 1,
    .goto 21, .test 2 19 20, .maybe 2, .setn 7 0, .live 6, .kill 6, .null 6, .testn 7 0 28 25,
    .testn 7 1 35 26, .testn 7 2 35 27, .choice 28 35, .none 6, .use 2, .lend 3, .kill 2, .null 2,
    .deref 3, .ret false, .testn 7 0 49 36, .testn 7 1 39 37, .testn 7 2 49 38, .choice 39 49,
    .none 6, .use 0, .test 0 43 42, .fresh 0, .test 0 44 46, .deref 3, .ret false, .give 0, .none 3,
    .ret true, .none 6, .choice 51 53, .fresh 1, .goto 55, .null 1, .lend 3, .test 1 56 58,
    .deref 3, .ret false, .give 1, .none 3, .ret true]⟩

/-- `pyfsapfs_file_entry_get_creation_time_as_integer` (pyfsapfs/pyfsapfs_file_entry.c:841-895).
Places: 0 `Py_None`, 1 `error`, 2 `exception`, 3 `integer_object`, 4 `pyfsapfs_file_entry`, 5
`result that is not kept`, 6 `threads allowed`, 7 `result`. -/
def pyfsapfs_file_entry_get_creation_time_as_integer : Fn :=
  ⟨[loc, loc, loc, loc, loc, loc, loc, loc],
   [.lend 0, .choice 2 3, .lend 4, .setn 7 1, .test 4 5 9, .none 6, .lend 2, .deref 2, .ret false,
    .none 6, .fresh 6, .deref 4, .choice 13 15, .setn 7 2, .goto 21, .choice 16 18, .setn 7 1,
    .goto 21, .test 1 19 20, .maybe 1, .setn 7 0, .live 6, .kill 6, .null 6, .testn 7 0 28 25,
    .testn 7 1 35 26, .testn 7 2 35 27, .choice 28 35, .none 6, .use 1, .lend 2, .kill 1, .null 1,
    .deref 2, .ret false, .testn 7 0 49 36, .testn 7 1 39 37, .testn 7 2 49 38, .choice 39 49,
    .none 6, .use 0, .test 0 43 42, .fresh 0, .test 0 44 46, .deref 2, .ret false, .give 0, .none 2,
    .ret true, .none 6, .choice 51 53, .fresh 3, .goto 55, .null 3, .lend 2, .test 3 56 58,
    .deref 2, .ret false, .give 3, .none 2, .ret true]⟩

/-- `pyfsapfs_file_entry_get_modification_time` (pyfsapfs/pyfsapfs_file_entry.c:900-954).  Places:
0 `Py_None`, 1 `datetime_object`, 2 `error`, 3 `exception`, 4 `pyfsapfs_file_entry`, 5 `result that
is not kept`, 6 `threads allowed`, 7 `result`. -/
def pyfsapfs_file_entry_get_modification_time : Fn :=
  ⟨[loc, loc, loc, loc, loc, loc, loc, loc],
   [.lend 0, .choice 2 3, .lend 4, .setn 7 1, .test 4 5 9, .none 6, .lend 3, .deref 3, .ret false,
    .none 6, .fresh 6, .deref 4, .choice 13 15, .setn 7 2, .goto 21, .choice 16 18, .setn 7 1,
    .goto 21, .test 2 19 20, .maybe 2, .setn 7 0, .live 6, .kill 6, .null 6, .testn 7 0 28 25,
    .testn 7 1 35 26, .testn 7 2 35 27, .choice 28 35, .none 6, .use 2, .lend 3, .kill 2, .null 2,
    .deref 3, .ret false, .testn 7 0 49 36, .testn 7 1 39 37, .testn 7 2 49 38, .choice 39 49,
    .none 6, .use 0, .test 0 43 42, .fresh 0, .test 0 44 46, .deref 3, .ret false, .give 0, .none 3,
    .ret true, .none 6, .choice 51 53, .fresh 1, .goto 55, .null 1, .lend 3, .test 1 56 58,
    .deref 3, .ret false, .give 1, .none 3, .ret true]⟩

/-- `pyfsapfs_file_entry_get_modification_time_as_integer`
(pyfsapfs/pyfsapfs_file_entry.c:959-1013).  Places: 0 `Py_None`, 1 `error`, 2 `exception`, 3
`integer_object`, 4 `pyfsapfs_file_entry`, 5 `result that is not kept`, 6 `threads allowed`, 7
`result`. -/
def pyfsapfs_file_entry_get_modification_time_as_integer : Fn :=
  ⟨[loc, loc, loc, loc, loc, loc, loc, loc],
   [.lend 0, .choice 2 3, .lend 4, .setn 7 1, .test 4 5 9, .none 6, .lend 2, .deref 2, .ret false,
    .none 6, .fresh 6, .deref 4, .choice 13 15, .setn 7 2, .goto 21, .choice 16 18, .setn 7 1,
    .goto 21, .test 1 19 20, .maybe 1, .setn 7 0, .live 6, .kill 6, .null 6, .testn 7 0 28 25,
    .testn 7 1 35 26, .testn 7 2 35 27, .choice 28 35, .none 6, .use 1, .lend 2, .kill 1, .null 1,
    .deref 2, .ret false, .testn 7 0 49 36, .testn 7 1 39 37, .testn 7 2 49 38, .choice 39 49,
    .none 6, .use 0, .test 0 43 42, .fresh 0, .test 0 44 46, .deref 2, .ret false, .give 0, .none 2,
    .ret true, .none 6, .choice 51 53, .fresh 3, .goto 55, .null 3, .lend 2, .test 3 56 58,
    .deref 2, .ret false, .give 3, .none 2, .ret true]⟩

/-- `pyfsapfs_file_entry_get_access_time` (pyfsapfs/pyfsapfs_file_entry.c:1018-1072).  Places: 0
`Py_None`, 1 `datetime_object`, 2 `error`, 3 `exception`, 4 `pyfsapfs_file_entry`, 5 `result that
is not kept`, 6 `threads allowed`, 7 `result`. -/
def pyfsapfs_file_entry_get_access_time : Fn :=
  ⟨[loc, loc, loc, loc, loc, loc, loc, loc],
   [.lend 0, .choice 2 3, .lend 4, .setn 7 1, .test 4 5 9, .none 6, .lend 3, .deref 3, .ret false,
    .none 6, .fresh 6, .deref 4, .choice 13 15, .setn 7 2, .goto 21, .choice 16 18, .setn 7 1,
    .goto 21, .test 2 19 20, .maybe 2, .setn 7 0, .live 6, .kill 6, .null 6, .testn 7 0 28 25,
    .testn 7 1 35 26, .testn 7 2 35 27, .choice 28 35, .none 6, .use 2, .lend 3, .kill 2, .null 2,
    .deref 3, .ret false, .testn 7 0 49 36, .testn 7 1 39 37, .testn 7 2 49 38, .choice 39 49,
    .none 6, .use 0, .test 0 43 42, .fresh 0, .test 0 44 46, .deref 3, .ret false, .give 0, .none 3,
    .ret true, .none 6, .choice 51 53, .fresh 1, .goto 55, .null 1, .lend 3, .test 1 56 58,
    .deref 3, .ret false, .give 1, .none 3, .ret true]⟩

/-- `pyfsapfs_file_entry_get_access_time_as_integer` (pyfsapfs/pyfsapfs_file_entry.c:1077-1131).
Places: 0 `Py_None`, 1 `error`, 2 `exception`, 3 `integer_object`, 4 `pyfsapfs_file_entry`, 5
`result that is not kept`, 6 `threads allowed`, 7 `result`. -/
def pyfsapfs_file_entry_get_access_time_as_integer : Fn :=
  ⟨[loc, loc, loc, loc, loc, loc, loc, loc],
   [.lend 0, .choice 2 3, .lend 4, .setn 7 1, .test 4 5 9, .none 6, .lend 2, .deref 2, .ret false,
    .none 6, .fresh 6, .deref 4, .choice 13 15, .setn 7 2, .goto 21, .choice 16 18, .setn 7 1,
    .goto 21, .test 1 19 20, .maybe 1, .setn 7 0, .live 6, .kill 6, .null 6, .testn 7 0 28 25,
    .testn 7 1 35 26, .testn 7 2 35 27, .choice 28 35, .none 6, .use 1, .lend 2, .kill 1, .null 1,
    .deref 2, .ret false, .testn 7 0 49 36, .testn 7 1 39 37, .testn 7 2 49 38, .choice 39 49,
    .none 6, .use 0, .test 0 43 42, .fresh 0, .test 0 44 46, .deref 2, .ret false, .give 0, .none 2,
    .ret true, .none 6, .choice 51 53, .fresh 3, .goto 55, .null 3, .lend 2, .test 3 56 58,
    .deref 2, .ret false, .give 3, .none 2, .ret true]⟩

/-- `pyfsapfs_file_entry_get_inode_change_time` (pyfsapfs/pyfsapfs_file_entry.c:1136-1190).
Places: 0 `Py_None`, 1 `datetime_object`, 2 `error`, 3 `exception`, 4 `pyfsapfs_file_entry`, 5
`result that is not kept`, 6 `threads allowed`, 7 `result`. -/
def pyfsapfs_file_entry_get_inode_change_time : Fn :=
  ⟨[loc, loc, loc, loc, loc, loc, loc, loc],
   [.lend 0, .choice 2 3, .lend 4, .setn 7 1, .test 4 5 9, .none 6, .lend 3, .deref 3, .ret false,
    .none 6, .fresh 6, .deref 4, .choice 13 15, .setn 7 2, .goto 21, .choice 16 18, .setn 7 1,
    .goto 21, .test 2 19 20, .maybe 2, .setn 7 0, .live 6, .kill 6, .null 6, .testn 7 0 28 25,
    .testn 7 1 35 26, .testn 7 2 35 27, .choice 28 35, .none 6, .use 2, .lend 3, .kill 2, .null 2,
    .deref 3, .ret false, .testn 7 0 49 36, .testn 7 1 39 37, .testn 7 2 49 38, .choice 39 49,
    .none 6, .use 0, .test 0 43 42, .fresh 0, .test 0 44 46, .deref 3, .ret false, .give 0, .none 3,
    .ret true, .none 6, .choice 51 53, .fresh 1, .goto 55, .null 1, .lend 3, .test 1 56 58,
    .deref 3, .ret false, .give 1, .none 3, .ret true]⟩

/-- `pyfsapfs_file_entry_get_inode_change_time_as_integer`
(pyfsapfs/pyfsapfs_file_entry.c:1195-1249).  Places: 0 `Py_None`, 1 `error`, 2 `exception`, 3
`integer_object`, 4 `pyfsapfs_file_entry`, 5 `result that is not kept`, 6 `threads allowed`, 7
`result`. -/
def pyfsapfs_file_entry_get_inode_change_time_as_integer : Fn :=
  ⟨[loc, loc, loc, loc, loc, loc, loc, loc],
   [.lend 0, .choice 2 3, .lend 4, .setn 7 1, .test 4 5 9, .none 6, .lend 2, .deref 2, .ret false,
    .none 6, .fresh 6, .deref 4, .choice 13 15, .setn 7 2, .goto 21, .choice 16 18, .setn 7 1,
    .goto 21, .test 1 19 20, .maybe 1, .setn 7 0, .live 6, .kill 6, .null 6, .testn 7 0 28 25,
    .testn 7 1 35 26, .testn 7 2 35 27, .choice 28 35, .none 6, .use 1, .lend 2, .kill 1, .null 1,
    .deref 2, .ret false, .testn 7 0 49 36, .testn 7 1 39 37, .testn 7 2 49 38, .choice 39 49,
    .none 6, .use 0, .test 0 43 42, .fresh 0, .test 0 44 46, .deref 2, .ret false, .give 0, .none 2,
    .ret true, .none 6, .choice 51 53, .fresh 3, .goto 55, .null 3, .lend 2, .test 3 56 58,
    .deref 2, .ret false, .give 3, .none 2, .ret true]⟩

/-- `pyfsapfs_file_entry_get_added_time` (pyfsapfs/pyfsapfs_file_entry.c:1254-1308).  Places: 0
`Py_None`, 1 `datetime_object`, 2 `error`, 3 `exception`, 4 `pyfsapfs_file_entry`, 5 `result that
is not kept`, 6 `threads allowed`, 7 `result`. -/
def pyfsapfs_file_entry_get_added_time : Fn :=
  ⟨[loc, loc, loc, loc, loc, loc, loc, loc],
   [.lend 0, .choice 2 3, .lend 4, .setn 7 1, .test 4 5 9, .none 6, .lend 3, .deref 3, .ret false,
    .none 6, .fresh 6, .deref 4, .choice 13 15, .setn 7 2, .goto 21, .choice 16 18, .setn 7 1,
    .goto 21, .test 2 19 20, .maybe 2, .setn 7 0, .live 6, .kill 6, .null 6, .testn 7 0 28 25,
    .testn 7 1 35 26, .testn 7 2 35 27, .choice 28 35, .none 6, .use 2, .lend 3, .kill 2, .null 2,
    .deref 3, .ret false, .testn 7 0 49 36, .testn 7 1 39 37, .testn 7 2 49 38, .choice 39 49,
    .none 6, .use 0, .test 0 43 42, .fresh 0, .test 0 44 46, .deref 3, .ret false, .give 0, .none 3,
    .ret true, .none 6, .choice 51 53, .fresh 1, .goto 55, .null 1, .lend 3, .test 1 56 58,
    .deref 3, .ret false, .give 1, .none 3, .ret true]⟩

/-- `pyfsapfs_file_entry_get_added_time_as_integer` (pyfsapfs/pyfsapfs_file_entry.c:1313-1367).
Places: 0 `Py_None`, 1 `error`, 2 `exception`, 3 `integer_object`, 4 `pyfsapfs_file_entry`, 5
`result that is not kept`, 6 `threads allowed`, 7 `result`. -/
def pyfsapfs_file_entry_get_added_time_as_integer : Fn :=
  ⟨[loc, loc, loc, loc, loc, loc, loc, loc],
   [.lend 0, .choice 2 3, .lend 4, .setn 7 1, .test 4 5 9, .none 6, .lend 2, .deref 2, .ret false,
    .none 6, .fresh 6, .deref 4, .choice 13 15, .setn 7 2, .goto 21, .choice 16 18, .setn 7 1,
    .goto 21, .test 1 19 20, .maybe 1, .setn 7 0, .live 6, .kill 6, .null 6, .testn 7 0 28 25,
    .testn 7 1 35 26, .testn 7 2 35 27, .choice 28 35, .none 6, .use 1, .lend 2, .kill 1, .null 1,
    .deref 2, .ret false, .testn 7 0 49 36, .testn 7 1 39 37, .testn 7 2 49 38, .choice 39 49,
    .none 6, .use 0, .test 0 43 42, .fresh 0, .test 0 44 46, .deref 2, .ret false, .give 0, .none 2,
    .ret true, .none 6, .choice 51 53, .fresh 3, .goto 55, .null 3, .lend 2, .test 3 56 58,
    .deref 2, .ret false, .give 3, .none 2, .ret true]⟩

/-- `pyfsapfs_file_entry_get_number_of_links` (pyfsapfs/pyfsapfs_file_entry.c:1372-1419).  Places:
0 `error`, 1 `exception`, 2 `integer_object`, 3 `pyfsapfs_file_entry`, 4 `result that is not kept`,
5 `threads allowed`, 6 `result`. -/
def pyfsapfs_file_entry_get_number_of_links : Fn :=
  ⟨[loc, loc, loc, loc, loc, loc, loc],
   [.choice 1 2, .lend 3, .setn 6 1, .test 3 4 8, .none 5, .lend 1, .deref 1, .ret false, .none 5,
    .fresh 5, .deref 3, .choice 12 14, .setn 6 2, .goto 20, .choice 15 17, .setn 6 1, .goto 20,
    .test 0 18 19, .maybe 0, .setn 6 0, .live 5, .kill 5, .null 5, .testn 6 0 27 24,
    .testn 6 1 27 25, .testn 6 2 34 26, .choice 27 34, .none 5, .use 0, .lend 1, .kill 0, .null 0,
    .deref 1, .ret false, .none 5, .choice 36 38, .fresh 2, .goto 40, .null 2, .lend 1,
    .test 2 41 43, .deref 1, .ret false, .give 2, .none 1, .ret true]⟩

/-- `pyfsapfs_file_entry_get_owner_identifier` (pyfsapfs/pyfsapfs_file_entry.c:1424-1471).  Places:
0 `error`, 1 `exception`, 2 `integer_object`, 3 `pyfsapfs_file_entry`, 4 `result that is not kept`,
5 `threads allowed`, 6 `result`. -/
def pyfsapfs_file_entry_get_owner_identifier : Fn :=
  ⟨[loc, loc, loc, loc, loc, loc, loc],
   [.choice 1 2, .lend 3, .setn 6 1, .test 3 4 8, .none 5, .lend 1, .deref 1, .ret false, .none 5,
    .fresh 5, .deref 3, .choice 12 14, .setn 6 2, .goto 20, .choice 15 17, .setn 6 1, .goto 20,
    .test 0 18 19, .maybe 0, .setn 6 0, .live 5, .kill 5, .null 5, .testn 6 0 27 24,
    .testn 6 1 27 25, .testn 6 2 34 26, .choice 27 34, .none 5, .use 0, .lend 1, .kill 0, .null 0,
    .deref 1, .ret false, .none 5, .choice 36 38, .fresh 2, .goto 40, .null 2, .lend 1,
    .test 2 41 43, .deref 1, .ret false, .give 2, .none 1, .ret true]⟩

/-- `pyfsapfs_file_entry_get_group_identifier` (pyfsapfs/pyfsapfs_file_entry.c:1476-1523).  Places:
0 `error`, 1 `exception`, 2 `integer_object`, 3 `pyfsapfs_file_entry`, 4 `result that is not kept`,
5 `threads allowed`, 6 `result`. -/
def pyfsapfs_file_entry_get_group_identifier : Fn :=
  ⟨[loc, loc, loc, loc, loc, loc, loc],
   [.choice 1 2, .lend 3, .setn 6 1, .test 3 4 8, .none 5, .lend 1, .deref 1, .ret false, .none 5,
    .fresh 5, .deref 3, .choice 12 14, .setn 6 2, .goto 20, .choice 15 17, .setn 6 1, .goto 20,
    .test 0 18 19, .maybe 0, .setn 6 0, .live 5, .kill 5, .null 5, .testn 6 0 27 24,
    .testn 6 1 27 25, .testn 6 2 34 26, .choice 27 34, .none 5, .use 0, .lend 1, .kill 0, .null 0,
    .deref 1, .ret false, .none 5, .choice 36 38, .fresh 2, .goto 40, .null 2, .lend 1,
    .test 2 41 43, .deref 1, .ret false, .give 2, .none 1, .ret true]⟩

/-- `pyfsapfs_file_entry_get_device_number` (pyfsapfs/pyfsapfs_file_entry.c:1528-1630).  Places: 0
`Py_None`, 1 `error`, 2 `exception`, 3 `integer_object`, 4 `pyfsapfs_file_entry`, 5 `result that is
not kept`, 6 `threads allowed`, 7 `tuple_object`, 8 `result`. -/
def pyfsapfs_file_entry_get_device_number : Fn :=
  ⟨[loc, loc, loc, loc, loc, loc, loc, loc, loc],
   [.lend 0, .choice 2 3, .lend 4, .setn 8 1, .test 4 5 9, .none 6, .lend 2, .deref 2, .ret false,
    .none 6, .fresh 6, .deref 4, .choice 13 15, .setn 8 2, .goto 21, .choice 16 18, .setn 8 1,
    .goto 21, .test 1 19 20, .maybe 1, .setn 8 0, .live 6, .kill 6, .null 6, .testn 8 0 28 25,
    .testn 8 1 35 26, .testn 8 2 35 27, .choice 28 35, .none 6, .use 1, .lend 2, .kill 1, .null 1,
    .deref 2, .ret false, .testn 8 0 49 36, .testn 8 1 39 37, .testn 8 2 49 38, .choice 39 49,
    .none 6, .use 0, .test 0 43 42, .fresh 0, .test 0 44 46, .deref 2, .ret false, .give 0, .none 2,
    .ret true, .none 6, .choice 51 53, .fresh 7, .goto 55, .null 7, .lend 2, .none 6, .choice 57 59,
    .fresh 3, .goto 61, .null 3, .lend 2, .none 6, .deref 7, .use 7, .use 3, .give 3, .none 6,
    .choice 68 70, .fresh 3, .goto 72, .null 3, .lend 2, .none 6, .deref 7, .use 7, .use 3, .give 3,
    .test 7 78 80, .deref 2, .ret false, .give 7, .none 2, .ret true]⟩

/-- `pyfsapfs_file_entry_get_file_mode` (pyfsapfs/pyfsapfs_file_entry.c:1635-1686).  Places: 0
`error`, 1 `exception`, 2 `integer_object`, 3 `pyfsapfs_file_entry`, 4 `result that is not kept`, 5
`threads allowed`, 6 `result`. -/
def pyfsapfs_file_entry_get_file_mode : Fn :=
  ⟨[loc, loc, loc, loc, loc, loc, loc],
   [.choice 1 2, .lend 3, .setn 6 1, .test 3 4 8, .none 5, .lend 1, .deref 1, .ret false, .none 5,
    .fresh 5, .deref 3, .choice 12 14, .setn 6 2, .goto 20, .choice 15 17, .setn 6 1, .goto 20,
    .test 0 18 19, .maybe 0, .setn 6 0, .live 5, .kill 5, .null 5, .testn 6 0 27 24,
    .testn 6 1 27 25, .testn 6 2 34 26, .choice 27 34, .none 5, .use 0, .lend 1, .kill 0, .null 0,
    .deref 1, .ret false, .none 5, .choice 36 38, .fresh 2, .goto 40, .null 2, .lend 1,
    .test 2 41 43, .deref 1, .ret false, .give 2, .none 1, .ret true]⟩

/-- `pyfsapfs_file_entry_get_name` (pyfsapfs/pyfsapfs_file_entry.c:1691-1807).  Places: 0
`Py_None`, 1 `error`, 2 `exception`, 3 `pyfsapfs_file_entry`, 4 `result that is not kept`, 5
`string_object`, 6 `threads allowed`, 7 `utf8_string`, 8 `result`. -/
def pyfsapfs_file_entry_get_name : Fn :=
  ⟨[loc, loc, loc, loc, loc, loc, loc, loc, loc],
   [.lend 0, .choice 2 3, .lend 3, .setn 8 1, .test 3 5 9, .none 6, .lend 2, .deref 2, .ret false,
    .none 6, .fresh 6, .deref 3, .choice 13 15, .setn 8 2, .goto 21, .choice 16 18, .setn 8 1,
    .goto 21, .test 1 19 20, .maybe 1, .setn 8 0, .live 6, .kill 6, .null 6, .testn 8 0 28 25,
    .testn 8 1 34 26, .testn 8 2 34 27, .choice 28 34, .none 6, .use 1, .lend 2, .kill 1, .null 1,
    .goto 102, .testn 8 0 38 35, .testn 8 1 39 36, .testn 8 2 38 37, .choice 39 38, .choice 39 49,
    .none 6, .use 0, .test 0 43 42, .fresh 0, .test 0 44 46, .deref 2, .ret false, .give 0, .none 2,
    .ret true, .choice 50 52, .fresh 7, .goto 53, .null 7, .test 7 54 57, .none 6, .lend 2,
    .goto 102, .none 6, .fresh 6, .deref 3, .use 7, .choice 62 64, .setn 8 2, .goto 70,
    .choice 65 67, .setn 8 1, .goto 70, .test 1 68 69, .maybe 1, .setn 8 0, .live 6, .kill 6,
    .null 6, .testn 8 0 77 74, .testn 8 1 77 75, .testn 8 2 83 76, .choice 77 83, .none 6, .use 1,
    .lend 2, .kill 1, .null 1, .goto 102, .none 6, .use 7, .choice 86 88, .fresh 5, .goto 90,
    .null 5, .lend 2, .test 5 91 94, .none 6, .lend 2, .goto 102, .none 6, .kill 7, .test 5 97 99,
    .deref 2, .ret false, .give 5, .none 2, .ret true, .test 7 105 103, .none 6, .kill 7, .deref 2,
    .ret false]⟩

/-- `pyfsapfs_file_entry_get_symbolic_link_target` (pyfsapfs/pyfsapfs_file_entry.c:1812-1920).
Places: 0 `Py_None`, 1 `error`, 2 `exception`, 3 `pyfsapfs_file_entry`, 4 `result that is not
kept`, 5 `string_object`, 6 `target`, 7 `threads allowed`, 8 `result`. -/
def pyfsapfs_file_entry_get_symbolic_link_target : Fn :=
  ⟨[loc, loc, loc, loc, loc, loc, loc, loc, loc],
   [.lend 0, .choice 2 3, .lend 3, .setn 8 1, .test 3 5 9, .none 7, .lend 2, .deref 2, .ret false,
    .none 7, .fresh 7, .deref 3, .choice 13 15, .setn 8 2, .goto 21, .choice 16 18, .setn 8 1,
    .goto 21, .test 1 19 20, .maybe 1, .setn 8 0, .live 7, .kill 7, .null 7, .testn 8 0 28 25,
    .testn 8 1 34 26, .testn 8 2 34 27, .choice 28 34, .none 7, .use 1, .lend 2, .kill 1, .null 1,
    .goto 98, .testn 8 0 38 35, .testn 8 1 39 36, .testn 8 2 38 37, .choice 39 38, .choice 39 49,
    .none 7, .use 0, .test 0 43 42, .fresh 0, .test 0 44 46, .deref 2, .ret false, .give 0, .none 2,
    .ret true, .choice 50 52, .fresh 6, .goto 53, .null 6, .test 6 54 57, .none 7, .lend 2,
    .goto 98, .none 7, .fresh 7, .deref 3, .use 6, .choice 62 64, .setn 8 2, .goto 70,
    .choice 65 67, .setn 8 1, .goto 70, .test 1 68 69, .maybe 1, .setn 8 0, .live 7, .kill 7,
    .null 7, .testn 8 0 77 74, .testn 8 1 77 75, .testn 8 2 83 76, .choice 77 83, .none 7, .use 1,
    .lend 2, .kill 1, .null 1, .goto 98, .none 7, .use 6, .choice 86 88, .fresh 5, .goto 90,
    .null 5, .lend 2, .none 7, .kill 6, .test 5 93 95, .deref 2, .ret false, .give 5, .none 2,
    .ret true, .test 6 101 99, .none 7, .kill 6, .deref 2, .ret false]⟩

/-- `pyfsapfs_file_entry_get_number_of_extended_attributes`
(pyfsapfs/pyfsapfs_file_entry.c:1925-1976).  Places: 0 `error`, 1 `exception`, 2 `integer_object`,
3 `pyfsapfs_file_entry`, 4 `result that is not kept`, 5 `threads allowed`, 6 `result`. -/
def pyfsapfs_file_entry_get_number_of_extended_attributes : Fn :=
  ⟨[loc, loc, loc, loc, loc, loc, loc],
   [.choice 1 2, .lend 3, .setn 6 1, .test 3 4 8, .none 5, .lend 1, .deref 1, .ret false, .none 5,
    .fresh 5, .deref 3, .choice 12 14, .setn 6 2, .goto 20, .choice 15 17, .setn 6 1, .goto 20,
    .test 0 18 19, .maybe 0, .setn 6 0, .live 5, .kill 5, .null 5, .testn 6 0 27 24,
    .testn 6 1 27 25, .testn 6 2 34 26, .choice 27 34, .none 5, .use 0, .lend 1, .kill 0, .null 0,
    .deref 1, .ret false, .none 5, .choice 36 38, .fresh 2, .goto 40, .null 2, .lend 1,
    .test 2 41 43, .deref 1, .ret false, .give 2, .none 1, .ret true]⟩

/-- `pyfsapfs_file_entry_get_extended_attribute_by_index`
(pyfsapfs/pyfsapfs_file_entry.c:1981-2047).  Places: 0 `error`, 1 `exception`, 2
`extended_attribute`, 3 `extended_attribute_object`, 4 `pyfsapfs_file_entry`, 5 `result that is not
kept`, 6 `threads allowed`, 7 `result`. -/
def pyfsapfs_file_entry_get_extended_attribute_by_index : Fn :=
  ⟨[loc, loc, loc, loc, loc, loc, loc, loc],
   [.choice 1 2, .lend 4, .setn 7 1, .test 4 4 8, .none 6, .lend 1, .deref 1, .ret false, .none 6,
    .fresh 6, .deref 4, .choice 12 16, .test 2 13 59, .fresh 2, .setn 7 2, .goto 22, .choice 17 19,
    .setn 7 1, .goto 22, .test 0 20 21, .maybe 0, .setn 7 0, .live 6, .kill 6, .null 6,
    .testn 7 0 29 26, .testn 7 1 29 27, .testn 7 2 35 28, .choice 29 35, .none 6, .use 0, .lend 1,
    .kill 0, .null 0, .goto 54, .none 6, .use 2, .use 4, .choice 39 42, .fresh 3, .give 2, .goto 44,
    .null 3, .lend 1, .test 3 45 48, .none 6, .lend 1, .goto 54, .test 3 49 51, .deref 1,
    .ret false, .give 3, .none 1, .ret true, .test 2 57 55, .kill 2, .null 2, .deref 1, .ret false,
    .goto 59]⟩

/-- `pyfsapfs_file_entry_get_extended_attribute` (pyfsapfs/pyfsapfs_file_entry.c:2052-2075).
Places: 0 `exception`, 1 `extended_attribute_object`, 2 `result that is not kept`. -/
def pyfsapfs_file_entry_get_extended_attribute : Fn :=
  ⟨[loc, loc, loc],
   [.choice 4 1, .lend 0, .deref 0, .ret false, .choice 5 7, .fresh 1, .goto 9, .null 1, .lend 0,
    .test 1 10 12, .deref 0, .ret false, .give 1, .none 0, .ret true]⟩

/-- `pyfsapfs_file_entry_get_extended_attributes` (pyfsapfs/pyfsapfs_file_entry.c:2080-2139).
Places: 0 `error`, 1 `exception`, 2 `pyfsapfs_file_entry`, 3 `result that is not kept`, 4
`sequence_object`, 5 `threads allowed`, 6 `result`. -/
def pyfsapfs_file_entry_get_extended_attributes : Fn :=
  ⟨[loc, loc, loc, loc, loc, loc, loc],
   [.choice 1 2, .lend 2, .setn 6 1, .test 2 4 8, .none 5, .lend 1, .deref 1, .ret false, .none 5,
    .fresh 5, .deref 2, .choice 12 14, .setn 6 2, .goto 20, .choice 15 17, .setn 6 1, .goto 20,
    .test 0 18 19, .maybe 0, .setn 6 0, .live 5, .kill 5, .null 5, .testn 6 0 27 24,
    .testn 6 1 27 25, .testn 6 2 34 26, .choice 27 34, .none 5, .use 0, .lend 1, .kill 0, .null 0,
    .deref 1, .ret false, .none 5, .use 2, .choice 37 39, .fresh 4, .goto 41, .null 4, .lend 1,
    .test 4 42 47, .none 5, .use 0, .lend 1, .deref 1, .ret false, .test 4 48 50, .deref 1,
    .ret false, .give 4, .none 1, .ret true]⟩

/-- `pyfsapfs_file_entry_has_extended_attribute_by_name`
(pyfsapfs/pyfsapfs_file_entry.c:2144-2213).  Places: 0 `Py_False`, 1 `Py_True`, 2 `error`, 3
`exception`, 4 `extended_attribute_name`, 5 `pyfsapfs_file_entry`, 6 `threads allowed`, 7 `result`. -/
def pyfsapfs_file_entry_has_extended_attribute_by_name : Fn :=
  ⟨[loc, loc, loc, loc, loc, loc, loc, loc],
   [.lend 1, .lend 0, .choice 3 4, .lend 5, .setn 7 1, .test 5 6 10, .none 6, .lend 3, .deref 3,
    .ret false, .none 6, .choice 12 14, .lend 4, .goto 17, .lend 3, .deref 3, .ret false, .use 4,
    .none 6, .fresh 6, .deref 5, .use 4, .choice 23 25, .setn 7 2, .goto 31, .choice 26 28,
    .setn 7 1, .goto 31, .test 2 29 30, .maybe 2, .setn 7 0, .live 6, .kill 6, .null 6,
    .testn 7 0 38 35, .testn 7 1 45 36, .testn 7 2 45 37, .choice 38 45, .none 6, .use 2, .lend 3,
    .kill 2, .null 2, .deref 3, .ret false, .testn 7 0 49 46, .testn 7 1 59 47, .testn 7 2 49 48,
    .choice 49 59, .none 6, .use 1, .test 1 53 52, .fresh 1, .test 1 54 56, .deref 3, .ret false,
    .give 1, .none 3, .ret true, .none 6, .use 0, .test 0 63 62, .fresh 0, .test 0 64 66, .deref 3,
    .ret false, .give 0, .none 3, .ret true]⟩

/-- `pyfsapfs_file_entry_get_extended_attribute_by_name`
(pyfsapfs/pyfsapfs_file_entry.c:2218-2309).  Places: 0 `Py_None`, 1 `error`, 2 `exception`, 3
`extended_attribute`, 4 `extended_attribute_name`, 5 `extended_attribute_object`, 6
`pyfsapfs_file_entry`, 7 `result that is not kept`, 8 `threads allowed`, 9 `result`. -/
def pyfsapfs_file_entry_get_extended_attribute_by_name : Fn :=
  ⟨[loc, loc, loc, loc, loc, loc, loc, loc, loc, loc],
   [.lend 0, .choice 2 3, .lend 6, .setn 9 1, .test 6 5 9, .none 8, .lend 2, .deref 2, .ret false,
    .none 8, .choice 11 13, .lend 4, .goto 15, .lend 2, .goto 77, .use 4, .none 8, .fresh 8,
    .deref 6, .use 4, .choice 21 25, .test 3 22 82, .fresh 3, .setn 9 2, .goto 31, .choice 26 28,
    .setn 9 1, .goto 31, .test 1 29 30, .maybe 1, .setn 9 0, .live 8, .kill 8, .null 8,
    .testn 9 0 38 35, .testn 9 1 44 36, .testn 9 2 44 37, .choice 38 44, .none 8, .use 1, .lend 2,
    .kill 1, .null 1, .goto 77, .testn 9 0 58 45, .testn 9 1 48 46, .testn 9 2 58 47, .choice 48 58,
    .none 8, .use 0, .test 0 52 51, .fresh 0, .test 0 53 55, .deref 2, .ret false, .give 0, .none 2,
    .ret true, .none 8, .use 3, .use 6, .choice 62 65, .fresh 5, .give 3, .goto 67, .null 5,
    .lend 2, .test 5 68 71, .none 8, .lend 2, .goto 77, .test 5 72 74, .deref 2, .ret false,
    .give 5, .none 2, .ret true, .test 3 80 78, .kill 3, .null 3, .deref 2, .ret false, .goto 82]⟩

/-- `pyfsapfs_file_entry_get_number_of_sub_file_entries`
(pyfsapfs/pyfsapfs_file_entry.c:2314-2365).  Places: 0 `error`, 1 `exception`, 2 `integer_object`,
3 `pyfsapfs_file_entry`, 4 `result that is not kept`, 5 `threads allowed`, 6 `result`. -/
def pyfsapfs_file_entry_get_number_of_sub_file_entries : Fn :=
  ⟨[loc, loc, loc, loc, loc, loc, loc],
   [.choice 1 2, .lend 3, .setn 6 1, .test 3 4 8, .none 5, .lend 1, .deref 1, .ret false, .none 5,
    .fresh 5, .deref 3, .choice 12 14, .setn 6 2, .goto 20, .choice 15 17, .setn 6 1, .goto 20,
    .test 0 18 19, .maybe 0, .setn 6 0, .live 5, .kill 5, .null 5, .testn 6 0 27 24,
    .testn 6 1 27 25, .testn 6 2 34 26, .choice 27 34, .none 5, .use 0, .lend 1, .kill 0, .null 0,
    .deref 1, .ret false, .none 5, .choice 36 38, .fresh 2, .goto 40, .null 2, .lend 1,
    .test 2 41 43, .deref 1, .ret false, .give 2, .none 1, .ret true]⟩

/-- `pyfsapfs_file_entry_get_sub_file_entry_by_index` (pyfsapfs/pyfsapfs_file_entry.c:2370-2436).
Places: 0 `error`, 1 `exception`, 2 `file_entry_object`, 3 `pyfsapfs_file_entry`, 4 `result that is
not kept`, 5 `sub_file_entry`, 6 `threads allowed`, 7 `result`. -/
def pyfsapfs_file_entry_get_sub_file_entry_by_index : Fn :=
  ⟨[loc, loc, loc, loc, loc, loc, loc, loc],
   [.choice 1 2, .lend 3, .setn 7 1, .test 3 4 8, .none 6, .lend 1, .deref 1, .ret false, .none 6,
    .fresh 6, .deref 3, .choice 12 16, .test 5 13 56, .fresh 5, .setn 7 2, .goto 19, .test 0 17 18,
    .maybe 0, .setn 7 0, .live 6, .kill 6, .null 6, .testn 7 0 26 23, .testn 7 1 26 24,
    .testn 7 2 32 25, .choice 26 32, .none 6, .use 0, .lend 1, .kill 0, .null 0, .goto 51, .deref 3,
    .none 6, .use 5, .choice 36 39, .fresh 2, .give 5, .goto 41, .null 2, .lend 1, .test 2 42 45,
    .none 6, .lend 1, .goto 51, .test 2 46 48, .deref 1, .ret false, .give 2, .none 1, .ret true,
    .test 5 54 52, .kill 5, .null 5, .deref 1, .ret false, .goto 56]⟩

/-- `pyfsapfs_file_entry_get_sub_file_entry` (pyfsapfs/pyfsapfs_file_entry.c:2441-2464).  Places: 0
`exception`, 1 `file_entry_object`, 2 `result that is not kept`. -/
def pyfsapfs_file_entry_get_sub_file_entry : Fn :=
  ⟨[loc, loc, loc],
   [.choice 4 1, .lend 0, .deref 0, .ret false, .choice 5 7, .fresh 1, .goto 9, .null 1, .lend 0,
    .test 1 10 12, .deref 0, .ret false, .give 1, .none 0, .ret true]⟩

/-- `pyfsapfs_file_entry_get_sub_file_entries` (pyfsapfs/pyfsapfs_file_entry.c:2469-2528).  Places:
0 `error`, 1 `exception`, 2 `pyfsapfs_file_entry`, 3 `result that is not kept`, 4
`sequence_object`, 5 `threads allowed`, 6 `result`. -/
def pyfsapfs_file_entry_get_sub_file_entries : Fn :=
  ⟨[loc, loc, loc, loc, loc, loc, loc],
   [.choice 1 2, .lend 2, .setn 6 1, .test 2 4 8, .none 5, .lend 1, .deref 1, .ret false, .none 5,
    .fresh 5, .deref 2, .choice 12 14, .setn 6 2, .goto 20, .choice 15 17, .setn 6 1, .goto 20,
    .test 0 18 19, .maybe 0, .setn 6 0, .live 5, .kill 5, .null 5, .testn 6 0 27 24,
    .testn 6 1 27 25, .testn 6 2 34 26, .choice 27 34, .none 5, .use 0, .lend 1, .kill 0, .null 0,
    .deref 1, .ret false, .none 5, .use 2, .choice 37 39, .fresh 4, .goto 41, .null 4, .lend 1,
    .test 4 42 47, .none 5, .use 0, .lend 1, .deref 1, .ret false, .test 4 48 50, .deref 1,
    .ret false, .give 4, .none 1, .ret true]⟩

/-- `pyfsapfs_file_entry_get_sub_file_entry_by_name` (pyfsapfs/pyfsapfs_file_entry.c:2533-2622).
Places: 0 `Py_None`, 1 `error`, 2 `exception`, 3 `file_entry_object`, 4 `pyfsapfs_file_entry`, 5
`result that is not kept`, 6 `sub_file_entry`, 7 `threads allowed`, 8 `utf8_name`, 9 `result`. -/
def pyfsapfs_file_entry_get_sub_file_entry_by_name : Fn :=
  ⟨[loc, loc, loc, loc, loc, loc, loc, loc, loc, loc],
   [.lend 0, .choice 2 3, .lend 4, .setn 9 1, .test 4 5 9, .none 7, .lend 2, .deref 2, .ret false,
    .none 7, .choice 11 13, .lend 8, .goto 15, .lend 2, .goto 77, .use 8, .none 7, .fresh 7,
    .deref 4, .use 8, .choice 21 25, .test 6 22 82, .fresh 6, .setn 9 2, .goto 31, .choice 26 28,
    .setn 9 1, .goto 31, .test 1 29 30, .maybe 1, .setn 9 0, .live 7, .kill 7, .null 7,
    .testn 9 0 38 35, .testn 9 1 44 36, .testn 9 2 44 37, .choice 38 44, .none 7, .use 1, .lend 2,
    .kill 1, .null 1, .goto 77, .testn 9 0 58 45, .testn 9 1 48 46, .testn 9 2 58 47, .choice 48 58,
    .none 7, .use 0, .test 0 52 51, .fresh 0, .test 0 53 55, .deref 2, .ret false, .give 0, .none 2,
    .ret true, .deref 4, .none 7, .use 6, .choice 62 65, .fresh 3, .give 6, .goto 67, .null 3,
    .lend 2, .test 3 68 71, .none 7, .lend 2, .goto 77, .test 3 72 74, .deref 2, .ret false,
    .give 3, .none 2, .ret true, .test 6 80 78, .kill 6, .null 6, .deref 2, .ret false, .goto 82]⟩

/-- `pyfsapfs_file_entry_read_buffer` (pyfsapfs/pyfsapfs_file_entry.c:2627-2847).  Places: 0
`buffer`, 1 `error`, 2 `exception`, 3 `integer_object`, 4 `pyfsapfs_file_entry`, 5 `result that is
not kept`, 6 `string_object`, 7 `threads allowed`, 8 `read_count`, 9 `result`. -/
def pyfsapfs_file_entry_read_buffer : Fn :=
  ⟨[loc, loc, loc, loc, loc, loc, loc, loc, loc, loc],
   [.choice 1 2, .lend 4, .setn 8 1, .setn 9 1, .test 4 5 9, .none 7, .lend 2, .deref 2, .ret false,
    .none 7, .choice 11 14, .choice 12 17, .lend 3, .goto 17, .lend 2, .deref 2, .ret false,
    .test 3 18 20, .setn 9 1, .goto 39, .none 7, .deref 3, .use 3, .choice 24 26, .setn 9 2,
    .goto 31, .choice 27 29, .setn 9 1, .goto 31, .lend 2, .setn 9 0, .testn 9 0 35 32,
    .testn 9 1 39 33, .testn 9 2 39 34, .choice 35 39, .none 7, .lend 2, .deref 2, .ret false,
    .testn 9 0 43 40, .testn 9 1 57 41, .testn 9 2 43 42, .choice 43 57, .none 7, .use 3, .use 3,
    .choice 89 47, .choice 50 48, .test 1 49 50, .maybe 1, .none 7, .use 1, .lend 2, .kill 1,
    .null 1, .deref 2, .ret false, .test 3 59 58, .choice 59 85, .none 7, .fresh 7, .deref 4,
    .choice 63 65, .setn 9 2, .goto 71, .choice 66 68, .setn 9 1, .goto 71, .test 1 69 70, .maybe 1,
    .setn 9 0, .live 7, .kill 7, .null 7, .testn 9 0 78 75, .testn 9 1 78 76, .testn 9 2 89 77,
    .choice 78 89, .none 7, .use 1, .lend 2, .kill 1, .null 1, .deref 2, .ret false, .none 7,
    .lend 2, .deref 2, .ret false, .choice 90 102, .none 7, .choice 92 94, .fresh 6, .goto 96,
    .null 6, .lend 2, .test 6 97 99, .deref 2, .ret false, .give 6, .none 2, .ret true,
    .choice 103 107, .none 7, .lend 2, .deref 2, .ret false, .choice 109 108, .choice 109 113,
    .none 7, .lend 2, .deref 2, .ret false, .none 7, .choice 115 117, .fresh 6, .goto 119, .null 6,
    .lend 2, .none 7, .deref 6, .use 6, .lend 0, .none 7, .fresh 7, .deref 4, .use 0,
    .choice 128 130, .setn 8 2, .goto 136, .choice 131 133, .setn 8 1, .goto 136, .test 1 134 135,
    .maybe 1, .setn 8 0, .live 7, .kill 7, .null 7, .testn 8 0 143 140, .testn 8 1 153 141,
    .testn 8 2 153 142, .choice 143 153, .none 7, .use 1, .lend 2, .kill 1, .null 1, .none 7,
    .use 6, .kill 6, .deref 2, .ret false, .none 7, .deref 6, .choice 164 156, .kill 6, .null 6,
    .lend 2, .none 7, .use 6, .kill 6, .deref 2, .ret false, .test 6 165 167, .deref 2, .ret false,
    .give 6, .none 2, .ret true]⟩

/-- `pyfsapfs_file_entry_read_buffer_at_offset` (pyfsapfs/pyfsapfs_file_entry.c:2852-3051).
Places: 0 `buffer`, 1 `error`, 2 `exception`, 3 `integer_object`, 4 `pyfsapfs_file_entry`, 5
`result that is not kept`, 6 `string_object`, 7 `threads allowed`, 8 `read_count`, 9 `result`. -/
def pyfsapfs_file_entry_read_buffer_at_offset : Fn :=
  ⟨[loc, loc, loc, loc, loc, loc, loc, loc, loc, loc],
   [.choice 1 2, .lend 4, .setn 8 1, .setn 9 1, .test 4 5 9, .none 7, .lend 2, .deref 2, .ret false,
    .none 7, .choice 11 13, .lend 3, .goto 16, .lend 2, .deref 2, .ret false, .none 7, .deref 3,
    .use 3, .choice 20 22, .setn 9 2, .goto 27, .choice 23 25, .setn 9 1, .goto 27, .lend 2,
    .setn 9 0, .testn 9 0 31 28, .testn 9 1 35 29, .testn 9 2 35 30, .choice 31 35, .none 7,
    .lend 2, .deref 2, .ret false, .testn 9 0 39 36, .testn 9 1 53 37, .testn 9 2 39 38,
    .choice 39 53, .none 7, .use 3, .use 3, .choice 57 43, .choice 46 44, .test 1 45 46, .maybe 1,
    .none 7, .use 1, .lend 2, .kill 1, .null 1, .deref 2, .ret false, .none 7, .lend 2, .deref 2,
    .ret false, .choice 58 70, .none 7, .choice 60 62, .fresh 6, .goto 64, .null 6, .lend 2,
    .test 6 65 67, .deref 2, .ret false, .give 6, .none 2, .ret true, .choice 71 75, .none 7,
    .lend 2, .deref 2, .ret false, .choice 77 76, .choice 77 81, .none 7, .lend 2, .deref 2,
    .ret false, .choice 82 86, .none 7, .lend 2, .deref 2, .ret false, .none 7, .choice 88 90,
    .fresh 6, .goto 92, .null 6, .lend 2, .none 7, .deref 6, .use 6, .lend 0, .none 7, .fresh 7,
    .deref 4, .use 0, .choice 101 103, .setn 8 2, .goto 109, .choice 104 106, .setn 8 1, .goto 109,
    .test 1 107 108, .maybe 1, .setn 8 0, .live 7, .kill 7, .null 7, .testn 8 0 116 113,
    .testn 8 1 126 114, .testn 8 2 126 115, .choice 116 126, .none 7, .use 1, .lend 2, .kill 1,
    .null 1, .none 7, .use 6, .kill 6, .deref 2, .ret false, .none 7, .deref 6, .choice 137 129,
    .kill 6, .null 6, .lend 2, .none 7, .use 6, .kill 6, .deref 2, .ret false, .test 6 138 140,
    .deref 2, .ret false, .give 6, .none 2, .ret true]⟩

/-- `pyfsapfs_file_entry_seek_offset` (pyfsapfs/pyfsapfs_file_entry.c:3056-3113).  Places: 0
`Py_None`, 1 `error`, 2 `exception`, 3 `pyfsapfs_file_entry`, 4 `threads allowed`, 5 `offset`. -/
def pyfsapfs_file_entry_seek_offset : Fn :=
  ⟨[loc, loc, loc, loc, loc, loc],
   [.lend 0, .choice 2 3, .lend 3, .setn 5 1, .test 3 5 9, .none 4, .lend 2, .deref 2, .ret false,
    .none 4, .choice 14 11, .lend 2, .deref 2, .ret false, .none 4, .fresh 4, .deref 3,
    .choice 18 20, .setn 5 2, .goto 26, .choice 21 23, .setn 5 1, .goto 26, .test 1 24 25, .maybe 1,
    .setn 5 0, .live 4, .kill 4, .null 4, .testn 5 0 33 30, .testn 5 1 40 31, .testn 5 2 40 32,
    .choice 33 40, .none 4, .use 1, .lend 2, .kill 1, .null 1, .deref 2, .ret false, .none 4,
    .use 0, .test 0 44 43, .fresh 0, .test 0 45 47, .deref 2, .ret false, .give 0, .none 2,
    .ret true]⟩

/-- `pyfsapfs_file_entry_get_offset` (pyfsapfs/pyfsapfs_file_entry.c:3118-3172).  Places: 0
`Py_None`, 1 `error`, 2 `exception`, 3 `integer_object`, 4 `pyfsapfs_file_entry`, 5 `result that is
not kept`, 6 `threads allowed`, 7 `result`. -/
def pyfsapfs_file_entry_get_offset : Fn :=
  ⟨[loc, loc, loc, loc, loc, loc, loc, loc],
   [.lend 0, .choice 2 3, .lend 4, .setn 7 1, .test 4 5 9, .none 6, .lend 2, .deref 2, .ret false,
    .none 6, .fresh 6, .deref 4, .choice 13 15, .setn 7 2, .goto 21, .choice 16 18, .setn 7 1,
    .goto 21, .test 1 19 20, .maybe 1, .setn 7 0, .live 6, .kill 6, .null 6, .testn 7 0 28 25,
    .testn 7 1 35 26, .testn 7 2 35 27, .choice 28 35, .none 6, .use 1, .lend 2, .kill 1, .null 1,
    .deref 2, .ret false, .testn 7 0 49 36, .testn 7 1 39 37, .testn 7 2 49 38, .choice 39 49,
    .none 6, .use 0, .test 0 43 42, .fresh 0, .test 0 44 46, .deref 2, .ret false, .give 0, .none 2,
    .ret true, .none 6, .choice 51 53, .fresh 3, .goto 55, .null 3, .lend 2, .test 3 56 58,
    .deref 2, .ret false, .give 3, .none 2, .ret true]⟩

/-- `pyfsapfs_file_entry_get_size` (pyfsapfs/pyfsapfs_file_entry.c:3177-3224).  Places: 0 `error`,
1 `exception`, 2 `integer_object`, 3 `pyfsapfs_file_entry`, 4 `result that is not kept`, 5 `threads
allowed`, 6 `result`. -/
def pyfsapfs_file_entry_get_size : Fn :=
  ⟨[loc, loc, loc, loc, loc, loc, loc],
   [.choice 1 2, .lend 3, .setn 6 1, .test 3 4 8, .none 5, .lend 1, .deref 1, .ret false, .none 5,
    .fresh 5, .deref 3, .choice 12 14, .setn 6 2, .goto 20, .choice 15 17, .setn 6 1, .goto 20,
    .test 0 18 19, .maybe 0, .setn 6 0, .live 5, .kill 5, .null 5, .testn 6 0 27 24,
    .testn 6 1 27 25, .testn 6 2 34 26, .choice 27 34, .none 5, .use 0, .lend 1, .kill 0, .null 0,
    .deref 1, .ret false, .none 5, .choice 36 38, .fresh 2, .goto 40, .null 2, .lend 1,
    .test 2 41 43, .deref 1, .ret false, .give 2, .none 1, .ret true]⟩

/-- `pyfsapfs_file_entry_get_number_of_extents` (pyfsapfs/pyfsapfs_file_entry.c:3229-3280).
Places: 0 `error`, 1 `exception`, 2 `integer_object`, 3 `pyfsapfs_file_entry`, 4 `result that is
not kept`, 5 `threads allowed`, 6 `result`. -/
def pyfsapfs_file_entry_get_number_of_extents : Fn :=
  ⟨[loc, loc, loc, loc, loc, loc, loc],
   [.choice 1 2, .lend 3, .setn 6 1, .test 3 4 8, .none 5, .lend 1, .deref 1, .ret false, .none 5,
    .fresh 5, .deref 3, .choice 12 14, .setn 6 2, .goto 20, .choice 15 17, .setn 6 1, .goto 20,
    .test 0 18 19, .maybe 0, .setn 6 0, .live 5, .kill 5, .null 5, .testn 6 0 27 24,
    .testn 6 1 27 25, .testn 6 2 34 26, .choice 27 34, .none 5, .use 0, .lend 1, .kill 0, .null 0,
    .deref 1, .ret false, .none 5, .choice 36 38, .fresh 2, .goto 40, .null 2, .lend 1,
    .test 2 41 43, .deref 1, .ret false, .give 2, .none 1, .ret true]⟩

/-- `pyfsapfs_file_entry_get_extent_by_index` (pyfsapfs/pyfsapfs_file_entry.c:3285-3386).  Places:
0 `error`, 1 `exception`, 2 `integer_object`, 3 `pyfsapfs_file_entry`, 4 `result that is not kept`,
5 `threads allowed`, 6 `tuple_object`, 7 `result`. -/
def pyfsapfs_file_entry_get_extent_by_index : Fn :=
  ⟨[loc, loc, loc, loc, loc, loc, loc, loc],
   [.choice 1 2, .lend 3, .setn 7 1, .test 3 4 8, .none 5, .lend 1, .deref 1, .ret false, .none 5,
    .fresh 5, .deref 3, .choice 12 14, .setn 7 2, .goto 20, .choice 15 17, .setn 7 1, .goto 20,
    .test 0 18 19, .maybe 0, .setn 7 0, .live 5, .kill 5, .null 5, .testn 7 0 27 24,
    .testn 7 1 27 25, .testn 7 2 33 26, .choice 27 33, .none 5, .use 0, .lend 1, .kill 0, .null 0,
    .goto 78, .none 5, .choice 35 37, .fresh 6, .goto 39, .null 6, .lend 1, .none 5, .choice 41 43,
    .fresh 2, .goto 45, .null 2, .lend 1, .none 5, .deref 6, .use 6, .use 2, .give 2, .none 5,
    .choice 52 54, .fresh 2, .goto 56, .null 2, .lend 1, .none 5, .deref 6, .use 6, .use 2, .give 2,
    .none 5, .choice 63 65, .fresh 2, .goto 67, .null 2, .lend 1, .none 5, .deref 6, .use 6, .use 2,
    .give 2, .test 6 73 75, .deref 1, .ret false, .give 6, .none 1, .ret true, .test 2 82 79,
    .none 5, .use 2, .kill 2, .test 6 86 83, .none 5, .use 6, .kill 6, .deref 1, .ret false]⟩

/-- `pyfsapfs_file_entry_get_extent` (pyfsapfs/pyfsapfs_file_entry.c:3391-3414).  Places: 0
`exception`, 1 `result that is not kept`, 2 `sequence_object`. -/
def pyfsapfs_file_entry_get_extent : Fn :=
  ⟨[loc, loc, loc],
   [.choice 4 1, .lend 0, .deref 0, .ret false, .choice 5 7, .fresh 2, .goto 9, .null 2, .lend 0,
    .test 2 10 12, .deref 0, .ret false, .give 2, .none 0, .ret true]⟩

/-- `pyfsapfs_file_object_io_handle_initialize` (pyfsapfs/pyfsapfs_file_object_io_handle.c:37-121).
 Places: 0 `*file_object_io_handle`, 1 `*file_object_io_handle->file_object`, 2 `exception`, 3
`file_object`, 4 `*file_object_io_handle at the start`, 5 `*file_object_io_handle->file_object is
set at the start`, 6 `*file_object_io_handle->members at the start`. -/
def pyfsapfs_file_object_io_handle_initialize : Fn :=
  ⟨[out, own 0, loc, loc, loc, part 0, part 0],
   [.choice 1 4, .lend 0, .setn 4 2, .goto 5, .setn 4 1, .choice 6 7, .lend 3, .test 0 17 8,
    .choice 9 11, .setn 6 1, .goto 17, .setn 6 2, .maybe 1, .test 1 16 14, .setn 5 2, .goto 17,
    .setn 5 1, .choice 18 28, .test 0 19 84, .none 2, .testn 6 1 23 21, .testn 5 2 22 23, .live 1,
    .testn 6 1 24 25, .none 1, .testn 4 1 26 27, .none 0, .ret false, .test 0 38 29, .none 2,
    .testn 6 1 33 31, .testn 5 2 32 33, .live 1, .testn 6 1 34 35, .none 1, .testn 4 1 36 37,
    .none 0, .ret false, .test 3 39 48, .none 2, .testn 6 1 43 41, .testn 5 2 42 43, .live 1,
    .testn 6 1 44 45, .none 1, .testn 4 1 46 47, .none 0, .ret false, .forget 1, .null 1,
    .choice 51 55, .fresh 0, .fresh 1, .kill 1, .goto 56, .null 0, .test 0 69 57, .use 0, .null 1,
    .deref 0, .copy 1 3, .deref 0, .use 1, .test 1 65 64, .fresh 1, .live 1, .none 2, .live 0,
    .ret true, .test 0 75 70, .kill 0, .null 1, .forget 1, .null 1, .null 0, .none 2,
    .testn 6 1 79 77, .testn 5 2 78 79, .live 1, .testn 6 1 80 81, .none 1, .testn 4 1 82 83,
    .none 0, .ret false, .goto 84]⟩

/-- `pyfsapfs_file_object_initialize` (pyfsapfs/pyfsapfs_file_object_io_handle.c:126-205).  Places:
0 `*handle`, 1 `exception`, 2 `file_object_io_handle`, 3 `*handle at the start`. -/
def pyfsapfs_file_object_initialize : Fn :=
  ⟨[out, loc, loc, loc],
   [.choice 1 4, .lend 0, .setn 3 2, .goto 5, .setn 3 1, .choice 6 11, .test 0 7 34, .none 1,
    .testn 3 1 9 10, .none 0, .ret false, .test 0 16 12, .none 1, .testn 3 1 14 15, .none 0,
    .ret false, .choice 17 27, .test 2 18 34, .fresh 2, .use 2, .choice 21 27, .test 0 22 34,
    .fresh 0, .give 2, .none 1, .live 0, .ret true, .test 2 30 28, .kill 2, .null 2, .none 1,
    .testn 3 1 32 33, .none 0, .ret false, .goto 34]⟩

/-- `pyfsapfs_file_object_io_handle_free` (pyfsapfs/pyfsapfs_file_object_io_handle.c:210-244).
Places: 0 `*file_object_io_handle`, 1 `*file_object_io_handle->file_object`, 2 `exception`, 3
`gil_state`. -/
def pyfsapfs_file_object_io_handle_free : Fn :=
  ⟨[arg, own 0, loc, loc],
   [.maybe 0, .test 0 3 2, .maybe 1, .choice 4 7, .test 0 5 25, .none 2, .ret false, .test 0 23 8,
    .none 3, .fresh 3, .deref 0, .live 3, .use 1, .kill 1, .live 3, .kill 0, .null 1, .forget 1,
    .null 1, .null 0, .live 3, .kill 3, .null 3, .none 2, .ret true, .goto 25]⟩

/-- `pyfsapfs_file_object_io_handle_clone` (pyfsapfs/pyfsapfs_file_object_io_handle.c:249-310).
Places: 0 `*destination_file_object_io_handle`, 1 `exception`, 2 `gil_state`, 3
`source_file_object_io_handle`, 4 `*destination_file_object_io_handle at the start`. -/
def pyfsapfs_file_object_io_handle_clone : Fn :=
  ⟨[out, loc, loc, loc, loc],
   [.choice 1 4, .lend 0, .setn 4 2, .goto 5, .setn 4 1, .choice 6 7, .lend 3, .choice 8 13,
    .test 0 9 42, .none 1, .testn 4 1 11 12, .none 0, .ret false, .test 0 18 14, .none 1,
    .testn 4 1 16 17, .none 0, .ret false, .test 3 19 23, .null 0, .none 1, .held 0, .ret true,
    .deref 3, .live 2, .deref 3, .choice 27 30, .test 0 28 42, .fresh 0, .goto 34, .none 1,
    .testn 4 1 32 33, .none 0, .ret false, .test 0 35 39, .none 1, .testn 4 1 37 38, .none 0,
    .ret false, .none 1, .held 0, .ret true, .goto 42]⟩

/-- `pyfsapfs_file_object_io_handle_open` (pyfsapfs/pyfsapfs_file_object_io_handle.c:315-372).
Places: 0 `exception`, 1 `file_object_io_handle`, 2 `gil_state`. -/
def pyfsapfs_file_object_io_handle_open : Fn :=
  ⟨[loc, loc, loc],
   [.choice 1 2, .lend 1, .test 1 3 5, .none 0, .ret false, .deref 1, .choice 7 9, .none 0,
    .ret false, .choice 10 13, .choice 11 13, .none 0, .ret false, .choice 14 16, .none 0,
    .ret false, .deref 1, .none 0, .ret true]⟩

/-- `pyfsapfs_file_object_io_handle_close` (pyfsapfs/pyfsapfs_file_object_io_handle.c:377-410).
Places: 0 `exception`, 1 `file_object_io_handle`, 2 `gil_state`. -/
def pyfsapfs_file_object_io_handle_close : Fn :=
  ⟨[loc, loc, loc],
   [.choice 1 2, .lend 1, .test 1 3 5, .none 0, .ret false, .deref 1, .choice 7 9, .none 0,
    .ret false, .deref 1, .none 0, .ret true]⟩

/-- `pyfsapfs_file_object_read_buffer` (pyfsapfs/pyfsapfs_file_object_io_handle.c:416-614).
Places: 0 `argument_size`, 1 `exception`, 2 `method_name`, 3 `method_result`, 4 `result that is not
kept`, 5 `safe_buffer`, 6 `read_count`, 7 `result`. -/
def pyfsapfs_file_object_read_buffer : Fn :=
  ⟨[loc, loc, loc, loc, loc, loc, loc, loc],
   [.setn 6 1, .setn 7 1, .choice 3 5, .none 1, .ret false, .choice 6 8, .none 1, .ret false,
    .choice 9 11, .none 1, .ret false, .choice 12 81, .choice 13 15, .fresh 2, .goto 17, .null 2,
    .lend 1, .choice 18 20, .fresh 0, .goto 22, .null 0, .lend 1, .null 1, .use 2, .use 0,
    .choice 26 28, .fresh 3, .goto 30, .null 3, .lend 1, .test 1 33 31, .null 1, .goto 83,
    .test 3 83 34, .deref 3, .use 3, .choice 37 39, .setn 7 2, .goto 44, .choice 40 42, .setn 7 1,
    .goto 44, .lend 1, .setn 7 0, .testn 7 0 83 45, .testn 7 1 48 46, .testn 7 2 48 47,
    .choice 83 48, .testn 7 0 52 49, .testn 7 1 83 50, .testn 7 2 52 51, .choice 83 52, .deref 3,
    .use 3, .choice 55 58, .lend 5, .setn 7 1, .goto 60, .lend 1, .setn 7 0, .testn 7 0 64 61,
    .testn 7 1 66 62, .testn 7 2 66 63, .choice 64 66, .null 1, .goto 83, .choice 83 67,
    .choice 68 70, .setn 6 0, .goto 74, .choice 71 73, .setn 6 1, .goto 74, .setn 6 2, .use 5,
    .use 3, .kill 3, .use 0, .kill 0, .use 2, .kill 2, .none 1, .ret true, .test 3 86 84, .use 3,
    .kill 3, .test 0 89 87, .use 0, .kill 0, .test 2 92 90, .use 2, .kill 2, .none 1, .ret false]⟩

/-- `pyfsapfs_file_object_io_handle_read` (pyfsapfs/pyfsapfs_file_object_io_handle.c:619-669).
Places: 0 `exception`, 1 `file_object_io_handle`, 2 `gil_state`, 3 `read_count`. -/
def pyfsapfs_file_object_io_handle_read : Fn :=
  ⟨[loc, loc, loc, loc],
   [.choice 1 2, .lend 1, .setn 3 1, .test 1 4 6, .none 0, .ret false, .none 2, .fresh 2, .deref 1,
    .live 2, .deref 1, .choice 12 14, .setn 3 2, .goto 18, .choice 15 17, .setn 3 1, .goto 18,
    .setn 3 0, .testn 3 0 27 19, .testn 3 1 22 20, .testn 3 2 22 21, .choice 27 22, .live 2,
    .kill 2, .null 2, .none 0, .ret true, .live 2, .kill 2, .null 2, .none 0, .ret false]⟩

/-- `pyfsapfs_file_object_write_buffer` (pyfsapfs/pyfsapfs_file_object_io_handle.c:675-799).
Places: 0 `argument_string`, 1 `exception`, 2 `method_name`, 3 `method_result`, 4 `result that is
not kept`. -/
def pyfsapfs_file_object_write_buffer : Fn :=
  ⟨[loc, loc, loc, loc, loc],
   [.choice 1 3, .none 1, .ret false, .choice 4 6, .none 1, .ret false, .choice 7 9, .none 1,
    .ret false, .choice 10 38, .choice 11 13, .fresh 2, .goto 15, .null 2, .lend 1, .choice 16 18,
    .fresh 0, .goto 20, .null 0, .lend 1, .null 1, .use 2, .use 0, .choice 24 26, .fresh 3,
    .goto 28, .null 3, .lend 1, .test 1 31 29, .null 1, .goto 40, .test 3 40 32, .use 3, .kill 3,
    .use 0, .kill 0, .use 2, .kill 2, .none 1, .ret true, .test 3 43 41, .use 3, .kill 3,
    .test 0 46 44, .use 0, .kill 0, .test 2 49 47, .use 2, .kill 2, .none 1, .ret false]⟩

/-- `pyfsapfs_file_object_io_handle_write` (pyfsapfs/pyfsapfs_file_object_io_handle.c:804-854).
Places: 0 `exception`, 1 `file_object_io_handle`, 2 `gil_state`, 3 `write_count`. -/
def pyfsapfs_file_object_io_handle_write : Fn :=
  ⟨[loc, loc, loc, loc],
   [.choice 1 2, .lend 1, .setn 3 1, .test 1 4 6, .none 0, .ret false, .none 2, .fresh 2, .deref 1,
    .live 2, .deref 1, .choice 12 14, .setn 3 2, .goto 18, .choice 15 17, .setn 3 1, .goto 18,
    .setn 3 0, .testn 3 0 27 19, .testn 3 1 22 20, .testn 3 2 22 21, .choice 27 22, .live 2,
    .kill 2, .null 2, .none 0, .ret true, .live 2, .kill 2, .null 2, .none 0, .ret false]⟩

/-- `pyfsapfs_file_object_seek_offset` (pyfsapfs/pyfsapfs_file_object_io_handle.c:860-999).
Places: 0 `argument_offset`, 1 `argument_whence`, 2 `exception`, 3 `method_name`, 4
`method_result`, 5 `result that is not kept`. -/
def pyfsapfs_file_object_seek_offset : Fn :=
  ⟨[loc, loc, loc, loc, loc, loc],
   [.choice 1 3, .none 2, .ret false, .choice 4 6, .none 2, .ret false, .choice 7 11, .choice 8 11,
    .choice 9 11, .none 2, .ret false, .choice 12 14, .fresh 3, .goto 16, .null 3, .lend 2,
    .choice 17 19, .fresh 0, .goto 21, .null 0, .lend 2, .choice 22 24, .fresh 1, .goto 26, .null 1,
    .lend 2, .null 2, .use 3, .use 0, .use 1, .choice 31 33, .fresh 4, .goto 35, .null 4, .lend 2,
    .test 2 38 36, .null 2, .goto 49, .test 4 49 39, .use 4, .kill 4, .use 1, .kill 1, .use 0,
    .kill 0, .use 3, .kill 3, .none 2, .ret true, .test 4 52 50, .use 4, .kill 4, .test 1 55 53,
    .use 1, .kill 1, .test 0 58 56, .use 0, .kill 0, .test 3 61 59, .use 3, .kill 3, .none 2,
    .ret false]⟩

/-- `pyfsapfs_file_object_get_offset` (pyfsapfs/pyfsapfs_file_object_io_handle.c:1005-1130).
Places: 0 `exception`, 1 `file_object`, 2 `method_name`, 3 `method_result`, 4 `result that is not
kept`, 5 `result`. -/
def pyfsapfs_file_object_get_offset : Fn :=
  ⟨[loc, loc, loc, loc, loc, loc],
   [.choice 1 2, .lend 1, .setn 5 1, .test 1 4 6, .none 0, .ret false, .choice 7 9, .none 0,
    .ret false, .choice 10 12, .fresh 2, .goto 14, .null 2, .lend 0, .null 0, .deref 1, .deref 2,
    .use 1, .use 2, .choice 20 22, .setn 5 2, .goto 23, .setn 5 1, .testn 5 0 34 24,
    .testn 5 1 27 25, .testn 5 2 34 26, .choice 27 34, .use 2, .kill 2, .choice 30 32, .fresh 2,
    .goto 34, .null 2, .lend 0, .null 0, .use 1, .use 2, .choice 38 40, .fresh 3, .goto 42, .null 3,
    .lend 0, .test 0 45 43, .null 0, .goto 55, .test 3 55 46, .use 3, .use 3, .choice 49 55, .use 3,
    .kill 3, .use 2, .kill 2, .none 0, .ret true, .test 3 58 56, .use 3, .kill 3, .test 2 61 59,
    .use 2, .kill 2, .none 0, .ret false]⟩

/-- `pyfsapfs_file_object_io_handle_seek_offset`
(pyfsapfs/pyfsapfs_file_object_io_handle.c:1135-1196).  Places: 0 `exception`, 1
`file_object_io_handle`, 2 `gil_state`. -/
def pyfsapfs_file_object_io_handle_seek_offset : Fn :=
  ⟨[loc, loc, loc],
   [.choice 1 2, .lend 1, .test 1 3 5, .none 0, .ret false, .none 2, .fresh 2, .deref 1, .live 2,
    .deref 1, .choice 11 20, .deref 1, .live 2, .deref 1, .choice 15 20, .live 2, .kill 2, .null 2,
    .none 0, .ret true, .live 2, .kill 2, .null 2, .none 0, .ret false]⟩

/-- `pyfsapfs_file_object_io_handle_exists` (pyfsapfs/pyfsapfs_file_object_io_handle.c:1201-1223).
Places: 0 `exception`, 1 `file_object_io_handle`, 2 `gil_state`. -/
def pyfsapfs_file_object_io_handle_exists : Fn :=
  ⟨[loc, loc, loc],
   [.choice 1 2, .lend 1, .test 1 3 5, .none 0, .ret false, .deref 1, .choice 7 9, .none 0,
    .ret true, .none 0, .ret true]⟩

/-- `pyfsapfs_file_object_io_handle_is_open` (pyfsapfs/pyfsapfs_file_object_io_handle.c:1228-1259).
 Places: 0 `exception`, 1 `file_object_io_handle`, 2 `gil_state`. -/
def pyfsapfs_file_object_io_handle_is_open : Fn :=
  ⟨[loc, loc, loc],
   [.choice 1 2, .lend 1, .test 1 3 5, .none 0, .ret false, .deref 1, .choice 7 9, .none 0,
    .ret false, .none 0, .ret true]⟩

/-- `pyfsapfs_file_object_get_size` (pyfsapfs/pyfsapfs_file_object_io_handle.c:1265-1366).  Places:
0 `exception`, 1 `method_name`, 2 `method_result`, 3 `result that is not kept`. -/
def pyfsapfs_file_object_get_size : Fn :=
  ⟨[loc, loc, loc, loc],
   [.choice 1 3, .none 0, .ret false, .choice 4 6, .none 0, .ret false, .choice 7 9, .fresh 1,
    .goto 11, .null 1, .lend 0, .null 0, .use 1, .choice 14 16, .fresh 2, .goto 18, .null 2,
    .lend 0, .test 0 21 19, .null 0, .goto 31, .test 2 31 22, .use 2, .use 2, .choice 25 31, .use 2,
    .kill 2, .use 1, .kill 1, .none 0, .ret true, .test 2 34 32, .use 2, .kill 2, .test 1 37 35,
    .use 1, .kill 1, .none 0, .ret false]⟩

/-- `pyfsapfs_file_object_io_handle_get_size`
(pyfsapfs/pyfsapfs_file_object_io_handle.c:1371-1523).  Places: 0 `exception`, 1
`file_object_io_handle`, 2 `file_object_io_handle->file_object`, 3 `gil_state`, 4 `method_name`, 5
`result that is not kept`, 6 `file_object_io_handle->file_object is set at the start`, 7
`file_object_io_handle->members at the start`, 8 `result`. -/
def pyfsapfs_file_object_io_handle_get_size : Fn :=
  ⟨[loc, loc, own 1, loc, loc, loc, part 1, part 1, loc],
   [.choice 1 2, .lend 1, .test 1 12 3, .choice 4 6, .setn 7 1, .goto 12, .setn 7 2, .maybe 2,
    .test 2 11 9, .setn 6 2, .goto 12, .setn 6 1, .setn 8 1, .test 1 14 21, .none 0,
    .testn 7 1 18 16, .testn 6 2 17 18, .live 2, .testn 7 1 19 20, .none 2, .ret false, .deref 1,
    .test 2 23 30, .none 0, .testn 7 1 27 25, .testn 6 2 26 27, .live 2, .testn 7 1 28 29, .none 2,
    .ret false, .none 3, .fresh 3, .live 3, .choice 34 36, .fresh 4, .goto 38, .null 4, .lend 0,
    .live 3, .null 0, .deref 1, .live 3, .deref 2, .deref 4, .use 2, .use 4, .choice 47 49,
    .setn 8 2, .goto 50, .setn 8 1, .testn 8 0 54 51, .testn 8 1 60 52, .testn 8 2 54 53,
    .choice 54 60, .deref 1, .live 3, .use 2, .deref 1, .use 2, .choice 90 98, .deref 1, .live 3,
    .use 2, .deref 1, .use 2, .choice 66 98, .deref 1, .live 3, .use 2, .deref 1, .use 2,
    .choice 72 98, .deref 1, .live 3, .use 2, .deref 1, .use 2, .choice 84 78, .deref 1, .live 3,
    .use 2, .deref 1, .use 2, .goto 98, .deref 1, .live 3, .use 2, .deref 1, .use 2, .choice 90 98,
    .live 3, .use 4, .kill 4, .live 3, .kill 3, .null 3, .none 0, .ret true, .test 4 102 99,
    .live 3, .use 4, .kill 4, .live 3, .kill 3, .null 3, .none 0, .ret true]⟩

/-- `pyfsapfs_string_new_from_guid` (pyfsapfs/pyfsapfs_guid.c:33-129).  Places: 0 `error`, 1
`exception`, 2 `guid`, 3 `result that is not kept`, 4 `string_object`. -/
def pyfsapfs_string_new_from_guid : Fn :=
  ⟨[loc, loc, loc, loc, loc],
   [.choice 1 4, .test 2 2 57, .fresh 2, .goto 11, .test 0 5 6, .maybe 0, .use 0, .lend 1, .kill 0,
    .null 0, .goto 52, .use 2, .choice 21 13, .choice 16 14, .test 0 15 16, .maybe 0, .use 0,
    .lend 1, .kill 0, .null 0, .goto 52, .use 2, .choice 31 23, .choice 26 24, .test 0 25 26,
    .maybe 0, .use 0, .lend 1, .kill 0, .null 0, .goto 52, .kill 2, .null 2, .choice 41 34,
    .test 0 35 36, .maybe 0, .use 0, .lend 1, .kill 0, .null 0, .goto 52, .choice 42 44, .fresh 4,
    .goto 46, .null 4, .lend 1, .test 4 47 49, .deref 1, .ret false, .give 4, .none 1, .ret true,
    .test 2 55 53, .kill 2, .null 2, .deref 1, .ret false, .goto 57]⟩

/-- `pyfsapfs_integer_signed_new_from_64bit` (pyfsapfs/pyfsapfs_integer.c:33-66).  Places: 0
`exception`, 1 `integer_object`, 2 `result that is not kept`. -/
def pyfsapfs_integer_signed_new_from_64bit : Fn :=
  ⟨[loc, loc, loc],
   [.choice 2 1, .choice 2 5, .lend 0, .deref 0, .ret false, .choice 6 8, .fresh 1, .goto 10,
    .null 1, .lend 0, .test 1 11 13, .deref 0, .ret false, .give 1, .none 0, .ret true]⟩

/-- `pyfsapfs_integer_unsigned_new_from_64bit` (pyfsapfs/pyfsapfs_integer.c:71-103).  Places: 0
`exception`, 1 `integer_object`, 2 `result that is not kept`. -/
def pyfsapfs_integer_unsigned_new_from_64bit : Fn :=
  ⟨[loc, loc, loc],
   [.choice 1 4, .lend 0, .deref 0, .ret false, .choice 5 7, .fresh 1, .goto 9, .null 1, .lend 0,
    .test 1 10 12, .deref 0, .ret false, .give 1, .none 0, .ret true]⟩

/-- `pyfsapfs_integer_signed_copy_to_64bit` (pyfsapfs/pyfsapfs_integer.c:108-244).  Places: 0
`exception`, 1 `integer_object`, 2 `result`. -/
def pyfsapfs_integer_signed_copy_to_64bit : Fn :=
  ⟨[loc, loc, loc],
   [.choice 1 2, .lend 1, .setn 2 1, .test 1 4 6, .none 0, .ret false, .null 0, .deref 1, .use 1,
    .choice 10 12, .setn 2 2, .goto 17, .choice 13 15, .setn 2 1, .goto 17, .lend 0, .setn 2 0,
    .testn 2 0 21 18, .testn 2 1 24 19, .testn 2 2 24 20, .choice 21 24, .null 0, .none 0,
    .ret false, .testn 2 0 28 25, .testn 2 1 32 26, .testn 2 2 28 27, .choice 28 32, .null 0,
    .use 1, .choice 32 31, .lend 0, .testn 2 0 38 33, .testn 2 1 36 34, .testn 2 2 38 35,
    .choice 36 38, .none 0, .ret false, .test 0 42 39, .null 0, .none 0, .ret false, .none 0,
    .ret true]⟩

/-- `pyfsapfs_integer_unsigned_copy_to_64bit` (pyfsapfs/pyfsapfs_integer.c:249-398).  Places: 0
`exception`, 1 `integer_object`, 2 `result`. -/
def pyfsapfs_integer_unsigned_copy_to_64bit : Fn :=
  ⟨[loc, loc, loc],
   [.choice 1 2, .lend 1, .setn 2 1, .test 1 4 6, .none 0, .ret false, .null 0, .deref 1, .use 1,
    .choice 10 12, .setn 2 2, .goto 17, .choice 13 15, .setn 2 1, .goto 17, .lend 0, .setn 2 0,
    .testn 2 0 21 18, .testn 2 1 24 19, .testn 2 2 24 20, .choice 21 24, .null 0, .none 0,
    .ret false, .testn 2 0 28 25, .testn 2 1 32 26, .testn 2 2 28 27, .choice 28 32, .null 0,
    .use 1, .choice 32 31, .lend 0, .testn 2 0 38 33, .testn 2 1 36 34, .testn 2 2 38 35,
    .choice 36 38, .none 0, .ret false, .test 0 42 39, .null 0, .none 0, .ret false, .choice 43 45,
    .none 0, .ret false, .none 0, .ret true]⟩

/-- `pyfsapfs_volume_new` (pyfsapfs/pyfsapfs_volume.c:270-318).  Places: 0 `exception`, 1
`parent_object`, 2 `pyfsapfs_volume`, 3 `pyfsapfs_volume->parent_object`, 4
`pyfsapfs_volume->volume`, 5 `result that is not kept`, 6 `volume`. -/
def pyfsapfs_volume_new : Fn :=
  ⟨[loc, loc, loc, own 2, own 2, loc, loc],
   [.choice 1 2, .lend 1, .maybe 6, .test 6 4 9, .lend 0, .deref 0, .held 6, .forget 6, .ret false,
    .forget 4, .null 4, .forget 3, .null 3, .choice 14 20, .fresh 2, .fresh 3, .kill 3, .fresh 4,
    .kill 4, .goto 22, .null 2, .lend 0, .test 2 23 25, .lend 0, .goto 45, .deref 2, .copy 4 6,
    .deref 2, .copy 3 1, .deref 2, .test 3 35 31, .deref 2, .use 3, .test 3 35 34, .fresh 3,
    .test 2 36 40, .deref 0, .held 6, .forget 6, .ret false, .give 2, .held 3, .live 4, .none 0,
    .ret true, .test 2 52 46, .use 2, .kill 2, .kill 3, .kill 4, .null 3, .null 4, .deref 0,
    .held 6, .forget 6, .ret false]⟩

/-- `pyfsapfs_volume_init` (pyfsapfs/pyfsapfs_volume.c:323-347).  Places: 0 `exception`, 1
`pyfsapfs_volume`. -/
def pyfsapfs_volume_init : Fn :=
  ⟨[loc, loc],
   [.choice 1 2, .lend 1, .test 1 3 6, .lend 0, .deref 0, .ret false, .deref 1, .lend 0, .deref 0,
    .ret false]⟩

/-- `pyfsapfs_volume_free` (pyfsapfs/pyfsapfs_volume.c:351-418).  Places: 0 `error`, 1 `exception`,
2 `pyfsapfs_volume`, 3 `pyfsapfs_volume->parent_object`, 4 `pyfsapfs_volume->volume`, 5 `threads
allowed`, 6 `result`. -/
def pyfsapfs_volume_free : Fn :=
  ⟨[loc, loc, loc, own 2, own 2, loc, loc],
   [.maybe 2, .test 2 4 2, .maybe 3, .maybe 4, .setn 6 1, .test 2 6 9, .none 5, .lend 1, .ret true,
    .none 5, .deref 2, .use 2, .deref 2, .test 4 37 14, .none 5, .fresh 5, .deref 2, .kill 4,
    .null 4, .choice 20 22, .setn 6 2, .goto 25, .test 0 23 24, .maybe 0, .setn 6 0, .live 5,
    .kill 5, .null 5, .testn 6 0 32 29, .testn 6 1 32 30, .testn 6 2 37 31, .choice 32 37, .none 5,
    .use 0, .lend 1, .kill 0, .null 0, .deref 2, .test 3 43 39, .deref 2, .none 5, .use 3, .kill 3,
    .kill 2, .null 3, .null 4, .ret true]⟩

/-- `pyfsapfs_volume_unlock` (pyfsapfs/pyfsapfs_volume.c:423-474).  Places: 0 `Py_False`, 1
`Py_True`, 2 `error`, 3 `exception`, 4 `pyfsapfs_volume`, 5 `threads allowed`, 6 `result`. -/
def pyfsapfs_volume_unlock : Fn :=
  ⟨[loc, loc, loc, loc, loc, loc, loc],
   [.lend 1, .lend 0, .choice 3 4, .lend 4, .setn 6 1, .test 4 6 10, .none 5, .lend 3, .deref 3,
    .ret false, .none 5, .fresh 5, .deref 4, .choice 14 16, .setn 6 2, .goto 22, .choice 17 19,
    .setn 6 1, .goto 22, .test 2 20 21, .maybe 2, .setn 6 0, .live 5, .kill 5, .null 5,
    .testn 6 0 29 26, .testn 6 1 36 27, .testn 6 2 36 28, .choice 29 36, .none 5, .use 2, .lend 3,
    .kill 2, .null 2, .deref 3, .ret false, .testn 6 0 40 37, .testn 6 1 50 38, .testn 6 2 40 39,
    .choice 40 50, .none 5, .use 1, .test 1 44 43, .fresh 1, .test 1 45 47, .deref 3, .ret false,
    .give 1, .none 3, .ret true, .none 5, .use 0, .test 0 54 53, .fresh 0, .test 0 55 57, .deref 3,
    .ret false, .give 0, .none 3, .ret true]⟩

/-- `pyfsapfs_volume_get_size` (pyfsapfs/pyfsapfs_volume.c:479-526).  Places: 0 `error`, 1
`exception`, 2 `integer_object`, 3 `pyfsapfs_volume`, 4 `result that is not kept`, 5 `threads
allowed`, 6 `result`. -/
def pyfsapfs_volume_get_size : Fn :=
  ⟨[loc, loc, loc, loc, loc, loc, loc],
   [.choice 1 2, .lend 3, .setn 6 1, .test 3 4 8, .none 5, .lend 1, .deref 1, .ret false, .none 5,
    .fresh 5, .deref 3, .choice 12 14, .setn 6 2, .goto 20, .choice 15 17, .setn 6 1, .goto 20,
    .test 0 18 19, .maybe 0, .setn 6 0, .live 5, .kill 5, .null 5, .testn 6 0 27 24,
    .testn 6 1 27 25, .testn 6 2 34 26, .choice 27 34, .none 5, .use 0, .lend 1, .kill 0, .null 0,
    .deref 1, .ret false, .none 5, .choice 36 38, .fresh 2, .goto 40, .null 2, .lend 1,
    .test 2 41 43, .deref 1, .ret false, .give 2, .none 1, .ret true]⟩

/-- `pyfsapfs_volume_get_identifier` (pyfsapfs/pyfsapfs_volume.c:531-590).  Places: 0 `error`, 1
`exception`, 2 `pyfsapfs_volume`, 3 `result that is not kept`, 4 `string_object`, 5 `threads
allowed`, 6 `result`. -/
def pyfsapfs_volume_get_identifier : Fn :=
  ⟨[loc, loc, loc, loc, loc, loc, loc],
   [.choice 1 2, .lend 2, .setn 6 1, .test 2 4 8, .none 5, .lend 1, .deref 1, .ret false, .none 5,
    .fresh 5, .deref 2, .choice 12 14, .setn 6 2, .goto 20, .choice 15 17, .setn 6 1, .goto 20,
    .test 0 18 19, .maybe 0, .setn 6 0, .live 5, .kill 5, .null 5, .testn 6 0 27 24,
    .testn 6 1 27 25, .testn 6 2 34 26, .choice 27 34, .none 5, .use 0, .lend 1, .kill 0, .null 0,
    .deref 1, .ret false, .none 5, .choice 36 38, .fresh 4, .goto 40, .null 4, .lend 1,
    .test 4 41 45, .none 5, .lend 1, .deref 1, .ret false, .test 4 46 48, .deref 1, .ret false,
    .give 4, .none 1, .ret true]⟩

/-- `pyfsapfs_volume_get_name` (pyfsapfs/pyfsapfs_volume.c:595-711).  Places: 0 `Py_None`, 1
`error`, 2 `exception`, 3 `pyfsapfs_volume`, 4 `result that is not kept`, 5 `string_object`, 6
`threads allowed`, 7 `utf8_string`, 8 `result`. -/
def pyfsapfs_volume_get_name : Fn :=
  ⟨[loc, loc, loc, loc, loc, loc, loc, loc, loc],
   [.lend 0, .choice 2 3, .lend 3, .setn 8 1, .test 3 5 9, .none 6, .lend 2, .deref 2, .ret false,
    .none 6, .fresh 6, .deref 3, .choice 13 15, .setn 8 2, .goto 21, .choice 16 18, .setn 8 1,
    .goto 21, .test 1 19 20, .maybe 1, .setn 8 0, .live 6, .kill 6, .null 6, .testn 8 0 28 25,
    .testn 8 1 34 26, .testn 8 2 34 27, .choice 28 34, .none 6, .use 1, .lend 2, .kill 1, .null 1,
    .goto 102, .testn 8 0 38 35, .testn 8 1 39 36, .testn 8 2 38 37, .choice 39 38, .choice 39 49,
    .none 6, .use 0, .test 0 43 42, .fresh 0, .test 0 44 46, .deref 2, .ret false, .give 0, .none 2,
    .ret true, .choice 50 52, .fresh 7, .goto 53, .null 7, .test 7 54 57, .none 6, .lend 2,
    .goto 102, .none 6, .fresh 6, .deref 3, .use 7, .choice 62 64, .setn 8 2, .goto 70,
    .choice 65 67, .setn 8 1, .goto 70, .test 1 68 69, .maybe 1, .setn 8 0, .live 6, .kill 6,
    .null 6, .testn 8 0 77 74, .testn 8 1 77 75, .testn 8 2 83 76, .choice 77 83, .none 6, .use 1,
    .lend 2, .kill 1, .null 1, .goto 102, .none 6, .use 7, .choice 86 88, .fresh 5, .goto 90,
    .null 5, .lend 2, .test 5 91 94, .none 6, .lend 2, .goto 102, .none 6, .kill 7, .test 5 97 99,
    .deref 2, .ret false, .give 5, .none 2, .ret true, .test 7 105 103, .none 6, .kill 7, .deref 2,
    .ret false]⟩

/-- `pyfsapfs_volume_is_locked` (pyfsapfs/pyfsapfs_volume.c:716-767).  Places: 0 `Py_False`, 1
`Py_True`, 2 `error`, 3 `exception`, 4 `pyfsapfs_volume`, 5 `threads allowed`, 6 `result`. -/
def pyfsapfs_volume_is_locked : Fn :=
  ⟨[loc, loc, loc, loc, loc, loc, loc],
   [.lend 1, .lend 0, .choice 3 4, .lend 4, .setn 6 1, .test 4 6 10, .none 5, .lend 3, .deref 3,
    .ret false, .none 5, .fresh 5, .deref 4, .choice 14 16, .setn 6 2, .goto 22, .choice 17 19,
    .setn 6 1, .goto 22, .test 2 20 21, .maybe 2, .setn 6 0, .live 5, .kill 5, .null 5,
    .testn 6 0 29 26, .testn 6 1 36 27, .testn 6 2 36 28, .choice 29 36, .none 5, .use 2, .lend 3,
    .kill 2, .null 2, .deref 3, .ret false, .testn 6 0 40 37, .testn 6 1 50 38, .testn 6 2 40 39,
    .choice 40 50, .none 5, .use 1, .test 1 44 43, .fresh 1, .test 1 45 47, .deref 3, .ret false,
    .give 1, .none 3, .ret true, .none 5, .use 0, .test 0 54 53, .fresh 0, .test 0 55 57, .deref 3,
    .ret false, .give 0, .none 3, .ret true]⟩

/-- `pyfsapfs_volume_set_password` (pyfsapfs/pyfsapfs_volume.c:772-841).  Places: 0 `Py_None`, 1
`error`, 2 `exception`, 3 `pyfsapfs_volume`, 4 `threads allowed`, 5 `utf8_string`, 6 `result`. -/
def pyfsapfs_volume_set_password : Fn :=
  ⟨[loc, loc, loc, loc, loc, loc, loc],
   [.lend 0, .choice 2 3, .lend 3, .setn 6 1, .test 3 5 9, .none 4, .lend 2, .deref 2, .ret false,
    .none 4, .choice 11 13, .lend 5, .goto 16, .lend 2, .deref 2, .ret false, .test 5 17 21,
    .none 4, .lend 2, .deref 2, .ret false, .use 5, .none 4, .fresh 4, .deref 3, .use 5,
    .choice 27 29, .setn 6 2, .goto 35, .choice 30 32, .setn 6 1, .goto 35, .test 1 33 34, .maybe 1,
    .setn 6 0, .live 4, .kill 4, .null 4, .testn 6 0 42 39, .testn 6 1 42 40, .testn 6 2 49 41,
    .choice 42 49, .none 4, .use 1, .lend 2, .kill 1, .null 1, .deref 2, .ret false, .none 4,
    .use 0, .test 0 53 52, .fresh 0, .test 0 54 56, .deref 2, .ret false, .give 0, .none 2,
    .ret true]⟩

/-- `pyfsapfs_volume_set_recovery_password` (pyfsapfs/pyfsapfs_volume.c:846-915).  Places: 0
`Py_None`, 1 `error`, 2 `exception`, 3 `pyfsapfs_volume`, 4 `threads allowed`, 5 `utf8_string`, 6
`result`. -/
def pyfsapfs_volume_set_recovery_password : Fn :=
  ⟨[loc, loc, loc, loc, loc, loc, loc],
   [.lend 0, .choice 2 3, .lend 3, .setn 6 1, .test 3 5 9, .none 4, .lend 2, .deref 2, .ret false,
    .none 4, .choice 11 13, .lend 5, .goto 16, .lend 2, .deref 2, .ret false, .test 5 17 21,
    .none 4, .lend 2, .deref 2, .ret false, .use 5, .none 4, .fresh 4, .deref 3, .use 5,
    .choice 27 29, .setn 6 2, .goto 35, .choice 30 32, .setn 6 1, .goto 35, .test 1 33 34, .maybe 1,
    .setn 6 0, .live 4, .kill 4, .null 4, .testn 6 0 42 39, .testn 6 1 42 40, .testn 6 2 49 41,
    .choice 42 49, .none 4, .use 1, .lend 2, .kill 1, .null 1, .deref 2, .ret false, .none 4,
    .use 0, .test 0 53 52, .fresh 0, .test 0 54 56, .deref 2, .ret false, .give 0, .none 2,
    .ret true]⟩

/-- `pyfsapfs_volume_get_next_file_entry_identifier` (pyfsapfs/pyfsapfs_volume.c:920-967).  Places:
0 `error`, 1 `exception`, 2 `integer_object`, 3 `pyfsapfs_volume`, 4 `result that is not kept`, 5
`threads allowed`, 6 `result`. -/
def pyfsapfs_volume_get_next_file_entry_identifier : Fn :=
  ⟨[loc, loc, loc, loc, loc, loc, loc],
   [.choice 1 2, .lend 3, .setn 6 1, .test 3 4 8, .none 5, .lend 1, .deref 1, .ret false, .none 5,
    .fresh 5, .deref 3, .choice 12 14, .setn 6 2, .goto 20, .choice 15 17, .setn 6 1, .goto 20,
    .test 0 18 19, .maybe 0, .setn 6 0, .live 5, .kill 5, .null 5, .testn 6 0 27 24,
    .testn 6 1 27 25, .testn 6 2 34 26, .choice 27 34, .none 5, .use 0, .lend 1, .kill 0, .null 0,
    .deref 1, .ret false, .none 5, .choice 36 38, .fresh 2, .goto 40, .null 2, .lend 1,
    .test 2 41 43, .deref 1, .ret false, .give 2, .none 1, .ret true]⟩

/-- `pyfsapfs_volume_get_file_entry_by_identifier` (pyfsapfs/pyfsapfs_volume.c:972-1057).  Places:
0 `Py_None`, 1 `error`, 2 `exception`, 3 `file_entry`, 4 `file_entry_object`, 5 `pyfsapfs_volume`,
6 `result that is not kept`, 7 `threads allowed`, 8 `result`. -/
def pyfsapfs_volume_get_file_entry_by_identifier : Fn :=
  ⟨[loc, loc, loc, loc, loc, loc, loc, loc, loc],
   [.lend 0, .choice 2 3, .lend 5, .setn 8 1, .test 5 5 9, .none 7, .lend 2, .deref 2, .ret false,
    .none 7, .choice 14 11, .lend 2, .deref 2, .ret false, .none 7, .fresh 7, .deref 5,
    .choice 18 22, .none 3, .fresh 3, .setn 8 2, .goto 28, .choice 23 25, .setn 8 1, .goto 28,
    .test 1 26 27, .maybe 1, .setn 8 0, .live 7, .kill 7, .null 7, .testn 8 0 35 32,
    .testn 8 1 35 33, .testn 8 2 41 34, .choice 35 41, .none 7, .use 1, .lend 2, .kill 1, .null 1,
    .goto 74, .testn 8 0 55 42, .testn 8 1 45 43, .testn 8 2 55 44, .choice 45 55, .none 7, .use 0,
    .test 0 49 48, .fresh 0, .test 0 50 52, .deref 2, .ret false, .give 0, .none 2, .ret true,
    .none 7, .use 3, .use 5, .choice 59 62, .fresh 4, .give 3, .goto 64, .null 4, .lend 2,
    .test 4 65 68, .none 7, .lend 2, .goto 74, .test 4 69 71, .deref 2, .ret false, .give 4,
    .none 2, .ret true, .test 3 77 75, .kill 3, .null 3, .deref 2, .ret false]⟩

/-- `pyfsapfs_volume_get_root_directory` (pyfsapfs/pyfsapfs_volume.c:1062-1135).  Places: 0
`Py_None`, 1 `directory_object`, 2 `error`, 3 `exception`, 4 `pyfsapfs_volume`, 5 `result that is
not kept`, 6 `root_directory`, 7 `threads allowed`, 8 `result`. -/
def pyfsapfs_volume_get_root_directory : Fn :=
  ⟨[loc, loc, loc, loc, loc, loc, loc, loc, loc],
   [.lend 0, .choice 2 3, .lend 4, .setn 8 1, .test 4 5 9, .none 7, .lend 3, .deref 3, .ret false,
    .none 7, .fresh 7, .deref 4, .choice 13 17, .none 6, .fresh 6, .setn 8 2, .goto 23,
    .choice 18 20, .setn 8 1, .goto 23, .test 2 21 22, .maybe 2, .setn 8 0, .live 7, .kill 7,
    .null 7, .testn 8 0 30 27, .testn 8 1 36 28, .testn 8 2 36 29, .choice 30 36, .none 7, .use 2,
    .lend 3, .kill 2, .null 2, .goto 69, .testn 8 0 50 37, .testn 8 1 40 38, .testn 8 2 50 39,
    .choice 40 50, .none 7, .use 0, .test 0 44 43, .fresh 0, .test 0 45 47, .deref 3, .ret false,
    .give 0, .none 3, .ret true, .none 7, .use 6, .use 4, .choice 54 57, .fresh 1, .give 6,
    .goto 59, .null 1, .lend 3, .test 1 60 63, .none 7, .lend 3, .goto 69, .test 1 64 66, .deref 3,
    .ret false, .give 1, .none 3, .ret true, .test 6 72 70, .kill 6, .null 6, .deref 3, .ret false]⟩

/-- `pyfsapfs_volume_get_file_entry_by_path` (pyfsapfs/pyfsapfs_volume.c:1140-1229).  Places: 0
`Py_None`, 1 `error`, 2 `exception`, 3 `file_entry`, 4 `file_entry_object`, 5 `pyfsapfs_volume`, 6
`result that is not kept`, 7 `threads allowed`, 8 `utf8_path`, 9 `result`. -/
def pyfsapfs_volume_get_file_entry_by_path : Fn :=
  ⟨[loc, loc, loc, loc, loc, loc, loc, loc, loc, loc],
   [.lend 0, .choice 2 3, .lend 5, .setn 9 1, .test 5 5 9, .none 7, .lend 2, .deref 2, .ret false,
    .none 7, .choice 11 13, .lend 8, .goto 15, .lend 2, .goto 77, .use 8, .none 7, .fresh 7,
    .deref 5, .use 8, .choice 21 25, .test 3 22 82, .fresh 3, .setn 9 2, .goto 31, .choice 26 28,
    .setn 9 1, .goto 31, .test 1 29 30, .maybe 1, .setn 9 0, .live 7, .kill 7, .null 7,
    .testn 9 0 38 35, .testn 9 1 44 36, .testn 9 2 44 37, .choice 38 44, .none 7, .use 1, .lend 2,
    .kill 1, .null 1, .goto 77, .testn 9 0 58 45, .testn 9 1 48 46, .testn 9 2 58 47, .choice 48 58,
    .none 7, .use 0, .test 0 52 51, .fresh 0, .test 0 53 55, .deref 2, .ret false, .give 0, .none 2,
    .ret true, .none 7, .use 3, .use 5, .choice 62 65, .fresh 4, .give 3, .goto 67, .null 4,
    .lend 2, .test 4 68 71, .none 7, .lend 2, .goto 77, .test 4 72 74, .deref 2, .ret false,
    .give 4, .none 2, .ret true, .test 3 80 78, .kill 3, .null 3, .deref 2, .ret false, .goto 82]⟩

/-- `pyfsapfs_volumes_new` (pyfsapfs/pyfsapfs_volumes.c:156-216).  Places: 0 `exception`, 1
`parent_object`, 2 `result that is not kept`, 3 `sequence_object`, 4
`sequence_object->parent_object`. -/
def pyfsapfs_volumes_new : Fn :=
  ⟨[loc, loc, loc, loc, own 3],
   [.choice 1 2, .lend 1, .test 1 3 6, .lend 0, .deref 0, .ret false, .choice 7 10, .lend 0,
    .deref 0, .ret false, .forget 4, .null 4, .choice 13 17, .fresh 3, .fresh 4, .kill 4, .goto 19,
    .null 3, .lend 0, .test 3 20 22, .lend 0, .goto 38, .deref 3, .copy 4 1, .deref 3, .deref 3,
    .deref 3, .deref 3, .use 4, .test 4 31 30, .fresh 4, .test 3 32 34, .deref 0, .ret false,
    .give 3, .live 4, .none 0, .ret true, .test 3 43 39, .use 3, .kill 3, .kill 4, .null 4,
    .deref 0, .ret false]⟩

/-- `pyfsapfs_volumes_init` (pyfsapfs/pyfsapfs_volumes.c:221-248).  Places: 0 `exception`, 1
`sequence_object`. -/
def pyfsapfs_volumes_init : Fn :=
  ⟨[loc, loc],
   [.choice 1 2, .lend 1, .test 1 3 6, .lend 0, .deref 0, .ret false, .deref 1, .deref 1, .deref 1,
    .deref 1, .lend 0, .deref 0, .ret false]⟩

/-- `pyfsapfs_volumes_free` (pyfsapfs/pyfsapfs_volumes.c:252-295).  Places: 0 `exception`, 1
`sequence_object`, 2 `sequence_object->parent_object`. -/
def pyfsapfs_volumes_free : Fn :=
  ⟨[loc, loc, own 1],
   [.maybe 1, .test 1 3 2, .maybe 2, .test 1 4 6, .lend 0, .ret true, .deref 1, .use 1, .deref 1,
    .test 2 13 10, .deref 1, .use 2, .kill 2, .kill 1, .null 2, .ret true]⟩

/-- `pyfsapfs_volumes_len` (pyfsapfs/pyfsapfs_volumes.c:299-314).  Places: 0 `exception`, 1
`sequence_object`. -/
def pyfsapfs_volumes_len : Fn :=
  ⟨[loc, loc],
   [.choice 1 2, .lend 1, .test 1 3 6, .lend 0, .deref 0, .ret false, .deref 1, .none 0, .ret true]⟩

/-- `pyfsapfs_volumes_getitem` (pyfsapfs/pyfsapfs_volumes.c:318-367).  Places: 0 `exception`, 1
`result that is not kept`, 2 `sequence_object`, 3 `volume_object`. -/
def pyfsapfs_volumes_getitem : Fn :=
  ⟨[loc, loc, loc, loc],
   [.choice 1 2, .lend 2, .test 2 3 6, .lend 0, .deref 0, .ret false, .deref 2, .choice 8 11,
    .lend 0, .deref 0, .ret false, .deref 2, .choice 13 16, .lend 0, .deref 0, .ret false,
    .choice 19 17, .deref 2, .choice 19 22, .lend 0, .deref 0, .ret false, .deref 2, .choice 24 26,
    .fresh 3, .goto 28, .null 3, .lend 0, .test 3 29 31, .deref 0, .ret false, .give 3, .none 0,
    .ret true]⟩

/-- `pyfsapfs_volumes_iter` (pyfsapfs/pyfsapfs_volumes.c:371-389).  Places: 0 `exception`, 1
`sequence_object`. -/
def pyfsapfs_volumes_iter : Fn :=
  ⟨[loc, loc],
   [.choice 1 2, .lend 1, .test 1 3 6, .lend 0, .deref 0, .ret false, .use 1, .test 1 9 8, .fresh 1,
    .test 1 10 12, .deref 0, .ret false, .give 1, .none 0, .ret true]⟩

/-- `pyfsapfs_volumes_iternext` (pyfsapfs/pyfsapfs_volumes.c:393-451).  Places: 0 `exception`, 1
`result that is not kept`, 2 `sequence_object`, 3 `volume_object`. -/
def pyfsapfs_volumes_iternext : Fn :=
  ⟨[loc, loc, loc, loc],
   [.choice 1 2, .lend 2, .test 2 3 6, .lend 0, .deref 0, .ret false, .deref 2, .choice 8 11,
    .lend 0, .deref 0, .ret false, .deref 2, .choice 13 16, .lend 0, .deref 0, .ret false, .deref 2,
    .choice 18 21, .lend 0, .deref 0, .ret false, .deref 2, .choice 23 26, .lend 0, .deref 0,
    .ret false, .deref 2, .choice 28 30, .fresh 3, .goto 32, .null 3, .lend 0, .test 3 34 33,
    .deref 2, .test 3 35 37, .deref 0, .ret false, .give 3, .none 0, .ret true]⟩

/-- `pyfsapfs_error_fetch` (pyfsapfs/pyfsapfs_error.c:59-175).  Places: 0 `exception`, 1
`exception_string`, 2 `exception_traceback`, 3 `exception_type`, 4 `exception_value`, 5 `result
that is not kept`, 6 `string_object`, 7 `print_count`. -/
def pyfsapfs_error_fetch_python2 : Fn :=
  ⟨[loc, loc, loc, loc, loc, loc, loc, loc],
   [.setn 7 1, .choice 2 5, .lend 0, .none 0, .ret true, .testn 7 0 9 6, .testn 7 1 12 7,
    .testn 7 2 12 8, .choice 9 12, .lend 0, .none 0, .ret true, .null 0, .maybe 3, .maybe 4,
    .maybe 2, .use 4, .choice 18 20, .fresh 6, .goto 22, .null 6, .lend 0, .deref 6, .use 6,
    .lend 1, .test 1 27 26, .use 1, .use 6, .kill 6, .none 0, .ret true]⟩

/-- `pyfsapfs_error_fetch_and_raise` (pyfsapfs/pyfsapfs_error.c:201-304).  Places: 0 `exception`, 1
`exception_string`, 2 `exception_traceback`, 3 `exception_type`, 4 `exception_value`, 5 `result
that is not kept`, 6 `string_object`, 7 `print_count`. -/
def pyfsapfs_error_fetch_and_raise_python2 : Fn :=
  ⟨[loc, loc, loc, loc, loc, loc, loc, loc],
   [.setn 7 1, .choice 2 5, .lend 0, .deref 0, .ret true, .testn 7 0 9 6, .testn 7 1 12 7,
    .testn 7 2 12 8, .choice 9 12, .lend 0, .deref 0, .ret true, .null 0, .maybe 3, .maybe 4,
    .maybe 2, .use 4, .choice 18 20, .fresh 6, .goto 22, .null 6, .lend 0, .deref 6, .use 6,
    .lend 1, .test 1 29 26, .use 1, .lend 0, .goto 30, .lend 0, .use 6, .kill 6, .deref 0,
    .ret true]⟩

/-- `pyfsapfs_extended_attribute_read_buffer` (pyfsapfs/pyfsapfs_extended_attribute.c:582-802).
Places: 0 `buffer`, 1 `error`, 2 `exception`, 3 `integer_object`, 4 `pyfsapfs_extended_attribute`,
5 `result that is not kept`, 6 `string_object`, 7 `threads allowed`, 8 `read_count`, 9 `result`. -/
def pyfsapfs_extended_attribute_read_buffer_python2 : Fn :=
  ⟨[loc, loc, loc, loc, loc, loc, loc, loc, loc, loc],
   [.choice 1 2, .lend 4, .setn 8 1, .setn 9 1, .test 4 5 9, .none 7, .lend 2, .deref 2, .ret false,
    .none 7, .choice 11 14, .choice 12 17, .lend 3, .goto 17, .lend 2, .deref 2, .ret false,
    .test 3 18 20, .setn 9 1, .goto 64, .none 7, .deref 3, .use 3, .choice 24 26, .setn 9 2,
    .goto 31, .choice 27 29, .setn 9 1, .goto 31, .lend 2, .setn 9 0, .testn 9 0 35 32,
    .testn 9 1 39 33, .testn 9 2 39 34, .choice 35 39, .none 7, .lend 2, .deref 2, .ret false,
    .testn 9 0 64 40, .testn 9 1 43 41, .testn 9 2 64 42, .choice 43 64, .none 7, .null 2, .none 7,
    .deref 3, .use 3, .choice 49 51, .setn 9 2, .goto 56, .choice 52 54, .setn 9 1, .goto 56,
    .lend 2, .setn 9 0, .testn 9 0 60 57, .testn 9 1 64 58, .testn 9 2 64 59, .choice 60 64,
    .none 7, .lend 2, .deref 2, .ret false, .testn 9 0 68 65, .testn 9 1 82 66, .testn 9 2 68 67,
    .choice 68 82, .none 7, .use 3, .use 3, .choice 114 72, .choice 75 73, .test 1 74 75, .maybe 1,
    .none 7, .use 1, .lend 2, .kill 1, .null 1, .deref 2, .ret false, .test 3 84 83, .choice 84 110,
    .none 7, .fresh 7, .deref 4, .choice 88 90, .setn 9 2, .goto 96, .choice 91 93, .setn 9 1,
    .goto 96, .test 1 94 95, .maybe 1, .setn 9 0, .live 7, .kill 7, .null 7, .testn 9 0 103 100,
    .testn 9 1 103 101, .testn 9 2 114 102, .choice 103 114, .none 7, .use 1, .lend 2, .kill 1,
    .null 1, .deref 2, .ret false, .none 7, .lend 2, .deref 2, .ret false, .choice 115 127, .none 7,
    .choice 117 119, .fresh 6, .goto 121, .null 6, .lend 2, .test 6 122 124, .deref 2, .ret false,
    .give 6, .none 2, .ret true, .choice 128 132, .none 7, .lend 2, .deref 2, .ret false,
    .choice 134 133, .choice 134 138, .none 7, .lend 2, .deref 2, .ret false, .none 7,
    .choice 140 142, .fresh 6, .goto 144, .null 6, .lend 2, .none 7, .deref 6, .use 6, .lend 0,
    .none 7, .fresh 7, .deref 4, .use 0, .choice 153 155, .setn 8 2, .goto 161, .choice 156 158,
    .setn 8 1, .goto 161, .test 1 159 160, .maybe 1, .setn 8 0, .live 7, .kill 7, .null 7,
    .testn 8 0 168 165, .testn 8 1 178 166, .testn 8 2 178 167, .choice 168 178, .none 7, .use 1,
    .lend 2, .kill 1, .null 1, .none 7, .use 6, .kill 6, .deref 2, .ret false, .none 7, .deref 6,
    .choice 189 181, .kill 6, .null 6, .lend 2, .none 7, .use 6, .kill 6, .deref 2, .ret false,
    .test 6 190 192, .deref 2, .ret false, .give 6, .none 2, .ret true]⟩

/-- `pyfsapfs_extended_attribute_read_buffer_at_offset`
(pyfsapfs/pyfsapfs_extended_attribute.c:807-1006).  Places: 0 `buffer`, 1 `error`, 2 `exception`, 3
`integer_object`, 4 `pyfsapfs_extended_attribute`, 5 `result that is not kept`, 6 `string_object`,
7 `threads allowed`, 8 `read_count`, 9 `result`. -/
def pyfsapfs_extended_attribute_read_buffer_at_offset_python2 : Fn :=
  ⟨[loc, loc, loc, loc, loc, loc, loc, loc, loc, loc],
   [.choice 1 2, .lend 4, .setn 8 1, .setn 9 1, .test 4 5 9, .none 7, .lend 2, .deref 2, .ret false,
    .none 7, .choice 11 13, .lend 3, .goto 16, .lend 2, .deref 2, .ret false, .none 7, .deref 3,
    .use 3, .choice 20 22, .setn 9 2, .goto 27, .choice 23 25, .setn 9 1, .goto 27, .lend 2,
    .setn 9 0, .testn 9 0 31 28, .testn 9 1 35 29, .testn 9 2 35 30, .choice 31 35, .none 7,
    .lend 2, .deref 2, .ret false, .testn 9 0 60 36, .testn 9 1 39 37, .testn 9 2 60 38,
    .choice 39 60, .none 7, .null 2, .none 7, .deref 3, .use 3, .choice 45 47, .setn 9 2, .goto 52,
    .choice 48 50, .setn 9 1, .goto 52, .lend 2, .setn 9 0, .testn 9 0 56 53, .testn 9 1 60 54,
    .testn 9 2 60 55, .choice 56 60, .none 7, .lend 2, .deref 2, .ret false, .testn 9 0 64 61,
    .testn 9 1 78 62, .testn 9 2 64 63, .choice 64 78, .none 7, .use 3, .use 3, .choice 82 68,
    .choice 71 69, .test 1 70 71, .maybe 1, .none 7, .use 1, .lend 2, .kill 1, .null 1, .deref 2,
    .ret false, .none 7, .lend 2, .deref 2, .ret false, .choice 83 95, .none 7, .choice 85 87,
    .fresh 6, .goto 89, .null 6, .lend 2, .test 6 90 92, .deref 2, .ret false, .give 6, .none 2,
    .ret true, .choice 96 100, .none 7, .lend 2, .deref 2, .ret false, .choice 102 101,
    .choice 102 106, .none 7, .lend 2, .deref 2, .ret false, .choice 107 111, .none 7, .lend 2,
    .deref 2, .ret false, .none 7, .choice 113 115, .fresh 6, .goto 117, .null 6, .lend 2, .none 7,
    .deref 6, .use 6, .lend 0, .none 7, .fresh 7, .deref 4, .use 0, .choice 126 128, .setn 8 2,
    .goto 134, .choice 129 131, .setn 8 1, .goto 134, .test 1 132 133, .maybe 1, .setn 8 0, .live 7,
    .kill 7, .null 7, .testn 8 0 141 138, .testn 8 1 151 139, .testn 8 2 151 140, .choice 141 151,
    .none 7, .use 1, .lend 2, .kill 1, .null 1, .none 7, .use 6, .kill 6, .deref 2, .ret false,
    .none 7, .deref 6, .choice 162 154, .kill 6, .null 6, .lend 2, .none 7, .use 6, .kill 6,
    .deref 2, .ret false, .test 6 163 165, .deref 2, .ret false, .give 6, .none 2, .ret true]⟩

/-- `pyfsapfs_file_entry_read_buffer` (pyfsapfs/pyfsapfs_file_entry.c:2627-2847).  Places: 0
`buffer`, 1 `error`, 2 `exception`, 3 `integer_object`, 4 `pyfsapfs_file_entry`, 5 `result that is
not kept`, 6 `string_object`, 7 `threads allowed`, 8 `read_count`, 9 `result`. -/
def pyfsapfs_file_entry_read_buffer_python2 : Fn :=
  ⟨[loc, loc, loc, loc, loc, loc, loc, loc, loc, loc],
   [.choice 1 2, .lend 4, .setn 8 1, .setn 9 1, .test 4 5 9, .none 7, .lend 2, .deref 2, .ret false,
    .none 7, .choice 11 14, .choice 12 17, .lend 3, .goto 17, .lend 2, .deref 2, .ret false,
    .test 3 18 20, .setn 9 1, .goto 64, .none 7, .deref 3, .use 3, .choice 24 26, .setn 9 2,
    .goto 31, .choice 27 29, .setn 9 1, .goto 31, .lend 2, .setn 9 0, .testn 9 0 35 32,
    .testn 9 1 39 33, .testn 9 2 39 34, .choice 35 39, .none 7, .lend 2, .deref 2, .ret false,
    .testn 9 0 64 40, .testn 9 1 43 41, .testn 9 2 64 42, .choice 43 64, .none 7, .null 2, .none 7,
    .deref 3, .use 3, .choice 49 51, .setn 9 2, .goto 56, .choice 52 54, .setn 9 1, .goto 56,
    .lend 2, .setn 9 0, .testn 9 0 60 57, .testn 9 1 64 58, .testn 9 2 64 59, .choice 60 64,
    .none 7, .lend 2, .deref 2, .ret false, .testn 9 0 68 65, .testn 9 1 82 66, .testn 9 2 68 67,
    .choice 68 82, .none 7, .use 3, .use 3, .choice 114 72, .choice 75 73, .test 1 74 75, .maybe 1,
    .none 7, .use 1, .lend 2, .kill 1, .null 1, .deref 2, .ret false, .test 3 84 83, .choice 84 110,
    .none 7, .fresh 7, .deref 4, .choice 88 90, .setn 9 2, .goto 96, .choice 91 93, .setn 9 1,
    .goto 96, .test 1 94 95, .maybe 1, .setn 9 0, .live 7, .kill 7, .null 7, .testn 9 0 103 100,
    .testn 9 1 103 101, .testn 9 2 114 102, .choice 103 114, .none 7, .use 1, .lend 2, .kill 1,
    .null 1, .deref 2, .ret false, .none 7, .lend 2, .deref 2, .ret false, .choice 115 127, .none 7,
    .choice 117 119, .fresh 6, .goto 121, .null 6, .lend 2, .test 6 122 124, .deref 2, .ret false,
    .give 6, .none 2, .ret true, .choice 128 132, .none 7, .lend 2, .deref 2, .ret false,
    .choice 134 133, .choice 134 138, .none 7, .lend 2, .deref 2, .ret false, .none 7,
    .choice 140 142, .fresh 6, .goto 144, .null 6, .lend 2, .none 7, .deref 6, .use 6, .lend 0,
    .none 7, .fresh 7, .deref 4, .use 0, .choice 153 155, .setn 8 2, .goto 161, .choice 156 158,
    .setn 8 1, .goto 161, .test 1 159 160, .maybe 1, .setn 8 0, .live 7, .kill 7, .null 7,
    .testn 8 0 168 165, .testn 8 1 178 166, .testn 8 2 178 167, .choice 168 178, .none 7, .use 1,
    .lend 2, .kill 1, .null 1, .none 7, .use 6, .kill 6, .deref 2, .ret false, .none 7, .deref 6,
    .choice 189 181, .kill 6, .null 6, .lend 2, .none 7, .use 6, .kill 6, .deref 2, .ret false,
    .test 6 190 192, .deref 2, .ret false, .give 6, .none 2, .ret true]⟩

/-- `pyfsapfs_file_entry_read_buffer_at_offset` (pyfsapfs/pyfsapfs_file_entry.c:2852-3051).
Places: 0 `buffer`, 1 `error`, 2 `exception`, 3 `integer_object`, 4 `pyfsapfs_file_entry`, 5
`result that is not kept`, 6 `string_object`, 7 `threads allowed`, 8 `read_count`, 9 `result`. -/
def pyfsapfs_file_entry_read_buffer_at_offset_python2 : Fn :=
  ⟨[loc, loc, loc, loc, loc, loc, loc, loc, loc, loc],
   [.choice 1 2, .lend 4, .setn 8 1, .setn 9 1, .test 4 5 9, .none 7, .lend 2, .deref 2, .ret false,
    .none 7, .choice 11 13, .lend 3, .goto 16, .lend 2, .deref 2, .ret false, .none 7, .deref 3,
    .use 3, .choice 20 22, .setn 9 2, .goto 27, .choice 23 25, .setn 9 1, .goto 27, .lend 2,
    .setn 9 0, .testn 9 0 31 28, .testn 9 1 35 29, .testn 9 2 35 30, .choice 31 35, .none 7,
    .lend 2, .deref 2, .ret false, .testn 9 0 60 36, .testn 9 1 39 37, .testn 9 2 60 38,
    .choice 39 60, .none 7, .null 2, .none 7, .deref 3, .use 3, .choice 45 47, .setn 9 2, .goto 52,
    .choice 48 50, .setn 9 1, .goto 52, .lend 2, .setn 9 0, .testn 9 0 56 53, .testn 9 1 60 54,
    .testn 9 2 60 55, .choice 56 60, .none 7, .lend 2, .deref 2, .ret false, .testn 9 0 64 61,
    .testn 9 1 78 62, .testn 9 2 64 63, .choice 64 78, .none 7, .use 3, .use 3, .choice 82 68,
    .choice 71 69, .test 1 70 71, .maybe 1, .none 7, .use 1, .lend 2, .kill 1, .null 1, .deref 2,
    .ret false, .none 7, .lend 2, .deref 2, .ret false, .choice 83 95, .none 7, .choice 85 87,
    .fresh 6, .goto 89, .null 6, .lend 2, .test 6 90 92, .deref 2, .ret false, .give 6, .none 2,
    .ret true, .choice 96 100, .none 7, .lend 2, .deref 2, .ret false, .choice 102 101,
    .choice 102 106, .none 7, .lend 2, .deref 2, .ret false, .choice 107 111, .none 7, .lend 2,
    .deref 2, .ret false, .none 7, .choice 113 115, .fresh 6, .goto 117, .null 6, .lend 2, .none 7,
    .deref 6, .use 6, .lend 0, .none 7, .fresh 7, .deref 4, .use 0, .choice 126 128, .setn 8 2,
    .goto 134, .choice 129 131, .setn 8 1, .goto 134, .test 1 132 133, .maybe 1, .setn 8 0, .live 7,
    .kill 7, .null 7, .testn 8 0 141 138, .testn 8 1 151 139, .testn 8 2 151 140, .choice 141 151,
    .none 7, .use 1, .lend 2, .kill 1, .null 1, .none 7, .use 6, .kill 6, .deref 2, .ret false,
    .none 7, .deref 6, .choice 162 154, .kill 6, .null 6, .lend 2, .none 7, .use 6, .kill 6,
    .deref 2, .ret false, .test 6 163 165, .deref 2, .ret false, .give 6, .none 2, .ret true]⟩

/-- `pyfsapfs_integer_signed_copy_to_64bit` (pyfsapfs/pyfsapfs_integer.c:108-244).  Places: 0
`exception`, 1 `integer_object`, 2 `result`. -/
def pyfsapfs_integer_signed_copy_to_64bit_python2 : Fn :=
  ⟨[loc, loc, loc],
   [.choice 1 2, .lend 1, .setn 2 1, .test 1 4 6, .none 0, .ret false, .null 0, .deref 1, .use 1,
    .choice 10 12, .setn 2 2, .goto 17, .choice 13 15, .setn 2 1, .goto 17, .lend 0, .setn 2 0,
    .testn 2 0 21 18, .testn 2 1 24 19, .testn 2 2 24 20, .choice 21 24, .null 0, .none 0,
    .ret false, .testn 2 0 28 25, .testn 2 1 32 26, .testn 2 2 28 27, .choice 28 32, .null 0,
    .use 1, .choice 32 31, .lend 0, .testn 2 0 62 33, .testn 2 1 36 34, .testn 2 2 62 35,
    .choice 36 62, .null 0, .deref 1, .use 1, .choice 40 42, .setn 2 2, .goto 47, .choice 43 45,
    .setn 2 1, .goto 47, .lend 0, .setn 2 0, .testn 2 0 51 48, .testn 2 1 54 49, .testn 2 2 54 50,
    .choice 51 54, .null 0, .none 0, .ret false, .testn 2 0 58 55, .testn 2 1 62 56,
    .testn 2 2 58 57, .choice 58 62, .null 0, .use 1, .choice 62 61, .lend 0, .testn 2 0 68 63,
    .testn 2 1 66 64, .testn 2 2 68 65, .choice 66 68, .none 0, .ret false, .test 0 72 69, .null 0,
    .none 0, .ret false, .none 0, .ret true]⟩

/-- `pyfsapfs_integer_unsigned_copy_to_64bit` (pyfsapfs/pyfsapfs_integer.c:249-398).  Places: 0
`exception`, 1 `integer_object`, 2 `result`. -/
def pyfsapfs_integer_unsigned_copy_to_64bit_python2 : Fn :=
  ⟨[loc, loc, loc],
   [.choice 1 2, .lend 1, .setn 2 1, .test 1 4 6, .none 0, .ret false, .null 0, .deref 1, .use 1,
    .choice 10 12, .setn 2 2, .goto 17, .choice 13 15, .setn 2 1, .goto 17, .lend 0, .setn 2 0,
    .testn 2 0 21 18, .testn 2 1 24 19, .testn 2 2 24 20, .choice 21 24, .null 0, .none 0,
    .ret false, .testn 2 0 28 25, .testn 2 1 32 26, .testn 2 2 28 27, .choice 28 32, .null 0,
    .use 1, .choice 32 31, .lend 0, .testn 2 0 62 33, .testn 2 1 36 34, .testn 2 2 62 35,
    .choice 36 62, .null 0, .deref 1, .use 1, .choice 40 42, .setn 2 2, .goto 47, .choice 43 45,
    .setn 2 1, .goto 47, .lend 0, .setn 2 0, .testn 2 0 51 48, .testn 2 1 54 49, .testn 2 2 54 50,
    .choice 51 54, .null 0, .none 0, .ret false, .testn 2 0 58 55, .testn 2 1 62 56,
    .testn 2 2 58 57, .choice 58 62, .null 0, .use 1, .choice 62 61, .lend 0, .testn 2 0 68 63,
    .testn 2 1 66 64, .testn 2 2 68 65, .choice 66 68, .none 0, .ret false, .test 0 72 69, .null 0,
    .none 0, .ret false, .choice 73 75, .none 0, .ret false, .none 0, .ret true]⟩

/-- `pyfsapfs_check_container_signature` (pyfsapfs/pyfsapfs.c:132-334).  Places: 0 `Py_False`, 1
`Py_True`, 2 `error`, 3 `exception`, 4 `filename_narrow`, 5 `filename_wide`, 6 `result that is not
kept`, 7 `string_object`, 8 `threads allowed`, 9 `can be opened`, 10 `result`. -/
def pyfsapfs_check_container_signature_wide : Fn :=
  ⟨[loc, loc, loc, loc, loc, loc, loc, loc, loc, loc, loc],
   [.lend 1, .lend 0, .setn 10 1, .none 8, .choice 5 7, .lend 7, .goto 10, .lend 3, .deref 3,
    .ret false, .none 8, .null 3, .none 8, .deref 7, .use 7, .choice 16 18, .setn 10 2, .goto 23,
    .choice 19 21, .setn 10 1, .goto 23, .lend 3, .setn 10 0, .testn 10 0 27 24, .testn 10 1 31 25,
    .testn 10 2 31 26, .choice 27 31, .none 8, .lend 3, .deref 3, .ret false, .testn 10 0 35 32,
    .testn 10 1 101 33, .testn 10 2 35 34, .choice 35 101, .none 8, .null 3, .none 8, .use 7,
    .choice 40 42, .fresh 5, .goto 44, .null 5, .lend 3, .none 8, .fresh 8, .use 5, .setn 9 1,
    .test 5 50 49, .setn 9 2, .choice 51 54, .testn 9 2 52 195, .setn 10 2, .goto 61, .choice 55 58,
    .testn 9 2 56 195, .setn 10 1, .goto 61, .test 2 59 60, .maybe 2, .setn 10 0, .live 8, .kill 8,
    .null 8, .none 8, .kill 5, .testn 10 0 70 67, .testn 10 1 77 68, .testn 10 2 77 69,
    .choice 70 77, .none 8, .use 2, .lend 3, .kill 2, .null 2, .deref 3, .ret false,
    .testn 10 0 81 78, .testn 10 1 91 79, .testn 10 2 81 80, .choice 81 91, .none 8, .use 1,
    .test 1 85 84, .fresh 1, .test 1 86 88, .deref 3, .ret false, .give 1, .none 3, .ret true,
    .none 8, .use 0, .test 0 95 94, .fresh 0, .test 0 96 98, .deref 3, .ret false, .give 0, .none 3,
    .ret true, .none 8, .null 3, .none 8, .deref 7, .use 7, .choice 107 109, .setn 10 2, .goto 114,
    .choice 110 112, .setn 10 1, .goto 114, .lend 3, .setn 10 0, .testn 10 0 118 115,
    .testn 10 1 122 116, .testn 10 2 122 117, .choice 118 122, .none 8, .lend 3, .deref 3,
    .ret false, .testn 10 0 126 123, .testn 10 1 191 124, .testn 10 2 126 125, .choice 126 191,
    .none 8, .null 3, .none 8, .deref 7, .use 7, .choice 132 134, .lend 4, .goto 136, .null 4,
    .lend 3, .none 8, .fresh 8, .use 4, .setn 9 1, .test 4 142 141, .setn 9 2, .choice 143 146,
    .testn 9 2 144 195, .setn 10 2, .goto 153, .choice 147 150, .testn 9 2 148 195, .setn 10 1,
    .goto 153, .test 2 151 152, .maybe 2, .setn 10 0, .live 8, .kill 8, .null 8,
    .testn 10 0 160 157, .testn 10 1 167 158, .testn 10 2 167 159, .choice 160 167, .none 8, .use 2,
    .lend 3, .kill 2, .null 2, .deref 3, .ret false, .testn 10 0 171 168, .testn 10 1 181 169,
    .testn 10 2 171 170, .choice 171 181, .none 8, .use 1, .test 1 175 174, .fresh 1,
    .test 1 176 178, .deref 3, .ret false, .give 1, .none 3, .ret true, .none 8, .use 0,
    .test 0 185 184, .fresh 0, .test 0 186 188, .deref 3, .ret false, .give 0, .none 3, .ret true,
    .none 8, .lend 3, .deref 3, .ret false, .goto 195]⟩

/-- `pyfsapfs_container_open` (pyfsapfs/pyfsapfs_container.c:415-627).  Places: 0 `Py_None`, 1
`error`, 2 `exception`, 3 `filename_narrow`, 4 `filename_wide`, 5 `mode`, 6 `pyfsapfs_container`, 7
`result that is not kept`, 8 `string_object`, 9 `threads allowed`, 10 `can be opened`, 11 `result`. -/
def pyfsapfs_container_open_wide : Fn :=
  ⟨[loc, loc, loc, loc, loc, loc, loc, loc, loc, loc, loc, loc],
   [.lend 0, .choice 2 3, .lend 6, .setn 11 1, .test 6 5 9, .none 9, .lend 2, .deref 2, .ret false,
    .none 9, .choice 11 15, .lend 8, .choice 13 18, .lend 5, .goto 18, .lend 2, .deref 2,
    .ret false, .test 5 26 19, .deref 5, .choice 21 26, .none 9, .use 5, .lend 2, .deref 2,
    .ret false, .none 9, .null 2, .none 9, .deref 8, .use 8, .choice 32 34, .setn 11 2, .goto 39,
    .choice 35 37, .setn 11 1, .goto 39, .lend 2, .setn 11 0, .testn 11 0 43 40, .testn 11 1 47 41,
    .testn 11 2 47 42, .choice 43 47, .none 9, .lend 2, .deref 2, .ret false, .testn 11 0 51 48,
    .testn 11 1 104 49, .testn 11 2 51 50, .choice 51 104, .none 9, .null 2, .none 9, .use 8,
    .choice 56 58, .fresh 4, .goto 60, .null 4, .lend 2, .none 9, .fresh 9, .deref 6, .use 4,
    .setn 10 1, .test 4 67 66, .setn 10 2, .choice 68 71, .testn 10 2 69 185, .setn 11 2, .goto 78,
    .choice 72 75, .testn 10 2 73 185, .setn 11 1, .goto 78, .test 1 76 77, .maybe 1, .setn 11 0,
    .live 9, .kill 9, .null 9, .none 9, .kill 4, .testn 11 0 87 84, .testn 11 1 87 85,
    .testn 11 2 94 86, .choice 87 94, .none 9, .use 1, .lend 2, .kill 1, .null 1, .deref 2,
    .ret false, .none 9, .use 0, .test 0 98 97, .fresh 0, .test 0 99 101, .deref 2, .ret false,
    .give 0, .none 2, .ret true, .none 9, .null 2, .none 9, .deref 8, .use 8, .choice 110 112,
    .setn 11 2, .goto 117, .choice 113 115, .setn 11 1, .goto 117, .lend 2, .setn 11 0,
    .testn 11 0 121 118, .testn 11 1 125 119, .testn 11 2 125 120, .choice 121 125, .none 9,
    .lend 2, .deref 2, .ret false, .testn 11 0 129 126, .testn 11 1 181 127, .testn 11 2 129 128,
    .choice 129 181, .none 9, .null 2, .none 9, .deref 8, .use 8, .choice 135 137, .lend 3,
    .goto 139, .null 3, .lend 2, .none 9, .fresh 9, .deref 6, .use 3, .setn 10 1, .test 3 146 145,
    .setn 10 2, .choice 147 150, .testn 10 2 148 185, .setn 11 2, .goto 157, .choice 151 154,
    .testn 10 2 152 185, .setn 11 1, .goto 157, .test 1 155 156, .maybe 1, .setn 11 0, .live 9,
    .kill 9, .null 9, .testn 11 0 164 161, .testn 11 1 164 162, .testn 11 2 171 163,
    .choice 164 171, .none 9, .use 1, .lend 2, .kill 1, .null 1, .deref 2, .ret false, .none 9,
    .use 0, .test 0 175 174, .fresh 0, .test 0 176 178, .deref 2, .ret false, .give 0, .none 2,
    .ret true, .none 9, .lend 2, .deref 2, .ret false, .goto 185]⟩

/-- The functions of pyfsapfs. -/
def python1 : List (String × Fn) :=
  [("pyfsapfs_get_version", pyfsapfs_get_version),
   ("pyfsapfs_check_container_signature", pyfsapfs_check_container_signature),
   ("pyfsapfs_check_container_signature_file_object", pyfsapfs_check_container_signature_file_object),
   ("pyfsapfs_open_new_container", pyfsapfs_open_new_container),
   ("pyfsapfs_open_new_container_with_file_object", pyfsapfs_open_new_container_with_file_object),
   ("PyInit_pyfsapfs", PyInit_pyfsapfs),
   ("pyfsapfs_container_init", pyfsapfs_container_init),
   ("pyfsapfs_container_free", pyfsapfs_container_free),
   ("pyfsapfs_container_signal_abort", pyfsapfs_container_signal_abort),
   ("pyfsapfs_container_open", pyfsapfs_container_open),
   ("pyfsapfs_container_open_file_object", pyfsapfs_container_open_file_object),
   ("pyfsapfs_container_close", pyfsapfs_container_close),
   ("pyfsapfs_container_is_locked", pyfsapfs_container_is_locked),
   ("pyfsapfs_container_get_size", pyfsapfs_container_get_size),
   ("pyfsapfs_container_get_identifier", pyfsapfs_container_get_identifier),
   ("pyfsapfs_container_get_number_of_volumes", pyfsapfs_container_get_number_of_volumes),
   ("pyfsapfs_container_get_volume_by_index", pyfsapfs_container_get_volume_by_index),
   ("pyfsapfs_container_get_volume", pyfsapfs_container_get_volume),
   ("pyfsapfs_container_get_volumes", pyfsapfs_container_get_volumes),
   ("pyfsapfs_datetime_new_from_time_elements", pyfsapfs_datetime_new_from_time_elements),
   ("pyfsapfs_datetime_new_from_fat_date_time", pyfsapfs_datetime_new_from_fat_date_time),
   ("pyfsapfs_datetime_new_from_filetime", pyfsapfs_datetime_new_from_filetime),
   ("pyfsapfs_datetime_new_from_floatingtime", pyfsapfs_datetime_new_from_floatingtime),
   ("pyfsapfs_datetime_new_from_hfs_time", pyfsapfs_datetime_new_from_hfs_time),
   ("pyfsapfs_datetime_new_from_posix_time", pyfsapfs_datetime_new_from_posix_time),
   ("pyfsapfs_datetime_new_from_posix_time_in_micro_seconds", pyfsapfs_datetime_new_from_posix_time_in_micro_seconds),
   ("pyfsapfs_error_fetch", pyfsapfs_error_fetch),
   ("pyfsapfs_error_fetch_and_raise", pyfsapfs_error_fetch_and_raise),
   ("pyfsapfs_error_raise", pyfsapfs_error_raise),
   ("pyfsapfs_extended_attribute_new", pyfsapfs_extended_attribute_new),
   ("pyfsapfs_extended_attribute_init", pyfsapfs_extended_attribute_init),
   ("pyfsapfs_extended_attribute_free", pyfsapfs_extended_attribute_free),
   ("pyfsapfs_extended_attribute_get_identifier", pyfsapfs_extended_attribute_get_identifier),
   ("pyfsapfs_extended_attribute_get_name", pyfsapfs_extended_attribute_get_name),
   ("pyfsapfs_extended_attribute_read_buffer", pyfsapfs_extended_attribute_read_buffer),
   ("pyfsapfs_extended_attribute_read_buffer_at_offset", pyfsapfs_extended_attribute_read_buffer_at_offset),
   ("pyfsapfs_extended_attribute_seek_offset", pyfsapfs_extended_attribute_seek_offset),
   ("pyfsapfs_extended_attribute_get_offset", pyfsapfs_extended_attribute_get_offset),
   ("pyfsapfs_extended_attribute_get_size", pyfsapfs_extended_attribute_get_size),
   ("pyfsapfs_extended_attribute_get_number_of_extents", pyfsapfs_extended_attribute_get_number_of_extents),
   ("pyfsapfs_extended_attribute_get_extent_by_index", pyfsapfs_extended_attribute_get_extent_by_index),
   ("pyfsapfs_extended_attribute_get_extent", pyfsapfs_extended_attribute_get_extent),
   ("pyfsapfs_extended_attributes_new", pyfsapfs_extended_attributes_new),
   ("pyfsapfs_extended_attributes_init", pyfsapfs_extended_attributes_init),
   ("pyfsapfs_extended_attributes_free", pyfsapfs_extended_attributes_free),
   ("pyfsapfs_extended_attributes_len", pyfsapfs_extended_attributes_len),
   ("pyfsapfs_extended_attributes_getitem", pyfsapfs_extended_attributes_getitem),
   ("pyfsapfs_extended_attributes_iter", pyfsapfs_extended_attributes_iter),
   ("pyfsapfs_extended_attributes_iternext", pyfsapfs_extended_attributes_iternext),
   ("pyfsapfs_file_entries_new", pyfsapfs_file_entries_new)]

/-- The functions of pyfsapfs. -/
def python2 : List (String × Fn) :=
  [("pyfsapfs_file_entries_init", pyfsapfs_file_entries_init),
   ("pyfsapfs_file_entries_free", pyfsapfs_file_entries_free),
   ("pyfsapfs_file_entries_len", pyfsapfs_file_entries_len),
   ("pyfsapfs_file_entries_getitem", pyfsapfs_file_entries_getitem),
   ("pyfsapfs_file_entries_iter", pyfsapfs_file_entries_iter),
   ("pyfsapfs_file_entries_iternext", pyfsapfs_file_entries_iternext),
   ("pyfsapfs_file_entry_new", pyfsapfs_file_entry_new),
   ("pyfsapfs_file_entry_init", pyfsapfs_file_entry_init),
   ("pyfsapfs_file_entry_free", pyfsapfs_file_entry_free),
   ("pyfsapfs_file_entry_get_identifier", pyfsapfs_file_entry_get_identifier),
   ("pyfsapfs_file_entry_get_parent_identifier", pyfsapfs_file_entry_get_parent_identifier),
   ("pyfsapfs_file_entry_get_creation_time", pyfsapfs_file_entry_get_creation_time),
   ("pyfsapfs_file_entry_get_creation_time_as_integer", pyfsapfs_file_entry_get_creation_time_as_integer),
   ("pyfsapfs_file_entry_get_modification_time", pyfsapfs_file_entry_get_modification_time),
   ("pyfsapfs_file_entry_get_modification_time_as_integer", pyfsapfs_file_entry_get_modification_time_as_integer),
   ("pyfsapfs_file_entry_get_access_time", pyfsapfs_file_entry_get_access_time),
   ("pyfsapfs_file_entry_get_access_time_as_integer", pyfsapfs_file_entry_get_access_time_as_integer),
   ("pyfsapfs_file_entry_get_inode_change_time", pyfsapfs_file_entry_get_inode_change_time),
   ("pyfsapfs_file_entry_get_inode_change_time_as_integer", pyfsapfs_file_entry_get_inode_change_time_as_integer),
   ("pyfsapfs_file_entry_get_added_time", pyfsapfs_file_entry_get_added_time),
   ("pyfsapfs_file_entry_get_added_time_as_integer", pyfsapfs_file_entry_get_added_time_as_integer),
   ("pyfsapfs_file_entry_get_number_of_links", pyfsapfs_file_entry_get_number_of_links),
   ("pyfsapfs_file_entry_get_owner_identifier", pyfsapfs_file_entry_get_owner_identifier),
   ("pyfsapfs_file_entry_get_group_identifier", pyfsapfs_file_entry_get_group_identifier),
   ("pyfsapfs_file_entry_get_device_number", pyfsapfs_file_entry_get_device_number),
   ("pyfsapfs_file_entry_get_file_mode", pyfsapfs_file_entry_get_file_mode),
   ("pyfsapfs_file_entry_get_name", pyfsapfs_file_entry_get_name),
   ("pyfsapfs_file_entry_get_symbolic_link_target", pyfsapfs_file_entry_get_symbolic_link_target),
   ("pyfsapfs_file_entry_get_number_of_extended_attributes", pyfsapfs_file_entry_get_number_of_extended_attributes),
   ("pyfsapfs_file_entry_get_extended_attribute_by_index", pyfsapfs_file_entry_get_extended_attribute_by_index),
   ("pyfsapfs_file_entry_get_extended_attribute", pyfsapfs_file_entry_get_extended_attribute),
   ("pyfsapfs_file_entry_get_extended_attributes", pyfsapfs_file_entry_get_extended_attributes),
   ("pyfsapfs_file_entry_has_extended_attribute_by_name", pyfsapfs_file_entry_has_extended_attribute_by_name),
   ("pyfsapfs_file_entry_get_extended_attribute_by_name", pyfsapfs_file_entry_get_extended_attribute_by_name),
   ("pyfsapfs_file_entry_get_number_of_sub_file_entries", pyfsapfs_file_entry_get_number_of_sub_file_entries),
   ("pyfsapfs_file_entry_get_sub_file_entry_by_index", pyfsapfs_file_entry_get_sub_file_entry_by_index),
   ("pyfsapfs_file_entry_get_sub_file_entry", pyfsapfs_file_entry_get_sub_file_entry),
   ("pyfsapfs_file_entry_get_sub_file_entries", pyfsapfs_file_entry_get_sub_file_entries),
   ("pyfsapfs_file_entry_get_sub_file_entry_by_name", pyfsapfs_file_entry_get_sub_file_entry_by_name),
   ("pyfsapfs_file_entry_read_buffer", pyfsapfs_file_entry_read_buffer),
   ("pyfsapfs_file_entry_read_buffer_at_offset", pyfsapfs_file_entry_read_buffer_at_offset),
   ("pyfsapfs_file_entry_seek_offset", pyfsapfs_file_entry_seek_offset),
   ("pyfsapfs_file_entry_get_offset", pyfsapfs_file_entry_get_offset),
   ("pyfsapfs_file_entry_get_size", pyfsapfs_file_entry_get_size),
   ("pyfsapfs_file_entry_get_number_of_extents", pyfsapfs_file_entry_get_number_of_extents),
   ("pyfsapfs_file_entry_get_extent_by_index", pyfsapfs_file_entry_get_extent_by_index),
   ("pyfsapfs_file_entry_get_extent", pyfsapfs_file_entry_get_extent),
   ("pyfsapfs_file_object_io_handle_initialize", pyfsapfs_file_object_io_handle_initialize),
   ("pyfsapfs_file_object_initialize", pyfsapfs_file_object_initialize),
   ("pyfsapfs_file_object_io_handle_free", pyfsapfs_file_object_io_handle_free)]

/-- The functions of pyfsapfs. -/
def python3 : List (String × Fn) :=
  [("pyfsapfs_file_object_io_handle_clone", pyfsapfs_file_object_io_handle_clone),
   ("pyfsapfs_file_object_io_handle_open", pyfsapfs_file_object_io_handle_open),
   ("pyfsapfs_file_object_io_handle_close", pyfsapfs_file_object_io_handle_close),
   ("pyfsapfs_file_object_read_buffer", pyfsapfs_file_object_read_buffer),
   ("pyfsapfs_file_object_io_handle_read", pyfsapfs_file_object_io_handle_read),
   ("pyfsapfs_file_object_write_buffer", pyfsapfs_file_object_write_buffer),
   ("pyfsapfs_file_object_io_handle_write", pyfsapfs_file_object_io_handle_write),
   ("pyfsapfs_file_object_seek_offset", pyfsapfs_file_object_seek_offset),
   ("pyfsapfs_file_object_get_offset", pyfsapfs_file_object_get_offset),
   ("pyfsapfs_file_object_io_handle_seek_offset", pyfsapfs_file_object_io_handle_seek_offset),
   ("pyfsapfs_file_object_io_handle_exists", pyfsapfs_file_object_io_handle_exists),
   ("pyfsapfs_file_object_io_handle_is_open", pyfsapfs_file_object_io_handle_is_open),
   ("pyfsapfs_file_object_get_size", pyfsapfs_file_object_get_size),
   ("pyfsapfs_file_object_io_handle_get_size", pyfsapfs_file_object_io_handle_get_size),
   ("pyfsapfs_string_new_from_guid", pyfsapfs_string_new_from_guid),
   ("pyfsapfs_integer_signed_new_from_64bit", pyfsapfs_integer_signed_new_from_64bit),
   ("pyfsapfs_integer_unsigned_new_from_64bit", pyfsapfs_integer_unsigned_new_from_64bit),
   ("pyfsapfs_integer_signed_copy_to_64bit", pyfsapfs_integer_signed_copy_to_64bit),
   ("pyfsapfs_integer_unsigned_copy_to_64bit", pyfsapfs_integer_unsigned_copy_to_64bit),
   ("pyfsapfs_volume_new", pyfsapfs_volume_new),
   ("pyfsapfs_volume_init", pyfsapfs_volume_init),
   ("pyfsapfs_volume_free", pyfsapfs_volume_free),
   ("pyfsapfs_volume_unlock", pyfsapfs_volume_unlock),
   ("pyfsapfs_volume_get_size", pyfsapfs_volume_get_size),
   ("pyfsapfs_volume_get_identifier", pyfsapfs_volume_get_identifier),
   ("pyfsapfs_volume_get_name", pyfsapfs_volume_get_name),
   ("pyfsapfs_volume_is_locked", pyfsapfs_volume_is_locked),
   ("pyfsapfs_volume_set_password", pyfsapfs_volume_set_password),
   ("pyfsapfs_volume_set_recovery_password", pyfsapfs_volume_set_recovery_password),
   ("pyfsapfs_volume_get_next_file_entry_identifier", pyfsapfs_volume_get_next_file_entry_identifier),
   ("pyfsapfs_volume_get_file_entry_by_identifier", pyfsapfs_volume_get_file_entry_by_identifier),
   ("pyfsapfs_volume_get_root_directory", pyfsapfs_volume_get_root_directory),
   ("pyfsapfs_volume_get_file_entry_by_path", pyfsapfs_volume_get_file_entry_by_path),
   ("pyfsapfs_volumes_new", pyfsapfs_volumes_new),
   ("pyfsapfs_volumes_init", pyfsapfs_volumes_init),
   ("pyfsapfs_volumes_free", pyfsapfs_volumes_free),
   ("pyfsapfs_volumes_len", pyfsapfs_volumes_len),
   ("pyfsapfs_volumes_getitem", pyfsapfs_volumes_getitem),
   ("pyfsapfs_volumes_iter", pyfsapfs_volumes_iter),
   ("pyfsapfs_volumes_iternext", pyfsapfs_volumes_iternext),
   ("pyfsapfs_error_fetch_python2", pyfsapfs_error_fetch_python2),
   ("pyfsapfs_error_fetch_and_raise_python2", pyfsapfs_error_fetch_and_raise_python2),
   ("pyfsapfs_extended_attribute_read_buffer_python2", pyfsapfs_extended_attribute_read_buffer_python2),
   ("pyfsapfs_extended_attribute_read_buffer_at_offset_python2", pyfsapfs_extended_attribute_read_buffer_at_offset_python2),
   ("pyfsapfs_file_entry_read_buffer_python2", pyfsapfs_file_entry_read_buffer_python2),
   ("pyfsapfs_file_entry_read_buffer_at_offset_python2", pyfsapfs_file_entry_read_buffer_at_offset_python2),
   ("pyfsapfs_integer_signed_copy_to_64bit_python2", pyfsapfs_integer_signed_copy_to_64bit_python2),
   ("pyfsapfs_integer_unsigned_copy_to_64bit_python2", pyfsapfs_integer_unsigned_copy_to_64bit_python2),
   ("pyfsapfs_check_container_signature_wide", pyfsapfs_check_container_signature_wide),
   ("pyfsapfs_container_open_wide", pyfsapfs_container_open_wide)]

/-- The functions of pyfsapfs. -/
def python : List (String × Fn) :=
  python1 ++ python2 ++ python3

end Verif.Owner.Python
