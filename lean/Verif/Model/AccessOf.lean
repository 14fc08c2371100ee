import Verif.Model.Access
/-!
# What the functions of libfsapfs.h read and change of a handle

Made from libfsapfs_container.c, libfsapfs_volume.c, libfsapfs_file_entry.c,
libfsapfs_extended_attribute.c and libfsapfs_snapshot.c by tools/ownership/emit77.py.  Functions that are
called for the same handle are part of the graph.  A place is a member of the structure of the handle,
`*m` is what the member m points to; what that points to in turn, and the file IO handle, which
libbfio guards itself, are left out.  `&( handle->m )` as an argument is read and changed; an argument
`handle->m` of a call is read, and what it points to is read or, for the calls in the table CHANGES of
tools/ownership/lk.py, changed: streams that are read or sought, trees and file systems, the caches of
which change, and arrays and buffers that are filled.  `_initialize` and `_free` are left out: no other
thread has the handle then.  The numbers in comments are lines.
-/
namespace Verif.Access

namespace Container

/-- the places of a container (struct libfsapfs_internal_container in libfsapfs_container.h) -/
def names : List String :=
  ["*checkpoint_map", "checkpoint_map", "container_data_handle", "*data_block_vector",
   "data_block_vector", "file_io_handle", "file_io_handle_created_in_library", "file_io_handle_opened_in_library",
   "*fusion_middle_tree", "fusion_middle_tree", "*io_handle", "io_handle",
   "io_handle->abort", "*key_bag", "key_bag", "*object_map_btree",
   "object_map_btree", "*superblock", "superblock"]

/-- `libfsapfs_container_signal_abort`, libfsapfs_container.c:233-267 -/
def container_signal_abort : Graph := [
  /- 0 -/ .choice [1, 2],
  /- 1 -/ .ret,
  /- 2 -/ .read 11 3,  -- io_handle 253
  /- 3 -/ .choice [1, 4],
  /- 4 -/ .read 11 5,  -- io_handle 264
  /- 5 -/ .write 12 1]  -- io_handle->abort 264

/-- `libfsapfs_container_open`, libfsapfs_container.c:272-437 -/
def container_open : Graph := [
  /- 0 -/ .choice [1, 2, 3],
  /- 1 -/ .ret,
  /- 2 -/ .grab true 4 1,  -- 394
  /- 3 -/ .read 5 5,  -- file_io_handle 641
  /- 4 -/ .write 6 6,  -- file_io_handle_created_in_library 408
  /- 5 -/ .choice [1, 2, 7, 8],
  /- 6 -/ .release 9,  -- 411
  /- 7 -/ .grab true 10 11,  -- 739
  /- 8 -/ .read 11 12,  -- io_handle 1057
  /- 9 -/ .choice [1, 13],
  /- 10 -/ .write 5 14,  -- file_io_handle 753
  /- 11 -/ .choice [1, 2],
  /- 12 -/ .choice [1, 2, 7, 15],
  /- 13 -/ .write 6 1,  -- file_io_handle_created_in_library 422
  /- 14 -/ .write 7 16,  -- file_io_handle_opened_in_library 754
  /- 15 -/ .read 18 17,  -- superblock 1068
  /- 16 -/ .release 18,  -- 757
  /- 17 -/ .choice [1, 2, 7, 19],
  /- 18 -/ .choice [1, 2, 20],
  /- 19 -/ .read 9 21,  -- fusion_middle_tree 1079
  /- 20 -/ .write 5 22,  -- file_io_handle 768
  /- 21 -/ .choice [1, 2, 7, 23],
  /- 22 -/ .write 7 11,  -- file_io_handle_opened_in_library 769
  /- 23 -/ .read 1 24,  -- checkpoint_map 1090
  /- 24 -/ .choice [1, 2, 7, 25],
  /- 25 -/ .read 4 26,  -- data_block_vector 1101
  /- 26 -/ .choice [1, 2, 7, 27],
  /- 27 -/ .read 16 28,  -- object_map_btree 1112
  /- 28 -/ .choice [1, 2, 7, 29],
  /- 29 -/ .read 14 30,  -- key_bag 1123
  /- 30 -/ .choice [1, 2, 7, 31],
  /- 31 -/ .read 18 32,  -- superblock 1142
  /- 32 -/ .write 18 33,  -- superblock 1142
  /- 33 -/ .choice [34, 35],
  /- 34 -/ .read 14 36,  -- key_bag 1797
  /- 35 -/ .read 18 37,  -- superblock 1155
  /- 36 -/ .choice [38, 39],
  /- 37 -/ .read 17 40,  -- *superblock 1154
  /- 38 -/ .read 16 41,  -- object_map_btree 1803
  /- 39 -/ .read 14 42,  -- key_bag 1800
  /- 40 -/ .choice [34, 43],
  /- 41 -/ .choice [44, 45],
  /- 42 -/ .write 14 46,  -- key_bag 1800
  /- 43 -/ .read 11 47,  -- io_handle 1171
  /- 44 -/ .read 4 48,  -- data_block_vector 1815
  /- 45 -/ .read 16 49,  -- object_map_btree 1806
  /- 46 -/ .write 13 38,  -- *key_bag 1799
  /- 47 -/ .read 18 50,  -- superblock 1171
  /- 48 -/ .choice [51, 52],
  /- 49 -/ .write 16 53,  -- object_map_btree 1806
  /- 50 -/ .read 17 54,  -- *superblock 1171
  /- 51 -/ .read 1 55,  -- checkpoint_map 1841
  /- 52 -/ .read 4 56,  -- data_block_vector 1818
  /- 53 -/ .write 15 44,  -- *object_map_btree 1805
  /- 54 -/ .write 10 57,  -- *io_handle 1171
  /- 55 -/ .choice [58, 59],
  /- 56 -/ .write 4 60,  -- data_block_vector 1818
  /- 57 -/ .read 11 61,  -- io_handle 1172
  /- 58 -/ .read 9 62,  -- fusion_middle_tree 1861
  /- 59 -/ .read 1 63,  -- checkpoint_map 1844
  /- 60 -/ .write 3 51,  -- *data_block_vector 1817
  /- 61 -/ .read 18 64,  -- superblock 1172
  /- 62 -/ .choice [65, 66],
  /- 63 -/ .write 1 67,  -- checkpoint_map 1844
  /- 64 -/ .read 17 68,  -- *superblock 1172
  /- 65 -/ .read 18 69,  -- superblock 1873
  /- 66 -/ .read 9 70,  -- fusion_middle_tree 1864
  /- 67 -/ .write 0 58,  -- *checkpoint_map 1843
  /- 68 -/ .read 11 71,  -- io_handle 1172
  /- 69 -/ .choice [1, 2, 7, 72],
  /- 70 -/ .write 9 73,  -- fusion_middle_tree 1864
  /- 71 -/ .read 10 74,  -- *io_handle 1172
  /- 72 -/ .read 18 75,  -- superblock 1876
  /- 73 -/ .write 8 65,  -- *fusion_middle_tree 1863
  /- 74 -/ .write 10 76,  -- *io_handle 1172
  /- 75 -/ .write 18 77,  -- superblock 1876
  /- 76 -/ .read 18 78,  -- superblock 1175
  /- 77 -/ .write 17 79,  -- *superblock 1875
  /- 78 -/ .read 17 80,  -- *superblock 1175
  /- 79 -/ .choice [1, 2, 7],
  /- 80 -/ .choice [34, 81],
  /- 81 -/ .read 18 82,  -- superblock 1286
  /- 82 -/ .read 17 83,  -- *superblock 1286
  /- 83 -/ .read 11 84,  -- io_handle 1353
  /- 84 -/ .read 10 85,  -- *io_handle 1353
  /- 85 -/ .read 18 86,  -- superblock 1210
  /- 86 -/ .read 17 87,  -- *superblock 1210
  /- 87 -/ .choice [34, 88, 83, 89, 81],
  /- 88 -/ .read 1 90,  -- checkpoint_map 1387
  /- 89 -/ .read 18 91,  -- superblock 1329
  /- 90 -/ .write 1 92,  -- checkpoint_map 1387
  /- 91 -/ .read 17 93,  -- *superblock 1329
  /- 92 -/ .choice [34, 94],
  /- 93 -/ .choice [34, 83, 95],
  /- 94 -/ .read 11 96,  -- io_handle 1399
  /- 95 -/ .read 18 97,  -- superblock 1331
  /- 96 -/ .read 10 98,  -- *io_handle 1399
  /- 97 -/ .write 18 99,  -- superblock 1332
  /- 98 -/ .read 1 100,  -- checkpoint_map 1402
  /- 99 -/ .choice [34, 83],
  /- 100 -/ .write 0 101,  -- *checkpoint_map 1401
  /- 101 -/ .choice [34, 102],
  /- 102 -/ .read 11 103,  -- io_handle 1598
  /- 103 -/ .read 10 104,  -- *io_handle 1596
  /- 104 -/ .choice [34, 105],
  /- 105 -/ .read 4 106,  -- data_block_vector 1611
  /- 106 -/ .read 11 107,  -- io_handle 1612
  /- 107 -/ .read 10 108,  -- *io_handle 1612
  /- 108 -/ .write 4 109,  -- data_block_vector 1611
  /- 109 -/ .choice [34, 110],
  /- 110 -/ .write 2 111,  -- container_data_handle 1630
  /- 111 -/ .read 4 112,  -- data_block_vector 1634
  /- 112 -/ .read 11 113,  -- io_handle 1638
  /- 113 -/ .read 10 114,  -- *io_handle 1638
  /- 114 -/ .read 3 115,  -- *data_block_vector 1633
  /- 115 -/ .choice [34, 116],
  /- 116 -/ .read 18 117,  -- superblock 1652
  /- 117 -/ .read 17 118,  -- *superblock 1652
  /- 118 -/ .choice [34, 119],
  /- 119 -/ .read 18 120,  -- superblock 1670
  /- 120 -/ .read 17 121,  -- *superblock 1670
  /- 121 -/ .read 11 122,  -- io_handle 1670
  /- 122 -/ .read 10 123,  -- *io_handle 1670
  /- 123 -/ .choice [34, 124],
  /- 124 -/ .read 16 125,  -- object_map_btree 1721
  /- 125 -/ .read 11 126,  -- io_handle 1722
  /- 126 -/ .read 4 127,  -- data_block_vector 1723
  /- 127 -/ .read 10 128,  -- *io_handle 1720
  /- 128 -/ .read 3 129,  -- *data_block_vector 1720
  /- 129 -/ .write 16 130,  -- object_map_btree 1721
  /- 130 -/ .choice [34, 131],
  /- 131 -/ .read 18 132,  -- superblock 1749
  /- 132 -/ .read 17 133,  -- *superblock 1749
  /- 133 -/ .read 18 134,  -- superblock 1750
  /- 134 -/ .read 17 135,  -- *superblock 1750
  /- 135 -/ .choice [1, 2, 7, 136],
  /- 136 -/ .read 14 137,  -- key_bag 1753
  /- 137 -/ .write 14 138,  -- key_bag 1753
  /- 138 -/ .choice [34, 139],
  /- 139 -/ .read 18 140,  -- superblock 1765
  /- 140 -/ .read 17 141,  -- *superblock 1765
  /- 141 -/ .read 11 142,  -- io_handle 1765
  /- 142 -/ .read 10 143,  -- *io_handle 1765
  /- 143 -/ .read 14 144,  -- key_bag 1768
  /- 144 -/ .read 11 145,  -- io_handle 1769
  /- 145 -/ .read 18 146,  -- superblock 1772
  /- 146 -/ .read 17 147,  -- *superblock 1772
  /- 147 -/ .read 11 148,  -- io_handle 1772
  /- 148 -/ .read 10 149,  -- *io_handle 1772
  /- 149 -/ .read 18 150,  -- superblock 1773
  /- 150 -/ .read 17 151,  -- *superblock 1773
  /- 151 -/ .read 10 152,  -- *io_handle 1767
  /- 152 -/ .write 13 153,  -- *key_bag 1767
  /- 153 -/ .choice [1, 2, 7, 34, 154],
  /- 154 -/ .read 14 155,  -- key_bag 1791
  /- 155 -/ .write 13 79]  -- *key_bag 1791

/-- `libfsapfs_container_open_wide`, libfsapfs_container.c:444-609 -/
def container_open_wide : Graph := [
  /- 0 -/ .choice [1, 2, 3],
  /- 1 -/ .ret,
  /- 2 -/ .grab true 4 1,  -- 566
  /- 3 -/ .read 5 5,  -- file_io_handle 641
  /- 4 -/ .write 6 6,  -- file_io_handle_created_in_library 580
  /- 5 -/ .choice [1, 2, 7, 8],
  /- 6 -/ .release 9,  -- 583
  /- 7 -/ .grab true 10 11,  -- 739
  /- 8 -/ .read 11 12,  -- io_handle 1057
  /- 9 -/ .choice [1, 13],
  /- 10 -/ .write 5 14,  -- file_io_handle 753
  /- 11 -/ .choice [1, 2],
  /- 12 -/ .choice [1, 2, 7, 15],
  /- 13 -/ .write 6 1,  -- file_io_handle_created_in_library 594
  /- 14 -/ .write 7 16,  -- file_io_handle_opened_in_library 754
  /- 15 -/ .read 18 17,  -- superblock 1068
  /- 16 -/ .release 18,  -- 757
  /- 17 -/ .choice [1, 2, 7, 19],
  /- 18 -/ .choice [1, 2, 20],
  /- 19 -/ .read 9 21,  -- fusion_middle_tree 1079
  /- 20 -/ .write 5 22,  -- file_io_handle 768
  /- 21 -/ .choice [1, 2, 7, 23],
  /- 22 -/ .write 7 11,  -- file_io_handle_opened_in_library 769
  /- 23 -/ .read 1 24,  -- checkpoint_map 1090
  /- 24 -/ .choice [1, 2, 7, 25],
  /- 25 -/ .read 4 26,  -- data_block_vector 1101
  /- 26 -/ .choice [1, 2, 7, 27],
  /- 27 -/ .read 16 28,  -- object_map_btree 1112
  /- 28 -/ .choice [1, 2, 7, 29],
  /- 29 -/ .read 14 30,  -- key_bag 1123
  /- 30 -/ .choice [1, 2, 7, 31],
  /- 31 -/ .read 18 32,  -- superblock 1142
  /- 32 -/ .write 18 33,  -- superblock 1142
  /- 33 -/ .choice [34, 35],
  /- 34 -/ .read 14 36,  -- key_bag 1797
  /- 35 -/ .read 18 37,  -- superblock 1155
  /- 36 -/ .choice [38, 39],
  /- 37 -/ .read 17 40,  -- *superblock 1154
  /- 38 -/ .read 16 41,  -- object_map_btree 1803
  /- 39 -/ .read 14 42,  -- key_bag 1800
  /- 40 -/ .choice [34, 43],
  /- 41 -/ .choice [44, 45],
  /- 42 -/ .write 14 46,  -- key_bag 1800
  /- 43 -/ .read 11 47,  -- io_handle 1171
  /- 44 -/ .read 4 48,  -- data_block_vector 1815
  /- 45 -/ .read 16 49,  -- object_map_btree 1806
  /- 46 -/ .write 13 38,  -- *key_bag 1799
  /- 47 -/ .read 18 50,  -- superblock 1171
  /- 48 -/ .choice [51, 52],
  /- 49 -/ .write 16 53,  -- object_map_btree 1806
  /- 50 -/ .read 17 54,  -- *superblock 1171
  /- 51 -/ .read 1 55,  -- checkpoint_map 1841
  /- 52 -/ .read 4 56,  -- data_block_vector 1818
  /- 53 -/ .write 15 44,  -- *object_map_btree 1805
  /- 54 -/ .write 10 57,  -- *io_handle 1171
  /- 55 -/ .choice [58, 59],
  /- 56 -/ .write 4 60,  -- data_block_vector 1818
  /- 57 -/ .read 11 61,  -- io_handle 1172
  /- 58 -/ .read 9 62,  -- fusion_middle_tree 1861
  /- 59 -/ .read 1 63,  -- checkpoint_map 1844
  /- 60 -/ .write 3 51,  -- *data_block_vector 1817
  /- 61 -/ .read 18 64,  -- superblock 1172
  /- 62 -/ .choice [65, 66],
  /- 63 -/ .write 1 67,  -- checkpoint_map 1844
  /- 64 -/ .read 17 68,  -- *superblock 1172
  /- 65 -/ .read 18 69,  -- superblock 1873
  /- 66 -/ .read 9 70,  -- fusion_middle_tree 1864
  /- 67 -/ .write 0 58,  -- *checkpoint_map 1843
  /- 68 -/ .read 11 71,  -- io_handle 1172
  /- 69 -/ .choice [1, 2, 7, 72],
  /- 70 -/ .write 9 73,  -- fusion_middle_tree 1864
  /- 71 -/ .read 10 74,  -- *io_handle 1172
  /- 72 -/ .read 18 75,  -- superblock 1876
  /- 73 -/ .write 8 65,  -- *fusion_middle_tree 1863
  /- 74 -/ .write 10 76,  -- *io_handle 1172
  /- 75 -/ .write 18 77,  -- superblock 1876
  /- 76 -/ .read 18 78,  -- superblock 1175
  /- 77 -/ .write 17 79,  -- *superblock 1875
  /- 78 -/ .read 17 80,  -- *superblock 1175
  /- 79 -/ .choice [1, 2, 7],
  /- 80 -/ .choice [34, 81],
  /- 81 -/ .read 18 82,  -- superblock 1286
  /- 82 -/ .read 17 83,  -- *superblock 1286
  /- 83 -/ .read 11 84,  -- io_handle 1353
  /- 84 -/ .read 10 85,  -- *io_handle 1353
  /- 85 -/ .read 18 86,  -- superblock 1210
  /- 86 -/ .read 17 87,  -- *superblock 1210
  /- 87 -/ .choice [34, 88, 83, 89, 81],
  /- 88 -/ .read 1 90,  -- checkpoint_map 1387
  /- 89 -/ .read 18 91,  -- superblock 1329
  /- 90 -/ .write 1 92,  -- checkpoint_map 1387
  /- 91 -/ .read 17 93,  -- *superblock 1329
  /- 92 -/ .choice [34, 94],
  /- 93 -/ .choice [34, 83, 95],
  /- 94 -/ .read 11 96,  -- io_handle 1399
  /- 95 -/ .read 18 97,  -- superblock 1331
  /- 96 -/ .read 10 98,  -- *io_handle 1399
  /- 97 -/ .write 18 99,  -- superblock 1332
  /- 98 -/ .read 1 100,  -- checkpoint_map 1402
  /- 99 -/ .choice [34, 83],
  /- 100 -/ .write 0 101,  -- *checkpoint_map 1401
  /- 101 -/ .choice [34, 102],
  /- 102 -/ .read 11 103,  -- io_handle 1598
  /- 103 -/ .read 10 104,  -- *io_handle 1596
  /- 104 -/ .choice [34, 105],
  /- 105 -/ .read 4 106,  -- data_block_vector 1611
  /- 106 -/ .read 11 107,  -- io_handle 1612
  /- 107 -/ .read 10 108,  -- *io_handle 1612
  /- 108 -/ .write 4 109,  -- data_block_vector 1611
  /- 109 -/ .choice [34, 110],
  /- 110 -/ .write 2 111,  -- container_data_handle 1630
  /- 111 -/ .read 4 112,  -- data_block_vector 1634
  /- 112 -/ .read 11 113,  -- io_handle 1638
  /- 113 -/ .read 10 114,  -- *io_handle 1638
  /- 114 -/ .read 3 115,  -- *data_block_vector 1633
  /- 115 -/ .choice [34, 116],
  /- 116 -/ .read 18 117,  -- superblock 1652
  /- 117 -/ .read 17 118,  -- *superblock 1652
  /- 118 -/ .choice [34, 119],
  /- 119 -/ .read 18 120,  -- superblock 1670
  /- 120 -/ .read 17 121,  -- *superblock 1670
  /- 121 -/ .read 11 122,  -- io_handle 1670
  /- 122 -/ .read 10 123,  -- *io_handle 1670
  /- 123 -/ .choice [34, 124],
  /- 124 -/ .read 16 125,  -- object_map_btree 1721
  /- 125 -/ .read 11 126,  -- io_handle 1722
  /- 126 -/ .read 4 127,  -- data_block_vector 1723
  /- 127 -/ .read 10 128,  -- *io_handle 1720
  /- 128 -/ .read 3 129,  -- *data_block_vector 1720
  /- 129 -/ .write 16 130,  -- object_map_btree 1721
  /- 130 -/ .choice [34, 131],
  /- 131 -/ .read 18 132,  -- superblock 1749
  /- 132 -/ .read 17 133,  -- *superblock 1749
  /- 133 -/ .read 18 134,  -- superblock 1750
  /- 134 -/ .read 17 135,  -- *superblock 1750
  /- 135 -/ .choice [1, 2, 7, 136],
  /- 136 -/ .read 14 137,  -- key_bag 1753
  /- 137 -/ .write 14 138,  -- key_bag 1753
  /- 138 -/ .choice [34, 139],
  /- 139 -/ .read 18 140,  -- superblock 1765
  /- 140 -/ .read 17 141,  -- *superblock 1765
  /- 141 -/ .read 11 142,  -- io_handle 1765
  /- 142 -/ .read 10 143,  -- *io_handle 1765
  /- 143 -/ .read 14 144,  -- key_bag 1768
  /- 144 -/ .read 11 145,  -- io_handle 1769
  /- 145 -/ .read 18 146,  -- superblock 1772
  /- 146 -/ .read 17 147,  -- *superblock 1772
  /- 147 -/ .read 11 148,  -- io_handle 1772
  /- 148 -/ .read 10 149,  -- *io_handle 1772
  /- 149 -/ .read 18 150,  -- superblock 1773
  /- 150 -/ .read 17 151,  -- *superblock 1773
  /- 151 -/ .read 10 152,  -- *io_handle 1767
  /- 152 -/ .write 13 153,  -- *key_bag 1767
  /- 153 -/ .choice [1, 2, 7, 34, 154],
  /- 154 -/ .read 14 155,  -- key_bag 1791
  /- 155 -/ .write 13 79]  -- *key_bag 1791

/-- `libfsapfs_container_open_file_io_handle`, libfsapfs_container.c:616-784 -/
def container_open_file_io_handle : Graph := [
  /- 0 -/ .choice [1, 2],
  /- 1 -/ .ret,
  /- 2 -/ .read 5 3,  -- file_io_handle 641
  /- 3 -/ .choice [1, 4, 5],
  /- 4 -/ .grab true 6 1,  -- 739
  /- 5 -/ .read 11 7,  -- io_handle 1057
  /- 6 -/ .write 5 8,  -- file_io_handle 753
  /- 7 -/ .choice [1, 4, 9],
  /- 8 -/ .write 7 10,  -- file_io_handle_opened_in_library 754
  /- 9 -/ .read 18 11,  -- superblock 1068
  /- 10 -/ .release 12,  -- 757
  /- 11 -/ .choice [1, 4, 13],
  /- 12 -/ .choice [1, 14],
  /- 13 -/ .read 9 15,  -- fusion_middle_tree 1079
  /- 14 -/ .write 5 16,  -- file_io_handle 768
  /- 15 -/ .choice [1, 4, 17],
  /- 16 -/ .write 7 1,  -- file_io_handle_opened_in_library 769
  /- 17 -/ .read 1 18,  -- checkpoint_map 1090
  /- 18 -/ .choice [1, 4, 19],
  /- 19 -/ .read 4 20,  -- data_block_vector 1101
  /- 20 -/ .choice [1, 4, 21],
  /- 21 -/ .read 16 22,  -- object_map_btree 1112
  /- 22 -/ .choice [1, 4, 23],
  /- 23 -/ .read 14 24,  -- key_bag 1123
  /- 24 -/ .choice [1, 4, 25],
  /- 25 -/ .read 18 26,  -- superblock 1142
  /- 26 -/ .write 18 27,  -- superblock 1142
  /- 27 -/ .choice [28, 29],
  /- 28 -/ .read 14 30,  -- key_bag 1797
  /- 29 -/ .read 18 31,  -- superblock 1155
  /- 30 -/ .choice [32, 33],
  /- 31 -/ .read 17 34,  -- *superblock 1154
  /- 32 -/ .read 16 35,  -- object_map_btree 1803
  /- 33 -/ .read 14 36,  -- key_bag 1800
  /- 34 -/ .choice [28, 37],
  /- 35 -/ .choice [38, 39],
  /- 36 -/ .write 14 40,  -- key_bag 1800
  /- 37 -/ .read 11 41,  -- io_handle 1171
  /- 38 -/ .read 4 42,  -- data_block_vector 1815
  /- 39 -/ .read 16 43,  -- object_map_btree 1806
  /- 40 -/ .write 13 32,  -- *key_bag 1799
  /- 41 -/ .read 18 44,  -- superblock 1171
  /- 42 -/ .choice [45, 46],
  /- 43 -/ .write 16 47,  -- object_map_btree 1806
  /- 44 -/ .read 17 48,  -- *superblock 1171
  /- 45 -/ .read 1 49,  -- checkpoint_map 1841
  /- 46 -/ .read 4 50,  -- data_block_vector 1818
  /- 47 -/ .write 15 38,  -- *object_map_btree 1805
  /- 48 -/ .write 10 51,  -- *io_handle 1171
  /- 49 -/ .choice [52, 53],
  /- 50 -/ .write 4 54,  -- data_block_vector 1818
  /- 51 -/ .read 11 55,  -- io_handle 1172
  /- 52 -/ .read 9 56,  -- fusion_middle_tree 1861
  /- 53 -/ .read 1 57,  -- checkpoint_map 1844
  /- 54 -/ .write 3 45,  -- *data_block_vector 1817
  /- 55 -/ .read 18 58,  -- superblock 1172
  /- 56 -/ .choice [59, 60],
  /- 57 -/ .write 1 61,  -- checkpoint_map 1844
  /- 58 -/ .read 17 62,  -- *superblock 1172
  /- 59 -/ .read 18 63,  -- superblock 1873
  /- 60 -/ .read 9 64,  -- fusion_middle_tree 1864
  /- 61 -/ .write 0 52,  -- *checkpoint_map 1843
  /- 62 -/ .read 11 65,  -- io_handle 1172
  /- 63 -/ .choice [1, 4, 66],
  /- 64 -/ .write 9 67,  -- fusion_middle_tree 1864
  /- 65 -/ .read 10 68,  -- *io_handle 1172
  /- 66 -/ .read 18 69,  -- superblock 1876
  /- 67 -/ .write 8 59,  -- *fusion_middle_tree 1863
  /- 68 -/ .write 10 70,  -- *io_handle 1172
  /- 69 -/ .write 18 71,  -- superblock 1876
  /- 70 -/ .read 18 72,  -- superblock 1175
  /- 71 -/ .write 17 73,  -- *superblock 1875
  /- 72 -/ .read 17 74,  -- *superblock 1175
  /- 73 -/ .choice [1, 4],
  /- 74 -/ .choice [28, 75],
  /- 75 -/ .read 18 76,  -- superblock 1286
  /- 76 -/ .read 17 77,  -- *superblock 1286
  /- 77 -/ .read 11 78,  -- io_handle 1353
  /- 78 -/ .read 10 79,  -- *io_handle 1353
  /- 79 -/ .read 18 80,  -- superblock 1210
  /- 80 -/ .read 17 81,  -- *superblock 1210
  /- 81 -/ .choice [28, 82, 77, 83, 75],
  /- 82 -/ .read 1 84,  -- checkpoint_map 1387
  /- 83 -/ .read 18 85,  -- superblock 1329
  /- 84 -/ .write 1 86,  -- checkpoint_map 1387
  /- 85 -/ .read 17 87,  -- *superblock 1329
  /- 86 -/ .choice [28, 88],
  /- 87 -/ .choice [28, 77, 89],
  /- 88 -/ .read 11 90,  -- io_handle 1399
  /- 89 -/ .read 18 91,  -- superblock 1331
  /- 90 -/ .read 10 92,  -- *io_handle 1399
  /- 91 -/ .write 18 93,  -- superblock 1332
  /- 92 -/ .read 1 94,  -- checkpoint_map 1402
  /- 93 -/ .choice [28, 77],
  /- 94 -/ .write 0 95,  -- *checkpoint_map 1401
  /- 95 -/ .choice [28, 96],
  /- 96 -/ .read 11 97,  -- io_handle 1598
  /- 97 -/ .read 10 98,  -- *io_handle 1596
  /- 98 -/ .choice [28, 99],
  /- 99 -/ .read 4 100,  -- data_block_vector 1611
  /- 100 -/ .read 11 101,  -- io_handle 1612
  /- 101 -/ .read 10 102,  -- *io_handle 1612
  /- 102 -/ .write 4 103,  -- data_block_vector 1611
  /- 103 -/ .choice [28, 104],
  /- 104 -/ .write 2 105,  -- container_data_handle 1630
  /- 105 -/ .read 4 106,  -- data_block_vector 1634
  /- 106 -/ .read 11 107,  -- io_handle 1638
  /- 107 -/ .read 10 108,  -- *io_handle 1638
  /- 108 -/ .read 3 109,  -- *data_block_vector 1633
  /- 109 -/ .choice [28, 110],
  /- 110 -/ .read 18 111,  -- superblock 1652
  /- 111 -/ .read 17 112,  -- *superblock 1652
  /- 112 -/ .choice [28, 113],
  /- 113 -/ .read 18 114,  -- superblock 1670
  /- 114 -/ .read 17 115,  -- *superblock 1670
  /- 115 -/ .read 11 116,  -- io_handle 1670
  /- 116 -/ .read 10 117,  -- *io_handle 1670
  /- 117 -/ .choice [28, 118],
  /- 118 -/ .read 16 119,  -- object_map_btree 1721
  /- 119 -/ .read 11 120,  -- io_handle 1722
  /- 120 -/ .read 4 121,  -- data_block_vector 1723
  /- 121 -/ .read 10 122,  -- *io_handle 1720
  /- 122 -/ .read 3 123,  -- *data_block_vector 1720
  /- 123 -/ .write 16 124,  -- object_map_btree 1721
  /- 124 -/ .choice [28, 125],
  /- 125 -/ .read 18 126,  -- superblock 1749
  /- 126 -/ .read 17 127,  -- *superblock 1749
  /- 127 -/ .read 18 128,  -- superblock 1750
  /- 128 -/ .read 17 129,  -- *superblock 1750
  /- 129 -/ .choice [1, 4, 130],
  /- 130 -/ .read 14 131,  -- key_bag 1753
  /- 131 -/ .write 14 132,  -- key_bag 1753
  /- 132 -/ .choice [28, 133],
  /- 133 -/ .read 18 134,  -- superblock 1765
  /- 134 -/ .read 17 135,  -- *superblock 1765
  /- 135 -/ .read 11 136,  -- io_handle 1765
  /- 136 -/ .read 10 137,  -- *io_handle 1765
  /- 137 -/ .read 14 138,  -- key_bag 1768
  /- 138 -/ .read 11 139,  -- io_handle 1769
  /- 139 -/ .read 18 140,  -- superblock 1772
  /- 140 -/ .read 17 141,  -- *superblock 1772
  /- 141 -/ .read 11 142,  -- io_handle 1772
  /- 142 -/ .read 10 143,  -- *io_handle 1772
  /- 143 -/ .read 18 144,  -- superblock 1773
  /- 144 -/ .read 17 145,  -- *superblock 1773
  /- 145 -/ .read 10 146,  -- *io_handle 1767
  /- 146 -/ .write 13 147,  -- *key_bag 1767
  /- 147 -/ .choice [1, 4, 28, 148],
  /- 148 -/ .read 14 149,  -- key_bag 1791
  /- 149 -/ .write 13 73]  -- *key_bag 1791

/-- `libfsapfs_container_close`, libfsapfs_container.c:789-1015 -/
def container_close : Graph := [
  /- 0 -/ .choice [1, 2],
  /- 1 -/ .ret,
  /- 2 -/ .read 5 3,  -- file_io_handle 810
  /- 3 -/ .choice [1, 4],
  /- 4 -/ .grab true 5 1,  -- 822
  /- 5 -/ .read 7 6,  -- file_io_handle_opened_in_library 857
  /- 6 -/ .choice [7, 8],
  /- 7 -/ .read 6 9,  -- file_io_handle_created_in_library 874
  /- 8 -/ .read 5 10,  -- file_io_handle 860
  /- 9 -/ .choice [11, 12],
  /- 10 -/ .write 7 7,  -- file_io_handle_opened_in_library 872
  /- 11 -/ .write 5 13,  -- file_io_handle 891
  /- 12 -/ .read 5 14,  -- file_io_handle 877
  /- 13 -/ .read 11 15,  -- io_handle 894
  /- 14 -/ .write 5 16,  -- file_io_handle 877
  /- 15 -/ .write 12 17,  -- io_handle->abort 893
  /- 16 -/ .write 6 11,  -- file_io_handle_created_in_library 889
  /- 17 -/ .write 10 18,  -- *io_handle 893
  /- 18 -/ .read 18 19,  -- superblock 906
  /- 19 -/ .choice [20, 21],
  /- 20 -/ .read 9 22,  -- fusion_middle_tree 922
  /- 21 -/ .read 18 23,  -- superblock 909
  /- 22 -/ .choice [24, 25],
  /- 23 -/ .write 18 26,  -- superblock 909
  /- 24 -/ .read 1 27,  -- checkpoint_map 938
  /- 25 -/ .read 9 28,  -- fusion_middle_tree 925
  /- 26 -/ .write 17 20,  -- *superblock 908
  /- 27 -/ .choice [29, 30],
  /- 28 -/ .write 9 31,  -- fusion_middle_tree 925
  /- 29 -/ .read 4 32,  -- data_block_vector 955
  /- 30 -/ .read 1 33,  -- checkpoint_map 941
  /- 31 -/ .write 8 24,  -- *fusion_middle_tree 924
  /- 32 -/ .write 4 34,  -- data_block_vector 955
  /- 33 -/ .write 1 35,  -- checkpoint_map 941
  /- 34 -/ .write 3 36,  -- *data_block_vector 954
  /- 35 -/ .write 0 29,  -- *checkpoint_map 940
  /- 36 -/ .read 16 37,  -- object_map_btree 967
  /- 37 -/ .choice [38, 39],
  /- 38 -/ .read 14 40,  -- key_bag 983
  /- 39 -/ .read 16 41,  -- object_map_btree 970
  /- 40 -/ .choice [42, 43],
  /- 41 -/ .write 16 44,  -- object_map_btree 970
  /- 42 -/ .release 1,  -- 1000
  /- 43 -/ .read 14 45,  -- key_bag 986
  /- 44 -/ .write 15 38,  -- *object_map_btree 969
  /- 45 -/ .write 14 46,  -- key_bag 986
  /- 46 -/ .write 13 42]  -- *key_bag 985

/-- `libfsapfs_container_get_size`, libfsapfs_container.c:1885-1972 -/
def container_get_size : Graph := [
  /- 0 -/ .choice [1, 2],
  /- 1 -/ .ret,
  /- 2 -/ .read 11 3,  -- io_handle 1906
  /- 3 -/ .choice [1, 4],
  /- 4 -/ .read 18 5,  -- superblock 1917
  /- 5 -/ .choice [1, 6],
  /- 6 -/ .grab false 7 1,  -- 1940
  /- 7 -/ .read 11 8,  -- io_handle 1954
  /- 8 -/ .read 10 9,  -- *io_handle 1954
  /- 9 -/ .release 1]  -- 1957

/-- `libfsapfs_container_get_identifier`, libfsapfs_container.c:1978-2047 -/
def container_get_identifier : Graph := [
  /- 0 -/ .choice [1, 2],
  /- 1 -/ .ret,
  /- 2 -/ .grab false 3 1,  -- 2002
  /- 3 -/ .read 18 4,  -- superblock 2017
  /- 4 -/ .read 17 5,  -- *superblock 2016
  /- 5 -/ .release 1]  -- 2032

/-- `libfsapfs_container_is_locked`, libfsapfs_container.c:2052-2108 -/
def container_is_locked : Graph := [
  /- 0 -/ .choice [1, 2],
  /- 1 -/ .ret,
  /- 2 -/ .grab false 3 1,  -- 2074
  /- 3 -/ .read 14 4,  -- key_bag 2088
  /- 4 -/ .choice [5, 6],
  /- 5 -/ .release 1,  -- 2093
  /- 6 -/ .read 14 7,  -- key_bag 2090
  /- 7 -/ .read 13 5]  -- *key_bag 2090

/-- `libfsapfs_container_get_number_of_volumes`, libfsapfs_container.c:2113-2189 -/
def container_get_number_of_volumes : Graph := [
  /- 0 -/ .choice [1, 2],
  /- 1 -/ .ret,
  /- 2 -/ .read 18 3,  -- superblock 2134
  /- 3 -/ .choice [1, 4],
  /- 4 -/ .grab false 5 1,  -- 2157
  /- 5 -/ .read 18 6,  -- superblock 2171
  /- 6 -/ .read 17 7,  -- *superblock 2171
  /- 7 -/ .release 1]  -- 2174

/-- `libfsapfs_container_get_volume_by_index`, libfsapfs_container.c:2195-2392 -/
def container_get_volume_by_index : Graph := [
  /- 0 -/ .choice [1, 2],
  /- 1 -/ .ret,
  /- 2 -/ .read 18 3,  -- superblock 2219
  /- 3 -/ .choice [1, 4],
  /- 4 -/ .read 18 5,  -- superblock 2231
  /- 5 -/ .read 17 6,  -- *superblock 2231
  /- 6 -/ .choice [1, 7],
  /- 7 -/ .grab false 8 1,  -- 2265
  /- 8 -/ .read 16 9,  -- object_map_btree 2280
  /- 9 -/ .read 5 10,  -- file_io_handle 2281
  /- 10 -/ .read 18 11,  -- superblock 2282
  /- 11 -/ .read 17 12,  -- *superblock 2282
  /- 12 -/ .read 18 13,  -- superblock 2283
  /- 13 -/ .read 17 14,  -- *superblock 2283
  /- 14 -/ .write 15 15,  -- *object_map_btree 2279
  /- 15 -/ .choice [16, 17, 18],
  /- 16 -/ .release 1,  -- 2387
  /- 17 -/ .read 11 19,  -- io_handle 2311
  /- 18 -/ .read 18 20,  -- superblock 2293
  /- 19 -/ .read 5 21,  -- file_io_handle 2312
  /- 20 -/ .read 17 22,  -- *superblock 2293
  /- 21 -/ .read 14 23,  -- key_bag 2313
  /- 22 -/ .read 18 24,  -- superblock 2294
  /- 23 -/ .read 10 25,  -- *io_handle 2309
  /- 24 -/ .read 17 16,  -- *superblock 2294
  /- 25 -/ .read 13 26,  -- *key_bag 2309
  /- 26 -/ .choice [16, 27],
  /- 27 -/ .read 11 28,  -- io_handle 2325
  /- 28 -/ .read 10 29,  -- *io_handle 2325
  /- 29 -/ .choice [16, 30],
  /- 30 -/ .read 5 16]  -- file_io_handle 2342

/-- the functions of a container -/
def api : List (String × Graph) :=
  [("libfsapfs_container_signal_abort", container_signal_abort),
   ("libfsapfs_container_open", container_open),
   ("libfsapfs_container_open_wide", container_open_wide),
   ("libfsapfs_container_open_file_io_handle", container_open_file_io_handle),
   ("libfsapfs_container_close", container_close),
   ("libfsapfs_container_get_size", container_get_size),
   ("libfsapfs_container_get_identifier", container_get_identifier),
   ("libfsapfs_container_is_locked", container_is_locked),
   ("libfsapfs_container_get_number_of_volumes", container_get_number_of_volumes),
   ("libfsapfs_container_get_volume_by_index", container_get_volume_by_index)]

end Container

namespace Volume

/-- the places of a volume (struct libfsapfs_internal_volume in libfsapfs_volume.h) -/
def names : List String :=
  ["*container_key_bag", "container_key_bag", "*encryption_context", "encryption_context",
   "file_io_handle", "*file_system", "file_system", "*file_system_data_block_vector",
   "file_system_data_block_vector", "*io_handle", "io_handle", "is_locked",
   "*key_bag", "key_bag", "*object_map_btree", "object_map_btree",
   "*recovery_password", "recovery_password", "recovery_password_size", "*snapshots",
   "snapshots", "*superblock", "superblock", "*user_password",
   "user_password", "user_password_size"]

/-- `libfsapfs_volume_unlock`, libfsapfs_volume.c:1247-1317 -/
def volume_unlock : Graph := [
  /- 0 -/ .choice [1, 2],
  /- 1 -/ .ret,
  /- 2 -/ .grab true 3 1,  -- 1269
  /- 3 -/ .read 11 4,  -- is_locked 1283
  /- 4 -/ .choice [5, 6],
  /- 5 -/ .release 1,  -- 1302
  /- 6 -/ .read 22 7,  -- superblock 1138
  /- 7 -/ .choice [5, 8],
  /- 8 -/ .read 13 9,  -- key_bag 1149
  /- 9 -/ .choice [5, 10, 11],
  /- 10 -/ .write 11 5,  -- is_locked 1226
  /- 11 -/ .read 13 12,  -- key_bag 1156
  /- 12 -/ .read 24 13,  -- user_password 1157
  /- 13 -/ .read 25 14,  -- user_password_size 1158
  /- 14 -/ .read 17 15,  -- recovery_password 1159
  /- 15 -/ .read 18 16,  -- recovery_password_size 1160
  /- 16 -/ .read 12 17,  -- *key_bag 1155
  /- 17 -/ .read 23 18,  -- *user_password 1155
  /- 18 -/ .read 16 19,  -- *recovery_password 1155
  /- 19 -/ .choice [5, 10, 20],
  /- 20 -/ .read 1 21,  -- container_key_bag 1179
  /- 21 -/ .read 22 22,  -- superblock 1180
  /- 22 -/ .read 21 23,  -- *superblock 1180
  /- 23 -/ .read 0 24,  -- *container_key_bag 1178
  /- 24 -/ .choice [5, 25],
  /- 25 -/ .read 3 26,  -- encryption_context 1202
  /- 26 -/ .write 2 27,  -- *encryption_context 1201
  /- 27 -/ .choice [5, 10]]

/-- `libfsapfs_volume_get_features_flags`, libfsapfs_volume.c:1322-1424 -/
def volume_get_features_flags : Graph := [
  /- 0 -/ .choice [1, 2],
  /- 1 -/ .ret,
  /- 2 -/ .read 22 3,  -- superblock 1345
  /- 3 -/ .choice [1, 4],
  /- 4 -/ .grab false 5 1,  -- 1390
  /- 5 -/ .read 22 6,  -- superblock 1404
  /- 6 -/ .read 21 7,  -- *superblock 1404
  /- 7 -/ .read 22 8,  -- superblock 1405
  /- 8 -/ .read 21 9,  -- *superblock 1405
  /- 9 -/ .read 22 10,  -- superblock 1406
  /- 10 -/ .read 21 11,  -- *superblock 1406
  /- 11 -/ .release 1]  -- 1409

/-- `libfsapfs_volume_get_size`, libfsapfs_volume.c:1429-1506 -/
def volume_get_size : Graph := [
  /- 0 -/ .choice [1, 2],
  /- 1 -/ .ret,
  /- 2 -/ .read 22 3,  -- superblock 1450
  /- 3 -/ .choice [1, 4],
  /- 4 -/ .grab false 5 1,  -- 1473
  /- 5 -/ .release 1]  -- 1491

/-- `libfsapfs_volume_get_identifier`, libfsapfs_volume.c:1512-1592 -/
def volume_get_identifier : Graph := [
  /- 0 -/ .choice [1, 2],
  /- 1 -/ .ret,
  /- 2 -/ .read 22 3,  -- superblock 1535
  /- 3 -/ .choice [1, 4],
  /- 4 -/ .grab false 5 1,  -- 1547
  /- 5 -/ .read 22 6,  -- superblock 1562
  /- 6 -/ .read 21 7,  -- *superblock 1561
  /- 7 -/ .release 1]  -- 1577

/-- `libfsapfs_volume_get_utf8_name_size`, libfsapfs_volume.c:1598-1665 -/
def volume_get_utf8_name_size : Graph := [
  /- 0 -/ .choice [1, 2],
  /- 1 -/ .ret,
  /- 2 -/ .grab false 3 1,  -- 1621
  /- 3 -/ .read 22 4,  -- superblock 1636
  /- 4 -/ .read 21 5,  -- *superblock 1635
  /- 5 -/ .release 1]  -- 1650

/-- `libfsapfs_volume_get_utf8_name`, libfsapfs_volume.c:1671-1740 -/
def volume_get_utf8_name : Graph := [
  /- 0 -/ .choice [1, 2],
  /- 1 -/ .ret,
  /- 2 -/ .grab false 3 1,  -- 1695
  /- 3 -/ .read 22 4,  -- superblock 1710
  /- 4 -/ .read 21 5,  -- *superblock 1709
  /- 5 -/ .release 1]  -- 1725

/-- `libfsapfs_volume_get_utf16_name_size`, libfsapfs_volume.c:1746-1813 -/
def volume_get_utf16_name_size : Graph := [
  /- 0 -/ .choice [1, 2],
  /- 1 -/ .ret,
  /- 2 -/ .grab false 3 1,  -- 1769
  /- 3 -/ .read 22 4,  -- superblock 1784
  /- 4 -/ .read 21 5,  -- *superblock 1783
  /- 5 -/ .release 1]  -- 1798

/-- `libfsapfs_volume_get_utf16_name`, libfsapfs_volume.c:1819-1888 -/
def volume_get_utf16_name : Graph := [
  /- 0 -/ .choice [1, 2],
  /- 1 -/ .ret,
  /- 2 -/ .grab false 3 1,  -- 1843
  /- 3 -/ .read 22 4,  -- superblock 1858
  /- 4 -/ .read 21 5,  -- *superblock 1857
  /- 5 -/ .release 1]  -- 1873

/-- `libfsapfs_volume_is_locked`, libfsapfs_volume.c:1893-1947 -/
def volume_is_locked : Graph := [
  /- 0 -/ .choice [1, 2],
  /- 1 -/ .ret,
  /- 2 -/ .grab false 3 1,  -- 1915
  /- 3 -/ .read 11 4,  -- is_locked 1929
  /- 4 -/ .release 1]  -- 1932

/-- `libfsapfs_volume_set_utf8_password`, libfsapfs_volume.c:1953-2116 -/
def volume_set_utf8_password : Graph := [
  /- 0 -/ .choice [1, 2],
  /- 1 -/ .ret,
  /- 2 -/ .grab true 3 1,  -- 1987
  /- 3 -/ .read 24 4,  -- user_password 2001
  /- 4 -/ .choice [5, 6],
  /- 5 -/ .write 25 7,  -- user_password_size 2023
  /- 6 -/ .read 24 8,  -- user_password 2004
  /- 7 -/ .read 25 9,  -- user_password_size 2026
  /- 8 -/ .read 25 10,  -- user_password_size 2006
  /- 9 -/ .read 25 11,  -- user_password_size 2027
  /- 10 -/ .write 23 12,  -- *user_password 2003
  /- 11 -/ .choice [13, 14],
  /- 12 -/ .choice [13, 15],
  /- 13 -/ .read 24 16,  -- user_password 2097
  /- 14 -/ .read 25 17,  -- user_password_size 2038
  /- 15 -/ .read 24 18,  -- user_password 2018
  /- 16 -/ .choice [19, 20],
  /- 17 -/ .write 25 21,  -- user_password_size 2038
  /- 18 -/ .write 23 22,  -- *user_password 2017
  /- 19 -/ .write 25 23,  -- user_password_size 2108
  /- 20 -/ .read 24 24,  -- user_password 2100
  /- 21 -/ .read 25 25,  -- user_password_size 2041
  /- 22 -/ .write 24 26,  -- user_password 2020
  /- 23 -/ .release 1,  -- 2111
  /- 24 -/ .read 25 27,  -- user_password_size 2102
  /- 25 -/ .write 24 28,  -- user_password 2040
  /- 26 -/ .write 25 5,  -- user_password_size 2021
  /- 27 -/ .write 23 29,  -- *user_password 2099
  /- 28 -/ .read 24 30,  -- user_password 2043
  /- 29 -/ .read 24 31,  -- user_password 2104
  /- 30 -/ .choice [13, 32],
  /- 31 -/ .write 23 33,  -- *user_password 2103
  /- 32 -/ .read 24 34,  -- user_password 2055
  /- 33 -/ .write 24 19,  -- user_password 2106
  /- 34 -/ .write 23 35,  -- *user_password 2054
  /- 35 -/ .choice [13, 36],
  /- 36 -/ .read 24 37,  -- user_password 2068
  /- 37 -/ .read 25 38,  -- user_password_size 2068
  /- 38 -/ .write 23 23]  -- *user_password 2068

/-- `libfsapfs_volume_set_utf16_password`, libfsapfs_volume.c:2122-2288 -/
def volume_set_utf16_password : Graph := [
  /- 0 -/ .choice [1, 2],
  /- 1 -/ .ret,
  /- 2 -/ .grab true 3 1,  -- 2145
  /- 3 -/ .read 24 4,  -- user_password 2159
  /- 4 -/ .choice [5, 6],
  /- 5 -/ .read 25 7,  -- user_password_size 2184
  /- 6 -/ .read 24 8,  -- user_password 2162
  /- 7 -/ .write 25 9,  -- user_password_size 2184
  /- 8 -/ .read 25 10,  -- user_password_size 2164
  /- 9 -/ .choice [11, 12],
  /- 10 -/ .write 23 13,  -- *user_password 2161
  /- 11 -/ .read 24 14,  -- user_password 2269
  /- 12 -/ .read 25 15,  -- user_password_size 2196
  /- 13 -/ .choice [11, 16],
  /- 14 -/ .choice [17, 18],
  /- 15 -/ .read 25 19,  -- user_password_size 2197
  /- 16 -/ .read 24 20,  -- user_password 2176
  /- 17 -/ .write 25 21,  -- user_password_size 2280
  /- 18 -/ .read 24 22,  -- user_password 2272
  /- 19 -/ .choice [11, 23],
  /- 20 -/ .write 23 24,  -- *user_password 2175
  /- 21 -/ .release 1,  -- 2283
  /- 22 -/ .read 25 25,  -- user_password_size 2274
  /- 23 -/ .read 25 26,  -- user_password_size 2208
  /- 24 -/ .write 24 27,  -- user_password 2178
  /- 25 -/ .write 23 28,  -- *user_password 2271
  /- 26 -/ .write 25 29,  -- user_password_size 2208
  /- 27 -/ .write 25 5,  -- user_password_size 2179
  /- 28 -/ .read 24 30,  -- user_password 2276
  /- 29 -/ .read 25 31,  -- user_password_size 2211
  /- 30 -/ .write 23 32,  -- *user_password 2275
  /- 31 -/ .write 24 33,  -- user_password 2210
  /- 32 -/ .write 24 17,  -- user_password 2278
  /- 33 -/ .read 24 34,  -- user_password 2213
  /- 34 -/ .choice [11, 35],
  /- 35 -/ .read 24 36,  -- user_password 2225
  /- 36 -/ .read 25 37,  -- user_password_size 2226
  /- 37 -/ .write 23 38,  -- *user_password 2224
  /- 38 -/ .choice [11, 39],
  /- 39 -/ .read 24 40,  -- user_password 2240
  /- 40 -/ .read 25 41,  -- user_password_size 2240
  /- 41 -/ .write 23 21]  -- *user_password 2240

/-- `libfsapfs_volume_set_utf8_recovery_password`, libfsapfs_volume.c:2294-2446 -/
def volume_set_utf8_recovery_password : Graph := [
  /- 0 -/ .choice [1, 2],
  /- 1 -/ .ret,
  /- 2 -/ .grab true 3 1,  -- 2317
  /- 3 -/ .read 17 4,  -- recovery_password 2331
  /- 4 -/ .choice [5, 6],
  /- 5 -/ .write 18 7,  -- recovery_password_size 2353
  /- 6 -/ .read 17 8,  -- recovery_password 2334
  /- 7 -/ .read 18 9,  -- recovery_password_size 2356
  /- 8 -/ .read 18 10,  -- recovery_password_size 2336
  /- 9 -/ .read 18 11,  -- recovery_password_size 2357
  /- 10 -/ .write 16 12,  -- *recovery_password 2333
  /- 11 -/ .choice [13, 14],
  /- 12 -/ .choice [13, 15],
  /- 13 -/ .read 17 16,  -- recovery_password 2427
  /- 14 -/ .read 18 17,  -- recovery_password_size 2368
  /- 15 -/ .read 17 18,  -- recovery_password 2348
  /- 16 -/ .choice [19, 20],
  /- 17 -/ .write 18 21,  -- recovery_password_size 2368
  /- 18 -/ .write 16 22,  -- *recovery_password 2347
  /- 19 -/ .write 18 23,  -- recovery_password_size 2438
  /- 20 -/ .read 17 24,  -- recovery_password 2430
  /- 21 -/ .read 18 25,  -- recovery_password_size 2371
  /- 22 -/ .write 17 26,  -- recovery_password 2350
  /- 23 -/ .release 1,  -- 2441
  /- 24 -/ .read 18 27,  -- recovery_password_size 2432
  /- 25 -/ .write 17 28,  -- recovery_password 2370
  /- 26 -/ .write 18 5,  -- recovery_password_size 2351
  /- 27 -/ .write 16 29,  -- *recovery_password 2429
  /- 28 -/ .read 17 30,  -- recovery_password 2373
  /- 29 -/ .read 17 31,  -- recovery_password 2434
  /- 30 -/ .choice [13, 32],
  /- 31 -/ .write 16 33,  -- *recovery_password 2433
  /- 32 -/ .read 17 34,  -- recovery_password 2385
  /- 33 -/ .write 17 19,  -- recovery_password 2436
  /- 34 -/ .write 16 35,  -- *recovery_password 2384
  /- 35 -/ .choice [13, 36],
  /- 36 -/ .read 17 37,  -- recovery_password 2398
  /- 37 -/ .read 18 38,  -- recovery_password_size 2398
  /- 38 -/ .write 16 23]  -- *recovery_password 2398

/-- `libfsapfs_volume_set_utf16_recovery_password`, libfsapfs_volume.c:2452-2618 -/
def volume_set_utf16_recovery_password : Graph := [
  /- 0 -/ .choice [1, 2],
  /- 1 -/ .ret,
  /- 2 -/ .grab true 3 1,  -- 2475
  /- 3 -/ .read 17 4,  -- recovery_password 2489
  /- 4 -/ .choice [5, 6],
  /- 5 -/ .read 18 7,  -- recovery_password_size 2514
  /- 6 -/ .read 17 8,  -- recovery_password 2492
  /- 7 -/ .write 18 9,  -- recovery_password_size 2514
  /- 8 -/ .read 18 10,  -- recovery_password_size 2494
  /- 9 -/ .choice [11, 12],
  /- 10 -/ .write 16 13,  -- *recovery_password 2491
  /- 11 -/ .read 17 14,  -- recovery_password 2599
  /- 12 -/ .read 18 15,  -- recovery_password_size 2526
  /- 13 -/ .choice [11, 16],
  /- 14 -/ .choice [17, 18],
  /- 15 -/ .read 18 19,  -- recovery_password_size 2527
  /- 16 -/ .read 17 20,  -- recovery_password 2506
  /- 17 -/ .write 18 21,  -- recovery_password_size 2610
  /- 18 -/ .read 17 22,  -- recovery_password 2602
  /- 19 -/ .choice [11, 23],
  /- 20 -/ .write 16 24,  -- *recovery_password 2505
  /- 21 -/ .release 1,  -- 2613
  /- 22 -/ .read 18 25,  -- recovery_password_size 2604
  /- 23 -/ .read 18 26,  -- recovery_password_size 2538
  /- 24 -/ .write 17 27,  -- recovery_password 2508
  /- 25 -/ .write 16 28,  -- *recovery_password 2601
  /- 26 -/ .write 18 29,  -- recovery_password_size 2538
  /- 27 -/ .write 18 5,  -- recovery_password_size 2509
  /- 28 -/ .read 17 30,  -- recovery_password 2606
  /- 29 -/ .read 18 31,  -- recovery_password_size 2541
  /- 30 -/ .write 16 32,  -- *recovery_password 2605
  /- 31 -/ .write 17 33,  -- recovery_password 2540
  /- 32 -/ .write 17 17,  -- recovery_password 2608
  /- 33 -/ .read 17 34,  -- recovery_password 2543
  /- 34 -/ .choice [11, 35],
  /- 35 -/ .read 17 36,  -- recovery_password 2555
  /- 36 -/ .read 18 37,  -- recovery_password_size 2556
  /- 37 -/ .write 16 38,  -- *recovery_password 2554
  /- 38 -/ .choice [11, 39],
  /- 39 -/ .read 17 40,  -- recovery_password 2570
  /- 40 -/ .read 18 41,  -- recovery_password_size 2570
  /- 41 -/ .write 16 21]  -- *recovery_password 2570

/-- `libfsapfs_volume_get_root_directory`, libfsapfs_volume.c:2623-2725 -/
def volume_get_root_directory : Graph := [
  /- 0 -/ .choice [1, 2],
  /- 1 -/ .ret,
  /- 2 -/ .read 22 3,  -- superblock 2645
  /- 3 -/ .choice [1, 4],
  /- 4 -/ .grab true 5 1,  -- 2657
  /- 5 -/ .read 6 6,  -- file_system 2671
  /- 6 -/ .choice [7, 8, 9],
  /- 7 -/ .release 1,  -- 2710
  /- 8 -/ .read 6 10,  -- file_system 2690
  /- 9 -/ .read 22 11,  -- superblock 2821
  /- 10 -/ .read 4 12,  -- file_io_handle 2691
  /- 11 -/ .choice [7, 8, 13],
  /- 12 -/ .read 22 14,  -- superblock 2693
  /- 13 -/ .read 11 15,  -- is_locked 2832
  /- 14 -/ .read 21 16,  -- *superblock 2693
  /- 15 -/ .choice [17, 18, 19],
  /- 16 -/ .write 5 7,  -- *file_system 2689
  /- 17 -/ .read 6 20,  -- file_system 2958
  /- 18 -/ .read 15 21,  -- object_map_btree 2851
  /- 19 -/ .read 22 22,  -- superblock 1138
  /- 20 -/ .choice [7, 8, 23],
  /- 21 -/ .read 4 24,  -- file_io_handle 2852
  /- 22 -/ .choice [17, 18, 25],
  /- 23 -/ .read 6 26,  -- file_system 2961
  /- 24 -/ .read 22 27,  -- superblock 2853
  /- 25 -/ .read 13 28,  -- key_bag 1149
  /- 26 -/ .write 6 29,  -- file_system 2961
  /- 27 -/ .read 21 30,  -- *superblock 2853
  /- 28 -/ .choice [17, 18, 31, 32],
  /- 29 -/ .write 5 33,  -- *file_system 2960
  /- 30 -/ .read 22 34,  -- superblock 2854
  /- 31 -/ .write 11 35,  -- is_locked 1226
  /- 32 -/ .read 13 36,  -- key_bag 1156
  /- 33 -/ .choice [7, 8],
  /- 34 -/ .read 21 37,  -- *superblock 2854
  /- 35 -/ .choice [17, 18],
  /- 36 -/ .read 24 38,  -- user_password 1157
  /- 37 -/ .write 14 39,  -- *object_map_btree 2850
  /- 38 -/ .read 25 40,  -- user_password_size 1158
  /- 39 -/ .choice [17, 41, 42],
  /- 40 -/ .read 17 43,  -- recovery_password 1159
  /- 41 -/ .read 22 44,  -- superblock 2891
  /- 42 -/ .read 22 45,  -- superblock 2876
  /- 43 -/ .read 18 46,  -- recovery_password_size 1160
  /- 44 -/ .read 21 47,  -- *superblock 2891
  /- 45 -/ .read 21 17,  -- *superblock 2876
  /- 46 -/ .read 12 48,  -- *key_bag 1155
  /- 47 -/ .read 10 49,  -- io_handle 2897
  /- 48 -/ .read 23 50,  -- *user_password 1155
  /- 49 -/ .read 3 51,  -- encryption_context 2898
  /- 50 -/ .read 16 52,  -- *recovery_password 1155
  /- 51 -/ .read 8 53,  -- file_system_data_block_vector 2899
  /- 52 -/ .choice [17, 18, 31, 54],
  /- 53 -/ .read 15 55,  -- object_map_btree 2900
  /- 54 -/ .read 1 56,  -- container_key_bag 1179
  /- 55 -/ .read 9 57,  -- *io_handle 2895
  /- 56 -/ .read 22 58,  -- superblock 1180
  /- 57 -/ .read 2 59,  -- *encryption_context 2895
  /- 58 -/ .read 21 60,  -- *superblock 1180
  /- 59 -/ .read 7 61,  -- *file_system_data_block_vector 2895
  /- 60 -/ .read 0 62,  -- *container_key_bag 1178
  /- 61 -/ .read 14 63,  -- *object_map_btree 2895
  /- 62 -/ .choice [17, 18, 64],
  /- 63 -/ .choice [17, 65],
  /- 64 -/ .read 3 66,  -- encryption_context 1202
  /- 65 -/ .read 6 67,  -- file_system 2915
  /- 66 -/ .write 2 68,  -- *encryption_context 1201
  /- 67 -/ .read 10 69,  -- io_handle 2916
  /- 68 -/ .choice [17, 18, 31],
  /- 69 -/ .read 3 70,  -- encryption_context 2917
  /- 70 -/ .read 9 71,  -- *io_handle 2914
  /- 71 -/ .read 2 72,  -- *encryption_context 2914
  /- 72 -/ .write 6 73,  -- file_system 2915
  /- 73 -/ .choice [7, 8, 17]]

/-- `libfsapfs_volume_get_next_file_entry_identifier`, libfsapfs_volume.c:2730-2795 -/
def volume_get_next_file_entry_identifier : Graph := [
  /- 0 -/ .choice [1, 2],
  /- 1 -/ .ret,
  /- 2 -/ .grab false 3 1,  -- 2763
  /- 3 -/ .read 22 4,  -- superblock 2777
  /- 4 -/ .read 21 5,  -- *superblock 2777
  /- 5 -/ .release 1]  -- 2780

/-- `libfsapfs_volume_get_file_entry_by_identifier`, libfsapfs_volume.c:2970-3074 -/
def volume_get_file_entry_by_identifier : Graph := [
  /- 0 -/ .choice [1, 2],
  /- 1 -/ .ret,
  /- 2 -/ .read 22 3,  -- superblock 2993
  /- 3 -/ .choice [1, 4],
  /- 4 -/ .grab true 5 1,  -- 3005
  /- 5 -/ .read 6 6,  -- file_system 3019
  /- 6 -/ .choice [7, 8, 9],
  /- 7 -/ .release 1,  -- 3059
  /- 8 -/ .read 6 10,  -- file_system 3038
  /- 9 -/ .read 22 11,  -- superblock 2821
  /- 10 -/ .read 4 12,  -- file_io_handle 3039
  /- 11 -/ .choice [7, 8, 13],
  /- 12 -/ .read 22 14,  -- superblock 3041
  /- 13 -/ .read 11 15,  -- is_locked 2832
  /- 14 -/ .read 21 16,  -- *superblock 3041
  /- 15 -/ .choice [17, 18, 19],
  /- 16 -/ .write 5 7,  -- *file_system 3037
  /- 17 -/ .read 6 20,  -- file_system 2958
  /- 18 -/ .read 15 21,  -- object_map_btree 2851
  /- 19 -/ .read 22 22,  -- superblock 1138
  /- 20 -/ .choice [7, 8, 23],
  /- 21 -/ .read 4 24,  -- file_io_handle 2852
  /- 22 -/ .choice [17, 18, 25],
  /- 23 -/ .read 6 26,  -- file_system 2961
  /- 24 -/ .read 22 27,  -- superblock 2853
  /- 25 -/ .read 13 28,  -- key_bag 1149
  /- 26 -/ .write 6 29,  -- file_system 2961
  /- 27 -/ .read 21 30,  -- *superblock 2853
  /- 28 -/ .choice [17, 18, 31, 32],
  /- 29 -/ .write 5 33,  -- *file_system 2960
  /- 30 -/ .read 22 34,  -- superblock 2854
  /- 31 -/ .write 11 35,  -- is_locked 1226
  /- 32 -/ .read 13 36,  -- key_bag 1156
  /- 33 -/ .choice [7, 8],
  /- 34 -/ .read 21 37,  -- *superblock 2854
  /- 35 -/ .choice [17, 18],
  /- 36 -/ .read 24 38,  -- user_password 1157
  /- 37 -/ .write 14 39,  -- *object_map_btree 2850
  /- 38 -/ .read 25 40,  -- user_password_size 1158
  /- 39 -/ .choice [17, 41, 42],
  /- 40 -/ .read 17 43,  -- recovery_password 1159
  /- 41 -/ .read 22 44,  -- superblock 2891
  /- 42 -/ .read 22 45,  -- superblock 2876
  /- 43 -/ .read 18 46,  -- recovery_password_size 1160
  /- 44 -/ .read 21 47,  -- *superblock 2891
  /- 45 -/ .read 21 17,  -- *superblock 2876
  /- 46 -/ .read 12 48,  -- *key_bag 1155
  /- 47 -/ .read 10 49,  -- io_handle 2897
  /- 48 -/ .read 23 50,  -- *user_password 1155
  /- 49 -/ .read 3 51,  -- encryption_context 2898
  /- 50 -/ .read 16 52,  -- *recovery_password 1155
  /- 51 -/ .read 8 53,  -- file_system_data_block_vector 2899
  /- 52 -/ .choice [17, 18, 31, 54],
  /- 53 -/ .read 15 55,  -- object_map_btree 2900
  /- 54 -/ .read 1 56,  -- container_key_bag 1179
  /- 55 -/ .read 9 57,  -- *io_handle 2895
  /- 56 -/ .read 22 58,  -- superblock 1180
  /- 57 -/ .read 2 59,  -- *encryption_context 2895
  /- 58 -/ .read 21 60,  -- *superblock 1180
  /- 59 -/ .read 7 61,  -- *file_system_data_block_vector 2895
  /- 60 -/ .read 0 62,  -- *container_key_bag 1178
  /- 61 -/ .read 14 63,  -- *object_map_btree 2895
  /- 62 -/ .choice [17, 18, 64],
  /- 63 -/ .choice [17, 65],
  /- 64 -/ .read 3 66,  -- encryption_context 1202
  /- 65 -/ .read 6 67,  -- file_system 2915
  /- 66 -/ .write 2 68,  -- *encryption_context 1201
  /- 67 -/ .read 10 69,  -- io_handle 2916
  /- 68 -/ .choice [17, 18, 31],
  /- 69 -/ .read 3 70,  -- encryption_context 2917
  /- 70 -/ .read 9 71,  -- *io_handle 2914
  /- 71 -/ .read 2 72,  -- *encryption_context 2914
  /- 72 -/ .write 6 73,  -- file_system 2915
  /- 73 -/ .choice [7, 8, 17]]

/-- `libfsapfs_volume_get_file_entry_by_utf8_path`, libfsapfs_volume.c:3079-3206 -/
def volume_get_file_entry_by_utf8_path : Graph := [
  /- 0 -/ .choice [1, 2],
  /- 1 -/ .ret,
  /- 2 -/ .read 22 3,  -- superblock 3103
  /- 3 -/ .choice [1, 4],
  /- 4 -/ .grab true 5 1,  -- 3137
  /- 5 -/ .read 6 6,  -- file_system 3151
  /- 6 -/ .choice [7, 8, 9],
  /- 7 -/ .release 1,  -- 3191
  /- 8 -/ .read 6 10,  -- file_system 3170
  /- 9 -/ .read 22 11,  -- superblock 2821
  /- 10 -/ .read 4 12,  -- file_io_handle 3171
  /- 11 -/ .choice [7, 8, 13],
  /- 12 -/ .read 22 14,  -- superblock 3174
  /- 13 -/ .read 11 15,  -- is_locked 2832
  /- 14 -/ .read 21 16,  -- *superblock 3174
  /- 15 -/ .choice [17, 18, 19],
  /- 16 -/ .write 5 7,  -- *file_system 3169
  /- 17 -/ .read 6 20,  -- file_system 2958
  /- 18 -/ .read 15 21,  -- object_map_btree 2851
  /- 19 -/ .read 22 22,  -- superblock 1138
  /- 20 -/ .choice [7, 8, 23],
  /- 21 -/ .read 4 24,  -- file_io_handle 2852
  /- 22 -/ .choice [17, 18, 25],
  /- 23 -/ .read 6 26,  -- file_system 2961
  /- 24 -/ .read 22 27,  -- superblock 2853
  /- 25 -/ .read 13 28,  -- key_bag 1149
  /- 26 -/ .write 6 29,  -- file_system 2961
  /- 27 -/ .read 21 30,  -- *superblock 2853
  /- 28 -/ .choice [17, 18, 31, 32],
  /- 29 -/ .write 5 33,  -- *file_system 2960
  /- 30 -/ .read 22 34,  -- superblock 2854
  /- 31 -/ .write 11 35,  -- is_locked 1226
  /- 32 -/ .read 13 36,  -- key_bag 1156
  /- 33 -/ .choice [7, 8],
  /- 34 -/ .read 21 37,  -- *superblock 2854
  /- 35 -/ .choice [17, 18],
  /- 36 -/ .read 24 38,  -- user_password 1157
  /- 37 -/ .write 14 39,  -- *object_map_btree 2850
  /- 38 -/ .read 25 40,  -- user_password_size 1158
  /- 39 -/ .choice [17, 41, 42],
  /- 40 -/ .read 17 43,  -- recovery_password 1159
  /- 41 -/ .read 22 44,  -- superblock 2891
  /- 42 -/ .read 22 45,  -- superblock 2876
  /- 43 -/ .read 18 46,  -- recovery_password_size 1160
  /- 44 -/ .read 21 47,  -- *superblock 2891
  /- 45 -/ .read 21 17,  -- *superblock 2876
  /- 46 -/ .read 12 48,  -- *key_bag 1155
  /- 47 -/ .read 10 49,  -- io_handle 2897
  /- 48 -/ .read 23 50,  -- *user_password 1155
  /- 49 -/ .read 3 51,  -- encryption_context 2898
  /- 50 -/ .read 16 52,  -- *recovery_password 1155
  /- 51 -/ .read 8 53,  -- file_system_data_block_vector 2899
  /- 52 -/ .choice [17, 18, 31, 54],
  /- 53 -/ .read 15 55,  -- object_map_btree 2900
  /- 54 -/ .read 1 56,  -- container_key_bag 1179
  /- 55 -/ .read 9 57,  -- *io_handle 2895
  /- 56 -/ .read 22 58,  -- superblock 1180
  /- 57 -/ .read 2 59,  -- *encryption_context 2895
  /- 58 -/ .read 21 60,  -- *superblock 1180
  /- 59 -/ .read 7 61,  -- *file_system_data_block_vector 2895
  /- 60 -/ .read 0 62,  -- *container_key_bag 1178
  /- 61 -/ .read 14 63,  -- *object_map_btree 2895
  /- 62 -/ .choice [17, 18, 64],
  /- 63 -/ .choice [17, 65],
  /- 64 -/ .read 3 66,  -- encryption_context 1202
  /- 65 -/ .read 6 67,  -- file_system 2915
  /- 66 -/ .write 2 68,  -- *encryption_context 1201
  /- 67 -/ .read 10 69,  -- io_handle 2916
  /- 68 -/ .choice [17, 18, 31],
  /- 69 -/ .read 3 70,  -- encryption_context 2917
  /- 70 -/ .read 9 71,  -- *io_handle 2914
  /- 71 -/ .read 2 72,  -- *encryption_context 2914
  /- 72 -/ .write 6 73,  -- file_system 2915
  /- 73 -/ .choice [7, 8, 17]]

/-- `libfsapfs_volume_get_file_entry_by_utf16_path`, libfsapfs_volume.c:3211-3338 -/
def volume_get_file_entry_by_utf16_path : Graph := [
  /- 0 -/ .choice [1, 2],
  /- 1 -/ .ret,
  /- 2 -/ .read 22 3,  -- superblock 3235
  /- 3 -/ .choice [1, 4],
  /- 4 -/ .grab true 5 1,  -- 3269
  /- 5 -/ .read 6 6,  -- file_system 3283
  /- 6 -/ .choice [7, 8, 9],
  /- 7 -/ .release 1,  -- 3323
  /- 8 -/ .read 6 10,  -- file_system 3302
  /- 9 -/ .read 22 11,  -- superblock 2821
  /- 10 -/ .read 4 12,  -- file_io_handle 3303
  /- 11 -/ .choice [7, 8, 13],
  /- 12 -/ .read 22 14,  -- superblock 3306
  /- 13 -/ .read 11 15,  -- is_locked 2832
  /- 14 -/ .read 21 16,  -- *superblock 3306
  /- 15 -/ .choice [17, 18, 19],
  /- 16 -/ .write 5 7,  -- *file_system 3301
  /- 17 -/ .read 6 20,  -- file_system 2958
  /- 18 -/ .read 15 21,  -- object_map_btree 2851
  /- 19 -/ .read 22 22,  -- superblock 1138
  /- 20 -/ .choice [7, 8, 23],
  /- 21 -/ .read 4 24,  -- file_io_handle 2852
  /- 22 -/ .choice [17, 18, 25],
  /- 23 -/ .read 6 26,  -- file_system 2961
  /- 24 -/ .read 22 27,  -- superblock 2853
  /- 25 -/ .read 13 28,  -- key_bag 1149
  /- 26 -/ .write 6 29,  -- file_system 2961
  /- 27 -/ .read 21 30,  -- *superblock 2853
  /- 28 -/ .choice [17, 18, 31, 32],
  /- 29 -/ .write 5 33,  -- *file_system 2960
  /- 30 -/ .read 22 34,  -- superblock 2854
  /- 31 -/ .write 11 35,  -- is_locked 1226
  /- 32 -/ .read 13 36,  -- key_bag 1156
  /- 33 -/ .choice [7, 8],
  /- 34 -/ .read 21 37,  -- *superblock 2854
  /- 35 -/ .choice [17, 18],
  /- 36 -/ .read 24 38,  -- user_password 1157
  /- 37 -/ .write 14 39,  -- *object_map_btree 2850
  /- 38 -/ .read 25 40,  -- user_password_size 1158
  /- 39 -/ .choice [17, 41, 42],
  /- 40 -/ .read 17 43,  -- recovery_password 1159
  /- 41 -/ .read 22 44,  -- superblock 2891
  /- 42 -/ .read 22 45,  -- superblock 2876
  /- 43 -/ .read 18 46,  -- recovery_password_size 1160
  /- 44 -/ .read 21 47,  -- *superblock 2891
  /- 45 -/ .read 21 17,  -- *superblock 2876
  /- 46 -/ .read 12 48,  -- *key_bag 1155
  /- 47 -/ .read 10 49,  -- io_handle 2897
  /- 48 -/ .read 23 50,  -- *user_password 1155
  /- 49 -/ .read 3 51,  -- encryption_context 2898
  /- 50 -/ .read 16 52,  -- *recovery_password 1155
  /- 51 -/ .read 8 53,  -- file_system_data_block_vector 2899
  /- 52 -/ .choice [17, 18, 31, 54],
  /- 53 -/ .read 15 55,  -- object_map_btree 2900
  /- 54 -/ .read 1 56,  -- container_key_bag 1179
  /- 55 -/ .read 9 57,  -- *io_handle 2895
  /- 56 -/ .read 22 58,  -- superblock 1180
  /- 57 -/ .read 2 59,  -- *encryption_context 2895
  /- 58 -/ .read 21 60,  -- *superblock 1180
  /- 59 -/ .read 7 61,  -- *file_system_data_block_vector 2895
  /- 60 -/ .read 0 62,  -- *container_key_bag 1178
  /- 61 -/ .read 14 63,  -- *object_map_btree 2895
  /- 62 -/ .choice [17, 18, 64],
  /- 63 -/ .choice [17, 65],
  /- 64 -/ .read 3 66,  -- encryption_context 1202
  /- 65 -/ .read 6 67,  -- file_system 2915
  /- 66 -/ .write 2 68,  -- *encryption_context 1201
  /- 67 -/ .read 10 69,  -- io_handle 2916
  /- 68 -/ .choice [17, 18, 31],
  /- 69 -/ .read 3 70,  -- encryption_context 2917
  /- 70 -/ .read 9 71,  -- *io_handle 2914
  /- 71 -/ .read 2 72,  -- *encryption_context 2914
  /- 72 -/ .write 6 73,  -- file_system 2915
  /- 73 -/ .choice [7, 8, 17]]

/-- `libfsapfs_volume_get_number_of_snapshots`, libfsapfs_volume.c:3343-3410 -/
def volume_get_number_of_snapshots : Graph := [
  /- 0 -/ .choice [1, 2],
  /- 1 -/ .ret,
  /- 2 -/ .grab false 3 1,  -- 3366
  /- 3 -/ .read 20 4,  -- snapshots 3381
  /- 4 -/ .read 19 5,  -- *snapshots 3380
  /- 5 -/ .release 1]  -- 3395

/-- `libfsapfs_volume_get_snapshot_by_index`, libfsapfs_volume.c:3416-3569 -/
def volume_get_snapshot_by_index : Graph := [
  /- 0 -/ .choice [1, 2],
  /- 1 -/ .ret,
  /- 2 -/ .grab false 3 1,  -- 3463
  /- 3 -/ .read 20 4,  -- snapshots 3478
  /- 4 -/ .read 19 5,  -- *snapshots 3477
  /- 5 -/ .choice [1, 6, 7],
  /- 6 -/ .release 1,  -- 3564
  /- 7 -/ .read 10 8,  -- io_handle 3507
  /- 8 -/ .read 4 9,  -- file_io_handle 3508
  /- 9 -/ .read 9 10,  -- *io_handle 3505
  /- 10 -/ .choice [6, 11],
  /- 11 -/ .read 10 12,  -- io_handle 3521
  /- 12 -/ .read 9 13,  -- *io_handle 3521
  /- 13 -/ .read 4 6]  -- file_io_handle 3525

/-- the functions of a volume -/
def api : List (String × Graph) :=
  [("libfsapfs_volume_unlock", volume_unlock),
   ("libfsapfs_volume_get_features_flags", volume_get_features_flags),
   ("libfsapfs_volume_get_size", volume_get_size),
   ("libfsapfs_volume_get_identifier", volume_get_identifier),
   ("libfsapfs_volume_get_utf8_name_size", volume_get_utf8_name_size),
   ("libfsapfs_volume_get_utf8_name", volume_get_utf8_name),
   ("libfsapfs_volume_get_utf16_name_size", volume_get_utf16_name_size),
   ("libfsapfs_volume_get_utf16_name", volume_get_utf16_name),
   ("libfsapfs_volume_is_locked", volume_is_locked),
   ("libfsapfs_volume_set_utf8_password", volume_set_utf8_password),
   ("libfsapfs_volume_set_utf16_password", volume_set_utf16_password),
   ("libfsapfs_volume_set_utf8_recovery_password", volume_set_utf8_recovery_password),
   ("libfsapfs_volume_set_utf16_recovery_password", volume_set_utf16_recovery_password),
   ("libfsapfs_volume_get_root_directory", volume_get_root_directory),
   ("libfsapfs_volume_get_next_file_entry_identifier", volume_get_next_file_entry_identifier),
   ("libfsapfs_volume_get_file_entry_by_identifier", volume_get_file_entry_by_identifier),
   ("libfsapfs_volume_get_file_entry_by_utf8_path", volume_get_file_entry_by_utf8_path),
   ("libfsapfs_volume_get_file_entry_by_utf16_path", volume_get_file_entry_by_utf16_path),
   ("libfsapfs_volume_get_number_of_snapshots", volume_get_number_of_snapshots),
   ("libfsapfs_volume_get_snapshot_by_index", volume_get_snapshot_by_index)]

end Volume

namespace FileEntry

/-- the places of a file entry (struct libfsapfs_internal_file_entry in libfsapfs_file_entry.h) -/
def names : List String :=
  ["*compressed_data_attribute_values", "compressed_data_attribute_values", "*compressed_data_header", "compressed_data_header",
   "data_size", "*data_stream", "data_stream", "*directory_entries",
   "directory_entries", "*directory_record", "directory_record", "*encryption_context",
   "encryption_context", "*extended_attributes_array", "extended_attributes_array", "*file_extents",
   "file_extents", "file_io_handle", "*file_system_btree", "file_system_btree",
   "*inode", "inode", "*io_handle", "io_handle",
   "*resource_fork_attribute_values", "resource_fork_attribute_values", "*symbolic_link_attribute_values", "symbolic_link_attribute_values",
   "*symbolic_link_data", "symbolic_link_data", "symbolic_link_data_size", "transaction_identifier"]

/-- `libfsapfs_file_entry_get_identifier`, libfsapfs_file_entry.c:332-399 -/
def file_entry_get_identifier : Graph := [
  /- 0 -/ .choice [1, 2],
  /- 1 -/ .ret,
  /- 2 -/ .grab false 3 1,  -- 355
  /- 3 -/ .read 21 4,  -- inode 370
  /- 4 -/ .read 20 5,  -- *inode 369
  /- 5 -/ .release 1]  -- 384

/-- `libfsapfs_file_entry_get_parent_identifier`, libfsapfs_file_entry.c:405-472 -/
def file_entry_get_parent_identifier : Graph := [
  /- 0 -/ .choice [1, 2],
  /- 1 -/ .ret,
  /- 2 -/ .grab false 3 1,  -- 428
  /- 3 -/ .read 21 4,  -- inode 443
  /- 4 -/ .read 20 5,  -- *inode 442
  /- 5 -/ .release 1]  -- 457

/-- `libfsapfs_file_entry_get_parent_file_entry`, libfsapfs_file_entry.c:477-639 -/
def file_entry_get_parent_file_entry : Graph := [
  /- 0 -/ .choice [1, 2],
  /- 1 -/ .ret,
  /- 2 -/ .grab true 3 1,  -- 524
  /- 3 -/ .read 21 4,  -- inode 539
  /- 4 -/ .read 20 5,  -- *inode 538
  /- 5 -/ .choice [6, 7],
  /- 6 -/ .release 1,  -- 634
  /- 7 -/ .read 21 8,  -- inode 555
  /- 8 -/ .read 20 9,  -- *inode 554
  /- 9 -/ .choice [6, 10],
  /- 10 -/ .read 19 11,  -- file_system_btree 569
  /- 11 -/ .read 17 12,  -- file_io_handle 570
  /- 12 -/ .read 31 13,  -- transaction_identifier 572
  /- 13 -/ .write 18 14,  -- *file_system_btree 568
  /- 14 -/ .choice [6, 15],
  /- 15 -/ .read 23 16,  -- io_handle 588
  /- 16 -/ .read 17 17,  -- file_io_handle 589
  /- 17 -/ .read 12 18,  -- encryption_context 590
  /- 18 -/ .read 19 19,  -- file_system_btree 591
  /- 19 -/ .read 31 20,  -- transaction_identifier 594
  /- 20 -/ .read 22 21,  -- *io_handle 586
  /- 21 -/ .read 11 22,  -- *encryption_context 586
  /- 22 -/ .read 18 6]  -- *file_system_btree 586

/-- `libfsapfs_file_entry_get_creation_time`, libfsapfs_file_entry.c:646-713 -/
def file_entry_get_creation_time : Graph := [
  /- 0 -/ .choice [1, 2],
  /- 1 -/ .ret,
  /- 2 -/ .grab false 3 1,  -- 669
  /- 3 -/ .read 21 4,  -- inode 684
  /- 4 -/ .read 20 5,  -- *inode 683
  /- 5 -/ .release 1]  -- 698

/-- `libfsapfs_file_entry_get_modification_time`, libfsapfs_file_entry.c:720-787 -/
def file_entry_get_modification_time : Graph := [
  /- 0 -/ .choice [1, 2],
  /- 1 -/ .ret,
  /- 2 -/ .grab false 3 1,  -- 743
  /- 3 -/ .read 21 4,  -- inode 758
  /- 4 -/ .read 20 5,  -- *inode 757
  /- 5 -/ .release 1]  -- 772

/-- `libfsapfs_file_entry_get_access_time`, libfsapfs_file_entry.c:794-861 -/
def file_entry_get_access_time : Graph := [
  /- 0 -/ .choice [1, 2],
  /- 1 -/ .ret,
  /- 2 -/ .grab false 3 1,  -- 817
  /- 3 -/ .read 21 4,  -- inode 832
  /- 4 -/ .read 20 5,  -- *inode 831
  /- 5 -/ .release 1]  -- 846

/-- `libfsapfs_file_entry_get_inode_change_time`, libfsapfs_file_entry.c:868-935 -/
def file_entry_get_inode_change_time : Graph := [
  /- 0 -/ .choice [1, 2],
  /- 1 -/ .ret,
  /- 2 -/ .grab false 3 1,  -- 891
  /- 3 -/ .read 21 4,  -- inode 906
  /- 4 -/ .read 20 5,  -- *inode 905
  /- 5 -/ .release 1]  -- 920

/-- `libfsapfs_file_entry_get_added_time`, libfsapfs_file_entry.c:942-1014 -/
def file_entry_get_added_time : Graph := [
  /- 0 -/ .choice [1, 2],
  /- 1 -/ .ret,
  /- 2 -/ .grab false 3 1,  -- 965
  /- 3 -/ .read 10 4,  -- directory_record 979
  /- 4 -/ .choice [5, 6],
  /- 5 -/ .release 1,  -- 999
  /- 6 -/ .read 10 7,  -- directory_record 982
  /- 7 -/ .read 9 5]  -- *directory_record 981

/-- `libfsapfs_file_entry_get_owner_identifier`, libfsapfs_file_entry.c:1020-1087 -/
def file_entry_get_owner_identifier : Graph := [
  /- 0 -/ .choice [1, 2],
  /- 1 -/ .ret,
  /- 2 -/ .grab false 3 1,  -- 1043
  /- 3 -/ .read 21 4,  -- inode 1058
  /- 4 -/ .read 20 5,  -- *inode 1057
  /- 5 -/ .release 1]  -- 1072

/-- `libfsapfs_file_entry_get_group_identifier`, libfsapfs_file_entry.c:1093-1160 -/
def file_entry_get_group_identifier : Graph := [
  /- 0 -/ .choice [1, 2],
  /- 1 -/ .ret,
  /- 2 -/ .grab false 3 1,  -- 1116
  /- 3 -/ .read 21 4,  -- inode 1131
  /- 4 -/ .read 20 5,  -- *inode 1130
  /- 5 -/ .release 1]  -- 1145

/-- `libfsapfs_file_entry_get_device_identifier`, libfsapfs_file_entry.c:1166-1235 -/
def file_entry_get_device_identifier : Graph := [
  /- 0 -/ .choice [1, 2],
  /- 1 -/ .ret,
  /- 2 -/ .grab false 3 1,  -- 1189
  /- 3 -/ .read 21 4,  -- inode 1204
  /- 4 -/ .read 20 5,  -- *inode 1203
  /- 5 -/ .release 1]  -- 1220

/-- `libfsapfs_file_entry_get_device_number`, libfsapfs_file_entry.c:1241-1312 -/
def file_entry_get_device_number : Graph := [
  /- 0 -/ .choice [1, 2],
  /- 1 -/ .ret,
  /- 2 -/ .grab false 3 1,  -- 1265
  /- 3 -/ .read 21 4,  -- inode 1280
  /- 4 -/ .read 20 5,  -- *inode 1279
  /- 5 -/ .release 1]  -- 1297

/-- `libfsapfs_file_entry_get_file_mode`, libfsapfs_file_entry.c:1318-1385 -/
def file_entry_get_file_mode : Graph := [
  /- 0 -/ .choice [1, 2],
  /- 1 -/ .ret,
  /- 2 -/ .grab false 3 1,  -- 1341
  /- 3 -/ .read 21 4,  -- inode 1356
  /- 4 -/ .read 20 5,  -- *inode 1355
  /- 5 -/ .release 1]  -- 1370

/-- `libfsapfs_file_entry_get_number_of_links`, libfsapfs_file_entry.c:1391-1458 -/
def file_entry_get_number_of_links : Graph := [
  /- 0 -/ .choice [1, 2],
  /- 1 -/ .ret,
  /- 2 -/ .grab false 3 1,  -- 1414
  /- 3 -/ .read 21 4,  -- inode 1429
  /- 4 -/ .read 20 5,  -- *inode 1428
  /- 5 -/ .release 1]  -- 1443

/-- `libfsapfs_file_entry_get_utf8_name_size`, libfsapfs_file_entry.c:1465-1552 -/
def file_entry_get_utf8_name_size : Graph := [
  /- 0 -/ .choice [1, 2],
  /- 1 -/ .ret,
  /- 2 -/ .grab false 3 1,  -- 1488
  /- 3 -/ .read 10 4,  -- directory_record 1502
  /- 4 -/ .choice [5, 6],
  /- 5 -/ .read 10 7,  -- directory_record 1505
  /- 6 -/ .read 21 8,  -- inode 1522
  /- 7 -/ .read 9 9,  -- *directory_record 1504
  /- 8 -/ .read 20 9,  -- *inode 1521
  /- 9 -/ .release 1]  -- 1537

/-- `libfsapfs_file_entry_get_utf8_name`, libfsapfs_file_entry.c:1559-1649 -/
def file_entry_get_utf8_name : Graph := [
  /- 0 -/ .choice [1, 2],
  /- 1 -/ .ret,
  /- 2 -/ .grab false 3 1,  -- 1583
  /- 3 -/ .read 10 4,  -- directory_record 1597
  /- 4 -/ .choice [5, 6],
  /- 5 -/ .read 10 7,  -- directory_record 1600
  /- 6 -/ .read 21 8,  -- inode 1618
  /- 7 -/ .read 9 9,  -- *directory_record 1599
  /- 8 -/ .read 20 9,  -- *inode 1617
  /- 9 -/ .release 1]  -- 1634

/-- `libfsapfs_file_entry_get_utf16_name_size`, libfsapfs_file_entry.c:1656-1743 -/
def file_entry_get_utf16_name_size : Graph := [
  /- 0 -/ .choice [1, 2],
  /- 1 -/ .ret,
  /- 2 -/ .grab false 3 1,  -- 1679
  /- 3 -/ .read 10 4,  -- directory_record 1693
  /- 4 -/ .choice [5, 6],
  /- 5 -/ .read 10 7,  -- directory_record 1696
  /- 6 -/ .read 21 8,  -- inode 1713
  /- 7 -/ .read 9 9,  -- *directory_record 1695
  /- 8 -/ .read 20 9,  -- *inode 1712
  /- 9 -/ .release 1]  -- 1728

/-- `libfsapfs_file_entry_get_utf16_name`, libfsapfs_file_entry.c:1750-1840 -/
def file_entry_get_utf16_name : Graph := [
  /- 0 -/ .choice [1, 2],
  /- 1 -/ .ret,
  /- 2 -/ .grab false 3 1,  -- 1774
  /- 3 -/ .read 10 4,  -- directory_record 1788
  /- 4 -/ .choice [5, 6],
  /- 5 -/ .read 10 7,  -- directory_record 1791
  /- 6 -/ .read 21 8,  -- inode 1809
  /- 7 -/ .read 9 9,  -- *directory_record 1790
  /- 8 -/ .read 20 9,  -- *inode 1808
  /- 9 -/ .release 1]  -- 1825

/-- `libfsapfs_file_entry_get_utf8_symbolic_link_target_size`, libfsapfs_file_entry.c:2203-2299 -/
def file_entry_get_utf8_symbolic_link_target_size : Graph := [
  /- 0 -/ .choice [1, 2],
  /- 1 -/ .ret,
  /- 2 -/ .grab true 3 1,  -- 2226
  /- 3 -/ .read 29 4,  -- symbolic_link_data 2240
  /- 4 -/ .choice [5, 6, 7],
  /- 5 -/ .release 1,  -- 2294
  /- 6 -/ .read 29 8,  -- symbolic_link_data 2256
  /- 7 -/ .read 29 9,  -- symbolic_link_data 2065
  /- 8 -/ .choice [5, 10],
  /- 9 -/ .choice [5, 6, 11],
  /- 10 -/ .read 29 12,  -- symbolic_link_data 2259
  /- 11 -/ .read 14 13,  -- extended_attributes_array 2076
  /- 12 -/ .read 30 14,  -- symbolic_link_data_size 2260
  /- 13 -/ .choice [15, 16, 17],
  /- 14 -/ .read 28 5,  -- *symbolic_link_data 2258
  /- 15 -/ .read 29 18,  -- symbolic_link_data 2186
  /- 16 -/ .read 27 19,  -- symbolic_link_attribute_values 2092
  /- 17 -/ .read 14 20,  -- extended_attributes_array 1867
  /- 18 -/ .choice [21, 22],
  /- 19 -/ .choice [5, 6, 23],
  /- 20 -/ .choice [15, 16, 24],
  /- 21 -/ .write 30 25,  -- symbolic_link_data_size 2193
  /- 22 -/ .read 29 26,  -- symbolic_link_data 2189
  /- 23 -/ .read 27 27,  -- symbolic_link_attribute_values 2094
  /- 24 -/ .read 21 28,  -- inode 1879
  /- 25 -/ .choice [5, 6],
  /- 26 -/ .write 28 29,  -- *symbolic_link_data 2188
  /- 27 -/ .read 26 30,  -- *symbolic_link_attribute_values 2094
  /- 28 -/ .read 20 31,  -- *inode 1878
  /- 29 -/ .write 29 21,  -- symbolic_link_data 2191
  /- 30 -/ .read 27 32,  -- symbolic_link_attribute_values 2095
  /- 31 -/ .choice [33, 34],
  /- 32 -/ .read 26 35,  -- *symbolic_link_attribute_values 2095
  /- 33 -/ .read 14 36,  -- extended_attributes_array 2032
  /- 34 -/ .read 14 37,  -- extended_attributes_array 1893
  /- 35 -/ .choice [15, 38],
  /- 36 -/ .choice [15, 16, 39],
  /- 37 -/ .write 14 40,  -- extended_attributes_array 1893
  /- 38 -/ .read 27 41,  -- symbolic_link_attribute_values 2106
  /- 39 -/ .read 14 42,  -- extended_attributes_array 2035
  /- 40 -/ .choice [33, 43],
  /- 41 -/ .read 26 44,  -- *symbolic_link_attribute_values 2106
  /- 42 -/ .write 14 45,  -- extended_attributes_array 2035
  /- 43 -/ .read 19 46,  -- file_system_btree 1907
  /- 44 -/ .write 29 47,  -- symbolic_link_data 2108
  /- 45 -/ .write 13 48,  -- *extended_attributes_array 2034
  /- 46 -/ .read 17 49,  -- file_io_handle 1908
  /- 47 -/ .read 29 50,  -- symbolic_link_data 2111
  /- 48 -/ .choice [15, 16],
  /- 49 -/ .read 31 51,  -- transaction_identifier 1910
  /- 50 -/ .choice [15, 52],
  /- 51 -/ .read 14 53,  -- extended_attributes_array 1911
  /- 52 -/ .write 30 54,  -- symbolic_link_data_size 2122
  /- 53 -/ .write 18 55,  -- *file_system_btree 1906
  /- 54 -/ .read 27 56,  -- symbolic_link_attribute_values 2125
  /- 55 -/ .write 13 57,  -- *extended_attributes_array 1906
  /- 56 -/ .read 23 58,  -- io_handle 2126
  /- 57 -/ .choice [33, 59],
  /- 58 -/ .read 17 60,  -- file_io_handle 2127
  /- 59 -/ .read 14 61,  -- extended_attributes_array 1926
  /- 60 -/ .read 12 62,  -- encryption_context 2128
  /- 61 -/ .read 13 63,  -- *extended_attributes_array 1925
  /- 62 -/ .read 19 64,  -- file_system_btree 2129
  /- 63 -/ .choice [15, 16, 33, 65],
  /- 64 -/ .read 31 66,  -- transaction_identifier 2130
  /- 65 -/ .read 14 67,  -- extended_attributes_array 1944
  /- 66 -/ .read 26 68,  -- *symbolic_link_attribute_values 2124
  /- 67 -/ .read 13 69,  -- *extended_attributes_array 1943
  /- 68 -/ .read 22 70,  -- *io_handle 2124
  /- 69 -/ .choice [15, 16, 33, 71, 72, 73, 65],
  /- 70 -/ .read 11 74,  -- *encryption_context 2124
  /- 71 -/ .write 27 75,  -- symbolic_link_attribute_values 2024
  /- 72 -/ .write 25 75,  -- resource_fork_attribute_values 2001
  /- 73 -/ .write 1 75,  -- compressed_data_attribute_values 1978
  /- 74 -/ .write 18 76,  -- *file_system_btree 2124
  /- 75 -/ .choice [15, 16, 65],
  /- 76 -/ .choice [15, 77],
  /- 77 -/ .read 17 78,  -- file_io_handle 2145
  /- 78 -/ .read 29 79,  -- symbolic_link_data 2146
  /- 79 -/ .read 30 80,  -- symbolic_link_data_size 2147
  /- 80 -/ .write 28 81,  -- *symbolic_link_data 2143
  /- 81 -/ .read 30 82,  -- symbolic_link_data_size 2152
  /- 82 -/ .choice [5, 6, 15]]

/-- `libfsapfs_file_entry_get_utf8_symbolic_link_target`, libfsapfs_file_entry.c:2306-2404 -/
def file_entry_get_utf8_symbolic_link_target : Graph := [
  /- 0 -/ .choice [1, 2],
  /- 1 -/ .ret,
  /- 2 -/ .grab true 3 1,  -- 2330
  /- 3 -/ .read 29 4,  -- symbolic_link_data 2344
  /- 4 -/ .choice [5, 6, 7],
  /- 5 -/ .release 1,  -- 2399
  /- 6 -/ .read 29 8,  -- symbolic_link_data 2360
  /- 7 -/ .read 29 9,  -- symbolic_link_data 2065
  /- 8 -/ .choice [5, 10],
  /- 9 -/ .choice [5, 6, 11],
  /- 10 -/ .read 29 12,  -- symbolic_link_data 2365
  /- 11 -/ .read 14 13,  -- extended_attributes_array 2076
  /- 12 -/ .read 30 14,  -- symbolic_link_data_size 2366
  /- 13 -/ .choice [15, 16, 17],
  /- 14 -/ .read 28 5,  -- *symbolic_link_data 2362
  /- 15 -/ .read 29 18,  -- symbolic_link_data 2186
  /- 16 -/ .read 27 19,  -- symbolic_link_attribute_values 2092
  /- 17 -/ .read 14 20,  -- extended_attributes_array 1867
  /- 18 -/ .choice [21, 22],
  /- 19 -/ .choice [5, 6, 23],
  /- 20 -/ .choice [15, 16, 24],
  /- 21 -/ .write 30 25,  -- symbolic_link_data_size 2193
  /- 22 -/ .read 29 26,  -- symbolic_link_data 2189
  /- 23 -/ .read 27 27,  -- symbolic_link_attribute_values 2094
  /- 24 -/ .read 21 28,  -- inode 1879
  /- 25 -/ .choice [5, 6],
  /- 26 -/ .write 28 29,  -- *symbolic_link_data 2188
  /- 27 -/ .read 26 30,  -- *symbolic_link_attribute_values 2094
  /- 28 -/ .read 20 31,  -- *inode 1878
  /- 29 -/ .write 29 21,  -- symbolic_link_data 2191
  /- 30 -/ .read 27 32,  -- symbolic_link_attribute_values 2095
  /- 31 -/ .choice [33, 34],
  /- 32 -/ .read 26 35,  -- *symbolic_link_attribute_values 2095
  /- 33 -/ .read 14 36,  -- extended_attributes_array 2032
  /- 34 -/ .read 14 37,  -- extended_attributes_array 1893
  /- 35 -/ .choice [15, 38],
  /- 36 -/ .choice [15, 16, 39],
  /- 37 -/ .write 14 40,  -- extended_attributes_array 1893
  /- 38 -/ .read 27 41,  -- symbolic_link_attribute_values 2106
  /- 39 -/ .read 14 42,  -- extended_attributes_array 2035
  /- 40 -/ .choice [33, 43],
  /- 41 -/ .read 26 44,  -- *symbolic_link_attribute_values 2106
  /- 42 -/ .write 14 45,  -- extended_attributes_array 2035
  /- 43 -/ .read 19 46,  -- file_system_btree 1907
  /- 44 -/ .write 29 47,  -- symbolic_link_data 2108
  /- 45 -/ .write 13 48,  -- *extended_attributes_array 2034
  /- 46 -/ .read 17 49,  -- file_io_handle 1908
  /- 47 -/ .read 29 50,  -- symbolic_link_data 2111
  /- 48 -/ .choice [15, 16],
  /- 49 -/ .read 31 51,  -- transaction_identifier 1910
  /- 50 -/ .choice [15, 52],
  /- 51 -/ .read 14 53,  -- extended_attributes_array 1911
  /- 52 -/ .write 30 54,  -- symbolic_link_data_size 2122
  /- 53 -/ .write 18 55,  -- *file_system_btree 1906
  /- 54 -/ .read 27 56,  -- symbolic_link_attribute_values 2125
  /- 55 -/ .write 13 57,  -- *extended_attributes_array 1906
  /- 56 -/ .read 23 58,  -- io_handle 2126
  /- 57 -/ .choice [33, 59],
  /- 58 -/ .read 17 60,  -- file_io_handle 2127
  /- 59 -/ .read 14 61,  -- extended_attributes_array 1926
  /- 60 -/ .read 12 62,  -- encryption_context 2128
  /- 61 -/ .read 13 63,  -- *extended_attributes_array 1925
  /- 62 -/ .read 19 64,  -- file_system_btree 2129
  /- 63 -/ .choice [15, 16, 33, 65],
  /- 64 -/ .read 31 66,  -- transaction_identifier 2130
  /- 65 -/ .read 14 67,  -- extended_attributes_array 1944
  /- 66 -/ .read 26 68,  -- *symbolic_link_attribute_values 2124
  /- 67 -/ .read 13 69,  -- *extended_attributes_array 1943
  /- 68 -/ .read 22 70,  -- *io_handle 2124
  /- 69 -/ .choice [15, 16, 33, 71, 72, 73, 65],
  /- 70 -/ .read 11 74,  -- *encryption_context 2124
  /- 71 -/ .write 27 75,  -- symbolic_link_attribute_values 2024
  /- 72 -/ .write 25 75,  -- resource_fork_attribute_values 2001
  /- 73 -/ .write 1 75,  -- compressed_data_attribute_values 1978
  /- 74 -/ .write 18 76,  -- *file_system_btree 2124
  /- 75 -/ .choice [15, 16, 65],
  /- 76 -/ .choice [15, 77],
  /- 77 -/ .read 17 78,  -- file_io_handle 2145
  /- 78 -/ .read 29 79,  -- symbolic_link_data 2146
  /- 79 -/ .read 30 80,  -- symbolic_link_data_size 2147
  /- 80 -/ .write 28 81,  -- *symbolic_link_data 2143
  /- 81 -/ .read 30 82,  -- symbolic_link_data_size 2152
  /- 82 -/ .choice [5, 6, 15]]

/-- `libfsapfs_file_entry_get_utf16_symbolic_link_target_size`, libfsapfs_file_entry.c:2411-2507 -/
def file_entry_get_utf16_symbolic_link_target_size : Graph := [
  /- 0 -/ .choice [1, 2],
  /- 1 -/ .ret,
  /- 2 -/ .grab true 3 1,  -- 2434
  /- 3 -/ .read 29 4,  -- symbolic_link_data 2448
  /- 4 -/ .choice [5, 6, 7],
  /- 5 -/ .release 1,  -- 2502
  /- 6 -/ .read 29 8,  -- symbolic_link_data 2464
  /- 7 -/ .read 29 9,  -- symbolic_link_data 2065
  /- 8 -/ .choice [5, 10],
  /- 9 -/ .choice [5, 6, 11],
  /- 10 -/ .read 29 12,  -- symbolic_link_data 2467
  /- 11 -/ .read 14 13,  -- extended_attributes_array 2076
  /- 12 -/ .read 30 14,  -- symbolic_link_data_size 2468
  /- 13 -/ .choice [15, 16, 17],
  /- 14 -/ .read 28 5,  -- *symbolic_link_data 2466
  /- 15 -/ .read 29 18,  -- symbolic_link_data 2186
  /- 16 -/ .read 27 19,  -- symbolic_link_attribute_values 2092
  /- 17 -/ .read 14 20,  -- extended_attributes_array 1867
  /- 18 -/ .choice [21, 22],
  /- 19 -/ .choice [5, 6, 23],
  /- 20 -/ .choice [15, 16, 24],
  /- 21 -/ .write 30 25,  -- symbolic_link_data_size 2193
  /- 22 -/ .read 29 26,  -- symbolic_link_data 2189
  /- 23 -/ .read 27 27,  -- symbolic_link_attribute_values 2094
  /- 24 -/ .read 21 28,  -- inode 1879
  /- 25 -/ .choice [5, 6],
  /- 26 -/ .write 28 29,  -- *symbolic_link_data 2188
  /- 27 -/ .read 26 30,  -- *symbolic_link_attribute_values 2094
  /- 28 -/ .read 20 31,  -- *inode 1878
  /- 29 -/ .write 29 21,  -- symbolic_link_data 2191
  /- 30 -/ .read 27 32,  -- symbolic_link_attribute_values 2095
  /- 31 -/ .choice [33, 34],
  /- 32 -/ .read 26 35,  -- *symbolic_link_attribute_values 2095
  /- 33 -/ .read 14 36,  -- extended_attributes_array 2032
  /- 34 -/ .read 14 37,  -- extended_attributes_array 1893
  /- 35 -/ .choice [15, 38],
  /- 36 -/ .choice [15, 16, 39],
  /- 37 -/ .write 14 40,  -- extended_attributes_array 1893
  /- 38 -/ .read 27 41,  -- symbolic_link_attribute_values 2106
  /- 39 -/ .read 14 42,  -- extended_attributes_array 2035
  /- 40 -/ .choice [33, 43],
  /- 41 -/ .read 26 44,  -- *symbolic_link_attribute_values 2106
  /- 42 -/ .write 14 45,  -- extended_attributes_array 2035
  /- 43 -/ .read 19 46,  -- file_system_btree 1907
  /- 44 -/ .write 29 47,  -- symbolic_link_data 2108
  /- 45 -/ .write 13 48,  -- *extended_attributes_array 2034
  /- 46 -/ .read 17 49,  -- file_io_handle 1908
  /- 47 -/ .read 29 50,  -- symbolic_link_data 2111
  /- 48 -/ .choice [15, 16],
  /- 49 -/ .read 31 51,  -- transaction_identifier 1910
  /- 50 -/ .choice [15, 52],
  /- 51 -/ .read 14 53,  -- extended_attributes_array 1911
  /- 52 -/ .write 30 54,  -- symbolic_link_data_size 2122
  /- 53 -/ .write 18 55,  -- *file_system_btree 1906
  /- 54 -/ .read 27 56,  -- symbolic_link_attribute_values 2125
  /- 55 -/ .write 13 57,  -- *extended_attributes_array 1906
  /- 56 -/ .read 23 58,  -- io_handle 2126
  /- 57 -/ .choice [33, 59],
  /- 58 -/ .read 17 60,  -- file_io_handle 2127
  /- 59 -/ .read 14 61,  -- extended_attributes_array 1926
  /- 60 -/ .read 12 62,  -- encryption_context 2128
  /- 61 -/ .read 13 63,  -- *extended_attributes_array 1925
  /- 62 -/ .read 19 64,  -- file_system_btree 2129
  /- 63 -/ .choice [15, 16, 33, 65],
  /- 64 -/ .read 31 66,  -- transaction_identifier 2130
  /- 65 -/ .read 14 67,  -- extended_attributes_array 1944
  /- 66 -/ .read 26 68,  -- *symbolic_link_attribute_values 2124
  /- 67 -/ .read 13 69,  -- *extended_attributes_array 1943
  /- 68 -/ .read 22 70,  -- *io_handle 2124
  /- 69 -/ .choice [15, 16, 33, 71, 72, 73, 65],
  /- 70 -/ .read 11 74,  -- *encryption_context 2124
  /- 71 -/ .write 27 75,  -- symbolic_link_attribute_values 2024
  /- 72 -/ .write 25 75,  -- resource_fork_attribute_values 2001
  /- 73 -/ .write 1 75,  -- compressed_data_attribute_values 1978
  /- 74 -/ .write 18 76,  -- *file_system_btree 2124
  /- 75 -/ .choice [15, 16, 65],
  /- 76 -/ .choice [15, 77],
  /- 77 -/ .read 17 78,  -- file_io_handle 2145
  /- 78 -/ .read 29 79,  -- symbolic_link_data 2146
  /- 79 -/ .read 30 80,  -- symbolic_link_data_size 2147
  /- 80 -/ .write 28 81,  -- *symbolic_link_data 2143
  /- 81 -/ .read 30 82,  -- symbolic_link_data_size 2152
  /- 82 -/ .choice [5, 6, 15]]

/-- `libfsapfs_file_entry_get_utf16_symbolic_link_target`, libfsapfs_file_entry.c:2514-2612 -/
def file_entry_get_utf16_symbolic_link_target : Graph := [
  /- 0 -/ .choice [1, 2],
  /- 1 -/ .ret,
  /- 2 -/ .grab true 3 1,  -- 2538
  /- 3 -/ .read 29 4,  -- symbolic_link_data 2552
  /- 4 -/ .choice [5, 6, 7],
  /- 5 -/ .release 1,  -- 2607
  /- 6 -/ .read 29 8,  -- symbolic_link_data 2568
  /- 7 -/ .read 29 9,  -- symbolic_link_data 2065
  /- 8 -/ .choice [5, 10],
  /- 9 -/ .choice [5, 6, 11],
  /- 10 -/ .read 29 12,  -- symbolic_link_data 2573
  /- 11 -/ .read 14 13,  -- extended_attributes_array 2076
  /- 12 -/ .read 30 14,  -- symbolic_link_data_size 2574
  /- 13 -/ .choice [15, 16, 17],
  /- 14 -/ .read 28 5,  -- *symbolic_link_data 2570
  /- 15 -/ .read 29 18,  -- symbolic_link_data 2186
  /- 16 -/ .read 27 19,  -- symbolic_link_attribute_values 2092
  /- 17 -/ .read 14 20,  -- extended_attributes_array 1867
  /- 18 -/ .choice [21, 22],
  /- 19 -/ .choice [5, 6, 23],
  /- 20 -/ .choice [15, 16, 24],
  /- 21 -/ .write 30 25,  -- symbolic_link_data_size 2193
  /- 22 -/ .read 29 26,  -- symbolic_link_data 2189
  /- 23 -/ .read 27 27,  -- symbolic_link_attribute_values 2094
  /- 24 -/ .read 21 28,  -- inode 1879
  /- 25 -/ .choice [5, 6],
  /- 26 -/ .write 28 29,  -- *symbolic_link_data 2188
  /- 27 -/ .read 26 30,  -- *symbolic_link_attribute_values 2094
  /- 28 -/ .read 20 31,  -- *inode 1878
  /- 29 -/ .write 29 21,  -- symbolic_link_data 2191
  /- 30 -/ .read 27 32,  -- symbolic_link_attribute_values 2095
  /- 31 -/ .choice [33, 34],
  /- 32 -/ .read 26 35,  -- *symbolic_link_attribute_values 2095
  /- 33 -/ .read 14 36,  -- extended_attributes_array 2032
  /- 34 -/ .read 14 37,  -- extended_attributes_array 1893
  /- 35 -/ .choice [15, 38],
  /- 36 -/ .choice [15, 16, 39],
  /- 37 -/ .write 14 40,  -- extended_attributes_array 1893
  /- 38 -/ .read 27 41,  -- symbolic_link_attribute_values 2106
  /- 39 -/ .read 14 42,  -- extended_attributes_array 2035
  /- 40 -/ .choice [33, 43],
  /- 41 -/ .read 26 44,  -- *symbolic_link_attribute_values 2106
  /- 42 -/ .write 14 45,  -- extended_attributes_array 2035
  /- 43 -/ .read 19 46,  -- file_system_btree 1907
  /- 44 -/ .write 29 47,  -- symbolic_link_data 2108
  /- 45 -/ .write 13 48,  -- *extended_attributes_array 2034
  /- 46 -/ .read 17 49,  -- file_io_handle 1908
  /- 47 -/ .read 29 50,  -- symbolic_link_data 2111
  /- 48 -/ .choice [15, 16],
  /- 49 -/ .read 31 51,  -- transaction_identifier 1910
  /- 50 -/ .choice [15, 52],
  /- 51 -/ .read 14 53,  -- extended_attributes_array 1911
  /- 52 -/ .write 30 54,  -- symbolic_link_data_size 2122
  /- 53 -/ .write 18 55,  -- *file_system_btree 1906
  /- 54 -/ .read 27 56,  -- symbolic_link_attribute_values 2125
  /- 55 -/ .write 13 57,  -- *extended_attributes_array 1906
  /- 56 -/ .read 23 58,  -- io_handle 2126
  /- 57 -/ .choice [33, 59],
  /- 58 -/ .read 17 60,  -- file_io_handle 2127
  /- 59 -/ .read 14 61,  -- extended_attributes_array 1926
  /- 60 -/ .read 12 62,  -- encryption_context 2128
  /- 61 -/ .read 13 63,  -- *extended_attributes_array 1925
  /- 62 -/ .read 19 64,  -- file_system_btree 2129
  /- 63 -/ .choice [15, 16, 33, 65],
  /- 64 -/ .read 31 66,  -- transaction_identifier 2130
  /- 65 -/ .read 14 67,  -- extended_attributes_array 1944
  /- 66 -/ .read 26 68,  -- *symbolic_link_attribute_values 2124
  /- 67 -/ .read 13 69,  -- *extended_attributes_array 1943
  /- 68 -/ .read 22 70,  -- *io_handle 2124
  /- 69 -/ .choice [15, 16, 33, 71, 72, 73, 65],
  /- 70 -/ .read 11 74,  -- *encryption_context 2124
  /- 71 -/ .write 27 75,  -- symbolic_link_attribute_values 2024
  /- 72 -/ .write 25 75,  -- resource_fork_attribute_values 2001
  /- 73 -/ .write 1 75,  -- compressed_data_attribute_values 1978
  /- 74 -/ .write 18 76,  -- *file_system_btree 2124
  /- 75 -/ .choice [15, 16, 65],
  /- 76 -/ .choice [15, 77],
  /- 77 -/ .read 17 78,  -- file_io_handle 2145
  /- 78 -/ .read 29 79,  -- symbolic_link_data 2146
  /- 79 -/ .read 30 80,  -- symbolic_link_data_size 2147
  /- 80 -/ .write 28 81,  -- *symbolic_link_data 2143
  /- 81 -/ .read 30 82,  -- symbolic_link_data_size 2152
  /- 82 -/ .choice [5, 6, 15]]

/-- `libfsapfs_file_entry_get_number_of_extended_attributes`, libfsapfs_file_entry.c:2617-2703 -/
def file_entry_get_number_of_extended_attributes : Graph := [
  /- 0 -/ .choice [1, 2],
  /- 1 -/ .ret,
  /- 2 -/ .grab true 3 1,  -- 2640
  /- 3 -/ .read 14 4,  -- extended_attributes_array 2654
  /- 4 -/ .choice [5, 6],
  /- 5 -/ .read 14 7,  -- extended_attributes_array 2670
  /- 6 -/ .read 14 8,  -- extended_attributes_array 1867
  /- 7 -/ .choice [9, 10],
  /- 8 -/ .choice [5, 11],
  /- 9 -/ .release 1,  -- 2688
  /- 10 -/ .read 14 12,  -- extended_attributes_array 2673
  /- 11 -/ .read 21 13,  -- inode 1879
  /- 12 -/ .read 13 9,  -- *extended_attributes_array 2672
  /- 13 -/ .read 20 14,  -- *inode 1878
  /- 14 -/ .choice [15, 16],
  /- 15 -/ .read 14 17,  -- extended_attributes_array 2032
  /- 16 -/ .read 14 18,  -- extended_attributes_array 1893
  /- 17 -/ .choice [5, 19],
  /- 18 -/ .write 14 20,  -- extended_attributes_array 1893
  /- 19 -/ .read 14 21,  -- extended_attributes_array 2035
  /- 20 -/ .choice [15, 22],
  /- 21 -/ .write 14 23,  -- extended_attributes_array 2035
  /- 22 -/ .read 19 24,  -- file_system_btree 1907
  /- 23 -/ .write 13 5,  -- *extended_attributes_array 2034
  /- 24 -/ .read 17 25,  -- file_io_handle 1908
  /- 25 -/ .read 31 26,  -- transaction_identifier 1910
  /- 26 -/ .read 14 27,  -- extended_attributes_array 1911
  /- 27 -/ .write 18 28,  -- *file_system_btree 1906
  /- 28 -/ .write 13 29,  -- *extended_attributes_array 1906
  /- 29 -/ .choice [15, 30],
  /- 30 -/ .read 14 31,  -- extended_attributes_array 1926
  /- 31 -/ .read 13 32,  -- *extended_attributes_array 1925
  /- 32 -/ .choice [5, 15, 33],
  /- 33 -/ .read 14 34,  -- extended_attributes_array 1944
  /- 34 -/ .read 13 35,  -- *extended_attributes_array 1943
  /- 35 -/ .choice [5, 15, 36, 37, 38, 33],
  /- 36 -/ .write 27 39,  -- symbolic_link_attribute_values 2024
  /- 37 -/ .write 25 39,  -- resource_fork_attribute_values 2001
  /- 38 -/ .write 1 39,  -- compressed_data_attribute_values 1978
  /- 39 -/ .choice [5, 33]]

/-- `libfsapfs_file_entry_get_extended_attribute_by_index`, libfsapfs_file_entry.c:2708-2842 -/
def file_entry_get_extended_attribute_by_index : Graph := [
  /- 0 -/ .choice [1, 2],
  /- 1 -/ .ret,
  /- 2 -/ .grab true 3 1,  -- 2755
  /- 3 -/ .read 14 4,  -- extended_attributes_array 2769
  /- 4 -/ .choice [5, 6],
  /- 5 -/ .read 14 7,  -- extended_attributes_array 2785
  /- 6 -/ .read 14 8,  -- extended_attributes_array 1867
  /- 7 -/ .choice [9, 10],
  /- 8 -/ .choice [5, 11],
  /- 9 -/ .release 1,  -- 2827
  /- 10 -/ .read 14 12,  -- extended_attributes_array 2788
  /- 11 -/ .read 21 13,  -- inode 1879
  /- 12 -/ .read 13 14,  -- *extended_attributes_array 2787
  /- 13 -/ .read 20 15,  -- *inode 1878
  /- 14 -/ .choice [9, 16],
  /- 15 -/ .choice [17, 18],
  /- 16 -/ .read 23 19,  -- io_handle 2807
  /- 17 -/ .read 14 20,  -- extended_attributes_array 2032
  /- 18 -/ .read 14 21,  -- extended_attributes_array 1893
  /- 19 -/ .read 17 22,  -- file_io_handle 2808
  /- 20 -/ .choice [5, 23],
  /- 21 -/ .write 14 24,  -- extended_attributes_array 1893
  /- 22 -/ .read 12 25,  -- encryption_context 2809
  /- 23 -/ .read 14 26,  -- extended_attributes_array 2035
  /- 24 -/ .choice [17, 27],
  /- 25 -/ .read 19 28,  -- file_system_btree 2810
  /- 26 -/ .write 14 29,  -- extended_attributes_array 2035
  /- 27 -/ .read 19 30,  -- file_system_btree 1907
  /- 28 -/ .read 31 31,  -- transaction_identifier 2812
  /- 29 -/ .write 13 5,  -- *extended_attributes_array 2034
  /- 30 -/ .read 17 32,  -- file_io_handle 1908
  /- 31 -/ .read 22 33,  -- *io_handle 2805
  /- 32 -/ .read 31 34,  -- transaction_identifier 1910
  /- 33 -/ .read 11 35,  -- *encryption_context 2805
  /- 34 -/ .read 14 36,  -- extended_attributes_array 1911
  /- 35 -/ .read 18 9,  -- *file_system_btree 2805
  /- 36 -/ .write 18 37,  -- *file_system_btree 1906
  /- 37 -/ .write 13 38,  -- *extended_attributes_array 1906
  /- 38 -/ .choice [17, 39],
  /- 39 -/ .read 14 40,  -- extended_attributes_array 1926
  /- 40 -/ .read 13 41,  -- *extended_attributes_array 1925
  /- 41 -/ .choice [5, 17, 42],
  /- 42 -/ .read 14 43,  -- extended_attributes_array 1944
  /- 43 -/ .read 13 44,  -- *extended_attributes_array 1943
  /- 44 -/ .choice [5, 17, 45, 46, 47, 42],
  /- 45 -/ .write 27 48,  -- symbolic_link_attribute_values 2024
  /- 46 -/ .write 25 48,  -- resource_fork_attribute_values 2001
  /- 47 -/ .write 1 48,  -- compressed_data_attribute_values 1978
  /- 48 -/ .choice [5, 42]]

/-- `libfsapfs_file_entry_has_extended_attribute_by_utf8_name`, libfsapfs_file_entry.c:3057-3130 -/
def file_entry_has_extended_attribute_by_utf8_name : Graph := [
  /- 0 -/ .choice [1, 2],
  /- 1 -/ .ret,
  /- 2 -/ .grab true 3 1,  -- 3082
  /- 3 -/ .choice [4, 5],
  /- 4 -/ .release 1,  -- 3115
  /- 5 -/ .read 14 6,  -- extended_attributes_array 2871
  /- 6 -/ .choice [4, 7, 8],
  /- 7 -/ .read 14 9,  -- extended_attributes_array 2906
  /- 8 -/ .read 14 10,  -- extended_attributes_array 1867
  /- 9 -/ .read 13 11,  -- *extended_attributes_array 2905
  /- 10 -/ .choice [4, 7, 12],
  /- 11 -/ .choice [4, 7],
  /- 12 -/ .read 21 13,  -- inode 1879
  /- 13 -/ .read 20 14,  -- *inode 1878
  /- 14 -/ .choice [15, 16],
  /- 15 -/ .read 14 17,  -- extended_attributes_array 2032
  /- 16 -/ .read 14 18,  -- extended_attributes_array 1893
  /- 17 -/ .choice [4, 7, 19],
  /- 18 -/ .write 14 20,  -- extended_attributes_array 1893
  /- 19 -/ .read 14 21,  -- extended_attributes_array 2035
  /- 20 -/ .choice [15, 22],
  /- 21 -/ .write 14 23,  -- extended_attributes_array 2035
  /- 22 -/ .read 19 24,  -- file_system_btree 1907
  /- 23 -/ .write 13 11,  -- *extended_attributes_array 2034
  /- 24 -/ .read 17 25,  -- file_io_handle 1908
  /- 25 -/ .read 31 26,  -- transaction_identifier 1910
  /- 26 -/ .read 14 27,  -- extended_attributes_array 1911
  /- 27 -/ .write 18 28,  -- *file_system_btree 1906
  /- 28 -/ .write 13 29,  -- *extended_attributes_array 1906
  /- 29 -/ .choice [15, 30],
  /- 30 -/ .read 14 31,  -- extended_attributes_array 1926
  /- 31 -/ .read 13 32,  -- *extended_attributes_array 1925
  /- 32 -/ .choice [4, 7, 15, 33],
  /- 33 -/ .read 14 34,  -- extended_attributes_array 1944
  /- 34 -/ .read 13 35,  -- *extended_attributes_array 1943
  /- 35 -/ .choice [4, 7, 15, 36, 37, 38, 33],
  /- 36 -/ .write 27 39,  -- symbolic_link_attribute_values 2024
  /- 37 -/ .write 25 39,  -- resource_fork_attribute_values 2001
  /- 38 -/ .write 1 39,  -- compressed_data_attribute_values 1978
  /- 39 -/ .choice [4, 7, 33]]

/-- `libfsapfs_file_entry_has_extended_attribute_by_utf16_name`, libfsapfs_file_entry.c:3135-3208 -/
def file_entry_has_extended_attribute_by_utf16_name : Graph := [
  /- 0 -/ .choice [1, 2],
  /- 1 -/ .ret,
  /- 2 -/ .grab true 3 1,  -- 3160
  /- 3 -/ .choice [4, 5],
  /- 4 -/ .release 1,  -- 3193
  /- 5 -/ .read 14 6,  -- extended_attributes_array 2976
  /- 6 -/ .choice [4, 7, 8],
  /- 7 -/ .read 14 9,  -- extended_attributes_array 3011
  /- 8 -/ .read 14 10,  -- extended_attributes_array 1867
  /- 9 -/ .read 13 11,  -- *extended_attributes_array 3010
  /- 10 -/ .choice [4, 7, 12],
  /- 11 -/ .choice [4, 7],
  /- 12 -/ .read 21 13,  -- inode 1879
  /- 13 -/ .read 20 14,  -- *inode 1878
  /- 14 -/ .choice [15, 16],
  /- 15 -/ .read 14 17,  -- extended_attributes_array 2032
  /- 16 -/ .read 14 18,  -- extended_attributes_array 1893
  /- 17 -/ .choice [4, 7, 19],
  /- 18 -/ .write 14 20,  -- extended_attributes_array 1893
  /- 19 -/ .read 14 21,  -- extended_attributes_array 2035
  /- 20 -/ .choice [15, 22],
  /- 21 -/ .write 14 23,  -- extended_attributes_array 2035
  /- 22 -/ .read 19 24,  -- file_system_btree 1907
  /- 23 -/ .write 13 11,  -- *extended_attributes_array 2034
  /- 24 -/ .read 17 25,  -- file_io_handle 1908
  /- 25 -/ .read 31 26,  -- transaction_identifier 1910
  /- 26 -/ .read 14 27,  -- extended_attributes_array 1911
  /- 27 -/ .write 18 28,  -- *file_system_btree 1906
  /- 28 -/ .write 13 29,  -- *extended_attributes_array 1906
  /- 29 -/ .choice [15, 30],
  /- 30 -/ .read 14 31,  -- extended_attributes_array 1926
  /- 31 -/ .read 13 32,  -- *extended_attributes_array 1925
  /- 32 -/ .choice [4, 7, 15, 33],
  /- 33 -/ .read 14 34,  -- extended_attributes_array 1944
  /- 34 -/ .read 13 35,  -- *extended_attributes_array 1943
  /- 35 -/ .choice [4, 7, 15, 36, 37, 38, 33],
  /- 36 -/ .write 27 39,  -- symbolic_link_attribute_values 2024
  /- 37 -/ .write 25 39,  -- resource_fork_attribute_values 2001
  /- 38 -/ .write 1 39,  -- compressed_data_attribute_values 1978
  /- 39 -/ .choice [4, 7, 33]]

/-- `libfsapfs_file_entry_get_extended_attribute_by_utf8_name`, libfsapfs_file_entry.c:3213-3331 -/
def file_entry_get_extended_attribute_by_utf8_name : Graph := [
  /- 0 -/ .choice [1, 2],
  /- 1 -/ .ret,
  /- 2 -/ .grab true 3 1,  -- 3261
  /- 3 -/ .choice [4, 5, 6],
  /- 4 -/ .release 1,  -- 3316
  /- 5 -/ .read 23 7,  -- io_handle 3297
  /- 6 -/ .read 14 8,  -- extended_attributes_array 2871
  /- 7 -/ .read 17 9,  -- file_io_handle 3298
  /- 8 -/ .choice [4, 5, 10, 11],
  /- 9 -/ .read 12 12,  -- encryption_context 3299
  /- 10 -/ .read 14 13,  -- extended_attributes_array 2906
  /- 11 -/ .read 14 14,  -- extended_attributes_array 1867
  /- 12 -/ .read 19 15,  -- file_system_btree 3300
  /- 13 -/ .read 13 16,  -- *extended_attributes_array 2905
  /- 14 -/ .choice [4, 5, 10, 17],
  /- 15 -/ .read 31 18,  -- transaction_identifier 3302
  /- 16 -/ .choice [4, 5, 10],
  /- 17 -/ .read 21 19,  -- inode 1879
  /- 18 -/ .read 22 20,  -- *io_handle 3295
  /- 19 -/ .read 20 21,  -- *inode 1878
  /- 20 -/ .read 11 22,  -- *encryption_context 3295
  /- 21 -/ .choice [23, 24],
  /- 22 -/ .read 18 4,  -- *file_system_btree 3295
  /- 23 -/ .read 14 25,  -- extended_attributes_array 2032
  /- 24 -/ .read 14 26,  -- extended_attributes_array 1893
  /- 25 -/ .choice [4, 5, 10, 27],
  /- 26 -/ .write 14 28,  -- extended_attributes_array 1893
  /- 27 -/ .read 14 29,  -- extended_attributes_array 2035
  /- 28 -/ .choice [23, 30],
  /- 29 -/ .write 14 31,  -- extended_attributes_array 2035
  /- 30 -/ .read 19 32,  -- file_system_btree 1907
  /- 31 -/ .write 13 16,  -- *extended_attributes_array 2034
  /- 32 -/ .read 17 33,  -- file_io_handle 1908
  /- 33 -/ .read 31 34,  -- transaction_identifier 1910
  /- 34 -/ .read 14 35,  -- extended_attributes_array 1911
  /- 35 -/ .write 18 36,  -- *file_system_btree 1906
  /- 36 -/ .write 13 37,  -- *extended_attributes_array 1906
  /- 37 -/ .choice [23, 38],
  /- 38 -/ .read 14 39,  -- extended_attributes_array 1926
  /- 39 -/ .read 13 40,  -- *extended_attributes_array 1925
  /- 40 -/ .choice [4, 5, 10, 23, 41],
  /- 41 -/ .read 14 42,  -- extended_attributes_array 1944
  /- 42 -/ .read 13 43,  -- *extended_attributes_array 1943
  /- 43 -/ .choice [4, 5, 10, 23, 44, 45, 46, 41],
  /- 44 -/ .write 27 47,  -- symbolic_link_attribute_values 2024
  /- 45 -/ .write 25 47,  -- resource_fork_attribute_values 2001
  /- 46 -/ .write 1 47,  -- compressed_data_attribute_values 1978
  /- 47 -/ .choice [4, 5, 10, 41]]

/-- `libfsapfs_file_entry_get_extended_attribute_by_utf16_name`, libfsapfs_file_entry.c:3336-3454 -/
def file_entry_get_extended_attribute_by_utf16_name : Graph := [
  /- 0 -/ .choice [1, 2],
  /- 1 -/ .ret,
  /- 2 -/ .grab true 3 1,  -- 3384
  /- 3 -/ .choice [4, 5, 6],
  /- 4 -/ .release 1,  -- 3439
  /- 5 -/ .read 23 7,  -- io_handle 3420
  /- 6 -/ .read 14 8,  -- extended_attributes_array 2976
  /- 7 -/ .read 17 9,  -- file_io_handle 3421
  /- 8 -/ .choice [4, 5, 10, 11],
  /- 9 -/ .read 12 12,  -- encryption_context 3422
  /- 10 -/ .read 14 13,  -- extended_attributes_array 3011
  /- 11 -/ .read 14 14,  -- extended_attributes_array 1867
  /- 12 -/ .read 19 15,  -- file_system_btree 3423
  /- 13 -/ .read 13 16,  -- *extended_attributes_array 3010
  /- 14 -/ .choice [4, 5, 10, 17],
  /- 15 -/ .read 31 18,  -- transaction_identifier 3425
  /- 16 -/ .choice [4, 5, 10],
  /- 17 -/ .read 21 19,  -- inode 1879
  /- 18 -/ .read 22 20,  -- *io_handle 3418
  /- 19 -/ .read 20 21,  -- *inode 1878
  /- 20 -/ .read 11 22,  -- *encryption_context 3418
  /- 21 -/ .choice [23, 24],
  /- 22 -/ .read 18 4,  -- *file_system_btree 3418
  /- 23 -/ .read 14 25,  -- extended_attributes_array 2032
  /- 24 -/ .read 14 26,  -- extended_attributes_array 1893
  /- 25 -/ .choice [4, 5, 10, 27],
  /- 26 -/ .write 14 28,  -- extended_attributes_array 1893
  /- 27 -/ .read 14 29,  -- extended_attributes_array 2035
  /- 28 -/ .choice [23, 30],
  /- 29 -/ .write 14 31,  -- extended_attributes_array 2035
  /- 30 -/ .read 19 32,  -- file_system_btree 1907
  /- 31 -/ .write 13 16,  -- *extended_attributes_array 2034
  /- 32 -/ .read 17 33,  -- file_io_handle 1908
  /- 33 -/ .read 31 34,  -- transaction_identifier 1910
  /- 34 -/ .read 14 35,  -- extended_attributes_array 1911
  /- 35 -/ .write 18 36,  -- *file_system_btree 1906
  /- 36 -/ .write 13 37,  -- *extended_attributes_array 1906
  /- 37 -/ .choice [23, 38],
  /- 38 -/ .read 14 39,  -- extended_attributes_array 1926
  /- 39 -/ .read 13 40,  -- *extended_attributes_array 1925
  /- 40 -/ .choice [4, 5, 10, 23, 41],
  /- 41 -/ .read 14 42,  -- extended_attributes_array 1944
  /- 42 -/ .read 13 43,  -- *extended_attributes_array 1943
  /- 43 -/ .choice [4, 5, 10, 23, 44, 45, 46, 41],
  /- 44 -/ .write 27 47,  -- symbolic_link_attribute_values 2024
  /- 45 -/ .write 25 47,  -- resource_fork_attribute_values 2001
  /- 46 -/ .write 1 47,  -- compressed_data_attribute_values 1978
  /- 47 -/ .choice [4, 5, 10, 41]]

/-- `libfsapfs_file_entry_get_number_of_sub_file_entries`, libfsapfs_file_entry.c:3552-3638 -/
def file_entry_get_number_of_sub_file_entries : Graph := [
  /- 0 -/ .choice [1, 2],
  /- 1 -/ .ret,
  /- 2 -/ .grab true 3 1,  -- 3575
  /- 3 -/ .read 8 4,  -- directory_entries 3589
  /- 4 -/ .choice [5, 6, 7],
  /- 5 -/ .release 1,  -- 3623
  /- 6 -/ .read 8 8,  -- directory_entries 3608
  /- 7 -/ .read 8 9,  -- directory_entries 3478
  /- 8 -/ .read 7 5,  -- *directory_entries 3607
  /- 9 -/ .choice [5, 6, 10],
  /- 10 -/ .read 21 11,  -- inode 3490
  /- 11 -/ .read 20 12,  -- *inode 3489
  /- 12 -/ .choice [13, 14],
  /- 13 -/ .read 8 15,  -- directory_entries 3539
  /- 14 -/ .read 8 16,  -- directory_entries 3504
  /- 15 -/ .choice [5, 6, 17],
  /- 16 -/ .write 8 18,  -- directory_entries 3504
  /- 17 -/ .read 8 19,  -- directory_entries 3542
  /- 18 -/ .choice [13, 20],
  /- 19 -/ .write 8 21,  -- directory_entries 3542
  /- 20 -/ .read 19 22,  -- file_system_btree 3518
  /- 21 -/ .write 7 23,  -- *directory_entries 3541
  /- 22 -/ .read 17 24,  -- file_io_handle 3519
  /- 23 -/ .choice [5, 6],
  /- 24 -/ .read 31 25,  -- transaction_identifier 3521
  /- 25 -/ .read 8 26,  -- directory_entries 3522
  /- 26 -/ .write 18 27,  -- *file_system_btree 3517
  /- 27 -/ .write 7 28,  -- *directory_entries 3517
  /- 28 -/ .choice [5, 6, 13]]

/-- `libfsapfs_file_entry_get_sub_file_entry_by_index`, libfsapfs_file_entry.c:3643-3848 -/
def file_entry_get_sub_file_entry_by_index : Graph := [
  /- 0 -/ .choice [1, 2],
  /- 1 -/ .ret,
  /- 2 -/ .grab true 3 1,  -- 3692
  /- 3 -/ .read 8 4,  -- directory_entries 3706
  /- 4 -/ .choice [5, 6, 7],
  /- 5 -/ .release 1,  -- 3843
  /- 6 -/ .read 8 8,  -- directory_entries 3723
  /- 7 -/ .read 8 9,  -- directory_entries 3478
  /- 8 -/ .read 7 10,  -- *directory_entries 3722
  /- 9 -/ .choice [5, 6, 11],
  /- 10 -/ .choice [5, 12],
  /- 11 -/ .read 21 13,  -- inode 3490
  /- 12 -/ .read 19 14,  -- file_system_btree 3754
  /- 13 -/ .read 20 15,  -- *inode 3489
  /- 14 -/ .read 17 16,  -- file_io_handle 3755
  /- 15 -/ .choice [17, 18],
  /- 16 -/ .read 31 19,  -- transaction_identifier 3757
  /- 17 -/ .read 8 20,  -- directory_entries 3539
  /- 18 -/ .read 8 21,  -- directory_entries 3504
  /- 19 -/ .write 18 22,  -- *file_system_btree 3753
  /- 20 -/ .choice [5, 6, 23],
  /- 21 -/ .write 8 24,  -- directory_entries 3504
  /- 22 -/ .choice [5, 25],
  /- 23 -/ .read 8 26,  -- directory_entries 3542
  /- 24 -/ .choice [17, 27],
  /- 25 -/ .read 23 28,  -- io_handle 3787
  /- 26 -/ .write 8 29,  -- directory_entries 3542
  /- 27 -/ .read 19 30,  -- file_system_btree 3518
  /- 28 -/ .read 17 31,  -- file_io_handle 3788
  /- 29 -/ .write 7 32,  -- *directory_entries 3541
  /- 30 -/ .read 17 33,  -- file_io_handle 3519
  /- 31 -/ .read 12 34,  -- encryption_context 3789
  /- 32 -/ .choice [5, 6],
  /- 33 -/ .read 31 35,  -- transaction_identifier 3521
  /- 34 -/ .read 19 36,  -- file_system_btree 3790
  /- 35 -/ .read 8 37,  -- directory_entries 3522
  /- 36 -/ .read 31 38,  -- transaction_identifier 3793
  /- 37 -/ .write 18 39,  -- *file_system_btree 3517
  /- 38 -/ .read 22 40,  -- *io_handle 3785
  /- 39 -/ .write 7 41,  -- *directory_entries 3517
  /- 40 -/ .read 11 42,  -- *encryption_context 3785
  /- 41 -/ .choice [5, 6, 17],
  /- 42 -/ .read 18 5]  -- *file_system_btree 3785

/-- `libfsapfs_file_entry_get_sub_file_entry_by_utf8_name`, libfsapfs_file_entry.c:3853-4016 -/
def file_entry_get_sub_file_entry_by_utf8_name : Graph := [
  /- 0 -/ .choice [1, 2],
  /- 1 -/ .ret,
  /- 2 -/ .grab true 3 1,  -- 3903
  /- 3 -/ .read 21 4,  -- inode 3918
  /- 4 -/ .read 20 5,  -- *inode 3917
  /- 5 -/ .choice [6, 7],
  /- 6 -/ .release 1,  -- 4011
  /- 7 -/ .read 19 8,  -- file_system_btree 3932
  /- 8 -/ .read 17 9,  -- file_io_handle 3933
  /- 9 -/ .read 31 10,  -- transaction_identifier 3937
  /- 10 -/ .write 18 11,  -- *file_system_btree 3931
  /- 11 -/ .choice [6, 12],
  /- 12 -/ .read 23 13,  -- io_handle 3957
  /- 13 -/ .read 17 14,  -- file_io_handle 3958
  /- 14 -/ .read 12 15,  -- encryption_context 3959
  /- 15 -/ .read 19 16,  -- file_system_btree 3960
  /- 16 -/ .read 31 17,  -- transaction_identifier 3963
  /- 17 -/ .read 22 18,  -- *io_handle 3955
  /- 18 -/ .read 11 19,  -- *encryption_context 3955
  /- 19 -/ .read 18 6]  -- *file_system_btree 3955

/-- `libfsapfs_file_entry_get_sub_file_entry_by_utf16_name`, libfsapfs_file_entry.c:4021-4184 -/
def file_entry_get_sub_file_entry_by_utf16_name : Graph := [
  /- 0 -/ .choice [1, 2],
  /- 1 -/ .ret,
  /- 2 -/ .grab true 3 1,  -- 4071
  /- 3 -/ .read 21 4,  -- inode 4086
  /- 4 -/ .read 20 5,  -- *inode 4085
  /- 5 -/ .choice [6, 7],
  /- 6 -/ .release 1,  -- 4179
  /- 7 -/ .read 19 8,  -- file_system_btree 4100
  /- 8 -/ .read 17 9,  -- file_io_handle 4101
  /- 9 -/ .read 31 10,  -- transaction_identifier 4105
  /- 10 -/ .write 18 11,  -- *file_system_btree 4099
  /- 11 -/ .choice [6, 12],
  /- 12 -/ .read 23 13,  -- io_handle 4125
  /- 13 -/ .read 17 14,  -- file_io_handle 4126
  /- 14 -/ .read 12 15,  -- encryption_context 4127
  /- 15 -/ .read 19 16,  -- file_system_btree 4128
  /- 16 -/ .read 31 17,  -- transaction_identifier 4131
  /- 17 -/ .read 22 18,  -- *io_handle 4123
  /- 18 -/ .read 11 19,  -- *encryption_context 4123
  /- 19 -/ .read 18 6]  -- *file_system_btree 4123

/-- `libfsapfs_file_entry_read_buffer`, libfsapfs_file_entry.c:4520-4612 -/
def file_entry_read_buffer : Graph := [
  /- 0 -/ .choice [1, 2],
  /- 1 -/ .ret,
  /- 2 -/ .grab true 3 1,  -- 4544
  /- 3 -/ .read 6 4,  -- data_stream 4558
  /- 4 -/ .choice [5, 6, 7],
  /- 5 -/ .release 1,  -- 4597
  /- 6 -/ .read 6 8,  -- data_stream 4577
  /- 7 -/ .read 23 9,  -- io_handle 4304
  /- 8 -/ .read 17 10,  -- file_io_handle 4578
  /- 9 -/ .choice [5, 6, 11],
  /- 10 -/ .write 5 5,  -- *data_stream 4576
  /- 11 -/ .read 6 12,  -- data_stream 4315
  /- 12 -/ .choice [5, 6, 13],
  /- 13 -/ .read 4 14,  -- data_size 4326
  /- 14 -/ .choice [15, 16, 17],
  /- 15 -/ .read 6 18,  -- data_stream 4508
  /- 16 -/ .read 3 19,  -- compressed_data_header 4342
  /- 17 -/ .read 3 20,  -- compressed_data_header 4925
  /- 18 -/ .choice [5, 6, 21],
  /- 19 -/ .choice [22, 23],
  /- 20 -/ .choice [15, 16, 24],
  /- 21 -/ .read 6 25,  -- data_stream 4511
  /- 22 -/ .read 3 26,  -- compressed_data_header 4344
  /- 23 -/ .read 16 27,  -- file_extents 4440
  /- 24 -/ .read 4 28,  -- data_size 4936
  /- 25 -/ .write 6 29,  -- data_stream 4511
  /- 26 -/ .read 2 30,  -- *compressed_data_header 4344
  /- 27 -/ .choice [15, 31, 32],
  /- 28 -/ .choice [15, 16, 33],
  /- 29 -/ .write 5 34,  -- *data_stream 4510
  /- 30 -/ .choice [35, 36],
  /- 31 -/ .read 21 37,  -- inode 4457
  /- 32 -/ .read 16 38,  -- file_extents 4208
  /- 33 -/ .read 14 39,  -- extended_attributes_array 4947
  /- 34 -/ .choice [5, 6],
  /- 35 -/ .read 3 40,  -- compressed_data_header 4376
  /- 36 -/ .read 3 41,  -- compressed_data_header 4372
  /- 37 -/ .read 20 42,  -- *inode 4456
  /- 38 -/ .choice [15, 31, 43],
  /- 39 -/ .choice [15, 16, 44, 45],
  /- 40 -/ .read 2 46,  -- *compressed_data_header 4376
  /- 41 -/ .read 2 15,  -- *compressed_data_header 4372
  /- 42 -/ .choice [15, 47],
  /- 43 -/ .read 21 48,  -- inode 4220
  /- 44 -/ .read 1 49,  -- compressed_data_attribute_values 4963
  /- 45 -/ .read 14 50,  -- extended_attributes_array 1867
  /- 46 -/ .read 3 51,  -- compressed_data_header 4377
  /- 47 -/ .read 21 52,  -- inode 4471
  /- 48 -/ .read 20 53,  -- *inode 4219
  /- 49 -/ .choice [54, 55, 56],
  /- 50 -/ .choice [15, 16, 44, 57],
  /- 51 -/ .read 2 58,  -- *compressed_data_header 4377
  /- 52 -/ .read 20 59,  -- *inode 4470
  /- 53 -/ .choice [60, 61],
  /- 54 -/ .write 4 62,  -- data_size 5086
  /- 55 -/ .read 21 63,  -- inode 5072
  /- 56 -/ .read 1 64,  -- compressed_data_attribute_values 4966
  /- 57 -/ .read 21 65,  -- inode 1879
  /- 58 -/ .choice [66, 67],
  /- 59 -/ .choice [15, 68],
  /- 60 -/ .read 16 69,  -- file_extents 4269
  /- 61 -/ .read 16 70,  -- file_extents 4234
  /- 62 -/ .choice [15, 16],
  /- 63 -/ .read 20 71,  -- *inode 5071
  /- 64 -/ .read 23 72,  -- io_handle 4967
  /- 65 -/ .read 20 73,  -- *inode 1878
  /- 66 -/ .read 25 74,  -- resource_fork_attribute_values 4380
  /- 67 -/ .read 1 75,  -- compressed_data_attribute_values 4402
  /- 68 -/ .read 6 76,  -- data_stream 4487
  /- 69 -/ .choice [15, 31, 77],
  /- 70 -/ .write 16 78,  -- file_extents 4234
  /- 71 -/ .choice [15, 16, 54],
  /- 72 -/ .read 17 79,  -- file_io_handle 4968
  /- 73 -/ .choice [80, 81],
  /- 74 -/ .read 23 82,  -- io_handle 4381
  /- 75 -/ .read 23 83,  -- io_handle 4403
  /- 76 -/ .read 23 84,  -- io_handle 4488
  /- 77 -/ .read 16 85,  -- file_extents 4272
  /- 78 -/ .choice [60, 86],
  /- 79 -/ .read 12 87,  -- encryption_context 4969
  /- 80 -/ .read 14 88,  -- extended_attributes_array 2032
  /- 81 -/ .read 14 89,  -- extended_attributes_array 1893
  /- 82 -/ .read 17 90,  -- file_io_handle 4382
  /- 83 -/ .read 17 91,  -- file_io_handle 4404
  /- 84 -/ .read 12 92,  -- encryption_context 4489
  /- 85 -/ .write 16 93,  -- file_extents 4272
  /- 86 -/ .read 19 94,  -- file_system_btree 4248
  /- 87 -/ .read 19 95,  -- file_system_btree 4970
  /- 88 -/ .choice [15, 16, 44, 96],
  /- 89 -/ .write 14 97,  -- extended_attributes_array 1893
  /- 90 -/ .read 12 98,  -- encryption_context 4383
  /- 91 -/ .read 12 99,  -- encryption_context 4405
  /- 92 -/ .read 16 100,  -- file_extents 4490
  /- 93 -/ .write 15 101,  -- *file_extents 4271
  /- 94 -/ .read 17 102,  -- file_io_handle 4249
  /- 95 -/ .read 31 103,  -- transaction_identifier 4971
  /- 96 -/ .read 14 104,  -- extended_attributes_array 2035
  /- 97 -/ .choice [80, 105],
  /- 98 -/ .read 19 106,  -- file_system_btree 4384
  /- 99 -/ .read 19 107,  -- file_system_btree 4406
  /- 100 -/ .read 22 108,  -- *io_handle 4486
  /- 101 -/ .choice [15, 31],
  /- 102 -/ .read 31 109,  -- transaction_identifier 4251
  /- 103 -/ .read 0 110,  -- *compressed_data_attribute_values 4965
  /- 104 -/ .write 14 111,  -- extended_attributes_array 2035
  /- 105 -/ .read 19 112,  -- file_system_btree 1907
  /- 106 -/ .read 31 113,  -- transaction_identifier 4385
  /- 107 -/ .read 31 114,  -- transaction_identifier 4407
  /- 108 -/ .read 11 115,  -- *encryption_context 4486
  /- 109 -/ .read 16 116,  -- file_extents 4252
  /- 110 -/ .read 22 117,  -- *io_handle 4965
  /- 111 -/ .write 13 118,  -- *extended_attributes_array 2034
  /- 112 -/ .read 17 119,  -- file_io_handle 1908
  /- 113 -/ .read 24 120,  -- *resource_fork_attribute_values 4379
  /- 114 -/ .read 0 120,  -- *compressed_data_attribute_values 4401
  /- 115 -/ .read 15 121,  -- *file_extents 4486
  /- 116 -/ .write 18 122,  -- *file_system_btree 4247
  /- 117 -/ .read 11 123,  -- *encryption_context 4965
  /- 118 -/ .choice [15, 16, 44],
  /- 119 -/ .read 31 124,  -- transaction_identifier 1910
  /- 120 -/ .read 22 125,  -- *io_handle 4379
  /- 121 -/ .write 6 126,  -- data_stream 4422
  /- 122 -/ .write 15 127,  -- *file_extents 4247
  /- 123 -/ .write 18 128,  -- *file_system_btree 4965
  /- 124 -/ .read 14 129,  -- extended_attributes_array 1911
  /- 125 -/ .read 11 130,  -- *encryption_context 4379
  /- 126 -/ .choice [5, 6, 15],
  /- 127 -/ .choice [15, 31, 60],
  /- 128 -/ .choice [131, 132],
  /- 129 -/ .write 18 133,  -- *file_system_btree 1906
  /- 130 -/ .write 18 134,  -- *file_system_btree 4379
  /- 131 -/ .read 3 135,  -- compressed_data_header 5097
  /- 132 -/ .read 17 136,  -- file_io_handle 4987
  /- 133 -/ .write 13 137,  -- *extended_attributes_array 1906
  /- 134 -/ .choice [15, 138],
  /- 135 -/ .choice [15, 16, 139],
  /- 136 -/ .choice [15, 16, 131, 140],
  /- 137 -/ .choice [80, 141],
  /- 138 -/ .read 6 142,  -- data_stream 4422
  /- 139 -/ .read 3 143,  -- compressed_data_header 5100
  /- 140 -/ .read 3 144,  -- compressed_data_header 5019
  /- 141 -/ .read 14 145,  -- extended_attributes_array 1926
  /- 142 -/ .read 4 121,  -- data_size 4424
  /- 143 -/ .write 3 146,  -- compressed_data_header 5100
  /- 144 -/ .write 3 147,  -- compressed_data_header 5019
  /- 145 -/ .read 13 148,  -- *extended_attributes_array 1925
  /- 146 -/ .write 2 62,  -- *compressed_data_header 5099
  /- 147 -/ .choice [131, 149],
  /- 148 -/ .choice [15, 16, 44, 80, 150],
  /- 149 -/ .read 3 151,  -- compressed_data_header 5032
  /- 150 -/ .read 14 152,  -- extended_attributes_array 1944
  /- 151 -/ .write 2 153,  -- *compressed_data_header 5031
  /- 152 -/ .read 13 154,  -- *extended_attributes_array 1943
  /- 153 -/ .choice [131, 155, 156],
  /- 154 -/ .choice [15, 16, 44, 80, 157, 158, 159, 150],
  /- 155 -/ .read 3 160,  -- compressed_data_header 5050
  /- 156 -/ .read 3 161,  -- compressed_data_header 5055
  /- 157 -/ .write 27 162,  -- symbolic_link_attribute_values 2024
  /- 158 -/ .write 25 162,  -- resource_fork_attribute_values 2001
  /- 159 -/ .write 1 162,  -- compressed_data_attribute_values 1978
  /- 160 -/ .read 2 163,  -- *compressed_data_header 5050
  /- 161 -/ .write 3 164,  -- compressed_data_header 5055
  /- 162 -/ .choice [15, 16, 44, 150],
  /- 163 -/ .choice [54, 55],
  /- 164 -/ .write 2 165,  -- *compressed_data_header 5054
  /- 165 -/ .choice [131, 54, 55]]

/-- `libfsapfs_file_entry_read_buffer_at_offset`, libfsapfs_file_entry.c:4617-4711 -/
def file_entry_read_buffer_at_offset : Graph := [
  /- 0 -/ .choice [1, 2],
  /- 1 -/ .ret,
  /- 2 -/ .grab true 3 1,  -- 4642
  /- 3 -/ .read 6 4,  -- data_stream 4656
  /- 4 -/ .choice [5, 6, 7],
  /- 5 -/ .release 1,  -- 4696
  /- 6 -/ .read 6 8,  -- data_stream 4675
  /- 7 -/ .read 23 9,  -- io_handle 4304
  /- 8 -/ .read 17 10,  -- file_io_handle 4676
  /- 9 -/ .choice [5, 6, 11],
  /- 10 -/ .write 5 5,  -- *data_stream 4674
  /- 11 -/ .read 6 12,  -- data_stream 4315
  /- 12 -/ .choice [5, 6, 13],
  /- 13 -/ .read 4 14,  -- data_size 4326
  /- 14 -/ .choice [15, 16, 17],
  /- 15 -/ .read 6 18,  -- data_stream 4508
  /- 16 -/ .read 3 19,  -- compressed_data_header 4342
  /- 17 -/ .read 3 20,  -- compressed_data_header 4925
  /- 18 -/ .choice [5, 6, 21],
  /- 19 -/ .choice [22, 23],
  /- 20 -/ .choice [15, 16, 24],
  /- 21 -/ .read 6 25,  -- data_stream 4511
  /- 22 -/ .read 3 26,  -- compressed_data_header 4344
  /- 23 -/ .read 16 27,  -- file_extents 4440
  /- 24 -/ .read 4 28,  -- data_size 4936
  /- 25 -/ .write 6 29,  -- data_stream 4511
  /- 26 -/ .read 2 30,  -- *compressed_data_header 4344
  /- 27 -/ .choice [15, 31, 32],
  /- 28 -/ .choice [15, 16, 33],
  /- 29 -/ .write 5 34,  -- *data_stream 4510
  /- 30 -/ .choice [35, 36],
  /- 31 -/ .read 21 37,  -- inode 4457
  /- 32 -/ .read 16 38,  -- file_extents 4208
  /- 33 -/ .read 14 39,  -- extended_attributes_array 4947
  /- 34 -/ .choice [5, 6],
  /- 35 -/ .read 3 40,  -- compressed_data_header 4376
  /- 36 -/ .read 3 41,  -- compressed_data_header 4372
  /- 37 -/ .read 20 42,  -- *inode 4456
  /- 38 -/ .choice [15, 31, 43],
  /- 39 -/ .choice [15, 16, 44, 45],
  /- 40 -/ .read 2 46,  -- *compressed_data_header 4376
  /- 41 -/ .read 2 15,  -- *compressed_data_header 4372
  /- 42 -/ .choice [15, 47],
  /- 43 -/ .read 21 48,  -- inode 4220
  /- 44 -/ .read 1 49,  -- compressed_data_attribute_values 4963
  /- 45 -/ .read 14 50,  -- extended_attributes_array 1867
  /- 46 -/ .read 3 51,  -- compressed_data_header 4377
  /- 47 -/ .read 21 52,  -- inode 4471
  /- 48 -/ .read 20 53,  -- *inode 4219
  /- 49 -/ .choice [54, 55, 56],
  /- 50 -/ .choice [15, 16, 44, 57],
  /- 51 -/ .read 2 58,  -- *compressed_data_header 4377
  /- 52 -/ .read 20 59,  -- *inode 4470
  /- 53 -/ .choice [60, 61],
  /- 54 -/ .write 4 62,  -- data_size 5086
  /- 55 -/ .read 21 63,  -- inode 5072
  /- 56 -/ .read 1 64,  -- compressed_data_attribute_values 4966
  /- 57 -/ .read 21 65,  -- inode 1879
  /- 58 -/ .choice [66, 67],
  /- 59 -/ .choice [15, 68],
  /- 60 -/ .read 16 69,  -- file_extents 4269
  /- 61 -/ .read 16 70,  -- file_extents 4234
  /- 62 -/ .choice [15, 16],
  /- 63 -/ .read 20 71,  -- *inode 5071
  /- 64 -/ .read 23 72,  -- io_handle 4967
  /- 65 -/ .read 20 73,  -- *inode 1878
  /- 66 -/ .read 25 74,  -- resource_fork_attribute_values 4380
  /- 67 -/ .read 1 75,  -- compressed_data_attribute_values 4402
  /- 68 -/ .read 6 76,  -- data_stream 4487
  /- 69 -/ .choice [15, 31, 77],
  /- 70 -/ .write 16 78,  -- file_extents 4234
  /- 71 -/ .choice [15, 16, 54],
  /- 72 -/ .read 17 79,  -- file_io_handle 4968
  /- 73 -/ .choice [80, 81],
  /- 74 -/ .read 23 82,  -- io_handle 4381
  /- 75 -/ .read 23 83,  -- io_handle 4403
  /- 76 -/ .read 23 84,  -- io_handle 4488
  /- 77 -/ .read 16 85,  -- file_extents 4272
  /- 78 -/ .choice [60, 86],
  /- 79 -/ .read 12 87,  -- encryption_context 4969
  /- 80 -/ .read 14 88,  -- extended_attributes_array 2032
  /- 81 -/ .read 14 89,  -- extended_attributes_array 1893
  /- 82 -/ .read 17 90,  -- file_io_handle 4382
  /- 83 -/ .read 17 91,  -- file_io_handle 4404
  /- 84 -/ .read 12 92,  -- encryption_context 4489
  /- 85 -/ .write 16 93,  -- file_extents 4272
  /- 86 -/ .read 19 94,  -- file_system_btree 4248
  /- 87 -/ .read 19 95,  -- file_system_btree 4970
  /- 88 -/ .choice [15, 16, 44, 96],
  /- 89 -/ .write 14 97,  -- extended_attributes_array 1893
  /- 90 -/ .read 12 98,  -- encryption_context 4383
  /- 91 -/ .read 12 99,  -- encryption_context 4405
  /- 92 -/ .read 16 100,  -- file_extents 4490
  /- 93 -/ .write 15 101,  -- *file_extents 4271
  /- 94 -/ .read 17 102,  -- file_io_handle 4249
  /- 95 -/ .read 31 103,  -- transaction_identifier 4971
  /- 96 -/ .read 14 104,  -- extended_attributes_array 2035
  /- 97 -/ .choice [80, 105],
  /- 98 -/ .read 19 106,  -- file_system_btree 4384
  /- 99 -/ .read 19 107,  -- file_system_btree 4406
  /- 100 -/ .read 22 108,  -- *io_handle 4486
  /- 101 -/ .choice [15, 31],
  /- 102 -/ .read 31 109,  -- transaction_identifier 4251
  /- 103 -/ .read 0 110,  -- *compressed_data_attribute_values 4965
  /- 104 -/ .write 14 111,  -- extended_attributes_array 2035
  /- 105 -/ .read 19 112,  -- file_system_btree 1907
  /- 106 -/ .read 31 113,  -- transaction_identifier 4385
  /- 107 -/ .read 31 114,  -- transaction_identifier 4407
  /- 108 -/ .read 11 115,  -- *encryption_context 4486
  /- 109 -/ .read 16 116,  -- file_extents 4252
  /- 110 -/ .read 22 117,  -- *io_handle 4965
  /- 111 -/ .write 13 118,  -- *extended_attributes_array 2034
  /- 112 -/ .read 17 119,  -- file_io_handle 1908
  /- 113 -/ .read 24 120,  -- *resource_fork_attribute_values 4379
  /- 114 -/ .read 0 120,  -- *compressed_data_attribute_values 4401
  /- 115 -/ .read 15 121,  -- *file_extents 4486
  /- 116 -/ .write 18 122,  -- *file_system_btree 4247
  /- 117 -/ .read 11 123,  -- *encryption_context 4965
  /- 118 -/ .choice [15, 16, 44],
  /- 119 -/ .read 31 124,  -- transaction_identifier 1910
  /- 120 -/ .read 22 125,  -- *io_handle 4379
  /- 121 -/ .write 6 126,  -- data_stream 4422
  /- 122 -/ .write 15 127,  -- *file_extents 4247
  /- 123 -/ .write 18 128,  -- *file_system_btree 4965
  /- 124 -/ .read 14 129,  -- extended_attributes_array 1911
  /- 125 -/ .read 11 130,  -- *encryption_context 4379
  /- 126 -/ .choice [5, 6, 15],
  /- 127 -/ .choice [15, 31, 60],
  /- 128 -/ .choice [131, 132],
  /- 129 -/ .write 18 133,  -- *file_system_btree 1906
  /- 130 -/ .write 18 134,  -- *file_system_btree 4379
  /- 131 -/ .read 3 135,  -- compressed_data_header 5097
  /- 132 -/ .read 17 136,  -- file_io_handle 4987
  /- 133 -/ .write 13 137,  -- *extended_attributes_array 1906
  /- 134 -/ .choice [15, 138],
  /- 135 -/ .choice [15, 16, 139],
  /- 136 -/ .choice [15, 16, 131, 140],
  /- 137 -/ .choice [80, 141],
  /- 138 -/ .read 6 142,  -- data_stream 4422
  /- 139 -/ .read 3 143,  -- compressed_data_header 5100
  /- 140 -/ .read 3 144,  -- compressed_data_header 5019
  /- 141 -/ .read 14 145,  -- extended_attributes_array 1926
  /- 142 -/ .read 4 121,  -- data_size 4424
  /- 143 -/ .write 3 146,  -- compressed_data_header 5100
  /- 144 -/ .write 3 147,  -- compressed_data_header 5019
  /- 145 -/ .read 13 148,  -- *extended_attributes_array 1925
  /- 146 -/ .write 2 62,  -- *compressed_data_header 5099
  /- 147 -/ .choice [131, 149],
  /- 148 -/ .choice [15, 16, 44, 80, 150],
  /- 149 -/ .read 3 151,  -- compressed_data_header 5032
  /- 150 -/ .read 14 152,  -- extended_attributes_array 1944
  /- 151 -/ .write 2 153,  -- *compressed_data_header 5031
  /- 152 -/ .read 13 154,  -- *extended_attributes_array 1943
  /- 153 -/ .choice [131, 155, 156],
  /- 154 -/ .choice [15, 16, 44, 80, 157, 158, 159, 150],
  /- 155 -/ .read 3 160,  -- compressed_data_header 5050
  /- 156 -/ .read 3 161,  -- compressed_data_header 5055
  /- 157 -/ .write 27 162,  -- symbolic_link_attribute_values 2024
  /- 158 -/ .write 25 162,  -- resource_fork_attribute_values 2001
  /- 159 -/ .write 1 162,  -- compressed_data_attribute_values 1978
  /- 160 -/ .read 2 163,  -- *compressed_data_header 5050
  /- 161 -/ .write 3 164,  -- compressed_data_header 5055
  /- 162 -/ .choice [15, 16, 44, 150],
  /- 163 -/ .choice [54, 55],
  /- 164 -/ .write 2 165,  -- *compressed_data_header 5054
  /- 165 -/ .choice [131, 54, 55]]

/-- `libfsapfs_file_entry_seek_offset`, libfsapfs_file_entry.c:4716-4806 -/
def file_entry_seek_offset : Graph := [
  /- 0 -/ .choice [1, 2],
  /- 1 -/ .ret,
  /- 2 -/ .grab true 3 1,  -- 4740
  /- 3 -/ .read 6 4,  -- data_stream 4754
  /- 4 -/ .choice [5, 6, 7],
  /- 5 -/ .release 1,  -- 4791
  /- 6 -/ .read 6 8,  -- data_stream 4773
  /- 7 -/ .read 23 9,  -- io_handle 4304
  /- 8 -/ .write 5 5,  -- *data_stream 4772
  /- 9 -/ .choice [5, 6, 10],
  /- 10 -/ .read 6 11,  -- data_stream 4315
  /- 11 -/ .choice [5, 6, 12],
  /- 12 -/ .read 4 13,  -- data_size 4326
  /- 13 -/ .choice [14, 15, 16],
  /- 14 -/ .read 6 17,  -- data_stream 4508
  /- 15 -/ .read 3 18,  -- compressed_data_header 4342
  /- 16 -/ .read 3 19,  -- compressed_data_header 4925
  /- 17 -/ .choice [5, 6, 20],
  /- 18 -/ .choice [21, 22],
  /- 19 -/ .choice [14, 15, 23],
  /- 20 -/ .read 6 24,  -- data_stream 4511
  /- 21 -/ .read 3 25,  -- compressed_data_header 4344
  /- 22 -/ .read 16 26,  -- file_extents 4440
  /- 23 -/ .read 4 27,  -- data_size 4936
  /- 24 -/ .write 6 28,  -- data_stream 4511
  /- 25 -/ .read 2 29,  -- *compressed_data_header 4344
  /- 26 -/ .choice [14, 30, 31],
  /- 27 -/ .choice [14, 15, 32],
  /- 28 -/ .write 5 33,  -- *data_stream 4510
  /- 29 -/ .choice [34, 35],
  /- 30 -/ .read 21 36,  -- inode 4457
  /- 31 -/ .read 16 37,  -- file_extents 4208
  /- 32 -/ .read 14 38,  -- extended_attributes_array 4947
  /- 33 -/ .choice [5, 6],
  /- 34 -/ .read 3 39,  -- compressed_data_header 4376
  /- 35 -/ .read 3 40,  -- compressed_data_header 4372
  /- 36 -/ .read 20 41,  -- *inode 4456
  /- 37 -/ .choice [14, 30, 42],
  /- 38 -/ .choice [14, 15, 43, 44],
  /- 39 -/ .read 2 45,  -- *compressed_data_header 4376
  /- 40 -/ .read 2 14,  -- *compressed_data_header 4372
  /- 41 -/ .choice [14, 46],
  /- 42 -/ .read 21 47,  -- inode 4220
  /- 43 -/ .read 1 48,  -- compressed_data_attribute_values 4963
  /- 44 -/ .read 14 49,  -- extended_attributes_array 1867
  /- 45 -/ .read 3 50,  -- compressed_data_header 4377
  /- 46 -/ .read 21 51,  -- inode 4471
  /- 47 -/ .read 20 52,  -- *inode 4219
  /- 48 -/ .choice [53, 54, 55],
  /- 49 -/ .choice [14, 15, 43, 56],
  /- 50 -/ .read 2 57,  -- *compressed_data_header 4377
  /- 51 -/ .read 20 58,  -- *inode 4470
  /- 52 -/ .choice [59, 60],
  /- 53 -/ .write 4 61,  -- data_size 5086
  /- 54 -/ .read 21 62,  -- inode 5072
  /- 55 -/ .read 1 63,  -- compressed_data_attribute_values 4966
  /- 56 -/ .read 21 64,  -- inode 1879
  /- 57 -/ .choice [65, 66],
  /- 58 -/ .choice [14, 67],
  /- 59 -/ .read 16 68,  -- file_extents 4269
  /- 60 -/ .read 16 69,  -- file_extents 4234
  /- 61 -/ .choice [14, 15],
  /- 62 -/ .read 20 70,  -- *inode 5071
  /- 63 -/ .read 23 71,  -- io_handle 4967
  /- 64 -/ .read 20 72,  -- *inode 1878
  /- 65 -/ .read 25 73,  -- resource_fork_attribute_values 4380
  /- 66 -/ .read 1 74,  -- compressed_data_attribute_values 4402
  /- 67 -/ .read 6 75,  -- data_stream 4487
  /- 68 -/ .choice [14, 30, 76],
  /- 69 -/ .write 16 77,  -- file_extents 4234
  /- 70 -/ .choice [14, 15, 53],
  /- 71 -/ .read 17 78,  -- file_io_handle 4968
  /- 72 -/ .choice [79, 80],
  /- 73 -/ .read 23 81,  -- io_handle 4381
  /- 74 -/ .read 23 82,  -- io_handle 4403
  /- 75 -/ .read 23 83,  -- io_handle 4488
  /- 76 -/ .read 16 84,  -- file_extents 4272
  /- 77 -/ .choice [59, 85],
  /- 78 -/ .read 12 86,  -- encryption_context 4969
  /- 79 -/ .read 14 87,  -- extended_attributes_array 2032
  /- 80 -/ .read 14 88,  -- extended_attributes_array 1893
  /- 81 -/ .read 17 89,  -- file_io_handle 4382
  /- 82 -/ .read 17 90,  -- file_io_handle 4404
  /- 83 -/ .read 12 91,  -- encryption_context 4489
  /- 84 -/ .write 16 92,  -- file_extents 4272
  /- 85 -/ .read 19 93,  -- file_system_btree 4248
  /- 86 -/ .read 19 94,  -- file_system_btree 4970
  /- 87 -/ .choice [14, 15, 43, 95],
  /- 88 -/ .write 14 96,  -- extended_attributes_array 1893
  /- 89 -/ .read 12 97,  -- encryption_context 4383
  /- 90 -/ .read 12 98,  -- encryption_context 4405
  /- 91 -/ .read 16 99,  -- file_extents 4490
  /- 92 -/ .write 15 100,  -- *file_extents 4271
  /- 93 -/ .read 17 101,  -- file_io_handle 4249
  /- 94 -/ .read 31 102,  -- transaction_identifier 4971
  /- 95 -/ .read 14 103,  -- extended_attributes_array 2035
  /- 96 -/ .choice [79, 104],
  /- 97 -/ .read 19 105,  -- file_system_btree 4384
  /- 98 -/ .read 19 106,  -- file_system_btree 4406
  /- 99 -/ .read 22 107,  -- *io_handle 4486
  /- 100 -/ .choice [14, 30],
  /- 101 -/ .read 31 108,  -- transaction_identifier 4251
  /- 102 -/ .read 0 109,  -- *compressed_data_attribute_values 4965
  /- 103 -/ .write 14 110,  -- extended_attributes_array 2035
  /- 104 -/ .read 19 111,  -- file_system_btree 1907
  /- 105 -/ .read 31 112,  -- transaction_identifier 4385
  /- 106 -/ .read 31 113,  -- transaction_identifier 4407
  /- 107 -/ .read 11 114,  -- *encryption_context 4486
  /- 108 -/ .read 16 115,  -- file_extents 4252
  /- 109 -/ .read 22 116,  -- *io_handle 4965
  /- 110 -/ .write 13 117,  -- *extended_attributes_array 2034
  /- 111 -/ .read 17 118,  -- file_io_handle 1908
  /- 112 -/ .read 24 119,  -- *resource_fork_attribute_values 4379
  /- 113 -/ .read 0 119,  -- *compressed_data_attribute_values 4401
  /- 114 -/ .read 15 120,  -- *file_extents 4486
  /- 115 -/ .write 18 121,  -- *file_system_btree 4247
  /- 116 -/ .read 11 122,  -- *encryption_context 4965
  /- 117 -/ .choice [14, 15, 43],
  /- 118 -/ .read 31 123,  -- transaction_identifier 1910
  /- 119 -/ .read 22 124,  -- *io_handle 4379
  /- 120 -/ .write 6 125,  -- data_stream 4422
  /- 121 -/ .write 15 126,  -- *file_extents 4247
  /- 122 -/ .write 18 127,  -- *file_system_btree 4965
  /- 123 -/ .read 14 128,  -- extended_attributes_array 1911
  /- 124 -/ .read 11 129,  -- *encryption_context 4379
  /- 125 -/ .choice [5, 6, 14],
  /- 126 -/ .choice [14, 30, 59],
  /- 127 -/ .choice [130, 131],
  /- 128 -/ .write 18 132,  -- *file_system_btree 1906
  /- 129 -/ .write 18 133,  -- *file_system_btree 4379
  /- 130 -/ .read 3 134,  -- compressed_data_header 5097
  /- 131 -/ .read 17 135,  -- file_io_handle 4987
  /- 132 -/ .write 13 136,  -- *extended_attributes_array 1906
  /- 133 -/ .choice [14, 137],
  /- 134 -/ .choice [14, 15, 138],
  /- 135 -/ .choice [14, 15, 130, 139],
  /- 136 -/ .choice [79, 140],
  /- 137 -/ .read 6 141,  -- data_stream 4422
  /- 138 -/ .read 3 142,  -- compressed_data_header 5100
  /- 139 -/ .read 3 143,  -- compressed_data_header 5019
  /- 140 -/ .read 14 144,  -- extended_attributes_array 1926
  /- 141 -/ .read 4 120,  -- data_size 4424
  /- 142 -/ .write 3 145,  -- compressed_data_header 5100
  /- 143 -/ .write 3 146,  -- compressed_data_header 5019
  /- 144 -/ .read 13 147,  -- *extended_attributes_array 1925
  /- 145 -/ .write 2 61,  -- *compressed_data_header 5099
  /- 146 -/ .choice [130, 148],
  /- 147 -/ .choice [14, 15, 43, 79, 149],
  /- 148 -/ .read 3 150,  -- compressed_data_header 5032
  /- 149 -/ .read 14 151,  -- extended_attributes_array 1944
  /- 150 -/ .write 2 152,  -- *compressed_data_header 5031
  /- 151 -/ .read 13 153,  -- *extended_attributes_array 1943
  /- 152 -/ .choice [130, 154, 155],
  /- 153 -/ .choice [14, 15, 43, 79, 156, 157, 158, 149],
  /- 154 -/ .read 3 159,  -- compressed_data_header 5050
  /- 155 -/ .read 3 160,  -- compressed_data_header 5055
  /- 156 -/ .write 27 161,  -- symbolic_link_attribute_values 2024
  /- 157 -/ .write 25 161,  -- resource_fork_attribute_values 2001
  /- 158 -/ .write 1 161,  -- compressed_data_attribute_values 1978
  /- 159 -/ .read 2 162,  -- *compressed_data_header 5050
  /- 160 -/ .write 3 163,  -- compressed_data_header 5055
  /- 161 -/ .choice [14, 15, 43, 149],
  /- 162 -/ .choice [53, 54],
  /- 163 -/ .write 2 164,  -- *compressed_data_header 5054
  /- 164 -/ .choice [130, 53, 54]]

/-- `libfsapfs_file_entry_get_offset`, libfsapfs_file_entry.c:4811-4897 -/
def file_entry_get_offset : Graph := [
  /- 0 -/ .choice [1, 2],
  /- 1 -/ .ret,
  /- 2 -/ .grab true 3 1,  -- 4834
  /- 3 -/ .read 6 4,  -- data_stream 4848
  /- 4 -/ .choice [5, 6, 7],
  /- 5 -/ .release 1,  -- 4882
  /- 6 -/ .read 6 8,  -- data_stream 4867
  /- 7 -/ .read 23 9,  -- io_handle 4304
  /- 8 -/ .read 5 5,  -- *data_stream 4866
  /- 9 -/ .choice [5, 6, 10],
  /- 10 -/ .read 6 11,  -- data_stream 4315
  /- 11 -/ .choice [5, 6, 12],
  /- 12 -/ .read 4 13,  -- data_size 4326
  /- 13 -/ .choice [14, 15, 16],
  /- 14 -/ .read 6 17,  -- data_stream 4508
  /- 15 -/ .read 3 18,  -- compressed_data_header 4342
  /- 16 -/ .read 3 19,  -- compressed_data_header 4925
  /- 17 -/ .choice [5, 6, 20],
  /- 18 -/ .choice [21, 22],
  /- 19 -/ .choice [14, 15, 23],
  /- 20 -/ .read 6 24,  -- data_stream 4511
  /- 21 -/ .read 3 25,  -- compressed_data_header 4344
  /- 22 -/ .read 16 26,  -- file_extents 4440
  /- 23 -/ .read 4 27,  -- data_size 4936
  /- 24 -/ .write 6 28,  -- data_stream 4511
  /- 25 -/ .read 2 29,  -- *compressed_data_header 4344
  /- 26 -/ .choice [14, 30, 31],
  /- 27 -/ .choice [14, 15, 32],
  /- 28 -/ .write 5 33,  -- *data_stream 4510
  /- 29 -/ .choice [34, 35],
  /- 30 -/ .read 21 36,  -- inode 4457
  /- 31 -/ .read 16 37,  -- file_extents 4208
  /- 32 -/ .read 14 38,  -- extended_attributes_array 4947
  /- 33 -/ .choice [5, 6],
  /- 34 -/ .read 3 39,  -- compressed_data_header 4376
  /- 35 -/ .read 3 40,  -- compressed_data_header 4372
  /- 36 -/ .read 20 41,  -- *inode 4456
  /- 37 -/ .choice [14, 30, 42],
  /- 38 -/ .choice [14, 15, 43, 44],
  /- 39 -/ .read 2 45,  -- *compressed_data_header 4376
  /- 40 -/ .read 2 14,  -- *compressed_data_header 4372
  /- 41 -/ .choice [14, 46],
  /- 42 -/ .read 21 47,  -- inode 4220
  /- 43 -/ .read 1 48,  -- compressed_data_attribute_values 4963
  /- 44 -/ .read 14 49,  -- extended_attributes_array 1867
  /- 45 -/ .read 3 50,  -- compressed_data_header 4377
  /- 46 -/ .read 21 51,  -- inode 4471
  /- 47 -/ .read 20 52,  -- *inode 4219
  /- 48 -/ .choice [53, 54, 55],
  /- 49 -/ .choice [14, 15, 43, 56],
  /- 50 -/ .read 2 57,  -- *compressed_data_header 4377
  /- 51 -/ .read 20 58,  -- *inode 4470
  /- 52 -/ .choice [59, 60],
  /- 53 -/ .write 4 61,  -- data_size 5086
  /- 54 -/ .read 21 62,  -- inode 5072
  /- 55 -/ .read 1 63,  -- compressed_data_attribute_values 4966
  /- 56 -/ .read 21 64,  -- inode 1879
  /- 57 -/ .choice [65, 66],
  /- 58 -/ .choice [14, 67],
  /- 59 -/ .read 16 68,  -- file_extents 4269
  /- 60 -/ .read 16 69,  -- file_extents 4234
  /- 61 -/ .choice [14, 15],
  /- 62 -/ .read 20 70,  -- *inode 5071
  /- 63 -/ .read 23 71,  -- io_handle 4967
  /- 64 -/ .read 20 72,  -- *inode 1878
  /- 65 -/ .read 25 73,  -- resource_fork_attribute_values 4380
  /- 66 -/ .read 1 74,  -- compressed_data_attribute_values 4402
  /- 67 -/ .read 6 75,  -- data_stream 4487
  /- 68 -/ .choice [14, 30, 76],
  /- 69 -/ .write 16 77,  -- file_extents 4234
  /- 70 -/ .choice [14, 15, 53],
  /- 71 -/ .read 17 78,  -- file_io_handle 4968
  /- 72 -/ .choice [79, 80],
  /- 73 -/ .read 23 81,  -- io_handle 4381
  /- 74 -/ .read 23 82,  -- io_handle 4403
  /- 75 -/ .read 23 83,  -- io_handle 4488
  /- 76 -/ .read 16 84,  -- file_extents 4272
  /- 77 -/ .choice [59, 85],
  /- 78 -/ .read 12 86,  -- encryption_context 4969
  /- 79 -/ .read 14 87,  -- extended_attributes_array 2032
  /- 80 -/ .read 14 88,  -- extended_attributes_array 1893
  /- 81 -/ .read 17 89,  -- file_io_handle 4382
  /- 82 -/ .read 17 90,  -- file_io_handle 4404
  /- 83 -/ .read 12 91,  -- encryption_context 4489
  /- 84 -/ .write 16 92,  -- file_extents 4272
  /- 85 -/ .read 19 93,  -- file_system_btree 4248
  /- 86 -/ .read 19 94,  -- file_system_btree 4970
  /- 87 -/ .choice [14, 15, 43, 95],
  /- 88 -/ .write 14 96,  -- extended_attributes_array 1893
  /- 89 -/ .read 12 97,  -- encryption_context 4383
  /- 90 -/ .read 12 98,  -- encryption_context 4405
  /- 91 -/ .read 16 99,  -- file_extents 4490
  /- 92 -/ .write 15 100,  -- *file_extents 4271
  /- 93 -/ .read 17 101,  -- file_io_handle 4249
  /- 94 -/ .read 31 102,  -- transaction_identifier 4971
  /- 95 -/ .read 14 103,  -- extended_attributes_array 2035
  /- 96 -/ .choice [79, 104],
  /- 97 -/ .read 19 105,  -- file_system_btree 4384
  /- 98 -/ .read 19 106,  -- file_system_btree 4406
  /- 99 -/ .read 22 107,  -- *io_handle 4486
  /- 100 -/ .choice [14, 30],
  /- 101 -/ .read 31 108,  -- transaction_identifier 4251
  /- 102 -/ .read 0 109,  -- *compressed_data_attribute_values 4965
  /- 103 -/ .write 14 110,  -- extended_attributes_array 2035
  /- 104 -/ .read 19 111,  -- file_system_btree 1907
  /- 105 -/ .read 31 112,  -- transaction_identifier 4385
  /- 106 -/ .read 31 113,  -- transaction_identifier 4407
  /- 107 -/ .read 11 114,  -- *encryption_context 4486
  /- 108 -/ .read 16 115,  -- file_extents 4252
  /- 109 -/ .read 22 116,  -- *io_handle 4965
  /- 110 -/ .write 13 117,  -- *extended_attributes_array 2034
  /- 111 -/ .read 17 118,  -- file_io_handle 1908
  /- 112 -/ .read 24 119,  -- *resource_fork_attribute_values 4379
  /- 113 -/ .read 0 119,  -- *compressed_data_attribute_values 4401
  /- 114 -/ .read 15 120,  -- *file_extents 4486
  /- 115 -/ .write 18 121,  -- *file_system_btree 4247
  /- 116 -/ .read 11 122,  -- *encryption_context 4965
  /- 117 -/ .choice [14, 15, 43],
  /- 118 -/ .read 31 123,  -- transaction_identifier 1910
  /- 119 -/ .read 22 124,  -- *io_handle 4379
  /- 120 -/ .write 6 125,  -- data_stream 4422
  /- 121 -/ .write 15 126,  -- *file_extents 4247
  /- 122 -/ .write 18 127,  -- *file_system_btree 4965
  /- 123 -/ .read 14 128,  -- extended_attributes_array 1911
  /- 124 -/ .read 11 129,  -- *encryption_context 4379
  /- 125 -/ .choice [5, 6, 14],
  /- 126 -/ .choice [14, 30, 59],
  /- 127 -/ .choice [130, 131],
  /- 128 -/ .write 18 132,  -- *file_system_btree 1906
  /- 129 -/ .write 18 133,  -- *file_system_btree 4379
  /- 130 -/ .read 3 134,  -- compressed_data_header 5097
  /- 131 -/ .read 17 135,  -- file_io_handle 4987
  /- 132 -/ .write 13 136,  -- *extended_attributes_array 1906
  /- 133 -/ .choice [14, 137],
  /- 134 -/ .choice [14, 15, 138],
  /- 135 -/ .choice [14, 15, 130, 139],
  /- 136 -/ .choice [79, 140],
  /- 137 -/ .read 6 141,  -- data_stream 4422
  /- 138 -/ .read 3 142,  -- compressed_data_header 5100
  /- 139 -/ .read 3 143,  -- compressed_data_header 5019
  /- 140 -/ .read 14 144,  -- extended_attributes_array 1926
  /- 141 -/ .read 4 120,  -- data_size 4424
  /- 142 -/ .write 3 145,  -- compressed_data_header 5100
  /- 143 -/ .write 3 146,  -- compressed_data_header 5019
  /- 144 -/ .read 13 147,  -- *extended_attributes_array 1925
  /- 145 -/ .write 2 61,  -- *compressed_data_header 5099
  /- 146 -/ .choice [130, 148],
  /- 147 -/ .choice [14, 15, 43, 79, 149],
  /- 148 -/ .read 3 150,  -- compressed_data_header 5032
  /- 149 -/ .read 14 151,  -- extended_attributes_array 1944
  /- 150 -/ .write 2 152,  -- *compressed_data_header 5031
  /- 151 -/ .read 13 153,  -- *extended_attributes_array 1943
  /- 152 -/ .choice [130, 154, 155],
  /- 153 -/ .choice [14, 15, 43, 79, 156, 157, 158, 149],
  /- 154 -/ .read 3 159,  -- compressed_data_header 5050
  /- 155 -/ .read 3 160,  -- compressed_data_header 5055
  /- 156 -/ .write 27 161,  -- symbolic_link_attribute_values 2024
  /- 157 -/ .write 25 161,  -- resource_fork_attribute_values 2001
  /- 158 -/ .write 1 161,  -- compressed_data_attribute_values 1978
  /- 159 -/ .read 2 162,  -- *compressed_data_header 5050
  /- 160 -/ .write 3 163,  -- compressed_data_header 5055
  /- 161 -/ .choice [14, 15, 43, 149],
  /- 162 -/ .choice [53, 54],
  /- 163 -/ .write 2 164,  -- *compressed_data_header 5054
  /- 164 -/ .choice [130, 53, 54]]

/-- `libfsapfs_file_entry_get_size`, libfsapfs_file_entry.c:5109-5193 -/
def file_entry_get_size : Graph := [
  /- 0 -/ .choice [1, 2],
  /- 1 -/ .ret,
  /- 2 -/ .grab true 3 1,  -- 5143
  /- 3 -/ .read 4 4,  -- data_size 5157
  /- 4 -/ .choice [5, 6, 7],
  /- 5 -/ .release 1,  -- 5178
  /- 6 -/ .read 4 5,  -- data_size 5175
  /- 7 -/ .read 3 8,  -- compressed_data_header 4925
  /- 8 -/ .choice [5, 6, 9],
  /- 9 -/ .read 4 10,  -- data_size 4936
  /- 10 -/ .choice [5, 6, 11],
  /- 11 -/ .read 14 12,  -- extended_attributes_array 4947
  /- 12 -/ .choice [5, 6, 13, 14],
  /- 13 -/ .read 1 15,  -- compressed_data_attribute_values 4963
  /- 14 -/ .read 14 16,  -- extended_attributes_array 1867
  /- 15 -/ .choice [17, 18, 19],
  /- 16 -/ .choice [5, 6, 13, 20],
  /- 17 -/ .write 4 21,  -- data_size 5086
  /- 18 -/ .read 21 22,  -- inode 5072
  /- 19 -/ .read 1 23,  -- compressed_data_attribute_values 4966
  /- 20 -/ .read 21 24,  -- inode 1879
  /- 21 -/ .choice [5, 6],
  /- 22 -/ .read 20 25,  -- *inode 5071
  /- 23 -/ .read 23 26,  -- io_handle 4967
  /- 24 -/ .read 20 27,  -- *inode 1878
  /- 25 -/ .choice [5, 6, 17],
  /- 26 -/ .read 17 28,  -- file_io_handle 4968
  /- 27 -/ .choice [29, 30],
  /- 28 -/ .read 12 31,  -- encryption_context 4969
  /- 29 -/ .read 14 32,  -- extended_attributes_array 2032
  /- 30 -/ .read 14 33,  -- extended_attributes_array 1893
  /- 31 -/ .read 19 34,  -- file_system_btree 4970
  /- 32 -/ .choice [5, 6, 13, 35],
  /- 33 -/ .write 14 36,  -- extended_attributes_array 1893
  /- 34 -/ .read 31 37,  -- transaction_identifier 4971
  /- 35 -/ .read 14 38,  -- extended_attributes_array 2035
  /- 36 -/ .choice [29, 39],
  /- 37 -/ .read 0 40,  -- *compressed_data_attribute_values 4965
  /- 38 -/ .write 14 41,  -- extended_attributes_array 2035
  /- 39 -/ .read 19 42,  -- file_system_btree 1907
  /- 40 -/ .read 22 43,  -- *io_handle 4965
  /- 41 -/ .write 13 44,  -- *extended_attributes_array 2034
  /- 42 -/ .read 17 45,  -- file_io_handle 1908
  /- 43 -/ .read 11 46,  -- *encryption_context 4965
  /- 44 -/ .choice [5, 6, 13],
  /- 45 -/ .read 31 47,  -- transaction_identifier 1910
  /- 46 -/ .write 18 48,  -- *file_system_btree 4965
  /- 47 -/ .read 14 49,  -- extended_attributes_array 1911
  /- 48 -/ .choice [50, 51],
  /- 49 -/ .write 18 52,  -- *file_system_btree 1906
  /- 50 -/ .read 3 53,  -- compressed_data_header 5097
  /- 51 -/ .read 17 54,  -- file_io_handle 4987
  /- 52 -/ .write 13 55,  -- *extended_attributes_array 1906
  /- 53 -/ .choice [5, 6, 56],
  /- 54 -/ .choice [5, 6, 50, 57],
  /- 55 -/ .choice [29, 58],
  /- 56 -/ .read 3 59,  -- compressed_data_header 5100
  /- 57 -/ .read 3 60,  -- compressed_data_header 5019
  /- 58 -/ .read 14 61,  -- extended_attributes_array 1926
  /- 59 -/ .write 3 62,  -- compressed_data_header 5100
  /- 60 -/ .write 3 63,  -- compressed_data_header 5019
  /- 61 -/ .read 13 64,  -- *extended_attributes_array 1925
  /- 62 -/ .write 2 21,  -- *compressed_data_header 5099
  /- 63 -/ .choice [50, 65],
  /- 64 -/ .choice [5, 6, 13, 29, 66],
  /- 65 -/ .read 3 67,  -- compressed_data_header 5032
  /- 66 -/ .read 14 68,  -- extended_attributes_array 1944
  /- 67 -/ .write 2 69,  -- *compressed_data_header 5031
  /- 68 -/ .read 13 70,  -- *extended_attributes_array 1943
  /- 69 -/ .choice [50, 71, 72],
  /- 70 -/ .choice [5, 6, 13, 29, 73, 74, 75, 66],
  /- 71 -/ .read 3 76,  -- compressed_data_header 5050
  /- 72 -/ .read 3 77,  -- compressed_data_header 5055
  /- 73 -/ .write 27 78,  -- symbolic_link_attribute_values 2024
  /- 74 -/ .write 25 78,  -- resource_fork_attribute_values 2001
  /- 75 -/ .write 1 78,  -- compressed_data_attribute_values 1978
  /- 76 -/ .read 2 79,  -- *compressed_data_header 5050
  /- 77 -/ .write 3 80,  -- compressed_data_header 5055
  /- 78 -/ .choice [5, 6, 13, 66],
  /- 79 -/ .choice [17, 18],
  /- 80 -/ .write 2 81,  -- *compressed_data_header 5054
  /- 81 -/ .choice [50, 17, 18]]

/-- `libfsapfs_file_entry_get_number_of_extents`, libfsapfs_file_entry.c:5198-5284 -/
def file_entry_get_number_of_extents : Graph := [
  /- 0 -/ .choice [1, 2],
  /- 1 -/ .ret,
  /- 2 -/ .grab true 3 1,  -- 5221
  /- 3 -/ .read 16 4,  -- file_extents 5235
  /- 4 -/ .choice [5, 6, 7],
  /- 5 -/ .release 1,  -- 5269
  /- 6 -/ .read 16 8,  -- file_extents 5254
  /- 7 -/ .read 16 9,  -- file_extents 4208
  /- 8 -/ .read 15 5,  -- *file_extents 5253
  /- 9 -/ .choice [5, 6, 10],
  /- 10 -/ .read 21 11,  -- inode 4220
  /- 11 -/ .read 20 12,  -- *inode 4219
  /- 12 -/ .choice [13, 14],
  /- 13 -/ .read 16 15,  -- file_extents 4269
  /- 14 -/ .read 16 16,  -- file_extents 4234
  /- 15 -/ .choice [5, 6, 17],
  /- 16 -/ .write 16 18,  -- file_extents 4234
  /- 17 -/ .read 16 19,  -- file_extents 4272
  /- 18 -/ .choice [13, 20],
  /- 19 -/ .write 16 21,  -- file_extents 4272
  /- 20 -/ .read 19 22,  -- file_system_btree 4248
  /- 21 -/ .write 15 23,  -- *file_extents 4271
  /- 22 -/ .read 17 24,  -- file_io_handle 4249
  /- 23 -/ .choice [5, 6],
  /- 24 -/ .read 31 25,  -- transaction_identifier 4251
  /- 25 -/ .read 16 26,  -- file_extents 4252
  /- 26 -/ .write 18 27,  -- *file_system_btree 4247
  /- 27 -/ .write 15 28,  -- *file_extents 4247
  /- 28 -/ .choice [5, 6, 13]]

/-- `libfsapfs_file_entry_get_extent_by_index`, libfsapfs_file_entry.c:5289-5443 -/
def file_entry_get_extent_by_index : Graph := [
  /- 0 -/ .choice [1, 2],
  /- 1 -/ .ret,
  /- 2 -/ .read 23 3,  -- io_handle 5315
  /- 3 -/ .choice [1, 4],
  /- 4 -/ .grab true 5 1,  -- 5360
  /- 5 -/ .read 16 6,  -- file_extents 5374
  /- 6 -/ .choice [7, 8, 9],
  /- 7 -/ .release 1,  -- 5428
  /- 8 -/ .read 16 10,  -- file_extents 5393
  /- 9 -/ .read 16 11,  -- file_extents 4208
  /- 10 -/ .read 15 12,  -- *file_extents 5392
  /- 11 -/ .choice [7, 8, 13],
  /- 12 -/ .choice [7, 14],
  /- 13 -/ .read 21 15,  -- inode 4220
  /- 14 -/ .read 23 16,  -- io_handle 5422
  /- 15 -/ .read 20 17,  -- *inode 4219
  /- 16 -/ .read 22 7,  -- *io_handle 5422
  /- 17 -/ .choice [18, 19],
  /- 18 -/ .read 16 20,  -- file_extents 4269
  /- 19 -/ .read 16 21,  -- file_extents 4234
  /- 20 -/ .choice [7, 8, 22],
  /- 21 -/ .write 16 23,  -- file_extents 4234
  /- 22 -/ .read 16 24,  -- file_extents 4272
  /- 23 -/ .choice [18, 25],
  /- 24 -/ .write 16 26,  -- file_extents 4272
  /- 25 -/ .read 19 27,  -- file_system_btree 4248
  /- 26 -/ .write 15 28,  -- *file_extents 4271
  /- 27 -/ .read 17 29,  -- file_io_handle 4249
  /- 28 -/ .choice [7, 8],
  /- 29 -/ .read 31 30,  -- transaction_identifier 4251
  /- 30 -/ .read 16 31,  -- file_extents 4252
  /- 31 -/ .write 18 32,  -- *file_system_btree 4247
  /- 32 -/ .write 15 33,  -- *file_extents 4247
  /- 33 -/ .choice [7, 8, 18]]

/-- the functions of a file entry -/
def api : List (String × Graph) :=
  [("libfsapfs_file_entry_get_identifier", file_entry_get_identifier),
   ("libfsapfs_file_entry_get_parent_identifier", file_entry_get_parent_identifier),
   ("libfsapfs_file_entry_get_parent_file_entry", file_entry_get_parent_file_entry),
   ("libfsapfs_file_entry_get_creation_time", file_entry_get_creation_time),
   ("libfsapfs_file_entry_get_modification_time", file_entry_get_modification_time),
   ("libfsapfs_file_entry_get_access_time", file_entry_get_access_time),
   ("libfsapfs_file_entry_get_inode_change_time", file_entry_get_inode_change_time),
   ("libfsapfs_file_entry_get_added_time", file_entry_get_added_time),
   ("libfsapfs_file_entry_get_owner_identifier", file_entry_get_owner_identifier),
   ("libfsapfs_file_entry_get_group_identifier", file_entry_get_group_identifier),
   ("libfsapfs_file_entry_get_device_identifier", file_entry_get_device_identifier),
   ("libfsapfs_file_entry_get_device_number", file_entry_get_device_number),
   ("libfsapfs_file_entry_get_file_mode", file_entry_get_file_mode),
   ("libfsapfs_file_entry_get_number_of_links", file_entry_get_number_of_links),
   ("libfsapfs_file_entry_get_utf8_name_size", file_entry_get_utf8_name_size),
   ("libfsapfs_file_entry_get_utf8_name", file_entry_get_utf8_name),
   ("libfsapfs_file_entry_get_utf16_name_size", file_entry_get_utf16_name_size),
   ("libfsapfs_file_entry_get_utf16_name", file_entry_get_utf16_name),
   ("libfsapfs_file_entry_get_utf8_symbolic_link_target_size", file_entry_get_utf8_symbolic_link_target_size),
   ("libfsapfs_file_entry_get_utf8_symbolic_link_target", file_entry_get_utf8_symbolic_link_target),
   ("libfsapfs_file_entry_get_utf16_symbolic_link_target_size", file_entry_get_utf16_symbolic_link_target_size),
   ("libfsapfs_file_entry_get_utf16_symbolic_link_target", file_entry_get_utf16_symbolic_link_target),
   ("libfsapfs_file_entry_get_number_of_extended_attributes", file_entry_get_number_of_extended_attributes),
   ("libfsapfs_file_entry_get_extended_attribute_by_index", file_entry_get_extended_attribute_by_index),
   ("libfsapfs_file_entry_has_extended_attribute_by_utf8_name", file_entry_has_extended_attribute_by_utf8_name),
   ("libfsapfs_file_entry_has_extended_attribute_by_utf16_name", file_entry_has_extended_attribute_by_utf16_name),
   ("libfsapfs_file_entry_get_extended_attribute_by_utf8_name", file_entry_get_extended_attribute_by_utf8_name),
   ("libfsapfs_file_entry_get_extended_attribute_by_utf16_name", file_entry_get_extended_attribute_by_utf16_name),
   ("libfsapfs_file_entry_get_number_of_sub_file_entries", file_entry_get_number_of_sub_file_entries),
   ("libfsapfs_file_entry_get_sub_file_entry_by_index", file_entry_get_sub_file_entry_by_index),
   ("libfsapfs_file_entry_get_sub_file_entry_by_utf8_name", file_entry_get_sub_file_entry_by_utf8_name),
   ("libfsapfs_file_entry_get_sub_file_entry_by_utf16_name", file_entry_get_sub_file_entry_by_utf16_name),
   ("libfsapfs_file_entry_read_buffer", file_entry_read_buffer),
   ("libfsapfs_file_entry_read_buffer_at_offset", file_entry_read_buffer_at_offset),
   ("libfsapfs_file_entry_seek_offset", file_entry_seek_offset),
   ("libfsapfs_file_entry_get_offset", file_entry_get_offset),
   ("libfsapfs_file_entry_get_size", file_entry_get_size),
   ("libfsapfs_file_entry_get_number_of_extents", file_entry_get_number_of_extents),
   ("libfsapfs_file_entry_get_extent_by_index", file_entry_get_extent_by_index)]

end FileEntry

namespace ExtendedAttribute

/-- the places of an extended attribute (struct libfsapfs_internal_extended_attribute in libfsapfs_extended_attribute.h) -/
def names : List String :=
  ["*attribute_values", "attribute_values", "*data_stream", "data_stream",
   "*encryption_context", "encryption_context", "file_io_handle", "*file_system_btree",
   "file_system_btree", "identifier", "*io_handle", "io_handle",
   "transaction_identifier"]

/-- `libfsapfs_extended_attribute_get_identifier`, libfsapfs_extended_attribute.c:282-347 -/
def extended_attribute_get_identifier : Graph := [
  /- 0 -/ .choice [1, 2],
  /- 1 -/ .ret,
  /- 2 -/ .grab false 3 1,  -- 315
  /- 3 -/ .read 9 4,  -- identifier 329
  /- 4 -/ .release 1]  -- 332

/-- `libfsapfs_extended_attribute_get_utf8_name_size`, libfsapfs_extended_attribute.c:353-420 -/
def extended_attribute_get_utf8_name_size : Graph := [
  /- 0 -/ .choice [1, 2],
  /- 1 -/ .ret,
  /- 2 -/ .grab false 3 1,  -- 376
  /- 3 -/ .read 1 4,  -- attribute_values 391
  /- 4 -/ .read 0 5,  -- *attribute_values 390
  /- 5 -/ .release 1]  -- 405

/-- `libfsapfs_extended_attribute_get_utf8_name`, libfsapfs_extended_attribute.c:426-495 -/
def extended_attribute_get_utf8_name : Graph := [
  /- 0 -/ .choice [1, 2],
  /- 1 -/ .ret,
  /- 2 -/ .grab false 3 1,  -- 450
  /- 3 -/ .read 1 4,  -- attribute_values 465
  /- 4 -/ .read 0 5,  -- *attribute_values 464
  /- 5 -/ .release 1]  -- 480

/-- `libfsapfs_extended_attribute_get_utf16_name_size`, libfsapfs_extended_attribute.c:501-568 -/
def extended_attribute_get_utf16_name_size : Graph := [
  /- 0 -/ .choice [1, 2],
  /- 1 -/ .ret,
  /- 2 -/ .grab false 3 1,  -- 524
  /- 3 -/ .read 1 4,  -- attribute_values 539
  /- 4 -/ .read 0 5,  -- *attribute_values 538
  /- 5 -/ .release 1]  -- 553

/-- `libfsapfs_extended_attribute_get_utf16_name`, libfsapfs_extended_attribute.c:574-643 -/
def extended_attribute_get_utf16_name : Graph := [
  /- 0 -/ .choice [1, 2],
  /- 1 -/ .ret,
  /- 2 -/ .grab false 3 1,  -- 598
  /- 3 -/ .read 1 4,  -- attribute_values 613
  /- 4 -/ .read 0 5,  -- *attribute_values 612
  /- 5 -/ .release 1]  -- 628

/-- `libfsapfs_extended_attribute_read_buffer`, libfsapfs_extended_attribute.c:701-793 -/
def extended_attribute_read_buffer : Graph := [
  /- 0 -/ .choice [1, 2],
  /- 1 -/ .ret,
  /- 2 -/ .grab true 3 1,  -- 725
  /- 3 -/ .read 3 4,  -- data_stream 739
  /- 4 -/ .choice [5, 6],
  /- 5 -/ .read 3 7,  -- data_stream 755
  /- 6 -/ .read 3 8,  -- data_stream 665
  /- 7 -/ .choice [9, 10],
  /- 8 -/ .choice [5, 11],
  /- 9 -/ .release 1,  -- 778
  /- 10 -/ .read 3 12,  -- data_stream 758
  /- 11 -/ .read 1 13,  -- attribute_values 677
  /- 12 -/ .read 6 14,  -- file_io_handle 759
  /- 13 -/ .read 11 15,  -- io_handle 678
  /- 14 -/ .write 2 9,  -- *data_stream 757
  /- 15 -/ .read 6 16,  -- file_io_handle 679
  /- 16 -/ .read 5 17,  -- encryption_context 680
  /- 17 -/ .read 8 18,  -- file_system_btree 681
  /- 18 -/ .read 12 19,  -- transaction_identifier 682
  /- 19 -/ .read 3 20,  -- data_stream 683
  /- 20 -/ .read 0 21,  -- *attribute_values 676
  /- 21 -/ .read 10 22,  -- *io_handle 676
  /- 22 -/ .read 4 23,  -- *encryption_context 676
  /- 23 -/ .write 3 24,  -- data_stream 683
  /- 24 -/ .write 7 5]  -- *file_system_btree 676

/-- `libfsapfs_extended_attribute_read_buffer_at_offset`, libfsapfs_extended_attribute.c:798-892 -/
def extended_attribute_read_buffer_at_offset : Graph := [
  /- 0 -/ .choice [1, 2],
  /- 1 -/ .ret,
  /- 2 -/ .grab true 3 1,  -- 823
  /- 3 -/ .read 3 4,  -- data_stream 837
  /- 4 -/ .choice [5, 6],
  /- 5 -/ .read 3 7,  -- data_stream 853
  /- 6 -/ .read 3 8,  -- data_stream 665
  /- 7 -/ .choice [9, 10],
  /- 8 -/ .choice [5, 11],
  /- 9 -/ .release 1,  -- 877
  /- 10 -/ .read 3 12,  -- data_stream 856
  /- 11 -/ .read 1 13,  -- attribute_values 677
  /- 12 -/ .read 6 14,  -- file_io_handle 857
  /- 13 -/ .read 11 15,  -- io_handle 678
  /- 14 -/ .write 2 9,  -- *data_stream 855
  /- 15 -/ .read 6 16,  -- file_io_handle 679
  /- 16 -/ .read 5 17,  -- encryption_context 680
  /- 17 -/ .read 8 18,  -- file_system_btree 681
  /- 18 -/ .read 12 19,  -- transaction_identifier 682
  /- 19 -/ .read 3 20,  -- data_stream 683
  /- 20 -/ .read 0 21,  -- *attribute_values 676
  /- 21 -/ .read 10 22,  -- *io_handle 676
  /- 22 -/ .read 4 23,  -- *encryption_context 676
  /- 23 -/ .write 3 24,  -- data_stream 683
  /- 24 -/ .write 7 5]  -- *file_system_btree 676

/-- `libfsapfs_extended_attribute_seek_offset`, libfsapfs_extended_attribute.c:897-986 -/
def extended_attribute_seek_offset : Graph := [
  /- 0 -/ .choice [1, 2],
  /- 1 -/ .ret,
  /- 2 -/ .grab true 3 1,  -- 920
  /- 3 -/ .read 3 4,  -- data_stream 934
  /- 4 -/ .choice [5, 6],
  /- 5 -/ .read 3 7,  -- data_stream 950
  /- 6 -/ .read 3 8,  -- data_stream 665
  /- 7 -/ .choice [9, 10],
  /- 8 -/ .choice [5, 11],
  /- 9 -/ .release 1,  -- 971
  /- 10 -/ .read 3 12,  -- data_stream 953
  /- 11 -/ .read 1 13,  -- attribute_values 677
  /- 12 -/ .write 2 9,  -- *data_stream 952
  /- 13 -/ .read 11 14,  -- io_handle 678
  /- 14 -/ .read 6 15,  -- file_io_handle 679
  /- 15 -/ .read 5 16,  -- encryption_context 680
  /- 16 -/ .read 8 17,  -- file_system_btree 681
  /- 17 -/ .read 12 18,  -- transaction_identifier 682
  /- 18 -/ .read 3 19,  -- data_stream 683
  /- 19 -/ .read 0 20,  -- *attribute_values 676
  /- 20 -/ .read 10 21,  -- *io_handle 676
  /- 21 -/ .read 4 22,  -- *encryption_context 676
  /- 22 -/ .write 3 23,  -- data_stream 683
  /- 23 -/ .write 7 5]  -- *file_system_btree 676

/-- `libfsapfs_extended_attribute_get_offset`, libfsapfs_extended_attribute.c:991-1077 -/
def extended_attribute_get_offset : Graph := [
  /- 0 -/ .choice [1, 2],
  /- 1 -/ .ret,
  /- 2 -/ .grab true 3 1,  -- 1014
  /- 3 -/ .read 3 4,  -- data_stream 1028
  /- 4 -/ .choice [5, 6],
  /- 5 -/ .read 3 7,  -- data_stream 1044
  /- 6 -/ .read 3 8,  -- data_stream 665
  /- 7 -/ .choice [9, 10],
  /- 8 -/ .choice [5, 11],
  /- 9 -/ .release 1,  -- 1062
  /- 10 -/ .read 3 12,  -- data_stream 1047
  /- 11 -/ .read 1 13,  -- attribute_values 677
  /- 12 -/ .read 2 9,  -- *data_stream 1046
  /- 13 -/ .read 11 14,  -- io_handle 678
  /- 14 -/ .read 6 15,  -- file_io_handle 679
  /- 15 -/ .read 5 16,  -- encryption_context 680
  /- 16 -/ .read 8 17,  -- file_system_btree 681
  /- 17 -/ .read 12 18,  -- transaction_identifier 682
  /- 18 -/ .read 3 19,  -- data_stream 683
  /- 19 -/ .read 0 20,  -- *attribute_values 676
  /- 20 -/ .read 10 21,  -- *io_handle 676
  /- 21 -/ .read 4 22,  -- *encryption_context 676
  /- 22 -/ .write 3 23,  -- data_stream 683
  /- 23 -/ .write 7 5]  -- *file_system_btree 676

/-- `libfsapfs_extended_attribute_get_size`, libfsapfs_extended_attribute.c:1082-1158 -/
def extended_attribute_get_size : Graph := [
  /- 0 -/ .choice [1, 2],
  /- 1 -/ .ret,
  /- 2 -/ .read 1 3,  -- attribute_values 1103
  /- 3 -/ .choice [1, 4],
  /- 4 -/ .grab false 5 1,  -- 1126
  /- 5 -/ .read 1 6,  -- attribute_values 1140
  /- 6 -/ .read 0 7,  -- *attribute_values 1140
  /- 7 -/ .release 1]  -- 1143

/-- `libfsapfs_extended_attribute_get_number_of_extents`, libfsapfs_extended_attribute.c:1163-1251 -/
def extended_attribute_get_number_of_extents : Graph := [
  /- 0 -/ .choice [1, 2],
  /- 1 -/ .ret,
  /- 2 -/ .grab true 3 1,  -- 1186
  /- 3 -/ .read 3 4,  -- data_stream 1200
  /- 4 -/ .choice [5, 6, 7],
  /- 5 -/ .release 1,  -- 1236
  /- 6 -/ .read 1 8,  -- attribute_values 1221
  /- 7 -/ .read 3 9,  -- data_stream 665
  /- 8 -/ .read 0 5,  -- *attribute_values 1220
  /- 9 -/ .choice [5, 6, 10],
  /- 10 -/ .read 1 11,  -- attribute_values 677
  /- 11 -/ .read 11 12,  -- io_handle 678
  /- 12 -/ .read 6 13,  -- file_io_handle 679
  /- 13 -/ .read 5 14,  -- encryption_context 680
  /- 14 -/ .read 8 15,  -- file_system_btree 681
  /- 15 -/ .read 12 16,  -- transaction_identifier 682
  /- 16 -/ .read 3 17,  -- data_stream 683
  /- 17 -/ .read 0 18,  -- *attribute_values 676
  /- 18 -/ .read 10 19,  -- *io_handle 676
  /- 19 -/ .read 4 20,  -- *encryption_context 676
  /- 20 -/ .write 3 21,  -- data_stream 683
  /- 21 -/ .write 7 22,  -- *file_system_btree 676
  /- 22 -/ .choice [5, 6]]

/-- `libfsapfs_extended_attribute_get_extent_by_index`, libfsapfs_extended_attribute.c:1256-1412 -/
def extended_attribute_get_extent_by_index : Graph := [
  /- 0 -/ .choice [1, 2],
  /- 1 -/ .ret,
  /- 2 -/ .read 11 3,  -- io_handle 1282
  /- 3 -/ .choice [1, 4],
  /- 4 -/ .grab true 5 1,  -- 1327
  /- 5 -/ .read 3 6,  -- data_stream 1341
  /- 6 -/ .choice [7, 8, 9],
  /- 7 -/ .release 1,  -- 1397
  /- 8 -/ .read 1 10,  -- attribute_values 1362
  /- 9 -/ .read 3 11,  -- data_stream 665
  /- 10 -/ .read 0 12,  -- *attribute_values 1361
  /- 11 -/ .choice [7, 8, 13],
  /- 12 -/ .choice [7, 14],
  /- 13 -/ .read 1 15,  -- attribute_values 677
  /- 14 -/ .read 11 16,  -- io_handle 1391
  /- 15 -/ .read 11 17,  -- io_handle 678
  /- 16 -/ .read 10 7,  -- *io_handle 1391
  /- 17 -/ .read 6 18,  -- file_io_handle 679
  /- 18 -/ .read 5 19,  -- encryption_context 680
  /- 19 -/ .read 8 20,  -- file_system_btree 681
  /- 20 -/ .read 12 21,  -- transaction_identifier 682
  /- 21 -/ .read 3 22,  -- data_stream 683
  /- 22 -/ .read 0 23,  -- *attribute_values 676
  /- 23 -/ .read 10 24,  -- *io_handle 676
  /- 24 -/ .read 4 25,  -- *encryption_context 676
  /- 25 -/ .write 3 26,  -- data_stream 683
  /- 26 -/ .write 7 27,  -- *file_system_btree 676
  /- 27 -/ .choice [7, 8]]

/-- the functions of an extended attribute -/
def api : List (String × Graph) :=
  [("libfsapfs_extended_attribute_get_identifier", extended_attribute_get_identifier),
   ("libfsapfs_extended_attribute_get_utf8_name_size", extended_attribute_get_utf8_name_size),
   ("libfsapfs_extended_attribute_get_utf8_name", extended_attribute_get_utf8_name),
   ("libfsapfs_extended_attribute_get_utf16_name_size", extended_attribute_get_utf16_name_size),
   ("libfsapfs_extended_attribute_get_utf16_name", extended_attribute_get_utf16_name),
   ("libfsapfs_extended_attribute_read_buffer", extended_attribute_read_buffer),
   ("libfsapfs_extended_attribute_read_buffer_at_offset", extended_attribute_read_buffer_at_offset),
   ("libfsapfs_extended_attribute_seek_offset", extended_attribute_seek_offset),
   ("libfsapfs_extended_attribute_get_offset", extended_attribute_get_offset),
   ("libfsapfs_extended_attribute_get_size", extended_attribute_get_size),
   ("libfsapfs_extended_attribute_get_number_of_extents", extended_attribute_get_number_of_extents),
   ("libfsapfs_extended_attribute_get_extent_by_index", extended_attribute_get_extent_by_index)]

end ExtendedAttribute

namespace Snapshot

/-- the places of a snapshot (struct libfsapfs_internal_snapshot in libfsapfs_snapshot.h) -/
def names : List String :=
  ["*snapshot_metadata", "snapshot_metadata"]

/-- `libfsapfs_snapshot_get_utf8_name_size`, libfsapfs_snapshot.c:361-428 -/
def snapshot_get_utf8_name_size : Graph := [
  /- 0 -/ .choice [1, 2],
  /- 1 -/ .ret,
  /- 2 -/ .grab false 3 1,  -- 384
  /- 3 -/ .read 1 4,  -- snapshot_metadata 399
  /- 4 -/ .read 0 5,  -- *snapshot_metadata 398
  /- 5 -/ .release 1]  -- 413

/-- `libfsapfs_snapshot_get_utf8_name`, libfsapfs_snapshot.c:434-503 -/
def snapshot_get_utf8_name : Graph := [
  /- 0 -/ .choice [1, 2],
  /- 1 -/ .ret,
  /- 2 -/ .grab false 3 1,  -- 458
  /- 3 -/ .read 1 4,  -- snapshot_metadata 473
  /- 4 -/ .read 0 5,  -- *snapshot_metadata 472
  /- 5 -/ .release 1]  -- 488

/-- `libfsapfs_snapshot_get_utf16_name_size`, libfsapfs_snapshot.c:509-576 -/
def snapshot_get_utf16_name_size : Graph := [
  /- 0 -/ .choice [1, 2],
  /- 1 -/ .ret,
  /- 2 -/ .grab false 3 1,  -- 532
  /- 3 -/ .read 1 4,  -- snapshot_metadata 547
  /- 4 -/ .read 0 5,  -- *snapshot_metadata 546
  /- 5 -/ .release 1]  -- 561

/-- `libfsapfs_snapshot_get_utf16_name`, libfsapfs_snapshot.c:582-651 -/
def snapshot_get_utf16_name : Graph := [
  /- 0 -/ .choice [1, 2],
  /- 1 -/ .ret,
  /- 2 -/ .grab false 3 1,  -- 606
  /- 3 -/ .read 1 4,  -- snapshot_metadata 621
  /- 4 -/ .read 0 5,  -- *snapshot_metadata 620
  /- 5 -/ .release 1]  -- 636

/-- the functions of a snapshot -/
def api : List (String × Graph) :=
  [("libfsapfs_snapshot_get_utf8_name_size", snapshot_get_utf8_name_size),
   ("libfsapfs_snapshot_get_utf8_name", snapshot_get_utf8_name),
   ("libfsapfs_snapshot_get_utf16_name_size", snapshot_get_utf16_name_size),
   ("libfsapfs_snapshot_get_utf16_name", snapshot_get_utf16_name)]

end Snapshot

end Verif.Access
