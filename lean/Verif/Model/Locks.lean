import Verif.Model.Base
/-!
# Model of the use of read/write locks by the API functions

Every handle (container, volume, file entry, extended attribute, snapshot) has one read/write lock (`read_write_lock`, HAVE_LIBFSAPFS_MULTI_THREAD_SUPPORT). The functions below are those of
libfsapfs_container.c, libfsapfs_volume.c, libfsapfs_file_entry.c, libfsapfs_extended_attribute.c and libfsapfs_snapshot.c that use it or call a function that does. Of each function only
the flow of control around the locks is kept: conditions are not modelled, any branch can be taken, and statements that neither use the lock nor leave the function are left out. No
other function of the library uses the locks or calls one of these functions. Debug output and profiling are not modelled.

Grabbing a lock can fail, then the lock is not held. Releasing a lock that is held does not fail: `pthread_rwlock_unlock` only fails for a lock that is not held or not valid.
-/
namespace Verif.Locks

/-- use of the lock: for writing if `true`, for reading if `false` -/
inductive Op where
  | grab (write : Bool)
  | release (write : Bool)
deriving DecidableEq, Repr

inductive Stmt where
  | skip
  | seq (a b : Stmt)
  /-- `if( … ) { a } else { b }` -/
  | branch (a b : Stmt)
  /-- `if( libcthreads_read_write_lock_grab_for_…( … ) != 1 ) { failed }` -/
  | grab (write : Bool) (failed : Stmt)
  /-- `libcthreads_read_write_lock_release_for_…` -/
  | release (write : Bool)
  /-- call of another function for the same handle -/
  | call (body handler : Stmt)
  | ret
  /-- `goto on_error` -/
  | goto
deriving DecidableEq, Repr

/-- a function, `handler` is what follows `on_error:` -/
structure Fn where
  name : String
  body : Stmt
  handler : Stmt

/-- how a statement ends -/
inductive Out where
  | next
  | ret
  | goto
deriving DecidableEq, Repr

/-- `Exec s t o`: the statement can use the lock as in `t` and end with `o` -/
inductive Exec : Stmt → List Op → Out → Prop where
  | skip : Exec .skip [] .next
  | seq {a b t u o} : Exec a t .next → Exec b u o → Exec (.seq a b) (t ++ u) o
  | leave {a b t o} : Exec a t o → o ≠ .next → Exec (.seq a b) t o
  | left {a b t o} : Exec a t o → Exec (.branch a b) t o
  | right {a b t o} : Exec b t o → Exec (.branch a b) t o
  | grab {w f} : Exec (.grab w f) [.grab w] .next
  | grabFailed {w f t o} : Exec f t o → Exec (.grab w f) t o
  | release {w} : Exec (.release w) [.release w] .next
  | call {b k t} : Exec b t .ret → Exec (.call b k) t .next
  | callHandler {b k t o u p} : Exec b t o → o ≠ .ret → Exec k u p → Exec (.call b k) (t ++ u) .next
  | ret : Exec .ret [] .ret
  | goto : Exec .goto [] .goto

/-- what a call of a function does with the lock -/
def Fn.Uses (f : Fn) (t : List Op) : Prop := Exec (.call f.body f.handler) t .next

def seqs : List Stmt → Stmt
  | [] => .skip
  | [s] => s
  | s :: ss => .seq s (seqs ss)

/-- `if( … ) { …; return( -1 ); }` -/
def mayReturn : Stmt := .branch .ret .skip

/-- `if( … ) { …; goto on_error; }` -/
def mayFail : Stmt := .branch .goto .skip

/-- libfsapfs_container.c 616-784: grab for write 739, release for write 757 -/
def container_open_file_io_handle : Fn where
  name := "libfsapfs_container_open_file_io_handle"
  body := seqs [mayReturn, mayReturn, mayReturn, mayReturn, mayReturn, .branch (.goto) (.branch (mayFail) (.skip)), mayFail, .grab true (.goto), .release true, .ret]
  handler := .ret

/-- libfsapfs_container.c 789-1015: grab for write 822, release for write 1000 -/
def container_close : Fn where
  name := "libfsapfs_container_close"
  body := seqs [mayReturn, mayReturn, .grab true (.ret), .release true, .ret]
  handler := .skip

/-- libfsapfs_container.c 1885-1972: grab for read 1940, release for read 1957 -/
def container_get_size : Fn where
  name := "libfsapfs_container_get_size"
  body := seqs [mayReturn, mayReturn, mayReturn, mayReturn, .grab false (.ret), .release false, .ret]
  handler := .skip

/-- libfsapfs_container.c 1978-2047: grab for read 2002, release for read 2032 -/
def container_get_identifier : Fn where
  name := "libfsapfs_container_get_identifier"
  body := seqs [mayReturn, .grab false (.ret), .release false, .ret]
  handler := .skip

/-- libfsapfs_container.c 2052-2108: grab for read 2074, release for read 2093 -/
def container_is_locked : Fn where
  name := "libfsapfs_container_is_locked"
  body := seqs [mayReturn, .grab false (.ret), .release false, .ret]
  handler := .skip

/-- libfsapfs_container.c 2113-2189: grab for read 2157, release for read 2174 -/
def container_get_number_of_volumes : Fn where
  name := "libfsapfs_container_get_number_of_volumes"
  body := seqs [mayReturn, mayReturn, mayReturn, .grab false (.ret), .release false, .ret]
  handler := .skip

/-- libfsapfs_container.c 2195-2392: grab for read 2265, release for read 2357, release for read 2387 -/
def container_get_volume_by_index : Fn where
  name := "libfsapfs_container_get_volume_by_index"
  body := seqs [mayReturn, mayReturn, mayReturn, mayReturn, mayReturn, .grab false (.ret), mayFail, mayFail, mayFail, mayFail, mayFail, .release false, .ret]
  handler := seqs [.release false, .ret]

/-- libfsapfs_extended_attribute.c 282-347: grab for read 315, release for read 332 -/
def extended_attribute_get_identifier : Fn where
  name := "libfsapfs_extended_attribute_get_identifier"
  body := seqs [mayReturn, mayReturn, .grab false (.ret), .release false, .ret]
  handler := .skip

/-- libfsapfs_extended_attribute.c 353-420: grab for read 376, release for read 405 -/
def extended_attribute_get_utf8_name_size : Fn where
  name := "libfsapfs_extended_attribute_get_utf8_name_size"
  body := seqs [mayReturn, .grab false (.ret), .release false, .ret]
  handler := .skip

/-- libfsapfs_extended_attribute.c 426-495: grab for read 450, release for read 480 -/
def extended_attribute_get_utf8_name : Fn where
  name := "libfsapfs_extended_attribute_get_utf8_name"
  body := seqs [mayReturn, .grab false (.ret), .release false, .ret]
  handler := .skip

/-- libfsapfs_extended_attribute.c 501-568: grab for read 524, release for read 553 -/
def extended_attribute_get_utf16_name_size : Fn where
  name := "libfsapfs_extended_attribute_get_utf16_name_size"
  body := seqs [mayReturn, .grab false (.ret), .release false, .ret]
  handler := .skip

/-- libfsapfs_extended_attribute.c 574-643: grab for read 598, release for read 628 -/
def extended_attribute_get_utf16_name : Fn where
  name := "libfsapfs_extended_attribute_get_utf16_name"
  body := seqs [mayReturn, .grab false (.ret), .release false, .ret]
  handler := .skip

/-- libfsapfs_extended_attribute.c 701-793: grab for write 725, release for write 778 -/
def extended_attribute_read_buffer : Fn where
  name := "libfsapfs_extended_attribute_read_buffer"
  body := seqs [mayReturn, .grab true (.ret), .release true, .ret]
  handler := .skip

/-- libfsapfs_extended_attribute.c 798-892: grab for write 823, release for write 877 -/
def extended_attribute_read_buffer_at_offset : Fn where
  name := "libfsapfs_extended_attribute_read_buffer_at_offset"
  body := seqs [mayReturn, .grab true (.ret), .release true, .ret]
  handler := .skip

/-- libfsapfs_extended_attribute.c 897-986: grab for write 920, release for write 971 -/
def extended_attribute_seek_offset : Fn where
  name := "libfsapfs_extended_attribute_seek_offset"
  body := seqs [mayReturn, .grab true (.ret), .release true, .ret]
  handler := .skip

/-- libfsapfs_extended_attribute.c 991-1077: grab for write 1014, release for write 1062 -/
def extended_attribute_get_offset : Fn where
  name := "libfsapfs_extended_attribute_get_offset"
  body := seqs [mayReturn, .grab true (.ret), .release true, .ret]
  handler := .skip

/-- libfsapfs_extended_attribute.c 1082-1158: grab for read 1126, release for read 1143 -/
def extended_attribute_get_size : Fn where
  name := "libfsapfs_extended_attribute_get_size"
  body := seqs [mayReturn, mayReturn, mayReturn, .grab false (.ret), .release false, .ret]
  handler := .skip

/-- libfsapfs_extended_attribute.c 1163-1251: grab for write 1186, release for write 1236 -/
def extended_attribute_get_number_of_extents : Fn where
  name := "libfsapfs_extended_attribute_get_number_of_extents"
  body := seqs [mayReturn, .grab true (.ret), .release true, .ret]
  handler := .skip

/-- libfsapfs_extended_attribute.c 1256-1412: grab for write 1327, release for write 1397 -/
def extended_attribute_get_extent_by_index : Fn where
  name := "libfsapfs_extended_attribute_get_extent_by_index"
  body := seqs [mayReturn, mayReturn, mayReturn, mayReturn, mayReturn, .grab true (.ret), .release true, .ret]
  handler := .skip

/-- libfsapfs_file_entry.c 332-399: grab for read 355, release for read 384 -/
def file_entry_get_identifier : Fn where
  name := "libfsapfs_file_entry_get_identifier"
  body := seqs [mayReturn, .grab false (.ret), .release false, .ret]
  handler := .skip

/-- libfsapfs_file_entry.c 405-472: grab for read 428, release for read 457 -/
def file_entry_get_parent_identifier : Fn where
  name := "libfsapfs_file_entry_get_parent_identifier"
  body := seqs [mayReturn, .grab false (.ret), .release false, .ret]
  handler := .skip

/-- libfsapfs_file_entry.c 477-639: grab for write 524, release for write 610, release for write 634 -/
def file_entry_get_parent_file_entry : Fn where
  name := "libfsapfs_file_entry_get_parent_file_entry"
  body := seqs [mayReturn, mayReturn, mayReturn, .grab true (.ret), mayFail, .branch (seqs [mayFail, mayFail, mayFail]) (.skip), .release true, .ret]
  handler := seqs [.release true, .ret]

/-- libfsapfs_file_entry.c 646-713: grab for read 669, release for read 698 -/
def file_entry_get_creation_time : Fn where
  name := "libfsapfs_file_entry_get_creation_time"
  body := seqs [mayReturn, .grab false (.ret), .release false, .ret]
  handler := .skip

/-- libfsapfs_file_entry.c 720-787: grab for read 743, release for read 772 -/
def file_entry_get_modification_time : Fn where
  name := "libfsapfs_file_entry_get_modification_time"
  body := seqs [mayReturn, .grab false (.ret), .release false, .ret]
  handler := .skip

/-- libfsapfs_file_entry.c 794-861: grab for read 817, release for read 846 -/
def file_entry_get_access_time : Fn where
  name := "libfsapfs_file_entry_get_access_time"
  body := seqs [mayReturn, .grab false (.ret), .release false, .ret]
  handler := .skip

/-- libfsapfs_file_entry.c 868-935: grab for read 891, release for read 920 -/
def file_entry_get_inode_change_time : Fn where
  name := "libfsapfs_file_entry_get_inode_change_time"
  body := seqs [mayReturn, .grab false (.ret), .release false, .ret]
  handler := .skip

/-- libfsapfs_file_entry.c 942-1014: grab for read 965, release for read 999 -/
def file_entry_get_added_time : Fn where
  name := "libfsapfs_file_entry_get_added_time"
  body := seqs [mayReturn, .grab false (.ret), .release false, .ret]
  handler := .skip

/-- libfsapfs_file_entry.c 1020-1087: grab for read 1043, release for read 1072 -/
def file_entry_get_owner_identifier : Fn where
  name := "libfsapfs_file_entry_get_owner_identifier"
  body := seqs [mayReturn, .grab false (.ret), .release false, .ret]
  handler := .skip

/-- libfsapfs_file_entry.c 1093-1160: grab for read 1116, release for read 1145 -/
def file_entry_get_group_identifier : Fn where
  name := "libfsapfs_file_entry_get_group_identifier"
  body := seqs [mayReturn, .grab false (.ret), .release false, .ret]
  handler := .skip

/-- libfsapfs_file_entry.c 1166-1235: grab for read 1189, release for read 1220 -/
def file_entry_get_device_identifier : Fn where
  name := "libfsapfs_file_entry_get_device_identifier"
  body := seqs [mayReturn, .grab false (.ret), .release false, .ret]
  handler := .skip

/-- libfsapfs_file_entry.c 1241-1312: grab for read 1265, release for read 1297 -/
def file_entry_get_device_number : Fn where
  name := "libfsapfs_file_entry_get_device_number"
  body := seqs [mayReturn, .grab false (.ret), .release false, .ret]
  handler := .skip

/-- libfsapfs_file_entry.c 1318-1385: grab for read 1341, release for read 1370 -/
def file_entry_get_file_mode : Fn where
  name := "libfsapfs_file_entry_get_file_mode"
  body := seqs [mayReturn, .grab false (.ret), .release false, .ret]
  handler := .skip

/-- libfsapfs_file_entry.c 1391-1458: grab for read 1414, release for read 1443 -/
def file_entry_get_number_of_links : Fn where
  name := "libfsapfs_file_entry_get_number_of_links"
  body := seqs [mayReturn, .grab false (.ret), .release false, .ret]
  handler := .skip

/-- libfsapfs_file_entry.c 1465-1552: grab for read 1488, release for read 1537 -/
def file_entry_get_utf8_name_size : Fn where
  name := "libfsapfs_file_entry_get_utf8_name_size"
  body := seqs [mayReturn, .grab false (.ret), .release false, .ret]
  handler := .skip

/-- libfsapfs_file_entry.c 1559-1649: grab for read 1583, release for read 1634 -/
def file_entry_get_utf8_name : Fn where
  name := "libfsapfs_file_entry_get_utf8_name"
  body := seqs [mayReturn, .grab false (.ret), .release false, .ret]
  handler := .skip

/-- libfsapfs_file_entry.c 1656-1743: grab for read 1679, release for read 1728 -/
def file_entry_get_utf16_name_size : Fn where
  name := "libfsapfs_file_entry_get_utf16_name_size"
  body := seqs [mayReturn, .grab false (.ret), .release false, .ret]
  handler := .skip

/-- libfsapfs_file_entry.c 1750-1840: grab for read 1774, release for read 1825 -/
def file_entry_get_utf16_name : Fn where
  name := "libfsapfs_file_entry_get_utf16_name"
  body := seqs [mayReturn, .grab false (.ret), .release false, .ret]
  handler := .skip

/-- libfsapfs_file_entry.c 2203-2299: grab for write 2226, release for write 2276, release for write 2294 -/
def file_entry_get_utf8_symbolic_link_target_size : Fn where
  name := "libfsapfs_file_entry_get_utf8_symbolic_link_target_size"
  body := seqs [mayReturn, .grab true (.ret), .branch (mayFail) (.skip), .branch (mayFail) (.skip), .release true, .ret]
  handler := seqs [.release true, .ret]

/-- libfsapfs_file_entry.c 2306-2404: grab for write 2330, release for write 2381, release for write 2399 -/
def file_entry_get_utf8_symbolic_link_target : Fn where
  name := "libfsapfs_file_entry_get_utf8_symbolic_link_target"
  body := seqs [mayReturn, .grab true (.ret), .branch (mayFail) (.skip), .branch (mayFail) (.skip), .release true, .ret]
  handler := seqs [.release true, .ret]

/-- libfsapfs_file_entry.c 2411-2507: grab for write 2434, release for write 2484, release for write 2502 -/
def file_entry_get_utf16_symbolic_link_target_size : Fn where
  name := "libfsapfs_file_entry_get_utf16_symbolic_link_target_size"
  body := seqs [mayReturn, .grab true (.ret), .branch (mayFail) (.skip), .branch (mayFail) (.skip), .release true, .ret]
  handler := seqs [.release true, .ret]

/-- libfsapfs_file_entry.c 2514-2612: grab for write 2538, release for write 2589, release for write 2607 -/
def file_entry_get_utf16_symbolic_link_target : Fn where
  name := "libfsapfs_file_entry_get_utf16_symbolic_link_target"
  body := seqs [mayReturn, .grab true (.ret), .branch (mayFail) (.skip), .branch (mayFail) (.skip), .release true, .ret]
  handler := seqs [.release true, .ret]

/-- libfsapfs_file_entry.c 2617-2703: grab for write 2640, release for write 2688 -/
def file_entry_get_number_of_extended_attributes : Fn where
  name := "libfsapfs_file_entry_get_number_of_extended_attributes"
  body := seqs [mayReturn, .grab true (.ret), .release true, .ret]
  handler := .skip

/-- libfsapfs_file_entry.c 2708-2842: grab for write 2755, release for write 2827 -/
def file_entry_get_extended_attribute_by_index : Fn where
  name := "libfsapfs_file_entry_get_extended_attribute_by_index"
  body := seqs [mayReturn, mayReturn, mayReturn, .grab true (.ret), .release true, .ret]
  handler := .skip

/-- libfsapfs_file_entry.c 3057-3130: grab for write 3082, release for write 3115 -/
def file_entry_has_extended_attribute_by_utf8_name : Fn where
  name := "libfsapfs_file_entry_has_extended_attribute_by_utf8_name"
  body := seqs [mayReturn, .grab true (.ret), .release true, .ret]
  handler := .skip

/-- libfsapfs_file_entry.c 3135-3208: grab for write 3160, release for write 3193 -/
def file_entry_has_extended_attribute_by_utf16_name : Fn where
  name := "libfsapfs_file_entry_has_extended_attribute_by_utf16_name"
  body := seqs [mayReturn, .grab true (.ret), .release true, .ret]
  handler := .skip

/-- libfsapfs_file_entry.c 3213-3331: grab for write 3261, release for write 3316 -/
def file_entry_get_extended_attribute_by_utf8_name : Fn where
  name := "libfsapfs_file_entry_get_extended_attribute_by_utf8_name"
  body := seqs [mayReturn, mayReturn, mayReturn, .grab true (.ret), .release true, .ret]
  handler := .skip

/-- libfsapfs_file_entry.c 3336-3454: grab for write 3384, release for write 3439 -/
def file_entry_get_extended_attribute_by_utf16_name : Fn where
  name := "libfsapfs_file_entry_get_extended_attribute_by_utf16_name"
  body := seqs [mayReturn, mayReturn, mayReturn, .grab true (.ret), .release true, .ret]
  handler := .skip

/-- libfsapfs_file_entry.c 3552-3638: grab for write 3575, release for write 3623 -/
def file_entry_get_number_of_sub_file_entries : Fn where
  name := "libfsapfs_file_entry_get_number_of_sub_file_entries"
  body := seqs [mayReturn, .grab true (.ret), .release true, .ret]
  handler := .skip

/-- libfsapfs_file_entry.c 3643-3848: grab for write 3692, release for write 3809, release for write 3843 -/
def file_entry_get_sub_file_entry_by_index : Fn where
  name := "libfsapfs_file_entry_get_sub_file_entry_by_index"
  body := seqs [mayReturn, mayReturn, mayReturn, .grab true (.ret), .branch (mayFail) (.skip), mayFail, mayFail, mayFail, mayFail, mayFail, .release true, .ret]
  handler := seqs [.release true, .ret]

/-- libfsapfs_file_entry.c 3853-4016: grab for write 3903, release for write 3977, release for write 4011 -/
def file_entry_get_sub_file_entry_by_utf8_name : Fn where
  name := "libfsapfs_file_entry_get_sub_file_entry_by_utf8_name"
  body := seqs [mayReturn, mayReturn, mayReturn, .grab true (.ret), mayFail, .branch (.goto) (.branch (mayFail) (.skip)), .release true, .ret]
  handler := seqs [.release true, .ret]

/-- libfsapfs_file_entry.c 4021-4184: grab for write 4071, release for write 4145, release for write 4179 -/
def file_entry_get_sub_file_entry_by_utf16_name : Fn where
  name := "libfsapfs_file_entry_get_sub_file_entry_by_utf16_name"
  body := seqs [mayReturn, mayReturn, mayReturn, .grab true (.ret), mayFail, .branch (.goto) (.branch (mayFail) (.skip)), .release true, .ret]
  handler := seqs [.release true, .ret]

/-- libfsapfs_file_entry.c 4520-4612: grab for write 4544, release for write 4597 -/
def file_entry_read_buffer : Fn where
  name := "libfsapfs_file_entry_read_buffer"
  body := seqs [mayReturn, .grab true (.ret), .release true, .ret]
  handler := .skip

/-- libfsapfs_file_entry.c 4617-4711: grab for write 4642, release for write 4696 -/
def file_entry_read_buffer_at_offset : Fn where
  name := "libfsapfs_file_entry_read_buffer_at_offset"
  body := seqs [mayReturn, .grab true (.ret), .release true, .ret]
  handler := .skip

/-- libfsapfs_file_entry.c 4716-4806: grab for write 4740, release for write 4791 -/
def file_entry_seek_offset : Fn where
  name := "libfsapfs_file_entry_seek_offset"
  body := seqs [mayReturn, .grab true (.ret), .release true, .ret]
  handler := .skip

/-- libfsapfs_file_entry.c 4811-4897: grab for write 4834, release for write 4882 -/
def file_entry_get_offset : Fn where
  name := "libfsapfs_file_entry_get_offset"
  body := seqs [mayReturn, .grab true (.ret), .release true, .ret]
  handler := .skip

/-- libfsapfs_file_entry.c 5109-5193: grab for write 5143, release for write 5178 -/
def file_entry_get_size : Fn where
  name := "libfsapfs_file_entry_get_size"
  body := seqs [mayReturn, mayReturn, .grab true (.ret), .release true, .ret]
  handler := .skip

/-- libfsapfs_file_entry.c 5198-5284: grab for write 5221, release for write 5269 -/
def file_entry_get_number_of_extents : Fn where
  name := "libfsapfs_file_entry_get_number_of_extents"
  body := seqs [mayReturn, .grab true (.ret), .release true, .ret]
  handler := .skip

/-- libfsapfs_file_entry.c 5289-5443: grab for write 5360, release for write 5428 -/
def file_entry_get_extent_by_index : Fn where
  name := "libfsapfs_file_entry_get_extent_by_index"
  body := seqs [mayReturn, mayReturn, mayReturn, mayReturn, mayReturn, .grab true (.ret), .release true, .ret]
  handler := .skip

/-- libfsapfs_snapshot.c 361-428: grab for read 384, release for read 413 -/
def snapshot_get_utf8_name_size : Fn where
  name := "libfsapfs_snapshot_get_utf8_name_size"
  body := seqs [mayReturn, .grab false (.ret), .release false, .ret]
  handler := .skip

/-- libfsapfs_snapshot.c 434-503: grab for read 458, release for read 488 -/
def snapshot_get_utf8_name : Fn where
  name := "libfsapfs_snapshot_get_utf8_name"
  body := seqs [mayReturn, .grab false (.ret), .release false, .ret]
  handler := .skip

/-- libfsapfs_snapshot.c 509-576: grab for read 532, release for read 561 -/
def snapshot_get_utf16_name_size : Fn where
  name := "libfsapfs_snapshot_get_utf16_name_size"
  body := seqs [mayReturn, .grab false (.ret), .release false, .ret]
  handler := .skip

/-- libfsapfs_snapshot.c 582-651: grab for read 606, release for read 636 -/
def snapshot_get_utf16_name : Fn where
  name := "libfsapfs_snapshot_get_utf16_name"
  body := seqs [mayReturn, .grab false (.ret), .release false, .ret]
  handler := .skip

/-- libfsapfs_volume.c 1247-1317: grab for write 1269, release for write 1302 -/
def volume_unlock : Fn where
  name := "libfsapfs_volume_unlock"
  body := seqs [mayReturn, .grab true (.ret), .release true, .ret]
  handler := .skip

/-- libfsapfs_volume.c 1322-1424: grab for read 1390, release for read 1409 -/
def volume_get_features_flags : Fn where
  name := "libfsapfs_volume_get_features_flags"
  body := seqs [mayReturn, mayReturn, mayReturn, mayReturn, mayReturn, .grab false (.ret), .release false, .ret]
  handler := .skip

/-- libfsapfs_volume.c 1429-1506: grab for read 1473, release for read 1491 -/
def volume_get_size : Fn where
  name := "libfsapfs_volume_get_size"
  body := seqs [mayReturn, mayReturn, mayReturn, .grab false (.ret), .release false, .ret]
  handler := .skip

/-- libfsapfs_volume.c 1512-1592: grab for read 1547, release for read 1577 -/
def volume_get_identifier : Fn where
  name := "libfsapfs_volume_get_identifier"
  body := seqs [mayReturn, mayReturn, .grab false (.ret), .release false, .ret]
  handler := .skip

/-- libfsapfs_volume.c 1598-1665: grab for read 1621, release for read 1650 -/
def volume_get_utf8_name_size : Fn where
  name := "libfsapfs_volume_get_utf8_name_size"
  body := seqs [mayReturn, .grab false (.ret), .release false, .ret]
  handler := .skip

/-- libfsapfs_volume.c 1671-1740: grab for read 1695, release for read 1725 -/
def volume_get_utf8_name : Fn where
  name := "libfsapfs_volume_get_utf8_name"
  body := seqs [mayReturn, .grab false (.ret), .release false, .ret]
  handler := .skip

/-- libfsapfs_volume.c 1746-1813: grab for read 1769, release for read 1798 -/
def volume_get_utf16_name_size : Fn where
  name := "libfsapfs_volume_get_utf16_name_size"
  body := seqs [mayReturn, .grab false (.ret), .release false, .ret]
  handler := .skip

/-- libfsapfs_volume.c 1819-1888: grab for read 1843, release for read 1873 -/
def volume_get_utf16_name : Fn where
  name := "libfsapfs_volume_get_utf16_name"
  body := seqs [mayReturn, .grab false (.ret), .release false, .ret]
  handler := .skip

/-- libfsapfs_volume.c 1893-1947: grab for read 1915, release for read 1932 -/
def volume_is_locked : Fn where
  name := "libfsapfs_volume_is_locked"
  body := seqs [mayReturn, .grab false (.ret), .release false, .ret]
  handler := .skip

/-- libfsapfs_volume.c 1953-2116: grab for write 1987, release for write 2080, release for write 2111 -/
def volume_set_utf8_password : Fn where
  name := "libfsapfs_volume_set_utf8_password"
  body := seqs [mayReturn, mayReturn, .grab true (.ret), .branch (mayFail) (.skip), mayFail, mayFail, mayFail, .release true, .ret]
  handler := seqs [.release true, .ret]

/-- libfsapfs_volume.c 2122-2288: grab for write 2145, release for write 2252, release for write 2283 -/
def volume_set_utf16_password : Fn where
  name := "libfsapfs_volume_set_utf16_password"
  body := seqs [mayReturn, .grab true (.ret), .branch (mayFail) (.skip), mayFail, mayFail, mayFail, mayFail, .release true, .ret]
  handler := seqs [.release true, .ret]

/-- libfsapfs_volume.c 2294-2446: grab for write 2317, release for write 2410, release for write 2441 -/
def volume_set_utf8_recovery_password : Fn where
  name := "libfsapfs_volume_set_utf8_recovery_password"
  body := seqs [mayReturn, .grab true (.ret), .branch (mayFail) (.skip), mayFail, mayFail, mayFail, .release true, .ret]
  handler := seqs [.release true, .ret]

/-- libfsapfs_volume.c 2452-2618: grab for write 2475, release for write 2582, release for write 2613 -/
def volume_set_utf16_recovery_password : Fn where
  name := "libfsapfs_volume_set_utf16_recovery_password"
  body := seqs [mayReturn, .grab true (.ret), .branch (mayFail) (.skip), mayFail, mayFail, mayFail, mayFail, .release true, .ret]
  handler := seqs [.release true, .ret]

/-- libfsapfs_volume.c 2623-2725: grab for write 2657, release for write 2710 -/
def volume_get_root_directory : Fn where
  name := "libfsapfs_volume_get_root_directory"
  body := seqs [mayReturn, mayReturn, .grab true (.ret), .release true, .ret]
  handler := .skip

/-- libfsapfs_volume.c 2730-2795: grab for read 2763, release for read 2780 -/
def volume_get_next_file_entry_identifier : Fn where
  name := "libfsapfs_volume_get_next_file_entry_identifier"
  body := seqs [mayReturn, mayReturn, .grab false (.ret), .release false, .ret]
  handler := .skip

/-- libfsapfs_volume.c 2970-3074: grab for write 3005, release for write 3059 -/
def volume_get_file_entry_by_identifier : Fn where
  name := "libfsapfs_volume_get_file_entry_by_identifier"
  body := seqs [mayReturn, mayReturn, .grab true (.ret), .release true, .ret]
  handler := .skip

/-- libfsapfs_volume.c 3079-3206: grab for write 3137, release for write 3191 -/
def volume_get_file_entry_by_utf8_path : Fn where
  name := "libfsapfs_volume_get_file_entry_by_utf8_path"
  body := seqs [mayReturn, mayReturn, mayReturn, mayReturn, .grab true (.ret), .release true, .ret]
  handler := .skip

/-- libfsapfs_volume.c 3211-3338: grab for write 3269, release for write 3323 -/
def volume_get_file_entry_by_utf16_path : Fn where
  name := "libfsapfs_volume_get_file_entry_by_utf16_path"
  body := seqs [mayReturn, mayReturn, mayReturn, mayReturn, .grab true (.ret), .release true, .ret]
  handler := .skip

/-- libfsapfs_volume.c 3343-3410: grab for read 3366, release for read 3395 -/
def volume_get_number_of_snapshots : Fn where
  name := "libfsapfs_volume_get_number_of_snapshots"
  body := seqs [mayReturn, .grab false (.ret), .release false, .ret]
  handler := .skip

/-- libfsapfs_volume.c 3416-3569: grab for read 3463, release for read 3540, release for read 3564 -/
def volume_get_snapshot_by_index : Fn where
  name := "libfsapfs_volume_get_snapshot_by_index"
  body := seqs [mayReturn, mayReturn, mayReturn, .grab false (.ret), mayReturn, mayFail, mayFail, mayFail, .release false, .ret]
  handler := seqs [.release false, .ret]

/-- libfsapfs_container.c 272-437: grab for write 394, release for write 411 -/
def container_open : Fn where
  name := "libfsapfs_container_open"
  body := seqs [mayReturn, mayReturn, mayReturn, mayReturn, mayFail, mayFail, .call container_open_file_io_handle.body container_open_file_io_handle.handler, mayFail, .grab true (.goto), .release true, .ret]
  handler := .ret

/-- libfsapfs_container.c 444-609: grab for write 566, release for write 583 -/
def container_open_wide : Fn where
  name := "libfsapfs_container_open_wide"
  body := seqs [mayReturn, mayReturn, mayReturn, mayReturn, mayFail, mayFail, .call container_open_file_io_handle.body container_open_file_io_handle.handler, mayFail, .grab true (.goto), .release true, .ret]
  handler := .ret

/-- libfsapfs_container.c 155-228 -/
def container_free : Fn where
  name := "libfsapfs_container_free"
  body := seqs [mayReturn, .branch (.branch (.call container_close.body container_close.handler) (.skip)) (.skip), .ret]
  handler := .skip

/-- the functions that use a lock, or call one that does -/
def functions : List Fn := [
  container_open_file_io_handle, container_close, container_get_size, container_get_identifier,
  container_is_locked, container_get_number_of_volumes, container_get_volume_by_index, extended_attribute_get_identifier,
  extended_attribute_get_utf8_name_size, extended_attribute_get_utf8_name, extended_attribute_get_utf16_name_size, extended_attribute_get_utf16_name,
  extended_attribute_read_buffer, extended_attribute_read_buffer_at_offset, extended_attribute_seek_offset, extended_attribute_get_offset,
  extended_attribute_get_size, extended_attribute_get_number_of_extents, extended_attribute_get_extent_by_index, file_entry_get_identifier,
  file_entry_get_parent_identifier, file_entry_get_parent_file_entry, file_entry_get_creation_time, file_entry_get_modification_time,
  file_entry_get_access_time, file_entry_get_inode_change_time, file_entry_get_added_time, file_entry_get_owner_identifier,
  file_entry_get_group_identifier, file_entry_get_device_identifier, file_entry_get_device_number, file_entry_get_file_mode,
  file_entry_get_number_of_links, file_entry_get_utf8_name_size, file_entry_get_utf8_name, file_entry_get_utf16_name_size,
  file_entry_get_utf16_name, file_entry_get_utf8_symbolic_link_target_size, file_entry_get_utf8_symbolic_link_target, file_entry_get_utf16_symbolic_link_target_size,
  file_entry_get_utf16_symbolic_link_target, file_entry_get_number_of_extended_attributes, file_entry_get_extended_attribute_by_index, file_entry_has_extended_attribute_by_utf8_name,
  file_entry_has_extended_attribute_by_utf16_name, file_entry_get_extended_attribute_by_utf8_name, file_entry_get_extended_attribute_by_utf16_name, file_entry_get_number_of_sub_file_entries,
  file_entry_get_sub_file_entry_by_index, file_entry_get_sub_file_entry_by_utf8_name, file_entry_get_sub_file_entry_by_utf16_name, file_entry_read_buffer,
  file_entry_read_buffer_at_offset, file_entry_seek_offset, file_entry_get_offset, file_entry_get_size,
  file_entry_get_number_of_extents, file_entry_get_extent_by_index, snapshot_get_utf8_name_size, snapshot_get_utf8_name,
  snapshot_get_utf16_name_size, snapshot_get_utf16_name, volume_unlock, volume_get_features_flags,
  volume_get_size, volume_get_identifier, volume_get_utf8_name_size, volume_get_utf8_name,
  volume_get_utf16_name_size, volume_get_utf16_name, volume_is_locked, volume_set_utf8_password,
  volume_set_utf16_password, volume_set_utf8_recovery_password, volume_set_utf16_recovery_password, volume_get_root_directory,
  volume_get_next_file_entry_identifier, volume_get_file_entry_by_identifier, volume_get_file_entry_by_utf8_path, volume_get_file_entry_by_utf16_path,
  volume_get_number_of_snapshots, volume_get_snapshot_by_index, container_open, container_open_wide,
  container_free]

end Verif.Locks
