import Verif.Model.Hierarchy
import Verif.Model.AttributeRead
/-!
# Names of file entries, extended attributes, snapshots and volumes

Names are kept as UTF-8 bytes as they are stored. libuna, which is not in the repository, converts them for the caller and compares names of attributes with the string of a caller.
-/
namespace Verif
open Res
namespace EntryName
open FileRead (FileNode)
open Records (Attribute)

/-- the functions of libuna for strings of units `α`: `libuna_utf8_string_size_from_utf8_stream`, `libuna_utf8_string_copy_from_utf8_stream` with the size of the buffer of the caller and what is written there, and
`libuna_utf8_string_compare_with_utf8_stream` with whether the result is `LIBUNA_COMPARE_EQUAL`, or those with `utf16_string` instead. A stream that is none is NULL. -/
structure Una (α : Type) where
  size : Option Bytes → Res Nat
  copy : Option Bytes → Nat → Res (List α)
  compare : Bytes → List α → Res Bool

variable {α : Type}

/-- where the name of a file entry is: in the directory record if there is one, otherwise in the inode, where it is NULL if there was no such field; libfsapfs_file_entry.c 1502-1535, 1597-1632, 1693-1726 and 1788-1823 -/
def entryName (n : FileNode) : Option Bytes :=
  match n.record with
  | some r => some r.name
  | none => n.inode.name

/-- `libfsapfs_file_entry_get_utf8_name_size` and `libfsapfs_file_entry_get_utf16_name_size`, libfsapfs_file_entry.c 1465-1552 and 1656-1743, with `libfsapfs_directory_record_get_utf8_name_size`,
libfsapfs_directory_record.c 831-865, `libfsapfs_directory_record_get_utf16_name_size`, libfsapfs_directory_record.c 975-1009, `libfsapfs_inode_get_utf8_name_size`, libfsapfs_inode.c 1324-1358, and
`libfsapfs_inode_get_utf16_name_size`, libfsapfs_inode.c 1443-1477 -/
def nameSize (u : Una α) (n : FileNode) : Res Nat := u.size (entryName n)

/-- `libfsapfs_file_entry_get_utf8_name` and `libfsapfs_file_entry_get_utf16_name`, libfsapfs_file_entry.c 1559-1649 and 1750-1840, with `libfsapfs_directory_record_get_utf8_name`, libfsapfs_directory_record.c 871-907,
`libfsapfs_directory_record_get_utf16_name`, libfsapfs_directory_record.c 1015-1051, `libfsapfs_inode_get_utf8_name`, libfsapfs_inode.c 1401-1437, and `libfsapfs_inode_get_utf16_name`, libfsapfs_inode.c 1483-1519 -/
def name (u : Una α) (n : FileNode) (capacity : Nat) : Res (List α) := u.copy (entryName n) capacity

/-- `libfsapfs_attribute_values_get_utf8_name_size` and `libfsapfs_attribute_values_get_utf16_name_size`, libfsapfs_attribute_values.c 639-673 and 765-799 -/
def attributeNameSize (u : Una α) (a : Attribute) : Res Nat := u.size (some a.name)

/-- `libfsapfs_attribute_values_get_utf8_name` and `libfsapfs_attribute_values_get_utf16_name`, libfsapfs_attribute_values.c 679-715 and 805-841 -/
def attributeName (u : Una α) (a : Attribute) (capacity : Nat) : Res (List α) := u.copy (some a.name) capacity

/-- loops of `libfsapfs_internal_file_entry_get_attribute_values_by_utf8_name` and `libfsapfs_internal_file_entry_get_attribute_values_by_utf16_name`, libfsapfs_file_entry.c 2901-2946 and 3006-3051, with
`libfsapfs_attribute_values_compare_name_with_utf8_string`, libfsapfs_attribute_values.c 594-633, and `libfsapfs_attribute_values_compare_name_with_utf16_string`, libfsapfs_attribute_values.c 720-759 -/
def findNamed (u : Una α) (str : List α) : List Attribute → Res (Option Attribute)
  | [] => ok none
  | a :: as => do
    let equal ← u.compare a.name str
    if equal then return some a else findNamed u str as

/-- `libfsapfs_file_entry_get_extended_attribute_by_utf8_name` and `libfsapfs_file_entry_get_extended_attribute_by_utf16_name`, libfsapfs_file_entry.c 3213-3330 and 3336-3454, with the loop above -/
def attributeByName (u : Una α) (env : FileEntry.Env) (str : List α) (e : FileEntry.Entry) : Res (Option Attribute) × FileEntry.Entry :=
  match FileEntry.needAttributes env e with
  | (.ub, e) => (ub, e)
  | (.err, e) => (err, e)
  | (.ok (), e) =>
    match e.attributes with
    | none => (ub, e)
    | some as => (findNamed u str as, e)

/-- `libfsapfs_file_entry_has_extended_attribute_by_utf8_name` and `libfsapfs_file_entry_has_extended_attribute_by_utf16_name`, libfsapfs_file_entry.c 3057-3130 and 3135-3208 -/
def hasAttribute (u : Una α) (env : FileEntry.Env) (str : List α) (e : FileEntry.Entry) : Res Bool × FileEntry.Entry :=
  match attributeByName u env str e with
  | (.ok a, e) => (ok a.isSome, e)
  | (.err, e) => (err, e)
  | (.ub, e) => (ub, e)

/-- what a caller does to get a string: ask for the size, and pass a buffer of that size -/
def ask (size : Res Nat) (copy : Nat → Res (List α)) : Res (List α) := do
  let n ← size
  copy n

end EntryName
end Verif
