import Verif.Model.FsTree
import Verif.Model.Records
/-!
# Model of libfsapfs_file_system_btree.c: inodes, directory records, extended attributes and file extents of a file
-/
namespace Verif
open Res
namespace FsTree
open BTree

/-- `libfsapfs_file_system_btree_get_inode_by_identifier`, libfsapfs_file_system_btree.c 5132-5338; `none` is `return( 0 )`, not available -/
def inodeByIdentifier (v : Volume) (xid identifier : Nat) : Res (Option Records.Inode) := do
  let r ← fsEntry v xid identifier 3
  match r with
  | none => return none
  | some e => do
    let i ← Records.readInode e
    return some i

/-- `libfsapfs_file_system_btree_get_directory_entries`, libfsapfs_file_system_btree.c 3362-3533 -/
def directoryRecords (v : Volume) (xid identifier : Nat) : Res (List Records.DirectoryRecord) := enumerate (directoryKind Records.readDirectoryRecord) v xid identifier

/-- `libfsapfs_file_system_btree_get_attributes`, libfsapfs_file_system_btree.c 4180-4351 -/
def extendedAttributes (v : Volume) (xid identifier : Nat) : Res (List Records.Attribute) := enumerate (attributeKind Records.readAttribute) v xid identifier

/-- `libfsapfs_file_system_btree_get_file_extents`, libfsapfs_file_system_btree.c 5014-5127 -/
def fileExtents (v : Volume) (xid identifier : Nat) : Res (List DataStream.Extent) := enumerate (extentKind Records.readExtent) v xid identifier

end FsTree
end Verif
