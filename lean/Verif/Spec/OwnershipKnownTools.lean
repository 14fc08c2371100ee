import Verif.Model.OwnerTools

/-
The functions of fsapfstools for which the property does not hold.
-/

namespace Verif.Spec.Owner

open Verif.Owner

/-- Those that lose memory or leave a pointer to freed memory. -/
def losingTools : List (String × Fn) :=
  [("info_handle_volume_fprint", Tools.info_handle_volume_fprint),
   ("mount_fuse_getxattr", Tools.mount_fuse_getxattr),
   ("mount_fuse_releasedir", Tools.mount_fuse_releasedir),
   ("mount_handle_open", Tools.mount_handle_open),
   ("fsapfsmount_main_dokan", Tools.fsapfsmount_main_dokan)]

/-- Those that do not return with the value of success that is modelled. -/
def toolsNotOne : List String :=
  ["mount_handle_close"]

end Verif.Spec.Owner
