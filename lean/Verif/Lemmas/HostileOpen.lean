import Verif.Lemmas.SessionExample
/-! Opening the container with hostile files, and its volume. The steps of these sessions are checked in files that import each other, because each takes much memory. -/
namespace Verif
open Res
namespace HostileExample
open Session

theorem opens : Container.openRead (fun uuid => plain.cipher.xts (uuid, uuid)) plain.vector image = ok VolumeExample.opened := by decide +kernel

end HostileExample
end Verif
