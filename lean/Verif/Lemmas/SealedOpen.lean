import Verif.Lemmas.HostileSession
/-! Opening the container with a hostile encrypted volume -/
namespace Verif
open Res
namespace HostileExample
open Session

theorem sealed_opens : Container.openRead (fun uuid => crypted.cipher.xts (uuid, uuid)) crypted.vector sealedImage = ok EncryptedExample.opened := by decide +kernel

end HostileExample
end Verif
