import Verif.Lemmas.HostileOpen
/-! The volume with hostile files -/
namespace Verif
open Res
namespace HostileExample
open Session

def volume : VolumeOpen.Opened := ⟨VolumeOpen.superblockOf VolumeExample.b10, 8, [], { uuid := List.replicate 16 2, containerBag := [], keyBag := none, isLocked := false }⟩

theorem volume_opens : VolumeOpen.volumeByIndex plain.cipher plain.vector image VolumeExample.opened 0 = ok volume := by decide +kernel

end HostileExample
end Verif
