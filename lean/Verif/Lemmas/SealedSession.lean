import Verif.Lemmas.SealedOpen
/-! Sessions with a hostile encrypted volume -/
namespace Verif
open Res
namespace HostileExample
open Session

def sealedVolume : VolumeOpen.Opened :=
  ⟨VolumeOpen.superblockOf EncryptedExample.b10, 8, [],
    { uuid := List.replicate 16 2, containerBag := Props.entriesOf EncryptedExample.cb, keyBag := some (Props.entriesOf vb), isLocked := true }⟩

theorem sealed_volume_opens : VolumeOpen.volumeByIndex crypted.cipher crypted.vector sealedImage EncryptedExample.opened 0 = ok sealedVolume := by decide +kernel

theorem short_ub : session crypted Name.utf8 Name.utf8 0x2f sealedImage (script (unlocking [1, 2]) 7) = ub := by
  unfold session
  rw [sealed_opens, ok_bind, show (script (unlocking [1, 2]) 7).index = 0 from rfl, sealed_volume_opens, ok_bind]
  decide +kernel

theorem packed_ub : session crypted Name.utf8 Name.utf8 0x2f sealedImage (script (unlocking [3]) 7) = ub := by
  unfold session
  rw [sealed_opens, ok_bind, show (script (unlocking [3]) 7).index = 0 from rfl, sealed_volume_opens, ok_bind]
  decide +kernel

end HostileExample
end Verif
