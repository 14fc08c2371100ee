import Verif.Lemmas.HostileVolume
/-! Sessions with hostile files -/
namespace Verif
open Res
namespace HostileExample
open Session

theorem far_ub : session plain Name.utf8 Name.utf8 0x2f image (script [] 7) = ub := by
  unfold session
  rw [opens, ok_bind, show (script [] 7).index = 0 from rfl, volume_opens, ok_bind]
  decide +kernel

theorem fork_ub : session plain Name.utf8 Name.utf8 0x2f image (script [] 8) = ub := by
  unfold session
  rw [opens, ok_bind, show (script [] 8).index = 0 from rfl, volume_opens, ok_bind]
  decide +kernel

end HostileExample
end Verif
