import Verif.Model.Base
/-!
# A byte array with a position

Reading `n` bytes gives the next at most `n` bytes and moves the position behind them.
-/
namespace Verif.Spec
open Verif

inductive ArrayOp where
  | seek (pos : Nat)
  | read (n : Nat)

/-- the bytes the reads return, for seeks nothing -/
def arrayRun (data : Bytes) : Nat → List ArrayOp → List Bytes
  | _, [] => []
  | _, .seek p :: ops => arrayRun data p ops
  | pos, .read n :: ops => (data.drop pos).take n :: arrayRun data (pos + ((data.drop pos).take n).length) ops

end Verif.Spec
