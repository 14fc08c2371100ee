import Verif.Model.Lifecycle
/-!
# Open and close as a state machine

What a caller relies on, in terms of calls and outcomes (`Life.Event`) only.
-/
namespace Verif.Spec
open Verif.Life

/-- a container is closed, or open with what was read from it -/
inductive Phase where
  | closed
  | opened (i : Info)
deriving DecidableEq, Repr

/-- outcome of a query -/
def answer {α : Type} (g : Info → α) : Phase → Outcome α
  | .closed => .fail
  | .opened i => .ok (g i)

/-- the allowed outcomes of a call and the state after it -/
inductive Accepts : Phase → Event → Phase → Prop where
  | openHandleAgain {i k} : Accepts (.opened i) (.openHandle k .fail) (.opened i)
  | openHandleFailed {k} : Accepts .closed (.openHandle k .fail) .closed
  | openHandle {k i} : Accepts .closed (.openHandle k (.ok ())) (.opened i)
  | openPathAgain {i} : Accepts (.opened i) (.openPath .fail) (.opened i)
  | openPathFailed : Accepts .closed (.openPath .fail) .closed
  | openPath {i} : Accepts .closed (.openPath (.ok ())) (.opened i)
  | closeAgain : Accepts .closed (.close .fail) .closed
  | close {i} : Accepts (.opened i) (.close (.ok ())) .closed
  | closeError {i} : Accepts (.opened i) (.close .fail) .closed
  | getSize {p} : Accepts p (.getSize (answer Info.size p)) p
  | getNumberOfVolumes {p} : Accepts p (.getNumberOfVolumes (answer Info.volumes p)) p
  | getIdentifier {p} : Accepts p (.getIdentifier (answer Info.identifier p)) p
  | isLocked {p} : Accepts p (.isLocked (answer Info.locked p)) p
  | getVolume {i k} : 0 ≤ k → k < i.volumes → Accepts (.opened i) (.getVolume k (.ok ())) (.opened i)
  | getVolumeFailed {p k} : Accepts p (.getVolume k .fail) p
  | caller {p k v} : Accepts p (.caller k v) p

inductive Accepted : Phase → List Event → Phase → Prop where
  | nil {p} : Accepted p [] p
  | snoc {p es q e r} : Accepted p es q → Accepts q e r → Accepted p (es ++ [e]) r

/-- what the caller last did with its handle `k` -/
def wanted (io : Nat → Io) (es : List Event) (k : Nat) : Io :=
  es.foldl (fun v e => match e with | .caller j w => if j = k then w else v | _ => v) (io k)

end Verif.Spec
