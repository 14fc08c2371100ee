import Verif.Model.AccessOf
import Verif.Lemmas.Abort

/-!
C87. A thread can ask a container to abort what it is doing (`libfsapfs_container_signal_abort`,
`signal_abort` in Python): it does not wait, even if another thread holds the lock of the container,
nothing else is changed, and the activity ends.

The last part is false: no function reads the flag that is set.  Whatever the functions do with what they
read, and whenever the call is made, the other threads do and read the same as without it.

Functions of volumes and what is obtained from them do not have the flag among their places
(`Model/AccessOf.lean`): the only line with it is the one that sets it (libfsapfs_container.c:264), and
closing clears it with the rest (libfsapfs_container.c:893, libfsapfs_io_handle.c:215-260).
-/
namespace Verif.Props

open Verif.Access Verif.Spec.Abort

/-- the flag -/
def abortFlag : Nat := 12

theorem c87_flag : Container.names[abortFlag]? = some "io_handle->abort" := rfl

/-- the functions of a container -/
def c87Calls : List Graph := Container.api.map (·.2)

/-- asking to abort takes six steps, whatever others do -/
theorem c87_does_not_wait_partial : Prompt Container.container_signal_abort 6 :=
  prompt_of_bounded (by decide +kernel)

/-- in these steps nothing but the flag is changed, and the lock is left alone -/
theorem c87_changes_only_flag_partial (k : Code) (s : State) (u : Nat) (h : (s.threads u).call = none) :
    SameBut abortFlag u s
      (run k s (Act.start u Container.container_signal_abort :: List.replicate 6 (.go u))) := by
  obtain ⟨h1, h2⟩ := start_same (p := abortFlag) (g := Container.container_signal_abort) k h
  refine h1.trans (go_quiet (g := Container.container_signal_abort) k (by decide +kernel) 6 _ ?_)
  intro g' pc e
  rw [h2] at e
  injection e with e; injection e with e _
  exact e.symm

/-- The activity does not end: whatever the threads do with a container, opening it included, they do
and read the same if another thread asks to abort meanwhile. -/
theorem c87_stops_nothing : StopsNothing c87Calls abortFlag Container.container_signal_abort 6 :=
  stopsNothing_of (by decide +kernel) (by decide +kernel) 6

/-- so that a container can be opened after it was asked to abort, and each call returns the same: the
flag that is set makes no difference, for any number of calls of any number of threads -/
theorem c87_flag_makes_no_difference (k : Code) (s : State) (v : Nat) (as : List Act) (u : Nat)
    (hm : Making c87Calls s) (hc : Calls c87Calls as) (ha : ∀ a ∈ as, a.thread ≠ u) :
    SameBut abortFlag u (run k s as) (run k { s with places := upd s.places abortFlag v } as) := by
  refine run_same k (by decide +kernel) hm hc ha ⟨fun _ _ => rfl, ?_, rfl, rfl⟩
  intro q hq
  simp [upd, hq]

/-- the code that takes the last way, or the way `n`, and writes one -/
def c87Code (n : Nat) : Code := ⟨fun _ _ _ => n, fun _ _ _ => 1, fun _ _ _ => false⟩

/-- no calls, and the places have their numbers as values -/
def c87State : State := ⟨fun _ => ⟨none, .none, []⟩, fun p => p, 0, false⟩

/-- a call that asks for the size waits for a thread that holds the lock, forever if it keeps it -/
theorem c87_size_waits (n : Nat) : ¬ Prompt Container.container_get_size n := by
  intro h
  have h' := h (c87Code 1) { c87State with writer := true } 0 rfl
  have inv : ∀ (m : Nat) (s : State), s.writer = true →
      (∃ pc, (s.threads 0).call = some (Container.container_get_size, pc) ∧ pc ∈ [0, 2, 3, 4, 5, 6]) →
      ((run (c87Code 1) s (List.replicate m (.go 0))).threads 0).call ≠ none := by
    intro m
    induction m with
    | zero => intro s _ ⟨pc, e, _⟩; show (s.threads 0).call ≠ none; rw [e]; exact nofun
    | succ m ih =>
      intro s hw ⟨pc, e, hpc⟩
      rw [List.replicate_succ]
      simp only [List.mem_cons, List.not_mem_nil, or_false] at hpc
      obtain rfl | rfl | rfl | rfl | rfl | rfl := hpc
      · refine ih (step (c87Code 1) s (.go 0)) ?_ ⟨2, ?_, by decide⟩
        · simp only [step, e]; exact hw
        · simp only [step, e]; rfl
      · refine ih (step (c87Code 1) s (.go 0)) ?_ ⟨3, ?_, by decide⟩
        · simp only [step, e]; exact hw
        · simp only [step, e]; rfl
      · refine ih (step (c87Code 1) s (.go 0)) ?_ ⟨4, ?_, by decide⟩
        · simp only [step, e]; exact hw
        · simp only [step, e]; rfl
      · refine ih (step (c87Code 1) s (.go 0)) ?_ ⟨5, ?_, by decide⟩
        · simp only [step, e]; exact hw
        · simp only [step, e]; rfl
      · refine ih (step (c87Code 1) s (.go 0)) ?_ ⟨6, ?_, by decide⟩
        · simp only [step, e]; exact hw
        · simp only [step, e]; rfl
      · have hs : step (c87Code 1) s (.go 0) = s := by
          simp [step, e, Container.container_get_size, exec, c87Code, hw]
        refine ih (step (c87Code 1) s (.go 0)) ?_ ⟨6, ?_, by decide⟩
        · rw [hs]; exact hw
        · rw [hs]; exact e
  exact inv n _ (by rfl) ⟨0, rfl, by decide⟩ h'

/-- A thread gets a volume; in the middle of it, with the lock held, another asks to abort.  The first
ends after all of its steps, having read seventeen values; the flag is set. -/
example :
    let as := Act.start 0 Container.container_get_volume_by_index :: List.replicate 12 (Act.go 0)
    let bs := List.replicate 20 (Act.go 0)
    Making c87Calls c87State ∧ Calls c87Calls as ∧ Calls c87Calls bs ∧
    (∀ a ∈ as ++ bs, a.thread ≠ 1) ∧ (c87State.threads 1).call = none ∧
    (run (c87Code 1) c87State as).readers = 1 ∧
    (let s := run (c87Code 1) c87State
        (as ++ (Act.start 1 Container.container_signal_abort :: List.replicate 6 (.go 1)) ++ bs)
     s.places abortFlag = 1 ∧ (s.threads 0).call = none ∧ (s.threads 0).seen.length = 17 ∧
       s.readers = 0) := by
  refine ⟨?_, ?_, ?_, by decide +kernel, rfl, by decide +kernel, by decide +kernel⟩
  · intro t g pc h; cases h
  · intro t g h
    simp only [List.mem_cons, List.mem_replicate, Act.start.injEq, reduceCtorEq, and_false, or_false] at h
    rw [h.2]; decide +kernel
  · intro t g h
    simp only [List.mem_replicate, reduceCtorEq, and_false] at h

/-- That no call is stopped is due to the functions: a function that reads the flag before it goes on
would return at once after it was set. -/
example :
    let g : Graph := [.read 12 1, .choice [2, 3], .ret, .read 18 4, .read 18 2]
    let k : Code := { c87Code 0 with way := fun _ _ seen => if seen.head? = some 1 then 0 else 1 }
    let s := { c87State with places := upd c87State.places abortFlag 0 }
    let as := [Act.start 0 g]
    let bs := List.replicate 5 (Act.go 0)
    ((run k s (as ++ bs)).threads 0).seen.length = 3 ∧
    ((run k s (as ++ (Act.start 1 Container.container_signal_abort :: List.replicate 6 (.go 1)) ++
      bs)).threads 0).seen.length = 1 := by
  decide +kernel

end Verif.Props
