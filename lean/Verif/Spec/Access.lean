import Verif.Model.Access
/-!
# Threads that use one handle

Any number of threads make calls for one handle, each one call after the other.  The lock of the handle
is held for reading by any number of threads or for writing by one.
-/
namespace Verif.Spec.Access

open Verif.Access

/-- how a thread holds the lock -/
inductive Mode where
  | none
  | read
  | write
deriving DecidableEq, Repr

/-- a thread: the call that it makes and the next instruction of it, and how it holds the lock -/
structure Thread where
  call : Option (Graph × Nat)
  mode : Mode

/-- the state of all threads -/
abbrev Config := Nat → Thread

/-- what a thread does in a step -/
inductive Event where
  /-- it begins a call -/
  | start
  | read (place : Nat)
  | write (place : Nat)
  /-- anything else -/
  | other
deriving DecidableEq, Repr

def upd (c : Config) (t : Nat) (s : Thread) : Config := fun u => if u = t then s else c u

/-- the next instruction of a thread -/
def At (c : Config) (t : Nat) (g : Graph) (i : Instr) : Prop :=
  ∃ pc, (c t).call = some (g, pc) ∧ g[pc]? = some i

/-- `Step api c t e c'`: thread `t` makes a step, calls are those of `api` -/
inductive Step (api : List Graph) : Config → Nat → Event → Config → Prop where
  | start {c t g} : (c t).call = none → g ∈ api →
      Step api c t .start (upd c t ⟨some (g, 0), (c t).mode⟩)
  | choice {c t g ns n} : At c t g (.choice ns) → n ∈ ns →
      Step api c t .other (upd c t ⟨some (g, n), (c t).mode⟩)
  | read {c t g p n} : At c t g (.read p n) →
      Step api c t (.read p) (upd c t ⟨some (g, n), (c t).mode⟩)
  | write {c t g p n} : At c t g (.write p n) →
      Step api c t (.write p) (upd c t ⟨some (g, n), (c t).mode⟩)
  /-- there can be other readers -/
  | grabRead {c t g n f} : At c t g (.grab false n f) → (∀ u, (c u).mode ≠ .write) →
      Step api c t .other (upd c t ⟨some (g, n), .read⟩)
  | grabWrite {c t g n f} : At c t g (.grab true n f) → (∀ u, (c u).mode = .none) →
      Step api c t .other (upd c t ⟨some (g, n), .write⟩)
  | grabFails {c t g w n f} : At c t g (.grab w n f) →
      Step api c t .other (upd c t ⟨some (g, f), (c t).mode⟩)
  | release {c t g n} : At c t g (.release n) →
      Step api c t .other (upd c t ⟨some (g, n), .none⟩)
  | ret {c t g} : At c t g .ret →
      Step api c t .other (upd c t ⟨none, (c t).mode⟩)

/-- at the start no thread makes a call -/
def initial : Config := fun _ => ⟨none, .none⟩

/-- `Run api c es c'`: from `c` the threads get to `c'` by the steps `es` -/
inductive Run (api : List Graph) : Config → List (Nat × Event) → Config → Prop where
  | nil {c} : Run api c [] c
  | cons {c t e c' es c''} : Step api c t e c' → Run api c' es c'' → Run api c ((t, e) :: es) c''

/-- two threads are about to access the same place, and one of them to change it -/
def Race (c : Config) : Prop :=
  ∃ t u p g h n m, t ≠ u ∧ At c t g (.write p n) ∧
    (At c u h (.write p m) ∨ At c u h (.read p m))

/-- no calls race, whatever the threads do -/
def NoRace (api : List Graph) : Prop := ∀ es c, Run api initial es c → ¬ Race c

/-- an event is an access of one of the places -/
def Event.touches (places : List Nat) : Event → Bool
  | .read p => places.contains p
  | .write p => places.contains p
  | _ => false

/-- an event changes one of the places -/
def Event.changes (places : List Nat) : Event → Bool
  | .write p => places.contains p
  | _ => false

/-- a thread does not begin another call -/
def SameCall (t : Nat) (es : List (Nat × Event)) : Prop := (t, .start) ∉ es

/-- Between two accesses that a call makes to the places, no other call changes one of them, and none
reads one if the call changes one: each call sees the places as if it were alone. -/
def Atomic (api : List Graph) (places : List Nat) : Prop :=
  ∀ es es₁ es₂ c t e e',
    Run api initial (es ++ (t, e) :: es₁ ++ (t, e') :: es₂) c → SameCall t es₁ →
    e.touches places → e'.touches places →
    ∀ u f, (u, f) ∈ es₁ → u ≠ t → f.touches places →
      ¬ f.changes places ∧ ¬ e.changes places ∧ ¬ e'.changes places

/-- calls change these places only -/
def Changed (api : List Graph) (places : List Nat) : Prop :=
  ∀ es c t p, Run api initial es c → (t, .write p) ∈ es → p ∈ places

end Verif.Spec.Access
