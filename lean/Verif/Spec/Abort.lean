import Verif.Model.Access
/-!
# Calls that decide by what they read

The graphs of calls (`Model/Access.lean`) leave values out.  Here they get them: a call chooses, and
writes, by what it has read since it began.  How it does is left open (`Code`), so that what is said for
all of them is said for the functions of the library.
-/
namespace Verif.Spec.Abort

open Verif.Access

/-- how calls use what they read: for a function, an instruction and the values read so far -/
structure Code where
  /-- which way it goes -/
  way : Graph → Nat → List Nat → Nat
  /-- what it writes -/
  value : Graph → Nat → List Nat → Nat
  /-- whether grabbing the lock fails -/
  fails : Graph → Nat → List Nat → Bool

inductive Mode where
  | none
  | read
  | write
deriving DecidableEq, Repr

/-- a thread: the call that it makes and the next instruction, how it holds the lock, and the values that
its last call has read, the last first.  What a call returns follows from these values. -/
structure Thread where
  call : Option (Graph × Nat)
  mode : Mode
  seen : List Nat
deriving DecidableEq

/-- the threads, the values of the places, and the lock -/
structure State where
  threads : Nat → Thread
  places : Nat → Nat
  readers : Nat
  writer : Bool

def upd {α : Type} (f : Nat → α) (k : Nat) (v : α) : Nat → α := fun i => if i = k then v else f i

def State.put (s : State) (t : Nat) (x : Thread) : State := { s with threads := upd s.threads t x }

/-- releasing the lock -/
def State.unlock (s : State) : Mode → State
  | .none => s
  | .read => { s with readers := s.readers - 1 }
  | .write => { s with writer := false }

/-- an instruction; a thread that has to wait for the lock stays where it is -/
def exec (k : Code) (s : State) (t : Nat) (x : Thread) (g : Graph) (pc : Nat) : Instr → State
  | .choice ns => s.put t { x with call := some (g, (ns[k.way g pc x.seen % ns.length]?).getD pc) }
  | .read p n => s.put t { x with call := some (g, n), seen := s.places p :: x.seen }
  | .write p n =>
    { s with places := upd s.places p (k.value g pc x.seen) }.put t { x with call := some (g, n) }
  | .grab w n f =>
    if k.fails g pc x.seen then s.put t { x with call := some (g, f) }
    else if w then
      if s.readers = 0 ∧ s.writer = false then
        { s with writer := true }.put t { x with call := some (g, n), mode := .write }
      else s
    else
      if s.writer = false then
        { s with readers := s.readers + 1 }.put t { x with call := some (g, n), mode := .read }
      else s
  | .release n => (s.unlock x.mode).put t { x with call := some (g, n), mode := .none }
  | .ret => s.put t { x with call := none }

/-- what the scheduler does: it lets a thread begin a call, or go on with the one it makes -/
inductive Act where
  | start (t : Nat) (g : Graph)
  | go (t : Nat)
deriving DecidableEq

def Act.thread : Act → Nat
  | .start t _ => t
  | .go t => t

def step (k : Code) (s : State) : Act → State
  | .start t g =>
    match (s.threads t).call with
    | none => s.put t { s.threads t with call := some (g, 0), seen := [] }
    | some _ => s
  | .go t =>
    match (s.threads t).call with
    | none => s
    | some (g, pc) =>
      match g[pc]? with
      | none => s
      | some i => exec k s t (s.threads t) g pc i

def run (k : Code) : State → List Act → State
  | s, [] => s
  | s, a :: as => run k (step k s a) as

/-- the calls that a schedule begins -/
def Calls (api : List Graph) (as : List Act) : Prop := ∀ t g, Act.start t g ∈ as → g ∈ api

/-- the calls that are being made -/
def Making (api : List Graph) (s : State) : Prop := ∀ t g pc, (s.threads t).call = some (g, pc) → g ∈ api

/-- the same but for a place and a thread -/
def SameBut (p u : Nat) (s s' : State) : Prop :=
  (∀ t, t ≠ u → s'.threads t = s.threads t) ∧ (∀ q, q ≠ p → s'.places q = s.places q) ∧
    s'.readers = s.readers ∧ s'.writer = s.writer

/-- setting a place between two parts of what the threads do, by a call of another thread, changes
nothing of what they do and read -/
def StopsNothing (api : List Graph) (p : Nat) (g : Graph) (steps : Nat) : Prop :=
  ∀ (k : Code) (s : State) (u : Nat) (as bs : List Act),
    Making api s → Calls api as → Calls api bs →
    (∀ a ∈ as ++ bs, a.thread ≠ u) → (s.threads u).call = none →
    SameBut p u (run k s (as ++ bs))
      (run k s (as ++ (Act.start u g :: List.replicate steps (.go u)) ++ bs))

/-- a call returns after so many steps of its thread, whatever locks are held -/
def Prompt (g : Graph) (steps : Nat) : Prop :=
  ∀ (k : Code) (s : State) (u : Nat), (s.threads u).call = none →
    ((run k s (Act.start u g :: List.replicate steps (.go u))).threads u).call = none

end Verif.Spec.Abort
