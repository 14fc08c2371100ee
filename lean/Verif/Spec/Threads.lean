import Verif.Model.Threads
/-!
# What users of several threads rely on

No two threads access the same memory at the same time unless both only read it, and the calls have the results they have when they are made one after the other in some order.
-/
namespace Verif
open Res NodeCache Threads
namespace Spec.Threads

/-- the next step changes the values of the cache -/
def Writes {α : Type} (c : Call α) : Prop := ∃ b n k, c.body = .insert b n k

/-- the next step uses the cache or a node of the cache -/
def Uses {α : Type} (c : Call α) : Prop := ∀ r, c.body ≠ .ret r

/-- two threads are about to use the cache and one of them to change it, and no lock keeps them apart -/
def Race {α : Type} (s : System α) : Prop := ∃ i j a b, i ≠ j ∧ (s.threads i).current = some a ∧ (s.threads j).current = some b ∧ Writes a ∧ Uses b

/-- calls that are made one after the other: the results, in the order of the calls, and the cache -/
def serial {α : Type} (p : Policy) : List (Call α) → Cache → List (Res α) × Cache
  | [], c => ([], c)
  | a :: l, c => ((a.body.run p c).1 :: (serial p l (a.body.run p c).2).1, (serial p l (a.body.run p c).2).2)

/-- all calls were made -/
def Finished {α : Type} (s : System α) : Prop := ∀ i, (s.threads i).current = none ∧ (s.threads i).todo = []

/-- what concerns one thread -/
def part {β : Type} (i : Nat) (l : List (Nat × β)) : List β := (l.filter fun x => x.1 = i).map (·.2)

/-- The results of the threads are those of the calls in the order `order`, in which each thread makes its calls in their order. -/
def Explains {α : Type} (p : Policy) (c : Cache) (work : Nat → List (Call α)) (s : System α) (order : List (Nat × Call α)) : Prop :=
  (∀ i, part i order = work i) ∧ (∀ i, (s.threads i).results = part i ((order.map (·.1)).zip (serial p (order.map (·.2)) c).1)) ∧ s.cache = (serial p (order.map (·.2)) c).2

end Spec.Threads
end Verif
