/-
What the functions of libfsapfs do with the memory that they allocate.

Every function is modelled by a control flow graph over the places that hold pointers to allocated
memory: its local variables, the places `*x` that its callers provide, and the members `x->m` of
the structures that it is given or creates.  All else is left out: a condition that does not test
such a place is a choice, and so is whether a call succeeds.  A proof about all executions of the
graph therefore covers every point at which an allocation or a call can fail.

The graphs are in `Model/Owner*.lean`, one definition for each function, with the lines of the
function.  They were made from /repo by the rules that DESIGN.md states.
-/

namespace Verif.Owner

/-- A place that holds a pointer (or, for the return code `result`, a number).
`parent` is the place that holds the structure of which this is a member, `owned` says that the
function that frees that structure frees this member, `out` that this is the place in which the
function returns an object that its caller has to free, `root` that the caller provided it. -/
structure Cell where
  parent : Option Nat
  owned  : Bool
  out    : Bool
  root   : Bool

/-- A variable of the function. -/
abbrev loc : Cell := ⟨none, false, false, false⟩

/-- A place that the caller provides. -/
abbrev arg : Cell := ⟨none, false, false, true⟩

/-- A place in which the function returns an object that its caller has to free. -/
abbrev out : Cell := ⟨none, false, true, true⟩

/-- A member that the structure in `q` owns. -/
abbrev own (q : Nat) : Cell := ⟨some q, true, false, false⟩

/-- A member that the structure in `q` refers to without owning it. -/
abbrev part (q : Nat) : Cell := ⟨some q, false, false, false⟩

/-- The instructions.  `fresh x`, an allocation that succeeded (common/memory.h:51-69, or an
`_initialize` function that returned 1); `maybe x`, a member of which nothing is known but that
its structure owns it; `lend x`, a pointer to something that another structure owns; `kill x`,
`memory_free` (common/memory.h:91-101) or what an `_free` function does to its object; `give x`,
the call by which an array, a cache, a stream or an object becomes the owner; `forget x`, the
variable no longer refers to the structure that has this member. -/
inductive Instr where
  | fresh (x : Nat)
  | maybe (x : Nat)
  | lend (x : Nat)
  | null (x : Nat)
  | copy (x y : Nat)
  | kill (x : Nat)
  | give (x : Nat)
  | forget (x : Nat)
  | setn (x n : Nat)
  | test (x ifNull ifNot : Nat)
  | testn (x n ifEq ifNot : Nat)
  | same (x y ifEq ifNot : Nat)
  | choice (a b : Nat)
  | goto (a : Nat)
  | use (x : Nat)
  | deref (x : Nat)
  | live (x : Nat)
  | held (x : Nat)
  | none (x : Nat)
  | ret (ok : Bool)

/-- A function of the library. -/
structure Fn where
  cells : List Cell
  code  : List Instr

inductive Val where
  | null
  | addr (a : Nat)
  | num (n : Nat)
  deriving DecidableEq

/-- What is at an address: nothing yet, memory that is allocated and for which this function or one
of the structures that it sees is responsible, memory that belongs to something else, or memory that
was freed. -/
inductive Status where
  | unused
  | live
  | lent
  | freed
  deriving DecidableEq

structure St where
  pc   : Nat
  env  : Nat → Val
  heap : Nat → Status

def upd (f : Nat → α) (x : Nat) (v : α) : Nat → α := fun y => if y = x then v else f y

/-- Where a function starts: no place holds anything.  What its arguments and their members hold is
set by its first instructions. -/
def start : St := ⟨0, fun _ => .null, fun _ => .unused⟩

/-- One step.  An instruction that is not allowed in a state has no step from it. -/
inductive Step (p : Fn) : St → St → Prop where
  | fresh {s : St} {x a : Nat} (h : p.code[s.pc]? = some (.fresh x)) (ha : s.heap a = .unused) :
      Step p s ⟨s.pc + 1, upd s.env x (.addr a), upd s.heap a .live⟩
  | maybeNull {s : St} {x : Nat} (h : p.code[s.pc]? = some (.maybe x)) :
      Step p s ⟨s.pc + 1, upd s.env x .null, s.heap⟩
  | maybeLive {s : St} {x a : Nat} (h : p.code[s.pc]? = some (.maybe x)) (ha : s.heap a = .unused) :
      Step p s ⟨s.pc + 1, upd s.env x (.addr a), upd s.heap a .live⟩
  | lend {s : St} {x a : Nat} (h : p.code[s.pc]? = some (.lend x))
      (ha : s.heap a = .unused ∨ s.heap a = .lent) :
      Step p s ⟨s.pc + 1, upd s.env x (.addr a), upd s.heap a .lent⟩
  | null {s : St} {x : Nat} (h : p.code[s.pc]? = some (.null x)) :
      Step p s ⟨s.pc + 1, upd s.env x .null, s.heap⟩
  | copy {s : St} {x y : Nat} (h : p.code[s.pc]? = some (.copy x y)) :
      Step p s ⟨s.pc + 1, upd s.env x (s.env y), s.heap⟩
  | killNull {s : St} {x : Nat} (h : p.code[s.pc]? = some (.kill x)) (hx : s.env x = .null) :
      Step p s ⟨s.pc + 1, s.env, s.heap⟩
  | kill {s : St} {x a : Nat} (h : p.code[s.pc]? = some (.kill x)) (hx : s.env x = .addr a)
      (ha : s.heap a = .live) : Step p s ⟨s.pc + 1, s.env, upd s.heap a .freed⟩
  | giveNull {s : St} {x : Nat} (h : p.code[s.pc]? = some (.give x)) (hx : s.env x = .null) :
      Step p s ⟨s.pc + 1, s.env, s.heap⟩
  | give {s : St} {x a : Nat} (h : p.code[s.pc]? = some (.give x)) (hx : s.env x = .addr a)
      (ha : s.heap a = .live) : Step p s ⟨s.pc + 1, s.env, upd s.heap a .lent⟩
  | forget {s : St} {x a : Nat} (h : p.code[s.pc]? = some (.forget x)) (hx : s.env x = .addr a)
      (ha : s.heap a = .live) : Step p s ⟨s.pc + 1, s.env, upd s.heap a .lent⟩
  | forgetNot {s : St} {x : Nat} (h : p.code[s.pc]? = some (.forget x))
      (hx : ∀ a, s.env x = .addr a → s.heap a ≠ .live) : Step p s ⟨s.pc + 1, s.env, s.heap⟩
  | setn {s : St} {x n : Nat} (h : p.code[s.pc]? = some (.setn x n)) :
      Step p s ⟨s.pc + 1, upd s.env x (.num n), s.heap⟩
  | test {s : St} {x a b : Nat} (h : p.code[s.pc]? = some (.test x a b)) :
      Step p s ⟨if s.env x = .null then a else b, s.env, s.heap⟩
  | testn {s : St} {x n a b : Nat} (h : p.code[s.pc]? = some (.testn x n a b)) :
      Step p s ⟨if s.env x = .num n then a else b, s.env, s.heap⟩
  | same {s : St} {x y a b : Nat} (h : p.code[s.pc]? = some (.same x y a b)) :
      Step p s ⟨if s.env x = s.env y then a else b, s.env, s.heap⟩
  | choiceLeft {s : St} {a b : Nat} (h : p.code[s.pc]? = some (.choice a b)) :
      Step p s ⟨a, s.env, s.heap⟩
  | choiceRight {s : St} {a b : Nat} (h : p.code[s.pc]? = some (.choice a b)) :
      Step p s ⟨b, s.env, s.heap⟩
  | goto {s : St} {a : Nat} (h : p.code[s.pc]? = some (.goto a)) : Step p s ⟨a, s.env, s.heap⟩
  | use {s : St} {x : Nat} (h : p.code[s.pc]? = some (.use x)) : Step p s ⟨s.pc + 1, s.env, s.heap⟩
  | deref {s : St} {x : Nat} (h : p.code[s.pc]? = some (.deref x)) :
      Step p s ⟨s.pc + 1, s.env, s.heap⟩
  | live {s : St} {x : Nat} (h : p.code[s.pc]? = some (.live x)) :
      Step p s ⟨s.pc + 1, s.env, s.heap⟩
  | held {s : St} {x : Nat} (h : p.code[s.pc]? = some (.held x)) :
      Step p s ⟨s.pc + 1, s.env, s.heap⟩
  | none {s : St} {x : Nat} (h : p.code[s.pc]? = some (.none x)) :
      Step p s ⟨s.pc + 1, s.env, s.heap⟩

/-- The states that an execution can get into. -/
inductive Reach (p : Fn) : St → Prop where
  | start : Reach p start
  | step {s t : St} : Reach p s → Step p s t → Reach p t

end Verif.Owner
