import Verif.Spec.Ownership

/-!
A checker for `Safe`, and that it is right.

An abstract state has one number for each cell: 0 NULL, 1 a pointer to something that belongs to
another structure, 2 a pointer to freed memory, 3 NULL or a pointer to memory that no other cell
points to, 4 + 2 k a pointer to the allocated memory of group k, 5 + 2 n the number n.
-/

noncomputable section

namespace Verif.Owner

/-! The recursions are written with `List.rec`, which the kernel evaluates faster. -/

/-- `l[i]?` -/
def nth {α : Type} (l : List α) : Nat → Option α :=
  @List.rec α (fun _ => Nat → Option α) (fun _ => none)
    (fun a _ ih i => @Nat.rec (fun _ => Option α) (some a) (fun j _ => ih j) i) l

def isOwn (v : Nat) : Bool := Nat.ble 4 v && Nat.beq (Nat.mod v 2) 0

def isNum (v : Nat) : Bool := Nat.ble 5 v && Nat.beq (Nat.mod v 2) 1

def has (σ : List Nat) (v : Nat) : Bool :=
  @List.rec Nat (fun _ => Bool) false (fun w _ ih => Nat.beq w v || ih) σ

/-- Another cell than x has the value v. -/
def elsewhere (σ : List Nat) : Nat → Nat → Bool :=
  @List.rec Nat (fun _ => Nat → Nat → Bool) (fun _ _ => false)
    (fun u l ih x v => @Nat.rec (fun _ => Bool) (has l v) (fun y _ => Nat.beq u v || ih y v) x) σ

/-- Overwriting the cell x loses nothing. -/
def mayLose (σ : List Nat) (x : Nat) : Bool :=
  match nth σ x with
  | none => false
  | some v => !(Nat.beq v 3) && (!(isOwn v) || elsewhere σ x v)

/-- A group that is not in use. -/
def newOwn (σ : List Nat) : Nat → Nat → Nat
  | 0, v => v
  | f + 1, v => if has σ v then newOwn σ f (v + 2) else v

def swapAll (σ : List Nat) (v w : Nat) : List Nat := σ.map (fun u => bif Nat.beq u v then w else u)

/-- The cell x points to memory that no other cell points to. -/
def owning (σ : List Nat) (x : Nat) : Option (List Nat × Nat) :=
  let k := newOwn σ σ.length 4
  bif has σ k || !(isOwn k) then none else some (σ.set x k, k)

def validCode (v : Nat) : Bool := Nat.beq v 1 || isOwn v

def parentValid (σ : List Nat) (i : Cell) : Bool :=
  match i.parent with
  | none => false
  | some q => match nth σ q with
    | none => false
    | some v => validCode v

def keepsCode (ok : Bool) (σ : List Nat) (i : Cell) : Bool :=
  (i.out && ok) || (i.owned && parentValid σ i)

def keptBy (ok : Bool) (σ : List Nat) (v : Nat) : List Cell → List Nat → Bool
  | i :: is, w :: ws => (Nat.beq w v && keepsCode ok σ i) || keptBy ok σ v is ws
  | _, _ => false

/-- The parent is certainly not there. -/
def parentGone (σ : List Nat) (i : Cell) : Bool :=
  match i.parent with
  | none => true
  | some q => match nth σ q with
    | none => false
    | some v => Nat.beq v 0 || Nat.beq v 2 || isNum v

def retCell (ok : Bool) (cells : List Cell) (σ : List Nat) (i : Cell) (v : Nat) : Bool :=
  bif isOwn v then keptBy ok σ v cells σ
  else bif Nat.beq v 3 then keepsCode ok σ i
  else bif Nat.beq v 2 then !i.root && parentGone σ i
  else true

def retCells (ok : Bool) (cells : List Cell) (σ : List Nat) : List Cell → List Nat → Bool
  | [], [] => true
  | i :: is, v :: vs => retCell ok cells σ i v && retCells ok cells σ is vs
  | _, _ => false

/-- What can become of an abstract state: the instructions and states that follow, `none` if the
state is not good. -/
def astep (p : Fn) (pc : Nat) (σ : List Nat) : Instr → Option (List (Nat × List Nat))
  | .fresh x => bif mayLose σ x then (owning σ x).map (fun r => [(pc + 1, r.1)]) else none
  | .maybe x => bif mayLose σ x then some [(pc + 1, σ.set x 3)] else none
  | .lend x => bif mayLose σ x then some [(pc + 1, σ.set x 1)] else none
  | .null x => bif mayLose σ x then some [(pc + 1, σ.set x 0)] else none
  | .copy x y =>
    bif mayLose σ x && !(Nat.beq x y) then
      match nth σ y with
      | none => none
      | some v =>
        bif Nat.beq v 3 then
          (owning σ y).map (fun r =>
            [(pc + 1, r.1.set x r.2), (pc + 1, (σ.set y 0).set x 0)])
        else some [(pc + 1, σ.set x v)]
    else none
  | .kill x =>
    match nth σ x with
    | none => none
    | some v =>
      bif Nat.beq v 0 then some [(pc + 1, σ)]
      else bif Nat.beq v 3 then
        (owning σ x).map (fun r => [(pc + 1, σ.set x 0), (pc + 1, swapAll r.1 r.2 2)])
      else bif isOwn v then some [(pc + 1, swapAll σ v 2)]
      else none
  | .give x =>
    match nth σ x with
    | none => none
    | some v =>
      bif Nat.beq v 0 then some [(pc + 1, σ)]
      else bif Nat.beq v 3 then
        (owning σ x).map (fun r => [(pc + 1, σ.set x 0), (pc + 1, swapAll r.1 r.2 1)])
      else bif isOwn v then some [(pc + 1, swapAll σ v 1)]
      else none
  | .forget x =>
    match nth σ x with
    | none => none
    | some v =>
      bif Nat.beq v 3 then
        (owning σ x).map (fun r => [(pc + 1, σ.set x 0), (pc + 1, swapAll r.1 r.2 1)])
      else bif isOwn v then some [(pc + 1, swapAll σ v 1)]
      else some [(pc + 1, σ)]
  | .setn x n => bif mayLose σ x then some [(pc + 1, σ.set x (2 * n + 5))] else none
  | .test x a b =>
    match nth σ x with
    | none => none
    | some v =>
      bif Nat.beq v 3 then (owning σ x).map (fun r => [(a, σ.set x 0), (b, r.1)])
      else bif Nat.beq v 0 then some [(a, σ)]
      else some [(b, σ)]
  | .testn x n a b =>
    match nth σ x with
    | none => none
    | some v => some [(bif Nat.beq v (2 * n + 5) then a else b, σ)]
  | .same x y a b =>
    bif Nat.beq x y then none else
    match nth σ x, nth σ y with
    | some v, some w =>
      bif isOwn v || isOwn w then some [(bif Nat.beq v w then a else b, σ)]
      else bif Nat.beq v 0 && Nat.beq w 0 then some [(a, σ)]
      else some [(a, σ), (b, σ)]
    | _, _ => none
  | .choice a b => some [(a, σ), (b, σ)]
  | .goto a => some [(a, σ)]
  | .use x =>
    match nth σ x with
    | none => none
    | some v => bif Nat.beq v 2 then none else some [(pc + 1, σ)]
  | .deref x =>
    match nth σ x with
    | none => none
    | some v => bif validCode v then some [(pc + 1, σ)] else none
  | .live x =>
    match nth σ x with
    | none => none
    | some v => bif isOwn v then some [(pc + 1, σ)] else none
  | .held x =>
    match nth σ x with
    | none => none
    | some v => bif isOwn v || Nat.beq v 0 || Nat.beq v 3 then some [(pc + 1, σ)] else none
  | .none x =>
    match nth σ x with
    | none => none
    | some v => bif Nat.beq v 0 then some [(pc + 1, σ)] else none
  | .ret ok => bif retCells ok p.cells σ p.cells σ then some [] else none

/-- The same abstract state. -/
def eqCodes (l : List Nat) : List Nat → Bool :=
  @List.rec Nat (fun _ => List Nat → Bool)
    (fun m => match m with | [] => true | _ :: _ => false)
    (fun u _ ih m => match m with | [] => false | v :: m => Nat.beq u v && ih m) l

/-- An abstract state as one number. -/
def encode (l : List Nat) : Nat :=
  @List.rec Nat (fun _ => Nat) 0 (fun u _ ih => Nat.add u (Nat.mul 64 ih)) l

/-- Evaluates a number before it is used. -/
def forceNat (n : Nat) (f : Nat → Bool) : Bool :=
  @Nat.rec (fun _ => Bool) (f 0) (fun m _ => f (Nat.succ m)) n

/-- Evaluates a list before it is used. -/
def forceList (l : List Nat) : (List Nat → Bool) → Bool :=
  @List.rec Nat (fun _ => (List Nat → Bool) → Bool) (fun f => f [])
    (fun u _ ih f => forceNat u (fun u => ih (fun l => f (u :: l)))) l

/-- What was seen with the number k. -/
def find (k : Nat) (t : List (Nat × Nat × List Nat)) : Option (Nat × List Nat) :=
  @List.rec (Nat × Nat × List Nat) (fun _ => Option (Nat × List Nat)) none
    (fun e _ ih => bif Nat.beq e.1 k then some e.2 else ih) t

/-- The states at these instructions are kept.  Every cycle has a jump; after a `kill` states become
equal again. -/
def isKept : Instr → Bool
  | .choice _ _ => true
  | .test _ _ _ => true
  | .testn _ _ _ _ => true
  | .same _ _ _ _ => true
  | .goto _ => true
  | .kill _ => true
  | _ => false

/-- Takes a state of those that are to be done; `t` is what was seen. -/
def followOne (p : Fn) (ih : List (Nat × List Nat) → List (Nat × Nat × List Nat) → Bool)
    (todo : List (Nat × List Nat)) (t : List (Nat × Nat × List Nat)) : Bool :=
  match todo with
  | [] => true
  | (pc, σ) :: w =>
    forceNat pc (fun pc => forceList σ (fun σ =>
      match nth p.code pc with
      | none => false
      | some i =>
        match isKept i with
        | false =>
          match astep p pc σ i with
          | none => false
          | some l => ih (List.append l w) t
        | true =>
          forceNat (Nat.add (Nat.mul 4096 (encode σ)) pc) (fun k =>
            match find k t with
            | some e => Nat.beq e.1 pc && eqCodes e.2 σ && ih w t
            | none =>
              match astep p pc σ i with
              | none => false
              | some l => ih (List.append l w) ((k, pc, σ) :: t))))

/-- Follows all states. -/
def follow (p : Fn) (fuel : Nat) : List (Nat × List Nat) → List (Nat × Nat × List Nat) → Bool :=
  @Nat.rec (fun _ => List (Nat × List Nat) → List (Nat × Nat × List Nat) → Bool) (fun _ _ => false)
    (fun _ ih => followOne p ih) fuel

/-- The check. -/
def check (fuel : Nat) (p : Fn) : Bool :=
  follow p fuel [(0, List.replicate p.cells.length 0)] []

end Verif.Owner
