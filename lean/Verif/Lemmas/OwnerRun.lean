import Verif.Lemmas.Owner

/-!
Runs a function with given choices, to show that it can get into a state that is not good.
-/

namespace Verif.Owner

open Verif.Spec.Owner

/-- A state with finitely many cells and addresses. -/
structure CSt where
  pc   : Nat
  env  : List Val
  heap : List Status

def CSt.st (s : CSt) : St := ⟨s.pc, fun i => s.env.getD i .null, fun a => s.heap.getD a .unused⟩

/-- The cell x gets the value v. -/
def CSt.put (s : CSt) (x : Nat) (v : Val) (h : List Status) : Option CSt :=
  if x < s.env.length then some ⟨s.pc + 1, s.env.set x v, h⟩ else none

/-- What is in the cell x is freed or given away; not if it is neither NULL nor allocated. -/
def CSt.release (s : CSt) (x : Nat) (st : Status) : Option CSt :=
  match s.env.getD x .null with
  | .null => some ⟨s.pc + 1, s.env, s.heap⟩
  | .num _ => none
  | .addr a =>
    if s.heap.getD a .unused = .live then some ⟨s.pc + 1, s.env, s.heap.set a st⟩ else none

def cstep (s : CSt) (b : Bool) : Instr → Option CSt
  | .fresh x => s.put x (.addr s.heap.length) (s.heap ++ [.live])
  | .maybe x => if b then s.put x (.addr s.heap.length) (s.heap ++ [.live]) else s.put x .null s.heap
  | .lend x => s.put x (.addr s.heap.length) (s.heap ++ [.lent])
  | .null x => s.put x .null s.heap
  | .copy x y => s.put x (s.env.getD y .null) s.heap
  | .kill x => s.release x .freed
  | .give x => s.release x .lent
  | .forget x =>
    match s.env.getD x .null with
    | .addr a =>
      if s.heap.getD a .unused = .live then some ⟨s.pc + 1, s.env, s.heap.set a .lent⟩
      else some ⟨s.pc + 1, s.env, s.heap⟩
    | _ => some ⟨s.pc + 1, s.env, s.heap⟩
  | .setn x n => s.put x (.num n) s.heap
  | .test x a b => some ⟨if s.env.getD x .null = .null then a else b, s.env, s.heap⟩
  | .testn x n a b => some ⟨if s.env.getD x .null = .num n then a else b, s.env, s.heap⟩
  | .same x y a b => some ⟨if s.env.getD x .null = s.env.getD y .null then a else b, s.env, s.heap⟩
  | .choice l r => some ⟨if b then l else r, s.env, s.heap⟩
  | .goto a => some ⟨a, s.env, s.heap⟩
  | .use _ => some ⟨s.pc + 1, s.env, s.heap⟩
  | .deref _ => some ⟨s.pc + 1, s.env, s.heap⟩
  | .live _ => some ⟨s.pc + 1, s.env, s.heap⟩
  | .held _ => some ⟨s.pc + 1, s.env, s.heap⟩
  | .none _ => some ⟨s.pc + 1, s.env, s.heap⟩
  | .ret _ => none

/-- Runs as many steps as there are choices; a choice is not looked at by most instructions. -/
def crun (p : Fn) : List Bool → CSt → Option CSt
  | [], s => some s
  | b :: bs, s =>
    match p.code[s.pc]? with
    | none => none
    | some i => match cstep s b i with
      | none => none
      | some t => crun p bs t

theorem getD_beyond {α : Type} {l : List α} {i : Nat} {d : α} (h : l.length ≤ i) : l.getD i d = d := by
  simp [List.getD, List.getElem?_eq_none h]

theorem getD_set_eq {α : Type} {l : List α} {x : Nat} {v d : α} (h : x < l.length) :
    (fun i => (l.set x v).getD i d) = upd (fun i => l.getD i d) x v := by
  funext i
  by_cases e : i = x
  · subst e; rw [upd_same]; simp [h]
  · rw [upd_ne e]; simp [List.getElem?_set_ne (fun c => e c.symm)]

theorem getD_append_eq {α : Type} {l : List α} {v d : α} :
    (fun i => (l ++ [v]).getD i d) = upd (fun i => l.getD i d) l.length v := by
  funext i
  by_cases e : i = l.length
  · subst e; rw [upd_same]; simp
  · rw [upd_ne e]
    by_cases c : i < l.length
    · simp [List.getElem?_append_left c]
    · rw [getD_beyond (by simp; omega), getD_beyond (by omega)]

theorem put_st {s t : CSt} {x : Nat} {v : Val} {h : List Status} (e : s.put x v h = some t) :
    t.st = ⟨s.st.pc + 1, upd s.st.env x v, fun a => h.getD a .unused⟩ := by
  simp only [CSt.put] at e
  split at e
  · next hx => cases e; simp only [CSt.st, getD_set_eq hx]
  · cases e

theorem heap_end {s : CSt} : s.st.heap s.heap.length = .unused := by
  simp [CSt.st]

theorem set_heap {s : CSt} {a : Nat} {st : Status} (h : s.heap.getD a .unused = .live) :
    (fun b => (s.heap.set a st).getD b .unused) = upd s.st.heap a st := by
  refine getD_set_eq ?_
  by_cases c : a < s.heap.length
  · exact c
  · rw [getD_beyond (by omega)] at h; cases h

theorem set_st {s : CSt} {a : Nat} {st : Status} (h : s.heap.getD a .unused = .live) :
    (⟨s.pc + 1, s.env, s.heap.set a st⟩ : CSt).st = ⟨s.st.pc + 1, s.st.env, upd s.st.heap a st⟩ := by
  rw [← set_heap h]; rfl

theorem cstep_step {p : Fn} {s t : CSt} {b : Bool} {i : Instr} (hc : p.code[s.pc]? = some i)
    (h : cstep s b i = some t) : Step p s.st t.st := by
  cases i <;> simp only [cstep] at h
  case fresh x => rw [put_st h, getD_append_eq]; exact .fresh hc heap_end
  case maybe x =>
    split at h
    · rw [put_st h, getD_append_eq]; exact .maybeLive hc heap_end
    · rw [put_st h]; exact .maybeNull hc
  case lend x => rw [put_st h, getD_append_eq]; exact .lend hc (.inl heap_end)
  case null x => rw [put_st h]; exact .null hc
  case copy x y => rw [put_st h]; exact .copy (s := s.st) hc
  case kill x =>
    simp only [CSt.release] at h
    split at h
    · next e => cases h; exact .killNull (s := s.st) hc e
    · cases h
    · next a e =>
      split at h
      · next hl => cases h; rw [set_st hl]; exact .kill (s := s.st) hc e hl
      · cases h
  case give x =>
    simp only [CSt.release] at h
    split at h
    · next e => cases h; exact .giveNull (s := s.st) hc e
    · cases h
    · next a e =>
      split at h
      · next hl => cases h; rw [set_st hl]; exact .give (s := s.st) hc e hl
      · cases h
  case forget x =>
    split at h
    · next a e =>
      split at h
      · next hl => cases h; rw [set_st hl]; exact .forget (s := s.st) hc e hl
      · next hl =>
        cases h
        refine .forgetNot (s := s.st) hc (fun d ed => ?_)
        have : s.env.getD x .null = .addr d := ed
        rw [e] at this; cases this; exact hl
    · next e =>
      cases h
      refine .forgetNot (s := s.st) hc (fun d ed => ?_)
      exact absurd ed (e d)
  case setn x n => rw [put_st h]; exact .setn hc
  case test x a b => cases h; exact .test (s := s.st) hc
  case testn x n a b => cases h; exact .testn (s := s.st) hc
  case same x y a b => cases h; exact .same (s := s.st) hc
  case choice l r =>
    cases b
    · cases h; exact .choiceRight (s := s.st) hc
    · cases h; exact .choiceLeft (s := s.st) hc
  case goto a => cases h; exact .goto (s := s.st) hc
  case use x => cases h; exact .use (s := s.st) hc
  case deref x => cases h; exact .deref (s := s.st) hc
  case live x => cases h; exact .live (s := s.st) hc
  case held x => cases h; exact .held (s := s.st) hc
  case none x => cases h; exact .none (s := s.st) hc
  case ret ok => cases h

theorem crun_reach {p : Fn} {bs : List Bool} {s t : CSt} (hs : Reach p s.st) (h : crun p bs s = some t) :
    Reach p t.st := by
  induction bs generalizing s with
  | nil => cases h; exact hs
  | cons b bs ih =>
    simp only [crun] at h
    split at h
    · cases h
    · next i hi =>
      split at h
      · cases h
      · next u hu => exact ih (.step hs (cstep_step hi hu)) h

def cstart (p : Fn) : CSt := ⟨0, List.replicate p.cells.length .null, []⟩

theorem cstart_st {p : Fn} : (cstart p).st = start := by
  simp only [cstart, CSt.st, start]
  congr 1
  funext i
  by_cases c : i < p.cells.length
  · simp [c]
  · simp [c]

def validB (s : CSt) (q : Nat) : Bool :=
  match s.env.getD q .null with
  | .addr a => match s.heap.getD a .unused with
    | .live => true
    | .lent => true
    | _ => false
  | _ => false

theorem validB_of {s : CSt} {q : Nat} (h : Valid s.st (s.st.env q)) : validB s q = true := by
  obtain ⟨a, ea, ha⟩ := h
  have ea' : s.env.getD q .null = .addr a := ea
  have ha' : s.heap.getD a .unused = .live ∨ s.heap.getD a .unused = .lent := ha
  simp only [validB, ea']
  rcases ha' with h | h <;> rw [h]

theorem of_validB {s : CSt} {q : Nat} (h : validB s q = true) : Valid s.st (s.st.env q) := by
  simp only [validB] at h
  split at h
  · next a ea =>
    refine ⟨a, ea, ?_⟩
    split at h
    · next hl => exact .inl hl
    · next hl => exact .inr hl
    · cases h
  · cases h

def keepsB (ok : Bool) (s : CSt) (i : Cell) : Bool :=
  (i.out && ok) || (i.owned && match i.parent with | none => false | some q => validB s q)

def pointsTo (v : Val) (a : Nat) : Bool := match v with | .addr b => Nat.beq b a | _ => false

/-- The address a is allocated and nothing keeps it. -/
def lostB (p : Fn) (ok : Bool) (s : CSt) (a : Nat) : Bool :=
  decide (s.heap.getD a .unused = .live) &&
    (List.range s.env.length).all (fun c => !(pointsTo (s.env.getD c .null) a) ||
      match p.cells[c]? with | none => true | some i => !(keepsB ok s i))

theorem lost_leaks {p : Fn} {ok : Bool} {s : CSt} {a : Nat} (h : lostB p ok s a = true) :
    ¬ NoLeak p ok s.st := by
  simp only [lostB, Bool.and_eq_true, decide_eq_true_eq, List.all_eq_true, Bool.or_eq_true,
    Bool.not_eq_true', List.mem_range] at h
  intro hn
  obtain ⟨c, ec, i, hi, hk⟩ := hn a h.1
  have ec' : s.env.getD c .null = .addr a := ec
  have hc : c < s.env.length := by
    by_cases q : c < s.env.length
    · exact q
    · rw [getD_beyond (by omega)] at ec'; cases ec'
  have := h.2 c hc
  rw [ec', hi] at this
  rcases this with this | this
  · simp only [pointsTo, beq_false] at this; exact this rfl
  · have kk : keepsB ok s i = true := by
      simp only [keepsB, Bool.or_eq_true, Bool.and_eq_true]
      rcases hk with hk | ⟨ho, q, hq, hv⟩
      · exact .inl hk
      · exact .inr ⟨ho, by rw [hq]; exact validB_of hv⟩
    dsimp only at this
    rw [kk] at this; cases this

/-- The cell c is seen by the caller and points to freed memory. -/
def dangB (p : Fn) (s : CSt) (c : Nat) : Bool :=
  match p.cells[c]? with
  | none => false
  | some i => match s.env.getD c .null with
    | .addr a => decide (s.heap.getD a .unused = .freed) &&
        (i.root || match i.parent with | none => false | some q => validB s q)
    | _ => false

theorem dang_dangles {p : Fn} {s : CSt} {c : Nat} (h : dangB p s c = true) : ¬ NoDangling p s.st := by
  simp only [dangB] at h
  split at h
  · cases h
  · next i hi =>
    split at h
    · next a ea =>
      simp only [Bool.and_eq_true, decide_eq_true_eq, Bool.or_eq_true] at h
      intro hn
      obtain ⟨h1, h2⟩ := hn c i a hi ea h.1
      rcases h.2 with r | r
      · rw [r] at h1; cases h1
      · split at r
        · cases r
        · next q hq => exact h2 q hq (of_validB r)
    · cases h

def retB : Option Instr → Bool → Bool
  | some (.ret true), true => true
  | some (.ret false), false => true
  | _, _ => false

theorem retB_eq {i : Option Instr} {ok : Bool} (h : retB i ok = true) : i = some (.ret ok) := by
  unfold retB at h
  split at h
  · rfl
  · rfl
  · cases h

/-- The choices lead to a return that loses the memory at a. -/
def leakRun (p : Fn) (ok : Bool) (bs : List Bool) (a : Nat) : Bool :=
  match crun p bs (cstart p) with
  | none => false
  | some t => retB p.code[t.pc]? ok && lostB p ok t a

/-- The choices lead to a return that leaves the cell c dangling. -/
def dangRun (p : Fn) (ok : Bool) (bs : List Bool) (c : Nat) : Bool :=
  match crun p bs (cstart p) with
  | none => false
  | some t => retB p.code[t.pc]? ok && dangB p t c

theorem leakRun_leaks {p : Fn} {ok : Bool} (bs : List Bool) (a : Nat) (h : leakRun p ok bs a = true) :
    Leaks p ok := by
  simp only [leakRun] at h
  split at h
  · cases h
  · next t ht =>
    simp only [Bool.and_eq_true] at h
    exact ⟨t.st, crun_reach (by rw [cstart_st]; exact .start) ht, retB_eq h.1, lost_leaks h.2⟩

theorem dangRun_dangles {p : Fn} {ok : Bool} (bs : List Bool) (c : Nat) (h : dangRun p ok bs c = true) :
    Dangles p ok := by
  simp only [dangRun] at h
  split at h
  · cases h
  · next t ht =>
    simp only [Bool.and_eq_true] at h
    exact ⟨t.st, crun_reach (by rw [cstart_st]; exact .start) ht, retB_eq h.1, dang_dangles h.2⟩

theorem not_safe_of_leaks {p : Fn} {ok : Bool} (h : Leaks p ok) : ¬ Safe p := by
  obtain ⟨s, hr, hc, hn⟩ := h
  exact fun hs => hn ((hs s hr).2 ok hc).1

theorem not_safe_of_dangles {p : Fn} {ok : Bool} (h : Dangles p ok) : ¬ Safe p := by
  obtain ⟨s, hr, hc, hn⟩ := h
  exact fun hs => hn ((hs s hr).2 ok hc).2

def isNull : Val → Bool
  | .null => true
  | _ => false

def liveB (s : CSt) (x : Nat) : Bool :=
  match s.env.getD x .null with
  | .addr a => match s.heap.getD a .unused with
    | .live => true
    | _ => false
  | _ => false

def freedB (s : CSt) (x : Nat) : Bool :=
  match s.env.getD x .null with
  | .addr a => match s.heap.getD a .unused with
    | .freed => true
    | _ => false
  | _ => false

theorem liveB_of {s : CSt} {x : Nat} (h : ∃ a, s.st.env x = .addr a ∧ s.st.heap a = .live) :
    liveB s x = true := by
  obtain ⟨a, e, hl⟩ := h
  simp only [CSt.st] at e hl
  simp only [liveB, e, hl]

theorem of_freedB {s : CSt} {x : Nat} (h : freedB s x = true) :
    ∃ a, s.st.env x = .addr a ∧ s.st.heap a = .freed := by
  simp only [freedB] at h
  split at h
  · next a e =>
    split at h
    · next hl => exact ⟨a, e, hl⟩
    · cases h
  · cases h

/-- What is about to be done must not be done. -/
def faultB (p : Fn) (s : CSt) : Bool :=
  match p.code[s.pc]? with
  | some (.kill x) => !isNull (s.env.getD x .null) && !liveB s x
  | some (.give x) => !isNull (s.env.getD x .null) && !liveB s x
  | some (.use x) => freedB s x
  | some (.deref x) => !validB s x
  | some (.live x) => !liveB s x
  | some (.none x) => !isNull (s.env.getD x .null)
  | _ => false

theorem faultB_fault {p : Fn} {s : CSt} (h : faultB p s = true) : Fault p s.st := by
  have hn : ∀ x, isNull (s.env.getD x .null) = false → s.st.env x ≠ .null := by
    intro x hx e
    simp only [CSt.st] at e
    rw [e] at hx; cases hx
  have hk : ∀ x, (!isNull (s.env.getD x .null) && !liveB s x) = true →
      ¬ (s.st.env x = .null ∨ ∃ a, s.st.env x = .addr a ∧ s.st.heap a = .live) := by
    intro x hx
    simp only [Bool.and_eq_true, Bool.not_eq_true'] at hx
    rintro (e | e)
    · exact hn x hx.1 e
    · have := liveB_of e; rw [hx.2] at this; cases this
  unfold faultB at h
  unfold Fault
  show match p.code[s.pc]? with
    | none => True
    | some (.kill x) => ¬ (s.st.env x = .null ∨ ∃ a, s.st.env x = .addr a ∧ s.st.heap a = .live)
    | some (.give x) => ¬ (s.st.env x = .null ∨ ∃ a, s.st.env x = .addr a ∧ s.st.heap a = .live)
    | some (.use x) => ∃ a, s.st.env x = .addr a ∧ s.st.heap a = .freed
    | some (.deref x) => ¬ Valid s.st (s.st.env x)
    | some (.live x) => ¬ ∃ a, s.st.env x = .addr a ∧ s.st.heap a = .live
    | some (.held x) => ¬ (s.st.env x = .null ∨ ∃ a, s.st.env x = .addr a ∧ s.st.heap a = .live)
    | some (.none x) => s.st.env x ≠ .null
    | _ => False
  split at h
  · next x e => rw [e]; exact hk x h
  · next x e => rw [e]; exact hk x h
  · next x e => rw [e]; exact of_freedB h
  · next x e =>
    rw [e]; intro hv
    have := validB_of hv
    rw [this] at h; cases h
  · next x e =>
    rw [e]; intro hl
    have := liveB_of hl
    rw [this] at h; cases h
  · next x e => rw [e]; exact hn x (by simpa only [Bool.not_eq_true'] using h)
  · cases h

/-- The choices lead to a fault. -/
def faultRun (p : Fn) (bs : List Bool) : Bool :=
  match crun p bs (cstart p) with
  | none => false
  | some t => faultB p t

theorem faultRun_faults {p : Fn} (bs : List Bool) (h : faultRun p bs = true) : Faults p := by
  simp only [faultRun] at h
  split at h
  · cases h
  · next t ht =>
    exact ⟨t.st, crun_reach (by rw [cstart_st]; exact .start) ht, faultB_fault h⟩

theorem not_safe_of_faults {p : Fn} (h : Faults p) : ¬ Safe p := by
  obtain ⟨s, hr, hf⟩ := h
  exact fun hs => (hs s hr).1 hf

/-- The choices lead to a return. -/
def retRun (p : Fn) (ok : Bool) (bs : List Bool) : Bool :=
  match crun p bs (cstart p) with
  | none => false
  | some t => retB p.code[t.pc]? ok

theorem retRun_returns {p : Fn} {ok : Bool} (bs : List Bool) (h : retRun p ok bs = true) :
    Returns p ok := by
  simp only [retRun] at h
  split at h
  · cases h
  · next t ht => exact ⟨t.st, crun_reach (by rw [cstart_st]; exact .start) ht, retB_eq h⟩

/-- The last k binary digits of n, as choices. -/
def bits : Nat → Nat → List Bool
  | 0, _ => []
  | k + 1, n => Nat.beq (n % 2) 1 :: bits k (n / 2)


theorem forall_nil {α : Type} {P : α → Prop} : ∀ e ∈ ([] : List α), P e := fun _ h => (by cases h)

theorem forall_cons {α : Type} {P : α → Prop} {a : α} {l : List α} (h : P a) (hl : ∀ e ∈ l, P e) :
    ∀ e ∈ a :: l, P e := fun e he => (by
  rcases List.mem_cons.1 he with c | c
  · subst c; exact h
  · exact hl e c)

theorem forall_append {α : Type} {P : α → Prop} {l m : List α} (h : ∀ e ∈ l, P e) (hm : ∀ e ∈ m, P e) :
    ∀ e ∈ l ++ m, P e := fun e he => (List.mem_append.1 he).elim (h e) (hm e)

end Verif.Owner
