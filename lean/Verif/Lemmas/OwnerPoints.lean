import Verif.Lemmas.OwnerRun
import Verif.Spec.OwnershipPoints

/-!
Executions that come to a particular point, computed.
-/

namespace Verif.Owner

open Verif.Spec.Owner

/-- The choices lead to where something is read through the cell `x`, which holds NULL. -/
def nullRun (p : Fn) (x : Nat) (bs : List Bool) : Bool :=
  match crun p bs (cstart p) with
  | none => false
  | some t =>
    match p.code[t.pc]? with
    | some (.deref y) => (y == x) && isNull (t.env.getD x .null)
    | _ => false

theorem isNull_eq {v : Val} (h : isNull v = true) : v = .null := by
  cases v with
  | null => rfl
  | _ => cases h

theorem nullRun_reads {p : Fn} {x : Nat} (bs : List Bool) (h : nullRun p x bs = true) :
    ReadsNull p x := by
  simp only [nullRun] at h
  split at h
  · cases h
  · next t ht =>
    split at h
    · next y e =>
      simp only [Bool.and_eq_true, beq_iff_eq] at h
      obtain ⟨rfl, h⟩ := h
      exact ⟨t.st, crun_reach (by rw [cstart_st]; exact .start) ht, e, isNull_eq h⟩
    · cases h

/-- The choices lead to where the cell `x` must be empty, and it is not. -/
def filledRun (p : Fn) (x : Nat) (bs : List Bool) : Bool :=
  match crun p bs (cstart p) with
  | none => false
  | some t =>
    match p.code[t.pc]? with
    | some (.none y) => (y == x) && !isNull (t.env.getD x .null)
    | _ => false

theorem filledRun_notEmpty {p : Fn} {x : Nat} (bs : List Bool) (h : filledRun p x bs = true) :
    NotEmpty p x := by
  simp only [filledRun] at h
  split at h
  · cases h
  · next t ht =>
    split at h
    · next y e =>
      simp only [Bool.and_eq_true, beq_iff_eq, Bool.not_eq_true'] at h
      obtain ⟨rfl, h⟩ := h
      refine ⟨t.st, crun_reach (by rw [cstart_st]; exact .start) ht, e, ?_⟩
      intro e'
      simp only [CSt.st] at e'
      rw [e'] at h; cases h
    · cases h

/-- The choices lead to where the cell `x` must hold something of its own, and it does not. -/
def lostRun (p : Fn) (x : Nat) (bs : List Bool) : Bool :=
  match crun p bs (cstart p) with
  | none => false
  | some t =>
    match p.code[t.pc]? with
    | some (.live y) => (y == x) && !liveB t x
    | _ => false

theorem lostRun_notHeld {p : Fn} {x : Nat} (bs : List Bool) (h : lostRun p x bs = true) :
    NotHeld p x := by
  simp only [lostRun] at h
  split at h
  · cases h
  · next t ht =>
    split at h
    · next y e =>
      simp only [Bool.and_eq_true, beq_iff_eq, Bool.not_eq_true'] at h
      obtain ⟨rfl, h⟩ := h
      refine ⟨t.st, crun_reach (by rw [cstart_st]; exact .start) ht, e, ?_⟩
      intro e'
      have := liveB_of e'; rw [h] at this; cases this
    · cases h

theorem not_safe_of_reads {p : Fn} {x : Nat} (h : ReadsNull p x) : ¬ Safe p := by
  obtain ⟨s, hr, hc, he⟩ := h
  refine fun hs => (hs s hr).1 ?_
  simp only [Fault, hc]
  rintro ⟨a, e, _⟩
  rw [he] at e; cases e

theorem not_safe_of_notEmpty {p : Fn} {x : Nat} (h : NotEmpty p x) : ¬ Safe p := by
  obtain ⟨s, hr, hc, he⟩ := h
  refine fun hs => (hs s hr).1 ?_
  simp only [Fault, hc]
  exact he

theorem not_safe_of_notHeld {p : Fn} {x : Nat} (h : NotHeld p x) : ¬ Safe p := by
  obtain ⟨s, hr, hc, he⟩ := h
  refine fun hs => (hs s hr).1 ?_
  simp only [Fault, hc]
  exact he

end Verif.Owner
