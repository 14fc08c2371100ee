import Verif.Spec.Locks
/-!
# Lemmas on the use of locks
-/
namespace Verif.Locks
open Verif.Spec

theorem balanced_append {t u : List Op} (h : Balanced t) (g : Balanced u) : Balanced (t ++ u) := by
  induction h with
  | nil => exact g
  | pair w _ ih => exact .pair w ih

def balanced : List Op → Bool
  | [] => true
  | .grab v :: .release w :: t => v == w && balanced t
  | _ => false

theorem balanced_iff (t : List Op) : balanced t = true ↔ Balanced t := by
  constructor
  · intro h
    fun_induction balanced t with
    | case1 => exact .nil
    | case2 v w t ih =>
      simp only [Bool.and_eq_true, beq_iff_eq] at h
      rw [h.1]
      exact .pair w (ih h.2)
    | case3 => cases h
  · intro h
    induction h with
    | nil => rfl
    | pair w _ ih => simp [balanced, ih]

/-- all that a statement can do -/
def runs : Stmt → List (List Op × Out)
  | .skip => [([], .next)]
  | .seq a b => (runs a).flatMap (fun x => if x.2 = .next then (runs b).map (fun y => (x.1 ++ y.1, y.2)) else [x])
  | .branch a b => runs a ++ runs b
  | .grab w f => ([.grab w], .next) :: runs f
  | .release w => [([.release w], .next)]
  | .call b k => (runs b).flatMap (fun x => if x.2 = .ret then [(x.1, .next)] else (runs k).map (fun y => (x.1 ++ y.1, .next)))
  | .ret => [([], .ret)]
  | .goto => [([], .goto)]

/-- `runs` has all executions, and only those -/
theorem exec_iff (s : Stmt) (t : List Op) (o : Out) : Exec s t o ↔ (t, o) ∈ runs s := by
  constructor
  · intro h
    induction h with
    | skip => simp [runs]
    | seq _ _ ih1 ih2 =>
      simp only [runs, List.mem_flatMap]
      exact ⟨_, ih1, by rw [if_pos rfl]; exact List.mem_map.2 ⟨_, ih2, rfl⟩⟩
    | leave _ h ih =>
      simp only [runs, List.mem_flatMap]
      exact ⟨_, ih, by simp [h]⟩
    | left _ ih => exact List.mem_append_left _ ih
    | right _ ih => exact List.mem_append_right _ ih
    | grab => simp [runs]
    | grabFailed _ ih => exact List.mem_cons_of_mem _ ih
    | release => simp [runs]
    | call _ ih =>
      simp only [runs, List.mem_flatMap]
      exact ⟨_, ih, by simp⟩
    | callHandler _ h _ ih1 ih2 =>
      simp only [runs, List.mem_flatMap]
      refine ⟨_, ih1, ?_⟩
      rw [if_neg h]
      exact List.mem_map.2 ⟨_, ih2, rfl⟩
    | ret => simp [runs]
    | goto => simp [runs]
  · intro h
    induction s generalizing t o with
    | skip => simp [runs] at h; rw [h.1, h.2]; exact .skip
    | seq a b iha ihb =>
      simp only [runs, List.mem_flatMap] at h
      obtain ⟨⟨u, p⟩, h1, h2⟩ := h
      by_cases hp : p = .next
      · subst hp
        simp only [if_true] at h2
        obtain ⟨⟨v, q⟩, h3, h4⟩ := List.mem_map.1 h2
        cases h4
        exact .seq (iha _ _ h1) (ihb _ _ h3)
      · simp only [hp, if_false] at h2
        simp at h2
        rw [h2.1, h2.2]
        exact .leave (iha _ _ h1) hp
    | branch a b iha ihb =>
      rcases List.mem_append.1 h with h | h
      · exact .left (iha _ _ h)
      · exact .right (ihb _ _ h)
    | grab w f ih =>
      rcases List.mem_cons.1 h with h | h
      · cases h; exact .grab
      · exact .grabFailed (ih _ _ h)
    | release w => simp [runs] at h; rw [h.1, h.2]; exact .release
    | call b k ihb ihk =>
      simp only [runs, List.mem_flatMap] at h
      obtain ⟨⟨u, p⟩, h1, h2⟩ := h
      by_cases hp : p = .ret
      · subst hp
        simp at h2
        rw [h2.1, h2.2]
        exact .call (ihb _ _ h1)
      · simp only [hp, if_false] at h2
        obtain ⟨⟨v, q⟩, h3, h4⟩ := List.mem_map.1 h2
        cases h4
        exact .callHandler (ihb _ _ h1) hp (ihk _ _ h3)
    | ret => simp [runs] at h; rw [h.1, h.2]; exact .ret
    | goto => simp [runs] at h; rw [h.1, h.2]; exact .goto

def Fn.check (f : Fn) : Bool := (runs (.call f.body f.handler)).all (fun x => balanced x.1)

theorem check_sound {f : Fn} (h : Fn.check f = true) {t : List Op} (ht : f.Uses t) : Balanced t := by
  have := List.all_eq_true.1 h _ ((exec_iff _ _ _).1 ht)
  exact (balanced_iff t).1 this

inductive Thread : List Op → Prop where
  | idle {t} : Balanced t → Thread t
  | holding {t} (w : Bool) : Balanced t → Thread (.release w :: t)

structure Inv (s : Sys) : Prop where
  threads : ∀ t ∈ s.threads, Thread t
  readers : s.readers = s.threads.countP (holds false)
  writer : (if s.writer then 1 else 0) = s.threads.countP (holds true)

theorem holds_balanced {t : List Op} (h : Balanced t) (w : Bool) : holds w t = false := by
  cases h <;> rfl

theorem inv_step {s u : Sys} (h : Inv s) (hs : Step s u) : Inv u := by
  cases hs with
  | @step r w r' w' pre op t post ha =>
    obtain ⟨h1, h2, h3⟩ := h
    have ht := h1 (op :: t) (by simp)
    simp only [List.countP_append, List.countP_cons] at h2 h3
    have rest : ∀ x ∈ pre ++ t :: post, x ≠ t → Thread x := by
      intro x hx hne
      rcases List.mem_append.1 hx with hx | hx
      · exact h1 x (by simp [hx])
      · rcases List.mem_cons.1 hx with hx | hx
        · exact absurd hx hne
        · exact h1 x (by simp [hx])
    have all : Thread t → ∀ x ∈ pre ++ t :: post, Thread x := by
      intro h x hx
      by_cases e : x = t
      · rw [e]; exact h
      · exact rest x hx e
    cases ha with
    | grabRead =>
      cases ht with
      | idle hb =>
        cases hb with
        | pair _ hb =>
          refine ⟨all (.holding _ hb), ?_, ?_⟩
          · simp only [List.countP_append, List.countP_cons]
            simp [holds] at h2 ⊢
            omega
          · simp only [List.countP_append, List.countP_cons]
            simp [holds] at h3 ⊢
            omega
    | grabWrite =>
      cases ht with
      | idle hb =>
        cases hb with
        | pair _ hb =>
          refine ⟨all (.holding _ hb), ?_, ?_⟩
          · simp only [List.countP_append, List.countP_cons]
            simp [holds] at h2 ⊢
            omega
          · simp only [List.countP_append, List.countP_cons]
            simp [holds] at h3 ⊢
            omega
    | releaseRead =>
      cases ht with
      | idle hb => cases hb
      | holding _ hb =>
        refine ⟨all (.idle hb), ?_, ?_⟩
        · simp only [List.countP_append, List.countP_cons, holds_balanced hb]
          simp [holds] at h2 ⊢
          omega
        · simp only [List.countP_append, List.countP_cons, holds_balanced hb]
          simp [holds] at h3 ⊢
          omega
    | releaseWrite =>
      cases ht with
      | idle hb => cases hb
      | holding _ hb =>
        refine ⟨all (.idle hb), ?_, ?_⟩
        · simp only [List.countP_append, List.countP_cons, holds_balanced hb]
          simp [holds] at h2 ⊢
          omega
        · simp only [List.countP_append, List.countP_cons, holds_balanced hb]
          simp [holds] at h3 ⊢
          omega

theorem calls_balanced {fs : List Fn} (hfs : ∀ f ∈ fs, ∀ t, f.Uses t → Balanced t) {t : List Op} (h : Calls fs t) : Balanced t := by
  induction h with
  | nil => exact .nil
  | call hf ht _ ih => exact balanced_append (hfs _ hf _ ht) ih

theorem inv_start {ts : List (List Op)} (h : ∀ t ∈ ts, Balanced t) : Inv ⟨0, false, ts⟩ := by
  have : ∀ w, ts.countP (holds w) = 0 := by
    intro w
    rw [List.countP_eq_zero]
    intro t ht
    rw [holds_balanced (h t ht)]
    simp
  exact ⟨fun t ht => .idle (h t ht), (this false).symm, by simp [this true]⟩

theorem inv_steps {s u : Sys} (h : Inv s) (hs : Steps s u) : Inv u := by
  induction hs with
  | refl => exact h
  | tail _ h2 ih => exact inv_step ih h2

theorem step_of {r r' : Nat} {w w' : Bool} {ts : List (List Op)} {op : Op} {t : List Op} (h : (op :: t) ∈ ts) (ha : Act (r, w) op (r', w')) : ∃ u, Step ⟨r, w, ts⟩ u := by
  obtain ⟨pre, post, rfl⟩ := List.append_of_mem h
  exact ⟨_, .step ha⟩

theorem calls_one {fs : List Fn} {f : Fn} {t : List Op} (hf : f ∈ fs) (h : f.Uses t) : Calls fs t := by
  have := Calls.call hf h (.nil (fs := fs))
  rwa [List.append_nil] at this

end Verif.Locks
