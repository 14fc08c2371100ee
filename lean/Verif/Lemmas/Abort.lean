import Verif.Spec.Abort
/-! Lemmas: calls that do not read a place are not changed by it -/
namespace Verif.Spec.Abort

open Verif.Access

/-- an instruction reads the place -/
def reads (p : Nat) : Instr → Bool
  | .read q _ => q == p
  | _ => false

/-- no function reads the place -/
def unread (p : Nat) (api : List Graph) : Bool := api.all fun g => g.all fun i => !reads p i

/-- an instruction changes nothing but the place and uses no lock -/
def quiet (p : Nat) : Instr → Bool
  | .choice _ => true
  | .read _ _ => true
  | .write q _ => q == p
  | .ret => true
  | _ => false

/-- from an instruction, a call returns in so many steps and waits for nothing -/
def bounded (g : Graph) : Nat → Nat → Bool
  | 0, _ => false
  | n + 1, pc =>
    match g[pc]? with
    | some (.choice ns) => !ns.isEmpty && ns.all fun m => bounded g n m
    | some (.read _ m) => bounded g n m
    | some (.write _ m) => bounded g n m
    | some .ret => true
    | _ => false

theorem put_same (s : State) (t x) : (s.put t x).threads t = x := by simp [State.put, upd]
theorem put_other (s : State) {t u} (x) (h : u ≠ t) : (s.put t x).threads u = s.threads u := by
  simp [State.put, upd, h]

theorem SameBut.refl (p u : Nat) (s : State) : SameBut p u s s :=
  ⟨fun _ _ => rfl, fun _ _ => rfl, rfl, rfl⟩

theorem SameBut.trans {p u : Nat} {a b c : State} (h : SameBut p u a b) (h' : SameBut p u b c) :
    SameBut p u a c :=
  ⟨fun t ht => (h'.1 t ht).trans (h.1 t ht), fun q hq => (h'.2.1 q hq).trans (h.2.1 q hq),
   h'.2.2.1.trans h.2.2.1, h'.2.2.2.trans h.2.2.2⟩

theorem SameBut.put {p u : Nat} {s s' : State} (h : SameBut p u s s') (t : Nat) (x : Thread) :
    SameBut p u (s.put t x) (s'.put t x) := by
  refine ⟨?_, h.2.1, h.2.2.1, h.2.2.2⟩
  intro v hv
  by_cases e : v = t
  · subst e; rw [put_same, put_same]
  · rw [put_other _ _ e, put_other _ _ e]; exact h.1 v hv

theorem SameBut.unlock {p u : Nat} {s s' : State} (h : SameBut p u s s') (m : Mode) :
    SameBut p u (s.unlock m) (s'.unlock m) := by
  cases m with
  | none => exact h
  | read => exact ⟨h.1, h.2.1, by simp [State.unlock, h.2.2.1], h.2.2.2⟩
  | write => exact ⟨h.1, h.2.1, h.2.2.1, rfl⟩

theorem exec_same {p u : Nat} {s s' : State} {i : Instr} (k : Code) (t : Nat) (x : Thread) (g : Graph)
    (pc : Nat) (h : SameBut p u s s') (hi : reads p i = false) :
    SameBut p u (exec k s t x g pc i) (exec k s' t x g pc i) := by
  cases i with
  | choice ns => exact h.put _ _
  | read q n =>
    have : q ≠ p := by intro e; subst e; simp [reads] at hi
    simp only [exec, h.2.1 q this]
    exact h.put _ _
  | write q n =>
    have h' : SameBut p u { s with places := upd s.places q (k.value g pc x.seen) }
        { s' with places := upd s'.places q (k.value g pc x.seen) } := by
      refine ⟨h.1, ?_, h.2.2.1, h.2.2.2⟩
      intro r hr
      simp only [upd]
      split
      · rfl
      · exact h.2.1 r hr
    exact h'.put _ _
  | grab w n f =>
    simp only [exec, h.2.2.1, h.2.2.2]
    split
    · exact h.put _ _
    · split
      · split
        · have h' : SameBut p u { s with writer := true } { s' with writer := true } :=
            ⟨h.1, h.2.1, h.2.2.1, rfl⟩
          have := h'.put t { x with call := some (g, n), mode := .write }
          rw [h.2.2.1] at this
          exact this
        · exact h
      · split
        · have h' : SameBut p u { s with readers := s.readers + 1 }
              { s' with readers := s.readers + 1 } := ⟨h.1, h.2.1, rfl, h.2.2.2⟩
          have := h'.put t { x with call := some (g, n), mode := .read }
          rw [h.2.2.2] at this
          exact this
        · exact h
  | release n => exact (h.unlock _).put _ _
  | ret => exact h.put _ _

theorem step_same {p u : Nat} {s s' : State} {api : List Graph} {a : Act} (k : Code)
    (hu : unread p api = true) (hm : Making api s) (ha : a.thread ≠ u) (h : SameBut p u s s') :
    SameBut p u (step k s a) (step k s' a) := by
  cases a with
  | start t g =>
    simp only [step, h.1 t ha]
    split
    · exact h.put _ _
    · exact h
  | go t =>
    simp only [step, h.1 t ha]
    split
    · exact h
    · next g pc e =>
      split
      · exact h
      · next i hi =>
        refine exec_same k t _ g pc h ?_
        have := List.all_eq_true.mp (List.all_eq_true.mp hu g (hm t g pc e)) i (List.mem_of_getElem? hi)
        simpa using this

/-- the call of a thread after an instruction is the same one, or none -/
theorem exec_call (k : Code) (s : State) (t : Nat) (g : Graph) (pc : Nat) (i : Instr) (v : Nat) {g' pc'}
    (e : (s.threads t).call = some (g, pc))
    (h : ((exec k s t (s.threads t) g pc i).threads v).call = some (g', pc')) :
    ∃ pc'', (s.threads v).call = some (g', pc'') := by
  by_cases hv : v = t
  · subst hv
    suffices g = g' by subst this; exact ⟨pc, e⟩
    cases i with
    | choice ns => simp only [exec, put_same] at h; injection h with h; injection h
    | read q n => simp only [exec, put_same] at h; injection h with h; injection h
    | write q n => simp only [exec, put_same] at h; injection h with h; injection h
    | grab w n f =>
      have : ∀ {m}, some (g, m) = some (g', pc') → g = g' := by
        intro m h; injection h with h; injection h
      simp only [exec] at h
      split at h
      · simp only [put_same] at h; exact this h
      · split at h <;> split at h
        · simp only [put_same] at h; exact this h
        · rw [e] at h; exact this h
        · simp only [put_same] at h; exact this h
        · rw [e] at h; exact this h
    | release n => simp only [exec, put_same] at h; injection h with h; injection h
    | ret => simp only [exec, put_same] at h; cases h
  · have : (exec k s t (s.threads t) g pc i).threads v = s.threads v := by
      cases i with
      | grab w n f =>
        simp only [exec]
        split
        · exact put_other _ _ hv
        · split <;> split
          · exact put_other _ _ hv
          · rfl
          · exact put_other _ _ hv
          · rfl
      | release n =>
        simp only [exec]
        rw [put_other _ _ hv]
        cases (s.threads t).mode <;> rfl
      | _ => exact put_other _ _ hv
    rw [this] at h
    exact ⟨pc', h⟩

theorem step_making {s : State} {api : List Graph} {a : Act} (k : Code) (hm : Making api s)
    (ha : ∀ t g, a = .start t g → g ∈ api) : Making api (step k s a) := by
  intro v g' pc' h
  cases a with
  | start t g =>
    simp only [step] at h
    split at h
    · by_cases hv : v = t
      · subst hv
        rw [put_same] at h
        injection h with h; injection h with h _
        exact h ▸ ha v g rfl
      · rw [put_other _ _ hv] at h
        exact hm v g' pc' h
    · exact hm v g' pc' h
  | go t =>
    simp only [step] at h
    split at h
    · exact hm v g' pc' h
    · next g pc e =>
      split at h
      · exact hm v g' pc' h
      · obtain ⟨pc'', h''⟩ := exec_call k s t g pc _ v e h
        exact hm v g' pc'' h''

theorem run_append (k : Code) (s : State) (as bs : List Act) :
    run k s (as ++ bs) = run k (run k s as) bs := by
  induction as generalizing s with
  | nil => rfl
  | cons a as ih => exact ih _

theorem run_making {s : State} {api : List Graph} {as : List Act} (k : Code) (hm : Making api s)
    (ha : Calls api as) : Making api (run k s as) := by
  induction as generalizing s with
  | nil => exact hm
  | cons a as ih =>
    refine ih (step_making k hm ?_) fun t g h => ha t g (List.mem_cons_of_mem _ h)
    intro t g e
    exact ha t g (e ▸ List.mem_cons_self)

theorem run_same {p u : Nat} {s s' : State} {api : List Graph} {as : List Act} (k : Code)
    (hu : unread p api = true) (hm : Making api s) (hc : Calls api as) (ha : ∀ a ∈ as, a.thread ≠ u)
    (h : SameBut p u s s') : SameBut p u (run k s as) (run k s' as) := by
  induction as generalizing s s' with
  | nil => exact h
  | cons a as ih =>
    refine ih (step_making k hm ?_) (fun t g h => hc t g (List.mem_cons_of_mem _ h))
      (fun b hb => ha b (List.mem_cons_of_mem _ hb)) (step_same k hu hm (ha a List.mem_cons_self) h)
    intro t g e
    exact hc t g (e ▸ List.mem_cons_self)

/-- a thread that others leave alone keeps what it has -/
theorem run_alone {s : State} {u : Nat} {as : List Act} (k : Code) (ha : ∀ a ∈ as, a.thread ≠ u)
    (h : (s.threads u).call = none) : ((run k s as).threads u).call = none := by
  induction as generalizing s with
  | nil => exact h
  | cons a as ih =>
    refine ih (fun b hb => ha b (List.mem_cons_of_mem _ hb)) ?_
    have hu := ha a List.mem_cons_self
    cases a with
    | start t g =>
      simp only [step]
      split
      · rw [put_other (t := t) _ _ (Ne.symm hu)]; exact h
      · exact h
    | go t =>
      simp only [step]
      split
      · exact h
      · next g pc e =>
        split
        · exact h
        · cases e' : ((exec k s t (s.threads t) g pc _).threads u).call with
          | none => rfl
          | some gp =>
            obtain ⟨pc'', h''⟩ := exec_call k s t g pc _ u (g' := gp.1) (pc' := gp.2) e e'
            rw [h] at h''; cases h''

/-- a step of a quiet call -/
theorem exec_quiet {p u : Nat} {s : State} {i : Instr} (k : Code) (x : Thread) (g : Graph) (pc : Nat)
    (hi : quiet p i = true) : SameBut p u s (exec k s u x g pc i) := by
  have hp : ∀ (r : State) y, SameBut p u r (r.put u y) := fun r y =>
    ⟨fun t ht => put_other _ _ ht, fun _ _ => rfl, rfl, rfl⟩
  cases i with
  | choice ns => exact hp _ _
  | read q n => exact hp _ _
  | write q n =>
    have : q = p := by simpa [quiet] using hi
    subst this
    have h' : SameBut q u s { s with places := upd s.places q (k.value g pc x.seen) } := by
      refine ⟨fun _ _ => rfl, ?_, rfl, rfl⟩
      intro r hr
      simp [upd, hr]
    exact h'.trans (hp _ _)
  | ret => exact hp _ _
  | grab w n f => cases hi
  | release n => cases hi

/-- the thread makes this call or none -/
def Only (g : Graph) (u : Nat) (s : State) : Prop := ∀ g' pc, (s.threads u).call = some (g', pc) → g' = g

theorem go_quiet {p u : Nat} {g : Graph} (k : Code) (hg : g.all (quiet p) = true) (n : Nat) (s : State)
    (h : Only g u s) :
    SameBut p u s (run k s (List.replicate n (.go u))) := by
  induction n generalizing s with
  | zero => exact SameBut.refl _ _ _
  | succ n ih =>
    rw [List.replicate_succ]
    refine SameBut.trans ?_ (ih (step k s (.go u)) ?_)
    · simp only [step]
      split
      · exact SameBut.refl _ _ _
      · next g' pc e =>
        split
        · exact SameBut.refl _ _ _
        · next i hi =>
          have := h g' pc e
          subst this
          exact exec_quiet k _ _ _ (List.all_eq_true.mp hg i (List.mem_of_getElem? hi))
    · intro g' pc h'
      simp only [step] at h'
      split at h'
      · exact h g' pc h'
      · next g'' pc'' e =>
        split at h'
        · exact h g' pc h'
        · obtain ⟨q, hq⟩ := exec_call k s u g'' pc'' _ u e h'
          exact h g' q hq

theorem go_bounded {g : Graph} {u : Nat} (k : Code) (n : Nat) (pc : Nat) (s : State)
    (hb : bounded g n pc = true) (h : (s.threads u).call = some (g, pc)) :
    ((run k s (List.replicate n (.go u))).threads u).call = none := by
  induction n generalizing pc s with
  | zero => cases hb
  | succ n ih =>
    rw [List.replicate_succ]
    show ((run k (step k s (.go u)) (List.replicate n (.go u))).threads u).call = none
    have idle : ∀ (r : State), (r.threads u).call = none →
        ((run k r (List.replicate n (.go u))).threads u).call = none := by
      clear ih hb
      induction n with
      | zero => intro r hr; exact hr
      | succ n ih =>
        intro r hr
        rw [List.replicate_succ]
        refine ih (step k r (.go u)) ?_
        simp only [step, hr]
    cases e : g[pc]? with
    | none => simp only [bounded, e] at hb; cases hb
    | some i =>
      have hs : step k s (.go u) = exec k s u (s.threads u) g pc i := by simp only [step, h, e]
      rw [hs]
      cases i with
      | choice ns =>
        simp only [bounded, e, Bool.and_eq_true] at hb
        have hl : 0 < ns.length := by
          cases ns with
          | nil => simp at hb
          | cons => simp
        have hlt := Nat.mod_lt (k.way g pc (s.threads u).seen) hl
        refine ih _ _ (List.all_eq_true.mp hb.2 _ (List.getElem_mem hlt)) ?_
        simp only [exec, put_same, List.getElem?_eq_getElem hlt, Option.getD_some]
      | read q m =>
        simp only [bounded, e] at hb
        exact ih m _ hb (by simp only [exec, put_same])
      | write q m =>
        simp only [bounded, e] at hb
        exact ih m _ hb (by simp only [exec, put_same])
      | ret => exact idle _ (by simp only [exec, put_same])
      | grab w m f => simp only [bounded, e] at hb; cases hb
      | release m => simp only [bounded, e] at hb; cases hb

theorem start_same {p u : Nat} {g : Graph} {s : State} (k : Code) (h : (s.threads u).call = none) :
    SameBut p u s (step k s (.start u g)) ∧ ((step k s (.start u g)).threads u).call = some (g, 0) := by
  simp only [step, h]
  exact ⟨⟨fun t ht => put_other _ _ ht, fun _ _ => rfl, rfl, rfl⟩, by rw [put_same]⟩

theorem prompt_of_bounded {g : Graph} {n : Nat} (h : bounded g n 0 = true) : Prompt g n := by
  intro k s u hs
  exact go_bounded k n 0 _ h (start_same (p := 0) k hs).2

theorem stopsNothing_of {api : List Graph} {p : Nat} {g : Graph} (hu : unread p api = true)
    (hg : g.all (quiet p) = true) (n : Nat) : StopsNothing api p g n := by
  intro k s u as bs hm hca hcb ha hs
  have h1 := run_alone k (fun a h => ha a (List.mem_append_left _ h)) hs
  rw [List.append_assoc, run_append, run_append, run_append]
  refine run_same k hu (run_making k hm hca) hcb (fun a h => ha a (List.mem_append_right _ h)) ?_
  obtain ⟨h2, h3⟩ := start_same (p := p) (g := g) k h1
  refine h2.trans (go_quiet k hg n _ ?_)
  intro g' pc e
  rw [h3] at e
  injection e with e; injection e with e _
  exact e.symm

end Verif.Spec.Abort
