import Verif.Lemmas.Access
/-!
Executions of two threads, for refutations.
-/
namespace Verif.Access

open Verif.Spec.Access

/-- two threads, all others make no calls -/
abbrev Two := Thread × Thread

def conf (s : Two) : Config := fun n => if n = 0 then s.1 else if n = 1 then s.2 else ⟨none, .none⟩

def pick (s : Two) (b : Bool) : Thread := if b then s.2 else s.1

def put (s : Two) (b : Bool) (x : Thread) : Two := if b then (s.1, x) else (x, s.2)

def num (b : Bool) : Nat := if b then 1 else 0

theorem conf_num (s : Two) (b : Bool) : conf s (num b) = pick s b := by cases b <;> rfl

theorem conf_put (s : Two) (b : Bool) (x : Thread) : conf (put s b x) = upd (conf s) (num b) x := by
  funext n
  cases b
  · simp only [conf, put, upd, num, Bool.false_eq_true, if_false]
    split <;> rfl
  · simp only [conf, put, upd, num, if_true]
    by_cases h0 : n = 0
    · subst h0; rfl
    · by_cases h1 : n = 1
      · subst h1; rfl
      · simp only [h0, h1, if_false]

/-- a step of a thread, `k` says which way it takes -/
def sim (api : List Graph) (s : Two) (b : Bool) (k : Nat) : Option (Event × Two) :=
  match (pick s b).call with
  | none => (api[k]?).map fun g => (.start, put s b ⟨some (g, 0), (pick s b).mode⟩)
  | some (g, pc) =>
    match g[pc]? with
    | some (.choice ns) => (ns[k]?).map fun n => (.other, put s b ⟨some (g, n), (pick s b).mode⟩)
    | some (.read p n) => some (.read p, put s b ⟨some (g, n), (pick s b).mode⟩)
    | some (.write p n) => some (.write p, put s b ⟨some (g, n), (pick s b).mode⟩)
    | some (.grab false n f) =>
      if k = 1 then some (.other, put s b ⟨some (g, f), (pick s b).mode⟩)
      else if s.1.mode ≠ .write ∧ s.2.mode ≠ .write then some (.other, put s b ⟨some (g, n), .read⟩)
      else none
    | some (.grab true n f) =>
      if k = 1 then some (.other, put s b ⟨some (g, f), (pick s b).mode⟩)
      else if s.1.mode = .none ∧ s.2.mode = .none then some (.other, put s b ⟨some (g, n), .write⟩)
      else none
    | some (.release n) => some (.other, put s b ⟨some (g, n), .none⟩)
    | some .ret => some (.other, put s b ⟨none, (pick s b).mode⟩)
    | none => none

theorem sim_step {api s b k e s'} (h : sim api s b k = some (e, s')) :
    Step api (conf s) (num b) e (conf s') := by
  unfold sim at h
  split at h
  · rename_i hc
    cases hg : api[k]? with
    | none => rw [hg] at h; cases h
    | some g =>
      rw [hg] at h; cases h
      rw [conf_put, ← conf_num]
      exact .start ((conf_num s b) ▸ hc) (List.mem_of_getElem? hg)
  · rename_i g pc hc
    have ha : ∀ i, g[pc]? = some i → At (conf s) (num b) g i :=
      fun i hi => ⟨pc, (conf_num s b) ▸ hc, hi⟩
    split at h
    · rename_i ns hi
      cases hn : ns[k]? with
      | none => rw [hn] at h; cases h
      | some n =>
        rw [hn] at h; cases h
        rw [conf_put, ← conf_num]
        exact .choice (ha _ hi) (List.mem_of_getElem? hn)
    · rename_i hi; cases h; rw [conf_put, ← conf_num]; exact .read (ha _ hi)
    · rename_i hi; cases h; rw [conf_put, ← conf_num]; exact .write (ha _ hi)
    · rename_i hi
      split at h
      · cases h; rw [conf_put, ← conf_num]; exact .grabFails (ha _ hi)
      · split at h
        · rename_i hm
          cases h; rw [conf_put]
          refine .grabRead (ha _ hi) (fun u => ?_)
          unfold conf
          split
          · exact hm.1
          · split
            · exact hm.2
            · exact nofun
        · cases h
    · rename_i hi
      split at h
      · cases h; rw [conf_put, ← conf_num]; exact .grabFails (ha _ hi)
      · split at h
        · rename_i hm
          cases h; rw [conf_put]
          refine .grabWrite (ha _ hi) (fun u => ?_)
          unfold conf
          split
          · exact hm.1
          · split
            · exact hm.2
            · rfl
        · cases h
    · rename_i hi; cases h; rw [conf_put]; exact .release (ha _ hi)
    · rename_i hi; cases h; rw [conf_put, ← conf_num]; exact .ret (ha _ hi)
    · cases h

def sims (api : List Graph) : Two → List (Bool × Nat) → Option (List (Nat × Event) × Two)
  | s, [] => some ([], s)
  | s, (b, k) :: ks =>
    match sim api s b k with
    | none => none
    | some (e, s') =>
      match sims api s' ks with
      | none => none
      | some (es, s'') => some ((num b, e) :: es, s'')

theorem sims_run {api s ks es s'} (h : sims api s ks = some (es, s')) :
    Run api (conf s) es (conf s') := by
  induction ks generalizing s es s' with
  | nil => cases h; exact .nil
  | cons k ks ih =>
    obtain ⟨b, k⟩ := k
    unfold sims at h
    split at h
    · cases h
    · rename_i e s1 h1
      split at h
      · cases h
      · rename_i es2 s2 h2
        cases h
        exact .cons (sim_step h1) (ih h2)

def idleTwo : Two := (⟨none, .none⟩, ⟨none, .none⟩)

theorem conf_idle : conf idleTwo = initial := by
  funext n
  unfold conf idleTwo initial
  split
  · rfl
  · split <;> rfl

/-- the first thread is about to change a place that the second is about to access -/
def racing (s : Two) : Bool :=
  match s.1.call, s.2.call with
  | some (g, pc), some (h, qc) =>
    match g[pc]?, h[qc]? with
    | some (.write p _), some (.write q _) => p == q
    | some (.write p _), some (.read q _) => p == q
    | _, _ => false
  | _, _ => false

theorem race_of_racing {s : Two} (h : racing s = true) : Race (conf s) := by
  unfold racing at h
  split at h
  · rename_i g pc g' qc h1 h2
    split at h
    · rename_i p n q m h3 h4
      have hpq : p = q := by simpa using h
      subst hpq
      exact ⟨0, 1, p, g, g', n, m, by decide, ⟨pc, h1, h3⟩, .inl ⟨qc, h2, h4⟩⟩
    · rename_i p n q m h3 h4
      have hpq : p = q := by simpa using h
      subst hpq
      exact ⟨0, 1, p, g, g', n, m, by decide, ⟨pc, h1, h3⟩, .inr ⟨qc, h2, h4⟩⟩
    · cases h
  · cases h

/-- the steps of two threads lead to a race -/
def races (api : List Graph) (ks : List (Bool × Nat)) : Bool :=
  match sims api idleTwo ks with
  | some (_, s) => racing s
  | none => false

theorem not_noRace {api ks} (h : races api ks = true) : ¬ NoRace api := by
  intro hn
  unfold races at h
  split at h
  · rename_i es s hs
    exact hn es (conf s) (conf_idle ▸ sims_run hs) (race_of_racing h)
  · cases h

/-- the events of steps of two threads -/
def eventsOf (api : List Graph) (ks : List (Bool × Nat)) : Option (List (Nat × Event)) :=
  (sims api idleTwo ks).map (·.1)

theorem run_of_events {api ks es} (h : eventsOf api ks = some es) : ∃ c, Run api initial es c := by
  unfold eventsOf at h
  cases hs : sims api idleTwo ks with
  | none => rw [hs] at h; cases h
  | some r =>
    rw [hs] at h; cases h
    exact ⟨conf r.2, conf_idle ▸ sims_run hs⟩

end Verif.Access
