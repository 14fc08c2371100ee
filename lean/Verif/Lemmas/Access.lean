import Verif.Spec.Access
namespace Verif.Access

open Verif.Spec.Access

/-- a state of a call: the next instruction, how the lock is held, whether it was released before -/
abbrev St := Nat × Mode × Bool

/-- what can follow -/
def succs (g : Graph) : St → List St
  | (pc, m, o) =>
    match g[pc]? with
    | some (.choice ns) => ns.map (·, m, o)
    | some (.read _ n) => [(n, m, o)]
    | some (.write _ n) => [(n, m, o)]
    | some (.grab w n f) => [(n, if w then .write else .read, o), (f, m, o)]
    | some (.release n) => [(n, .none, true)]
    | some .ret => []
    | none => []

/-- what must hold in a state: places that are changed by some call are read with the lock and changed
with the lock for writing; with `single` the lock is grabbed once -/
def okAt (places : List Nat) (idle : List Mode) (single : Bool) (g : Graph) : St → Bool
  | (pc, m, o) =>
    match g[pc]? with
    | some (.read p _) => !places.contains p || m != .none
    | some (.write p _) => places.contains p && m == .write
    | some (.grab _ _ _) => !single || (m == .none && !o)
    | some .ret => idle.contains m
    | _ => true

def explore (g : Graph) : Nat → List St → List St → List St
  | 0, seen, _ => seen
  | _, seen, [] => seen
  | n + 1, seen, s :: todo =>
    if seen.contains s then explore g n seen todo else explore g n (s :: seen) (succs g s ++ todo)

def closed (g : Graph) (ss : List St) : Bool := ss.all fun s => (succs g s).all ss.contains

/-- the states of a function -/
def states (idle : List Mode) (g : Graph) : List St :=
  explore g (8 * g.length * (idle.length + 1) + 8) [] (idle.map (0, ·, false))

def guardedOne (places : List Nat) (idle : List Mode) (single : Bool) (g : Graph) : Bool :=
  let ss := states idle g
  idle.all (fun m => ss.contains (0, m, false)) && closed g ss && ss.all (okAt places idle single g)

/-- the check of all functions of an interface -/
def guarded (places : List Nat) (idle : List Mode) (single : Bool) (api : List Graph) : Bool :=
  idle.contains .none && api.all (guardedOne places idle single)

theorem guardedOne_iff {places idle single g} (h : guardedOne places idle single g = true) :
    ∃ ss : List St, (∀ m ∈ idle, (0, m, false) ∈ ss) ∧
      (∀ s ∈ ss, ∀ s' ∈ succs g s, s' ∈ ss) ∧ (∀ s ∈ ss, okAt places idle single g s = true) := by
  refine ⟨states idle g, ?_⟩
  simp only [guardedOne, closed, Bool.and_eq_true, List.all_eq_true, List.contains_iff_mem] at h
  exact ⟨h.1.1, h.1.2, h.2⟩

/-- a thread is in one of the states of its call -/
def InSt (api : List Graph) (idle : List Mode) (places : List Nat) (single : Bool) (s : Thread) :
    Prop :=
  match s.call with
  | none => s.mode ∈ idle
  | some (g, pc) => g ∈ api ∧ ∃ o, ∃ ss : List St, (pc, s.mode, o) ∈ ss ∧
      (∀ s ∈ ss, ∀ s' ∈ succs g s, s' ∈ ss) ∧ (∀ s ∈ ss, okAt places idle single g s = true)

/-- a thread that holds the lock for writing is the only one -/
def Excl (c : Config) : Prop := ∀ t u, t ≠ u → (c t).mode = .write → (c u).mode = .none

theorem set_same (c : Config) (t s) : upd c t s t = s := by simp [upd]
theorem set_other (c : Config) {t u} (s) (h : u ≠ t) : upd c t s u = c u := by simp [upd, h]

section
variable {places : List Nat} {idle : List Mode} {single : Bool} {api : List Graph}

theorem inSt_at {s : Thread} {g pc} (h : InSt api idle places single s) (hc : s.call = some (g, pc)) :
    g ∈ api ∧ ∃ o, ∃ ss : List St, (pc, s.mode, o) ∈ ss ∧ okAt places idle single g (pc, s.mode, o) = true ∧
      (∀ s ∈ ss, ∀ s' ∈ succs g s, s' ∈ ss) ∧ (∀ s ∈ ss, okAt places idle single g s = true) := by
  unfold InSt at h
  rw [hc] at h
  obtain ⟨hg, o, ss, h1, h2, h3⟩ := h
  exact ⟨hg, o, ss, h1, h3 _ h1, h2, h3⟩

theorem inSt_next {g : Graph} {pc m o} {ss : List St} {s' : St} (hg : g ∈ api) (h1 : ((pc, m, o) : St) ∈ ss)
    (h2 : ∀ s ∈ ss, ∀ s' ∈ succs g s, s' ∈ ss) (h3 : ∀ s ∈ ss, okAt places idle single g s = true)
    (hs : s' ∈ succs g (pc, m, o)) : InSt api idle places single ⟨some (g, s'.1), s'.2.1⟩ :=
  ⟨hg, s'.2.2, ss, h2 _ h1 _ hs, h2, h3⟩

theorem step_inSt {c t e c'} (hG : guarded places idle single api = true)
    (h : ∀ t, InSt api idle places single (c t)) (hs : Step api c t e c') :
    ∀ t, InSt api idle places single (c' t) := by
  have key : ∀ s, InSt api idle places single s → ∀ u, InSt api idle places single (upd c t s u) := by
    intro s hk u
    by_cases hu : u = t
    · subst hu; rw [set_same]; exact hk
    · rw [set_other c s hu]; exact h u
  cases hs with
  | start hc hg =>
    refine key _ ?_
    have h0 : (c t).mode ∈ idle := by have := h t; unfold InSt at this; rw [hc] at this; exact this
    simp only [guarded, Bool.and_eq_true, List.all_eq_true] at hG
    obtain ⟨ss, h1, h2, h3⟩ := guardedOne_iff (hG.2 _ hg)
    exact ⟨hg, false, ss, h1 _ h0, h2, h3⟩
  | choice ha hn =>
    obtain ⟨pc, hc, hi⟩ := ha
    obtain ⟨hg, o, ss, h1, _, h2, h3⟩ := inSt_at (h t) hc
    refine key _ (inSt_next hg h1 h2 h3 (s' := (_, _, o)) ?_)
    simp only [succs, hi]
    exact List.mem_map.2 ⟨_, hn, rfl⟩
  | read ha =>
    obtain ⟨pc, hc, hi⟩ := ha
    obtain ⟨hg, o, ss, h1, _, h2, h3⟩ := inSt_at (h t) hc
    refine key _ (inSt_next hg h1 h2 h3 (s' := (_, _, o)) ?_)
    simp [succs, hi]
  | write ha =>
    obtain ⟨pc, hc, hi⟩ := ha
    obtain ⟨hg, o, ss, h1, _, h2, h3⟩ := inSt_at (h t) hc
    refine key _ (inSt_next hg h1 h2 h3 (s' := (_, _, o)) ?_)
    simp [succs, hi]
  | grabRead ha _ =>
    obtain ⟨pc, hc, hi⟩ := ha
    obtain ⟨hg, o, ss, h1, _, h2, h3⟩ := inSt_at (h t) hc
    refine key _ (inSt_next hg h1 h2 h3 (s' := (_, _, o)) ?_)
    simp [succs, hi]
  | grabWrite ha _ =>
    obtain ⟨pc, hc, hi⟩ := ha
    obtain ⟨hg, o, ss, h1, _, h2, h3⟩ := inSt_at (h t) hc
    refine key _ (inSt_next hg h1 h2 h3 (s' := (_, _, o)) ?_)
    simp [succs, hi]
  | grabFails ha =>
    obtain ⟨pc, hc, hi⟩ := ha
    obtain ⟨hg, o, ss, h1, _, h2, h3⟩ := inSt_at (h t) hc
    refine key _ (inSt_next hg h1 h2 h3 (s' := (_, _, o)) ?_)
    simp [succs, hi]
  | release ha =>
    obtain ⟨pc, hc, hi⟩ := ha
    obtain ⟨hg, o, ss, h1, _, h2, h3⟩ := inSt_at (h t) hc
    refine key _ (inSt_next hg h1 h2 h3 (s' := (_, _, true)) ?_)
    simp [succs, hi]
  | ret ha =>
    obtain ⟨pc, hc, hi⟩ := ha
    obtain ⟨hg, o, ss, h1, h4, h2, h3⟩ := inSt_at (h t) hc
    refine key _ ?_
    simp only [okAt, hi, List.contains_iff_mem] at h4
    exact h4

theorem step_excl {c t e c'} (h : Excl c) (hs : Step api c t e c') : Excl c' := by
  have key : ∀ cl m, (m = (c t).mode ∨ m = .none ∨ (m = .read ∧ ∀ u, (c u).mode ≠ .write) ∨
      (m = .write ∧ ∀ u, (c u).mode = .none)) → Excl (upd c t ⟨cl, m⟩) := by
    intro cl m hm a b hab ha
    by_cases h1 : a = t
    · subst h1
      rw [set_same] at ha
      rw [set_other c _ (Ne.symm hab)]
      rcases hm with hm | hm | ⟨hm, hu⟩ | ⟨hm, hu⟩
      · exact h a b hab (hm ▸ ha)
      · simp only [hm] at ha; cases ha
      · simp only [hm] at ha; cases ha
      · exact hu b
    · rw [set_other c _ h1] at ha
      by_cases h2 : b = t
      · subst h2
        rw [set_same]
        rcases hm with hm | hm | ⟨hm, hu⟩ | ⟨hm, hu⟩
        · rw [hm]; exact h a b hab ha
        · exact hm
        · exact absurd ha (hu a)
        · rw [hu a] at ha; cases ha
      · rw [set_other c _ h2]; exact h a b hab ha
  cases hs with
  | start _ _ => exact key _ _ (.inl rfl)
  | choice _ _ => exact key _ _ (.inl rfl)
  | read _ => exact key _ _ (.inl rfl)
  | write _ => exact key _ _ (.inl rfl)
  | grabRead _ hu => exact key _ _ (.inr (.inr (.inl ⟨rfl, hu⟩)))
  | grabWrite _ hu => exact key _ _ (.inr (.inr (.inr ⟨rfl, hu⟩)))
  | grabFails _ => exact key _ _ (.inl rfl)
  | release _ => exact key _ _ (.inr (.inl rfl))
  | ret _ => exact key _ _ (.inl rfl)

/-- the invariant -/
def Inv (api : List Graph) (idle : List Mode) (places : List Nat) (single : Bool) (c : Config) : Prop :=
  Excl c ∧ ∀ t, InSt api idle places single (c t)

theorem inv_initial (hG : guarded places idle single api = true) :
    Inv api idle places single initial := by
  refine ⟨fun _ _ _ h => (by cases h), fun _ => ?_⟩
  simp only [guarded, Bool.and_eq_true, List.contains_iff_mem] at hG
  exact hG.1

theorem inv_run (hG : guarded places idle single api = true) {c es c'}
    (h : Inv api idle places single c) (hr : Run api c es c') : Inv api idle places single c' := by
  induction hr with
  | nil => exact h
  | cons hs _ ih => exact ih ⟨step_excl h.1 hs, step_inSt hG h.2 hs⟩

theorem write_mode {c : Config} {t g p n} (h : Inv api idle places single c)
    (ha : At c t g (.write p n)) : places.contains p = true ∧ (c t).mode = .write := by
  obtain ⟨pc, hc, hi⟩ := ha
  obtain ⟨_, o, ss, _, h4, _⟩ := inSt_at (h.2 t) hc
  simpa [okAt, hi] using h4

theorem read_mode {c : Config} {t g p n} (h : Inv api idle places single c)
    (ha : At c t g (.read p n)) (hp : places.contains p = true) : (c t).mode ≠ .none := by
  obtain ⟨pc, hc, hi⟩ := ha
  obtain ⟨_, o, ss, _, h4, _⟩ := inSt_at (h.2 t) hc
  simp only [okAt, hi, hp, Bool.not_true, Bool.false_or, bne_iff_ne] at h4
  exact h4

/-- checked calls do not race -/
theorem noRace_of_guarded (hG : guarded places idle single api = true) : NoRace api := by
  intro es c hr ⟨t, u, p, g, h, n, m, htu, hw, hu⟩
  have hi := inv_run hG (inv_initial hG) hr
  have hm := write_mode hi hw
  have hn := hi.1 t u htu hm.2
  rcases hu with hu | hu
  · have := (write_mode hi hu).2; rw [hn] at this; cases this
  · exact read_mode hi hu hm.1 hn

/-- a thread makes a call, holds the lock and is in a state of the call -/
def Holding (api : List Graph) (places : List Nat) (m : Mode) (s : Thread) : Prop :=
  m ≠ .none ∧ s.mode = m ∧ ∃ g pc o, ∃ ss : List St, s.call = some (g, pc) ∧ g ∈ api ∧
    (pc, m, o) ∈ ss ∧ (∀ s ∈ ss, ∀ s' ∈ succs g s, s' ∈ ss) ∧
    (∀ s ∈ ss, okAt places [.none] true g s = true)

/-- a thread makes no call, or one that has released the lock -/
def Over (api : List Graph) (places : List Nat) (s : Thread) : Prop :=
  s.mode = .none ∧ (s.call = none ∨ ∃ g pc, ∃ ss : List St, s.call = some (g, pc) ∧ g ∈ api ∧
    (pc, .none, true) ∈ ss ∧ (∀ s ∈ ss, ∀ s' ∈ succs g s, s' ∈ ss) ∧
    (∀ s ∈ ss, okAt places [.none] true g s = true))

/-- steps of others do not change a thread -/
theorem step_other {c t e c' u} (hs : Step api c t e c') (h : u ≠ t) : c' u = c u := by
  cases hs <;> exact set_other c _ h

theorem over_step {c t e c'} (h : Over api places (c t)) (hs : Step api c t e c') (he : e ≠ .start) :
    Over api places (c' t) ∧ e.touches places = false := by
  obtain ⟨hm, hc⟩ := h
  have key : ∀ g pc i, (c t).call = some (g, pc) → g[pc]? = some i → g ∈ api ∧ ∃ ss : List St,
      ((pc, .none, true) : St) ∈ ss ∧ okAt places [.none] true g (pc, .none, true) = true ∧
      (∀ s ∈ ss, ∀ s' ∈ succs g s, s' ∈ ss) ∧ (∀ s ∈ ss, okAt places [.none] true g s = true) := by
    intro g pc i h1 _
    rcases hc with hc | ⟨g', pc', ss, hc, hg, h2, h3, h4⟩
    · rw [hc] at h1; cases h1
    · rw [hc] at h1; cases h1; exact ⟨hg, ss, h2, h4 _ h2, h3, h4⟩
  cases hs with
  | start _ _ => exact absurd rfl he
  | choice ha hn =>
    obtain ⟨pc, hc', hi⟩ := ha
    obtain ⟨hg, ss, h1, h2, h3, h4⟩ := key _ _ _ hc' hi
    refine ⟨?_, rfl⟩
    rw [set_same]
    exact ⟨hm, .inr ⟨_, _, ss, rfl, hg, h3 _ h1 _ (by simpa [succs, hi] using hn), h3, h4⟩⟩
  | read ha =>
    obtain ⟨pc, hc', hi⟩ := ha
    obtain ⟨hg, ss, h1, h2, h3, h4⟩ := key _ _ _ hc' hi
    refine ⟨?_, ?_⟩
    · rw [set_same]
      exact ⟨hm, .inr ⟨_, _, ss, rfl, hg, h3 _ h1 _ (by simp [succs, hi]), h3, h4⟩⟩
    · simpa [okAt, hi, Event.touches] using h2
  | write ha =>
    obtain ⟨pc, hc', hi⟩ := ha
    obtain ⟨hg, ss, h1, h2, h3, h4⟩ := key _ _ _ hc' hi
    simp [okAt, hi] at h2
  | grabRead ha _ =>
    obtain ⟨pc, hc', hi⟩ := ha
    obtain ⟨hg, ss, h1, h2, h3, h4⟩ := key _ _ _ hc' hi
    simp [okAt, hi] at h2
  | grabWrite ha _ =>
    obtain ⟨pc, hc', hi⟩ := ha
    obtain ⟨hg, ss, h1, h2, h3, h4⟩ := key _ _ _ hc' hi
    simp [okAt, hi] at h2
  | grabFails ha =>
    obtain ⟨pc, hc', hi⟩ := ha
    obtain ⟨hg, ss, h1, h2, h3, h4⟩ := key _ _ _ hc' hi
    simp [okAt, hi] at h2
  | release ha =>
    obtain ⟨pc, hc', hi⟩ := ha
    obtain ⟨hg, ss, h1, h2, h3, h4⟩ := key _ _ _ hc' hi
    refine ⟨?_, rfl⟩
    rw [set_same]
    exact ⟨rfl, .inr ⟨_, _, ss, rfl, hg, h3 _ h1 _ (by simp [succs, hi]), h3, h4⟩⟩
  | ret ha =>
    refine ⟨?_, rfl⟩
    rw [set_same]
    exact ⟨hm, .inl rfl⟩

theorem holding_step {c t e c' m} (h : Holding api places m (c t)) (hs : Step api c t e c') :
    Holding api places m (c' t) ∨ Over api places (c' t) := by
  obtain ⟨hn, hm, g, pc, o, ss, hc, hg, h1, h3, h4⟩ := h
  have h2 := h4 _ h1
  have key : ∀ g' i, At c t g' i → g' = g ∧ g[pc]? = some i := by
    intro g' i ⟨pc', h1, h2⟩
    rw [hc] at h1; cases h1; exact ⟨rfl, h2⟩
  have go : ∀ n, (n, m, o) ∈ succs g (pc, m, o) →
      Holding api places m (upd c t ⟨some (g, n), (c t).mode⟩ t) := by
    intro n hh
    rw [set_same]
    exact ⟨hn, hm, g, n, o, ss, rfl, hg, h3 _ h1 _ hh, h3, h4⟩
  cases hs with
  | start hc' _ => rw [hc] at hc'; cases hc'
  | choice ha hn' =>
    obtain ⟨rfl, hi⟩ := key _ _ ha
    exact .inl (go _ (by simpa [succs, hi] using hn'))
  | read ha =>
    obtain ⟨rfl, hi⟩ := key _ _ ha
    exact .inl (go _ (by simp [succs, hi]))
  | write ha =>
    obtain ⟨rfl, hi⟩ := key _ _ ha
    exact .inl (go _ (by simp [succs, hi]))
  | grabRead ha _ =>
    obtain ⟨rfl, hi⟩ := key _ _ ha
    simp [okAt, hi, hn] at h2
  | grabWrite ha _ =>
    obtain ⟨rfl, hi⟩ := key _ _ ha
    simp [okAt, hi, hn] at h2
  | grabFails ha =>
    obtain ⟨rfl, hi⟩ := key _ _ ha
    simp [okAt, hi, hn] at h2
  | release ha =>
    obtain ⟨rfl, hi⟩ := key _ _ ha
    refine .inr ?_
    rw [set_same]
    exact ⟨rfl, .inr ⟨_, _, ss, rfl, hg, h3 _ h1 _ (by simp [succs, hi]), h3, h4⟩⟩
  | ret ha =>
    obtain ⟨rfl, hi⟩ := key _ _ ha
    simp [okAt, hi, hn] at h2

theorem over_run {c es c'} {t : Nat} (hr : Run api c es c') (h : Over api places (c t))
    (hs : SameCall t es) : Over api places (c' t) := by
  induction hr with
  | nil => exact h
  | @cons c a e c1 es c2 hst _ ih =>
    have hs' : SameCall t es := fun hh => hs (List.mem_cons_of_mem _ hh)
    by_cases ha : t = a
    · subst ha
      exact ih (over_step h hst (fun he => hs (he ▸ List.mem_cons_self))).1 hs'
    · exact ih ((step_other hst ha).symm ▸ h) hs'

theorem holding_run {c es c' m} {t : Nat} (hr : Run api c es c') (h : Holding api places m (c t))
    (hs : SameCall t es) : Holding api places m (c' t) ∨ Over api places (c' t) := by
  induction hr with
  | nil => exact .inl h
  | @cons c a e c1 es c2 hst hr ih =>
    have hs' : SameCall t es := fun hh => hs (List.mem_cons_of_mem _ hh)
    by_cases ha : t = a
    · subst ha
      rcases holding_step h hst with h | h
      · exact ih h hs'
      · exact .inr (over_run hr h hs')
    · exact ih ((step_other hst ha).symm ▸ h) hs'

theorem run_append {c es fs c'} (h : Run api c (es ++ fs) c') :
    ∃ c1, Run api c es c1 ∧ Run api c1 fs c' := by
  induction es generalizing c with
  | nil => exact ⟨c, .nil, h⟩
  | cons e es ih =>
    cases h with
    | cons hs h =>
      obtain ⟨c1, h1, h2⟩ := ih h
      exact ⟨c1, .cons hs h1, h2⟩

/-- a thread that accesses one of the places holds the lock, for writing if it changes it -/
theorem touch_holding {c t e c'} (hi : Inv api [.none] places true c) (hs : Step api c t e c')
    (he : e.touches places = true) : ∃ m, Holding api places m (c t) ∧ Holding api places m (c' t) ∧
      (e.changes places = true → m = .write) := by
  cases hs with
  | @read g p n ha =>
    have hm := read_mode hi ha he
    obtain ⟨pc, hc, hx⟩ := ha
    obtain ⟨hg, o, ss, h1, _, h2, h3⟩ := inSt_at (hi.2 t) hc
    refine ⟨(c t).mode, ⟨hm, rfl, g, pc, o, ss, hc, hg, h1, h2, h3⟩, ?_, fun h => by cases h⟩
    rw [set_same]
    exact ⟨hm, rfl, g, n, o, ss, rfl, hg, h2 _ h1 _ (by simp [succs, hx]), h2, h3⟩
  | @write g p n ha =>
    have hm := (write_mode hi ha).2
    obtain ⟨pc, hc, hx⟩ := ha
    obtain ⟨hg, o, ss, h1, _, h2, h3⟩ := inSt_at (hi.2 t) hc
    rw [hm] at h1
    refine ⟨.write, ⟨nofun, hm, g, pc, o, ss, hc, hg, h1, h2, h3⟩, ?_, fun _ => rfl⟩
    rw [set_same]
    exact ⟨nofun, hm, g, n, o, ss, rfl, hg, h2 _ h1 _ (by simp [succs, hx]), h2, h3⟩
  | _ => cases he

theorem atomic_aux (hG : guarded places [.none] true api = true) {es es₁ es₂ es₃ c t u e f e'}
    (hr : Run api initial (es ++ (t, e) :: es₁ ++ (u, f) :: es₂ ++ (t, e') :: es₃) c) (hut : u ≠ t)
    (hsc : SameCall t (es₁ ++ (u, f) :: es₂)) (he : e.touches places = true)
    (hf : f.touches places = true) (he' : e'.touches places = true) :
    ¬ f.changes places ∧ ¬ e.changes places ∧ ¬ e'.changes places := by
  rw [List.append_assoc, List.append_assoc] at hr
  obtain ⟨c0, hr0, hr⟩ := run_append hr
  have hi0 := inv_run hG (inv_initial hG) hr0
  rw [List.cons_append] at hr
  cases hr with
  | @cons _ _ _ c1 _ _ hs1 hr =>
  have hi1 : Inv api [.none] places true c1 := ⟨step_excl hi0.1 hs1, step_inSt hG hi0.2 hs1⟩
  obtain ⟨c2, hr1, hr⟩ := run_append hr
  have hi2 := inv_run hG hi1 hr1
  rw [List.cons_append] at hr
  cases hr with
  | @cons _ _ _ c3 _ _ hs2 hr =>
  have hi3 : Inv api [.none] places true c3 := ⟨step_excl hi2.1 hs2, step_inSt hG hi2.2 hs2⟩
  obtain ⟨c4, hr2, hr⟩ := run_append hr
  have hi4 := inv_run hG hi3 hr2
  cases hr with
  | @cons _ _ _ c5 _ _ hs3 hr =>
  have hsc1 : SameCall t es₁ := fun h => hsc (List.mem_append_left _ h)
  have hsc2 : SameCall t es₂ := fun h => hsc (List.mem_append_right _ (List.mem_cons_of_mem _ h))
  obtain ⟨m, _, hm1, hw⟩ := touch_holding hi0 hs1 he
  obtain ⟨m', hm4, _, hw'⟩ := touch_holding hi4 hs3 he'
  obtain ⟨k, hk2, _, hwk⟩ := touch_holding hi2 hs2 hf
  have hnot : ¬ Over api places (c4 t) := fun h => hm4.1 (hm4.2.1 ▸ h.1)
  have heq : c3 t = c2 t := step_other hs2 (Ne.symm hut)
  have h2 : Holding api places m (c2 t) := by
    rcases holding_run hr1 hm1 hsc1 with h | h
    · exact h
    · exact absurd (over_run hr2 (heq.symm ▸ h) hsc2) hnot
  have h4 : Holding api places m (c4 t) := by
    rcases holding_run hr2 (heq.symm ▸ h2) hsc2 with h | h
    · exact h
    · exact absurd h hnot
  have hmm : m' = m := hm4.2.1.symm.trans h4.2.1
  refine ⟨fun h => ?_, fun h => ?_, fun h => ?_⟩
  · have := hi2.1 u t hut (hwk h ▸ hk2.2.1)
    exact h2.1 (h2.2.1.symm.trans this)
  · have := hi2.1 t u (Ne.symm hut) (hw h ▸ h2.2.1)
    exact hk2.1 (hk2.2.1.symm.trans this)
  · have := hi2.1 t u (Ne.symm hut) ((hmm.symm.trans (hw' h)) ▸ h2.2.1)
    exact hk2.1 (hk2.2.1.symm.trans this)

/-- checked calls are atomic -/
theorem atomic_of_guarded (hG : guarded places [.none] true api = true) : Atomic api places := by
  intro es mid es₃ c t e e' hr hsc he he' u f hm hut hf
  obtain ⟨es₁, es₂, rfl⟩ := List.append_of_mem hm
  refine atomic_aux hG (es := es) (es₁ := es₁) (es₂ := es₂) (es₃ := es₃) (c := c) ?_ hut hsc he hf he'
  simpa [List.append_assoc] using hr

/-- only the places of the check are changed -/
theorem changed_of_guarded (hG : guarded places idle single api = true) : Changed api places := by
  intro es c t p hr hm
  have : ∀ c0, Inv api idle places single c0 → Run api c0 es c → p ∈ places := by
    clear hr
    induction es with
    | nil => cases hm
    | cons x es ih =>
      intro c0 hi hr
      cases hr with
      | @cons _ t' e c1 _ _ hs hr =>
        rcases List.mem_cons.1 hm with h | h
        · cases h
          cases hs with
          | write ha => exact List.contains_iff_mem.1 (write_mode hi ha).1
        · exact ih h c1 ⟨step_excl hi.1 hs, step_inSt hG hi.2 hs⟩ hr
  exact this _ (inv_initial hG) hr

end

end Verif.Access
