import Verif.Lemmas.Lifecycle
/-!
# Opening and closing keep track of memory
-/
namespace Verif.Life

/-- what is allocated while a container is open, without or with a key bag -/
def openSlots (keyBag : Bool) : List Slot := if keyBag then [.superblock, .map, .vector, .vectorData, .btree, .keyBag] else [.superblock, .map, .vector, .vectorData, .btree]

/-- the ways in which the body ends are known -/
def endsIn (s : Stmt) (a : List Slot) (ok : List Slot × Out → Bool) : Bool :=
  match after s a with
  | none => false
  | some r => r.all ok

theorem endsIn_sound {s : Stmt} {a : List Slot} {ok : List Slot × Out → Bool} (h : endsIn s a ok = true) {g g' : Heap} {o : Out} (he : Exec s g g' o) (ho : Owned g) (ha : Set g a) :
    ∃ b, ok (b, o) = true ∧ Owned g' ∧ Set g' b := by
  unfold endsIn at h
  split at h
  · cases h
  · rename_i r hr
    obtain ⟨b, hb, h2⟩ := after_sound he hr ho ha
    exact ⟨b, List.all_eq_true.1 h _ hb, h2⟩

theorem set_nil {h : Heap} : Set h [] ↔ ∀ x, h.ptr x = none := by
  constructor
  · intro hs x
    have := mt (hs x).2 (by simp)
    simpa using this
  · intro hs x
    simp [hs x]

theorem live_nil {h : Heap} (ho : Owned h) (hs : Set h []) : h.live = [] := by
  rw [List.eq_nil_iff_forall_not_mem]
  intro a ha
  obtain ⟨x, hx⟩ := (ho.iff a).1 ha
  rw [set_nil.1 hs x] at hx
  cases hx


/-- every way through the body: on success the slots of an open container are set, otherwise memory is used properly and the handler frees all -/
theorem openBody_ends : endsIn openReadBody [] (fun p =>
    match p.2 with
    | .next => p.1 == openSlots true || p.1 == openSlots false
    | .goto => endsIn openReadHandler p.1 (fun q => q == ([], .next))
    | .ub => false) = true := by decide +kernel

theorem unset_of_nil {h : Heap} (hs : Set h []) : unset h = true := by
  simp [unset, set_nil.1 hs]

/-- opening from a state where nothing is allocated -/
theorem openRead_nil {h h' : Heap} {r : Option Bool} (hr : OpenRead h h' r) (ho : Owned h) (hs : Set h []) :
    Owned h' ∧ ((r = some true ∧ ∃ b, Set h' (openSlots b)) ∨ (r = some false ∧ Set h' [])) := by
  cases hr with
  | refused hu => rw [unset_of_nil hs] at hu; cases hu
  | ok _ he =>
    obtain ⟨b, hb, ho', hs'⟩ := endsIn_sound openBody_ends he ho hs
    simp only [Bool.or_eq_true, beq_iff_eq] at hb
    refine ⟨ho', .inl ⟨rfl, ?_⟩⟩
    rcases hb with hb | hb
    · exact ⟨true, hb ▸ hs'⟩
    · exact ⟨false, hb ▸ hs'⟩
  | failed _ he hh =>
    obtain ⟨b, hb, ho', hs'⟩ := endsIn_sound openBody_ends he ho hs
    obtain ⟨c, hc, ho'', hs''⟩ := endsIn_sound hb hh ho' hs'
    simp only [beq_iff_eq, Prod.mk.injEq] at hc
    exact ⟨ho'', .inr ⟨rfl, hc.1 ▸ hs''⟩⟩
  | ub _ he =>
    obtain ⟨b, hb, _⟩ := endsIn_sound openBody_ends he ho hs
    cases hb
  | handlerUb _ he hh =>
    obtain ⟨b, hb, ho', hs'⟩ := endsIn_sound openBody_ends he ho hs
    obtain ⟨c, hc, _⟩ := endsIn_sound hb hh ho' hs'
    simp at hc

theorem close_ends (b : Bool) : endsIn closeFrees (openSlots b) (fun q => q == ([], .next)) = true := by
  cases b <;> decide +kernel

theorem close_frees {b : Bool} {h h' : Heap} {o : Out} (he : Exec closeFrees h h' o) (ho : Owned h) (hs : Set h (openSlots b)) : o = .next ∧ Owned h' ∧ Set h' [] := by
  obtain ⟨c, hc, ho', hs'⟩ := endsIn_sound (close_ends b) he ho hs
  simp only [beq_iff_eq, Prod.mk.injEq] at hc
  exact ⟨hc.2, ho', hc.1 ▸ hs'⟩

/-- an execution without errors: which pointers are set afterwards -/
def canRun : Stmt → List Slot → Option (List Slot)
  | .skip, a => some a
  | .seq s t, a => match canRun s a with | none => none | some b => canRun t b
  | .branch _ t, a => canRun t a
  | .loop _, a => some a
  | .goto, _ => none
  | .alloc x, a => if x ∈ a then none else some (add x a)
  | .read x, a => if x ∈ a then some a else none
  | .use x, a => if x ∈ a then some a else none
  | .free x, a => some (del x a)
  | .swap x y, a => if x ∈ a ∧ y ∈ a then some a else none
  | .move x y, a => if x ∈ a ∧ y ∉ a then some (del x (add y a)) else none
  | .setSize, a => if Slot.superblock ∈ a then some a else none

theorem not_set {h : Heap} {a : List Slot} (hs : Set h a) {x : Slot} (hx : x ∉ a) : h.ptr x = none := by
  have := mt (hs x).2 hx
  simpa using this

theorem is_set {h : Heap} {a : List Slot} (hs : Set h a) {x : Slot} (hx : x ∈ a) : ∃ p, h.ptr x = some p := Option.ne_none_iff_exists'.1 ((hs x).1 hx)

/-- the execution: from any such state -/
theorem canRun_sound {s : Stmt} {a b : List Slot} (hb : canRun s a = some b) {h : Heap} (ho : Owned h) (hs : Set h a) : ∃ h', Exec s h h' .next ∧ Owned h' ∧ Set h' b := by
  have fin : ∀ {s : Stmt} {r : List (List Slot × Out)} {h' : Heap}, after s a = some r → (∀ c, (c, Out.next) ∈ r → c = b) → Exec s h h' .next → ∃ h', Exec s h h' .next ∧ Owned h' ∧ Set h' b := by
    intro s r h' hr hu he
    obtain ⟨c, hc, h2, h3⟩ := after_sound he hr ho hs
    exact ⟨h', he, h2, hu c hc ▸ h3⟩
  induction s generalizing a b h with
  | skip => cases hb; exact ⟨h, .skip, ho, hs⟩
  | seq s t ihs iht =>
    simp only [canRun] at hb
    split at hb
    · cases hb
    · rename_i c hc
      obtain ⟨h1, e1, o1, s1⟩ := ihs hc ho hs (fun hr hu he => by
        obtain ⟨d, hd, h2, h3⟩ := after_sound he hr ho hs
        exact ⟨_, he, h2, hu d hd ▸ h3⟩)
      obtain ⟨h2, e2, o2, s2⟩ := iht hb o1 s1 (fun hr hu he => by
        obtain ⟨d, hd, h2, h3⟩ := after_sound he hr o1 s1
        exact ⟨_, he, h2, hu d hd ▸ h3⟩)
      exact ⟨h2, .seq e1 e2, o2, s2⟩
  | branch s t _ iht =>
    obtain ⟨h1, e1, o1, s1⟩ := iht hb ho hs fin
    exact ⟨h1, .right e1, o1, s1⟩
  | loop s _ => cases hb; exact ⟨h, .done, ho, hs⟩
  | goto => cases hb
  | alloc x =>
    simp only [canRun] at hb
    split at hb
    · cases hb
    · rename_i hx
      cases hb
      refine fin rfl ?_ (.alloc (i := ⟨0, 0, 0, false⟩) (not_set hs hx))
      intro c hc
      simp at hc
      exact hc
  | read x =>
    simp only [canRun] at hb
    split at hb
    · rename_i hx
      cases hb
      obtain ⟨p, hp⟩ := is_set hs hx
      exact ⟨_, .read (i := ⟨0, 0, 0, false⟩) hp (owned_live ho hp), owned_congr ho rfl rfl rfl, hs⟩
    · cases hb
  | use x =>
    simp only [canRun] at hb
    split at hb
    · rename_i hx
      cases hb
      obtain ⟨p, hp⟩ := is_set hs hx
      exact ⟨_, .use hp (owned_live ho hp), ho, hs⟩
    · cases hb
  | free x =>
    cases hb
    cases hp : h.ptr x with
    | none => exact fin rfl (by simp) (.freeNull hp)
    | some p => exact fin rfl (by simp) (.free hp (owned_live ho hp))
  | swap x y =>
    simp only [canRun] at hb
    split at hb
    · rename_i hx
      cases hb
      exact fin (r := [(a, .next)]) (by simp [after, hx]) (by simp) .swap
    · cases hb
  | move x y =>
    simp only [canRun] at hb
    split at hb
    · rename_i hx
      cases hb
      exact fin (r := [(del x (add y a), .next)]) (by simp [after, hx]) (by simp) .move
    · cases hb
  | setSize =>
    simp only [canRun] at hb
    split at hb
    · rename_i hx
      cases hb
      obtain ⟨p, hp⟩ := is_set hs hx
      exact ⟨_, .setSize hp (owned_live ho hp), owned_congr ho rfl rfl rfl, hs⟩
    · cases hb

theorem openRead_succeeds {h : Heap} (ho : Owned h) (hs : Set h []) : ∃ h', OpenRead h h' (some true) := by
  have key : canRun openReadBody [] = some (openSlots false) := by decide +kernel
  obtain ⟨h', he, _⟩ := canRun_sound key ho hs
  exact ⟨h', .ok (unset_of_nil hs) he⟩

theorem close_runs {b : Bool} {h : Heap} (ho : Owned h) (hs : Set h (openSlots b)) : ∃ h', Exec closeFrees h h' .next := by
  have key : ∀ b, canRun closeFrees (openSlots b) = some [] := by decide +kernel
  obtain ⟨h', he, _⟩ := canRun_sound (key b) ho hs
  exact ⟨h', he⟩

end Verif.Life
