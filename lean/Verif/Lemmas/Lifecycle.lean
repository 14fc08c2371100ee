import Verif.Model.Lifecycle
/-!
# Lemmas on the memory that is owned by a container
-/
namespace Verif.Life

theorem Slot.mem_all (x : Slot) : x ∈ Slot.all := by cases x <;> decide

/-- every pointer is allocated, nothing else is, and no two pointers are the same -/
structure Owned (h : Heap) : Prop where
  nodup : h.live.Nodup
  iff : ∀ a, a ∈ h.live ↔ ∃ x, h.ptr x = some a
  inj : ∀ x y a, h.ptr x = some a → h.ptr y = some a → x = y
  lt : ∀ a ∈ h.live, a < h.next

/-- the pointers that are set -/
def Set (h : Heap) (a : List Slot) : Prop := ∀ x, x ∈ a ↔ h.ptr x ≠ none

def add (x : Slot) (a : List Slot) : List Slot := Slot.all.filter (fun y => decide (y = x) || decide (y ∈ a))
def del (x : Slot) (a : List Slot) : List Slot := Slot.all.filter (fun y => !decide (y = x) && decide (y ∈ a))

theorem mem_add {x y : Slot} {a : List Slot} : y ∈ add x a ↔ y = x ∨ y ∈ a := by
  simp [add, Slot.mem_all]

theorem mem_del {x y : Slot} {a : List Slot} : y ∈ del x a ↔ y ≠ x ∧ y ∈ a := by
  simp [del, Slot.mem_all]

/-- go on with `k` where the first statement ended normally -/
def gather (k : List Slot → Option (List (List Slot × Out))) : List (List Slot × Out) → Option (List (List Slot × Out))
  | [] => some []
  | p :: r => match (if p.2 = .next then k p.1 else some [p]), gather k r with
    | some u, some v => some (u ++ v)
    | _, _ => none

/-- which pointers are set after a statement; `none` if that is not known or if a pointer that is not set is used or one that is set is overwritten -/
def after : Stmt → List Slot → Option (List (List Slot × Out))
  | .skip, a => some [(a, .next)]
  | .seq s t, a => do
    let r ← after s a
    gather (fun b => after t b) r
  | .branch s t, a => do
    let r ← after s a
    let q ← after t a
    some (r ++ q)
  | .loop s, a => do
    let r ← after s a
    if r.all (fun p => p.2 ≠ .next || p.1 == a) then some ((a, .next) :: r) else none
  | .goto, a => some [(a, .goto)]
  | .alloc x, a => some [(add x a, .next), (a, .goto)]
  | .read x, a => if x ∈ a then some [(a, .next), (a, .goto)] else none
  | .use x, a => if x ∈ a then some [(a, .next)] else none
  | .free x, a => some [(del x a, .next)]
  | .swap x y, a => if x ∈ a ∧ y ∈ a then some [(a, .next)] else none
  | .move x y, a => if x ∈ a ∧ y ∉ a then some [(del x (add y a), .next)] else none
  | .setSize, a => if Slot.superblock ∈ a then some [(a, .next)] else none

theorem gather_sound {k : List Slot → Option (List (List Slot × Out))} {r q : List (List Slot × Out)} (h : gather k r = some q) {p : List Slot × Out} (hp : p ∈ r) :
    ∃ u, (if p.2 = .next then k p.1 else some [p]) = some u ∧ ∀ x ∈ u, x ∈ q := by
  induction r generalizing q with
  | nil => cases hp
  | cons c r ih =>
    simp only [gather] at h
    split at h
    · rename_i u v h1 h2
      cases h
      rcases List.mem_cons.1 hp with e | e
      · subst e
        exact ⟨u, h1, fun x hx => List.mem_append_left _ hx⟩
      · obtain ⟨w, h3, h4⟩ := ih h2 e
        exact ⟨w, h3, fun x hx => List.mem_append_right _ (h4 x hx)⟩
    · cases h

theorem owned_live {h : Heap} (ho : Owned h) {x : Slot} {p : Nat} (hp : h.ptr x = some p) : p ∈ h.live := (ho.iff p).2 ⟨x, hp⟩

theorem set_ptr (h : Heap) (x : Slot) (p : Option Nat) (y : Slot) : (h.set x p).ptr y = if y = x then p else h.ptr y := rfl

/-- content and size do not matter -/
theorem owned_congr {h h' : Heap} (ho : Owned h) (h1 : h'.ptr = h.ptr) (h2 : h'.live = h.live) (h3 : h'.next = h.next) : Owned h' := by
  refine ⟨h2 ▸ ho.nodup, ?_, ?_, ?_⟩
  · rw [h1, h2]; exact ho.iff
  · rw [h1]; exact ho.inj
  · rw [h2, h3]; exact ho.lt

theorem owned_alloc {h : Heap} (ho : Owned h) {x : Slot} (hx : h.ptr x = none) (c : Nat → Info) :
    Owned { h.set x (some h.next) with live := h.next :: h.live, next := h.next + 1, content := c } := by
  have fresh : h.next ∉ h.live := fun hm => Nat.lt_irrefl _ (ho.lt _ hm)
  refine ⟨List.nodup_cons.2 ⟨fresh, ho.nodup⟩, ?_, ?_, ?_⟩
  · intro a
    simp only [List.mem_cons]
    constructor
    · rintro (rfl | hm)
      · exact ⟨x, by simp [Heap.set]⟩
      · obtain ⟨y, hy⟩ := (ho.iff a).1 hm
        refine ⟨y, ?_⟩
        have : y ≠ x := fun e => by rw [e, hx] at hy; cases hy
        simp [Heap.set, this, hy]
    · rintro ⟨y, hy⟩
      by_cases e : y = x
      · simp [Heap.set, e] at hy; exact .inl hy.symm
      · simp [Heap.set, e] at hy; exact .inr ((ho.iff a).2 ⟨y, hy⟩)
  · intro y z a hy hz
    by_cases e : y = x <;> by_cases g : z = x
    · rw [e, g]
    · simp [Heap.set, e] at hy; simp [Heap.set, g] at hz
      exact absurd (owned_live ho hz) (hy ▸ fresh)
    · simp [Heap.set, e] at hy; simp [Heap.set, g] at hz
      exact absurd (owned_live ho hy) (hz ▸ fresh)
    · simp [Heap.set, e] at hy; simp [Heap.set, g] at hz
      exact ho.inj y z a hy hz
  · intro a ha
    rcases List.mem_cons.1 ha with rfl | ha
    · exact Nat.lt_succ_self _
    · exact Nat.lt_succ_of_lt (ho.lt a ha)

theorem owned_free {h : Heap} (ho : Owned h) {x : Slot} {p : Nat} (hx : h.ptr x = some p) : Owned { h.set x none with live := h.live.erase p } := by
  refine ⟨ho.nodup.erase p, ?_, ?_, ?_⟩
  · intro a
    rw [ho.nodup.mem_erase_iff, ho.iff]
    constructor
    · rintro ⟨hne, y, hy⟩
      have : y ≠ x := fun e => by rw [e, hx] at hy; exact hne (Option.some.inj hy).symm
      exact ⟨y, by simp [Heap.set, this, hy]⟩
    · rintro ⟨y, hy⟩
      by_cases e : y = x
      · simp [Heap.set, e] at hy
      · simp [Heap.set, e] at hy
        exact ⟨fun g => e (ho.inj y x p (g ▸ hy) hx), y, hy⟩
  · intro y z a hy hz
    by_cases e : y = x
    · simp [Heap.set, e] at hy
    · by_cases g : z = x
      · simp [Heap.set, g] at hz
      · simp [Heap.set, e] at hy; simp [Heap.set, g] at hz
        exact ho.inj y z a hy hz
  · intro a ha
    exact ho.lt a (List.mem_of_mem_erase ha)

/-- the pointers are renamed by an involution -/
theorem owned_rename {h h' : Heap} (ho : Owned h) (f : Slot → Slot) (hf : ∀ x, f (f x) = x) (h1 : ∀ x, h'.ptr x = h.ptr (f x)) (h2 : h'.live = h.live) (h3 : h'.next = h.next) : Owned h' := by
  refine ⟨h2 ▸ ho.nodup, ?_, ?_, ?_⟩
  · intro a
    rw [h2, ho.iff]
    constructor
    · rintro ⟨x, hx⟩; exact ⟨f x, by rw [h1, hf, hx]⟩
    · rintro ⟨x, hx⟩; exact ⟨f x, by rw [← h1, hx]⟩
  · intro x y a hx hy
    rw [h1] at hx hy
    have := ho.inj _ _ a hx hy
    rw [← hf x, this, hf]
  · rw [h2, h3]; exact ho.lt

def swapped (x y z : Slot) : Slot := if z = x then y else if z = y then x else z

theorem swapped_swapped (x y z : Slot) : swapped x y (swapped x y z) = z := by
  unfold swapped
  by_cases h : z = x
  · subst h; by_cases g : y = z <;> simp [g]
  · by_cases g : z = y
    · subst g; simp [h]
    · simp [h, g]

/-- which pointers are set is as computed, and memory is used properly -/
theorem after_sound {s : Stmt} {h h' : Heap} {o : Out} (he : Exec s h h' o) {a : List Slot} {r : List (List Slot × Out)} (hr : after s a = some r) (ho : Owned h) (ha : Set h a) :
    ∃ b, (b, o) ∈ r ∧ Owned h' ∧ Set h' b := by
  induction he generalizing a r with
  | skip => cases hr; exact ⟨a, by simp, ho, ha⟩
  | seq _ _ ih1 ih2 =>
    simp only [after, Option.bind_eq_bind, Option.bind_eq_some_iff] at hr
    obtain ⟨q, hq, hr⟩ := hr
    obtain ⟨b, hb, ho', hs'⟩ := ih1 hq ho ha
    obtain ⟨u, hu, hsub⟩ := gather_sound hr hb
    simp only [if_true] at hu
    obtain ⟨c, hc, h2⟩ := ih2 hu ho' hs'
    exact ⟨c, hsub _ hc, h2⟩
  | leave _ hne ih1 =>
    simp only [after, Option.bind_eq_bind, Option.bind_eq_some_iff] at hr
    obtain ⟨q, hq, hr⟩ := hr
    obtain ⟨b, hb, ho', hs'⟩ := ih1 hq ho ha
    obtain ⟨u, hu, hsub⟩ := gather_sound hr hb
    simp only [hne, if_false] at hu
    cases hu
    exact ⟨b, hsub _ (by simp), ho', hs'⟩
  | left _ ih =>
    simp only [after, Option.bind_eq_bind, Option.bind_eq_some_iff] at hr
    obtain ⟨q, hq, u, _, hr⟩ := hr
    cases hr
    obtain ⟨b, hb, h2⟩ := ih hq ho ha
    exact ⟨b, List.mem_append_left _ hb, h2⟩
  | right _ ih =>
    simp only [after, Option.bind_eq_bind, Option.bind_eq_some_iff] at hr
    obtain ⟨q, _, u, hu, hr⟩ := hr
    cases hr
    obtain ⟨b, hb, h2⟩ := ih hu ho ha
    exact ⟨b, List.mem_append_right _ hb, h2⟩
  | done =>
    simp only [after, Option.bind_eq_bind, Option.bind_eq_some_iff] at hr
    obtain ⟨q, _, hr⟩ := hr
    split at hr
    · cases hr; exact ⟨a, by simp, ho, ha⟩
    · cases hr
  | again _ _ ih1 ih2 =>
    have hr0 := hr
    simp only [after, Option.bind_eq_bind, Option.bind_eq_some_iff] at hr
    obtain ⟨q, hq, hr⟩ := hr
    split at hr
    · rename_i hall
      obtain ⟨b, hb, ho', hs'⟩ := ih1 hq ho ha
      have := List.all_eq_true.1 hall _ hb
      simp at this
      subst this
      exact ih2 hr0 ho' hs'
    · cases hr
  | loopLeave _ _ ih =>
    simp only [after, Option.bind_eq_bind, Option.bind_eq_some_iff] at hr
    obtain ⟨q, hq, hr⟩ := hr
    split at hr
    · cases hr
      obtain ⟨b, hb, h2⟩ := ih hq ho ha
      exact ⟨b, List.mem_cons_of_mem _ hb, h2⟩
    · cases hr
  | goto => cases hr; exact ⟨a, by simp, ho, ha⟩
  | @alloc x h i hx =>
    cases hr
    refine ⟨add x a, by simp, owned_alloc ho hx _, ?_⟩
    intro y
    rw [mem_add, ha y]
    by_cases e : y = x <;> simp [Heap.set, e]
  | allocFailed => cases hr; exact ⟨a, by simp, ho, ha⟩
  | read _ _ =>
    simp only [after] at hr
    split at hr
    · cases hr; exact ⟨a, by simp, owned_congr ho rfl rfl rfl, ha⟩
    · cases hr
  | readFailed _ _ =>
    simp only [after] at hr
    split at hr
    · cases hr; exact ⟨a, by simp, owned_congr ho rfl rfl rfl, ha⟩
    · cases hr
  | readUb hx =>
    simp only [after] at hr
    split at hr
    · rename_i hm
      obtain ⟨p, hp⟩ := Option.ne_none_iff_exists'.1 ((ha _).1 hm)
      exact absurd (owned_live ho hp) (hx p hp)
    · cases hr
  | use _ _ =>
    simp only [after] at hr
    split at hr
    · cases hr; exact ⟨a, by simp, ho, ha⟩
    · cases hr
  | useUb hx =>
    simp only [after] at hr
    split at hr
    · rename_i hm
      obtain ⟨p, hp⟩ := Option.ne_none_iff_exists'.1 ((ha _).1 hm)
      exact absurd (owned_live ho hp) (hx p hp)
    · cases hr
  | @freeNull x h hx =>
    cases hr
    refine ⟨del x a, by simp, ho, ?_⟩
    intro y
    rw [mem_del, ha y]
    constructor
    · exact fun h => h.2
    · intro hy; exact ⟨fun e => hy (e ▸ hx), hy⟩
  | @free x h p hx _ =>
    cases hr
    refine ⟨del x a, by simp, owned_free ho hx, ?_⟩
    intro y
    rw [mem_del, ha y]
    by_cases e : y = x <;> simp [Heap.set, e]
  | freeUb hx hn => exact absurd (owned_live ho hx) hn
  | @swap x y h =>
    simp only [after] at hr
    split at hr
    · rename_i hm
      cases hr
      refine ⟨a, by simp, owned_rename ho (swapped x y) (swapped_swapped x y) ?_ rfl rfl, ?_⟩
      · intro z
        by_cases e : z = x <;> by_cases g : z = y <;> simp_all [Heap.set, swapped]
      · intro z
        have hx := (ha x).1 hm.1
        have hy := (ha y).1 hm.2
        by_cases e : z = x <;> by_cases g : z = y <;> simp_all [Heap.set, Set]
    · cases hr
  | @move x y h =>
    simp only [after] at hr
    split at hr
    · rename_i hm
      cases hr
      have hy : h.ptr y = none := by
        have := mt (ha y).2 hm.2
        simpa using this
      have hxy : x ≠ y := fun e => hm.2 (e ▸ hm.1)
      refine ⟨del x (add y a), by simp, owned_rename ho (swapped x y) (swapped_swapped x y) ?_ rfl rfl, ?_⟩
      · intro z
        by_cases e : z = x <;> by_cases g : z = y <;> simp_all [Heap.set, swapped]
      · intro z
        rw [mem_del, mem_add, ha z]
        have hx := (ha x).1 hm.1
        by_cases e : z = x <;> by_cases g : z = y <;> simp_all [Heap.set]
    · cases hr
  | setSize _ _ =>
    simp only [after] at hr
    split at hr
    · cases hr; exact ⟨a, by simp, owned_congr ho rfl rfl rfl, ha⟩
    · cases hr
  | setSizeUb hx =>
    simp only [after] at hr
    split at hr
    · rename_i hm
      obtain ⟨p, hp⟩ := Option.ne_none_iff_exists'.1 ((ha _).1 hm)
      exact absurd (owned_live ho hp) (hx p hp)
    · cases hr

end Verif.Life
