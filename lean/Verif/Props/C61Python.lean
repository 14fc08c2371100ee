import Verif.Props.C61
/-!
# C61: Objects in Python

Objects have references to the object they were obtained from, so a program cannot free handles in a wrong order. It can close a container whose volumes are in use.
-/
namespace Verif.Props
open Verif Handles Spec.Handles

def pNode (p : Object) : Node := ⟨p.id, p.handle, p.parent⟩

/-- the references to each object are those of variables, of objects that were obtained from it and `pend`, one that is about to be released -/
structure PInv (s : Heap) (pend : Option Nat) : Prop where
  good : Good [] (s.objects.map pNode) s.memory
  refs : ∀ p ∈ s.objects, p.references = s.held.count p.id + s.objects.countP (fun c => c.parent = some p.id) + (if pend = some p.id then 1 else 0)
  pos : ∀ p ∈ s.objects, 0 < p.references
  held : ∀ o ∈ s.held, ∃ p ∈ s.objects, p.id = o
  pend : ∀ o, pend = some o → ∃ p ∈ s.objects, p.id = o
  older : ∀ p ∈ s.objects, ∀ q, p.parent = some q → q < p.id
  below : ∀ p ∈ s.objects, p.id < s.next

theorem object_eq {s : Heap} {k : Option Nat} (hi : PInv s k) {p q : Object} (hp : p ∈ s.objects) (hq : q ∈ s.objects) (h : p.id = q.id) : p = q := by
  have hn := hi.good.nodup
  rw [List.map_map] at hn
  generalize s.objects = l at hp hq hn
  clear hi
  induction l with
  | nil => cases hp
  | cons z l ih =>
    rw [List.map_cons, List.nodup_cons] at hn
    rcases List.mem_cons.1 hp with rfl | hp' <;> rcases List.mem_cons.1 hq with rfl | hq'
    · rfl
    · exact absurd (List.mem_map.2 ⟨q, hq', h.symm⟩) hn.1
    · exact absurd (List.mem_map.2 ⟨p, hp', h⟩) hn.1
    · exact ih hp' hq' hn.2

theorem find_object {s : Heap} {k : Option Nat} (hi : PInv s k) {p : Object} (hp : p ∈ s.objects) : s.find p.id = some p := by
  cases hf : s.find p.id with
  | none =>
    unfold Heap.find at hf
    rw [List.find?_eq_none] at hf
    exact absurd (decide_eq_true rfl) (hf p hp)
  | some q =>
    unfold Heap.find at hf
    have h1 := List.mem_of_find?_eq_some hf
    have h2 := List.find?_some hf
    simp only [decide_eq_true_eq] at h2
    rw [object_eq hi h1 hp h2]

/-- a change of the objects that keeps identifiers and parents -/
theorem countP_map {l : List Object} {f : Object → Object} (hf : ∀ p, (f p).parent = p.parent) (o : Nat) : (l.map f).countP (fun c => c.parent = some o) = l.countP (fun c => c.parent = some o) := by
  rw [List.countP_map]
  refine List.countP_congr fun p _ => ?_
  simp [hf]

theorem countP_without {l : List Object} (hn : (l.map (·.id)).Nodup) {p : Object} (hp : p ∈ l) (o : Nat) :
    l.countP (fun c => c.parent = some o) = (l.filter (fun q => q.id ≠ p.id)).countP (fun c => c.parent = some o) + (if p.parent = some o then 1 else 0) := by
  induction l with
  | nil => cases hp
  | cons z l ih =>
    rw [List.map_cons, List.nodup_cons] at hn
    rcases List.mem_cons.1 hp with rfl | hp'
    · have hl : l.filter (fun q => q.id ≠ p.id) = l := List.filter_eq_self.2 fun q hq => decide_eq_true fun h => hn.1 (h ▸ List.mem_map_of_mem (f := (·.id)) hq)
      rw [List.filter_cons, if_neg (by simp), hl, List.countP_cons]
      simp
    · have hz : z.id ≠ p.id := fun h => hn.1 (h ▸ List.mem_map_of_mem (f := (·.id)) hp')
      rw [List.filter_cons, if_pos (decide_eq_true hz), List.countP_cons, List.countP_cons, ih hn.2 hp']
      omega

theorem ids_nodup {s : Heap} {k : Option Nat} (hi : PInv s k) : (s.objects.map (·.id)).Nodup := by
  have hn := hi.good.nodup
  rw [List.map_map] at hn
  exact hn

theorem remove_none {ns : List Node} {m : Memory} (g : Good [] ns m) {x : Node} (hx : x ∈ ns) (hh : x.handle = none) (hc : ∀ y ∈ ns, y.parent ≠ some x.id) : Good [] (ns.filter (fun y => y.id ≠ x.id)) m := by
  have := g.remove hx hc
  have ho : x.owned = [] := by unfold Node.owned; rw [hh]
  rw [ho] at this
  have hl : m.live.filter (fun a => decide (a ∉ ([] : List Addr))) = m.live := List.filter_eq_self.2 fun a _ => decide_eq_true (List.not_mem_nil)
  rw [hl] at this
  exact this

/-- a reference is released -/
theorem p_drop : ∀ (n : Nat) {s : Heap} {o : Option Nat}, s.objects.length = n → PInv s o → ∃ s', s.drop o = some s' ∧ PInv s' none ∧ s'.held = s.held ∧ s'.byObject = s.byObject := by
  intro n
  induction n using Nat.strongRecOn with
  | ind n ih =>
    intro s o hn hi
    cases o with
    | none => exact ⟨s, by rw [Heap.drop], hi, rfl, rfl⟩
    | some o =>
      obtain ⟨p, hp, rfl⟩ := hi.pend o rfl
      have hf := find_object hi hp
      rw [Heap.drop]
      have hdrop : ∀ (r : Option Heap), (if p.references > 1 then some { s with objects := s.objects.map (fun q => if q.id = p.id then { q with references := q.references - 1 } else q) }
          else do
            let m ← freeOf p.handle s.memory
            Heap.drop (s.without p.id m) p.parent) = r →
          (match _h : s.find p.id with
            | none => none
            | some q =>
              if q.references > 1 then some { s with objects := s.objects.map (fun r => if r.id = p.id then { r with references := r.references - 1 } else r) }
              else do
                let m ← freeOf q.handle s.memory
                Heap.drop (s.without p.id m) q.parent) = r := by
        intro r hr
        split
        · next h => rw [hf] at h; cases h
        · next q h => rw [hf] at h; cases h; exact hr
      have hr := hi.refs p hp
      rw [if_pos rfl] at hr
      by_cases h1 : p.references > 1
      · refine ⟨_, hdrop _ (if_pos h1), ?_, rfl, rfl⟩
        have hnode : (s.objects.map (fun q => if q.id = p.id then { q with references := q.references - 1 } else q)).map pNode = s.objects.map pNode := by
          rw [List.map_map]
          refine List.map_congr_left fun q _ => ?_
          dsimp only [Function.comp_def]
          split <;> rfl
        have hmem : ∀ q ∈ s.objects.map (fun q => if q.id = p.id then { q with references := q.references - 1 } else q), ∃ q' ∈ s.objects, q'.id = q.id ∧ q'.parent = q.parent ∧
            q.references = if q.id = p.id then q'.references - 1 else q'.references := by
          intro q hq
          obtain ⟨q', hq', rfl⟩ := List.mem_map.1 hq
          refine ⟨q', hq', ?_⟩
          by_cases h : q'.id = p.id
          · rw [if_pos h]; exact ⟨rfl, rfl, (if_pos h).symm⟩
          · rw [if_neg h]; exact ⟨rfl, rfl, (if_neg h).symm⟩
        have hex : ∀ o, (∃ q ∈ s.objects, q.id = o) → ∃ q ∈ s.objects.map (fun q => if q.id = p.id then { q with references := q.references - 1 } else q), q.id = o := by
          rintro o ⟨q, hq, rfl⟩
          refine ⟨_, List.mem_map_of_mem hq, ?_⟩
          split <;> rfl
        refine { good := by show Good [] (List.map pNode (List.map _ _)) _; rw [hnode]; exact hi.good, refs := ?_, pos := ?_, held := fun o ho => hex o (hi.held o ho), pend := fun o h => (by cases h), older := ?_, below := ?_ }
        · intro q hq
          obtain ⟨q', hq', e1, e2, e3⟩ := hmem q hq
          have := hi.refs q' hq'
          show q.references = s.held.count q.id + (List.map _ s.objects).countP _ + _
          rw [countP_map (by intro r; split <;> rfl), e3]
          rw [e1] at this
          by_cases h : q.id = p.id
          · rw [if_pos h, this, h, if_pos rfl]
            simp
          · rw [if_neg h, this, if_neg (fun h' => h (Option.some.inj h').symm)]
            simp
        · intro q hq
          obtain ⟨q', hq', e1, e2, e3⟩ := hmem q hq
          rw [e3]
          by_cases h : q.id = p.id
          · rw [if_pos h, object_eq hi hq' hp (e1.trans h)]
            omega
          · rw [if_neg h]
            exact hi.pos q' hq'
        · intro q hq r hr
          obtain ⟨q', hq', e1, e2, _⟩ := hmem q hq
          rw [← e1]
          exact hi.older q' hq' r (e2.trans hr)
        · intro q hq
          obtain ⟨q', hq', e1, _⟩ := hmem q hq
          rw [← e1]
          exact hi.below q' hq'
      · have hcount : s.held.count p.id = 0 ∧ s.objects.countP (fun c => c.parent = some p.id) = 0 := by omega
        have hchild : ∀ c ∈ s.objects, c.parent ≠ some p.id := by
          have := List.countP_eq_zero.1 hcount.2
          intro c hc h
          exact this c hc (decide_eq_true h)
        have hchild' : ∀ y ∈ s.objects.map pNode, y.parent ≠ some (pNode p).id := by
          intro y hy
          obtain ⟨c, hc, rfl⟩ := List.mem_map.1 hy
          exact hchild c hc
        have hfil : (s.objects.filter (fun q => q.id ≠ p.id)).map pNode = (s.objects.map pNode).filter (fun y => y.id ≠ (pNode p).id) := by
          rw [List.filter_map]
          rfl
        obtain ⟨m, hm, g⟩ : ∃ m, freeOf p.handle s.memory = some m ∧ Good [] ((s.objects.filter (fun q => q.id ≠ p.id)).map pNode) m := by
          rw [hfil]
          cases hh : p.handle with
          | none => exact ⟨_, rfl, remove_none hi.good (List.mem_map_of_mem hp) hh hchild'⟩
          | some h =>
            refine ⟨_, hi.good.free_access (List.mem_map_of_mem hp) hh, ?_⟩
            have := hi.good.remove (List.mem_map_of_mem hp) hchild'
            have ho : (pNode p).owned = h.owned := by unfold Node.owned pNode; dsimp only; rw [hh]
            rw [ho] at this
            exact this
        have hi' : PInv (s.without p.id m) p.parent := by
          refine { good := g, refs := ?_, pos := ?_, held := ?_, pend := ?_, older := ?_, below := ?_ }
          · intro q hq
            obtain ⟨hq, hne⟩ := List.mem_filter.1 hq
            rw [decide_eq_true_eq] at hne
            rw [hi.refs q hq, countP_without (ids_nodup hi) hp q.id, if_neg (fun h => hne (Option.some.inj h).symm)]
            show _ = s.held.count q.id + (s.objects.filter (fun q => q.id ≠ p.id)).countP _ + _
            omega
          · intro q hq
            exact hi.pos q (List.mem_filter.1 hq).1
          · intro o ho
            obtain ⟨q, hq, rfl⟩ := hi.held o ho
            refine ⟨q, List.mem_filter.2 ⟨hq, decide_eq_true fun h => ?_⟩, rfl⟩
            have : 0 < s.held.count q.id := List.count_pos_iff.2 ho
            rw [h] at this
            omega
          · intro o ho
            obtain ⟨y, hy, hid⟩ := hi.good.parents (pNode p) (List.mem_map_of_mem hp) o ho
            obtain ⟨q, hq, rfl⟩ := List.mem_map.1 hy
            refine ⟨q, List.mem_filter.2 ⟨hq, decide_eq_true fun h => ?_⟩, hid⟩
            have h1 := hi.older p hp o ho
            have h2 : q.id = o := hid
            omega
          · intro q hq
            exact hi.older q (List.mem_filter.1 hq).1
          · intro q hq
            exact hi.below q (List.mem_filter.1 hq).1
        have hlen : (s.without p.id m).objects.length < n := by
          rw [← hn]
          exact List.length_filter_lt_length_iff_exists.2 ⟨p, hp, by simp⟩
        obtain ⟨s', h2, h3, h4⟩ := ih _ hlen rfl hi'
        refine ⟨s', hdrop _ ?_, h3, h4⟩
        rw [if_neg h1, hm]
        exact h2

theorem parentFor_eq (p : Object) (h : Handle) (w : Want) : parentFor p h w = (pNode p).parentOf h w := by
  unfold parentFor Node.parentOf
  cases w with
  | entry => cases h <;> rfl
  | _ => rfl

theorem retain_nodes (s : Heap) (o : Nat) : (s.retain o).objects.map pNode = s.objects.map pNode := by
  unfold Heap.retain
  dsimp only
  rw [List.map_map]
  refine List.map_congr_left fun q _ => ?_
  dsimp only [Function.comp_def]
  split <;> rfl

theorem retain_mem {s : Heap} {o : Nat} {q : Object} (hq : q ∈ (s.retain o).objects) : ∃ q' ∈ s.objects, q'.id = q.id ∧ q'.parent = q.parent ∧ q.references = if q.id = o then q'.references + 1 else q'.references := by
  obtain ⟨q', hq', rfl⟩ := List.mem_map.1 hq
  refine ⟨q', hq', ?_⟩
  by_cases h : q'.id = o
  · rw [if_pos h]; exact ⟨rfl, rfl, (if_pos h).symm⟩
  · rw [if_neg h]; exact ⟨rfl, rfl, (if_neg h).symm⟩

theorem retain_exists {s : Heap} {o k : Nat} (h : ∃ q ∈ s.objects, q.id = k) : ∃ q ∈ (s.retain o).objects, q.id = k := by
  obtain ⟨q, hq, rfl⟩ := h
  refine ⟨_, List.mem_map_of_mem hq, ?_⟩
  split <;> rfl

theorem retain_countP (s : Heap) (o k : Nat) : (s.retain o).objects.countP (fun c => c.parent = some k) = s.objects.countP (fun c => c.parent = some k) :=
  countP_map (by intro r; split <;> rfl) k

/-- the objects that a new object refers to -/
def parentObjects (s : Heap) (parent : Option Nat) : List Object :=
  match parent with
  | none => s.objects
  | some o => (s.retain o).objects

theorem parent_nodes (s : Heap) (parent : Option Nat) : (parentObjects s parent).map pNode = s.objects.map pNode := by
  cases parent with
  | none => rfl
  | some o => exact retain_nodes s o

theorem parent_mem {s : Heap} {parent : Option Nat} {q : Object} (hq : q ∈ parentObjects s parent) :
    ∃ q' ∈ s.objects, q'.id = q.id ∧ q'.parent = q.parent ∧ q.references = q'.references + (if parent = some q.id then 1 else 0) := by
  cases parent with
  | none => exact ⟨q, hq, rfl, rfl, rfl⟩
  | some o =>
    obtain ⟨q', h1, h2, h3, h4⟩ := retain_mem hq
    refine ⟨q', h1, h2, h3, ?_⟩
    rw [h4]
    by_cases h : q.id = o
    · rw [if_pos h, if_pos (by rw [h])]
    · rw [if_neg h, if_neg (fun h' => h (Option.some.inj h').symm)]
      rfl

theorem p_new {s : Heap} (hi : PInv s none) {h : Option Handle} {parent : Option Nat} {m : Memory} (g : Good [] (⟨s.next, h, parent⟩ :: s.objects.map pNode) m)
    (hpar : ∀ q, parent = some q → ∃ p ∈ s.objects, p.id = q) : PInv (s.new h parent m) none := by
  have hcount : ∀ k, (parentObjects s parent).countP (fun c => c.parent = some k) = s.objects.countP (fun c => c.parent = some k) := by
    intro k
    cases parent with
    | none => rfl
    | some o => exact retain_countP s o k
  have hex : ∀ k, (∃ q ∈ s.objects, q.id = k) → ∃ q ∈ parentObjects s parent, q.id = k := by
    intro k hk
    cases parent with
    | none => exact hk
    | some o => exact retain_exists hk
  have ho : (s.new h parent m).objects = { id := s.next, references := 1, handle := h, parent := parent } :: parentObjects s parent := by
    cases parent <;> rfl
  refine { good := ?_, refs := ?_, pos := ?_, held := ?_, pend := fun o h => (by cases h), older := ?_, below := ?_ }
  · rw [ho, List.map_cons, parent_nodes]
    exact g
  · intro p hp
    rw [ho] at hp ⊢
    rw [List.countP_cons, hcount]
    show _ = (s.next :: s.held).count p.id + _ + _
    rw [List.count_cons]
    rcases List.mem_cons.1 hp with rfl | hp
    · have h1 : s.held.count s.next = 0 := List.count_eq_zero.2 fun hm => by
        obtain ⟨q, hq, e⟩ := hi.held _ hm
        have := hi.below q hq
        omega
      have h2 : s.objects.countP (fun c => c.parent = some s.next) = 0 := List.countP_eq_zero.2 fun c hc hd => by
        have := hi.older c hc s.next (of_decide_eq_true hd)
        have := hi.below c hc
        omega
      have h3 : parent ≠ some s.next := fun hq => by
        obtain ⟨p, hp, e⟩ := hpar _ hq
        have := hi.below p hp
        omega
      simp [h1, h2, h3]
    · obtain ⟨q, hq, e1, e2, e3⟩ := parent_mem hp
      have := hi.refs q hq
      rw [e1] at this
      have hne : ¬ (s.next == p.id) = true := by
        have := hi.below q hq
        simp
        omega
      rw [e3, this, if_neg hne]
      simp only [reduceCtorEq, if_false, decide_eq_true_eq]
      omega
  · intro p hp
    rw [ho] at hp
    rcases List.mem_cons.1 hp with rfl | hp
    · exact Nat.one_pos
    · obtain ⟨q, hq, e1, e2, e3⟩ := parent_mem hp
      have := hi.pos q hq
      omega
  · intro o hm
    rw [ho]
    rcases List.mem_cons.1 hm with rfl | hm
    · exact ⟨_, List.mem_cons_self .., rfl⟩
    · obtain ⟨q, hq, e⟩ := hex o (hi.held o hm)
      exact ⟨q, List.mem_cons_of_mem _ hq, e⟩
  · intro p hp q hq
    rw [ho] at hp
    rcases List.mem_cons.1 hp with rfl | hp
    · obtain ⟨r, hr, rfl⟩ := hpar q hq
      exact hi.below r hr
    · obtain ⟨p', hp', e1, e2, _⟩ := parent_mem hp
      rw [← e1]
      exact hi.older p' hp' q (e2.trans hq)
  · intro p hp
    rw [ho] at hp
    show p.id < s.next + 1
    rcases List.mem_cons.1 hp with rfl | hp
    · exact Nat.lt_succ_self _
    · obtain ⟨p', hp', e1, _⟩ := parent_mem hp
      have := hi.below p' hp'
      omega

theorem p_set {s : Heap} (hi : PInv s none) {o : Nat} {h : Handle} {m : Memory} (g : Good [] (replace (s.objects.map pNode) o h) m) : PInv (s.setHandle o h m) none := by
  have hnode : (s.setHandle o h m).objects.map pNode = replace (s.objects.map pNode) o h := by
    unfold Heap.setHandle replace
    dsimp only
    rw [List.map_map, List.map_map]
    refine List.map_congr_left fun p _ => ?_
    dsimp only [Function.comp_def]
    by_cases hp : p.id = o
    · rw [if_pos hp, if_pos (show (pNode p).id = o from hp)]; rfl
    · rw [if_neg hp, if_neg (show (pNode p).id ≠ o from hp)]
  have hmem : ∀ q ∈ (s.setHandle o h m).objects, ∃ q' ∈ s.objects, q'.id = q.id ∧ q'.parent = q.parent ∧ q.references = q'.references := by
    intro q hq
    obtain ⟨q', hq', rfl⟩ := List.mem_map.1 hq
    refine ⟨q', hq', ?_⟩
    split <;> exact ⟨rfl, rfl, rfl⟩
  refine { good := by rw [hnode]; exact g, refs := ?_, pos := ?_, held := ?_, pend := fun o h => (by cases h), older := ?_, below := ?_ }
  · intro q hq
    obtain ⟨q', hq', e1, e2, e3⟩ := hmem q hq
    have := hi.refs q' hq'
    rw [e1] at this
    rw [e3, this]
    have : (s.setHandle o h m).objects.countP (fun c => c.parent = some q.id) = s.objects.countP (fun c => c.parent = some q.id) := countP_map (by intro r; split <;> rfl) _
    rw [this]
    rfl
  · intro q hq
    obtain ⟨q', hq', _, _, e3⟩ := hmem q hq
    rw [e3]
    exact hi.pos q' hq'
  · intro k hk
    obtain ⟨q, hq, rfl⟩ := hi.held k hk
    refine ⟨_, List.mem_map_of_mem hq, ?_⟩
    split <;> rfl
  · intro q hq r hr
    obtain ⟨q', hq', e1, e2, _⟩ := hmem q hq
    rw [← e1]
    exact hi.older q' hq' r (e2.trans hr)
  · intro q hq
    obtain ⟨q', hq', e1, _⟩ := hmem q hq
    rw [← e1]
    exact hi.below q' hq'

theorem next_new {s : Heap} {k : Option Nat} (hi : PInv s k) : ∀ y ∈ s.objects.map pNode, y.id ≠ s.next := by
  intro y hy
  obtain ⟨p, hp, rfl⟩ := List.mem_map.1 hy
  exact Nat.ne_of_lt (hi.below p hp)

theorem p_derive {s : Heap} (hi : PInv s none) {p : Object} (hp : p ∈ s.objects) (w : Want) (succeeds : Bool) : ∃ s', s.derive p w succeeds = some s' ∧ PInv s' none ∧ s'.byObject = s.byObject := by
  unfold Heap.derive
  cases hh : p.handle with
  | none => exact ⟨s, rfl, hi, rfl⟩
  | some h =>
    dsimp only
    by_cases hw : w = .snapshot
    · rw [if_pos hw]
      exact ⟨s, rfl, hi, rfl⟩
    rw [if_neg hw]
    rcases hi.good.get (List.mem_map_of_mem hp) (h := h) hh w succeeds with ⟨w', hw', e⟩ | ⟨d, hd, e⟩
    · rw [e, hw' hw]
      exact ⟨s, rfl, hi, rfl⟩
    · have hm : openSnapshot w s.memory.alloc = s.memory.alloc := by
        cases w <;> first | rfl | exact absurd rfl hw
      rw [e, hm]
      refine ⟨s.new (some d) (parentFor p h w) s.memory.alloc, rfl, p_new hi ?_ ?_, rfl⟩
      · rw [parentFor_eq]
        exact (hi.good.derive (List.mem_map_of_mem hp) (h := h) hh hd (next_new hi)).1
      · intro q hq
        rw [parentFor_eq] at hq
        unfold Node.parentOf at hq
        split at hq
        · obtain ⟨y, hy, hid⟩ := hi.good.parents (pNode p) (List.mem_map_of_mem hp) q hq
          obtain ⟨r, hr, rfl⟩ := List.mem_map.1 hy
          exact ⟨r, hr, hid⟩
        · exact ⟨p, hp, Option.some.inj hq⟩

theorem p_same {s : Heap} {k : Option Nat} (hi : PInv s k) {l : List Nat} : PInv { s with byObject := l } k :=
  { good := hi.good, refs := hi.refs, pos := hi.pos, held := hi.held, pend := hi.pend, older := hi.older, below := hi.below }

/-- one action -/
theorem p_act {s : Heap} (hi : PInv s none) {a : Action} (hc : Careful s a) : ∃ s', s.act a = some s' ∧ PInv s' none ∧ ∀ o ∈ s'.byObject, o ∈ s.byObject ∨ opensObject o a = true := by
  have keep : ∀ {t : Heap}, t.byObject = s.byObject → ∀ o ∈ t.byObject, o ∈ s.byObject ∨ opensObject o a = true := fun e o ho => .inl (e ▸ ho)
  unfold Heap.act
  rcases Classical.em (∀ o ∈ a.object, o ∈ s.held) with hheld | hheld
  case inr =>
    rw [if_neg hheld]
    exact ⟨s, rfl, hi, keep rfl⟩
  rw [if_pos hheld]
  have hob : ∀ o, a.object = some o → ∃ p ∈ s.objects, p.id = o := fun o h => hi.held o (hheld o h)
  unfold Heap.perform
  cases a with
  | container => exact ⟨_, rfl, p_new hi (hi.good.initialize_ (next_new hi)) (fun q h => by cases h), keep rfl⟩
  | open_ o encrypted succeeds =>
    obtain ⟨p, hp, rfl⟩ := hob o rfl
    dsimp only
    rw [find_object hi hp]
    dsimp only
    cases hh : p.handle with
    | none => exact ⟨s, rfl, hi, keep rfl⟩
    | some h =>
      obtain ⟨h', m', e, _, g'⟩ := hi.good.open_ (List.mem_map_of_mem hp) (h := h) hh (given := none) (fun f h => by cases h) encrypted
      dsimp only
      rw [e]
      cases succeeds with
      | true => exact ⟨s.setHandle p.id h' m', rfl, p_set hi g', keep rfl⟩
      | false => exact ⟨s, rfl, hi, keep rfl⟩
  | openFile o encrypted succeeds =>
    obtain ⟨p, hp, rfl⟩ := hob o rfl
    dsimp only
    rw [find_object hi hp]
    dsimp only
    cases hh : p.handle with
    | none => exact ⟨s, rfl, hi, keep rfl⟩
    | some h =>
      dsimp only
      unfold Heap.openObject
      rw [if_neg (hc.2 _ _ _ rfl)]
      have hacc := hi.good.access (List.mem_map_of_mem hp) (h := h) hh .values
      split
      · obtain ⟨h', m', e, _, g'⟩ := hi.good.open_ (List.mem_map_of_mem hp) (h := _) hh (given := none) (fun f h => by cases h) encrypted
        rw [e]
        cases succeeds with
        | true =>
          refine ⟨{ s.setHandle p.id h' m' with byObject := p.id :: s.byObject }, rfl, p_same (p_set hi g'), fun o ho => ?_⟩
          rcases List.mem_cons.1 ho with rfl | ho
          · exact .inr (decide_eq_true rfl)
          · exact .inl ho
        | false => exact ⟨s, rfl, hi, keep rfl⟩
      · rw [hacc]
        exact ⟨s, rfl, hi, keep rfl⟩
  | close o =>
    obtain ⟨p, hp, rfl⟩ := hob o rfl
    dsimp only
    rw [find_object hi hp]
    dsimp only
    cases hh : p.handle with
    | none => exact ⟨s, rfl, hi, keep rfl⟩
    | some h =>
      obtain ⟨h', m', e, _, g'⟩ := hi.good.close (List.mem_map_of_mem hp) (h := h) hh (by
        intro y hy
        obtain ⟨q, hq, rfl⟩ := List.mem_map.1 hy
        exact hc.1 _ rfl q hq)
      dsimp only
      rw [e]
      exact ⟨{ s.setHandle p.id h' m' with byObject := s.byObject.filter (· ≠ p.id) }, rfl, p_same (p_set hi g'), fun o ho => .inl (List.mem_filter.1 ho).1⟩
  | get o w succeeds =>
    obtain ⟨p, hp, rfl⟩ := hob o rfl
    dsimp only
    rw [find_object hi hp]
    obtain ⟨s', h1, h2, h3⟩ := p_derive hi hp w succeeds
    exact ⟨s', h1, h2, keep h3⟩
  | sequence o =>
    obtain ⟨p, hp, rfl⟩ := hob o rfl
    dsimp only
    rw [find_object hi hp]
    dsimp only
    cases hh : p.handle with
    | none => exact ⟨s, rfl, hi, keep rfl⟩
    | some h =>
      dsimp only
      rw [hi.good.access (List.mem_map_of_mem hp) (h := h) hh .files]
      refine ⟨s.new none (some p.id) s.memory, rfl, p_new hi ?_ (fun q h => ⟨p, hp, Option.some.inj h⟩), keep rfl⟩
      refine hi.good.add (next_new hi) ?_ (fun h hh => by cases hh) (fun _ _ _ h => by cases h) ?_ (fun a ha => by cases ha) (Nat.le_refl _) .nil
      · rintro q hq
        cases hq
        exact ⟨pNode p, List.mem_map_of_mem hp, rfl⟩
      · intro a
        show _ ↔ _ ∨ a ∈ []
        simp
  | item o w succeeds =>
    obtain ⟨p, hp, rfl⟩ := hob o rfl
    dsimp only
    rw [find_object hi hp]
    dsimp only
    cases hh : p.handle with
    | some h => exact ⟨s, rfl, hi, keep rfl⟩
    | none =>
      cases hq : p.parent with
      | none => exact ⟨s, rfl, hi, keep rfl⟩
      | some q =>
        obtain ⟨y, hy, hid⟩ := hi.good.parents (pNode p) (List.mem_map_of_mem hp) q hq
        obtain ⟨r, hr, rfl⟩ := List.mem_map.1 hy
        have hid : r.id = q := hid
        subst hid
        dsimp only
        rw [find_object hi hr]
        obtain ⟨s', h1, h2, h3⟩ := p_derive hi hr w succeeds
        exact ⟨s', h1, h2, keep h3⟩
  | call o f =>
    obtain ⟨p, hp, rfl⟩ := hob o rfl
    dsimp only
    rw [find_object hi hp]
    dsimp only
    cases hh : p.handle with
    | none => exact ⟨s, rfl, hi, keep rfl⟩
    | some h =>
      dsimp only
      rw [hi.good.access (List.mem_map_of_mem hp) (h := h) hh f]
      exact ⟨s, rfl, hi, keep rfl⟩
  | copy o =>
    obtain ⟨p, hp, rfl⟩ := hob o rfl
    refine ⟨_, rfl, { good := ?_, refs := ?_, pos := ?_, held := ?_, pend := fun o h => (by cases h), older := ?_, below := ?_ }, keep rfl⟩
    · show Good [] ((s.retain p.id).objects.map pNode) s.memory
      rw [retain_nodes]
      exact hi.good
    · intro q hq
      obtain ⟨q', hq', e1, e2, e3⟩ := retain_mem hq
      have := hi.refs q' hq'
      rw [e1] at this
      show _ = (p.id :: s.held).count q.id + (s.retain p.id).objects.countP _ + _
      rw [retain_countP, List.count_cons, e3, this]
      by_cases h : q.id = p.id
      · simp [h]; omega
      · simp [h, Ne.symm h]
    · intro q hq
      obtain ⟨q', hq', e1, e2, e3⟩ := retain_mem hq
      have := hi.pos q' hq'
      rw [e3]
      split <;> omega
    · intro k hk
      rcases List.mem_cons.1 hk with rfl | hk
      · exact retain_exists ⟨p, hp, rfl⟩
      · exact retain_exists (hi.held k hk)
    · intro q hq r hr
      obtain ⟨q', hq', e1, e2, _⟩ := retain_mem hq
      rw [← e1]
      exact hi.older q' hq' r (e2.trans hr)
    · intro q hq
      obtain ⟨q', hq', e1, _⟩ := retain_mem hq
      rw [← e1]
      exact hi.below q' hq'
  | drop o =>
    obtain ⟨p, hp, rfl⟩ := hob o rfl
    have hm : p.id ∈ s.held := hheld p.id rfl
    have hi' : PInv { s with held := s.held.erase p.id } (some p.id) := by
      refine { good := hi.good, refs := ?_, pos := hi.pos, held := fun o h => hi.held o (List.mem_of_mem_erase h), pend := fun o h => ⟨p, hp, Option.some.inj h⟩, older := hi.older, below := hi.below }
      intro q hq
      rw [hi.refs q hq]
      show _ = (s.held.erase p.id).count q.id + _ + _
      rw [List.count_erase]
      by_cases h : q.id = p.id
      · have : 0 < s.held.count p.id := List.count_pos_iff.2 hm
        simp [h]
        omega
      · simp [Ne.symm h]
    obtain ⟨s', h1, h2, _, h3⟩ := p_drop _ rfl hi'
    exact ⟨s', h1, h2, keep h3⟩

theorem p_inv {s : Heap} (h : Kept s) : PInv s none := by
  induction h with
  | empty =>
    refine { good := ?_, refs := ?_, pos := ?_, held := ?_, pend := fun o h => (by cases h), older := ?_, below := ?_ }
    · obtain ⟨hs, h1, _, g⟩ := c_start []
      cases hs with
      | cons => cases h1
      | nil => exact { g with live := g.live, below := fun a ha => by cases ha }
    all_goals (intro x hx; cases hx)
  | act _ hc ha ih =>
    obtain ⟨s', e, hi, _⟩ := p_act ih hc
    rw [e] at ha
    cases ha
    exact hi

/-- A program in Python that closes no container from which objects were obtained that are still there, and opens none with a file object that is open with one, does not access freed memory. Missing: c61_python_close and
c61_python_reopened. -/
theorem c61_python_partial (s : Heap) (h : Kept s) (a : Action) (hc : Careful s a) : ∃ s', s.act a = some s' := by
  obtain ⟨s', e, _⟩ := p_act (p_inv h) hc
  exact ⟨s', e⟩

/-- In particular a program that closes no container, closing is left to the last reference, and opens none with a file object more than once. -/
theorem c61_python_no_close (as : List Action) (hc : ∀ o, .close o ∉ as) (ho : ∀ o, as.countP (opensObject o) ≤ 1) : ∃ s, Heap.empty.run as = some s ∧ Kept s := by
  have : ∀ (as : List Action) (s : Heap), Kept s → (∀ o, .close o ∉ as) → (∀ o, as.countP (opensObject o) ≤ 1) → (∀ o ∈ s.byObject, as.countP (opensObject o) = 0) → ∃ s', s.run as = some s' ∧ Kept s' := by
    intro as
    induction as with
    | nil => intro s h _ _ _; exact ⟨s, rfl, h⟩
    | cons a as ih =>
      intro s h hc ho hs
      have ha : Careful s a := by
        refine ⟨fun o e => absurd (List.mem_cons.2 (.inl e.symm)) (hc o), fun o e b h hm => ?_⟩
        have := hs o hm
        rw [List.countP_cons, h, if_pos (show opensObject o (.openFile o e b) = true from decide_eq_true rfl)] at this
        omega
      obtain ⟨s', e, _, hb⟩ := p_act (p_inv h) ha
      obtain ⟨s'', e', h'⟩ := ih s' (.act h ha e) (fun o ho => hc o (List.mem_cons_of_mem _ ho)) (fun o => by
        have := ho o
        rw [List.countP_cons] at this
        omega) (fun o hm => by
        have h1 := ho o
        rw [List.countP_cons] at h1
        rcases hb o hm with h2 | h2
        · have := hs o h2
          rw [List.countP_cons] at this
          omega
        · rw [if_pos h2] at h1
          omega)
      refine ⟨s'', ?_, h'⟩
      unfold Heap.run
      rw [e]
      exact e'
  exact this as .empty .empty hc ho (fun o h => by cases h)

theorem drop_superblocks : ∀ (n : Nat) {s s' : Heap} {o : Option Nat}, s.objects.length = n → s.drop o = some s' → s'.memory.superblocks = s.memory.superblocks := by
  intro n
  induction n using Nat.strongRecOn with
  | ind n ih =>
    intro s s' o hn h
    cases o with
    | none =>
      rw [Heap.drop] at h
      cases h
      rfl
    | some o =>
      rw [Heap.drop] at h
      split at h
      · cases h
      · next p hp =>
        split at h
        · cases h; rfl
        · cases hf : freeOf p.handle s.memory with
          | none => rw [hf] at h; cases h
          | some m =>
            rw [hf] at h
            have hm : m.superblocks = s.memory.superblocks := by
              cases hh : p.handle with
              | none => rw [hh] at hf; cases hf; rfl
              | some x => rw [hh] at hf; exact free_superblocks hf
            have hlen : (s.without o m).objects.length < n := by
              rw [← hn]
              unfold Heap.find at hp
              have h2 := List.find?_some hp
              exact List.length_filter_lt_length_iff_exists.2 ⟨p, List.mem_of_find?_eq_some hp, by simpa using h2⟩
            exact (ih _ hlen rfl h).trans hm

theorem derive_superblocks {s s' : Heap} {p : Object} {w : Want} {b : Bool} (h : s.derive p w b = some s') : s'.memory.superblocks = s.memory.superblocks := by
  unfold Heap.derive at h
  cases hh : p.handle with
  | none => rw [hh] at h; cases h; rfl
  | some x =>
    rw [hh] at h
    dsimp only at h
    split at h
    · cases h; rfl
    · next hw =>
      cases hg : get x w b s.memory with
      | none => rw [hg] at h; cases h
      | some y =>
        obtain ⟨r, m⟩ := y
        rw [hg] at h
        have := (get_superblocks hg).2.1 hw
        cases r with
        | none => cases h; exact this
        | some d => cases h; exact this

theorem openObject_superblocks {s s' : Heap} {o : Nat} {x : Handle} {e b : Bool} (h : s.openObject o x e b = some s') : s'.memory.superblocks = s.memory.superblocks := by
  unfold Heap.openObject at h
  split at h
  · split at h
    · next u =>
      cases hr : s.memory.release [u.file] with
      | none => rw [hr] at h; cases h
      | some m => rw [hr] at h; cases h; exact release_superblocks hr
    · cases h; rfl
  · split at h
    · next self io =>
      cases ho : open_ (.container self io none) none e s.memory with
      | none => rw [ho] at h; cases h
      | some y =>
        rw [ho] at h
        cases b with
        | true => cases h; exact open_superblocks ho
        | false => cases h; rfl
    · cases ha : s.memory.access (x.uses .values) with
      | none => rw [ha] at h; cases h
      | some u => rw [ha] at h; cases h; rfl

theorem act_superblocks {s s' : Heap} {a : Action} (h : s.act a = some s') : s'.memory.superblocks = s.memory.superblocks := by
  unfold Heap.act at h
  split at h
  case isFalse => cases h; rfl
  unfold Heap.perform at h
  cases a with
  | container => cases h; rfl
  | open_ o e b =>
    dsimp only at h
    cases hf : s.find o with
    | none => rw [hf] at h; cases h
    | some p =>
      rw [hf] at h
      dsimp only at h
      cases hh : p.handle with
      | none => rw [hh] at h; cases h; rfl
      | some x =>
        rw [hh] at h
        dsimp only at h
        cases ho : open_ x none e s.memory with
        | none => rw [ho] at h; cases h
        | some y =>
          rw [ho] at h
          cases b with
          | true => cases h; exact open_superblocks ho
          | false => cases h; rfl
  | openFile o e b =>
    dsimp only at h
    cases hf : s.find o with
    | none => rw [hf] at h; cases h
    | some p =>
      rw [hf] at h
      dsimp only at h
      cases hh : p.handle with
      | none => rw [hh] at h; cases h; rfl
      | some x => rw [hh] at h; exact openObject_superblocks h
  | close o =>
    dsimp only at h
    cases hf : s.find o with
    | none => rw [hf] at h; cases h
    | some p =>
      rw [hf] at h
      dsimp only at h
      cases hh : p.handle with
      | none => rw [hh] at h; cases h; rfl
      | some x =>
        rw [hh] at h
        dsimp only at h
        cases ho : close x s.memory with
        | none => rw [ho] at h; cases h
        | some y => rw [ho] at h; cases h; exact close_superblocks ho
  | get o w b =>
    dsimp only at h
    cases hf : s.find o with
    | none => rw [hf] at h; cases h
    | some p => rw [hf] at h; exact derive_superblocks h
  | sequence o =>
    dsimp only at h
    cases hf : s.find o with
    | none => rw [hf] at h; cases h
    | some p =>
      rw [hf] at h
      dsimp only at h
      cases hh : p.handle with
      | none => rw [hh] at h; cases h; rfl
      | some x =>
        rw [hh] at h
        dsimp only at h
        cases ha : s.memory.access (x.uses .files) with
        | none => rw [ha] at h; cases h
        | some u => rw [ha] at h; cases h; rfl
  | item o w b =>
    dsimp only at h
    cases hf : s.find o with
    | none => rw [hf] at h; cases h
    | some p =>
      rw [hf] at h
      dsimp only at h
      split at h
      · next q _ _ =>
        cases hq : s.find q with
        | none => rw [hq] at h; cases h
        | some r => rw [hq] at h; exact derive_superblocks h
      · cases h; rfl
  | call o f =>
    dsimp only at h
    cases hf : s.find o with
    | none => rw [hf] at h; cases h
    | some p =>
      rw [hf] at h
      dsimp only at h
      cases hh : p.handle with
      | none => rw [hh] at h; cases h; rfl
      | some x =>
        rw [hh] at h
        dsimp only at h
        cases ha : s.memory.access (x.uses f) with
        | none => rw [ha] at h; cases h
        | some u => rw [ha] at h; cases h; rfl
  | copy o => cases h; rfl
  | drop o =>
    have h : Heap.drop { s with held := s.held.erase o } (some o) = some s' := h
    have := drop_superblocks _ rfl h
    exact this

/-- When no variable refers to an object, there are none and no memory is allocated. -/
theorem c61_python_nothing_left (s : Heap) (h : Kept s) (hn : s.held = []) : s.objects = [] ∧ s.memory.live = [] ∧ s.memory.superblocks = 0 := by
  have hb : s.memory.superblocks = 0 := by
    clear hn
    induction h with
    | empty => rfl
    | act _ _ ha ih => exact (act_superblocks ha).trans ih
  have hi := p_inv h
  have ho : s.objects = [] := by
    cases hl : s.objects with
    | nil => rfl
    | cons p l =>
      exfalso
      have : ∀ n, ∀ q ∈ s.objects, s.next ≤ q.id + n → False := by
        intro n
        induction n with
        | zero =>
          intro q hq hle
          have := hi.below q hq
          omega
        | succ n ih =>
          intro q hq hle
          have h1 := hi.pos q hq
          rw [hi.refs q hq, hn] at h1
          simp only [List.count_nil, reduceCtorEq, if_false, Nat.zero_add, Nat.add_zero] at h1
          obtain ⟨c, hc, hp⟩ := List.countP_pos_iff.1 h1
          have := hi.older c hc q.id (of_decide_eq_true hp)
          exact ih c hc (by omega)
      exact this s.next p (by rw [hl]; exact List.mem_cons_self ..) (by omega)
  refine ⟨ho, List.eq_nil_iff_forall_not_mem.2 fun a ha => ?_, hb⟩
  rcases (hi.good.live a).1 ha with h | ⟨x, hx, _⟩
  · cases h
  · rw [ho] at hx
    cases hx

theorem find_setHandle {s : Heap} {o k : Nat} {h : Handle} {m : Memory} (hne : k ≠ o) : (s.setHandle o h m).find k = s.find k := by
  unfold Heap.find Heap.setHandle
  dsimp only
  induction s.objects with
  | nil => rfl
  | cons p l ih =>
    rw [List.map_cons, List.find?_cons, List.find?_cons]
    by_cases hp : p.id = o
    · rw [if_pos hp]
      have h2 : decide (p.id = k) = false := decide_eq_false fun h => hne (h.symm.trans hp)
      dsimp only
      rw [h2]
      exact ih
    · rw [if_neg hp]
      cases hk : decide (p.id = k) with
      | true => rfl
      | false => exact ih

theorem find_by {s : Heap} {l : List Nat} {o : Nat} : ({ s with byObject := l } : Heap).find o = s.find o := rfl

/-- Closing a container, which the method allows at any time, leaves its volumes with a file IO handle that was freed: the next method of a volume that reads the image accesses it. -/
theorem c61_python_close (s : Heap) (h : Kept s) (c v : Object) (hc : c ∈ s.objects) (hv : v ∈ s.objects) (hc' : c.id ∈ s.held) (hv' : v.id ∈ s.held) (hp : v.parent = some c.id) (self io : Addr)
    (u : Option Session) (hch : c.handle = some (.container self io u)) (hvh : v.handle.isSome) : s.run [.close c.id, .call v.id .files] = none := by
  have hi := p_inv h
  obtain ⟨d, hd⟩ := Option.isSome_iff_exists.1 hvh
  rcases hi.good.fits (pNode v) (List.mem_map_of_mem hv) d hd with ⟨_, h0⟩ | ⟨y, hy, hy', p, hp', hf⟩
  · have h0 : v.parent = none := h0
    rw [hp] at h0
    cases h0
  have hyc : y = pNode c := eq_of_id hi.good.nodup hy (List.mem_map_of_mem hc) (Option.some.inj (hy'.symm.trans hp))
  subst hyc
  have e : p = .container self io u := Option.some.inj (hp'.symm.trans hch)
  subst e
  have hne : v.id ≠ c.id := by
    have := hi.older v hv c.id hp
    omega
  cases u with
  | none => exact hf.elim
  | some u =>
    have hcr : u.created = true := by
      cases hb : u.created with
      | true => rfl
      | false => exact absurd (hi.good.session (pNode c) (List.mem_map_of_mem hc) self io u hch hb) List.not_mem_nil
    have hd' : ∃ a, d = .volume a io u.file u.bag := by
      cases d with
      | volume a io' file bag =>
        obtain ⟨rfl, rfl, rfl⟩ := hf
        exact ⟨a, rfl⟩
      | container => exact hf.elim
      | snapshot => exact hf.elim
      | entry => exact hf.elim
      | «attribute» => exact hf.elim
    obtain ⟨a, rfl⟩ := hd'
    obtain ⟨l1, l2, l3, _⟩ := hi.good.container (x := pNode c) (List.mem_map_of_mem hc) hch
    have hown : ∀ b ∈ u.owned, b ∈ s.memory.live := fun b hb => hi.good.self_live (x := pNode c) (List.mem_map_of_mem hc) (by
      unfold Node.owned pNode
      dsimp only
      rw [hch]
      exact List.mem_cons_of_mem _ (List.mem_cons_of_mem _ hb))
    have hcl : close (.container self io (some u)) s.memory = some (.container self io none, { s.memory with live := s.memory.live.filter (· ∉ u.owned) }) := by
      unfold close Memory.release
      dsimp only
      rw [access_some.2 (by
        intro a ha
        simp only [List.mem_cons, List.not_mem_nil, or_false] at ha
        rcases ha with rfl | rfl | rfl <;> assumption), access_some.2 hown]
      rfl
    have h1 : s.act (.close c.id) = some { s.setHandle c.id (.container self io none) { s.memory with live := s.memory.live.filter (· ∉ u.owned) } with byObject := s.byObject.filter (· ≠ c.id) } := by
      unfold Heap.act
      rw [if_pos (by rintro o ⟨⟩; exact hc')]
      unfold Heap.perform
      dsimp only
      rw [find_object hi hc]
      dsimp only
      rw [hch]
      dsimp only
      rw [hcl]
      rfl
    unfold Heap.run
    rw [h1]
    show Heap.run _ [.call v.id .files] = none
    unfold Heap.run
    have h2 : ({ s.setHandle c.id (.container self io none) { s.memory with live := s.memory.live.filter (· ∉ u.owned) } with byObject := s.byObject.filter (· ≠ c.id) } : Heap).act (.call v.id .files) = none := by
      unfold Heap.act
      rw [if_pos (by rintro o ⟨⟩; exact hv')]
      unfold Heap.perform
      dsimp only
      rw [find_by, find_setHandle hne, find_object hi hv]
      dsimp only
      rw [show v.handle = some _ from hd]
      show (Memory.access _ [a, io, u.file]).bind _ = none
      rw [access_none (a := u.file) (by simp) (by
        have : u.file ∈ u.owned := by simp [Session.owned, hcr]
        simp [Heap.setHandle, this])]
      rfl
    rw [h2]
    rfl

/-- Opening a container with a file object, when it is open with a file object, raises an exception and frees the file IO handle that it uses: the next method of the container that reads the image, closing it and releasing the last
reference to it access freed memory. -/
theorem c61_python_reopened (s : Heap) (h : Kept s) (c : Object) (hc : c ∈ s.objects) (hc' : c.id ∈ s.held) (self io : Addr) (u : Session) (hch : c.handle = some (.container self io (some u))) (hb : c.id ∈ s.byObject)
    (encrypted succeeds : Bool) :
    (∀ f, s.run [.openFile c.id encrypted succeeds, .call c.id f] = none) ∧ s.run [.openFile c.id encrypted succeeds, .close c.id] = none ∧
      (c.references = 1 → s.run [.openFile c.id encrypted succeeds, .drop c.id] = none) := by
  have hi := p_inv h
  obtain ⟨l1, l2, l3, _⟩ := hi.good.container (x := pNode c) (List.mem_map_of_mem hc) hch
  have h1 : s.act (.openFile c.id encrypted succeeds) = some { s with memory := { s.memory with live := s.memory.live.filter (· ∉ [u.file]) }, byObject := s.byObject.filter (· ≠ c.id) } := by
    unfold Heap.act
    rw [if_pos (by rintro o ⟨⟩; exact hc')]
    unfold Heap.perform
    dsimp only
    rw [find_object hi hc]
    dsimp only
    rw [hch]
    unfold Heap.openObject Memory.release
    dsimp only
    rw [if_pos hb, access_some.2 (by
      intro a ha
      rw [List.mem_singleton] at ha
      exact ha ▸ l3)]
    rfl
  have hgone : u.file ∉ s.memory.live.filter (· ∉ [u.file]) := fun h => by simp at h
  have hf : ({ s with memory := { s.memory with live := s.memory.live.filter (· ∉ [u.file]) }, byObject := s.byObject.filter (· ≠ c.id) } : Heap).find c.id = some c := find_object hi hc
  refine ⟨fun f => ?_, ?_, fun hr => ?_⟩
  · unfold Heap.run
    rw [h1]
    show Heap.run _ [.call c.id f] = none
    unfold Heap.run Heap.act
    rw [if_pos (by rintro o ⟨⟩; exact hc')]
    unfold Heap.perform
    dsimp only
    rw [hf]
    dsimp only
    rw [hch]
    show ((Memory.access _ (self :: io :: u.file :: u.bag.toList)).bind _).bind _ = none
    rw [access_none (a := u.file) (by simp) hgone]
    rfl
  · unfold Heap.run
    rw [h1]
    show Heap.run _ [.close c.id] = none
    unfold Heap.run Heap.act
    rw [if_pos (by rintro o ⟨⟩; exact hc')]
    unfold Heap.perform
    dsimp only
    rw [hf]
    dsimp only
    rw [hch]
    unfold close
    dsimp only
    rw [access_none (a := u.file) (by simp) hgone]
    rfl
  · unfold Heap.run
    rw [h1]
    show Heap.run _ [.drop c.id] = none
    unfold Heap.run Heap.act
    rw [if_pos (by rintro o ⟨⟩; exact hc')]
    unfold Heap.perform
    dsimp only
    rw [Heap.drop]
    split
    · rfl
    · next q hq =>
      have hq : some c = some q := hf.symm.trans hq
      cases hq
      rw [if_neg (by omega), hch]
      unfold freeOf free
      dsimp only
      rw [access_none (a := u.file) (by simp) hgone]
      rfl

/-! an example: the container is dropped while an item of the sequence of its volumes is in use; and a program that closes it -/

namespace HandleExample

def program : List Action := [.container, .open_ 0 true true, .sequence 0, .item 1 .volume true, .drop 0, .drop 1, .get 2 .entry true, .get 3 .entry true, .drop 2, .drop 3, .call 4 .files]

example : ∃ s, Heap.empty.run program = some s ∧ Kept s := c61_python_no_close program (by simp [program]) (by simp [program, opensObject])

/-- all variables are dropped -/
example : ∃ s, Heap.empty.run [.container, .open_ 0 true true, .drop 0] = some s ∧ s.objects = [] ∧ s.memory.live = [] ∧ s.memory.superblocks = 0 := by
  obtain ⟨s, h, hk⟩ := c61_python_no_close [.container, .open_ 0 true true, .drop 0] (by simp) (by simp [opensObject])
  refine ⟨s, h, c61_python_nothing_left s hk ?_⟩
  obtain ⟨s', hd, _, h', _⟩ := p_drop (s := ⟨[⟨0, 1, some (.container 0 1 (some ⟨2, true, some 3⟩)), none⟩], [], ⟨[3, 2, 1, 0], 4, 0⟩, 1, []⟩) (o := some 0) 1 rfl (by
    obtain ⟨s1, h1, k1⟩ := c61_python_no_close [.container, .open_ 0 true true] (by simp) (by simp [opensObject])
    have e : Heap.empty.run [.container, .open_ 0 true true] = some ⟨[⟨0, 1, some (.container 0 1 (some ⟨2, true, some 3⟩)), none⟩], [0], ⟨[3, 2, 1, 0], 4, 0⟩, 1, []⟩ := rfl
    rw [e] at h1
    cases h1
    have hi := p_inv k1
    exact { good := hi.good, refs := by simp, pos := hi.pos, held := by simp, pend := by simp, older := by simp, below := by simp })
  have e : Heap.empty.run [.container, .open_ 0 true true, .drop 0] = (Heap.drop ⟨[⟨0, 1, some (.container 0 1 (some ⟨2, true, some 3⟩)), none⟩], [], ⟨[3, 2, 1, 0], 4, 0⟩, 1, []⟩ (some 0)).bind fun s => some s := rfl
  rw [e] at h
  rw [hd] at h
  cases h
  exact h'

def closing : List Action := [.container, .open_ 0 false true, .get 0 .volume true]

example : ∃ s, Heap.empty.run closing = some s ∧ s.run [.close 0, .call 1 .files] = none := by
  obtain ⟨s, h, hk⟩ := c61_python_no_close closing (by simp [closing]) (by simp [closing, opensObject])
  refine ⟨s, h, ?_⟩
  have e : Heap.empty.run closing = some ⟨[⟨1, 1, some (.volume 3 1 2 none), some 0⟩, ⟨0, 2, some (.container 0 1 (some ⟨2, true, none⟩)), none⟩], [1, 0], ⟨[3, 2, 1, 0], 4, 0⟩, 2, []⟩ := rfl
  rw [e] at h
  cases h
  exact c61_python_close _ hk ⟨0, 2, some (.container 0 1 (some ⟨2, true, none⟩)), none⟩ ⟨1, 1, some (.volume 3 1 2 none), some 0⟩ (by simp) (by simp) (by simp) (by simp) rfl 0 1 _ rfl rfl

/-- a file object is given a second time -/
def reopening : List Action := [.container, .openFile 0 false true]

example : ∃ s, Heap.empty.run reopening = some s ∧ s.run [.openFile 0 false true, .call 0 .files] = none ∧ s.run [.openFile 0 false true, .drop 0] = none := by
  obtain ⟨s, h, hk⟩ := c61_python_no_close reopening (by simp [reopening]) (by intro o; simp only [reopening, List.countP_cons, List.countP_nil, opensObject]; by_cases h : 0 = o <;> simp only [h, decide_true, decide_false, if_true, reduceCtorEq, if_false] <;> omega)
  refine ⟨s, h, ?_⟩
  have e : Heap.empty.run reopening = some ⟨[⟨0, 1, some (.container 0 1 (some ⟨2, true, none⟩)), none⟩], [0], ⟨[2, 1, 0], 3, 0⟩, 1, [0]⟩ := rfl
  rw [e] at h
  cases h
  obtain ⟨h1, _, h2⟩ := c61_python_reopened _ hk ⟨0, 1, some (.container 0 1 (some ⟨2, true, none⟩)), none⟩ (by simp) (by simp) 0 1 _ rfl (by simp) false true
  exact ⟨h1 .files, h2 rfl⟩

/-- closing it in between -/
example : ∃ s, Heap.empty.run [.container, .openFile 0 false true, .close 0, .openFile 0 false true, .get 0 .volume true, .call 1 .files] = some s ∧ s.held = [1, 0] := ⟨_, rfl, rfl⟩

end HandleExample

end Verif.Props
