import Verif.Lemmas.Threads
import Verif.Lemmas.ManyFiles
/-!
# A thread that waits while another one fills the cache
-/
namespace Verif
open Res
namespace Threads
open BTree FsTree NodeCache Spec.Threads

/-- steps of one function without steps of others in between -/
inductive Reaches {α : Type} (p : Policy) (m : Proc α) (c : Cache) : Proc α → Cache → Prop
  | refl : Reaches p m c m c
  | step {m' : Proc α} {c' : Cache} : Reaches p m c m' c' → Reaches p m c (m'.act p c').1 (m'.act p c').2

theorem Reaches.trans {α : Type} {p : Policy} {m m' m'' : Proc α} {c c' c'' : Cache} (h : Reaches p m c m' c') (h' : Reaches p m' c' m'' c'') : Reaches p m c m'' c'' := by
  induction h' with
  | refl => exact h
  | step _ ih => exact ih.step

theorem act_bind {α β : Type} (p : Policy) (m : Proc α) (f : α → Proc β) (c : Cache) : Reaches p (m >>= f) c ((m.act p c).1 >>= f) (m.act p c).2 := by
  cases m with
  | ret r => exact .refl
  | lookup b k =>
    have h : ((Proc.lookup b k >>= f).act p c) = ((((Proc.lookup b k).act p c).1 >>= f), ((Proc.lookup b k).act p c).2) := by
      show (Proc.lookup b fun r => (k r).bind f).act p c = _
      cases h : c.slots.find? (fun t => t.block = b) with
      | none => rw [act_lookup_none p _ h, act_lookup_none p _ h]; rfl
      | some s => rw [act_lookup_some p _ h, act_lookup_some p _ h]; rfl
    have := (Reaches.refl (p := p) (m := Proc.lookup b k >>= f) (c := c)).step
    rw [h] at this
    exact this
  | insert b n k => exact (Reaches.refl (p := p) (m := Proc.insert b n k >>= f) (c := c)).step
  | use s k =>
    have h : ((Proc.use s k >>= f).act p c) = ((((Proc.use s k).act p c).1 >>= f), ((Proc.use s k).act p c).2) := by
      show (Proc.use s (k.bind f)).act p c = _
      simp only [Proc.act]
      split <;> rfl
    have := (Reaches.refl (p := p) (m := Proc.use s k >>= f) (c := c)).step
    rw [h] at this
    exact this

theorem Reaches.bind {α β : Type} {p : Policy} {m m' : Proc α} {c c' : Cache} (h : Reaches p m c m' c') (f : α → Proc β) : Reaches p (m >>= f) c (m' >>= f) c' := by
  induction h with
  | refl => exact .refl
  | step _ ih => exact ih.trans (act_bind p _ f _)

theorem reaches_run {α : Type} (p : Policy) (m : Proc α) : ∀ c, Reaches p m c (.ret (m.run p c).1) (m.run p c).2 := by
  induction m with
  | ret r => exact fun c => .refl
  | lookup b k ih =>
    intro c
    have h1 := (Reaches.refl (p := p) (m := Proc.lookup b k) (c := c)).step
    cases h : c.slots.find? (fun t => t.block = b) with
    | none =>
      rw [act_lookup_none p k h] at h1
      rw [run_lookup_none p k h]
      exact h1.trans (ih none c)
    | some s =>
      rw [act_lookup_some p k h] at h1
      rw [run_lookup_some p k h]
      exact h1.trans (ih (some s) _)
  | insert b n k ih => exact fun c => ((Reaches.refl (p := p) (m := Proc.insert b n k) (c := c)).step).trans (ih _ _)
  | use s k ih =>
    intro c
    have h1 := (Reaches.refl (p := p) (m := Proc.use s k) (c := c)).step
    simp only [Proc.act] at h1
    rw [Proc.run]
    dsimp only
    split
    · rename_i h
      rw [if_pos h] at h1
      exact h1.trans (ih c)
    · rename_i h
      rw [if_neg h] at h1
      exact h1

/-- a call that found its value -/
theorem reaches_ok {α β : Type} {p : Policy} {m : Proc α} {c c' : Cache} {a : α} (h : m.run p c = (ok a, c')) (f : α → Proc β) : Reaches p (m >>= f) c (f a) c' := by
  have := (reaches_run p m c).bind f
  rw [h] at this
  exact this

theorem reaches_use {α β : Type} {p : Policy} {s : Slot} {m : Proc α} {c : Cache} (hs : s ∈ c.slots) (f : α → Proc β) : Reaches p (.use s m >>= f) c (m >>= f) c := by
  have := act_bind p (.use s m) f c
  simp only [Proc.act] at this
  rw [if_pos (List.any_eq_true.2 ⟨s, hs, by simp⟩)] at this
  exact this

/-- from a branch node to its child -/
theorem reaches_child {β : Type} {p : Policy} {v : Volume} {xid i t fuel : Nat} {s s' : Slot} {c c' : Cache} {e : Entry} {b : Nat} (hs : s ∈ c.slots) (hl : s.node.leaf = false)
    (he : fsEntryFromNode false i t s.node.entries none = ok (some (some e))) (hb : blockOf v xid e.2 = ok b) (hg : NodeCache.get p (loadSub v) b c = (ok (some s'), c'))
    (f : Option (Slot × Entry) → Proc β) : Reaches p (entryLoop v xid i t (fuel + 1) s >>= f) c (entryLoop v xid i t fuel s' >>= f) c' := by
  rw [entryLoop]
  refine (reaches_use hs f).trans ?_
  rw [hl, he]
  show Reaches p ((Proc.ret (blockOf v xid e.2) >>= fun block => getSub v block >>= fun t' => entryLoop v xid i t fuel t') >>= f) c _ _
  rw [hb]
  refine Reaches.bind ?_ f
  show Reaches p (getSub v b >>= fun t' => entryLoop v xid i t fuel t') c _ _
  refine reaches_ok ?_ _
  rw [run_getSub]
  unfold NodeCache.getSub
  rw [NodeCache.bind_ok hg]
  rfl

/-- steps of one thread -/
theorem Steps.trans {α : Type} {p : Policy} {s t u : System α} (h : Steps p s t) (h' : Steps p t u) : Steps p s u := by
  induction h' with
  | refl => exact h
  | step _ hs ih => exact ih.step hs

theorem steps_reach {α : Type} {p : Policy} {s : System α} {i : Nat} {rs : List (Res α)} {c : Call α} {cs : List (Call α)} {m : Proc α} {c' : Cache} (h : s.threads i = ⟨rs, some c, cs⟩)
    (hm : Reaches p c.body s.cache m c') : ∃ u, Steps p s u ∧ u.cache = c' ∧ u.threads i = ⟨rs, some { c with body := m }, cs⟩ ∧ ∀ j, j ≠ i → u.threads j = s.threads j := by
  induction hm with
  | refl => exact ⟨s, .refl s, rfl, h, fun _ _ => rfl⟩
  | step _ ih =>
    obtain ⟨u, h1, h2, h3, h4⟩ := ih
    obtain ⟨w, k1, k2, k3, k4⟩ := step_act p h3
    refine ⟨w, h1.step k1, by rw [k2, h2], by rw [k3, h2], fun j hj => by rw [k4 j hj, h4 j hj]⟩

/-! ## a value that is not asked for -/

/-- a hit keeps the order of the values or makes the value the last one -/
def Reorders (p : Policy) : Prop := ∀ l s, p.touch l s = l ∨ p.touch l s = l.filter (fun t => t.block ≠ s.block) ++ [s]

/-- the cache after `used` values were set since `t`: it was replaced, or at most `capacity - used` more can be set before; blocks from `n` on were not read yet -/
structure Age (N : Nat → Node) (t : Slot) (capacity n used : Nat) (c : Cache) : Prop where
  nodes : ∀ s ∈ c.slots, s.node = N s.block
  nodup : (c.slots.map (·.block)).Nodup
  stamp : t.stamp < c.next
  seen : ∀ s ∈ c.slots, s.block < n
  small : c.slots.length ≤ capacity
  left : (∀ s ∈ c.slots, s.stamp ≠ t.stamp) ∨ ∃ A B, c.slots = A ++ t :: B ∧ (∀ s ∈ A ++ B, s.stamp ≠ t.stamp) ∧ capacity - c.slots.length + A.length + used < capacity

theorem Age.mono {N : Nat → Node} {t : Slot} {capacity n used used' : Nat} {c : Cache} (h : Age N t capacity n used c) (hu : used' ≤ used) : Age N t capacity n used' c :=
  ⟨h.nodes, h.nodup, h.stamp, h.seen, h.small, h.left.imp id fun ⟨A, B, h1, h2, h3⟩ => ⟨A, B, h1, h2, by omega⟩⟩

theorem Age.hit {p : Policy} (hr : Reorders p) {N : Nat → Node} {t : Slot} {capacity n used : Nat} {c : Cache} (h : Age N t capacity n used c) {s : Slot} (hs : s ∈ c.slots) (ht : s.block ≠ t.block) :
    Age N t capacity n used { c with slots := p.touch c.slots s } := by
  rcases hr c.slots s with h1 | h1
  · rw [h1]; exact h
  · rw [h1]
    have hperm := filter_ne_of_nodup h.nodup hs
    have hmem : ∀ x, x ∈ c.slots.filter (fun t => t.block ≠ s.block) ++ [s] → x ∈ c.slots := fun x hx => hperm.mem_iff.1 hx
    refine ⟨fun x hx => h.nodes x (hmem x hx), (hperm.map _).nodup_iff.2 h.nodup, h.stamp, fun x hx => h.seen x (hmem x hx), ?_, ?_⟩
    · show (c.slots.filter (fun t => t.block ≠ s.block) ++ [s]).length ≤ capacity
      rw [hperm.length_eq]
      exact h.small
    · rcases h.left with h2 | ⟨A, B, h2, hst', h3⟩
      · exact .inl fun x hx => h2 x (hmem x hx)
      · refine .inr ⟨A.filter (fun t => t.block ≠ s.block), B.filter (fun t => t.block ≠ s.block) ++ [s], ?_, ?_, ?_⟩
        · show c.slots.filter (fun t => t.block ≠ s.block) ++ [s] = _
          rw [h2, List.filter_append, List.filter_cons_of_pos (by simpa using Ne.symm ht), List.append_assoc, List.cons_append]
        · intro x hx
          rw [List.mem_append, List.mem_append, List.mem_singleton] at hx
          rcases hx with hx | hx | hx
          · exact hst' x (List.mem_append.2 (.inl (List.mem_filter.1 hx).1))
          · exact hst' x (List.mem_append.2 (.inr (List.mem_filter.1 hx).1))
          · subst hx
            rw [h2, List.mem_append, List.mem_cons] at hs
            rcases hs with hs | hs | hs
            · exact hst' x (List.mem_append.2 (.inl hs))
            · exact absurd (by rw [hs]) ht
            · exact hst' x (List.mem_append.2 (.inr hs))
        · show capacity - (c.slots.filter (fun t => t.block ≠ s.block) ++ [s]).length + _ + _ < capacity
          rw [hperm.length_eq]
          have := List.length_filter_le (fun t : Slot => decide (t.block ≠ s.block)) A
          omega

theorem Age.miss {p : Policy} {N : Nat → Node} {t : Slot} {capacity n used : Nat} (h0 : 0 < capacity) (ho : OldestFirst p capacity) {c : Cache} (h : Age N t capacity n used c) {b n' : Nat} (hn : n ≤ n') (hb : b < n')
    (hm : ∀ s ∈ c.slots, s.block ≠ b) : Age N t capacity n' (used + 1) { slots := room p c.slots b ++ [⟨b, c.next, N b⟩], next := c.next + 1 } := by
  have hsub : (room p c.slots b).Sublist c.slots := by
    unfold room
    split
    · exact List.Sublist.refl _
    · exact List.eraseIdx_sublist _ _
  have hst := h.stamp
  have hsm := h.small
  refine ⟨?_, ?_, by show t.stamp < c.next + 1; omega, ?_, ?_, ?_⟩
  · intro s hs
    rcases List.mem_append.1 hs with hs | hs
    · exact h.nodes s (hsub.subset hs)
    · cases List.mem_singleton.1 hs
      rfl
  · show ((room p c.slots b ++ [(⟨b, c.next, N b⟩ : Slot)]).map (·.block)).Nodup
    rw [List.map_append, List.nodup_append]
    refine ⟨(hsub.map _).nodup h.nodup, by simp, ?_⟩
    intro x hx y hy
    obtain ⟨s, hs, rfl⟩ := List.mem_map.1 hx
    cases List.mem_singleton.1 hy
    exact hm s (hsub.subset hs)
  · intro s hs
    rcases List.mem_append.1 hs with hs | hs
    · have := h.seen s (hsub.subset hs)
      omega
    · cases List.mem_singleton.1 hs
      exact hb
  · show (room p c.slots b ++ [(⟨b, c.next, N b⟩ : Slot)]).length ≤ capacity
    rw [List.length_append, List.length_singleton]
    unfold room
    rw [ho]
    split
    · rename_i hlt
      by_cases hc : c.slots.length < capacity
      · exact hc
      · rw [if_neg hc] at hlt; cases hlt
    · rename_i i hlt
      by_cases hc : c.slots.length < capacity
      · rw [if_pos hc] at hlt; cases hlt
      · rw [if_neg hc] at hlt
        cases hlt
        rw [List.length_eraseIdx]
        split <;> omega
  · rcases h.left with h2 | ⟨A, B, h2, hst', h3⟩
    · left
      intro s hs
      rcases List.mem_append.1 hs with hs | hs
      · exact h2 s (hsub.subset hs)
      · cases List.mem_singleton.1 hs
        show c.next ≠ t.stamp
        omega
    · by_cases hc : c.slots.length < capacity
      · right
        have hroom : room p c.slots b = c.slots := by
          unfold room
          rw [ho, if_pos hc]
        rw [hroom]
        refine ⟨A, B ++ [⟨b, c.next, N b⟩], by show c.slots ++ _ = _; rw [h2]; simp, (by
          intro x hx
          rw [List.mem_append, List.mem_append, List.mem_singleton] at hx
          rcases hx with hx | hx | hx
          · exact hst' x (by simp [hx])
          · exact hst' x (by simp [hx])
          · subst hx
            show c.next ≠ t.stamp
            omega), ?_⟩
        show capacity - (c.slots ++ [_]).length + A.length + (used + 1) < capacity
        rw [List.length_append, List.length_singleton]
        omega
      · have hroom : room p c.slots b = c.slots.eraseIdx 0 := by
          unfold room
          rw [ho, if_neg hc]
        rw [hroom]
        cases A with
        | nil =>
          left
          intro s hs
          rw [h2] at hs
          rcases List.mem_append.1 hs with hs | hs
          · exact hst' s hs
          · cases List.mem_singleton.1 hs
            show c.next ≠ t.stamp
            omega
        | cons a A =>
          right
          refine ⟨A, B ++ [⟨b, c.next, N b⟩], by show c.slots.eraseIdx 0 ++ _ = _; rw [h2]; simp, (by
          intro x hx
          rw [List.mem_append, List.mem_append, List.mem_singleton] at hx
          rcases hx with hx | hx | hx
          · exact hst' x (by simp [hx])
          · exact hst' x (by simp [hx])
          · subst hx
            show c.next ≠ t.stamp
            omega), ?_⟩
          show capacity - (c.slots.eraseIdx 0 ++ [_]).length + A.length + (used + 1) < capacity
          rw [List.length_append, List.length_singleton, List.length_eraseIdx, if_pos (by omega)]
          rw [List.length_cons] at h3
          omega

theorem get_miss {p : Policy} {capacity : Nat} (ho : OldestFirst p capacity) {c : Cache} {load : Nat → Res (Option Node)} {b : Nat} {m : Node} (hb : ¬ b > 2 ^ 31 - 1) (hl : load b = ok (some m))
    (hm : ∀ s ∈ c.slots, s.block ≠ b) : NodeCache.get p load b c = (ok (some ⟨b, c.next, m⟩), { slots := room p c.slots b ++ [⟨b, c.next, m⟩], next := c.next + 1 }) ∧
      (c.slots.length < capacity → room p c.slots b = c.slots) := by
  refine ⟨?_, fun h => by unfold room; rw [ho, if_pos h]⟩
  have hf : c.slots.find? (fun t => t.block = b) = none := by
    rw [List.find?_eq_none]
    intro s hs
    simpa using hm s hs
  unfold NodeCache.get
  rw [if_neg hb, hf]
  dsimp only
  rw [hl]

theorem Age.get_new {p : Policy} {N : Nat → Node} {t : Slot} {capacity n used : Nat} (h0 : 0 < capacity) (ho : OldestFirst p capacity) {c : Cache} (h : Age N t capacity n used c)
    {load : Nat → Res (Option Node)} (hb : ¬ n > 2 ^ 31 - 1) (hl : load n = ok (some (N n))) :
    ∃ s c', NodeCache.get p load n c = (ok (some s), c') ∧ s.node = N n ∧ s ∈ c'.slots ∧ Age N t capacity (n + 1) (used + 1) c' := by
  have hm : ∀ s ∈ c.slots, s.block ≠ n := fun s hs => by have := h.seen s hs; omega
  exact ⟨_, _, (get_miss ho hb hl hm).1, rfl, by simp, h.miss h0 ho (by omega) (by omega) hm⟩

theorem Age.get {p : Policy} {N : Nat → Node} {t : Slot} {capacity n used : Nat} (h0 : 0 < capacity) (ho : OldestFirst p capacity) (hr : Reorders p) {c : Cache} (h : Age N t capacity n used c)
    {load : Nat → Res (Option Node)} {b : Nat} (hb : ¬ b > 2 ^ 31 - 1) (hl : load b = ok (some (N b))) (hbt : b ≠ t.block) (hbn : b < n) :
    ∃ s c', NodeCache.get p load b c = (ok (some s), c') ∧ s.node = N b ∧ s ∈ c'.slots ∧ Age N t capacity n used c' := by
  cases hf : c.slots.find? (fun t => t.block = b) with
  | none =>
    have hm : ∀ s ∈ c.slots, s.block ≠ b := fun s hs => by simpa using List.find?_eq_none.1 hf s hs
    exact ⟨_, _, (get_miss ho hb hl hm).1, rfl, by simp, (h.miss h0 ho (Nat.le_refl n) hbn hm).mono (by omega)⟩
  | some s =>
    have hs : s ∈ c.slots := List.mem_of_find?_eq_some hf
    have hsb : s.block = b := by simpa using List.find?_some hf
    refine ⟨s, { c with slots := p.touch c.slots s }, ?_, by rw [h.nodes s hs, hsb], ?_, h.hit hr hs (by rw [hsb]; exact hbt)⟩
    · unfold NodeCache.get
      rw [if_neg hb, hf]
    · show s ∈ p.touch c.slots s
      rcases hr c.slots s with h1 | h1 <;> rw [h1]
      · exact hs
      · simp

/-! ## the volume with many files -/

open ManyFiles (storage inode rootEntry branchEntry rootEntries branchEntries leafEntries)

/-- the nodes of the blocks -/
structure Nodes (N : Nat → Node) : Prop where
  root : fsRootNode (volumeOf storage) = ok (some (N 1000)) ∧ (N 1000).leaf = false ∧ (N 1000).entries = rootEntries
  branch : ∀ j, j < 100 → fsSubNode (volumeOf storage) (2000 + j) = ok (N (2000 + j)) ∧ (N (2000 + j)).leaf = false ∧ (N (2000 + j)).entries = branchEntries j
  leaf : ∀ n, n < 10000 → fsSubNode (volumeOf storage) (2100 + n) = ok (N (2100 + n)) ∧ (N (2100 + n)).leaf = true ∧ (N (2100 + n)).entries = leafEntries n

theorem nodes : ∃ N, Nodes N := by
  obtain ⟨r, hr⟩ := ManyFiles.root_node
  have sub : ∀ b m, b ≠ 1000 → fsSubNode (volumeOf storage) b = ok m → (if b = 1000 then r else match fsSubNode (volumeOf storage) b with | .ok m => m | .err => r | .ub => r) = m := by
    intro b m hb hm
    rw [if_neg hb, hm]
  refine ⟨fun b => if b = 1000 then r else match fsSubNode (volumeOf storage) b with | .ok m => m | .err => r | .ub => r, ?_, ?_, ?_⟩
  · rw [if_pos rfl]
    exact hr
  · intro j hj
    obtain ⟨m, h1, h2⟩ := ManyFiles.branch_node hj
    rw [sub _ m (by omega) h1]
    exact ⟨h1, h2⟩
  · intro n hn
    obtain ⟨m, h1, h2⟩ := ManyFiles.leaf_node hn
    rw [sub _ m (by omega) h1]
    exact ⟨h1, h2⟩

theorem loadSub_ok {v : Volume} {b : Nat} {m : Node} (h : fsSubNode v b = ok m) : loadSub v b = ok (some m) := by
  unfold loadSub
  rw [h]
  rfl

/-- one lookup of another file -/
theorem lookup_ages {p : Policy} {capacity : Nat} (h0 : 0 < capacity) (ho : OldestFirst p capacity) (hr : Reorders p) {N : Nat → Node} (hN : Nodes N) {t : Slot} (ht : t.block = 2100) {k used : Nat} (h1 : 1 ≤ k)
    (hk : k < 10000) {c : Cache} (h : Age N t capacity (2100 + k) used c) :
    ∃ c', Reaches p (Threads.entry (volumeOf storage) 1 (k + 2) 3) c (.ret (ok (some (inode k)))) c' ∧ Age N t capacity (2100 + k + 1) (used + 1) c' := by
  have hroot := hN.root
  have hbranch := hN.branch (k / 100) (by omega)
  have hleaf := hN.leaf k hk
  obtain ⟨s1, c1, g1, n1, m1, a1⟩ := h.get h0 ho hr (load := loadRoot (volumeOf storage)) (b := 1000) (by omega) hroot.1 (by omega) (by omega)
  obtain ⟨s2, c2, g2, n2, m2, a2⟩ := a1.get h0 ho hr (load := loadSub (volumeOf storage)) (b := 2000 + k / 100) (by omega) (loadSub_ok hbranch.1) (by omega) (by omega)
  obtain ⟨s3, c3, g3, n3, m3, a3⟩ := a2.get_new h0 ho (load := loadSub (volumeOf storage)) (by omega) (loadSub_ok hleaf.1)
  refine ⟨c3, ?_, a3⟩
  unfold Threads.entry
  refine Reaches.trans (reaches_ok (a := some s1) (c' := c1) (by rw [run_getRoot]; exact g1) _) ?_
  dsimp only
  refine Reaches.trans (reaches_child (fuel := 256) m1 (by rw [n1]; exact hroot.2.1) (by rw [n1, hroot.2.2]; exact ManyFiles.scan_root hk) (ManyFiles.root_value hk) g2 _) ?_
  refine Reaches.trans (reaches_child (fuel := 255) m2 (by rw [n2]; exact hbranch.2.1) (by rw [n2, hbranch.2.2]; exact ManyFiles.scan_branch hk) (ManyFiles.branch_value hk) g3 _) ?_
  rw [entryLoop]
  refine (reaches_use m3 _).trans ?_
  rw [n3, hleaf.2.1, hleaf.2.2, ManyFiles.scan_leaf hk]
  show Reaches p (Proc.use s3 (.ret (ok (some (inode k))))) c3 _ _
  have := (Reaches.refl (p := p) (m := Proc.use s3 (.ret (ok (some (inode k))))) (c := c3)).step
  simp only [Proc.act] at this
  rw [if_pos (List.any_eq_true.2 ⟨s3, m3, by simp⟩)] at this
  exact this

/-- the first lookup, up to the use of the leaf -/
theorem lookup_waits {p : Policy} {capacity : Nat} (h0 : 3 ≤ capacity) (ho : OldestFirst p capacity) {N : Nat → Node} (hN : Nodes N) :
    ∃ c m, Reaches p (Threads.entry (volumeOf storage) 1 2 3) NodeCache.empty (.use ⟨2100, 2, N 2100⟩ m) c ∧ Age N ⟨2100, 2, N 2100⟩ capacity 2101 0 c := by
  have hroot := hN.root
  have hbranch := hN.branch 0 (by omega)
  have hleaf := hN.leaf 0 (by omega)
  obtain ⟨g1, r1⟩ := get_miss ho (c := NodeCache.empty) (load := loadRoot (volumeOf storage)) (b := 1000) (by omega) hroot.1 (by intro s hs; cases hs)
  rw [r1 (by show 0 < capacity; omega)] at g1
  obtain ⟨g2, r2⟩ := get_miss ho (c := ⟨[⟨1000, 0, N 1000⟩], 1⟩) (load := loadSub (volumeOf storage)) (b := 2000) (by omega) (loadSub_ok hbranch.1) (by simp)
  rw [r2 (by show 1 < capacity; omega)] at g2
  obtain ⟨g3, r3⟩ := get_miss ho (c := ⟨[⟨1000, 0, N 1000⟩, ⟨2000, 1, N 2000⟩], 2⟩) (load := loadSub (volumeOf storage)) (b := 2100) (by omega) (loadSub_ok hleaf.1) (by simp)
  rw [r3 (by show 2 < capacity; omega)] at g3
  have hreach : ∃ m, Reaches p (Threads.entry (volumeOf storage) 1 2 3) NodeCache.empty (.use ⟨2100, 2, N 2100⟩ m) ⟨[⟨1000, 0, N 1000⟩, ⟨2000, 1, N 2000⟩, ⟨2100, 2, N 2100⟩], 3⟩ := by
    apply Exists.intro
    unfold Threads.entry
    refine Reaches.trans (reaches_ok (a := some ⟨1000, 0, N 1000⟩) (c' := ⟨[⟨1000, 0, N 1000⟩], 1⟩) (by rw [run_getRoot]; exact g1) _) ?_
    dsimp only
    refine Reaches.trans (reaches_child (fuel := 256) (s := ⟨1000, 0, N 1000⟩) (by simp) hroot.2.1 (by rw [hroot.2.2]; exact ManyFiles.scan_root (n := 0) (by omega)) (ManyFiles.root_value (n := 0) (by omega)) g2 _) ?_
    refine Reaches.trans (reaches_child (fuel := 255) (s := ⟨2000, 1, N 2000⟩) (by simp) hbranch.2.1 (by rw [hbranch.2.2]; exact ManyFiles.scan_branch (n := 0) (by omega)) (ManyFiles.branch_value (n := 0) (by omega)) g3 _) ?_
    rw [entryLoop]
    exact .refl
  obtain ⟨m, hm⟩ := hreach
  exact ⟨_, m, hm, by simp, by simp, by show 2 < 3; omega, by simp, by show 3 ≤ capacity; omega, .inr ⟨[⟨1000, 0, N 1000⟩, ⟨2000, 1, N 2000⟩], [], rfl, by simp, by show capacity - 3 + 2 + 0 < capacity; omega⟩⟩

end Threads
end Verif
