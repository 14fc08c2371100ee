import Verif.Spec.Handles
import Verif.Lemmas.Handles
/-!
# C61: A handle can be used as long as what it was obtained from lives

A volume has pointers to the IO handle, the file IO handle and the key bag of its container, a file entry to the file system of its volume, an extended attribute to the values of its file entry; nothing counts references. If handles are
freed in the order that `Spec/Handles.lean` states, no function accesses freed memory and nothing is leaked; if not, the next function that reads the image does.
-/
namespace Verif.Props
open Verif Handles Spec.Handles

/-- handles of a C program with what they depend on -/
def cNode (p : Nat × Handle × Option Nat) : Node := ⟨p.1, some p.2.1, p.2.2⟩
def cKnown (p : Nat × Handle × Option Nat) : Known := ⟨p.1, p.2.1.kind, p.2.2⟩

/-- what is known agrees with the handles, and the handles are good -/
def CInv (files : List Addr) (s : State) (t : List Known) : Prop :=
  ∃ hs : List (Nat × Handle × Option Nat), s.handles = hs.map (fun p => (p.1, p.2.1)) ∧ t = hs.map cKnown ∧ Good files (hs.map cNode) s.memory

theorem find_handles {s : State} {hs : List (Nat × Handle × Option Nat)} (h : s.handles = hs.map (fun p => (p.1, p.2.1))) (n : Nat) : s.find n = (hs.find? (fun p => p.1 = n)).map (·.2.1) := by
  unfold State.find
  rw [h, List.find?_map, Option.map_map]
  rfl

theorem find_some {s : State} {hs : List (Nat × Handle × Option Nat)} (h : s.handles = hs.map (fun p => (p.1, p.2.1))) {n : Nat} {x : Handle} (hf : s.find n = some x) :
    ∃ q, (n, x, q) ∈ hs ∧ hs.find? (fun p => p.1 = n) = some (n, x, q) := by
  rw [find_handles h] at hf
  cases hp : hs.find? (fun p => p.1 = n) with
  | none => rw [hp] at hf; cases hf
  | some p =>
    rw [hp] at hf
    have h1 := List.mem_of_find?_eq_some hp
    have h2 := List.find?_some hp
    simp only [decide_eq_true_eq] at h2
    obtain ⟨a, b, c⟩ := p
    dsimp only at h2
    subst h2
    cases hf
    exact ⟨c, h1, rfl⟩

theorem find_none {s : State} {hs : List (Nat × Handle × Option Nat)} (h : s.handles = hs.map (fun p => (p.1, p.2.1))) {n : Nat} (hf : s.find n = none) : ∀ p ∈ hs, p.1 ≠ n := by
  rw [find_handles h, Option.map_eq_none_iff, List.find?_eq_none] at hf
  intro p hp hn
  exact hf p hp (decide_eq_true hn)

theorem node_none {hs : List (Nat × Handle × Option Nat)} {n : Nat} (h : ∀ p ∈ hs, p.1 ≠ n) : ∀ y ∈ hs.map cNode, y.id ≠ n := by
  intro y hy
  obtain ⟨p, hp, rfl⟩ := List.mem_map.1 hy
  exact h p hp

theorem set_handles {s : State} {hs : List (Nat × Handle × Option Nat)} {files : List Addr} {n : Nat} {h h' : Handle} {q : Option Nat} {m : Memory} (h1 : s.handles = hs.map (fun p => (p.1, p.2.1)))
    (g : Good files (hs.map cNode) s.memory) (hm : (n, h, q) ∈ hs) (hk : h'.kind = h.kind) (g' : Good files (replace (hs.map cNode) n h') m) : CInv files (s.set n h' m) (hs.map cKnown) := by
  refine ⟨hs.map (fun p => if p.1 = n then (n, h', p.2.2) else p), ?_, ?_, ?_⟩
  · show s.handles.map _ = _
    rw [h1, List.map_map, List.map_map]
    refine List.map_congr_left fun p _ => ?_
    dsimp only [Function.comp_def]
    by_cases hp : p.1 = n
    · rw [if_pos hp, if_pos hp]
    · rw [if_neg hp, if_neg hp]
  · rw [List.map_map]
    refine List.map_congr_left fun p hp => ?_
    dsimp only [Function.comp_def]
    by_cases hn : p.1 = n
    · rw [if_pos hn]
      have := eq_of_id g.nodup (List.mem_map_of_mem hp) (List.mem_map_of_mem hm) hn
      unfold cNode at this
      injection this with e1 e2 e3
      injection e2 with e2
      unfold cKnown
      dsimp only at e1 e2 e3 ⊢
      rw [e2, hk, e1]
    · rw [if_neg hn]
  · have : (hs.map (fun p => if p.1 = n then (n, h', p.2.2) else p)).map cNode = replace (hs.map cNode) n h' := by
      unfold replace
      rw [List.map_map, List.map_map]
      refine List.map_congr_left fun p _ => ?_
      dsimp only [Function.comp_def]
      by_cases hp : p.1 = n
      · rw [if_pos hp, if_pos (show (cNode p).id = n from hp)]
        unfold cNode
        dsimp only
        rw [hp]
      · rw [if_neg hp, if_neg (show (cNode p).id ≠ n from hp)]
    rw [this]
    exact g'

theorem provider_eq {hs : List (Nat × Handle × Option Nat)} {n : Nat} {h : Handle} {q : Option Nat} (hf : hs.find? (fun p => p.1 = n) = some (n, h, q)) (w : Want) :
    providerFor (hs.map cKnown) n w = (cNode (n, h, q)).parentOf h w := by
  unfold providerFor Node.parentOf
  rw [List.find?_map]
  have : ((fun x : Known => decide (x.name = n)) ∘ cKnown) = fun p => decide (p.1 = n) := rfl
  rw [this, hf]
  rfl

theorem returned_self (s : State) (c : Call) : returned s s c = false := by
  have h : ∀ o : Option Handle, (o.isNone && o.isSome) = false := fun o => by cases o <;> rfl
  cases c <;> first | rfl | exact h _

/-- one call -/
theorem c_step {files : List Addr} {s : State} {t : List Known} (hi : CInv files s t) {c : Call} (ha : Allowed files t c) : ∃ s', step s c = some s' ∧ CInv files s' (track t (returned s s' c) c) := by
  obtain ⟨hs, h1, rfl, g⟩ := hi
  cases c with
  | initialize_ n =>
    cases hf : s.find n with
    | some x =>
      refine ⟨s, by unfold step; dsimp only; rw [hf], ?_⟩
      rw [returned_self]
      exact ⟨hs, h1, rfl, g⟩
    | none =>
      refine ⟨_, by unfold step; dsimp only; rw [hf], ?_⟩
      have hr : returned s { handles := (n, (initialize_ s.memory).1) :: s.handles, memory := (initialize_ s.memory).2 } (.initialize_ n) = true := by
        unfold returned State.find at *
        simp [hf]
      rw [hr]
      refine ⟨(n, (initialize_ s.memory).1, none) :: hs, by rw [h1]; rfl, rfl, ?_⟩
      exact g.initialize_ (node_none (find_none h1 hf))
  | open_ n given encrypted succeeds =>
    cases hf : s.find n with
    | none => exact ⟨s, by unfold step; dsimp only; rw [hf], hs, h1, rfl, g⟩
    | some h =>
      obtain ⟨q, hm, _⟩ := find_some h1 hf
      obtain ⟨h', m', e, hk, g'⟩ := g.open_ (List.mem_map_of_mem (f := cNode) hm) (h := h) rfl (given := given) ha encrypted
      cases succeeds with
      | true => exact ⟨s.set n h' m', by unfold step; dsimp only; rw [hf]; dsimp only; rw [e]; rfl, set_handles h1 g hm hk g'⟩
      | false => exact ⟨s, by unfold step; dsimp only; rw [hf]; dsimp only; rw [e]; rfl, hs, h1, rfl, g⟩
  | close n =>
    cases hf : s.find n with
    | none => exact ⟨s, by unfold step; dsimp only; rw [hf], hs, h1, rfl, g⟩
    | some h =>
      obtain ⟨q, hm, _⟩ := find_some h1 hf
      obtain ⟨h', m', e, hk, g'⟩ := g.close (List.mem_map_of_mem (f := cNode) hm) (h := h) rfl (by
        intro y hy
        obtain ⟨p, hp, rfl⟩ := List.mem_map.1 hy
        exact ha (cKnown p) (List.mem_map_of_mem hp))
      exact ⟨s.set n h' m', by unfold step; dsimp only; rw [hf]; dsimp only; rw [e]; rfl, set_handles h1 g hm hk g'⟩
  | free n =>
    have hfil : ∀ l : List (Nat × Handle × Option Nat), (l.map cKnown).filter (fun x => x.name ≠ n) = (l.filter (fun p => p.1 ≠ n)).map cKnown := fun l => by
      rw [List.filter_map]; rfl
    cases hf : s.find n with
    | none =>
      refine ⟨s, by unfold step; dsimp only; rw [hf], hs, h1, ?_, g⟩
      unfold track
      dsimp only
      rw [hfil, List.filter_eq_self.2]
      intro p hp
      exact decide_eq_true (find_none h1 hf p hp)
    | some h =>
      obtain ⟨q, hm, _⟩ := find_some h1 hf
      have e := g.free_access (List.mem_map_of_mem (f := cNode) hm) (h := h) rfl
      refine ⟨{ handles := s.handles.filter (fun p => p.1 ≠ n), memory := _ }, by unfold step; dsimp only; rw [hf]; dsimp only; rw [e]; rfl, hs.filter (fun p => p.1 ≠ n), ?_, ?_, ?_⟩
      · dsimp only
        rw [h1, List.filter_map]
        rfl
      · exact hfil hs
      · have g' := g.remove (List.mem_map_of_mem (f := cNode) hm) (by
          intro y hy
          obtain ⟨p, hp, rfl⟩ := List.mem_map.1 hy
          exact ha (cKnown p) (List.mem_map_of_mem hp))
        rw [List.filter_map] at g'
        exact g'
  | get n w r succeeds =>
    cases hf : s.find n with
    | none =>
      refine ⟨s, by unfold step; dsimp only; rw [hf], ?_⟩
      rw [returned_self]
      exact ⟨hs, h1, rfl, g⟩
    | some h =>
      cases hf' : s.find r with
      | some x =>
        refine ⟨s, by unfold step; dsimp only; rw [hf, hf'], ?_⟩
        rw [returned_self]
        exact ⟨hs, h1, rfl, g⟩
      | none =>
        obtain ⟨q, hm, hfi⟩ := find_some h1 hf
        rcases g.get (List.mem_map_of_mem (f := cNode) hm) (h := h) rfl w succeeds with ⟨w', _, e⟩ | ⟨d, hd, e⟩
        · refine ⟨{ s with memory := openSnapshot w' s.memory }, by unfold step; dsimp only; rw [hf, hf']; dsimp only; rw [e]; rfl, ?_⟩
          have hr : returned s { s with memory := openSnapshot w' s.memory } (.get n w r succeeds) = false := by
            unfold returned State.find at *
            simp [hf']
          rw [hr]
          exact ⟨hs, h1, rfl, g.superblock w'⟩
        · refine ⟨{ handles := (r, d) :: s.handles, memory := openSnapshot w s.memory.alloc }, by unfold step; dsimp only; rw [hf, hf']; dsimp only; rw [e]; rfl, ?_⟩
          have hr : returned s { handles := (r, d) :: s.handles, memory := openSnapshot w s.memory.alloc } (.get n w r succeeds) = true := by
            unfold returned State.find at *
            simp [hf']
          rw [hr]
          obtain ⟨g', hk⟩ := g.derive (List.mem_map_of_mem (f := cNode) hm) (h := h) rfl hd (node_none (find_none h1 hf'))
          refine ⟨(r, d, (cNode (n, h, q)).parentOf h w) :: hs, by rw [h1]; rfl, ?_, g'.superblock w⟩
          unfold track
          dsimp only
          rw [if_pos rfl, provider_eq hfi, List.map_cons]
          unfold cKnown
          rw [hk]
  | call n f =>
    cases hf : s.find n with
    | none => exact ⟨s, by unfold step; dsimp only; rw [hf], hs, h1, rfl, g⟩
    | some h =>
      obtain ⟨q, hm, _⟩ := find_some h1 hf
      have e := g.access (List.mem_map_of_mem (f := cNode) hm) (h := h) rfl f
      exact ⟨s, by unfold step; dsimp only; rw [hf]; dsimp only; rw [e]; rfl, hs, h1, rfl, g⟩

theorem le_foldr {l : List Addr} {a : Addr} (h : a ∈ l) : a ≤ l.foldr Nat.max 0 := by
  induction l with
  | nil => cases h
  | cons b l ih =>
    rw [List.foldr_cons]
    rcases List.mem_cons.1 h with rfl | h
    · exact Nat.le_max_left _ _
    · exact Nat.le_trans (ih h) (Nat.le_max_right _ _)

theorem c_start (files : List Addr) : CInv files (start files) [] := by
  refine ⟨[], rfl, rfl, ?_⟩
  refine { nodup := .nil, parents := ?_, fits := ?_, session := ?_, live := ?_, apart := ?_, disjoint := ?_, below := ?_, once := ?_ }
  · intro x hx; cases hx
  · intro x hx; cases hx
  · intro x hx; cases hx
  · intro a
    exact ⟨.inl, fun h => h.elim id fun ⟨x, hx, _⟩ => by cases hx⟩
  · intro x hx; cases hx
  · intro x hx; cases hx
  · intro a ha
    exact Nat.lt_succ_of_le (le_foldr ha)
  · intro x hx; cases hx

theorem c_inv {files : List Addr} {s : State} {t : List Known} (h : Orderly files s t) : CInv files s t := by
  induction h with
  | start => exact c_start files
  | step _ ha hstep ih =>
    obtain ⟨s', e, hi⟩ := c_step ih ha
    rw [e] at hstep
    cases hstep
    exact hi

/-- After an orderly history no allowed call accesses freed memory. -/
theorem c61_orderly (files : List Addr) (s : State) (t : List Known) (h : Orderly files s t) (c : Call) (ha : Allowed files t c) : ∃ s', step s c = some s' := by
  obtain ⟨s', e, _⟩ := c_step (c_inv h) ha
  exact ⟨s', e⟩

/-- After an orderly history that freed all handles, no memory is left but the file IO handles of the program, which are all left, and volume superblocks of snapshots. Missing: c61_snapshot_leaks. -/
theorem c61_nothing_left_partial (files : List Addr) (s : State) (h : Orderly files s []) : s.handles = [] ∧ ∀ a, a ∈ s.memory.live ↔ a ∈ files := by
  obtain ⟨hs, h1, h2, g⟩ := c_inv h
  cases hs with
  | cons p hs => cases h2
  | nil =>
    refine ⟨h1, fun a => ?_⟩
    rw [g.live]
    exact ⟨fun h => h.elim id fun ⟨x, hx, _⟩ => (by cases hx), .inl⟩

theorem alloc_superblocks (m : Memory) : m.alloc.superblocks = m.superblocks := rfl

theorem release_superblocks {m m' : Memory} {l : List Addr} (h : m.release l = some m') : m'.superblocks = m.superblocks := by
  unfold Memory.release at h
  cases ha : m.access l with
  | none => rw [ha] at h; cases h
  | some u => rw [ha] at h; cases h; rfl

theorem open_superblocks {h h' : Handle} {given : Option Addr} {e : Bool} {m m' : Memory} (ho : open_ h given e m = some (h', m')) : m'.superblocks = m.superblocks := by
  unfold open_ at ho
  split at ho
  · next self io =>
    cases ha : m.access (self :: io :: given.toList) with
    | none => rw [ha] at ho; cases ho
    | some u =>
      rw [ha] at ho
      cases given <;> cases e <;> (cases ho; rfl)
  · cases ha : m.access (h.uses .values) with
    | none => rw [ha] at ho; cases ho
    | some u => rw [ha] at ho; cases ho; rfl

theorem close_superblocks {h h' : Handle} {m m' : Memory} (ho : close h m = some (h', m')) : m'.superblocks = m.superblocks := by
  unfold close at ho
  split at ho
  · next self io s =>
    cases ha : m.access [self, io, s.file] with
    | none => rw [ha] at ho; cases ho
    | some u =>
      cases hr : m.release s.owned with
      | none => rw [ha, hr] at ho; cases ho
      | some m1 =>
        rw [ha, hr] at ho
        cases ho
        exact release_superblocks hr
  · cases ha : m.access (h.uses .values) with
    | none => rw [ha] at ho; cases ho
    | some u => rw [ha] at ho; cases ho; rfl

theorem free_superblocks {h : Handle} {m m' : Memory} (ho : free h m = some m') : m'.superblocks = m.superblocks := by
  unfold free at ho
  split at ho
  · next s =>
    cases ha : m.access [s.file] with
    | none => rw [ha] at ho; cases ho
    | some u => rw [ha] at ho; exact release_superblocks ho
  · exact release_superblocks ho

/-- the superblocks that a call allocates -/
theorem get_superblocks {h : Handle} {w : Want} {b : Bool} {m m' : Memory} {r : Option Handle} (hg : get h w b m = some (r, m')) :
    m.superblocks ≤ m'.superblocks ∧ (w ≠ .snapshot → m'.superblocks = m.superblocks) ∧ (w = .snapshot → r.isSome → m'.superblocks = m.superblocks + 1) := by
  unfold Handles.get at hg
  cases ha : m.access (h.uses .files) with
  | none => rw [ha] at hg; cases hg
  | some u =>
    rw [ha] at hg
    cases hd : h.derive m.next w with
    | none =>
      rw [hd] at hg
      cases hg
      exact ⟨Nat.le_refl _, fun _ => rfl, fun _ h => by cases h⟩
    | some d =>
      rw [hd] at hg
      cases b <;> cases w <;> (cases hg; simp [openSnapshot, Memory.alloc])

theorem step_superblocks {s s' : State} {c : Call} (h : step s c = some s') :
    s.memory.superblocks ≤ s'.memory.superblocks ∧ ((∀ n r b, c ≠ .get n .snapshot r b) → s'.memory.superblocks = s.memory.superblocks) ∧
      ((∃ n r b, c = .get n .snapshot r b) → returned s s' c = true → s'.memory.superblocks = s.memory.superblocks + 1) := by
  have same : s'.memory.superblocks = s.memory.superblocks → (∀ n r b, c ≠ .get n .snapshot r b) → s.memory.superblocks ≤ s'.memory.superblocks ∧ ((∀ n r b, c ≠ .get n .snapshot r b) → s'.memory.superblocks = s.memory.superblocks) ∧
      ((∃ n r b, c = .get n .snapshot r b) → returned s s' c = true → s'.memory.superblocks = s.memory.superblocks + 1) :=
    fun e hn => ⟨Nat.le_of_eq e.symm, fun _ => e, fun ⟨n, r, b, hc⟩ => absurd hc (hn n r b)⟩
  cases c with
  | initialize_ n =>
    unfold step at h
    dsimp only at h
    cases hf : s.find n <;> (rw [hf] at h; cases h; exact same rfl (fun _ _ _ => by simp))
  | open_ n given e b =>
    unfold step at h
    dsimp only at h
    cases hf : s.find n with
    | none => rw [hf] at h; cases h; exact same rfl (fun _ _ _ => by simp)
    | some x =>
      rw [hf] at h
      cases ho : open_ x given e s.memory with
      | none => dsimp only at h; rw [ho] at h; cases h
      | some y =>
        dsimp only at h
        rw [ho] at h
        cases b with
        | true => cases h; exact same (open_superblocks ho) (fun _ _ _ => by simp)
        | false => cases h; exact same rfl (fun _ _ _ => by simp)
  | close n =>
    unfold step at h
    dsimp only at h
    cases hf : s.find n with
    | none => rw [hf] at h; cases h; exact same rfl (fun _ _ _ => by simp)
    | some x =>
      rw [hf] at h
      cases ho : close x s.memory with
      | none => dsimp only at h; rw [ho] at h; cases h
      | some y =>
        dsimp only at h
        rw [ho] at h
        cases h
        exact same (close_superblocks ho) (fun _ _ _ => by simp)
  | free n =>
    unfold step at h
    dsimp only at h
    cases hf : s.find n with
    | none => rw [hf] at h; cases h; exact same rfl (fun _ _ _ => by simp)
    | some x =>
      rw [hf] at h
      cases ho : free x s.memory with
      | none => dsimp only at h; rw [ho] at h; cases h
      | some y =>
        dsimp only at h
        rw [ho] at h
        cases h
        exact same (free_superblocks ho) (fun _ _ _ => by simp)
  | call n f =>
    unfold step at h
    dsimp only at h
    cases hf : s.find n with
    | none => rw [hf] at h; cases h; exact same rfl (fun _ _ _ => by simp)
    | some x =>
      rw [hf] at h
      cases ho : s.memory.access (x.uses f) with
      | none => dsimp only at h; rw [ho] at h; cases h
      | some y =>
        dsimp only at h
        rw [ho] at h
        cases h
        exact same rfl (fun _ _ _ => by simp)
  | get n w r b =>
    have self : s' = s → s.memory.superblocks ≤ s'.memory.superblocks ∧ ((∀ n' r' b', Call.get n w r b ≠ .get n' .snapshot r' b') → s'.memory.superblocks = s.memory.superblocks) ∧
        ((∃ n' r' b', Call.get n w r b = .get n' .snapshot r' b') → returned s s' (.get n w r b) = true → s'.memory.superblocks = s.memory.superblocks + 1) := by
      rintro rfl
      exact ⟨Nat.le_refl _, fun _ => rfl, fun _ hr => by rw [returned_self] at hr; cases hr⟩
    unfold step at h
    dsimp only at h
    cases hf : s.find n with
    | none => rw [hf] at h; exact self (Option.some.inj h).symm
    | some x =>
      cases hf' : s.find r with
      | some y => rw [hf, hf'] at h; exact self (Option.some.inj h).symm
      | none =>
        rw [hf, hf'] at h
        cases hg : get x w b s.memory with
        | none => dsimp only at h; rw [hg] at h; cases h
        | some y =>
          obtain ⟨d, m⟩ := y
          obtain ⟨g1, g2, g3⟩ := get_superblocks hg
          dsimp only at h
          rw [hg] at h
          cases d with
          | none =>
            cases h
            refine ⟨g1, fun hn => g2 fun e => hn n r b (by rw [e]), fun _ hr => ?_⟩
            unfold returned State.find at hr
            unfold State.find at hf'
            dsimp only at hr
            rw [hf'] at hr
            cases hr
          | some d =>
            cases h
            refine ⟨g1, fun hn => g2 fun e => hn n r b (by rw [e]), fun ⟨n', r', b', e⟩ _ => g3 ?_ rfl⟩
            injection e

theorem run_superblocks {cs : List Call} : ∀ {s s' : State}, run s cs = some s' → s.memory.superblocks ≤ s'.memory.superblocks := by
  induction cs with
  | nil => intro s s' h; cases h; exact Nat.le_refl _
  | cons c cs ih =>
    intro s s' h
    unfold run at h
    cases hs : step s c with
    | none => rw [hs] at h; cases h
    | some s1 =>
      rw [hs] at h
      exact Nat.le_trans (step_superblocks hs).1 (ih h)

/-- A volume superblock is left for each snapshot that was obtained, whatever the program does after that: also if it frees the snapshot and all other handles. -/
theorem c61_snapshot_leaks (s s' : State) (n r : Nat) (b : Bool) (h : step s (.get n .snapshot r b) = some s') (hr : returned s s' (.get n .snapshot r b) = true) (cs : List Call) (s'' : State) (h' : run s' cs = some s'') :
    s.memory.superblocks < s''.memory.superblocks := by
  have := (step_superblocks h).2.2 ⟨n, r, b, rfl⟩ hr
  have := run_superblocks h'
  omega

/-- None is left if the program asks for no snapshots. -/
theorem c61_no_snapshots (files : List Addr) (cs : List Call) (hc : ∀ n r b, .get n .snapshot r b ∉ cs) (s : State) (h : run (start files) cs = some s) : s.memory.superblocks = 0 := by
  have : ∀ (cs : List Call) (s s' : State), (∀ n r b, .get n .snapshot r b ∉ cs) → run s cs = some s' → s'.memory.superblocks = s.memory.superblocks := by
    intro cs
    induction cs with
    | nil => intro s s' _ h; cases h; rfl
    | cons c cs ih =>
      intro s s' hc h
      unfold run at h
      cases hs : step s c with
      | none => rw [hs] at h; cases h
      | some s1 =>
        rw [hs] at h
        have h1 := (step_superblocks hs).2.1 fun n r b e => hc n r b (List.mem_cons.2 (.inl e.symm))
        exact (ih s1 s' (fun n r b hm => hc n r b (List.mem_cons_of_mem _ hm)) h).trans h1
  exact this cs _ s hc h

theorem fits_uses {p h : Handle} (hf : Fits p h) : (∃ a ∈ h.uses .files, a ∈ p.owned) ∧ p ≠ h ∧ ¬ IsContainer h := by
  unfold Fits at hf
  split at hf
  · next _ io s _ _ _ _ =>
    obtain ⟨rfl, rfl, rfl⟩ := hf
    exact ⟨⟨io, List.mem_cons_of_mem _ (List.mem_cons_self ..), List.mem_cons_of_mem _ (List.mem_cons_self ..)⟩, (fun h => by cases h), id⟩
  · next v _ _ _ _ _ =>
    subst hf
    exact ⟨⟨v, List.mem_cons_of_mem _ (List.mem_cons_self ..), List.mem_cons_self ..⟩, (fun h => by cases h), id⟩
  · next v _ _ _ _ _ _ _ =>
    obtain ⟨rfl, rfl, rfl⟩ := hf
    refine ⟨⟨v, ?_, List.mem_cons_self ..⟩, (fun h => by cases h), id⟩
    show v ∈ [_, _, _, v]
    simp
  · next e _ _ _ _ _ _ _ _ =>
    obtain ⟨rfl, rfl, rfl, rfl⟩ := hf
    refine ⟨⟨e, ?_, List.mem_cons_self ..⟩, (fun h => by cases h), id⟩
    show e ∈ [_, _, _, _, e]
    simp
  · exact hf.elim

theorem find_mem {s : State} {hs : List (Nat × Handle × Option Nat)} {files : List Addr} {m : Memory} (h : s.handles = hs.map (fun p => (p.1, p.2.1))) (g : Good files (hs.map cNode) m) {n : Nat} {x : Handle}
    {q : Option Nat} (hm : (n, x, q) ∈ hs) : s.find n = some x := by
  cases hf : s.find n with
  | none => exact absurd rfl (find_none h hf _ hm)
  | some y =>
    obtain ⟨q', hm', _⟩ := find_some h hf
    have := eq_of_id g.nodup (List.mem_map_of_mem (f := cNode) hm) (List.mem_map_of_mem (f := cNode) hm') rfl
    unfold cNode at this
    injection this with _ e _
    injection e with e
    exact congrArg some e.symm

/-- what is known of a handle that depends on another -/
theorem depends {files : List Addr} {s : State} {t : List Known} (hi : CInv files s t) {x : Known} (hx : x ∈ t) {n : Nat} (hp : x.provider = some n) :
    ∃ (h p : Handle) (q : Option Nat) (hs : List (Nat × Handle × Option Nat)), s.handles = hs.map (fun p => (p.1, p.2.1)) ∧ Good files (hs.map cNode) s.memory ∧ (x.name, h, some n) ∈ hs ∧ (n, p, q) ∈ hs ∧ s.find x.name = some h ∧ s.find n = some p ∧ Fits p h ∧ x.name ≠ n := by
  obtain ⟨hs, h1, rfl, g⟩ := hi
  obtain ⟨⟨nx, h, qx⟩, hm, rfl⟩ := List.mem_map.1 hx
  have hq : qx = some n := hp
  subst hq
  rcases g.fits _ (List.mem_map_of_mem (f := cNode) hm) h rfl with ⟨_, h0⟩ | ⟨y, hy, hy', p, hp', hf⟩
  · cases h0
  · obtain ⟨⟨ny, p', qy⟩, hm', rfl⟩ := List.mem_map.1 hy
    have e1 : n = ny := Option.some.inj hy'
    subst e1
    have e2 : p' = p := Option.some.inj hp'
    subst e2
    refine ⟨h, p', qy, hs, h1, g, hm, hm', find_mem h1 g hm, find_mem h1 g hm', hf, fun e => ?_⟩
    have e : nx = n := e
    subst e
    have := (find_mem h1 g hm).symm.trans (find_mem h1 g hm')
    exact (fits_uses hf).2.1 (Option.some.inj this).symm

theorem find_filter {s : State} {m : Memory} {n k : Nat} (h : k ≠ n) : State.find { handles := s.handles.filter (fun p => p.1 ≠ n), memory := m } k = s.find k := by
  unfold State.find
  dsimp only
  rw [List.find?_filter]
  congr 2
  funext p
  by_cases hp : p.1 = k
  · have : p.1 ≠ n := hp ▸ h
    simp [hp, h]
  · simp [hp]

theorem step_free {files : List Addr} {s : State} {hs : List (Nat × Handle × Option Nat)} (g : Good files (hs.map cNode) s.memory) {n : Nat} {p : Handle} {q : Option Nat}
    (hm : (n, p, q) ∈ hs) (hf : s.find n = some p) : step s (.free n) = some { handles := s.handles.filter (fun p => p.1 ≠ n), memory := { s.memory with live := s.memory.live.filter (· ∉ p.owned) } } := by
  have e := g.free_access (List.mem_map_of_mem (f := cNode) hm) (h := p) rfl
  unfold step
  dsimp only
  rw [hf]
  dsimp only
  rw [e]
  rfl

/-- If a handle is freed before one that depends on it, which no function prevents, the next function of the latter that reads the image accesses freed memory. -/
theorem c61_freed_first (files : List Addr) (s : State) (t : List Known) (h : Orderly files s t) (x : Known) (hx : x ∈ t) (n : Nat) (hp : x.provider = some n) :
    ∃ s', step s (.free n) = some s' ∧ step s' (.call x.name .files) = none := by
  obtain ⟨d, p, q, hs, h1, g, hm, hm', hf, hf', hfit, hne⟩ := depends (c_inv h) hx hp
  refine ⟨_, step_free g hm' hf', ?_⟩
  unfold step
  dsimp only
  rw [find_filter hne, hf]
  dsimp only
  obtain ⟨⟨a, ha, ha'⟩, _⟩ := fits_uses hfit
  rw [access_none ha (by simp [ha'])]
  rfl

/-- Freeing the latter is still possible: freeing a handle does not access what it depends on. -/
theorem c61_free_after (files : List Addr) (s : State) (t : List Known) (h : Orderly files s t) (x : Known) (hx : x ∈ t) (n : Nat) (hp : x.provider = some n) :
    ∃ s', run s [.free n, .free x.name] = some s' := by
  obtain ⟨d, p, q, hs, h1, g, hm, hm', hf, hf', hfit, hne⟩ := depends (c_inv h) hx hp
  have hlive : ∀ a ∈ d.owned, a ∈ s.memory.live.filter (· ∉ p.owned) := by
    intro a ha
    refine List.mem_filter.2 ⟨g.self_live (List.mem_map_of_mem (f := cNode) hm) ha, decide_eq_true ?_⟩
    exact g.disjoint _ (List.mem_map_of_mem (f := cNode) hm) _ (List.mem_map_of_mem (f := cNode) hm') hne a ha
  have hfree : free d { s.memory with live := s.memory.live.filter (· ∉ p.owned) } = some { s.memory with live := (s.memory.live.filter (· ∉ p.owned)).filter (· ∉ d.owned) } := by
    have hr : ({ s.memory with live := s.memory.live.filter (· ∉ p.owned) } : Memory).release d.owned = some { s.memory with live := (s.memory.live.filter (· ∉ p.owned)).filter (· ∉ d.owned) } := by
      unfold Memory.release
      rw [access_some.2 hlive]
      rfl
    unfold free
    cases d with
    | container => exact absurd trivial (fits_uses hfit).2.2
    | _ => exact hr
  refine ⟨{ handles := (s.handles.filter (fun p => p.1 ≠ n)).filter (fun p => p.1 ≠ x.name), memory := { s.memory with live := (s.memory.live.filter (· ∉ p.owned)).filter (· ∉ d.owned) } }, ?_⟩
  unfold run
  rw [step_free g hm' hf']
  show run _ [.free x.name] = _
  unfold run step
  dsimp only
  rw [find_filter hne, hf]
  dsimp only
  rw [hfree]
  rfl

theorem find_set {s : State} {n k : Nat} {h : Handle} {m : Memory} (hne : k ≠ n) : (s.set n h m).find k = s.find k := by
  unfold State.find State.set
  dsimp only
  induction s.handles with
  | nil => rfl
  | cons p l ih =>
    rw [List.map_cons, List.find?_cons, List.find?_cons]
    by_cases hp : p.1 = n
    · rw [if_pos hp]
      have h1 : decide (n = k) = false := decide_eq_false fun h => hne h.symm
      have h2 : decide (p.1 = k) = false := decide_eq_false fun h => hne (h.symm.trans hp)
      dsimp only
      rw [h1, h2]
      exact ih
    · rw [if_neg hp]
      by_cases hk : p.1 = k
      · simp [hk]
      · simp only [hk, decide_false]
        exact ih

/-- Closing a container has the same effect for the volumes obtained from it: if it was opened by its path, the next function of the volume that reads the image accesses the file IO handle that was freed, -/
theorem c61_closed_first (files : List Addr) (s : State) (t : List Known) (h : Orderly files s t) (x : Known) (hx : x ∈ t) (n : Nat) (hp : x.provider = some n) (self io : Addr) (u : Session)
    (hc : s.find n = some (.container self io (some u))) :
    ∃ s', step s (.close n) = some s' ∧ (u.created = true → step s' (.call x.name .files) = none) ∧ ((∃ b, u.bag = some b) → step s' (.call x.name .unlock) = none) := by
  obtain ⟨d, p, q, hs, h1, g, hm, hm', hf, hf', hfit, hne⟩ := depends (c_inv h) hx hp
  have e := Option.some.inj (hc.symm.trans hf')
  subst e
  have hown : ∀ a ∈ u.owned, a ∈ s.memory.live := fun a ha => g.self_live (List.mem_map_of_mem (f := cNode) hm') (List.mem_cons_of_mem _ (List.mem_cons_of_mem _ ha))
  obtain ⟨l1, l2, l3, _⟩ := g.container (List.mem_map_of_mem (f := cNode) hm') (s := u) rfl
  have hcl : close (.container self io (some u)) s.memory = some (.container self io none, { s.memory with live := s.memory.live.filter (· ∉ u.owned) }) := by
    unfold close Memory.release
    dsimp only
    rw [access_some.2 (by
      intro a ha
      simp only [List.mem_cons, List.not_mem_nil, or_false] at ha
      rcases ha with rfl | rfl | rfl <;> assumption), access_some.2 hown]
    rfl
  have hd : ∃ v, d = .volume v io u.file u.bag := by
    cases d with
    | volume v io' file bag =>
      obtain ⟨rfl, rfl, rfl⟩ := hfit
      exact ⟨v, rfl⟩
    | container => exact hfit.elim
    | snapshot => exact hfit.elim
    | entry => exact hfit.elim
    | «attribute» => exact hfit.elim
  obtain ⟨v, rfl⟩ := hd
  refine ⟨s.set n (.container self io none) { s.memory with live := s.memory.live.filter (· ∉ u.owned) }, ?_, fun hcr => ?_, fun ⟨b, hb⟩ => ?_⟩
  · unfold step
    dsimp only
    rw [hc]
    dsimp only
    rw [hcl]
    rfl
  · have ha : u.file ∈ u.owned := by simp [Session.owned, hcr]
    unfold step
    dsimp only
    rw [find_set hne, hf]
    show (Memory.access _ [v, io, u.file]).bind _ = none
    rw [access_none (a := u.file) (by simp) (by simp [State.set, ha])]
    rfl
  · have ha : b ∈ u.owned := by simp [Session.owned, hb]
    unfold step
    dsimp only
    rw [find_set hne, hf]
    show (Memory.access _ (v :: u.bag.toList)).bind _ = none
    rw [access_none (a := b) (by simp [hb]) (by simp [State.set, ha])]
    rfl

/-! an example: a container opened by its path, a volume, two of its file entries, the second obtained from the first, and an extended attribute of the second -/

namespace HandleExample

def calls : List Call :=
  [.initialize_ 1, .open_ 1 none true true, .get 1 .volume 2 true, .get 2 .entry 3 true, .get 3 .entry 4 true, .get 4 .attribute 5 true, .call 2 .unlock, .free 3, .call 5 .files]

def known : List Known := [⟨5, some .attribute, some 4⟩, ⟨4, some .entry, some 2⟩, ⟨2, some .volume, some 1⟩, ⟨1, none, none⟩]

def after : State :=
  { handles := [(5, .attribute 8 2 3 5 7), (4, .entry 7 2 3 5), (2, .volume 5 2 3 (some 4)), (1, .container 1 2 (some ⟨3, true, some 4⟩))], memory := { live := [8, 7, 5, 4, 3, 2, 1], next := 9, superblocks := 0 } }

theorem reached : Orderly [] after known := by
  have h0 : Orderly [] (start []) [] := .start
  have h1 := Orderly.step (c := .initialize_ 1) h0 trivial rfl
  have h2 := Orderly.step (c := .open_ 1 none true true) h1 (fun f h => by cases h) rfl
  have h3 := Orderly.step (c := .get 1 .volume 2 true) h2 trivial rfl
  have h4 := Orderly.step (c := .get 2 .entry 3 true) h3 trivial rfl
  have h5 := Orderly.step (c := .get 3 .entry 4 true) h4 trivial rfl
  have h6 := Orderly.step (c := .get 4 .attribute 5 true) h5 trivial rfl
  have h7 := Orderly.step (c := .call 2 .unlock) h6 trivial rfl
  have h8 := Orderly.step (c := .free 3) h7 (by
    intro x hx
    have hx : x ∈ [⟨5, some .attribute, some 4⟩, ⟨4, some .entry, some 2⟩, ⟨3, some .entry, some 2⟩, ⟨2, some .volume, some 1⟩, (⟨1, none, none⟩ : Known)] := hx
    simp only [List.mem_cons, List.not_mem_nil, or_false] at hx
    rcases hx with rfl | rfl | rfl | rfl | rfl <;> decide) rfl
  have h9 := Orderly.step (c := .call 5 .files) h8 trivial rfl
  exact h9

example : run (start []) calls = some after := rfl

/-- the extended attribute can be used until it is freed -/
example : ∃ s', step after (.call 5 .files) = some s' := c61_orderly [] after known reached (.call 5 .files) trivial
/-- it cannot after the file entry is freed -/
example : ∃ s', step after (.free 4) = some s' ∧ step s' (.call 5 .files) = none := c61_freed_first [] after known reached ⟨5, some .attribute, some 4⟩ (by simp [known]) 4 rfl
/-- nor the volume after the container is closed -/
example : ∃ s', step after (.close 1) = some s' ∧ step s' (.call 2 .files) = none ∧ step s' (.call 2 .unlock) = none := by
  obtain ⟨s', h1, h2, h3⟩ := c61_closed_first [] after known reached ⟨2, some .volume, some 1⟩ (by simp [known]) 1 rfl 1 2 ⟨3, true, some 4⟩ rfl
  exact ⟨s', h1, h2 rfl, h3 ⟨4, rfl⟩⟩

/-- a container that is opened with a file IO handle of the program and freed -/
example : Orderly [7] ⟨[], ⟨[7], 10, 0⟩⟩ [] := by
  have h1 := Orderly.step (files := [7]) (c := .initialize_ 1) .start trivial rfl
  have h2 := Orderly.step (c := .open_ 1 (some 7) false true) h1 (fun f h => by cases h; simp) rfl
  exact Orderly.step (c := .free 1) h2 (by
    intro x hx
    have hx : x ∈ [(⟨1, none, none⟩ : Known)] := hx
    cases List.mem_singleton.1 hx
    decide) rfl

/-- a snapshot, after which everything is freed -/
example : ∀ s, run (start []) [.initialize_ 1, .open_ 1 none false true, .get 1 .volume 2 true, .get 2 .snapshot 3 true, .free 3, .free 2, .free 1] = some s → s.handles = [] ∧ s.memory.live = [] ∧ 0 < s.memory.superblocks := by
  intro s h
  have h1 : run (start []) [.initialize_ 1, .open_ 1 none false true, .get 1 .volume 2 true] = some ⟨[(2, .volume 4 2 3 none), (1, .container 1 2 (some ⟨3, true, none⟩))], ⟨[4, 3, 2, 1], 5, 0⟩⟩ := rfl
  refine ⟨?_, ?_, c61_snapshot_leaks ⟨[(2, .volume 4 2 3 none), (1, .container 1 2 (some ⟨3, true, none⟩))], ⟨[4, 3, 2, 1], 5, 0⟩⟩ _ 2 3 true rfl rfl [.free 3, .free 2, .free 1] s h⟩
  · cases h; rfl
  · cases h; rfl

end HandleExample

end Verif.Props
