import Verif.Props.C57
import Verif.Lemmas.MapCache
/-!
# C57 Calls from several threads: what fails
-/
namespace Verif.Props
open Verif Res Spec.Threads BTree FsTree NodeCache
open Verif.Threads (Proc Call Thread System Step Steps start set_same set_other)

/-- the function begins with the root node: it asks the cache for the block, and if there is no value it sets the node it read and uses it -/
def Begins {α : Type} (m : Proc α) (root : Nat) (n : Node) : Prop :=
  ∃ k k', m = .lookup root k ∧ k none = .insert root n k' ∧ ∀ s, ∃ m', k' s = .use s m'

theorem begins_get {α : Type} {load : Nat → Res (Option Node)} {root : Nat} {n : Node} (hr : ¬ root > 2 ^ 31 - 1) (hl : load root = ok (some n)) {f : Option Slot → Proc α}
    (hf : ∀ s, ∃ m, f (some s) = .use s m) : Begins (Threads.get load root >>= f) root n := by
  unfold Threads.get
  rw [if_neg hr]
  refine ⟨_, fun s => f (some s), rfl, ?_, hf⟩
  dsimp only
  rw [hl]
  rfl

theorem begins_request {v : FsTree.Volume} {n : Node} (hn : fsRootNode v = ok (some n)) (xid : Nat) (r : Request) : Begins (r.steps v xid) v.fsRoot n := by
  have hr : ¬ v.fsRoot > 2 ^ 31 - 1 := by
    unfold fsRootNode at hn
    obtain ⟨_, hn, _⟩ := bind_eq_ok.1 hn
    intro h
    rw [require_false (by simpa using h)] at hn
    cases hn
  have assoc : ∀ {α β γ : Type} (m : Proc α) (f : α → Proc β) (g : β → Proc γ), ((m >>= f) >>= g) = (m >>= fun a => f a >>= g) := by
    intro α β γ m f g
    show (m.bind f).bind g = m.bind fun a => (f a).bind g
    induction m with
    | ret r => cases r <;> rfl
    | lookup b k ih => simp only [Proc.bind, ih]
    | insert b n k ih => simp only [Proc.bind, ih]
    | use s k ih => simp only [Proc.bind, ih]
  cases r with
  | entry i t =>
    unfold Request.steps Threads.entry Threads.getRoot
    dsimp only
    rw [assoc]
    exact begins_get hr hn fun s => ⟨_, rfl⟩
  | _ =>
    unfold Request.steps Threads.enumerate Threads.getRoot
    dsimp only
    rw [assoc]
    exact begins_get hr hn fun s => ⟨_, rfl⟩

theorem begins_mapping {fetch : Nat → Res Bytes} {root : Nat} {n : Node} (hn : omRoot fetch root = ok n) (oid xid : Nat) : Begins (Threads.mapping fetch root oid xid) root n := by
  have hr : ¬ root > 2 ^ 31 - 1 := by
    unfold omRoot at hn
    obtain ⟨_, hn, _⟩ := bind_eq_ok.1 hn
    intro h
    rw [require_false (by simpa using h)] at hn
    cases hn
  unfold Threads.mapping
  exact begins_get hr (by rw [hn]; rfl) fun s => ⟨_, rfl⟩

/-- the locks of two calls do not keep them apart -/
def Together {α : Type} (a b : Call α) : Prop := a.handle = b.handle → a.write = false ∧ b.write = false

/-- both calls found no value in the cache and are about to set one -/
theorem meet {α : Type} (p : Policy) {a b : Call α} (hab : Together a b) {root root' : Nat} {n n' : Node} (ha : Begins a.body root n) (hb : Begins b.body root' n') {c : Cache}
    (hc : ∀ s ∈ c.slots, s.block ≠ root ∧ s.block ≠ root') {work : Nat → List (Call α)} {as bs : List (Call α)} (h0 : work 0 = a :: as) (h1 : work 1 = b :: bs) :
    ∃ s ka kb, Steps p (start c work) s ∧ s.cache = c ∧ s.threads 0 = ⟨[], some { a with body := .insert root n ka }, as⟩ ∧ s.threads 1 = ⟨[], some { b with body := .insert root' n' kb }, bs⟩ ∧
      (∀ x, ∃ m, ka x = .use x m) ∧ ∀ x, ∃ m, kb x = .use x m := by
  obtain ⟨k, k', e1, e2, e3⟩ := ha
  obtain ⟨l, l', f1, f2, f3⟩ := hb
  have miss : ∀ r, (∀ s ∈ c.slots, s.block ≠ r) → c.slots.find? (fun t => t.block = r) = none := by
    intro r h
    rw [List.find?_eq_none]
    intro s hs
    simpa using h s hs
  obtain ⟨s1, A, c1, t1, o1⟩ := Threads.step_enter p (s := start c work) (i := 0) (rs := []) (c := a) (cs := as) (by rw [← h0]; rfl) (by intro j d _ hd; cases hd)
  obtain ⟨s2, B, c2, t2, o2⟩ := Threads.step_enter p (s := s1) (i := 1) (rs := []) (c := b) (cs := bs) (by rw [o1 1 (by decide), ← h1]; rfl) (by
    intro j d hj hd hh
    by_cases h : j = 0
    · rw [h, t1] at hd
      cases hd
      exact (hab hh).symm
    · rw [o1 j h] at hd
      cases hd)
  have c2 : s2.cache = c := by rw [c2, c1]; rfl
  obtain ⟨s3, C, c3, t3, o3⟩ := Threads.step_act p (s := s2) (i := 0) (by rw [o2 0 (by decide), t1])
  rw [c2, e1, Threads.act_lookup_none p k (miss root fun s hs => (hc s hs).1), e2] at t3
  rw [c2, e1, Threads.act_lookup_none p k (miss root fun s hs => (hc s hs).1)] at c3
  obtain ⟨s4, D, c4, t4, o4⟩ := Threads.step_act p (s := s3) (i := 1) (by rw [o3 1 (by decide), t2])
  rw [c3, f1, Threads.act_lookup_none p l (miss root' fun s hs => (hc s hs).2), f2] at t4
  rw [c3, f1, Threads.act_lookup_none p l (miss root' fun s hs => (hc s hs).2)] at c4
  exact ⟨s4, k', l', ((((Steps.refl _).step A).step B).step C).step D, c4, by rw [o4 0 (by decide), t3], t4, e3, f3⟩

/-- Two threads with calls that no lock keeps apart, on a tree whose root node is not in the cache yet: both can change the cache at the same time. -/
theorem calls_race {α : Type} (p : Policy) {a b : Call α} (hab : Together a b) {root root' : Nat} {n n' : Node} (ha : Begins a.body root n) (hb : Begins b.body root' n') {c : Cache}
    (hc : ∀ s ∈ c.slots, s.block ≠ root ∧ s.block ≠ root') {work : Nat → List (Call α)} {as bs : List (Call α)} (h0 : work 0 = a :: as) (h1 : work 1 = b :: bs) :
    ∃ s, Steps p (start c work) s ∧ Race s := by
  obtain ⟨s, ka, kb, hs, _, t0, t1, _⟩ := meet p hab ha hb hc h0 h1
  refine ⟨s, hs, 0, 1, _, _, by decide, congrArg Thread.current t0, congrArg Thread.current t1, ⟨_, _, _, rfl⟩, ?_⟩
  intro r h
  cases h

/-- The full property is false for every volume: two file entries, or a volume and a file entry, use the same tree and each call takes only the lock of its own handle, so that two threads can change the cache of the tree
at the same time. -/
theorem c57_race (p : Policy) {v : FsTree.Volume} {n : Node} (hn : fsRootNode v = ok (some n)) (xid : Nat) {handle handle' : Nat} (hne : handle ≠ handle') (write write' : Bool) (r r' : Request)
    {requests requests' : List Request} : ∃ s, Steps p (start NodeCache.empty fun i => if i = 0 then (r :: requests).map (Request.call v xid handle write)
      else if i = 1 then (r' :: requests').map (Request.call v xid handle' write') else []) s ∧ Race s :=
  calls_race p (a := r.call v xid handle write) (b := r'.call v xid handle' write') (fun h => absurd h hne) (begins_request hn xid r) (begins_request hn xid r') (by intro s hs; cases hs) rfl rfl

/-- a call of `libfsapfs_container_get_volume_by_index`, libfsapfs_container.c 2265-2357: the lock of the container is taken for reading, 2265, and the block of the volume is looked up in the object map of the
container, `libfsapfs_object_map_btree_get_descriptor_by_object_identifier`, 2279-2295 -/
def volumeByIndex (fetch : Nat → Res Bytes) (root xid handle oid : Nat) : Call (Option Descriptor) := { handle := handle, write := false, body := Threads.mapping fetch root oid xid }

/-- One thread that opens volumes one after the other gets the blocks the object map has, whatever is in the cache. Missing: several threads, see `c57_volumes_race`. -/
theorem c57_volumes_partial {p : Policy} (hp : KeepsValues p) {fetch : Nat → Res Bytes} (hf : ∀ b, Safe (fetch b)) (root xid handle : Nat) (oids : List Nat) :
    ∀ (k oid : Nat) (x : Res (Option Descriptor)), oids[k]? = some oid → (serial p (oids.map (volumeByIndex fetch root xid handle)) NodeCache.empty).1[k]? = some x →
      x ≠ ub ∧ ∀ r, omDescriptor fetch root oid xid = ok r → x = ok r := by
  suffices ∀ c, Threads.MapFits fetch c → ∀ (k oid : Nat) (x : Res (Option Descriptor)), oids[k]? = some oid → (serial p (oids.map (volumeByIndex fetch root xid handle)) c).1[k]? = some x →
      x ≠ ub ∧ ∀ r, omDescriptor fetch root oid xid = ok r → x = ok r from this _ (Threads.mapFits_empty fetch)
  induction oids with
  | nil =>
    intro c _ k oid x h
    cases h
  | cons o oids ih =>
    intro c hc k oid x h hx
    obtain ⟨h1, h2, h3⟩ := Threads.mapping_runs hp hf root o xid hc
    cases k with
    | zero =>
      cases h
      cases hx
      exact ⟨h1, h2⟩
    | succ k => exact ih _ h3 k oid x h hx

/-- Also calls on one handle: two threads that open volumes of a container can change the cache of its object map at the same time. -/
theorem c57_volumes_race (p : Policy) {fetch : Nat → Res Bytes} {root : Nat} {n : Node} (hn : omRoot fetch root = ok n) (xid handle oid oid' : Nat) (oids oids' : List Nat) :
    ∃ s, Steps p (start NodeCache.empty fun i => if i = 0 then (oid :: oids).map (volumeByIndex fetch root xid handle) else if i = 1 then (oid' :: oids').map (volumeByIndex fetch root xid handle) else []) s ∧ Race s :=
  calls_race p (a := volumeByIndex fetch root xid handle oid) (b := volumeByIndex fetch root xid handle oid') (fun _ => ⟨rfl, rfl⟩) (begins_mapping hn oid xid) (begins_mapping hn oid' xid)
    (by intro s hs; cases hs) rfl rfl

/-- the cache has at most one value for a block: a value that is set replaces the one for the same block -/
def OneForEach (p : Policy) : Prop := ∀ l b i, (l.findIdx? fun t : Slot => t.block = b) = some i → p.evict l b = some i

theorem calls_freed {α : Type} {p : Policy} (hp : OneForEach p) {a b : Call α} (hab : Together a b) {root : Nat} {n n' : Node} (ha : Begins a.body root n) (hb : Begins b.body root n')
    (he : p.evict [] root = none) {work : Nat → List (Call α)} {as bs : List (Call α)} (h0 : work 0 = a :: as) (h1 : work 1 = b :: bs) :
    ∃ s, Steps p (start NodeCache.empty work) s ∧ (s.threads 0).results = [ub] := by
  obtain ⟨s, ka, kb, hs, hc, t0, t1, ua, _⟩ := meet p hab ha hb (c := NodeCache.empty) (by intro s hs; cases hs) h0 h1
  obtain ⟨s1, A, c1, u1, o1⟩ := Threads.step_act p t0
  obtain ⟨s2, B, c2, u2, o2⟩ := Threads.step_act p (s := s1) (i := 1) (by rw [o1 1 (by decide), t1])
  have c1 : s1.cache = { slots := [⟨root, 0, n⟩], next := 1 } := by
    rw [c1, hc]
    show Cache.mk (room p [] root ++ [⟨root, 0, n⟩]) 1 = _
    unfold room
    rw [he]
    rfl
  have c2 : s2.cache = { slots := [⟨root, 1, n'⟩], next := 2 } := by
    rw [c2, c1]
    show Cache.mk (room p [⟨root, 0, n⟩] root ++ [⟨root, 1, n'⟩]) 2 = _
    unfold room
    rw [hp [⟨root, 0, n⟩] root 0 (by simp)]
    rfl
  rw [hc] at u1
  obtain ⟨m, hm⟩ := ua ⟨root, 0, n⟩
  obtain ⟨s3, C, c3, u3, o3⟩ := Threads.step_act p (s := s2) (i := 0) (c := { a with body := .use ⟨root, 0, n⟩ m }) (rs := []) (cs := as) (by
    rw [o2 0 (by decide), u1]
    show Thread.mk [] (some { a with body := ka ⟨root, 0, n⟩ }) as = _
    rw [hm])
  obtain ⟨s4, D, _, u4, _⟩ := Threads.step_leave p (r := ub) u3 (by
    rw [c2]
    rfl)
  exact ⟨s4, (((hs.step A).step B).step C).step D, by rw [u4]; rfl⟩

/-- If the cache has one value for each block then the second thread frees the node that the first one goes on to use: a use after free in every volume, however large the cache is. -/
theorem c57_freed {p : Policy} (hp : OneForEach p) (he : ∀ b, p.evict [] b = none) {v : FsTree.Volume} {n : Node} (hn : fsRootNode v = ok (some n)) (xid : Nat) {handle handle' : Nat} (hne : handle ≠ handle')
    (write write' : Bool) (r r' : Request) {requests requests' : List Request} : ∃ s, Steps p (start NodeCache.empty fun i => if i = 0 then (r :: requests).map (Request.call v xid handle write)
      else if i = 1 then (r' :: requests').map (Request.call v xid handle' write') else []) s ∧ (s.threads 0).results = [ub] :=
  calls_freed hp (a := r.call v xid handle write) (b := r'.call v xid handle' write') (fun h => absurd h hne) (begins_request hn xid r) (begins_request hn xid r') (he _) rfl rfl

/-- The same for two threads that open volumes of a container. -/
theorem c57_volumes_freed {p : Policy} (hp : OneForEach p) (he : ∀ b, p.evict [] b = none) {fetch : Nat → Res Bytes} {root : Nat} {n : Node} (hn : omRoot fetch root = ok n) (xid handle oid oid' : Nat)
    (oids oids' : List Nat) : ∃ s, Steps p (start NodeCache.empty fun i => if i = 0 then (oid :: oids).map (volumeByIndex fetch root xid handle)
      else if i = 1 then (oid' :: oids').map (volumeByIndex fetch root xid handle) else []) s ∧ (s.threads 0).results = [ub] :=
  calls_freed hp (a := volumeByIndex fetch root xid handle oid) (b := volumeByIndex fetch root xid handle oid') (fun _ => ⟨rfl, rfl⟩) (begins_mapping hn oid xid) (begins_mapping hn oid' xid) (he _) rfl rfl

/-- the functions of volumes, file entries and extended attributes that use the tree -/
def treeFunctions : List Locks.Fn :=
  [Locks.volume_get_root_directory, Locks.volume_get_file_entry_by_identifier, Locks.volume_get_file_entry_by_utf8_path, Locks.volume_get_file_entry_by_utf16_path, Locks.file_entry_get_parent_file_entry,
   Locks.file_entry_get_utf8_symbolic_link_target_size, Locks.file_entry_get_utf8_symbolic_link_target, Locks.file_entry_get_utf16_symbolic_link_target_size, Locks.file_entry_get_utf16_symbolic_link_target,
   Locks.file_entry_get_number_of_extended_attributes, Locks.file_entry_get_extended_attribute_by_index, Locks.file_entry_has_extended_attribute_by_utf8_name,
   Locks.file_entry_has_extended_attribute_by_utf16_name, Locks.file_entry_get_extended_attribute_by_utf8_name, Locks.file_entry_get_extended_attribute_by_utf16_name,
   Locks.file_entry_get_number_of_sub_file_entries, Locks.file_entry_get_sub_file_entry_by_index, Locks.file_entry_get_sub_file_entry_by_utf8_name, Locks.file_entry_get_sub_file_entry_by_utf16_name,
   Locks.file_entry_read_buffer, Locks.file_entry_read_buffer_at_offset, Locks.file_entry_seek_offset, Locks.file_entry_get_size, Locks.file_entry_get_number_of_extents, Locks.file_entry_get_extent_by_index,
   Locks.extended_attribute_read_buffer, Locks.extended_attribute_read_buffer_at_offset, Locks.extended_attribute_seek_offset, Locks.extended_attribute_get_number_of_extents,
   Locks.extended_attribute_get_extent_by_index]

/-- How the functions take the lock of their handle, in the model of C31 and whatever branch they take: those that use the tree of a volume only for writing, as in `c57_one_handle_partial`;
`libfsapfs_container_get_volume_by_index` only for reading, as in `c57_volumes_race`. -/
theorem c57_locks : (∀ f ∈ treeFunctions, ∀ t, f.Uses t → Locks.Op.grab false ∉ t) ∧ ∀ t, Locks.container_get_volume_by_index.Uses t → Locks.Op.grab true ∉ t := by
  have h1 : ∀ f ∈ treeFunctions, (Locks.runs (.call f.body f.handler)).all (fun x => decide (Locks.Op.grab false ∉ x.1)) = true := by decide +kernel
  have h2 : (Locks.runs (.call Locks.container_get_volume_by_index.body Locks.container_get_volume_by_index.handler)).all (fun x => decide (Locks.Op.grab true ∉ x.1)) = true := by decide +kernel
  exact ⟨fun f hf t ht => of_decide_eq_true (List.all_eq_true.1 (h1 f hf) _ ((Locks.exec_iff _ _ _).1 ht)), fun t ht => of_decide_eq_true (List.all_eq_true.1 h2 _ ((Locks.exec_iff _ _ _).1 ht))⟩

end Verif.Props
