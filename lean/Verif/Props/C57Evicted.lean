import Verif.Props.C57Limits
import Verif.Lemmas.Evicted
/-!
# C57 Calls from several threads: a node that is replaced while it is used
-/
namespace Verif.Props
open Verif Res Spec Spec.Threads BTree FsTree NodeCache
open Verif.Threads (Proc Call Thread System Step Steps start Reorders Age Reaches Nodes step_enter step_act step_leave steps_reach)
open Verif.ManyFiles (storage inode records)

/-- the call that gives the inode of the file `k` -/
def lookupCall (handle k : Nat) : Call Answer := (Request.entry (k + 2) 3).call (volumeOf storage) 1 handle true

theorem many_safe : SafeVolume (volumeOf storage) :=
  ⟨fun b => by show Safe (fetchOf _ b); unfold fetchOf; split <;> simp [Safe], fun b => by show Safe (fetchOf _ b); unfold fetchOf; split <;> simp [Safe]⟩

/-- Every lookup of another file makes the leaf in use older. -/
theorem lookups_age {p : Policy} {capacity : Nat} (h0 : 0 < capacity) (ho : OldestFirst p capacity) (hr : Reorders p) {N : Nat → Node} (hN : Nodes N) {t : Slot} (ht : t.block = 2100) (handle : Nat) {call : Call Answer}
    (hh : call.handle ≠ handle) : ∀ (m k used : Nat) (rs : List (Res Answer)) (s : System Answer), 1 ≤ k → k + m ≤ 10000 → s.threads 0 = ⟨[], some call, []⟩ →
      s.threads 1 = ⟨rs, none, (List.range' k m).map (lookupCall handle)⟩ → (∀ j, j ≠ 0 → j ≠ 1 → (s.threads j).current = none) → Age N t capacity (2100 + k) used s.cache →
      ∃ u, Steps p s u ∧ u.threads 0 = ⟨[], some call, []⟩ ∧ u.threads 1 = ⟨rs ++ (List.range' k m).map (fun k => ok (.entry (some (inode k)))), none, []⟩ ∧ Age N t capacity (2100 + k + m) (used + m) u.cache := by
  intro m
  induction m with
  | zero =>
    intro k used rs s _ _ h2 h3 _ h4
    exact ⟨s, .refl s, h2, by simpa using h3, h4⟩
  | succ m ih =>
    intro k used rs s hk1 hk h2 h3 hq h4
    obtain ⟨c', hc, ha⟩ := Threads.lookup_ages h0 ho hr hN ht hk1 (by omega) h4
    obtain ⟨a, a1, a2, a3, a4⟩ := step_enter p (i := 1) (s := s) (by rw [h3]; rfl) (by
      intro j d hj hd he
      by_cases h : j = 0
      · rw [h, h2] at hd
        cases hd
        exact absurd he hh
      · rw [hq j h hj] at hd
        cases hd)
    have hbody : Reaches p (lookupCall handle k).body a.cache (.ret (ok (.entry (some (inode k))))) c' := by
      rw [a2]
      exact hc.bind fun x => (pure (.entry x) : Proc Answer)
    obtain ⟨b, b1, b2, b3, b4⟩ := steps_reach a3 hbody
    obtain ⟨d, d1, d2, d3, d4⟩ := step_leave p b3 rfl
    obtain ⟨u, u1, u2, u3, u4⟩ := ih (k + 1) (used + 1) (rs ++ [ok (.entry (some (inode k)))]) d (by omega) (by omega) (by rw [d4 0 (by omega), b4 0 (by omega), a4 0 (by omega), h2]) d3
      (fun j j0 j1 => by rw [d4 j j1, b4 j j1, a4 j j1]; exact hq j j0 j1) (by rw [d2, b2]; exact ha)
    refine ⟨u, ((((Steps.refl s).step a1).trans b1).step d1).trans u1, u2, ?_, ?_⟩
    · rw [u3, List.append_assoc]
      rfl
    · rw [show 2100 + k + (m + 1) = 2100 + (k + 1) + m by omega, show used + (m + 1) = used + 1 + m by omega]
      exact u4

/-- Two handles of one volume with 10000 files, whose cache of nodes replaces the least recently used or the oldest value: while one thread looks up one file, another looks up as many other files as the cache has entries.
All lookups of the second thread succeed; the first uses the node of its leaf after it was freed. -/
theorem c57_evicted {p : Policy} {capacity : Nat} (ho : OldestFirst p capacity) (hr : Reorders p) (hc : 3 ≤ capacity ∧ capacity < 10000) {handle handle' : Nat} (hh : handle ≠ handle') :
    SafeVolume (volumeOf storage) ∧ FsHolds storage 1 records ∧
      ∃ s, Steps p (start NodeCache.empty fun i => if i = 0 then [lookupCall handle 0] else if i = 1 then (List.range' 1 capacity).map (lookupCall handle') else []) s ∧ (s.threads 0).results = [ub] ∧
        (s.threads 1).results = (List.range' 1 capacity).map (fun k => ok (.entry (some (inode k)))) := by
  obtain ⟨N, hN⟩ := Threads.nodes
  refine ⟨many_safe, ManyFiles.holds, ?_⟩
  obtain ⟨c, m, hw, ha⟩ := Threads.lookup_waits hc.1 ho hN
  obtain ⟨s, s1, s2, s3, s4⟩ := step_enter p (i := 0) (s := start NodeCache.empty fun i => if i = 0 then [lookupCall handle 0] else if i = 1 then (List.range' 1 capacity).map (lookupCall handle') else [])
    (rs := []) (c := lookupCall handle 0) (cs := []) rfl (by intro j d _ hd; cases hd)
  have hbody := hw.bind fun x => (pure (.entry x) : Proc Answer)
  obtain ⟨a, a1, a2, a3, a4⟩ := steps_reach (c' := c) (m := .use ⟨2100, 2, N 2100⟩ (m >>= fun x => (pure (.entry x) : Proc Answer))) s3 (by rw [s2]; exact hbody)
  obtain ⟨b, b1, b2, b3, b4⟩ := lookups_age (handle := handle') (by omega) ho hr hN (t := ⟨2100, 2, N 2100⟩) rfl hh capacity 1 0 [] a (by omega) (by omega) a3
    (by rw [a4 1 (by omega), s4 1 (by omega)]; rfl) (fun j j0 _ => by rw [a4 j j0, s4 j j0]; rfl) (by rw [a2]; exact ha)
  have gone : ∀ x ∈ b.cache.slots, x.stamp ≠ 2 := by
    rcases b4.left with h | ⟨A, B, _, _, h⟩
    · exact h
    · omega
  obtain ⟨d, d1, _, d3, d4⟩ := step_act p b2
  have hact : ((Proc.use ⟨2100, 2, N 2100⟩ (m >>= fun x => (pure (.entry x) : Proc Answer))).act p b.cache).1 = .ret ub := by
    simp only [Proc.act]
    rw [if_neg]
    intro h
    obtain ⟨x, hx, he⟩ := List.any_eq_true.1 h
    exact gone x hx (by simpa using he)
  obtain ⟨e, e1, _, e3, e4⟩ := step_leave p d3 hact
  refine ⟨e, ((((((Steps.refl _).step s1).trans a1).trans b1).step d1).step e1), by rw [e3]; rfl, ?_⟩
  rw [e4 1 (by omega), d4 1 (by omega), b3]
  rfl

theorem reorders_leastRecentlyUsed (capacity : Nat) : Reorders (leastRecentlyUsed capacity) := fun _ _ => .inr rfl

theorem reorders_firstIn (capacity : Nat) : Reorders (firstIn capacity) := fun _ _ => .inl rfl

/-- the calls of two threads on one handle -/
def twoThreads (i : Nat) : List Request := if i = 0 then [.entry 7 3, .directory 2] else if i = 1 then [.entry 9 3] else []

/-- an order of their steps: the first call of thread 0, the call of thread 1, the second of thread 0 -/
example : ∃ s, Steps (leastRecentlyUsed nodeEntries) (start NodeCache.empty fun i => (twoThreads i).map (Request.call (volumeOf storage) 1 5 true)) s ∧ Finished s := by
  have run : ∀ (s : System Answer) (i : Nat) (rs : List (Res Answer)) (c : Call Answer) (cs : List (Call Answer)), s.threads i = ⟨rs, none, c :: cs⟩ → (∀ j, (s.threads j).current = none) →
      ∃ u r, Steps (leastRecentlyUsed nodeEntries) s u ∧ u.threads i = ⟨rs ++ [r], none, cs⟩ ∧ ∀ j, j ≠ i → u.threads j = s.threads j := by
    intro s i rs c cs h hq
    obtain ⟨a, a1, a2, a3, a4⟩ := step_enter (leastRecentlyUsed nodeEntries) h (by intro j d _ hd; rw [hq j] at hd; cases hd)
    obtain ⟨b, b1, _, b3, b4⟩ := steps_reach a3 (Threads.reaches_run _ c.body _)
    obtain ⟨d, d1, _, d3, d4⟩ := step_leave _ b3 rfl
    exact ⟨d, _, (((Steps.refl s).step a1).trans b1).step d1, d3, fun j hj => by rw [d4 j hj, b4 j hj, a4 j hj]⟩
  obtain ⟨a, r0, a1, a2, a3⟩ := run (start NodeCache.empty fun i => (twoThreads i).map (Request.call (volumeOf storage) 1 5 true)) 0 _ _ _ rfl (fun _ => rfl)
  have qa : ∀ j, (a.threads j).current = none := fun j => by
    by_cases h : j = 0
    · rw [h, a2]
    · rw [a3 j h]; rfl
  obtain ⟨b, r1, b1, b2, b3⟩ := run a 1 _ _ _ (by rw [a3 1 (by omega)]; rfl) qa
  have qb : ∀ j, (b.threads j).current = none := fun j => by
    by_cases h : j = 1
    · rw [h, b2]
    · rw [b3 j h]; exact qa j
  obtain ⟨d, r2, d1, d2, d3⟩ := run b 0 _ _ _ (by rw [b3 0 (by omega), a2]; rfl) qb
  refine ⟨d, (a1.trans b1).trans d1, fun j => ?_⟩
  by_cases h0 : j = 0
  · rw [h0, d2]; exact ⟨rfl, rfl⟩
  · rw [d3 j h0]
    by_cases h1 : j = 1
    · rw [h1, b2]; exact ⟨rfl, rfl⟩
    · rw [b3 j h1, a3 j h0]
      exact ⟨rfl, by show (twoThreads j).map _ = []; unfold twoThreads; rw [if_neg h0, if_neg h1]; rfl⟩

example : Threads.Guarded 5 fun i => (twoThreads i).map (Request.call (volumeOf storage) 1 5 true) := by
  intro i c hc
  obtain ⟨r, _, rfl⟩ := List.mem_map.1 hc
  exact .inr ⟨rfl, rfl⟩

/-- any number of threads that each look up all files -/
example {s : System Answer} (hs : Steps (leastRecentlyUsed nodeEntries) (start NodeCache.empty fun i => (if i < 100 then (List.range 10000).map (fun n => Request.entry (n + 2) 3) else []).map
    (Request.call (volumeOf storage) 1 0 true)) s) (hf : Finished s) (i : Nat) (h : i < 100) : AsAlone (volumeOf storage) 1 ((List.range 10000).map fun n => .entry (n + 2) 3) (s.threads i).results := by
  have := c57_lookups_partial (p := leastRecentlyUsed nodeEntries) (fun _ _ hn hs => filter_ne_of_nodup hn hs) many_safe 1 0 (requests := fun i => if i < 100 then (List.range 10000).map (fun n => Request.entry (n + 2) 3) else [])
    (fun i r hr => by
      split at hr
      · obtain ⟨n, _, rfl⟩ := List.mem_map.1 hr
        rfl
      · cases hr) hs hf i
  rwa [if_pos h] at this

/-- any requests of any threads, with a cache that has an entry for every block -/
example {requests : Nat → List Request} {s : System Answer} (hs : Steps (firstIn 12100) (start NodeCache.empty fun i => (requests i).map (Request.call (volumeOf WideExample.storage) 1 0 true)) s) (hf : Finished s) (i : Nat) :
    AsAlone (volumeOf WideExample.storage) 1 (requests i) (s.threads i).results :=
  c57_requests_partial (fun _ _ _ _ => List.Perm.refl _) (capacity := 12100) (fun _ _ h => if_pos h) ⟨fun b => safe_fetch WideExample.image b, fun b => safe_fetch WideExample.image b⟩ wide_blocks (by simp) 1 0 hs hf i

/-- a cache with one value for each block, that replaces the oldest value if it is full -/
def keyed (capacity : Nat) : Policy := { touch := fun l _ => l, evict := fun l b => match l.findIdx? fun t : Slot => t.block = b with | some i => some i | none => if l.length < capacity then none else some 0 }

example (r r' : Request) : ∃ s, Steps (keyed nodeEntries) (start NodeCache.empty fun i => if i = 0 then [r].map (Request.call (volumeOf storage) 1 0 true)
    else if i = 1 then [r'].map (Request.call (volumeOf storage) 1 1 true) else []) s ∧ (s.threads 0).results = [ub] := by
  obtain ⟨n, hn, _⟩ := ManyFiles.root_node
  exact c57_freed (p := keyed nodeEntries) (fun l b i h => by show (match l.findIdx? _ with | some i => some i | none => _) = some i; rw [h]) (fun _ => rfl) hn 1 (by omega) true true r r' (requests := []) (requests' := [])

example (r r' : Request) : ∃ s, Steps (leastRecentlyUsed nodeEntries) (start NodeCache.empty fun i => if i = 0 then [r].map (Request.call (volumeOf storage) 1 0 true)
    else if i = 1 then [r'].map (Request.call (volumeOf storage) 1 1 true) else []) s ∧ Race s := by
  obtain ⟨n, hn, _⟩ := ManyFiles.root_node
  exact c57_race _ hn 1 (by omega) true true r r' (requests := []) (requests' := [])

/-- volumes of a container opened with the object map of the wide directory -/
example (oids : List Nat) (k oid : Nat) (x : Res (Option Descriptor)) (h : oids[k]? = some oid)
    (hx : (serial (leastRecentlyUsed nodeEntries) (oids.map (volumeByIndex (fetchOf WideExample.image) WideExample.storage.omRoot 1 0)) NodeCache.empty).1[k]? = some x) :
    x ≠ ub ∧ ∀ r, omDescriptor (fetchOf WideExample.image) WideExample.storage.omRoot oid 1 = ok r → x = ok r :=
  c57_volumes_partial (fun _ _ hn hs => filter_ne_of_nodup hn hs) (fun b => safe_fetch WideExample.image b) _ _ _ oids k oid x h hx

example (oid oid' : Nat) : ∃ s, Steps (keyed nodeEntries) (start NodeCache.empty fun i => if i = 0 then [oid].map (volumeByIndex (fetchOf WideExample.image) WideExample.storage.omRoot 1 0)
    else if i = 1 then [oid'].map (volumeByIndex (fetchOf WideExample.image) WideExample.storage.omRoot 1 0) else []) s ∧ (s.threads 0).results = [ub] := by
  obtain ⟨d, hd, _⟩ := WideExample.map_tree.1
  obtain ⟨n, hn, _⟩ := omRoot_ok hd
  exact c57_volumes_freed (p := keyed nodeEntries) (fun l b i h => by show (match l.findIdx? _ with | some i => some i | none => _) = some i; rw [h]) (fun _ => rfl) hn 1 0 oid oid' [] []

/-- with the 8192 entries of the cache of nodes -/
example : ∃ s, Steps (leastRecentlyUsed nodeEntries) (start NodeCache.empty fun i => if i = 0 then [lookupCall 0 0] else if i = 1 then (List.range' 1 nodeEntries).map (lookupCall 1) else []) s ∧
    (s.threads 0).results = [ub] ∧ (s.threads 1).results = (List.range' 1 nodeEntries).map (fun k => ok (.entry (some (inode k)))) :=
  (c57_evicted (fun _ _ => rfl) (reorders_leastRecentlyUsed _) (by unfold nodeEntries; omega) (by omega)).2.2

example : ∃ s, Steps (firstIn nodeEntries) (start NodeCache.empty fun i => if i = 0 then [lookupCall 0 0] else if i = 1 then (List.range' 1 nodeEntries).map (lookupCall 1) else []) s ∧
    (s.threads 0).results = [ub] ∧ (s.threads 1).results = (List.range' 1 nodeEntries).map (fun k => ok (.entry (some (inode k)))) :=
  (c57_evicted (fun _ _ => rfl) (reorders_firstIn _) (by unfold nodeEntries; omega) (by omega)).2.2

end Verif.Props
