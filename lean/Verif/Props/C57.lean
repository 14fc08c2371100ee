import Verif.Lemmas.Threads
import Verif.Lemmas.Locks
import Verif.Props.C52
/-!
# C57 Calls from several threads

Handles can be used from several threads. The property: at no time do two threads use memory that one of them changes, and every call has the result it has when the calls are made one after the other. The model is
Verif/Model/Threads.lean, for any number of threads, calls and interleavings. It holds for calls that take the lock of the same handle for writing; handles of the same volume share the tree but not the lock, and
`libfsapfs_container_get_volume_by_index` takes the lock for reading although it changes the cache of the object map.
-/
namespace Verif.Props
open Verif Res Spec.Threads BTree FsTree NodeCache
open Verif.Threads (Proc Call Thread System Step Steps start Guarded Quiet Inv)

/-- Threads whose calls take the lock of one handle for writing, or do not use the tree: no data race, and at the end the results are those of the calls made one after the other in an order in which calls that
returned before some time come before those that returned later. Missing from the full property: calls on different handles, see `c57_race`. -/
theorem c57_one_handle_partial {α : Type} (p : Policy) (handle : Nat) (c : Cache) {work : Nat → List (Call α)} (hg : Guarded handle work) {s u : System α} (hs : Steps p (start c work) s) (hu : Steps p s u) :
    ¬ Race s ∧ (Finished u → ∃ before later, Explains p c work u (before ++ later) ∧ ∀ i, (part i before).length = (s.threads i).results.length) := by
  obtain ⟨D, orig, hi⟩ := (Inv.start p handle c work).steps hg hs
  constructor
  · rintro ⟨i, j, a, b, hij, ha, hb, ⟨_, _, _, hw⟩, hub⟩
    obtain ⟨o, ho, _, _, hqo⟩ := hi.busy i a ha
    obtain ⟨q, hq, _, _, hqq⟩ := hi.busy j b hb
    refine hij (hi.one i j o q ho hq ?_ ?_)
    · intro h
      have := hqo h
      obtain ⟨r, hr⟩ := h
      rw [hw, hr] at this
      cases this
    · intro h
      have := hqq h
      obtain ⟨r, hr⟩ := h
      exact hub r (by rw [this, hr])
  · intro hf
    obtain ⟨E, orig', hj⟩ := hi.steps hg hu
    refine ⟨[] ++ D, E, ⟨fun i => ?_, hj.results, hj.rest fun i o ho => ?_⟩, fun i => ?_⟩
    · have := hj.parts i
      rw [hj.idle i (hf i).1, (hf i).2] at this
      simpa using this
    · rw [hj.idle i (hf i).1] at ho
      cases ho
    · rw [hi.results i, Threads.length_part i _ _ (by rw [Threads.length_serial, List.length_map])]

/-! ## requests to the tree of a volume -/

/-- what the functions of volume and file entries do with the tree -/
def Request.steps (v : FsTree.Volume) (xid : Nat) : Request → Proc Answer
  | .entry identifier type => do return .entry (← Threads.entry v xid identifier type)
  | .directory identifier => do return .directory (← Threads.enumerate (directoryKind Records.readDirectoryRecord) v xid identifier)
  | .attributes identifier => do return .attributes (← Threads.enumerate (attributeKind Records.readAttribute) v xid identifier)
  | .extents identifier => do return .extents (← Threads.enumerate (extentKind Records.readExtent) v xid identifier)

theorem run_steps (p : Policy) (v : FsTree.Volume) (xid : Nat) (r : Request) : (r.steps v xid).run p = r.cached p v xid := by
  cases r <;> unfold Request.steps Request.cached <;> dsimp only
  · rw [Threads.run_bind, Threads.run_entry]; rfl
  all_goals rw [Threads.run_bind, Threads.run_enumerate]; rfl

/-- a call of a function of the handle that makes a request -/
def Request.call (v : FsTree.Volume) (xid handle : Nat) (write : Bool) (r : Request) : Call Answer := { handle := handle, write := write, body := r.steps v xid }

/-- the results of a thread are as without cache and without other threads -/
def AsAlone (v : FsTree.Volume) (xid : Nat) (requests : List Request) (results : List (Res Answer)) : Prop :=
  results.length = requests.length ∧ ∀ (k : Nat) (r : Request) (x : Res Answer), requests[k]? = some r → results[k]? = some x → x ≠ ub ∧ ∀ a, r.direct v xid = ok a → x = ok a

theorem as_alone {p : Policy} {v : FsTree.Volume} {xid : Nat} {requests : Nat → List Request} (step : ∀ (i : Nat) (r : Request) (c : Cache), r ∈ requests i → Fits v c → Faithful p v xid r c ∧ Fits v (r.cached p v xid c).2)
    (handle : Nat) {s : System Answer} (hs : Steps p (start NodeCache.empty fun i => (requests i).map (Request.call v xid handle true)) s) (hf : Finished s) (i : Nat) :
    AsAlone v xid (requests i) (s.threads i).results := by
  have hg : Guarded handle fun i => (requests i).map (Request.call v xid handle true) := by
    intro i c hc
    obtain ⟨r, _, rfl⟩ := List.mem_map.1 hc
    exact Or.inr ⟨rfl, rfl⟩
  obtain ⟨D, E, ⟨h1, h2, _⟩, _⟩ := (c57_one_handle_partial p handle NodeCache.empty hg hs (Steps.refl s)).2 hf
  have hl := Threads.length_part i (D ++ E) (serial p ((D ++ E).map (·.2)) NodeCache.empty).1 (by rw [Threads.length_serial, List.length_map])
  constructor
  · rw [h2, hl, h1, List.length_map]
  · intro k r x hr hx
    have hb : (part i (D ++ E))[k]? = some (r.call v xid handle true) := by
      rw [h1, List.getElem?_map, hr]
      rfl
    rw [h2] at hx
    obtain ⟨c, hc, hx⟩ := Threads.result_of (p := p) (I := Fits v) (D ++ E) NodeCache.empty (fun a ha c hc => by
      obtain ⟨j, b⟩ := a
      have : b ∈ part j (D ++ E) := List.mem_map.2 ⟨(j, b), List.mem_filter.2 ⟨ha, by simp⟩, rfl⟩
      rw [h1] at this
      obtain ⟨q, hq, rfl⟩ := List.mem_map.1 this
      show Fits v ((q.steps v xid).run p c).2
      rw [run_steps]
      exact (step j q c hq hc).2) (fits_empty v) i k _ x hb hx
    have hx : x = ((r.steps v xid).run p c).1 := hx
    rw [run_steps] at hx
    rw [hx]
    exact (step i r c (List.mem_of_getElem? hr) hc).1

/-- Threads that use one handle for lookups by identifier get the results they would get alone, for any number of threads, lookups and nodes and any order of their steps. -/
theorem c57_lookups_partial {p : Policy} (hp : KeepsValues p) {v : FsTree.Volume} (hv : SafeVolume v) (xid handle : Nat) {requests : Nat → List Request} (hr : ∀ i, ∀ r ∈ requests i, r.concerns = none)
    {s : System Answer} (hs : Steps p (start NodeCache.empty fun i => (requests i).map (Request.call v xid handle true)) s) (hf : Finished s) (i : Nat) :
    AsAlone v xid (requests i) (s.threads i).results :=
  as_alone (fun i r _ h hc => entry_step hp hv (hr i r h) hc) handle hs hf i

/-- Threads that use one handle for any requests get the results they would get alone, if the cache has an entry for every block that can be read. -/
theorem c57_requests_partial {p : Policy} {capacity : Nat} (hp : KeepsValues p) (hf : ReplacesWhenFull p capacity) {v : FsTree.Volume} (hv : SafeVolume v) {blocks : List Nat}
    (hb : ∀ b d, v.fsFetch b = ok d → b ∈ blocks) (hl : blocks.length ≤ capacity) (xid handle : Nat) {requests : Nat → List Request} {s : System Answer}
    (hs : Steps p (start NodeCache.empty fun i => (requests i).map (Request.call v xid handle true)) s) (hfin : Finished s) (i : Nat) : AsAlone v xid (requests i) (s.threads i).results := by
  have hg := few_holds hp hf hb hl
  refine as_alone (fun _ r c _ hc => ?_) handle hs hfin i
  cases hr : r.concerns with
  | none => exact entry_step hp hv hr hc
  | some x =>
    obtain ⟨h1, h2⟩ := listing_step (x := x) hv hg hr (fun _ _ _ _ _ _ _ _ _ => trivial) trivial (c := c) ⟨hc, by intro s hs; cases hs⟩
    exact ⟨h1, h2.1⟩

end Verif.Props
