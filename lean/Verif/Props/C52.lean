import Verif.Lemmas.WideListing
import Verif.Lemmas.VolumeOpen
import Verif.Lemmas.VolumeExample
import Verif.Model.FileSystem
import Verif.Props.C42
import Verif.Props.C32
/-!
# C52 Reading through the node cache

Lookups and listings share a cache of nodes that replaces some of its values when it is full. The property: a history of lookups and listings on one file system never uses a node that was
replaced, and each call has the result it has without the cache. What libfcache replaces is an argument, with three assumptions used below: `KeepsValues`, a hit changes at most the order of the values;
`ReplacesWhenFull`, a value is replaced only when all entries are in use; `OldestFirst`, without hits the value set first is replaced.
-/
namespace Verif.Props
open Verif Res Spec BTree FsTree NodeCache

/-- calls on the tree of a file system -/
inductive Request
  | entry (identifier type : Nat)
  | directory (identifier : Nat)
  | attributes (identifier : Nat)
  | extents (identifier : Nat)

inductive Answer
  | entry (e : Option BTree.Entry)
  | directory (l : List Records.DirectoryRecord)
  | attributes (l : List Records.Attribute)
  | extents (l : List DataStream.Extent)

/-- without the cache -/
def Request.direct (v : FsTree.Volume) (xid : Nat) : Request → Res Answer
  | .entry identifier type => do return .entry (← fsEntry v xid identifier type)
  | .directory identifier => do return .directory (← directoryRecords v xid identifier)
  | .attributes identifier => do return .attributes (← extendedAttributes v xid identifier)
  | .extents identifier => do return .extents (← fileExtents v xid identifier)

/-- with the cache -/
def Request.cached (p : Policy) (v : FsTree.Volume) (xid : Nat) : Request → CM Answer
  | .entry identifier type => do return .entry (← NodeCache.entry p v xid identifier type)
  | .directory identifier => do return .directory (← NodeCache.enumerate (directoryKind Records.readDirectoryRecord) p v xid identifier)
  | .attributes identifier => do return .attributes (← NodeCache.enumerate (attributeKind Records.readAttribute) p v xid identifier)
  | .extents identifier => do return .extents (← NodeCache.enumerate (extentKind Records.readExtent) p v xid identifier)

/-- the cache after a history of calls -/
def after (p : Policy) (v : FsTree.Volume) (xid : Nat) (history : List Request) : Cache := history.foldl (fun c r => (r.cached p v xid c).2) NodeCache.empty

/-- the records that a listing is about -/
def Request.concerns : Request → Option (Nat × Nat)
  | .entry _ _ => none
  | .directory identifier => some (identifier, 9)
  | .attributes identifier => some (identifier, 4)
  | .extents identifier => some (identifier, 8)

/-- no undefined behaviour, and the result is as without the cache if that is a success -/
def Faithful (p : Policy) (v : FsTree.Volume) (xid : Nat) (r : Request) (c : Cache) : Prop :=
  (r.cached p v xid c).1 ≠ ub ∧ ∀ a, r.direct v xid = ok a → (r.cached p v xid c).1 = ok a

theorem safeKind_directory : SafeKind (directoryKind Records.readDirectoryRecord) :=
  ⟨fun _ => safe_bind (Records.safe_readDirectoryKey _) fun _ _ => safe_bind (Records.safe_readDirectoryValue _) fun _ _ => safe_ok _, fun _ => safe_ok _⟩

theorem safeKind_attribute : SafeKind (attributeKind Records.readAttribute) :=
  ⟨fun _ => safe_bind (Records.safe_readAttributeKey _) fun _ _ => safe_bind (Records.safe_readAttributeValue _) fun _ _ => safe_ok _, fun _ => safe_ok _⟩

theorem safeKind_extent : SafeKind (extentKind Records.readExtent) := by
  refine ⟨fun e => Records.safe_readExtent e, fun d => ?_⟩
  refine safe_bind safe_require fun _ h1 => ?_
  have := (require_eq_ok _).1 h1
  exact safe_bind (safe_rdLE (by omega)) fun _ _ => safe_ok _

theorem faithful_map {α : Type} {m : CM α} {r : Res α} {f : α → Answer} {c : Cache} (h1 : (m c).1 ≠ ub) (h2 : ∀ a, r = ok a → (m c).1 = ok a) :
    (((do return f (← m)) : CM Answer) c).1 ≠ ub ∧ (∀ a, ((do return f (← r)) : Res Answer) = ok a → (((do return f (← m)) : CM Answer) c).1 = ok a) ∧
      (((do return f (← m)) : CM Answer) c).2 = (m c).2 := by
  cases hm : m c with
  | mk x c' =>
    rw [hm] at h1 h2
    cases x with
    | ub => exact absurd rfl h1
    | err =>
      rw [bind_err hm]
      refine ⟨by simp, fun a ha => ?_, rfl⟩
      obtain ⟨b, hb, _⟩ := bind_eq_ok.1 ha
      exact absurd (h2 b hb) (by simp)
    | ok x =>
      rw [bind_ok hm]
      refine ⟨by simp [pure_def], fun a ha => ?_, rfl⟩
      obtain ⟨b, hb, ha⟩ := bind_eq_ok.1 ha
      cases Res.ok.inj (h2 b hb)
      cases Res.ok.inj ha
      rfl

theorem listing_step {G : Cache → List Slot → Prop} {p : Policy} {v : FsTree.Volume} (hv : SafeVolume v) {xid : Nat} {S : Nat → Prop} (hg : Holds p v S G) {r : Request} {x : Nat × Nat}
    (hr : r.concerns = some x) (hS : Closed v xid x.1 x.2 S) (hroot : S v.fsRoot) {c : Cache} (hc : G c []) : Faithful p v xid r c ∧ G (r.cached p v xid c).2 [] := by
  cases r with
  | entry => cases hr
  | directory i =>
    cases hr
    obtain ⟨h1, h2, h3⟩ := enumerate_runs safeKind_directory hv hg hS hroot c hc
    obtain ⟨g1, g2, g3⟩ := faithful_map (f := Answer.directory) h1 h2
    exact ⟨⟨g1, g2⟩, by unfold Request.cached; rw [g3]; exact h3⟩
  | attributes i =>
    cases hr
    obtain ⟨h1, h2, h3⟩ := enumerate_runs safeKind_attribute hv hg hS hroot c hc
    obtain ⟨g1, g2, g3⟩ := faithful_map (f := Answer.attributes) h1 h2
    exact ⟨⟨g1, g2⟩, by unfold Request.cached; rw [g3]; exact h3⟩
  | extents i =>
    cases hr
    obtain ⟨h1, h2, h3⟩ := enumerate_runs safeKind_extent hv hg hS hroot c hc
    obtain ⟨g1, g2, g3⟩ := faithful_map (f := Answer.extents) h1 h2
    exact ⟨⟨g1, g2⟩, by unfold Request.cached; rw [g3]; exact h3⟩

theorem entry_step {p : Policy} (hp : KeepsValues p) {v : FsTree.Volume} (hv : SafeVolume v) {xid : Nat} {r : Request} (hr : r.concerns = none) {c : Cache} (hc : Fits v c) :
    Faithful p v xid r c ∧ Fits v (r.cached p v xid c).2 := by
  cases r with
  | entry i t =>
    obtain ⟨h1, h2, h3⟩ := entry_runs hp hv xid i t c hc
    obtain ⟨g1, g2, g3⟩ := faithful_map (f := Answer.entry) h1 h2
    exact ⟨⟨g1, g2⟩, by unfold Request.cached; rw [g3]; exact h3⟩
  | directory => cases hr
  | attributes => cases hr
  | extents => cases hr

theorem fits_empty (v : FsTree.Volume) : Fits v NodeCache.empty := ⟨(by intro s hs; cases hs), List.Pairwise.nil⟩

theorem after_induction {p : Policy} {v : FsTree.Volume} {xid : Nat} {ok : Request → Prop} (hstep : ∀ c r, ok r → Fits v c → Fits v (r.cached p v xid c).2) (history : List Request)
    (h : ∀ r ∈ history, ok r) : Fits v (after p v xid history) := by
  have : ∀ (history : List Request) c, (∀ r ∈ history, ok r) → Fits v c → Fits v (history.foldl (fun c r => (r.cached p v xid c).2) c) := by
    intro history
    induction history with
    | nil => intro c _ hc; exact hc
    | cons r history ih => intro c h hc; exact ih _ (fun x hx => h x (by simp [hx])) (hstep c r (h r (by simp)) hc)
  exact this history _ h (fits_empty v)

/-- If the cache has an entry for every block that can be read then, whatever is replaced, every call of every history has the result it has without the cache. Missing from the full
property: volumes with more blocks; see `c52_freed`. -/
theorem c52_history_partial {p : Policy} {capacity : Nat} (hp : KeepsValues p) (hf : ReplacesWhenFull p capacity) {v : FsTree.Volume} (hv : SafeVolume v) {blocks : List Nat}
    (hb : ∀ b d, v.fsFetch b = ok d → b ∈ blocks) (hl : blocks.length ≤ capacity) (xid : Nat) (history : List Request) (r : Request) :
    Faithful p v xid r (after p v xid history) := by
  have hg := few_holds hp hf hb hl
  have step : ∀ (r : Request) (c : Cache), Fits v c → Faithful p v xid r c ∧ Fits v (r.cached p v xid c).2 := by
    intro r c hc
    cases hr : r.concerns with
    | none => exact entry_step hp hv hr hc
    | some x =>
      obtain ⟨h1, h2⟩ := listing_step (x := x) hv hg hr (fun _ _ _ _ _ _ _ _ _ => trivial) trivial (c := c) ⟨hc, by intro s hs; cases hs⟩
      exact ⟨h1, h2.1⟩
  exact (step r _ (after_induction (ok := fun _ => True) (fun c r _ hc => (step r c hc).2) history (fun _ _ => trivial))).1

/-- This is the case for every container of at most 32 MiB, encrypted or not. -/
theorem c52_small_container {p : Policy} (hp : KeepsValues p) (hf : ReplacesWhenFull p nodeEntries) {c : VolumeOpen.Cipher} (hc : c.Sized) (image : Container.Image) (k : Container.Opened) (o : VolumeOpen.Opened)
    (s : Volume.State) (hk : k.size ≤ 32 * 1024 * 1024) {v : FsTree.Volume} (hv : VolumeOpen.trees c image k o s = ok (some v)) (xid : Nat) (history : List Request) (r : Request) :
    Faithful p v xid r (after p v xid history) := by
  unfold VolumeOpen.trees at hv
  obtain ⟨d, _, hv⟩ := bind_eq_ok.1 hv
  cases d with
  | none => cases Res.ok.inj hv
  | some d =>
    cases Res.ok.inj hv
    refine c52_history_partial hp hf ⟨fun b => VolumeOpen.safe_fetch _ _ b, fun b => VolumeOpen.safe_fsFetch hc _ _ _ b⟩ (blocks := List.range nodeEntries) (fun b d hd => ?_) (by simp) xid history r
    have hd : VolumeOpen.fsFetch c (VolumeOpen.context s) image k.size b = ok d := hd
    unfold VolumeOpen.fsFetch at hd
    obtain ⟨_, hd, _⟩ := bind_eq_ok.1 hd
    unfold VolumeOpen.fetch at hd
    split at hd
    · rw [List.mem_range]
      unfold nodeEntries
      omega
    · cases hd

/-- If the value used least recently is replaced, it is sufficient that each listing by itself needs at most as many nodes as the cache has entries: those with a chain of entries that can hold records of the
listing. -/
theorem c52_narrow_listings_partial {capacity : Nat} {v : FsTree.Volume} (hv : SafeVolume v) (xid : Nat) (history : List Request) (r : Request)
    (h : ∀ q ∈ r :: history, ∀ x ∈ q.concerns, ∃ blocks : List Nat, blocks.length ≤ capacity ∧ v.fsRoot ∈ blocks ∧ Closed v xid x.1 x.2 (fun b => b ∈ blocks)) :
    Faithful (leastRecentlyUsed capacity) v xid r (after (leastRecentlyUsed capacity) v xid history) := by
  have hp : KeepsValues (leastRecentlyUsed capacity) := fun l s hn hs => filter_ne_of_nodup hn hs
  have step : ∀ q ∈ r :: history, ∀ c : Cache, Fits v c → Faithful (leastRecentlyUsed capacity) v xid q c ∧ Fits v (q.cached (leastRecentlyUsed capacity) v xid c).2 := by
    intro q hq c hc
    cases hr : q.concerns with
    | none => exact entry_step hp hv hr hc
    | some x =>
      obtain ⟨blocks, hl, hroot, hcl⟩ := h q hq x hr
      obtain ⟨h1, h2⟩ := listing_step (x := x) hv (recent_holds (v := v) hl) hr hcl hroot (c := c) ⟨hc, c.slots, [], by simp, by simp, by simp⟩
      exact ⟨h1, h2.1⟩
  exact (step r (by simp) _ (after_induction (ok := fun q => q ∈ r :: history) (fun c q hq hc => (step q hq c hc).2) history (fun q hq => by simp [hq]))).1

/-- Lookups by identifier use only the node read last: a history of lookups is as without the cache for any number of nodes and entries. -/
theorem c52_lookups {p : Policy} (hp : KeepsValues p) {v : FsTree.Volume} (hv : SafeVolume v) (xid : Nat) (history : List (Nat × Nat)) (identifier type : Nat) :
    Faithful p v xid (.entry identifier type) (after p v xid (history.map fun q => .entry q.1 q.2)) := by
  refine (entry_step hp hv rfl ?_).1
  refine after_induction (ok := fun q => q.concerns = none) (fun c q hq hc => (entry_step hp hv hq hc).2) _ ?_
  intro q hq
  obtain ⟨x, _, rfl⟩ := List.mem_map.1 hq
  rfl

/-! Listings that need more nodes -/

/-- A listing of a tree with branch nodes, where the children before the last one that is visited have at least as many different nodes as the cache has entries, uses its root node after it was
replaced. -/
theorem c52_replaced_root {α : Type} (kind : Kind α) {p : Policy} {capacity : Nat} (h0 : 0 < capacity) (hp : OldestFirst p capacity) (v : FsTree.Volume) (xid identifier : Nat) (root : Node)
    (hn : fsRootNode v = ok (some root)) (hl : root.leaf = false) (front : List Bytes) (last : Bytes) (hf : visits kind identifier root.entries none = ok (front ++ [last])) (parts : List (List Nat))
    (hparts : front.map (loadsBelow kind v xid identifier 256) = parts.map ok) (hnd : parts.flatten.Nodup) (hroot : v.fsRoot ∉ parts.flatten) (hlen : capacity ≤ parts.flatten.length) :
    (NodeCache.enumerate kind p v xid identifier NodeCache.empty).1 = ub :=
  enumerate_freed h0 hp hn hl hf hparts hnd hroot hlen

theorem pair_of_fst {α β : Type} {x : α × β} {a : α} (h : x.1 = a) : x = (a, x.2) := by rw [← h]

/-- The full property is false: a valid directory with 10000 entries can be listed without the cache, and with its 8192 entries the first listing uses a node that was freed. -/
theorem c52_freed {p : Policy} (hp : OldestFirst p nodeEntries) : FsHolds WideExample.storage 1 WideExample.records ∧
    (∃ files, directoryRecords (volumeOf WideExample.storage) 1 2 = ok files ∧ files.length = 10000) ∧
    ((Request.directory 2).cached p (volumeOf WideExample.storage) 1 (after p (volumeOf WideExample.storage) 1 [])).1 = ub := by
  have hl : directoryRecords (volumeOf WideExample.storage) 1 2 = ok WideExample.files := WideExample.listing
  refine ⟨WideExample.holds, ⟨WideExample.files, hl, WideExample.length_files⟩, ?_⟩
  have := WideExample.freed (p := p) (capacity := nodeEntries) (by unfold nodeEntries; omega) (by unfold nodeEntries; omega) hp
  unfold Request.cached after
  unfold WideExample.kind at this
  dsimp only
  rw [List.foldl_nil, bind_ub (pair_of_fst this)]

/-- In particular if the value used least recently, or the one set first, is replaced. -/
theorem c52_not_faithful : ¬ Faithful (leastRecentlyUsed nodeEntries) (volumeOf WideExample.storage) 1 (.directory 2) NodeCache.empty ∧
    ¬ Faithful (firstIn nodeEntries) (volumeOf WideExample.storage) 1 (.directory 2) NodeCache.empty :=
  ⟨fun h => h.1 (c52_freed (p := leastRecentlyUsed nodeEntries) fun _ _ => rfl).2.2, fun h => h.1 (c52_freed (p := firstIn nodeEntries) fun _ _ => rfl).2.2⟩

/-! Examples -/

example : KeepsValues (leastRecentlyUsed nodeEntries) ∧ ReplacesWhenFull (leastRecentlyUsed nodeEntries) nodeEntries ∧ OldestFirst (leastRecentlyUsed nodeEntries) nodeEntries :=
  ⟨fun _ _ hn hs => filter_ne_of_nodup hn hs, fun _ _ h => if_pos h, fun _ _ => rfl⟩

example : KeepsValues (firstIn nodeEntries) ∧ ReplacesWhenFull (firstIn nodeEntries) nodeEntries ∧ OldestFirst (firstIn nodeEntries) nodeEntries :=
  ⟨fun _ _ _ _ => List.Perm.refl _, fun _ _ h => if_pos h, fun _ _ => rfl⟩

/-- the first volume of the example container -/
example : ∃ v t, VolumeOpen.trees ⟨fun _ _ d => d, none⟩ VolumeExample.image VolumeExample.opened v v.state = ok (some t) ∧
    ∀ xid history r, Faithful (leastRecentlyUsed nodeEntries) t xid r (after (leastRecentlyUsed nodeEntries) t xid history) := by
  obtain ⟨v, _, h⟩ := VolumeExample.lists exPrims []
  obtain ⟨_, t, ht, _⟩ := h v.state rfl
  exact ⟨v, t, ht, c52_small_container (fun _ _ hn hs => filter_ne_of_nodup hn hs) (fun _ _ h => if_pos h) VolumeExample.sized _ _ v _ (by show 200 * 4096 ≤ 32 * 1024 * 1024; omega) ht⟩

/-- the wide directory with a cache that is large enough -/
theorem wide_blocks : ∀ b d, (volumeOf WideExample.storage).fsFetch b = ok d → b ∈ List.range 12100 := by
  intro b d h
  have h : fetchOf WideExample.image b = ok d := h
  rw [List.mem_range]
  unfold fetchOf at h
  by_cases hb : b < 12100
  · exact hb
  · have : WideExample.image b = none := by
      unfold WideExample.image
      rw [if_neg (by omega), if_neg (by omega), if_neg (by omega), if_neg (by omega), if_neg (by omega), if_neg (by omega), if_neg (by omega)]
    rw [this] at h
    cases h

theorem safe_fetch (image : Nat → Option Bytes) (b : Nat) : Safe (fetchOf image b) := by
  unfold fetchOf
  split <;> simp [Safe]

example (history : List Request) (r : Request) : Faithful (firstIn 12100) (volumeOf WideExample.storage) 1 r (after (firstIn 12100) (volumeOf WideExample.storage) 1 history) :=
  c52_history_partial (fun _ _ _ _ => List.Perm.refl _) (capacity := 12100) (fun _ _ h => if_pos h) ⟨fun b => safe_fetch WideExample.image b, fun b => safe_fetch WideExample.image b⟩ wide_blocks (by simp) 1 history r

theorem wide_first {n : Nat} (h : ¬ fsOver 2 8 (WideExample.firstKey n)) : n = 0 := by
  unfold fsOver at h
  rw [WideExample.fsId_firstKey, WideExample.fsType_firstKey] at h
  by_cases h0 : n = 0
  · exact h0
  · rw [if_neg h0] at h
    omega

/-- the extents of the wide directory, there are none, are looked for in three nodes -/
theorem wide_closed : Closed (volumeOf WideExample.storage) 1 2 8 (fun b => b ∈ [1000, 2000, 2100]) := by
  intro b n value b' hb hn hl hm hv
  obtain ⟨a, e, t, h1, h2, h3, _⟩ := hm
  have he : e ∈ n.entries := by rw [h1]; simp
  rcases List.mem_cons.1 hb with rfl | hb
  · obtain ⟨m, m1, m2, m3⟩ := WideExample.root_node
    cases came_eq hn (.inl m1)
    rw [m3] at he
    obtain ⟨j, hj, rfl⟩ := List.mem_map.1 he
    have := wide_first h3
    have hj : j = 0 := by omega
    subst hj
    subst h2
    rw [WideExample.blockOf_wide (t := 0) (by omega)] at hv
    rw [← Res.ok.inj hv]
    simp
  · rcases List.mem_cons.1 hb with rfl | hb
    · obtain ⟨c, m, m1, m2, m3⟩ := WideExample.fsSub_wide (WideExample.fsChild_branch (j := 0) (by omega))
      rw [WideExample.blockOf_wide (t := 0) (by omega)] at m1
      cases Res.ok.inj m1
      have hm : loadSub (volumeOf WideExample.storage) 2000 = ok (some m) := by
        unfold loadSub
        rw [m2]
        rfl
      cases came_eq hn (.inr hm)
      rw [NodeImage.nodeOf_bytes (WideExample.branch_fits 0)] at m3
      rw [show n.entries = WideExample.branchEntries 0 from congrArg TNode.entries m3] at he
      obtain ⟨k, hk, rfl⟩ := List.mem_map.1 he
      have := wide_first h3
      have hk : k = 0 := by omega
      subst hk
      subst h2
      rw [WideExample.blockOf_wide (t := 100) (by omega)] at hv
      rw [← Res.ok.inj hv]
      simp
    · cases List.mem_singleton.1 hb
      obtain ⟨c, m, m1, m2, m3⟩ := WideExample.fsSub_wide (WideExample.fsChild_leaf (n := 0) (by omega))
      rw [WideExample.blockOf_wide (t := 100) (by omega)] at m1
      cases Res.ok.inj m1
      have hm : loadSub (volumeOf WideExample.storage) 2100 = ok (some m) := by
        unfold loadSub
        rw [m2]
        rfl
      cases came_eq hn (.inr hm)
      rw [NodeImage.nodeOf_bytes (WideExample.leaf_fits 0)] at m3
      rw [show n.leaf = true from congrArg TNode.leaf m3] at hl
      cases hl

example (lookups : List (Nat × Nat)) : Faithful (leastRecentlyUsed 3) (volumeOf WideExample.storage) 1 (.extents 2)
    (after (leastRecentlyUsed 3) (volumeOf WideExample.storage) 1 (lookups.map fun q => .entry q.1 q.2)) := by
  refine c52_narrow_listings_partial ⟨fun b => safe_fetch WideExample.image b, fun b => safe_fetch WideExample.image b⟩ 1 _ _ fun q hq x hx => ?_
  rcases List.mem_cons.1 hq with rfl | hq
  · cases hx
    exact ⟨_, by simp, by simp [volumeOf, WideExample.storage], wide_closed⟩
  · obtain ⟨y, _, rfl⟩ := List.mem_map.1 hq
    cases hx

end Verif.Props
