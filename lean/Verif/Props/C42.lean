import Verif.Lemmas.Walk
import Verif.Lemmas.TreeExample
import Verif.Model.FileSystem
/-!
# C42 Lookups and listings terminate on cyclic or corrupted trees

All functions of the model are total. Here `sub` is any function from the value of an entry of a branch node to a node, so that the graph of nodes can be cyclic.
-/
namespace Verif.Props
open Verif Res Spec BTree FsTree

/-- A lookup in the object map ends at a leaf that is at most 257 nodes away, and what it finds is in that leaf. -/
theorem c42_object_map (fetch : Nat → Res Bytes) (oid xid : Nat) (n : Node) (r : Option (Option Entry)) (h : omLoop fetch oid xid 257 n = ok r) :
    ∃ k leaf, k ≤ 257 ∧ Walk (omSub fetch) k n leaf ∧ leaf.leaf = true ∧ ∀ e, r = some (some e) → e ∈ leaf.entries := omLoop_walk h

/-- A lookup in the file system tree ends at a leaf that is at most 257 nodes away, and what it finds is in that leaf. -/
theorem c42_lookup (sub : Bytes → Res Node) (identifier type : Nat) (n : Node) (r : Option Entry) (h : fsEntryLoop sub identifier type 257 n = ok r) :
    ∃ k leaf, k ≤ 257 ∧ Walk sub k n leaf ∧ leaf.leaf = true ∧ ∀ e ∈ r, e ∈ leaf.entries := fsEntryLoop_walk h

/-- A listing reaches a leaf, and everything that it returns was read from an entry of a leaf that is at most 258 nodes away. -/
theorem c42_listing {α : Type} (kind : Kind α) (sub : Bytes → Res Node) (identifier : Nat) (n : Node) (l : List α) (h : enumNode kind sub identifier 257 n = ok l) :
    (∃ k leaf, k ≤ 258 ∧ Walk sub k n leaf ∧ leaf.leaf = true) ∧
    ∀ x ∈ l, ∃ k leaf, k ≤ 258 ∧ Walk sub k n leaf ∧ leaf.leaf = true ∧ ∃ e ∈ leaf.entries, kind.decode e = ok x := enumNode_walk h

/-- Nodes that are farther away are not looked at: they can be anything. -/
theorem c42_far_nodes_ignored {α : Type} (kind : Kind α) (sub sub' : Bytes → Res Node) (identifier type : Nat) (n : Node) (h : SameNear sub sub' 257 n) :
    fsEntryLoop sub identifier type 257 n = fsEntryLoop sub' identifier type 257 n ∧ enumNode kind sub identifier 257 n = enumNode kind sub' identifier 257 n :=
  ⟨fsEntryLoop_same h, enumNode_same h⟩

/-- If no leaf is reached within 258 nodes, for instance on a cycle of branch nodes, lookups and listings report an error. -/
theorem c42_cycle_error {α : Type} (kind : Kind α) (hk : SafeKind kind) (sub : Bytes → Res Node) (hs : ∀ v, Safe (sub v)) (identifier type : Nat) (n : Node)
    (h : ∀ k leaf, k ≤ 258 → Walk sub k n leaf → leaf.leaf = false) :
    fsEntryLoop sub identifier type 257 n = err ∧ enumNode kind sub identifier 257 n = err := by
  constructor
  · cases hr : fsEntryLoop sub identifier type 257 n with
    | err => rfl
    | ub => exact absurd hr (safe_fsEntryLoop hs identifier type 257 n)
    | ok r =>
      obtain ⟨k, leaf, hk, hw, hl, _⟩ := fsEntryLoop_walk hr
      rw [h k leaf (by omega) hw] at hl
      cases hl
  · cases hr : enumNode kind sub identifier 257 n with
    | err => rfl
    | ub => exact absurd hr (safe_enumNode hk hs identifier 257 n)
    | ok r =>
      obtain ⟨⟨k, leaf, hk, hw, hl⟩, _⟩ := enumNode_walk hr
      rw [h k leaf (by omega) hw] at hl
      cases hl

/-- The same for the object map. -/
theorem c42_object_map_cycle_error (fetch : Nat → Res Bytes) (hf : ∀ b, Safe (fetch b)) (oid xid : Nat) (n : Node)
    (h : ∀ k leaf, k ≤ 257 → Walk (omSub fetch) k n leaf → leaf.leaf = false) : omLoop fetch oid xid 257 n = err := by
  cases hr : omLoop fetch oid xid 257 n with
  | err => rfl
  | ub => exact absurd hr (safe_omLoop hf oid xid 257 n)
  | ok r =>
    obtain ⟨k, leaf, hk, hw, hl, _⟩ := omLoop_walk hr
    rw [h k leaf hk hw] at hl
    cases hl

/-- On any storage whatsoever, looking up an inode and listing directory records, extended attributes and extents stay within the blocks that were read. -/
theorem c42_safe (v : Volume) (hv : SafeVolume v) (xid identifier : Nat) : Safe (inodeByIdentifier v xid identifier) ∧ Safe (directoryRecords v xid identifier) ∧
    Safe (extendedAttributes v xid identifier) ∧ Safe (fileExtents v xid identifier) := by
  refine ⟨?_, ?_, ?_, ?_⟩
  · unfold inodeByIdentifier
    refine safe_bind (safe_fsEntry hv _ _ _) fun r _ => ?_
    split
    · exact safe_ok _
    · unfold Records.readInode
      refine safe_bind (safe_bind ?_ fun _ _ => Records.safe_readInodeValue _ _) fun _ _ => safe_ok _
      unfold Records.readInodeKey
      refine safe_bind safe_require fun _ h1 => ?_
      have := (require_eq_ok _).1 h1
      exact safe_bind (safe_rdLE (by omega)) fun _ _ => safe_ok _
  · refine safe_enumerate ⟨fun e => ?_, fun _ => safe_ok _⟩ hv _ _
    exact safe_bind (Records.safe_readDirectoryKey _) fun _ _ => safe_bind (Records.safe_readDirectoryValue _) fun _ _ => safe_ok _
  · refine safe_enumerate ⟨fun e => ?_, fun _ => safe_ok _⟩ hv _ _
    exact safe_bind (Records.safe_readAttributeKey _) fun _ _ => safe_bind (Records.safe_readAttributeValue _) fun _ _ => safe_ok _
  · refine safe_enumerate ⟨fun e => Records.safe_readExtent e, fun d => ?_⟩ hv _ _
    refine safe_bind safe_require fun _ h1 => ?_
    have := (require_eq_ok _).1 h1
    exact safe_bind (safe_rdLE (by omega)) fun _ _ => safe_ok _

/-! The depth is bounded, but not the number of visits: layers of nodes, each with two entries that name the same child -/

def oneRecord : Record := (drecKey 2 [97, 0], drecValue 3 0 8 none)

def layer : Nat → Node
  | 0 => { objectType := 3, objectSubtype := 14, flags := 2, footer := none, entries := [oneRecord] }
  | k + 1 => { objectType := 3, objectSubtype := 14, flags := 0, footer := none, entries := [(oneRecord.1, toLE 8 k), (oneRecord.1, toLE 8 k)] }

def layerSub (value : Bytes) : Res Node := ok (layer (leNat value))

theorem layer_tree {k depth : Nat} (hk : k < 2 ^ 64) (hd : k < depth) :
    IsTree (fun v t => t = view (layer (leNat v))) depth (view (layer k)) (List.replicate (2 ^ k) oneRecord) := by
  induction k generalizing depth with
  | zero =>
    cases depth with
    | zero => omega
    | succ depth => exact .inl ⟨rfl, rfl⟩
  | succ k ih =>
    cases depth with
    | zero => omega
    | succ depth =>
      refine .inr ⟨by simp [view, layer, Node.leaf], [⟨oneRecord.1, toLE 8 k, view (layer k), List.replicate (2 ^ k) oneRecord⟩, ⟨oneRecord.1, toLE 8 k, view (layer k), List.replicate (2 ^ k) oneRecord⟩],
        by simp, rfl, ?_, ?_⟩
      · simp [List.replicate_append_replicate, Nat.pow_succ, Nat.mul_two]
      · intro c hc
        have hc : c = ⟨oneRecord.1, toLE 8 k, view (layer k), List.replicate (2 ^ k) oneRecord⟩ := by simpa using hc
        subst hc
        refine ⟨?_, ih (by omega) (by omega), ?_⟩
        · show view (layer k) = view (layer (leNat (toLE 8 k)))
          rw [leNat_toLE _ _ (by omega)]
        · have : 0 < 2 ^ k := Nat.two_pow_pos k
          obtain ⟨m, hm⟩ : ∃ m, 2 ^ k = m + 1 := ⟨2 ^ k - 1, by omega⟩
          rw [hm]
          rfl

/-- With n + 1 nodes of one or two entries, n up to 256, a directory listing returns 2^n records. -/
theorem c42_exponential_listing (n : Nat) (h : n ≤ 256) :
    enumNode (directoryKind Records.readDirectoryRecord) layerSub 2 257 (layer n) = ok (List.replicate (2 ^ n) { name := [97, 0], hash := 0, identifier := 3, added := 0 }) := by
  have hall : ∀ r ∈ List.replicate (2 ^ n) oneRecord, r = oneRecord := fun r hr => (List.mem_replicate.1 hr).2
  rw [enumNode_spec (k := directoryKind Records.readDirectoryRecord) (i := 2) (by decide) (by omega) (rel := fun v t => t = view (layer (leNat v)))
    (by intro v t ht; exact ⟨_, rfl, ht.symm⟩) (layer_tree (k := n) (by omega) (by omega)) ?_ ?_ ⟨fun _ _ _ => ⟨true, rfl⟩, List.pairwise_of_forall fun _ _ _ _ => rfl⟩ ?_]
  · have : recordsOf (List.replicate (2 ^ n) oneRecord) 2 9 = List.replicate (2 ^ n) oneRecord := by
      unfold recordsOf
      rw [List.filter_eq_self]
      intro r hr
      rw [hall r hr]
      decide +kernel
    show readAll _ (recordsOf _ 2 9) = _
    rw [this, readAll_ok (f := fun _ => { name := [97, 0], hash := 0, identifier := 3, added := 0 }), List.map_replicate]
    intro e he
    rw [hall e he]
    decide +kernel
  · intro r hr
    rw [hall r hr]
    decide +kernel
  · rw [List.pairwise_replicate]
    right
    exact .inr ⟨rfl, Nat.le_refl _⟩
  · intro _ r hr
    rw [hall r (List.mem_of_mem_head? hr)]
    decide +kernel

/-! Examples -/

/-- a branch node that names itself -/
def selfNode : Node := { objectType := 3, objectSubtype := 14, flags := 0, footer := none, entries := [(toLE 8 (3 * 2 ^ 60 + 2), [1])] }

theorem self_walk {k : Nat} {n l : Node} (h : Walk (fun _ => ok selfNode) k n l) (hn : n = selfNode) : l = selfNode := by
  induction h with
  | last => exact hn
  | step _ _ hs _ ih => exact ih (ok.inj hs).symm

example : ∀ k leaf, k ≤ 258 → Walk (fun _ => ok selfNode) k selfNode leaf → leaf.leaf = false := by
  intro k leaf _ hw
  rw [self_walk hw rfl]
  rfl

example : fsEntryLoop (fun _ => ok selfNode) 2 3 257 selfNode = err ∧ enumNode (directoryKind (fun e => ok e)) (fun _ => ok selfNode) 2 257 selfNode = err := by decide +kernel

example : SafeVolume (volumeOf TreeExample.storage) := ⟨fun b => by show Safe (fetchOf _ b); unfold fetchOf; split <;> simp [Safe], fun b => by show Safe (fetchOf _ b); unfold fetchOf; split <;> simp [Safe]⟩

example : enumNode (directoryKind Records.readDirectoryRecord) layerSub 2 257 (layer 3) = ok (List.replicate 8 { name := [97, 0], hash := 0, identifier := 3, added := 0 }) := by decide +kernel

end Verif.Props
